import Verif.Chain.Model
/-
Model of the connection machinery: `mimmo::pin` (src/core/MimmoNamespace.cpp), the pin and
parent/child bookkeeping of `BaseManipulation` (src/core/BaseManipulation.cpp) and the link lists of
`PortOut`/`PortIn` (src/core/InOut.cpp).

Blocks are natural numbers (non-null `BaseManipulation*`; a null pointer passed to `addPin` is
dereferenced by the code and is outside the model).  Port ids (strings) are natural numbers.
-/
namespace Verif.Pin

/-- A block (`BaseManipulation*`, never null). -/
abbrev Obj := Verif.Chain.Obj
/-- A port identifier (`PortID`, a string). -/
abbrev PortId := Nat

/-- `ConnectionType`, src/core/InOut.hpp (BOTH, BACKWARD, FORWARD). -/
inductive Dir where
  | both | backward | forward
deriving DecidableEq, Repr

/-- What `buildPorts` of each block sets up, fixed before any connection: whether the ports can be
built at all (src/core/MimmoNamespace.cpp:70-83), the connection type of the block, the ids of its
output and input ports (keys of `m_portOut`, `m_portIn`) and the (container, data) type of each port
(`DataType`, src/core/InOut.cpp:60-65). -/
structure Ports where
  canBuild : Obj → Bool
  dir : Obj → Dir
  outs : Obj → List PortId
  ins : Obj → List PortId
  outType : Obj → PortId → Nat × Nat
  inType : Obj → PortId → Nat × Nat

/-- `std::unordered_map<BaseManipulation*, int>` (`m_parent`, `m_child`), as an association list. -/
abbrev Counter := List (Obj × Nat)

namespace Counter

/-- keys of the map -/
def keys (c : Counter) : List Obj := c.map Prod.fst

/-- `addParent`/`addChild`, src/core/BaseManipulation.cpp:734-755. -/
def incr (c : Counter) (k : Obj) : Counter :=
  if k ∈ keys c then c.map (fun e => if e.1 = k then (e.1, e.2 + 1) else e) else c ++ [(k, 1)]

/-- `unsetParent`/`unsetChild`, src/core/BaseManipulation.cpp:763-786: decrement if present, erase when
the counter drops below 1. -/
def decr (c : Counter) (k : Obj) : Counter :=
  (c.map (fun e => if e.1 = k then (e.1, e.2 - 1) else e)).filter (fun e => !(decide (e.1 = k) && decide (e.2 < 1)))

/-- `n` successive decrements -/
def decrN (c : Counter) (k : Obj) : Nat → Counter
  | 0 => c
  | n + 1 => decrN (decr c k) k n

/-- the stored counter (0 when the key is absent) -/
def get (c : Counter) (k : Obj) : Nat := ((c.find? (fun e => e.1 == k)).map Prod.snd).getD 0

end Counter

/-- The connection state of all blocks: per output port the lists `m_objLink`, `m_portLink` zipped
together (they are always updated in parallel, src/core/InOut.cpp:154-160 and
src/core/BaseManipulation.cpp:832-840), per input port the list `m_objLink`, and per block the
maps `m_child`, `m_parent`. -/
structure Net where
  out : Obj → PortId → List (Obj × PortId)
  inn : Obj → PortId → List Obj
  child : Obj → Counter
  parent : Obj → Counter

/-- no connections: what the constructors leave, src/core/BaseManipulation.cpp:36-69 -/
def Net.init : Net := ⟨fun _ _ => [], fun _ _ => [], fun _ => [], fun _ => []⟩

/-- update of a two-argument table at one place -/
def upd2 {α : Type} (f : Obj → PortId → α) (a : Obj) (p : PortId) (v : α) : Obj → PortId → α :=
  fun b q => if b = a ∧ q = p then v else f b q

/-- update of a table at one place -/
def upd {α : Type} (f : Obj → α) (a : Obj) (v : α) : Obj → α := fun b => if b = a then v else f b

/-- `checkCompatibility`, src/core/MimmoNamespace.cpp:164-173 with `DataType::operator==`,
src/core/InOut.cpp:60-65. -/
def compatible (P : Ports) (s r : Obj) (o i : PortId) : Bool :=
  decide ((P.outType s o).1 = (P.inType r i).1) && decide ((P.outType s o).2 = (P.inType r i).2)

/-- `addPinOut`, src/core/BaseManipulation.cpp:832-840. -/
def addPinOut (P : Ports) (n : Net) (s r : Obj) (o i : PortId) : Net :=
  if o ∈ P.outs s then
    if i ∈ P.ins r then { n with out := upd2 n.out s o (n.out s o ++ [(r, i)]) } else n
  else n

/-- `addPinIn`, src/core/BaseManipulation.cpp:820-825. -/
def addPinIn (P : Ports) (n : Net) (s r : Obj) (i : PortId) : Net :=
  if i ∈ P.ins r then { n with inn := upd2 n.inn r i (n.inn r i ++ [s]) } else n

/-- `pin::addPin`, src/core/MimmoNamespace.cpp:67-100.  `none` = the exception of lines 70-83. -/
def addPin (P : Ports) (n : Net) (s r : Obj) (o i : PortId) (forced : Bool) : Option (Net × Bool) :=
  if P.canBuild s && P.canBuild r then
    if P.dir s ≠ .backward ∧ P.dir r ≠ .forward then
      if o ∈ P.outs s ∧ i ∈ P.ins r then
        if forced || compatible P s r o i then
          let n1 := addPinOut P n s r o i
          let n2 := addPinIn P n1 s r i
          let n3 := { n2 with child := upd n2.child s ((n2.child s).incr r) }
          let n4 := { n3 with parent := upd n3.parent r ((n3.parent r).incr s) }
          some (n4, true)
        else some (n, false)
      else some (n, false)
    else some (n, false)
  else none

/-- The removal loops of src/core/BaseManipulation.cpp:846-872 and of `removeAllPins`,
src/core/MimmoNamespace.cpp:110-134: the positions to remove are taken from a copy of the list made
before the loop (`hits`), while `clear(j)` (src/core/InOut.cpp:154-160, 268-273) erases position `j`
of the *current* list, doing nothing when `j` is past its end. -/
def eraseStale {α : Type} : Nat → List Bool → List α → List α
  | _, [], cur => cur
  | j, true :: hs, cur => eraseStale (j + 1) hs (cur.eraseIdx j)
  | j, false :: hs, cur => eraseStale (j + 1) hs cur

/-- one such loop over the link list `l`, with removal condition `p` -/
def dropHits {α : Type} (p : α → Bool) (l : List α) : List α := eraseStale 0 (l.map p) l

/-- `removePinOut(objOut, portS)`, src/core/BaseManipulation.cpp:862-872. -/
def removePinOut (P : Ports) (n : Net) (s r : Obj) (o : PortId) : Net :=
  if o ∈ P.outs s then { n with out := upd2 n.out s o (dropHits (fun e => e.1 == r) (n.out s o)) } else n

/-- `removePinIn(objIn, portR)`, src/core/BaseManipulation.cpp:846-856. -/
def removePinIn (P : Ports) (n : Net) (s r : Obj) (i : PortId) : Net :=
  if i ∈ P.ins r then { n with inn := upd2 n.inn r i (dropHits (fun e => e == s) (n.inn r i)) } else n

/-- `pin::removePin`, src/core/MimmoNamespace.cpp:146-154. -/
def removePin (P : Ports) (n : Net) (s r : Obj) (o i : PortId) : Net :=
  let n1 := removePinOut P n s r o
  let n2 := removePinIn P n1 s r i
  let n3 := { n2 with child := upd n2.child s ((n2.child s).decr r) }
  { n3 with parent := upd n3.parent r ((n3.parent r).decr s) }

/-- Body of the loop of `removeAllPins` for one output port, src/core/MimmoNamespace.cpp:111-121: one
`removePinOut(port, j)` and one `unsetChild` per position found. -/
def cutOut (s r : Obj) (n : Net) (o : PortId) : Net :=
  { n with out := upd2 n.out s o (dropHits (fun e => e.1 == r) (n.out s o))
           child := upd n.child s ((n.child s).decrN r ((n.out s o).countP (fun e => e.1 == r))) }

/-- Body of the loop of `removeAllPins` for one input port, src/core/MimmoNamespace.cpp:124-134. -/
def cutIn (s r : Obj) (n : Net) (i : PortId) : Net :=
  { n with inn := upd2 n.inn r i (dropHits (fun e => e == s) (n.inn r i))
           parent := upd n.parent r ((n.parent r).decrN s ((n.inn r i).countP (fun e => e == s))) }

/-- `pin::removeAllPins`, src/core/MimmoNamespace.cpp:107-136 (the order in which the ports are
visited, unspecified in the code, is that of the port lists). -/
def removeAllPins (P : Ports) (n : Net) (s r : Obj) : Net :=
  (P.ins r).foldl (cutIn s r) ((P.outs s).foldl (cutOut s r) n)

/-- `removePinsIn`, src/core/BaseManipulation.cpp:514-521, with fuel for the `while` loop (`none` =
more than that many turns).  `first` stands for `begin()` of the hash map: which entry it yields is
unspecified. -/
def removePinsIn (P : Ports) (first : Counter → Obj) : Nat → Net → Obj → Option Net
  | 0, _, _ => none
  | k + 1, n, b =>
    if (n.parent b).length = 0 then some n
    else removePinsIn P first k (removeAllPins P n (first (n.parent b)) b) b

/-- `removePinsOut`, src/core/BaseManipulation.cpp:527-534. -/
def removePinsOut (P : Ports) (first : Counter → Obj) : Nat → Net → Obj → Option Net
  | 0, _, _ => none
  | k + 1, n, b =>
    if (n.child b).length = 0 then some n
    else removePinsOut P first k (removeAllPins P n b (first (n.child b))) b

/-- The connection part of `clear()` (also run by the destructor), src/core/BaseManipulation.cpp:75-77,
504-508 and 539-545. -/
def clear (P : Ports) (first : Counter → Obj) (k : Nat) (n : Net) (b : Obj) : Option Net :=
  (removePinsIn P first k n b).bind (fun n1 => removePinsOut P first k n1 b)

/-- What a chain sees of the network, src/core/BaseManipulation.cpp:253-304. -/
def Net.graph (n : Net) : Verif.Chain.Graph where
  parents b := (n.parent b).keys
  children b := (n.child b).keys

/-- a connection request -/
structure Req where
  s : Obj
  o : PortId
  r : Obj
  i : PortId
  forced : Bool
deriving DecidableEq, Repr

/-- a sequence of `addPin` calls; a throwing call changes nothing (src/core/MimmoNamespace.cpp:70-83
run before any modification) -/
def addPins (P : Ports) : Net → List Req → Net
  | n, [] => n
  | n, q :: qs =>
    match addPin P n q.s q.r q.o q.i q.forced with
    | none => addPins P n qs
    | some (n', _) => addPins P n' qs

end Verif.Pin
