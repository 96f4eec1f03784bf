/-
Model of `mimmo::Chain` (src/core/Chain.cpp, src/core/Chain.hpp).

Blocks are natural numbers (they stand for `BaseManipulation*`).  The pin network is seen by the
chain only through `getNParent/getParent(i)` and `getNChild/getChild(i)`
(src/core/BaseManipulation.cpp:253-304), i.e. as two lists of distinct blocks per block (the key
sequences of the `unordered_map`s `m_parent`/`m_child`, in their unspecified iteration order).
-/
namespace Verif.Chain

/-- A block (`BaseManipulation*`). -/
abbrev Obj := Nat

/-- What a chain can see of the pin network: `getParent(0..getNParent()-1)` and
`getChild(0..getNChild()-1)`, src/core/BaseManipulation.cpp:253-304. -/
structure Graph where
  /-- suppliers of a block -/
  parents : Obj → List Obj
  /-- receivers of a block -/
  children : Obj → List Obj

/-- Data members of a chain, src/core/Chain.hpp:52-62 (`m_objects`, `m_idObjects`, `m_objcounter`,
`m_plotDebRes`, `m_outputDebRes`).  `m_id`, `m_log` and the static `sm_chaincounter` are not modelled;
`m_objcounter` (a `uint32_t`) is taken unbounded. -/
structure Chain where
  objs : List Obj
  ids : List Int
  counter : Int
  plotDeb : Bool
  outDeb : String
deriving DecidableEq, Repr

/-- Constructor, src/core/Chain.cpp:34-43. -/
def empty : Chain := { objs := [], ids := [], counter := 0, plotDeb := false, outDeb := "." }

/-- `Chain::clear`, src/core/Chain.cpp:89-94. -/
def clear (ch : Chain) : Chain := { ch with objs := [], ids := [], counter := 0 }

/-- `std::vector::insert(begin()+i, x)` as used in src/core/Chain.cpp:235-236. -/
def insertAt {α : Type} (l : List α) (i : Nat) (x : α) : List α := l.take i ++ x :: l.drop i

/-- Index of the first child present in the chain, `m_objects.size()` if none:
src/core/Chain.cpp:183-192. -/
def childIdx (objs : List Obj) (children : List Obj) : Nat :=
  children.foldl (fun m c => if c ∈ objs then min m (objs.idxOf c) else m) objs.length

/-- `idxparent[i]`, src/core/Chain.cpp:184 and 193-202: position of the parent, -1 if absent. -/
def parentIdx (objs : List Obj) (p : Obj) : Int :=
  if p ∈ objs then (objs.idxOf p : Int) else -1

/-- The removal loop over the parents found after the first child, src/core/Chain.cpp:216-225.
`late` is the list of parents with `idxparent[i] > idxchild`.  Returns the shortened chain and the
removed (block, id) pairs in order.  (Erasing a parent that is not in the chain would be undefined
behaviour; it cannot happen as the parents are distinct and were all found before the loop.) -/
def removeLate : Chain → List Obj → Chain × List (Obj × Int)
  | ch, [] => (ch, [])
  | ch, p :: ps =>
    let k := ch.objs.idxOf p
    let idp := ch.ids.getD k (-1)
    let r := removeLate { ch with objs := ch.objs.eraseIdx k, ids := ch.ids.eraseIdx k } ps
    (r.1, (p, idp) :: r.2)

/-- `Chain::addObject(obj, id_)`, src/core/Chain.cpp:169-240, with a fuel argument bounding the
recursion depth; `none` = the fuel was not enough.  The result is the new chain and the returned
index (-1 = refused). -/
def addObject (g : Graph) : Nat → Chain → Obj → Int → Option (Chain × Int)
  | 0, _, _, _ => none
  | n + 1, ch, obj, id_ =>
    -- lines 171-175
    let id := if id_ < 0 then ch.counter else id_
    let ch0 := if id_ < 0 then { ch with counter := ch.counter + 1 } else ch
    -- lines 176-180
    if ch0.objs = [] then
      some ({ ch0 with objs := [obj], ids := [id] }, 0)
    else
      let ic := childIdx ch0.objs (g.children obj)
      let ps := g.parents obj
      -- lines 203-205
      if ps.any (fun p => parentIdx ch0.objs p == (ic : Int)) then some (ch0, -1)
      -- lines 207-233
      else if ps.any (fun p => decide (parentIdx ch0.objs p > (ic : Int))) then
        let late := ps.filter (fun p => decide (parentIdx ch0.objs p > (ic : Int)))
        let r := removeLate ch0 late
        match addObject g n r.1 obj id with
        | none => none
        | some (ch2, idx) =>
          match r.2.foldlM (fun c x => (addObject g n c x.1 x.2).map Prod.fst) ch2 with
          | none => none
          | some ch3 => some (ch3, idx + 1)
      -- lines 234-238
      else
        some ({ ch0 with objs := insertAt ch0.objs ic obj, ids := insertAt ch0.ids ic id }, (ic : Int))

/-- `Chain::deleteObject(idobj)`, src/core/Chain.cpp:147-158.  `getParent() != nullptr` holds iff
there is at least one parent (BaseManipulation.cpp:263-267; pins are only made with non-null
objects). -/
def deleteObject (g : Graph) (ch : Chain) (idobj : Int) : Chain × Bool :=
  if idobj ∈ ch.ids then
    let idx := ch.ids.idxOf idobj
    let o := ch.objs.getD idx 0
    ({ ch with objs := ch.objs.eraseIdx idx, ids := ch.ids.eraseIdx idx },
      decide (g.parents o ≠ [] ∨ (g.children o).length ≠ 0))
  else (ch, false)

/-- `Chain::clone()`, src/core/Chain.cpp:71-83: re-adds every object with its explicit id to a fresh
chain, ignoring the returned index. -/
def clone (g : Graph) (n : Nat) (ch : Chain) : Option Chain :=
  (ch.objs.zip ch.ids).foldlM (fun c x => (addObject g n c x.1 x.2).map Prod.fst)
    { empty with outDeb := ch.outDeb, plotDeb := ch.plotDeb }

/-- Inner loop of `Chain::checkLoops` for the block at position `k`, src/core/Chain.cpp:342-349:
`true` when an error is thrown.  `std::find` yields `size()` for a child that is not in the chain. -/
def loopAt (g : Graph) (objs : List Obj) (k : Nat) (o : Obj) : Bool :=
  (g.children o).any (fun c => decide (objs.idxOf c ≤ k))

/-- `Chain::checkLoops`, src/core/Chain.cpp:336-352, from position `k` on. -/
def checkLoopsFrom (g : Graph) (objs : List Obj) : Nat → List Obj → Bool
  | _, [] => false
  | k, o :: os => loopAt g objs k o || checkLoopsFrom g objs (k + 1) os

/-- Outcome of an execution. -/
inductive Result where
  | ok
  | loopError
  | blockError (o : Obj)
deriving DecidableEq, Repr

/-- The execution loop, src/core/Chain.cpp:302-314.  `fails o` tells whether `exec()` of block `o`
throws; the first component is the list of blocks whose `exec()` completed, in order.  (The logging
and the plot-option propagation of lines 304-311 are not modelled.) -/
def runBlocks (fails : Obj → Bool) : List Obj → List Obj × Result
  | [] => ([], .ok)
  | o :: os =>
    if fails o then ([], .blockError o)
    else
      let r := runBlocks fails os
      (o :: r.1, r.2)

/-- `Chain::exec(bool)`, src/core/Chain.cpp:283-320. -/
def exec (g : Graph) (fails : Obj → Bool) (ch : Chain) : List Obj × Result :=
  if checkLoopsFrom g ch.objs 0 ch.objs then ([], .loopError)
  else runBlocks fails ch.objs

/-- `Chain::exec(int idobj)`, src/core/Chain.cpp:326-330: the block executed, if any. -/
def execOne (ch : Chain) (idobj : Int) : Option Obj :=
  let idx := ch.ids.idxOf idobj
  if idx < ch.objs.length then ch.objs[idx]? else none

end Verif.Chain
