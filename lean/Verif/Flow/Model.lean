import Verif.Pin.Spec
import Verif.Chain.Model
/-
Model of `BaseManipulation::exec` (src/core/BaseManipulation.cpp:551-605) and of the transfer of values
along pins (`PortOut::exec`, src/core/InOut.cpp:167-181; `writeBuffer`/`readBuffer`,
src/core/InOut.tpp:127-138, 251-263).
-/
namespace Verif.Flow
open Verif.Pin

/-! ### Mandatory ports -/

/-- What the check of mandatory ports looks at for one input port: id, `isMandatory()`, `getFamily()`,
`getLink().size()` (src/core/InOut.cpp:233-262). -/
structure InPort where
  id : PortId
  mandatory : Bool
  family : Int
  links : Nat
deriving DecidableEq, Repr

/-- `families[f].push_back(port)` on a `std::map` (sorted by key), src/core/BaseManipulation.cpp:554-561;
`familiesID` has the same keys and parallel vectors, so one table is enough. -/
def pushFam (f : Int) (p : InPort) : List (Int × List InPort) → List (Int × List InPort)
  | [] => [(f, [p])]
  | (g, ps) :: rest =>
    if f < g then (f, [p]) :: (g, ps) :: rest
    else if f = g then (g, ps ++ [p]) :: rest
    else (g, ps) :: pushFam f p rest

/-- the table of mandatory ports by family, src/core/BaseManipulation.cpp:554-561 -/
def families (ports : List InPort) : List (Int × List InPort) :=
  ports.foldl (fun t p => if p.mandatory then pushFam p.family p t else t) []

/-- the exception raised -/
inductive MandErr where
  /-- "mandatory port … not linked", line 571 -/
  | port (id : PortId)
  /-- "none of mandatory ports … linked", line 587 -/
  | family (ids : List PortId)
deriving DecidableEq, Repr

/-- check of one family, src/core/BaseManipulation.cpp:564-588 -/
def checkFam (e : Int × List InPort) : Option MandErr :=
  if e.1 = 0 then
    (e.2.find? (fun p => p.links == 0)).map (fun p => .port p.id)
  else if e.2.foldl (fun c p => c || p.links != 0) false then none
  else some (.family (e.2.map InPort.id))

/-- the whole check, src/core/BaseManipulation.cpp:553-592: the first family (ascending) that fails
throws -/
def checkMandatory (expert : Bool) (ports : List InPort) : Option MandErr :=
  if expert then none else (families ports).findSome? checkFam

/-! ### Values along pins -/

/-- The behaviour of all blocks: `S` is the internal state of a block (including the variables behind
its input ports), `V` the values exchanged.  `execute` is the block's own `execute()`, `get` the
getter behind an output port, `set` the setter behind an input port, `active` is `m_active`, `outs` the
output ports in the iteration order of `m_portOut`.  Getters are taken not to modify the block, and
serialisation to be faithful (that is C16). -/
structure Blocks (S V : Type) where
  active : Obj → Bool
  outs : Obj → List PortId
  execute : Obj → S → S
  get : Obj → PortId → S → V
  set : Obj → PortId → V → S → S

/-- `PortOut::exec`, src/core/InOut.cpp:167-181: the value is written once, then every linked receiver
reads it in turn. -/
def sendPort {S V : Type} (F : Blocks S V) (b : Obj) (n : Net) (st : Obj → S) (o : PortId) : Obj → S :=
  let v := F.get b o (st b)
  (n.out b o).foldl (fun st e => upd st e.1 (F.set e.1 e.2 v (st e.1))) st

/-- `BaseManipulation::exec` after the check of mandatory ports, src/core/BaseManipulation.cpp:594-601:
`execute()` if active, then all output ports.  (`plotOptionalResults` and `apply` of lines 603-604 are
not modelled.) -/
def execBlock {S V : Type} (F : Blocks S V) (n : Net) (st : Obj → S) (b : Obj) : Obj → S :=
  let st1 := if F.active b then upd st b (F.execute b (st b)) else st
  (F.outs b).foldl (sendPort F b n) st1

/-- the execution of the blocks of a chain one after the other, src/core/Chain.cpp:302-314 -/
def runChain {S V : Type} (F : Blocks S V) (n : Net) (objs : List Obj) (st : Obj → S) : Obj → S :=
  objs.foldl (execBlock F n) st

end Verif.Flow
