import Verif.Select.Model
import Verif.Recon.Extract
/-
The block `mimmo::SelectionByBoxWithScalar` (src/geohandlers/SelectionByBoxWithScalar.cpp): a selection by a box that carries a scalar field to
the selected part.  Geometries are handles into the world of Verif.Recon.Extract; `n` is the handle of the new object, `intf` are the ids of
its interfaces, `ex` is what the box selects (`extractShape`).
-/
namespace Verif.Select
open Verif.Field Verif.Mesh Verif.Recon

variable {P α : Type}

/-- linked geometry, topology, patch and field, src/geohandlers/MeshSelection.hpp:680 and GenericSelection -/
structure Carrier (α : Type) where
  geo : Option Nat := none
  topo : Nat := 1
  patch : Option Nat := none
  field : Field Nat α := make none .undefined

/-- `setGeometry`, src/geohandlers/GenericSelection.cpp:129-136 -/
def Carrier.setGeometry (s : Carrier α) (w : World P) (g : Option Nat) : Carrier α :=
  match g with
  | none => s
  | some i => { s with geo := some i, topo := (w.obj i).type }

/-- `setField`, src/geohandlers/SelectionByBoxWithScalar.cpp:128-131 -/
def Carrier.setField (s : Carrier α) (f : Option (Field Nat α)) : Carrier α :=
  match f with
  | none => s
  | some f => { s with field := f }

/-- `clear`, src/geohandlers/SelectionByBoxWithScalar.cpp:118-121, SelectionByBox.cpp:117-120 -/
def Carrier.clear (s : Carrier α) : Carrier α := { s with geo := none, patch := none, field := Field.clear s.field }

/-- the world with one more object -/
def addObj (w : World P) (n : Nat) (r : Obj P) (intf : List Nat) : World P :=
  { w with obj := fun i => if i = n then r else w.obj i, intf := fun i => if i = n then intf else w.intf i }

/-- `execute`, src/geohandlers/SelectionByBoxWithScalar.cpp:150-171 and GenericSelection.cpp:222-275; false: exception -/
def Carrier.execute (clean : Obj P → Data P × Data Cell) (s : Carrier α) (w : World P) (n : Nat) (intf : List Nat) (ex : List Nat) :
    Carrier α × World P × Bool :=
  match s.geo with
  | none => (s, w, false)
  | some g =>
    match Select.execute clean (w.obj g) s.topo ex with
    | none => ({ s with patch := none }, w, false)
    | some r =>
      let w := addObj w n r intf
      let s := { s with patch := some n }
      if s.field.geo ≠ s.geo then (s, w, false)
      else if r.type = 3 ∧ s.field.loc ≠ .point then (s, w, true)
      else
        match ((((({} : Ext α).setGeometry s.patch).setMode 1).setField (some s.field)).execute w) with
        | none => (s, w, false)
        | some e => ({ s with field := e.result }, w, true)

end Verif.Select
