import Verif.Mesh.Query
/-
Model of the blocks that extract a field (src/geohandlers/ExtractFields.cpp, ExtractScalarField.cpp; the vector, long and
string variants have the same text), serial build.

* Geometries are handles into a world: the content of each, the ids of its interfaces once they are built, the interfaces
  of a list of cells and the proximity search between two geometries (bitpit and src/core/SkdTreeUtils.cpp, parameters).
* Tolerances are rational numbers.
-/
namespace Verif.Recon
open Verif.Field Verif.Mesh

variable {P α : Type}

/-- the geometries in memory and the external services asked by the block -/
structure World (P : Type) where
  obj : Nat → Obj P
  /-- ids of the interfaces after `updateInterfaces` -/
  intf : Nat → List Nat
  /-- `getInterfaceFromCellList` -/
  intfOf : Nat → List Nat → List Nat
  /-- `selectByPatch(first, second, tolerance)`: cells of the second geometry close to the first -/
  near : Nat → Nat → Rat → List Nat

/-- ids of the entities of a geometry -/
def geoOf (w : World P) (g : Nat) : Geo := ⟨(w.obj g).verts.map Prod.fst, cellIds (w.obj g), w.intf g⟩

/-- a field whose geometry is a handle, with the ids of its geometry in place of it -/
def resolve (w : World P) (f : Field Nat α) : Field Geo α := ⟨f.geo.map (geoOf w), f.name, f.loc, f.data⟩

/-- `ExtractMode`, src/geohandlers/ExtractFields.hpp:36-40 -/
inductive Mode where
  | id | pid | mapping
deriving DecidableEq, Repr

/-- data members, src/geohandlers/ExtractFields.hpp and BaseManipulation.hpp -/
structure Ext (α : Type) where
  mode : Mode := .id
  tol : Rat := 1 / 100000000
  geo : Option Nat := none
  field : Field Nat α := make none .undefined
  result : Field Nat α := make none .undefined

/-- code of a mode -/
def Mode.code : Mode → Int
  | .id => 1 | .pid => 2 | .mapping => 3

/-- `setMode(int)`, src/geohandlers/ExtractFields.cpp:97-101 -/
def Ext.setMode (s : Ext α) (m : Int) : Ext α :=
  if m < 1 ∨ m > 3 then s
  else { s with mode := if m = 1 then .id else if m = 2 then .pid else .mapping }

/-- `setTolerance`, src/geohandlers/ExtractFields.cpp:107-110 -/
def Ext.setTolerance (s : Ext α) (t : Rat) : Ext α := { s with tol := max (1 / 1000000000000) t }

/-- `setGeometry`, src/core/BaseManipulation.cpp -/
def Ext.setGeometry (s : Ext α) (g : Option Nat) : Ext α := { s with geo := g }

/-- `setField`, src/geohandlers/ExtractScalarField.cpp:131-135 -/
def Ext.setField (s : Ext α) (f : Option (Field Nat α)) : Ext α :=
  match f with
  | none => s
  | some f => { s with field := f }

/-- `clear`, src/geohandlers/ExtractScalarField.cpp:140-145 and ExtractFields.cpp:133-136: mode and tolerance stay -/
def Ext.clear (s : Ext α) : Ext α := { s with geo := none, field := Field.clear s.field, result := Field.clear s.result }

/-- increasing order without repetitions of the PIDs that both geometries list,
src/geohandlers/ExtractScalarField.cpp:243-254.  The order is kept as the union has it; only the set matters. -/
def commonPids (a b : Obj P) : List Int :=
  (distinct (a.pids ++ b.pids)).filter (fun p => decide (p ∈ b.pids) && decide (p ∈ a.pids))

/-- ids read in the source, src/geohandlers/ExtractScalarField.cpp:205-233 (ID), 241-288 (PID) and 296-340 (MAPPING);
`t` target geometry, `g` geometry of the field -/
def Ext.ids (s : Ext α) (w : World P) (t g : Nat) (l : Loc) : List Nat :=
  match s.mode with
  | .id =>
    (match l with
    | .point => (w.obj t).verts.map Prod.fst
    | .cell => cellIds (w.obj t)
    | .interface => w.intf t
    | .undefined => [])
  | .pid =>
    let cs := extractPIDs (w.obj g) (commonPids (w.obj t) (w.obj g))
    (match l with
    | .point => vertexFromCells (w.obj g) cs
    | .cell => cs
    | .interface => w.intfOf g cs
    | .undefined => [])
  | .mapping =>
    let cs := w.near g t s.tol
    (match l with
    | .point => vertexFromCells (w.obj t) cs
    | .cell => cs
    | .interface => w.intfOf t cs
    | .undefined => [])

/-- `extract`, src/geohandlers/ExtractScalarField.cpp:162-199: the block and whether something was extracted -/
def Ext.extract (s : Ext α) (w : World P) : Option (Ext α × Bool) :=
  match s.geo, s.field.geo with
  | some t, some g =>
    if !idsCoherent (resolve w s.field) then some (s, false)
    else
      let l := if s.field.loc = .undefined then Loc.point else s.field.loc
      (copyIds s.field.data (s.ids w t g l) []).map fun d =>
        ({ s with result :=
            { Field.clear s.result with
              loc := l
              data := d
              geo := some (if s.mode = .pid then g else t) } }, true)
  | _, _ => some (s, false)

/-- `execute`, src/geohandlers/ExtractFields.cpp:141-150: a failed extraction is only logged -/
def Ext.execute (s : Ext α) (w : World P) : Option (Ext α) := (s.extract w).map Prod.fst

/-- the numbers in an XML section: `ExtractMode` and `Tolerance` -/
structure ExtXml where
  mode : Option Int := none
  tol : Option Rat := none
deriving DecidableEq

/-- `absorbSectionXML`, src/geohandlers/ExtractFields.cpp:157-187: the mode is read and dropped -/
def Ext.absorb (s : Ext α) (x : ExtXml) : Ext α :=
  match x.tol with
  | none => s
  | some t => s.setTolerance t

/-- `flushSectionXML`, src/geohandlers/ExtractFields.cpp:194-206; `std::to_string` writes six decimals: `six` -/
def Ext.flush (six : Rat → Rat) (s : Ext α) : ExtXml :=
  ⟨some s.mode.code, if s.mode = .mapping then some (six s.tol) else none⟩

end Verif.Recon
