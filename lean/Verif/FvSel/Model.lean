import Verif.Select.Model
/-
Model of the selections of bulk and boundary meshes (src/geohandlers/FVMeshSelection.hpp, FVGenericSelection.cpp, FVSelectionByBox.cpp,
FVSelectionByCylinder.cpp, FVSelectionBySphere.cpp) and of the boundary mesh of a mesh (src/core/MimmoObject.cpp:2719-2990), serial build.

* Meshes and engines (the inner selection blocks) are behind shared pointers: handles into `World`.
* `clean` is bitpit's removal of coincident vertices as in Verif.Select; `Topo` collects what bitpit knows of cells: the faces of a cell and the
  ids of interfaces.
* `none` is an exception or undefined behaviour.
-/
namespace Verif.FvSel
open Verif.Field Verif.Mesh

variable {P σ : Type}

/-! ### The boundary mesh -/

/-- a face of a cell: element and connectivity -/
structure Face where
  elem : Elem
  conn : List Nat
deriving DecidableEq, Repr

/-- a face as a cell of the boundary mesh -/
def Face.cell (f : Face) (pid : Int) : Cell := ⟨f.elem, f.conn, pid, true⟩

/-- the vertices of a face -/
def Face.verts (f : Face) : List Nat := vertexIds (f.cell 0)

/-- bitpit: the faces of a cell in their order, and the id of the interface of a face of a cell -/
structure Topo where
  faces : Cell → List Face
  num : Nat → Nat → Nat

/-- the same vertices -/
def sameVerts (a b : List Nat) : Bool := a.all (fun v => decide (v ∈ b)) && b.all (fun v => decide (v ∈ a))

/-- bitpit's `isFaceBorder` with adjacencies built: no other cell has a face with the same vertices (conforming meshes) -/
def isBorder (T : Topo) (o : Obj P) (id : Nat) (f : Face) : Bool :=
  o.cells.all fun c => c.1 == id || (T.faces c.2).all fun g => ! sameVerts f.verts g.verts

/-- `extractBoundaryFaceCellID`, src/core/MimmoObject.cpp:2719-2739: cell, position and face -/
def borderFaces (T : Topo) (o : Obj P) : List (Nat × Nat × Cell × Face) :=
  if o.type = 3 then []
  else o.cells.flatMap fun c => ((T.faces c.2).zipIdx.filter fun f => isBorder T o c.1 f.1).map fun f => (c.1, f.2, c.2, f.1)

/-- `extractBoundaryCellID`, src/core/MimmoObject.cpp:2814-2836 -/
def borderCells (T : Topo) (o : Obj P) : List Nat := distinct ((borderFaces T o).map fun e => e.1)

/-- `extractBoundaryVertexID`, src/core/MimmoObject.cpp:2848-2881 -/
def borderVertices (T : Topo) (o : Obj P) : List Nat := distinct ((borderFaces T o).flatMap fun e => e.2.2.2.verts)

/-- the topology of the boundary, src/core/MimmoObject.cpp:2949 -/
def boundaryType (t : Nat) : Nat := (if t = 2 then 1 else 0) + 4 * (if t = 1 then 1 else 0) + 3 * (if t = 4 then 1 else 0)

/-- the loop that adds the interfaces, src/core/MimmoObject.cpp:2962-2973; the set of interfaces holds each id once -/
def addFaces (T : Topo) : List (Nat × Nat × Cell × Face) → Obj P → Obj P
  | [], t => t
  | e :: es, t => addFaces T es (addConnectedCell t 0 e.2.2.2.conn e.2.2.2.elem e.2.2.1.pid (some (T.num e.1 e.2.1))).1

/-- bitpit's `deleteOrphanVertices` -/
def deleteOrphans (o : Obj P) : Obj P := { o with verts := o.verts.filter fun v => o.cells.any fun c => decide (v.1 ∈ vertexIds c.2) }

/-- bitpit's `deleteCells` -/
def deleteCells (o : Obj P) (l : List Nat) : Obj P := { o with cells := o.cells.filter fun c => ! l.contains c.1 }

/-- `extractBoundaryMesh`, src/core/MimmoObject.cpp:2933-2997 -/
def boundaryMesh (T : Topo) (o : Obj P) : Option (Obj P) :=
  (ctor (boundaryType o.type : Int)).bind fun t => (Select.addVerts o (borderVertices T o) t).bind fun t => update (deleteOrphans (addFaces T (borderFaces T o) t))

/-! ### The block -/

/-- an inner selection block: its settings and the option of the complement -/
structure Engine (σ : Type) where
  set : σ
  dual : Bool := false

/-- what pointers lead to -/
structure World (P σ : Type) where
  obj : Nat → Obj P
  eng : Nat → Engine σ

/-- data members, src/geohandlers/FVMeshSelection.hpp:111-117 -/
structure Fv (P : Type) where
  topo : Nat
  dual : Bool := false
  geo : Option Nat := none
  bnd : Option Nat := none
  engine : Option Nat := none
  volPatch : Option (Obj P) := none
  bndPatch : Option (Obj P) := none
  intPatch : Option (Obj P) := none

/-- constructor, src/geohandlers/FVGenericSelection.cpp:38-43 -/
def Fv.new (topo : Int) : Fv P := { topo := (min 2 (max 1 topo)).toNat }

/-- copy, src/geohandlers/FVGenericSelection.cpp:53-58: the engine is shared, patches are not copied (the geometry is copied by the base class) -/
def Fv.copy (s : Fv P) : Fv P := { topo := s.topo, dual := s.dual, geo := s.geo, bnd := s.bnd, engine := s.engine }

/-- `setGeometry`, src/geohandlers/FVGenericSelection.cpp:107-113 -/
def Fv.setGeometry (s : Fv P) (w : World P σ) (g : Option Nat) : Fv P :=
  match g with
  | none => s
  | some i => if s.topo = 1 ∧ (w.obj i).type ≠ 2 then s else if s.topo = 2 ∧ (w.obj i).type ≠ 1 then s else { s with geo := some i }

/-- `setBoundaryGeometry`, src/geohandlers/FVGenericSelection.cpp:120-126 -/
def Fv.setBoundary (s : Fv P) (w : World P σ) (g : Option Nat) : Fv P :=
  match g with
  | none => s
  | some i => if s.topo = 1 ∧ (w.obj i).type ≠ 1 then s else if s.topo = 2 ∧ (w.obj i).type ≠ 4 then s else { s with bnd := some i }

/-- `setDual`, src/geohandlers/FVGenericSelection.cpp:137-139 -/
def Fv.setDual (s : Fv P) (b : Bool) : Fv P := { s with dual := b }

/-- `setSelection`, src/geohandlers/FVGenericSelection.cpp:145-149 -/
def Fv.setSelection (s : Fv P) (e : Option Nat) : Fv P :=
  match e with
  | none => s
  | some i => { s with engine := some i }

/-- the setters of the shape (`setOrigin`, `setSpan`, `setRefSystem`, `setInfLimits`), src/geohandlers/FVSelectionByBox.cpp:129-150: they write to the
engine -/
def Fv.setShape (s : Fv P) (w : World P σ) (f : σ → σ) : World P σ :=
  match s.engine with
  | none => w
  | some i => { w with eng := fun j => if j = i then { w.eng i with set := f (w.eng i).set } else w.eng j }

/-- an execution of the engine on a mesh, src/geohandlers/GenericSelection.cpp:129-136, 222-275 -/
def Engine.run (clean : Obj P → Data P × Data Cell) (sel : σ → Bool → Obj P → List Nat) (e : Engine σ) (o : Obj P) : Option (Obj P) :=
  Select.execute clean o o.type (sel e.set e.dual o)

/-- `cleanUpBoundaryPatch`, src/geohandlers/FVGenericSelection.cpp:262-309 -/
def cleanUp (vol bnd : Obj P) : Option (Obj P) :=
  let cleared := (bnd.verts.map Prod.fst).filter fun v => has vol.verts v
  let survived := cellFromVertices bnd cleared true
  let toDelete := (cellIds bnd).filter fun i => ! survived.contains i
  if toDelete.isEmpty then some bnd else update (deleteOrphans (deleteCells (setUnsyncAll bnd) toDelete))

/-- `createInternalBoundaryPatch`, src/geohandlers/FVGenericSelection.cpp:316-352 -/
def internal (T : Topo) (vol bnd : Obj P) : Option (Obj P) :=
  (boundaryMesh T vol).bind fun b => update (deleteOrphans (deleteCells (setUnsyncAll b) (cellFromVertices b (bnd.verts.map Prod.fst) true)))

/-- `checkCoherenceBulkBoundary`, src/geohandlers/FVGenericSelection.cpp:382-418; `isEmpty` of a mesh: no cells or no vertices -/
def coherent (T : Topo) (bulk bnd : Obj P) : Bool :=
  let empty := fun o : Obj P => o.verts.isEmpty || o.cells.isEmpty
  if empty bulk ≠ empty bnd then false else (bnd.verts.map Prod.fst).all fun v => decide (v ∈ borderVertices T bulk)

/-- `execute`, src/geohandlers/FVGenericSelection.cpp:223-257: the block and whether there was a warning; `none`: exception -/
def Fv.execute (clean : Obj P → Data P × Data Cell) (sel : σ → Bool → Obj P → List Nat) (T : Topo) (w : World P σ) (s : Fv P) : Option (Fv P × Bool) :=
  match s.geo, s.bnd, s.engine with
  | some g, some b, some e =>
    let warn := ! coherent T (w.obj g) (w.obj b)
    ((w.eng e).run clean sel (w.obj g)).bind fun vol =>
      ((w.eng e).run clean sel (w.obj b)).bind fun bp =>
        (cleanUp vol bp).bind fun bp =>
          (internal T vol bp).map fun i => ({ s with volPatch := some vol, bndPatch := some bp, intPatch := some i }, warn)
  | _, _, _ => none

/-! ### The blocks with shapes -/

/-- the kinds of engines -/
inductive Kind | box | cylinder | sphere
deriving DecidableEq, Repr

/-- settings of the engine that the constructors with a shape make, src/geohandlers/FVSelectionByBox.cpp:80-88, FVSelectionByCylinder.cpp:80-92 and
FVSelectionBySphere.cpp:80-90; the last makes a block for cylinders and treats it as one for spheres (undefined behaviour; the classes are laid out alike) -/
def shaped {ρ : Type} (k : Kind) (shape : ρ) : Kind × ρ :=
  match k with
  | .box => (.box, shape)
  | .cylinder => (.cylinder, shape)
  | .sphere => (.cylinder, shape)

/-- the constructor with a shape: the engine is behind a new handle -/
def Fv.newShape {ρ : Type} (topo : Int) (k : Kind) (shape : ρ) (w : World P (Kind × ρ)) (h : Nat) : Fv P × World P (Kind × ρ) :=
  ((Fv.new topo).setSelection (some h), { w with eng := fun j => if j = h then { set := shaped k shape } else w.eng j })

/-- the options of a section that do not concern the shape -/
structure Section where
  className : Option String := none
  topology : Option String := none
  dual : Option String := none

/-- `std::stoi` (external): an integer, or an exception -/
abbrev Stoi := String → Option Int

/-- reading of an integer or a bool from a stream (external): the value, or 0 -/
abbrev Stream := String → Int

/-- constructor from a section, src/geohandlers/FVSelectionByBox.cpp:47-72 and 158-191: topology, option of the complement; whether the section was read.
Names are compared after trimming, which is left out. -/
def readSection (stoi : Stoi) (bool : Stream) (name : String) (x : Section) : Option (Nat × Bool × Bool) :=
  (stoi (x.topology.getD "1")).map fun t =>
    let topo := (min 2 (max 1 t)).toNat
    if x.className.getD "ClassNONE" = name then
      (topo, (x.dual.map fun s => if s = "" then false else bool s != 0).getD false, true)
    else (topo, false, false)

/-- `flushSectionXML`, src/geohandlers/FVSelectionByBox.cpp:271-272 and BaseManipulation -/
def writeSection (name : String) (topo : Nat) (dual : Bool) : Section :=
  { className := some name, topology := some (toString topo), dual := some (if dual then "1" else "0") }

end Verif.FvSel
