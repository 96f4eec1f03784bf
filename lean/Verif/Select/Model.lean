import Verif.Mesh.Query
import Verif.Shape.Model
/-
Model of the selection blocks (src/geohandlers: GenericSelection.cpp, SelectionByPID.cpp, SelectionByElementList.cpp,
SelectionByBox.cpp, SelectionByCylinder.cpp, SelectionBySphere.cpp), serial build.

* The geometry is a `Mesh.Obj`; a block keeps a pointer to it, so the functions below take its present content.
* `clean` is bitpit's `deleteCoincidentVertices` (external): the vertices and cells of the patch after it.
* `none` is an exception or undefined behaviour (a missing cell or vertex).
-/
namespace Verif.Select
open Verif.Field Verif.Mesh

variable {P : Type}

/-! ### GenericSelection -/

/-- the loops that copy vertices, src/geohandlers/GenericSelection.cpp:242-244 and 258-260; the id exists in the
mother or reading its coordinates is an error -/
def addVerts (o : Obj P) : List Nat → Obj P → Option (Obj P)
  | [], t => some t
  | i :: is, t => (get o.verts i).bind fun p => addVerts o is (addVertex t 0 p (some i)).1

/-- the loop that copies cells, src/geohandlers/GenericSelection.cpp:247-254 -/
def addCells (o : Obj P) : List Nat → Obj P → Option (Obj P)
  | [], t => some t
  | i :: is, t => (get o.cells i).bind fun c => addCells o is (addCell t 0 c (some i)).1

/-- the names of the PIDs, src/geohandlers/GenericSelection.cpp:264-268; `originalmap[val]` is the empty string
for an unknown PID -/
def copyNames (o : Obj P) (t : Obj P) : Obj P :=
  t.pids.foldl (fun t p => (setPIDName t p ((nameOf o.names p).getD "")).1) t

/-- the patch before cleaning, src/geohandlers/GenericSelection.cpp:233-269.  The tolerance of the mother is at least
the minimum that `setTolerance` imposes, so it is copied as it is. -/
def buildSub (o : Obj P) (topo : Nat) (ex : List Nat) : Option (Obj P) :=
  (ctor (topo : Int)).bind fun t =>
    let t := { t with tol := o.tol }
    (if topo ≠ 3 then (addVerts o (vertexFromCells o ex) t).bind (addCells o ex) else addVerts o ex t).map (copyNames o)

/-- `execute`, src/geohandlers/GenericSelection.cpp:222-275, once the selection `ex` is known -/
def execute (clean : Obj P → Data P × Data Cell) (o : Obj P) (topo : Nat) (ex : List Nat) : Option (Obj P) :=
  (buildSub o topo ex).bind fun t => update (cleanGeometry t (clean t).1 (clean t).2)

/-- `constrainedBoundary`, src/geohandlers/GenericSelection.cpp:176-214.  `bd`, `bm`: the border faces of the cells of
the daughter and of the mother, as `extractBoundaryFaceCellID` returns them (cell, faces); `fv`: the vertices of a
face of a cell (bitpit). -/
def survivors (bd bm : Data (List Nat)) : Data (List Nat) :=
  bd.foldl (fun s e =>
    if has bm e.1 then
      e.2.foldl (fun s f =>
        if f ∈ (get bm e.1).getD [] then s else mapSet s e.1 (insSet ((get s e.1).getD []) f)) s
    else mapSet s e.1 e.2) []

def constrainedBoundary (fv : Cell → Nat → List Nat) (d : Obj P) (bd bm : Data (List Nat)) : Option (List Nat) :=
  (survivors bd bm).foldlM (fun s e =>
    (get d.cells e.1).map fun c => e.2.foldl (fun s f => (fv c f).foldl insSet s) s) []

/-! ### SelectionByPID -/

/-- `m_setPID`, `m_activePID` and the inherited `m_dual`, src/geohandlers/MeshSelection.hpp -/
structure Pid where
  set : List Int := []
  active : List (Int × Bool) := []
  dual : Bool := false
deriving DecidableEq, Repr

/-- `m_activePID.insert(make_pair(p, false))`: an existing entry is kept -/
def insActive (l : List (Int × Bool)) (p : Int) : List (Int × Bool) :=
  if l.any (fun e => e.1 == p) then l else l ++ [(p, false)]

/-- `setGeometry`, src/geohandlers/SelectionByPID.cpp:149-161; point clouds are refused -/
def Pid.setGeometry (s : Pid) (o : Obj P) : Pid :=
  if o.type = 3 then s else { s with active := o.pids.foldl insActive s.active }

/-- `setPID(long)`, src/geohandlers/SelectionByPID.cpp:169-173 -/
def Pid.setPID (s : Pid) (i : Int) : Pid :=
  { s with set := insSet (if -1 ∈ s.set ∨ (s.set ≠ [] ∧ i = -1) then [] else s.set) i }

/-- `setPID(livector1D)`, src/geohandlers/SelectionByPID.cpp:181-185 -/
def Pid.setPIDs (s : Pid) (l : List Int) : Pid := l.foldl Pid.setPID s

/-- `removePID(long)`, src/geohandlers/SelectionByPID.cpp:194-200 -/
def Pid.removePID (s : Pid) (i : Int) : Pid :=
  if i > 0 then { s with set := s.set.filter (fun p => p ≠ i) } else { s with set := [] }

/-- `clear`, src/geohandlers/SelectionByPID.cpp:218-222 (the geometry is unlinked as well) -/
def Pid.clear (s : Pid) : Pid := { s with active := [] }

/-- `syncPIDList`, src/geohandlers/SelectionByPID.cpp:274-298 (geometry linked) -/
def Pid.sync (s : Pid) : Pid :=
  if -1 ∈ s.set then
    { s with set := distinct (s.active.map Prod.fst), active := s.active.map (fun e => (e.1, true)) }
  else
    { s with
      active := s.active.map (fun e => if e.1 ∈ s.set then (e.1, true) else e)
      set := s.set.filter (fun p => s.active.any (fun e => e.1 == p)) }

/-- `getActivePID`, src/geohandlers/SelectionByPID.cpp:135-141 -/
def Pid.activePIDs (s : Pid) (active : Bool) : List Int := (s.active.filter (fun e => e.2 == active)).map Prod.fst

/-- `extractSelection`, src/geohandlers/SelectionByPID.cpp:229-266, on the present content of the geometry.  The set
of ids is in increasing order; the merging loop is the one of `excludeGeometry`. -/
def Pid.extract (s : Pid) (o : Obj P) : Pid × Option (List Nat) :=
  let s := s.sync
  let ex := distinct ((s.activePIDs true).flatMap (extractPID o))
  (s, if s.dual then
        (if (cellIds o).length = ex.length then some [] else Shape.complement (cellIds o) ex)
      else some (Shape.sorted ex))

/-! ### SelectionByElementList -/

/-- the lists of ids given: annotated lists are fields, of which the ids are taken (src/geohandlers/MeshSelection.hpp) -/
structure Elems where
  annCells : List (List Nat) := []
  annVerts : List (List Nat) := []
  rawCells : List (List Nat) := []
  rawVerts : List (List Nat) := []
  dual : Bool := false
deriving DecidableEq, Repr

/-- `addAnnotatedCellList`, src/geohandlers/SelectionByElementList.cpp:97-101; null pointers are refused -/
def Elems.addAnnCells (s : Elems) {α : Type} (f : Option (Loc × Data α)) : Elems :=
  match f with
  | none => s
  | some f => if f.1 ≠ .cell then s else { s with annCells := s.annCells ++ [f.2.map Prod.fst] }

/-- `addAnnotatedVertexList`, src/geohandlers/SelectionByElementList.cpp:110-114 -/
def Elems.addAnnVerts (s : Elems) {α : Type} (f : Option (Loc × Data α)) : Elems :=
  match f with
  | none => s
  | some f => if f.1 ≠ .point then s else { s with annVerts := s.annVerts ++ [f.2.map Prod.fst] }

/-- `addRawCellList`, src/geohandlers/SelectionByElementList.cpp:122-125 -/
def Elems.addRawCells (s : Elems) (l : List Nat) : Elems :=
  if l = [] then s else { s with rawCells := s.rawCells ++ [l] }

/-- `addRawVertexList`, src/geohandlers/SelectionByElementList.cpp:134-137 -/
def Elems.addRawVerts (s : Elems) (l : List Nat) : Elems :=
  if l = [] then s else { s with rawVerts := s.rawVerts ++ [l] }

/-- `extractSelection`, src/geohandlers/SelectionByElementList.cpp:161-220 -/
def Elems.extract (s : Elems) (o : Obj P) (topo : Nat) : List Nat :=
  let given := distinct (s.annVerts.flatten ++ s.rawVerts.flatten)
  let sureV := (o.verts.map Prod.fst).filter (fun i => i ∈ given)
  if topo = 3 then sureV
  else
    let set := distinct (cellFromVertices o sureV true ++ s.annCells.flatten ++ s.rawCells.flatten)
    (cellIds o).filter (fun i => i ∈ set)

/-! ### Selection by a shape -/

/-- `extractSelection` of SelectionByBox, SelectionByCylinder and SelectionBySphere,
src/geohandlers/SelectionByBox.cpp:133-144, SelectionByCylinder.cpp:138-149, SelectionBySphere.cpp:137-148;
`verts`, `tree`, `kd`, `tol`: coordinates of the vertices of a cell, trees of the geometry and tolerance of bitpit's
box test, as in Verif.Shape.Model -/
noncomputable def extractShape (s : Shape.Shape) (dual : Bool) (topo : Nat) (verts : Nat → List Shape.V3)
    (cells : List Nat) (tree : Option Shape.Skd) (kd : Shape.Kd) (tol : ℝ) : Option (List Nat) :=
  if topo = 3 then
    (if dual then Shape.excludeCloud s tol cells kd else some (Shape.includeCloud s tol kd))
  else
    (if dual then Shape.excludeGeo s verts cells tree else some (Shape.includeGeo s verts tree))

end Verif.Select
