import Verif.Mesh.Model
/-
Read-only queries of `mimmo::MimmoObject`: PID extraction, consecutive numbering, conversions between lists of
cells and vertices, and the application of a displacement field (src/core/BaseManipulation.cpp).
-/
namespace Verif.Mesh
open Verif.Field

variable {P : Type}

/-- `extractPIDCells(pid)`, src/core/MimmoObject.cpp:3122-3138 -/
def extractPID (o : Obj P) (flag : Int) : List Nat :=
  if flag ∈ o.pids then (o.cells.filter (fun c => c.2.pid = flag)).map Prod.fst else []

/-- `extractPIDCells(list)`, src/core/MimmoObject.cpp:3146-3156 -/
def extractPIDs (o : Obj P) (flags : List Int) : List Nat := flags.flatMap (extractPID o)

/-- `result[pid].push_back(id)` on a `std::map` -/
def pushTo (m : List (Int × List Nat)) (p : Int) (id : Nat) : List (Int × List Nat) :=
  if m.any (fun e => e.1 == p) then m.map (fun e => if e.1 = p then (e.1, e.2 ++ [id]) else e) else m ++ [(p, [id])]

/-- `extractPIDSubdivision`, src/core/MimmoObject.cpp:3162-3183 -/
def subdivision (o : Obj P) : List (Int × List Nat) :=
  if o.pids = [] then []
  else o.cells.foldl (fun m c => pushTo m c.2.pid c.1) (o.pids.map (fun p => (p, [])))

/-- lists stored for a PID -/
def lookupPID (m : List (Int × List Nat)) (p : Int) : Option (List Nat) := (m.find? (fun e => e.1 == p)).map Prod.snd

/-- `map[key] = value` -/
def mapSet {α : Type} (m : Data α) (k : Nat) (v : α) : Data α := if has m k then setAt m k v else m ++ [(k, v)]

/-- `getMapDataInv`, src/core/MimmoObject.cpp:1441-1463 (serial): vertex id to position.  The counter is an `int`
in the code; meshes of more than 2^31 vertices are not modelled. -/
def mapDataInv (o : Obj P) : Data Nat :=
  (o.verts.foldl (fun s v => (mapSet s.1 v.1 s.2, s.2 + 1)) (([], 0) : Data Nat × Nat)).1

/-- `getMapData`, src/core/MimmoObject.cpp:1423-1432 -/
def mapData (o : Obj P) : Data Nat :=
  let inv := mapDataInv o
  o.verts.foldl (fun m v => match get inv v.1 with
    | some k => mapSet m k v.1
    | none => m) []

/-- numbering stored by bitpit (`getCellConsecutiveMap`): position in the list of ids it was computed from.
(bitpit may choose another order of the ids: then the list `info.val` is that order.) -/
def consecutive (o : Obj P) : Data Nat := (o.info.val.getD []).zipIdx

/-- `getMapCell`, src/core/MimmoObject.cpp:1473-1484; `getCellConsecutiveId` throws for an unknown id -/
def mapCell (o : Obj P) (ghosts : Bool) : Option (Data Nat) :=
  o.cells.foldlM (fun m c =>
    if ghosts = false ∧ c.2.interior = false then some m
    else (get (consecutive o) c.1).map (fun i => mapSet m i c.1)) []

/-- `getMapCellInv`, src/core/MimmoObject.cpp:1494-1508: the cell examined is the one whose *id* is the
consecutive index.  Looking up a cell that does not exist is an error (`none`).  The erased key passes through an
`int`; ids above 2^31 are not modelled here. -/
def mapCellInv (o : Obj P) (ghosts : Bool) : Option (Data Nat) :=
  if ghosts then some (consecutive o)
  else
    (consecutive o).foldlM (fun m e =>
      (get o.cells e.2).map (fun c => if c.interior then m ++ [e] else m)) []

/-- `getVertexFromCellList`, src/core/MimmoObject.cpp:2557-2576 -/
def vertexFromCells (o : Obj P) (l : List Nat) : List Nat :=
  if o.type = 3 then []
  else l.foldl (fun s id => match get o.cells id with
    | some c => (vertexIds c).foldl insSet s
    | none => s) []

/-- the test over the vertices of a cell, src/core/MimmoObject.cpp:2643-2652 -/
def scan (l : List Nat) (strict : Bool) : List Nat → Bool → Bool
  | [], check => check
  | v :: vs, _ =>
    let check := decide (v ∈ l)
    if check = false ∧ strict = true then check
    else if check = true ∧ strict = false then check
    else scan l strict vs check

/-- `getCellFromVertexList`, src/core/MimmoObject.cpp:2633-2658 -/
def cellFromVertices (o : Obj P) (l : List Nat) (strict : Bool) : List Nat :=
  if o.type = 3 then []
  else o.cells.foldl (fun s c => if scan l strict (vertexIds c.2) false then insSet s c.1 else s) []

/-- an interface: owner, neighbour (none on the border), vertices -/
structure Intf where
  owner : Nat
  neigh : Option Nat
  verts : List Nat
deriving DecidableEq

/-- `getInterfaceFromCellList`, src/core/MimmoObject.cpp:2585-2622; `ints` are the interfaces of the mesh and `of`
the interfaces listed by a cell (both built by bitpit) -/
def intfFromCells (o : Obj P) (ints : Data Intf) (of : Nat → List Nat) (l : List Nat) (all : Bool) : List Nat :=
  if o.type = 3 then []
  else if all then
    l.foldl (fun s id => if has o.cells id then (of id).foldl insSet s else s) []
  else
    ints.foldl (fun s e =>
      if e.2.owner ∈ l ∧ e.2.neigh.all (fun n => decide (n ∈ l)) = true then insSet s e.1 else s) []

/-- `getInterfaceFromVertexList`, src/core/MimmoObject.cpp:2676-2705 -/
def intfFromVertices (o : Obj P) (ints : Data Intf) (l : List Nat) (strict border : Bool) : List Nat :=
  if o.type = 3 then []
  else ints.foldl (fun s e =>
    if border = true ∧ e.2.neigh ≠ none then s
    else if scan l strict e.2.verts false then insSet s e.1 else s) []

/-- `getInverseConnectivity`, src/core/MimmoObject.cpp:4532-4546 -/
def inverseConn (o : Obj P) : Data Nat :=
  o.cells.foldl (fun m c => (vertexIds c.2).foldl (fun m v => mapSet m v c.1) m) []

/-- `BaseManipulation::_apply`, src/core/BaseManipulation.cpp:956-966: the loop over the vertices -/
def applyLoop [Add P] (disp : Data P) : List Nat → Obj P → Obj P
  | [], o => o
  | id :: ids, o =>
    match get o.verts id with
    | none => applyLoop disp ids o
    | some p =>
      let p := match get disp id with
        | some d => p + d
        | none => p
      applyLoop disp ids (modifyVertex o p id).1

/-- `BaseManipulation::_apply`, src/core/BaseManipulation.cpp:953-971 -/
def applyDisp [Add P] (disp : Data P) (o : Obj P) : Option (Obj P) :=
  update (applyLoop disp (o.verts.map Prod.fst) o)

end Verif.Mesh
