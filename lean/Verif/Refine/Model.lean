import Verif.Mesh.Graph
/-
The block that refines a surface, `mimmo::RefineGeometry` (src/geohandlers/RefineGeometry.cpp), serial build.

Not modelled: the coarse and refined patches and the mapping that a derived class may ask for (`execute` asks for
none), MPI sections, log messages, plot of results.
-/
namespace Verif.Refine
open Verif.Field Verif.Mesh

variable {P : Type}

/-- ids given by bitpit to vertices and cells inserted without id: functions of the content of the mesh (no content
is met twice in one execution, so any sequence of ids is of this form) -/
structure Gen (P : Type) where
  vert : Data P → Nat
  cell : Data P → Data Cell → Nat

/-- `addVertex` without id, as in src/geohandlers/RefineGeometry.cpp:432 and 716 -/
def newVertex (g : Gen P) (o : Obj P) (p : P) : Obj P := (addVertex o (g.vert o.verts) p none).1

/-- `addConnectedCell` of a triangle without id, src/geohandlers/RefineGeometry.cpp:443, 884, 893, 943 -/
def newTri (g : Gen P) (pid : Int) (o : Obj P) (t : List Nat) : Obj P :=
  (addConnectedCell o (g.cell o.verts o.cells) t .triangle pid none).1

/-- several triangles one after the other -/
def newTris (g : Gen P) (pid : Int) (o : Obj P) (ts : List (List Nat)) : Obj P := ts.foldl (newTri g pid) o

/-- `deleteCells` of the patch -/
def delCells (o : Obj P) (ids : List Nat) : Obj P := { o with cells := o.cells.filter (fun c => !ids.contains c.1) }

/-! Ternary refinement -/

/-- the triangles around the new vertex, src/geohandlers/RefineGeometry.cpp:435-444 -/
def fanOf (v : Nat) (ring : List Nat) : List (List Nat) :=
  (List.range ring.length).map (fun i => [v, ring.getD (i % ring.length) 0, ring.getD ((i + 1) % ring.length) 0])

/-- one cell, src/geohandlers/RefineGeometry.cpp:308-346 and `ternaryRefineCell` 411-449; state: object and cells to
delete.  `bary` is the centroid (external); a missing cell or vertex is an exception. -/
def ternaryCell (g : Gen P) (bary : Obj P → Nat → P) (s : Obj P × List Nat) (id : Nat) : Option (Obj P × List Nat) :=
  match get s.1.cells id with
  | none => none
  | some c =>
    if (vertexIds c).all (fun v => has s.1.verts v) then
      some (newTris g c.pid (newVertex g s.1 (bary s.1 id)) (fanOf (g.vert s.1.verts) (vertexIds c)),
        if vertexIds c = [] then s.2 else insSet s.2 id)
    else none

/-- the loop on the active cells -/
def ternaryLoop (g : Gen P) (bary : Obj P → Nat → P) : List Nat → Obj P × List Nat → Option (Obj P × List Nat)
  | [], s => some s
  | id :: ids, s => (ternaryCell g bary s id).bind (ternaryLoop g bary ids)

/-- `ternaryRefine`, src/geohandlers/RefineGeometry.cpp:287-398 -/
def ternary (g : Gen P) (bary : Obj P → Nat → P) (active : List Nat) (o : Obj P) : Option (Obj P) :=
  (ternaryLoop g bary active (o, [])).bind fun s => update (setUnsyncAll (delCells s.1 s.2))

/-! Red-green refinement -/

/-- adjacencies and interfaces of bitpit: neighbours of a cell through a face (none: border), first interface of a
face, owner of an interface with its face, face of the other cell, vertices of an interface -/
structure Topo where
  nbrs : Nat → Nat → List Nat
  itf : Nat → Nat → Nat
  owner : Nat → Nat
  ownerFace : Nat → Nat
  neighFace : Nat → Nat
  ends : Nat → List Nat

/-- what the propagation holds: red cells still to visit, tags, interfaces to split, face to split of green cells;
src/geohandlers/RefineGeometry.cpp:478-504 -/
structure Marks where
  queue : List Nat
  tag : Nat → Nat
  edges : List Nat
  green : Nat → Option Nat

/-- a map with one entry changed -/
def upd {α : Type} (m : Nat → α) (k : Nat) (x : α) : Nat → α := fun i => if i = k then x else m i

/-- one neighbour `n` of the red cell `r` through the face `f`, src/geohandlers/RefineGeometry.cpp:572-619 -/
def meet (T : Topo) (r f : Nat) (s : Marks) (n : Nat) : Marks :=
  let t := s.tag n + 1
  let s := { s with tag := upd s.tag n t, edges := insSet s.edges (T.itf r f) }
  if t > 2 then s
  else if t = 2 then { s with queue := s.queue ++ [n], green := upd s.green n none }
  else if t = 1 then
    { s with
      green := upd s.green n
        (some (if T.owner (T.itf r f) = n then T.ownerFace (T.itf r f) else T.neighFace (T.itf r f))) }
  else s

/-- one face of a red cell, src/geohandlers/RefineGeometry.cpp:562-630 -/
def visitFace (T : Topo) (r : Nat) (s : Marks) (f : Nat) : Marks :=
  if T.nbrs r f = [] then { s with edges := insSet s.edges (T.itf r f) } else (T.nbrs r f).foldl (meet T r f) s

/-- one iteration of the propagation, src/geohandlers/RefineGeometry.cpp:552-638 -/
def pop (T : Topo) (cells : Data Cell) (s : Marks) : Out Marks Marks :=
  match s.queue with
  | [] => .done s
  | r :: q =>
    match get cells r with
    | none => .fail
    | some c =>
      if c.elem = .triangle then .next ([0, 1, 2].foldl (visitFace T r) { s with queue := q })
      else .next { s with queue := q }

/-- state before the propagation, src/geohandlers/RefineGeometry.cpp:477-504 -/
def marks (active : List Nat) : Marks :=
  { queue := active, tag := fun i => if i ∈ active then 2 else 0, edges := [], green := fun _ => none }

/-- insertion of the middle of an interface, src/geohandlers/RefineGeometry.cpp:707-718; `mean` is the mean of the
points (external arithmetic).  State: object, and the new vertex of each interface. -/
def addMiddle (g : Gen P) (mean : List P → P) (T : Topo) (s : Obj P × Data Nat) (i : Nat) : Option (Obj P × Data Nat) :=
  match (T.ends i).mapM (fun v => get s.1.verts v) with
  | none => none
  | some ps => some (newVertex g s.1 (mean ps), s.2 ++ [(i, g.vert s.1.verts)])

/-- the loop on the interfaces to split, in increasing order (`std::set`), src/geohandlers/RefineGeometry.cpp:706-718 -/
def addMiddles (g : Gen P) (mean : List P → P) (T : Topo) : List Nat → Obj P × Data Nat → Option (Obj P × Data Nat)
  | [], s => some s
  | i :: is, s => (addMiddle g mean T s i).bind (addMiddles g mean T is)

/-- the four triangles of a red cell, `redRefineCell`, src/geohandlers/RefineGeometry.cpp:876-895 -/
def redTris (conn news : List Nat) : List (List Nat) :=
  [news.getD 0 0, news.getD 1 0, news.getD 2 0] ::
    (List.range 3).map (fun i => [conn.getD ((i + 1) % 3) 0, news.getD ((i + 1) % 3) 0, news.getD (i % 3) 0])

/-- the two triangles of a green cell, `greenRefineCell`, src/geohandlers/RefineGeometry.cpp:935-944 -/
def greenTris (conn : List Nat) (new e : Nat) : List (List Nat) :=
  (List.range 2).map (fun i => [new, conn.getD ((e + 1 + i) % 3) 0, conn.getD ((e + 2 + i) % 3) 0])

/-- the triangles a cell is replaced by, src/geohandlers/RefineGeometry.cpp:721-759, with 849-898 and 907-949: `none`
for an exception of one of the maps, no triangle for cells that stay.  `em` is the map from interfaces to new
vertices.  The faces of a cell of a surface are as many as its vertices. -/
def childTris (T : Topo) (s : Marks) (em : Data Nat) (id : Nat) (c : Cell) : Option (List (List Nat)) :=
  if s.tag id = 0 then some []
  else if min 2 (s.tag id) = 2 then
    ((List.range (vertexIds c).length).mapM (fun f => get em (T.itf id f))).map fun news =>
      if c.elem ≠ .triangle then [] else redTris c.conn news
  else
    (s.green id).bind fun e => (get em (T.itf id e)).map fun v =>
      if c.elem ≠ .triangle then [] else greenTris c.conn v e

/-- one entry of the tags, src/geohandlers/RefineGeometry.cpp:721-788; state: object and cells to delete -/
def splitCell (g : Gen P) (T : Topo) (m : Marks) (em : Data Nat) (s : Obj P × List Nat) (id : Nat) :
    Option (Obj P × List Nat) :=
  match get s.1.cells id with
  | none => none
  | some c =>
    (childTris T m em id c).map fun ts =>
      (newTris g c.pid s.1 ts, if ts = [] then s.2 else insSet s.2 id)

/-- the loop on the tags (an `unordered_map`: the order is a parameter) -/
def splitLoop (g : Gen P) (T : Topo) (m : Marks) (em : Data Nat) : List Nat → Obj P × List Nat → Option (Obj P × List Nat)
  | [], s => some s
  | id :: ids, s => (splitCell g T m em s id).bind (splitLoop g T m em ids)

/-- everything after the propagation, src/geohandlers/RefineGeometry.cpp:706-841; `o` has its adjacencies and
interfaces built -/
def split (g : Gen P) (mean : List P → P) (T : Topo) (ord : List Nat) (m : Marks) (o : Obj P) : Option (Obj P) :=
  (addMiddles g mean T (ordered m.edges) (o, [])).bind fun s =>
    (splitLoop g T m s.2 ord (s.1, [])).bind fun r => update (setUnsyncAll (delCells (destroyInt r.1) r.2))

/-- `redgreenRefine`, src/geohandlers/RefineGeometry.cpp:460-841: the run of the propagation ends in `m`, the rest
succeeds with `o'` -/
def RedGreen (g : Gen P) (mean : List P → P) (T : Topo) (ord active : List Nat) (o o' : Obj P) : Prop :=
  ∃ m, Runs (pop T o.cells) (marks active) (some m) ∧ split g mean T ord m (updateInt (updateAdj o)) = some o'

end Verif.Refine
