import Verif.Mesh.Query
/-
Model of StitchGeometry (src/geohandlers/StitchGeometry.cpp), serial build; XML and plotting excepted.

* Geometries are handles into a world `Nat → Obj P`; the block keeps them in an `unordered_map`, so the order in which
  `execute` visits them is any arrangement of the list.
* `clean` is bitpit's `deleteCoincidentVertices` (external): the vertices and cells of the patch after it.
* `none` is an exception or undefined behaviour.
-/
namespace Verif.Select
open Verif.Field Verif.Mesh

variable {P : Type}

/-- `m_topo`, `m_extgeo` and `m_repid`, src/geohandlers/StitchGeometry.hpp -/
structure Stitch where
  topo : Int
  geos : List Nat := []
  repid : Bool := false
deriving DecidableEq, Repr

/-- `StitchGeometry(topo)`, src/geohandlers/StitchGeometry.cpp:35-41 -/
def Stitch.new (topo : Int) : Stitch := { topo := if min 1 topo > 4 then 1 else min 1 topo }

/-- `StitchGeometry(xml)`, src/geohandlers/StitchGeometry.cpp:47-68, before the section is absorbed -/
def Stitch.newXml (topo : Int) : Stitch := { topo := if max 1 topo > 4 then 1 else max 1 topo }

/-- `addGeometry`, src/geohandlers/StitchGeometry.cpp:149-157; a null pointer is refused (not modelled) -/
def Stitch.add (s : Stitch) (w : Nat → Obj P) (g : Nat) : Stitch :=
  if ((w g).type : Int) ≠ s.topo then s
  else if g ∈ s.geos then s
  else { s with geos := s.geos ++ [g] }

/-- `forceRePID`, src/geohandlers/StitchGeometry.cpp:183-186 -/
def Stitch.forceRePID (s : Stitch) (b : Bool) : Stitch := { s with repid := b }

/-- largest element of a list that is not empty -/
def maxPid : List Int → Option Int
  | [] => none
  | p :: ps => some (ps.foldl max p)

/-- first new PID of each geometry with re-PID, src/geohandlers/StitchGeometry.cpp:224-233; `pidmax` is the loop variable.
The last element of an empty list is undefined behaviour. -/
def repidStarts : Int → List (Obj P) → Option (List Int)
  | _, [] => some []
  | pidmax, o :: os => (maxPid o.pids).bind fun m => (repidStarts (pidmax + (m + 1)) os).map (fun l => (pidmax + 1) :: l)

/-- loop over the vertices, src/geohandlers/StitchGeometry.cpp:253-259: patch, map of the ids and next id -/
def stitchVert (s : Obj P × Data Nat × Nat) (v : Nat × P) : Obj P × Data Nat × Nat :=
  ((addVertex s.1 0 v.2 (some s.2.2)).1, mapSet s.2.1 v.1 s.2.2, s.2.2 + 1)

/-- `mapVloc[v]`: an unknown id becomes 0 -/
def locOf (m : Data Nat) (v : Nat) : Nat := (get m v).getD 0

/-- the entries of a polyhedron after the number of faces, src/geohandlers/StitchGeometry.cpp:279-288: the given number of
faces is copied, the other entries keep their initial value 0 -/
def stitchFaces (m : Data Nat) : Nat → List Nat → List Nat
  | 0, l => List.replicate l.length 0
  | _ + 1, [] => []
  | n + 1, k :: rest => k :: ((rest.take k).map (locOf m) ++ stitchFaces m n (rest.drop k))

/-- the connectivity of a copied cell, src/geohandlers/StitchGeometry.cpp:267-296 -/
def stitchConn (m : Data Nat) (c : Cell) : Option (List Nat) :=
  match c.elem with
  | .polygon =>
    (match c.conn with
    | [] => none
    | n :: vs => some (n :: vs.map (locOf m)))
  | .polyhedron =>
    (match c.conn with
    | [] => none
    | n :: rest => some (n :: stitchFaces m (n - 1) rest))
  | _ => some (c.conn.map (locOf m))

/-- loop over the cells, src/geohandlers/StitchGeometry.cpp:262-300: patch and next id -/
def stitchCell (m : Data Nat) (start : Int) (s : Obj P × Nat) (c : Nat × Cell) : Option (Obj P × Nat) :=
  (stitchConn m c.2).map fun conn => ((addConnectedCell s.1 0 conn c.2.elem (c.2.pid + start) (some s.2)).1, s.2 + 1)

/-- names of the PIDs of the patch so far, src/geohandlers/StitchGeometry.cpp:245-250 and 302-305: `newOldPid[val]` is 0 and
`originalPidNames[...]` is the empty string for an unknown PID -/
def stitchNames (o : Obj P) (start : Int) (t : Obj P) : Obj P :=
  t.pids.foldl (fun t p =>
    (setPIDName t p ((nameOf o.names (if p - start ∈ o.pids then p - start else 0)).getD "")).1) t

/-- one geometry, src/geohandlers/StitchGeometry.cpp:243-306: patch, next vertex id and next cell id -/
def stitchOne (s : Obj P × Nat × Nat) (e : Obj P × Int) : Option (Obj P × Nat × Nat) :=
  let v := e.1.verts.foldl stitchVert (s.1, [], s.2.1)
  (e.1.cells.foldlM (stitchCell v.2.1 e.2) (v.1, s.2.2)).map fun r =>
    (stitchNames e.1 e.2 (resyncPID r.1), v.2.2, r.2)

/-- `execute`, src/geohandlers/StitchGeometry.cpp:192-313; `ord` is the order of the geometries in the map -/
def Stitch.execute (s : Stitch) (clean : Obj P → Data P × Data Cell) (w : Nat → Obj P) (ord : List Nat) : Option (Obj P) :=
  let objs := ord.map w
  (ctor s.topo).bind fun dum =>
  (if s.repid then repidStarts (-1) objs else some (objs.map (fun _ => 0))).bind fun starts =>
  ((objs.zip starts).foldlM stitchOne (dum, 0, 0)).bind fun r =>
  update (cleanGeometry r.1 (clean r.1).1 (clean r.1).2)

end Verif.Select
