import Verif.Mesh.Graph
import Verif.Shape.Model
/-
Laplacian smoothing of `RefineGeometry`, src/geohandlers/RefineGeometry.cpp:958-1164, serial.  Coordinates are real
numbers.  Ghosts and the exchange with other processes are not modelled.
-/
namespace Verif.Refine
open Verif.Field Verif.Mesh Verif.Shape

/-- `getPointConnectivity`, src/core/MimmoObject.cpp:4756-4761.  The table is the one built for the current cells:
line 974 builds it unless it is synchronised, and moving vertices changes nothing of it.  A vertex without entry has no
neighbours (`operator[]` of the map; the assertion of line 4759 is not part of a release build). -/
def neigh (o : Obj V3) (id : Nat) : List Nat := (get (pointConn o) id).getD []

/-- `getVertexCoords` -/
def coords (o : Obj V3) (id : Nat) : V3 := (get o.verts id).getD ⟨0, 0, 0⟩

/-- the displacement of a vertex, src/geohandlers/RefineGeometry.cpp:1030-1040 and 1105-1114; the weights are 1 -/
noncomputable def pull (k : ℝ) (o : Obj V3) (id : Nat) : V3 :=
  let s := (neigh o id).foldl (fun acc n => acc + V3.scale k (coords o n - coords o id)) ⟨0, 0, 0⟩
  if 0 < (neigh o id).length then
    ⟨s.x / (neigh o id).length, s.y / (neigh o id).length, s.z / (neigh o id).length⟩
  else s

/-- new coordinates, src/geohandlers/RefineGeometry.cpp:1025-1044 and 1100-1118; `free` is the test of line 1029 or
of line 1104 -/
noncomputable def newCoords (k : ℝ) (free : Nat → Bool) (o : Obj V3) (id : Nat) : V3 :=
  (if free id then pull k o id else ⟨0, 0, 0⟩) + coords o id

/-- the loops that assign, src/geohandlers/RefineGeometry.cpp:1079-1082 and 1151-1154 -/
def moveAll {P : Type} (new : Nat → P) (ids : List Nat) (o : Obj P) : Obj P :=
  ids.foldl (fun o id => (modifyVertex o (new id) id).1) o

/-- a sub-step, src/geohandlers/RefineGeometry.cpp:1011-1087 and 1089-1159 -/
noncomputable def subStep (k : ℝ) (free : Nat → Bool) (o : Obj V3) : Option (Obj V3) :=
  update (moveAll (newCoords k free o) (o.verts.map Prod.fst) o)

/-- `lambda` and `kappa`, src/geohandlers/RefineGeometry.cpp:1006-1007 -/
noncomputable def lam : ℝ := 6 / 10
noncomputable def kap : ℝ := -(603 / 1000) * lam

/-- the test of the first sub-step, src/geohandlers/RefineGeometry.cpp:1029 -/
def freeFirst (constrained : Option (List Nat)) (id : Nat) : Bool :=
  match constrained with
  | none => true
  | some l => !l.contains id

/-- the test of the second sub-step, src/geohandlers/RefineGeometry.cpp:1104: a pointer is required -/
def freeSecond (constrained : Option (List Nat)) (id : Nat) : Bool :=
  match constrained with
  | none => false
  | some l => !l.contains id

/-- the loop on the steps, src/geohandlers/RefineGeometry.cpp:1009-1162 -/
noncomputable def smoothLoop (constrained : Option (List Nat)) : Nat → Obj V3 → Option (Obj V3)
  | 0, o => some o
  | n + 1, o =>
    ((subStep lam (freeFirst constrained) o).bind (subStep kap (freeSecond constrained))).bind (smoothLoop constrained n)

/-- `smoothing`, src/geohandlers/RefineGeometry.cpp:958-1164 -/
noncomputable def smoothing (constrained : Option (List Nat)) (steps : Nat) (o : Obj V3) : Option (Obj V3) :=
  let o := if o.adj.st ≠ .sync then updateAdj o else o
  let o := if o.int.st ≠ .sync then updateInt o else o
  let o := if o.info.st ≠ .sync then buildInfo o else o
  let o := if o.pc.st ≠ .sync then buildPC o else o
  smoothLoop constrained steps o

end Verif.Refine
