import Verif.Utils.AabbProps
import Verif.Mesh.DumpProps
import Verif.Mesh.SyncProps

/-!
Projected patches and mirrored point clouds: src/utils/ProjPrimitivesOnSurfaces.cpp, src/utils/ProjPatchOnSurface.cpp,
src/utils/SpecularPoints.cpp (serial).

The projection of a point on a surface (`skdTreeUtils::projectPoint`) and the total area of a surface
(`evalCellArea` of bitpit, summed) are parameters.  Input fields are held by value: the code keeps a pointer and reads
the field at execution.  Reserving and squeezing of containers is left out.
-/

namespace Verif.Utils
open List hiding get get_of_mem
open Verif.Shape Verif.Manip Verif.Mesh Verif.Field Verif.Rbf
noncomputable section

/-- behaviour of the surface used for projections -/
structure Surface where
  /-- closest point of the surface -/
  proj : Obj V3 → V3 → V3
  /-- sum of the areas of the cells -/
  area : Obj V3 → ℝ

/-! ### Projection of a patch -/

/-- members of `ProjPatchOnSurface`, src/utils/ProjPatchOnSurface.hpp and ProjPrimitivesOnSurfaces.hpp.  The patch
returned is either the handle of the target or an object of its own. -/
structure Patch where
  geom : Option Nat
  target : Option Nat
  topo : Nat
  onTarget : Bool
  kd : Bool
  skd : Bool
  result : Option (Nat ⊕ Obj V3)

/-- constructor, src/utils/ProjPatchOnSurface.cpp:42-47, ProjPrimitivesOnSurfaces.cpp:41-48 -/
def Patch.new : Patch := ⟨none, none, 2, false, false, false, none⟩

/-- `setGeometry`, src/utils/ProjPrimitivesOnSurfaces.cpp:141-145 -/
def Patch.setGeometry (w : World) (s : Patch) (g : Option Nat) : Patch :=
  match g with
  | none => s
  | some g => if (w g).type ≠ 1 then s else { s with geom := some g }

/-- `setPatch`, src/utils/ProjPatchOnSurface.cpp:122-132 -/
def Patch.setPatch (w : World) (s : Patch) (g : Option Nat) : Patch :=
  match g with
  | none => s
  | some g =>
    if (w g).type = 2 then s
    else { s with target := some g, topo := if (w g).type = 4 then 1 else if (w g).type = 3 then 0 else 2 }

/-- the loop that moves the vertices, src/utils/ProjPatchOnSurface.cpp:254-274: coordinates and ids are listed first,
then every vertex is modified -/
def moveAll (proj : V3 → V3) (o : Obj V3) : Obj V3 :=
  o.verts.foldl (fun r e => (modifyVertex r (proj e.2) e.1).1) o

/-- `projection` on an object, src/utils/ProjPatchOnSurface.cpp:247-281 -/
def projectObj (sf : Surface) (surf o : Obj V3) : Option (Obj V3) :=
  (buildSkd surf).bind fun _ => update (cleanInfo (moveAll (sf.proj surf) o))

/-- trees asked for, src/utils/ProjPrimitivesOnSurfaces.cpp:209-212 -/
def buildTrees (skd kd : Bool) (o : Obj V3) : Option (Obj V3) :=
  (if skd then buildSkd o else some o).map fun o => if kd then Mesh.buildKd o else o

/-- `execute`, src/utils/ProjPrimitivesOnSurfaces.cpp:200-216 with ProjPatchOnSurface.cpp:239-281; `none`: the exception for
a missing geometry, or the dereference of a null target.  The search tree built in the surface is not kept in the model. -/
def Patch.execute (sf : Surface) (w : World) (s : Patch) : Option (Patch × World) :=
  match s.geom, s.target with
  | none, _ => none
  | _, none => none
  | some g, some t =>
    if s.onTarget then
      ((projectObj sf (w g) (w t)).bind (buildTrees s.skd s.kd)).map fun o =>
        ({ s with result := some (.inl t) }, fun h => if h = t then o else w h)
    else
      (((clone (w t)).bind (projectObj sf (w g))).bind (buildTrees s.skd s.kd)).map fun o =>
        ({ s with result := some (.inr o) }, w)

/-- `getProjectedElement`, src/utils/ProjPrimitivesOnSurfaces.cpp:126-129 -/
def Patch.projected (w : World) (s : Patch) : Option (Obj V3) := s.result.map (Sum.elim w id)

/-! ### Mirrored clouds -/

/-- members of `SpecularPoints`, src/utils/SpecularPoints.hpp:90-103 and of the parent used here; the plane is
`n.x + d = 0` -/
structure Mirror where
  cloud : Option Nat
  geom : Option Nat
  n : V3
  d : ℝ
  origin : V3
  normal : V3
  implicit : Bool
  insideOut : Bool
  force : Bool
  scalar : Option (Data ℝ)
  vector : Option (Data V3)
  kd : Bool
  result : Option (Obj V3)
  scalarOut : Data ℝ
  vectorOut : Data V3

/-- constructor, src/utils/SpecularPoints.cpp:32-42 -/
def Mirror.new : Mirror where
  cloud := none
  geom := none
  n := ⟨0, 0, 0⟩
  d := 0
  origin := ⟨0, 0, 0⟩
  normal := ⟨0, 0, 0⟩
  implicit := false
  insideOut := false
  force := true
  scalar := none
  vector := none
  kd := false
  result := none
  scalarOut := []
  vectorOut := []

/-- `setPlane(origin, normal)`, src/utils/SpecularPoints.cpp:301-313 -/
def Mirror.setPlane (s : Mirror) (o n : V3) : Mirror :=
  let n := if tiny < norm2 n then n.unit else n
  { s with n := n, d := -1 * dot o n, implicit := true }

/-- the settings, src/utils/SpecularPoints.cpp:250-352, ProjPrimitivesOnSurfaces.cpp:141-166 -/
inductive Mirror.Call where
  | cloud (g : Option Nat)
  | geometry (g : Option Nat)
  | scalar (f : Option (Field Nat ℝ))
  | vector (f : Option (Field Nat V3))
  | coefficients (n : V3) (d : ℝ)
  | plane (o n : V3)
  | origin (o : V3)
  | normal (n : V3)
  | insideOut (b : Bool)
  | force (b : Bool)
  | kdTree (b : Bool)

/-- effect of a setting -/
def Mirror.set (w : World) (s : Mirror) : Mirror.Call → Mirror
  | .cloud none => s
  | .cloud (some g) => if (w g).type ≠ 3 then s else { s with cloud := some g }
  | .geometry none => s
  | .geometry (some g) => if (w g).type ≠ 1 then s else { s with geom := some g }
  | .scalar none => s
  | .scalar (some f) => if f.loc ≠ .point then s else { s with scalar := some f.data }
  | .vector none => s
  | .vector (some f) => if f.loc ≠ .point then s else { s with vector := some f.data }
  | .coefficients n d => { s with n := n, d := d, implicit := true }
  | .plane o n => s.setPlane o n
  | .origin o => { s with origin := o }
  | .normal n => { s with normal := n }
  | .insideOut b => { s with insideOut := b }
  | .force b => { s with force := b }
  | .kdTree b => { s with kd := b }

/-- data of the clone: zero on every vertex, src/utils/SpecularPoints.cpp:366-371 -/
def zeros {α : Type} (z : α) (vs : Data V3) : Data α := vs.map fun e => (e.1, z)

/-- the input data copied where present, src/utils/SpecularPoints.cpp:458-474 -/
def copied {α : Type} (input : Option (Data α)) (ids : List Nat) (out : Data α) : Data α :=
  match input with
  | none => out
  | some f => ids.foldl (fun out id => match get f id with | none => out | some v => setAt out id v) out

/-- first label above a list of ids, src/utils/SpecularPoints.cpp:431-440 -/
def labelAbove (ids : List Nat) : Nat := match ids with
  | [] => 0
  | i :: is => is.foldl max i + 1

/-- state of the loop: cloud, labels of the next vertex and cell, data -/
structure Growing where
  o : Obj V3
  vl : Nat
  cl : Nat
  s : Data ℝ
  v : Data V3

/-- one pass of the loop, src/utils/SpecularPoints.cpp:483-506; `none`: access to missing data or insertion of an id already
there -/
def mirrorStep (n : V3) (d sig margin : ℝ) (force : Bool) (st : Growing) (id : Nat) : Option Growing :=
  match get st.o.verts id with
  | none => none
  | some p =>
    let dist := sig * (dot n p + d)
    if margin < dist ∨ force = true then
      let o := (addVertex st.o 0 (p - V3.scale (2 * dist * sig) n) (some st.vl)).1
      let o := (addConnectedCell o 0 [st.vl] .vertex 0 (some st.cl)).1
      match get st.s id, get st.v id with
      | some a, some b =>
        match ins st.s st.vl a, ins st.v st.vl (b - V3.scale (2 * dot b (V3.scale sig n) * sig) n) with
        | some s, some v => some ⟨o, st.vl + 1, st.cl + 1, s, v⟩
        | _, _ => none
      | _, _ => none
    else some st

/-- the loop -/
def mirrorLoop (n : V3) (d sig margin : ℝ) (force : Bool) : List Nat → Growing → Option Growing
  | [], st => some st
  | id :: ids, st => (mirrorStep n d sig margin force st id).bind (mirrorLoop n d sig margin force ids)

/-- margin of the plane, src/utils/SpecularPoints.cpp:394-420 -/
def mirrorMargin (sf : Surface) (surf : Option (Obj V3)) : ℝ :=
  match surf with
  | none => 1 / 10 ^ 12
  | some o => if tiny < sf.area o then 6 / 5 * Real.sqrt (sf.area o / o.cells.length) else 1 / 10 ^ 12

/-- the surface to project on: linked, and with cells; src/utils/SpecularPoints.cpp:396-405 -/
def Mirror.surface (w : World) (s : Mirror) : Option (Obj V3) :=
  match s.geom with
  | none => none
  | some g => if 0 < (w g).cells.length then some (w g) else none

/-- what follows the loop, src/utils/SpecularPoints.cpp:508-521 -/
def finishCloud (sf : Surface) (surf : Option (Obj V3)) (o : Obj V3) : Option (Obj V3) :=
  match surf with
  | none => update (cleanInfo o)
  | some surf => projectObj sf surf o

/-- `execute`, src/utils/SpecularPoints.cpp:359-532; `none`: exception or undefined behaviour -/
def Mirror.execute (sf : Surface) (w : World) (s : Mirror) : Option Mirror :=
  match s.cloud with
  | none => none
  | some g =>
    (clone (w g)).bind fun o =>
      let s := if s.implicit then s else s.setPlane s.origin s.normal
      if norm2 s.n ≤ tiny then
        some { s with result := some o, scalarOut := zeros 0 o.verts, vectorOut := zeros ⟨0, 0, 0⟩ o.verts }
      else
        let ids := o.verts.map Prod.fst
        let sig : ℝ := if s.insideOut then -1 else 1
        (mirrorLoop s.n.unit s.d sig (mirrorMargin sf (s.surface w)) s.force ids
          ⟨o, labelAbove ids, labelAbove (o.cells.map Prod.fst), copied s.scalar ids (zeros 0 o.verts),
            copied s.vector ids (zeros ⟨0, 0, 0⟩ o.verts)⟩).bind fun r =>
          (finishCloud sf (s.surface w) r.o).bind fun o' =>
            some { s with
              result := some (if s.kd then Mesh.buildKd o' else o')
              scalarOut := r.s
              vectorOut := r.v }

/-- `clear`, src/utils/SpecularPoints.cpp:537-546, ProjPatchOnSurface.cpp:108-113, ProjPrimitivesOnSurfaces.cpp:189-193: origin, normal,
the flags for implicit planes and for points on the plane, and the cloud stay as they are -/
def Mirror.clear (s : Mirror) : Mirror :=
  { s with
    geom := none
    result := none
    scalar := none
    vector := none
    scalarOut := []
    vectorOut := []
    n := ⟨0, 0, 0⟩
    d := 0
    insideOut := false }

/-- copy constructor, src/utils/SpecularPoints.cpp:75-85 -/
def Mirror.copy (s : Mirror) : Mirror := { s with result := none, scalarOut := [], vectorOut := [] }

/-- settings in sequence -/
def Mirror.sets (w : World) (s : Mirror) (cs : List Mirror.Call) : Mirror := cs.foldl (Mirror.set w) s

end
end Verif.Utils
