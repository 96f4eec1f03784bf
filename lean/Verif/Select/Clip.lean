import Verif.Select.Model
/-
Model of ClipGeometry (src/geohandlers/ClipGeometry.cpp), serial build, over the real numbers.

* The centroid of a cell is bitpit's `evalCellCentroid`: a parameter `cen`.
* Coefficients that are not numbers (a zero normal divided by its length) are `none`: every comparison with them is false.
* `clean` is bitpit's `deleteCoincidentVertices` (external).
-/
namespace Verif.Select
open Verif.Field Verif.Mesh Verif.Shape

/-- coefficients of a x + b y + c z + d = 0 -/
@[ext] structure Plane where
  n : V3
  d : ℝ

/-- `m_plane`, `m_insideout`, `m_origin`, `m_normal`, `m_implicit`, src/geohandlers/ClipGeometry.hpp:86-91, as the default
constructor sets them (ClipGeometry.cpp:30-38) -/
structure Clip where
  plane : Option Plane := some ⟨⟨0, 0, 0⟩, 0⟩
  insideOut : Bool := false
  origin : V3 := ⟨0, 0, 0⟩
  normal : V3 := ⟨0, 0, 0⟩
  implicit : Bool := false

/-- `setClipPlane(coefficients)`, src/geohandlers/ClipGeometry.cpp:130-133 -/
def Clip.setCoefficients (s : Clip) (p : Plane) : Clip := { s with plane := some p, implicit := true }

/-- the plane through a point, src/geohandlers/ClipGeometry.cpp:144-150; the division by zero is `none` -/
noncomputable def planeOf (origin normal : V3) : Option Plane :=
  open Classical in
  if norm2 normal = 0 then none
  else
    let n : V3 := ⟨normal.x / norm2 normal, normal.y / norm2 normal, normal.z / norm2 normal⟩
    some ⟨n, -1 * dot origin n⟩

/-- `setClipPlane(origin, normal)`, src/geohandlers/ClipGeometry.cpp:142-154 -/
noncomputable def Clip.setPlane (s : Clip) (origin normal : V3) : Clip :=
  { s with plane := planeOf origin normal, implicit := true }

/-- `setOrigin`, `setNormal`, `setInsideOut`, src/geohandlers/ClipGeometry.cpp:162-185 -/
def Clip.setOrigin (s : Clip) (p : V3) : Clip := { s with origin := p }
def Clip.setNormal (s : Clip) (p : V3) : Clip := { s with normal := p }
def Clip.setInsideOut (s : Clip) (b : Bool) : Clip := { s with insideOut := b }

/-- the test on a point, src/geohandlers/ClipGeometry.cpp:256-266, 276, 287: the normal is divided by its length, the offset
is not -/
def Clip.keeps (s : Clip) (p : V3) : Prop :=
  match s.plane with
  | none => False
  | some pl =>
    ¬ norm2 pl.n < 1 / 10 ^ 18 ∧
    (if s.insideOut then -1 else 1) *
      (dot ⟨pl.n.x / norm2 pl.n, pl.n.y / norm2 pl.n, pl.n.z / norm2 pl.n⟩ p + pl.d) > (0 : ℝ)

/-- `clipPlane`, src/geohandlers/ClipGeometry.cpp:251-295 -/
noncomputable def Clip.clipPlane (s : Clip) (o : Obj V3) (cen : Nat → V3) : List Nat :=
  open Classical in
  if o.type = 3 then (o.verts.filter (fun v => s.keeps v.2)).map Prod.fst
  else (cellIds o).filter (fun i => s.keeps (cen i))

/-- the clipped patch before cleaning, src/geohandlers/ClipGeometry.cpp:208-236: vertices, then cells of the list, for
every type of geometry -/
def clipSub {P : Type} (o : Obj P) (ex : List Nat) : Option (Obj P) :=
  (ctor (o.type : Int)).bind fun t =>
    ((addVerts o (vertexFromCells o ex) t).bind (addCells o ex)).map (copyNames o)

/-- `execute`, src/geohandlers/ClipGeometry.cpp:191-242, with a geometry linked: the block and the patch -/
noncomputable def Clip.execute (s : Clip) (clean : Obj V3 → Data V3 × Data Cell) (o : Obj V3) (cen : Nat → V3) :
    Clip × Option (Obj V3) :=
  let s := if s.implicit then s else s.setPlane s.origin s.normal
  (s, (clipSub o (s.clipPlane o cen)).bind fun t => update (cleanGeometry t (clean t).1 (clean t).2))

/-- what XML holds of the block: the flag, a point and the normal (numbers, not their text) -/
structure ClipXml where
  insideOut : Bool
  point : V3
  normal : V3

/-- position of the first largest component, src/geohandlers/ClipGeometry.cpp:374-383; `abs` is the absolute value -/
noncomputable def largest (n : V3) : Option Nat :=
  open Classical in
  let step := fun (s : Option Nat × ℝ) (i : Nat) => if |n.at i| > s.2 then (some i, |n.at i|) else s
  ([0, 1, 2].foldl step (none, 0)).1

/-- `flushSectionXML`, src/geohandlers/ClipGeometry.cpp:361-396; coefficients that are not numbers write no number (`none`) -/
noncomputable def Clip.flush (s : Clip) : Option ClipXml :=
  s.plane.map fun pl =>
    ⟨s.insideOut,
      match largest pl.n with
      | none => ⟨0, 0, 0⟩
      | some 0 => ⟨-1 * pl.d / pl.n.x, 0, 0⟩
      | some 1 => ⟨0, -1 * pl.d / pl.n.y, 0⟩
      | some _ => ⟨0, 0, -1 * pl.d / pl.n.z⟩,
      pl.n⟩

/-- `absorbSectionXML`, src/geohandlers/ClipGeometry.cpp:313-353, of a section with both entries -/
noncomputable def Clip.absorb (s : Clip) (x : ClipXml) : Clip := (s.setInsideOut x.insideOut).setPlane x.point x.normal

end Verif.Select
