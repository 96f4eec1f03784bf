import Verif.Mesh.QueryProps
import Verif.Shape.FrameProps
/-
Deformation blocks of src/manipulators: TranslationGeometry, RotationGeometry, ScaleGeometry, TwistGeometry,
BendGeometry, Apply and ApplyFilter.

* A geometry is referred to by a handle (the address held by the shared pointer); `World` gives the object behind each
  handle.  `double` is ℝ (see Verif.Shape.Model).
* A field holds the handle of its geometry; completion of missing data (Verif.Field.Model) looks at the object behind it.
* An exception, or `operator[]` of a container with an id that is not there (undefined behaviour), is `none`.
* Reading and writing of XML, ports other than those that write members directly, plots and logging are not modelled.
-/
namespace Verif.Manip
open Verif.Field Verif.Mesh Verif.Shape

noncomputable section
open scoped Classical

/-- what is behind each handle -/
abbrev World := Nat → Obj V3

/-- the ids of the entities of a geometry (interfaces are not used here) -/
def geoOf (o : Obj V3) : Geo := ⟨o.verts.map Prod.fst, o.cells.map Prod.fst, []⟩

/-- `completeMissingData` of a field linked to a handle (Verif.Field.completeMissingData) -/
def completeIn {α : Type} (w : World) (f : Field Nat α) (d : α) : Option (Field Nat α × Bool) :=
  (completeMissingData ⟨f.geo.map (fun g => geoOf (w g)), f.name, f.loc, f.data⟩ d).map
    (fun r => ({ f with data := r.1.data }, r.2))

/-- a constant field on the vertices, as built when a filter or an input is not valid:
src/manipulators/TranslationGeometry.cpp:195-201, src/manipulators/Apply.cpp:431-437 -/
def constField {α : Type} (w : World) (g : Nat) (v : α) : Option (Field Nat α) :=
  (insertAll v ((w g).verts.map Prod.fst) []).map (fun d => ⟨some g, defaultName, .point, d⟩)

/-- `checkFilter`, src/manipulators/TranslationGeometry.cpp:184-203; the same text in RotationGeometry.cpp:229-248,
ScaleGeometry.cpp:205-224, TwistGeometry.cpp:262-281 and BendGeometry.cpp:294-312.  `&&` stops at the first false:
the filter is completed before its geometry is compared. -/
def checkFilter (w : World) (g : Nat) (f : Field Nat ℝ) : Option (Field Nat ℝ) :=
  if f.loc = .point then
    match completeIn w f 0 with
    | none => none
    | some (f', ok) => if ok = true ∧ f'.geo = some g then some f' else constField w g 1
  else constField w g 1

/-- the loop over the vertices: `m_displ.insert(ID, value)` with a value that depends on the coordinates and on
`m_filter[ID]` -/
def displLoop (filter : Data ℝ) (value : V3 → ℝ → V3) : Data V3 → Data V3 → Option (Data V3)
  | [], acc => some acc
  | e :: es, acc =>
    match get filter e.1 with
    | none => none
    | some s => (ins acc e.1 (value e.2 s)).bind (displLoop filter value es)

/-- members common to the five transformation blocks: `m_geometry`, `m_filter`, `m_displ` -/
structure Block where
  geom : Option Nat
  filter : Field Nat ℝ
  displ : Field Nat V3

/-- a new block: null geometry, empty fields -/
def Block.empty : Block := ⟨none, make none .undefined, make none .undefined⟩

/-- the frame of `execute`, src/manipulators/TranslationGeometry.cpp:146-170, RotationGeometry.cpp:174-215,
ScaleGeometry.cpp:157-191, TwistGeometry.cpp:194-248: exception without geometry; filter checked; displacements cleared,
located on points, linked to the geometry; one value for each vertex -/
def Block.run (w : World) (b : Block) (value : Obj V3 → V3 → ℝ → V3) : Option Block :=
  match b.geom with
  | none => none
  | some g =>
    match checkFilter w g b.filter with
    | none => none
    | some f =>
      (displLoop f.data (value (w g)) (w g).verts []).map
        (fun d => { b with filter := f, displ := ⟨some g, defaultName, .point, d⟩ })

/-- `setFilter`, src/manipulators/TranslationGeometry.cpp:127-131 (same in the others; the null pointer is ignored, but
dereferenced by BendGeometry.cpp:232-235) -/
def Block.setFilter (b : Block) (f : Field Nat ℝ) : Block := { b with filter := f }

/-- `setGeometry` of BaseManipulation and the port M_GEOM -/
def Block.setGeometry (b : Block) (g : Nat) : Block := { b with geom := some g }

/-- `apply`, src/manipulators/TranslationGeometry.cpp:175-177, that is `_apply`,
src/core/BaseManipulation.cpp:956-971: nothing without geometry -/
def Block.apply (w : World) (b : Block) : Option World :=
  match b.geom with
  | none => some w
  | some g => (applyDisp b.displ.data (w g)).map (fun o h => if h = g then o else w h)

/-- copy constructors, e.g. src/manipulators/TranslationGeometry.cpp:64-68, with the one of BaseManipulation,
src/core/BaseManipulation.cpp:83-107: geometry and filter are copied, displacements are not -/
def Block.copy (b : Block) : Block := ⟨b.geom, b.filter, make none .undefined⟩

/-- `m_direction /= norm2(m_direction)` in the four `setDirection`, e.g. src/manipulators/TranslationGeometry.cpp:107-113
(the zero vector gives NaN in the code) -/
def normalize (d : V3) : V3 := d.unit

/-! ## TranslationGeometry -/

/-- members of TranslationGeometry, src/manipulators/TranslationGeometry.hpp -/
structure Translation extends Block where
  direction : V3
  alpha : ℝ

/-- constructor, src/manipulators/TranslationGeometry.cpp:32-36: the direction is taken as it is -/
def Translation.make (d : V3) : Translation := { Block.empty with direction := d, alpha := 0 }

/-- `setDirection`, src/manipulators/TranslationGeometry.cpp:107-113 -/
def Translation.setDirection (t : Translation) (d : V3) : Translation := { t with direction := normalize d }

/-- `setTranslation`, src/manipulators/TranslationGeometry.cpp:118-121 -/
def Translation.setTranslation (t : Translation) (a : ℝ) : Translation := { t with alpha := a }

/-- port M_AXIS, src/manipulators/TranslationGeometry.cpp:95: writes the member -/
def Translation.portAxis (t : Translation) (d : V3) : Translation := { t with direction := d }

/-- body of the loop, src/manipulators/TranslationGeometry.cpp:166-167 -/
def Translation.value (t : Translation) (_ : Obj V3) (_ : V3) (s : ℝ) : V3 :=
  V3.scale s (V3.scale t.alpha t.direction)

/-- `execute`, src/manipulators/TranslationGeometry.cpp:146-170 -/
def Translation.execute (w : World) (t : Translation) : Option Translation :=
  (t.toBlock.run w t.value).map (fun b => { t with toBlock := b })

/-- copy constructor, src/manipulators/TranslationGeometry.cpp:64-68 -/
def Translation.copy (t : Translation) : Translation := ⟨t.toBlock.copy, t.direction, t.alpha⟩

/-! ## RotationGeometry -/

/-- members of RotationGeometry, src/manipulators/RotationGeometry.hpp -/
structure Rotation extends Block where
  origin : V3
  direction : V3
  alpha : ℝ

/-- constructor, src/manipulators/RotationGeometry.cpp:34-39: the direction is taken as it is -/
def Rotation.make (o d : V3) : Rotation := { Block.empty with origin := o, direction := d, alpha := 0 }

/-- `setAxis`, src/manipulators/RotationGeometry.cpp:117-121: the direction is taken as it is -/
def Rotation.setAxis (t : Rotation) (o d : V3) : Rotation := { t with origin := o, direction := d }

/-- `setOrigin`, src/manipulators/RotationGeometry.cpp:126-129 -/
def Rotation.setOrigin (t : Rotation) (o : V3) : Rotation := { t with origin := o }

/-- `setDirection`, src/manipulators/RotationGeometry.cpp:134-140 -/
def Rotation.setDirection (t : Rotation) (d : V3) : Rotation := { t with direction := normalize d }

/-- `setRotation`, src/manipulators/RotationGeometry.cpp:145-148 -/
def Rotation.setRotation (t : Rotation) (a : ℝ) : Rotation := { t with alpha := a }

/-- port M_AXIS, src/manipulators/RotationGeometry.cpp:104: writes the member -/
def Rotation.portAxis (t : Rotation) (d : V3) : Rotation := { t with direction := d }

/-- Rodrigues' formula as written, src/manipulators/RotationGeometry.cpp:190-192, 201-205, and
src/manipulators/TwistGeometry.cpp:223-236 -/
def rodrigues (u : V3) (angle : ℝ) (p : V3) : V3 :=
  V3.scale (Real.cos angle) p + V3.scale (dot u p) (V3.scale (1 - Real.cos angle) u) +
    V3.scale (Real.sin angle) (cross u p)

/-- body of the loop, src/manipulators/RotationGeometry.cpp:197-211 -/
def Rotation.value (t : Rotation) (_ : Obj V3) (p : V3) (s : ℝ) : V3 :=
  let q := p - t.origin
  let r := rodrigues t.direction t.alpha q + t.origin
  V3.scale s (r - (q + t.origin))

/-- `execute`, src/manipulators/RotationGeometry.cpp:174-215 -/
def Rotation.execute (w : World) (t : Rotation) : Option Rotation :=
  (t.toBlock.run w t.value).map (fun b => { t with toBlock := b })

/-- copy constructor, src/manipulators/RotationGeometry.cpp:69-74 -/
def Rotation.copy (t : Rotation) : Rotation := ⟨t.toBlock.copy, t.origin, t.direction, t.alpha⟩

/-! ## ScaleGeometry -/

/-- members of ScaleGeometry, src/manipulators/ScaleGeometry.hpp -/
structure Scale extends Block where
  scaling : V3
  origin : V3
  meanP : Bool

/-- constructor, src/manipulators/ScaleGeometry.cpp:32-37 -/
def Scale.make (s : V3) : Scale := { Block.empty with scaling := s, origin := ⟨0, 0, 0⟩, meanP := false }

/-- `setOrigin`, src/manipulators/ScaleGeometry.cpp:113-116 -/
def Scale.setOrigin (t : Scale) (o : V3) : Scale := { t with origin := o }

/-- `setMeanPoint`, src/manipulators/ScaleGeometry.cpp:121-124 -/
def Scale.setMeanPoint (t : Scale) (b : Bool) : Scale := { t with meanP := b }

/-- `setScaling`, src/manipulators/ScaleGeometry.cpp:129-132 -/
def Scale.setScaling (t : Scale) (s : V3) : Scale := { t with scaling := s }

/-- sum of the coordinates, src/manipulators/ScaleGeometry.cpp:176-179 -/
def sumOf (vs : Data V3) : V3 := vs.foldl (fun a e => a + e.2) ⟨0, 0, 0⟩

/-- the centre, src/manipulators/ScaleGeometry.cpp:173-181 (without vertices 0/0, never used) -/
def Scale.center (t : Scale) (o : Obj V3) : V3 :=
  if t.meanP then V3.div (sumOf o.verts) ⟨o.verts.length, o.verts.length, o.verts.length⟩ else t.origin

/-- body of the loop, src/manipulators/ScaleGeometry.cpp:185-187 -/
def Scale.value (t : Scale) (o : Obj V3) (p : V3) (s : ℝ) : V3 :=
  V3.scale s (V3.mul t.scaling (p - t.center o) + t.center o - p)

/-- `execute`, src/manipulators/ScaleGeometry.cpp:157-191 -/
def Scale.execute (w : World) (t : Scale) : Option Scale :=
  (t.toBlock.run w t.value).map (fun b => { t with toBlock := b })

/-- copy constructor, src/manipulators/ScaleGeometry.cpp:66-71 -/
def Scale.copy (t : Scale) : Scale := ⟨t.toBlock.copy, t.scaling, t.origin, t.meanP⟩

/-! ## TwistGeometry -/

/-- members of TwistGeometry, src/manipulators/TwistGeometry.hpp -/
structure Twist extends Block where
  origin : V3
  direction : V3
  alpha : ℝ
  distance : ℝ
  sym : Bool

/-- constructor, src/manipulators/TwistGeometry.cpp:32-39 -/
def Twist.make (o d : V3) : Twist :=
  { Block.empty with origin := o, direction := d, alpha := 0, distance := 0, sym := false }

/-- `setAxis`, src/manipulators/TwistGeometry.cpp:121-125: the direction is taken as it is -/
def Twist.setAxis (t : Twist) (o d : V3) : Twist := { t with origin := o, direction := d }

/-- `setOrigin`, src/manipulators/TwistGeometry.cpp:130-133 -/
def Twist.setOrigin (t : Twist) (o : V3) : Twist := { t with origin := o }

/-- `setDirection`, src/manipulators/TwistGeometry.cpp:138-144 -/
def Twist.setDirection (t : Twist) (d : V3) : Twist := { t with direction := normalize d }

/-- `setTwist`, src/manipulators/TwistGeometry.cpp:149-152 -/
def Twist.setTwist (t : Twist) (a : ℝ) : Twist := { t with alpha := a }

/-- `setSym`, src/manipulators/TwistGeometry.cpp:157-160 -/
def Twist.setSym (t : Twist) (b : Bool) : Twist := { t with sym := b }

/-- `setMaxDistance`, src/manipulators/TwistGeometry.cpp:165-168 -/
def Twist.setMaxDistance (t : Twist) (d : ℝ) : Twist := { t with distance := d }

/-- the angle at a signed distance, src/manipulators/TwistGeometry.cpp:221-222 -/
def Twist.angle (t : Twist) (d : ℝ) : ℝ :=
  let rot := min t.alpha (|d| / t.distance * t.alpha)
  if d < 0 then -rot * (if t.sym then 1 else 0) else rot

/-- body of the loop, src/manipulators/TwistGeometry.cpp:214-243 -/
def Twist.value (t : Twist) (_ : Obj V3) (p : V3) (s : ℝ) : V3 :=
  let d := dot (p - t.origin) t.direction
  let projected := V3.scale d t.direction + t.origin
  let q := p - projected
  let r := rodrigues t.direction (t.angle d) q + projected
  V3.scale s (r - (q + projected))

/-- `execute`, src/manipulators/TwistGeometry.cpp:194-248 -/
def Twist.execute (w : World) (t : Twist) : Option Twist :=
  (t.toBlock.run w t.value).map (fun b => { t with toBlock := b })

/-- copy constructor, src/manipulators/TwistGeometry.cpp:70-77 -/
def Twist.copy (t : Twist) : Twist := ⟨t.toBlock.copy, t.origin, t.direction, t.alpha, t.distance, t.sym⟩

/-! ## BendGeometry -/

/-- members of BendGeometry, src/manipulators/BendGeometry.hpp; `degree i j`, `coeffs i j` for `i, j < 3` -/
structure Bend extends Block where
  origin : V3
  system : M3
  isLocal : Bool
  degree : Nat → Nat → Nat
  coeffs : Nat → Nat → List ℝ

/-- constructor, src/manipulators/BendGeometry.cpp:32-38 -/
def Bend.make : Bend :=
  { Block.empty with
    origin := ⟨0, 0, 0⟩, system := M3.one, isLocal := false, degree := fun _ _ => 0, coeffs := fun _ _ => [] }

/-- `std::vector::resize(n, 0.0)` -/
def resize (l : List ℝ) (n : Nat) : List ℝ := l.take n ++ List.replicate (n - l.length) 0

/-- `setDegree(i, j, degree)`, src/manipulators/BendGeometry.cpp:178-181 -/
def Bend.setDegree (t : Bend) (i j n : Nat) : Bend :=
  { t with
    degree := fun a b => if a = i ∧ b = j then n else t.degree a b,
    coeffs := fun a b => if a = i ∧ b = j then resize (t.coeffs a b) (n + 1) else t.coeffs a b }

/-- `setCoeffs(i, j, coeffs)`, src/manipulators/BendGeometry.cpp:202-205 -/
def Bend.setCoeffs (t : Bend) (i j : Nat) (l : List ℝ) : Bend :=
  { t with coeffs := fun a b => if a = i ∧ b = j then l else t.coeffs a b }

/-- `setOrigin`, src/manipulators/BendGeometry.cpp:211-215 -/
def Bend.setOrigin (t : Bend) (o : V3) : Bend := { t with origin := o, isLocal := true }

/-- `setRefSystem`, src/manipulators/BendGeometry.cpp:221-227 -/
def Bend.setRefSystem (t : Bend) (m : M3) : Bend := { t with system := m, isLocal := true }

/-- ports M_POINT and M_AXES, src/manipulators/BendGeometry.cpp:113-114: write the members only -/
def Bend.portOrigin (t : Bend) (o : V3) : Bend := { t with origin := o }
def Bend.portAxes (t : Bend) (m : M3) : Bend := { t with system := m }

/-- `toLocalCoord` with `matmul(mat, vec)`, src/manipulators/BendGeometry.cpp:318-325, 374-387 -/
def Bend.toLocal (t : Bend) (p : V3) : V3 := t.system.app (p - t.origin)

/-- `matmul(vec, mat)`, src/manipulators/BendGeometry.cpp:353-366 -/
def rowMul (v : V3) (m : M3) : V3 := V3.scale v.x m.r0 + V3.scale v.y m.r1 + V3.scale v.z m.r2

/-- `toGlobalCoord`, src/manipulators/BendGeometry.cpp:333-347 -/
def Bend.toGlobal (t : Bend) (p : V3) : V3 := rowMul p t.system + t.origin

/-- the innermost loop, src/manipulators/BendGeometry.cpp:273-276, from term `k` on -/
def polyTerms (x s : ℝ) : Nat → List ℝ → ℝ → ℝ
  | _, [], acc => acc
  | k, a :: as, acc => polyTerms x s (k + 1) as (acc + x ^ k * a * s)

/-- the loop over the axes for the component `j`, src/manipulators/BendGeometry.cpp:270-279; the coefficients were
resized to degree + 1 at lines 248-253 -/
def Bend.component (t : Bend) (p : V3) (s : ℝ) (j : Nat) : ℝ :=
  [0, 1, 2].foldl (fun acc z =>
    if t.degree j z > 0 then polyTerms (p.at z) s 0 (resize (t.coeffs j z) (t.degree j z + 1)) acc else acc) 0

/-- body of the loop, src/manipulators/BendGeometry.cpp:261-286 -/
def Bend.value (t : Bend) (_ : Obj V3) (p : V3) (s : ℝ) : V3 :=
  let q := if t.isLocal then t.toLocal p else p
  let v : V3 := ⟨t.component q s 0, t.component q s 1, t.component q s 2⟩
  if t.isLocal then t.toGlobal (q + v) - p else v

/-- `execute`, src/manipulators/BendGeometry.cpp:243-289 -/
def Bend.execute (w : World) (t : Bend) : Option Bend :=
  (t.toBlock.run w t.value).map (fun b => { t with
    toBlock := b
    coeffs := fun i j => resize (t.coeffs i j) (t.degree i j + 1) })

/-- copy constructor, src/manipulators/BendGeometry.cpp:70-77 -/
def Bend.copy (t : Bend) : Bend := ⟨t.toBlock.copy, t.origin, t.system, t.isLocal, t.degree, t.coeffs⟩

/-! ## Apply -/

/-- members of Apply, src/manipulators/Apply.hpp:124-137; `nrm` gives the normal bitpit computes at a vertex of the
geometry behind a handle, none for a vertex of no cell -/
structure Apply where
  geom : Option Nat
  input : Field Nat V3
  scalar : Field Nat ℝ
  filter : Field Nat ℝ
  factor : ℝ
  output : Field Nat V3
  annotation : Bool
  thres : ℝ
  cellLabel : List Verif.BinStream.Byte
  vertLabel : List Verif.BinStream.Byte
  cellAnn : Field Nat Nat
  vertAnn : Field Nat Nat

/-- constructor, src/manipulators/Apply.cpp:32-41 -/
def Apply.new (cl vl : List Verif.BinStream.Byte) : Apply where
  geom := none
  input := Field.make none .undefined
  scalar := Field.make none .undefined
  filter := Field.make none .undefined
  factor := 1
  output := Field.make none .undefined
  annotation := false
  thres := 1 / 10 ^ 18
  cellLabel := cl
  vertLabel := vl
  cellAnn := Field.make none .undefined
  vertAnn := Field.make none .undefined

/-- copy constructor, src/manipulators/Apply.cpp:73-82: the filter is not copied -/
def Apply.copy (a : Apply) : Apply :=
  { Apply.new a.cellLabel a.vertLabel with
    geom := a.geom, input := a.input, scalar := a.scalar, factor := a.factor, annotation := a.annotation,
    thres := a.thres }

/-- setters, src/manipulators/Apply.cpp:126-172 (null pointers are ignored) -/
def Apply.setInput (a : Apply) (f : Field Nat V3) : Apply := { a with input := f }
def Apply.setScalarInput (a : Apply) (f : Field Nat ℝ) : Apply := { a with scalar := f }
def Apply.setFilter (a : Apply) (f : Field Nat ℝ) : Apply := { a with filter := f }
def Apply.setScaling (a : Apply) (x : ℝ) : Apply := { a with factor := x }
def Apply.setAnnotation (a : Apply) (b : Bool) : Apply := { a with annotation := b }

/-- `setAnnotationThreshold`, src/manipulators/Apply.cpp:180-183 -/
def Apply.setThreshold (a : Apply) (x : ℝ) : Apply := { a with thres := max (1 / 10 ^ 18) x }

/-- `m_input.insert(id, m_scalarinput[id]*vNormals[id])` for every vertex, src/manipulators/Apply.cpp:398-405 -/
def normalLoop (scalar : Data ℝ) (nrm : Nat → Option V3) : List Nat → Data V3 → Option (Data V3)
  | [], acc => some acc
  | id :: ids, acc =>
    match get scalar id, nrm id with
    | some s, some n => (ins acc id (V3.scale s n)).bind (normalLoop scalar nrm ids)
    | _, _ => none

/-- `m_input[ID] *= m_filter[ID]` for every vertex, src/manipulators/Apply.cpp:421-424 -/
def filterLoop (filter : Data ℝ) : List Nat → Data V3 → Option (Data V3)
  | [], d => some d
  | id :: ids, d =>
    match get filter id, get d id with
    | some s, some v => filterLoop filter ids (setAt d id (V3.scale s v))
    | _, _ => none

/-- first part of `checkInput`, src/manipulators/Apply.cpp:370-375: the vector input -/
def Apply.checkVector (w : World) (g : Nat) (a : Apply) : Option (Apply × Bool) :=
  if a.input.data.length = 0 then some (a, false)
  else if a.input.loc = .point ∧ a.input.geo = some g then
    (completeIn w a.input ⟨0, 0, 0⟩).map (fun r => ({ a with input := r.1 }, r.2))
  else some (a, false)

/-- second part, src/manipulators/Apply.cpp:376-406: the scalar input, along the normals of a surface.
(`updateAdjacencies` of the geometry at line 382 does not touch vertices and cells; not modelled.) -/
def Apply.checkScalar (w : World) (nrm : Nat → Nat → Option V3) (g : Nat) (a : Apply) (check : Bool) :
    Option (Apply × Bool) :=
  if a.scalar.data.length = 0 then some (a, check)
  else if a.scalar.loc = .point ∧ (w g).type = 1 ∧ a.scalar.geo = some g then
    match completeIn w a.scalar 0 with
    | none => none
    | some (s, false) => some ({ a with scalar := s }, false)
    | some (s, true) =>
      (normalLoop s.data (nrm g) ((w g).verts.map Prod.fst) []).map (fun d =>
        ({ a with
            scalar := s
            input := if (w g).verts = [] then ⟨none, defaultName, .undefined, []⟩
              else ⟨some g, defaultName, .point, d⟩ }, true))
  else some (a, false)

/-- third part, src/manipulators/Apply.cpp:407-426: the filter; its geometry is forced -/
def Apply.checkFilter (w : World) (g : Nat) (a : Apply) (check : Bool) : Option (Apply × Bool) :=
  if a.filter.data.length = 0 then some (a, check)
  else
    let f : Field Nat ℝ := { a.filter with geo := some g }
    if f.loc = .point ∧ (w g).type = 1 then
      match completeIn w f 0 with
      | none => none
      | some (f, false) => some ({ a with filter := f }, false)
      | some (f, true) =>
        (filterLoop f.data ((w g).verts.map Prod.fst) a.input.data).map (fun d =>
          ({ a with filter := f, input := { a.input with data := d } }, true))
    else some ({ a with filter := f }, false)

/-- `checkInput`, src/manipulators/Apply.cpp:367-439 -/
def Apply.checkInput (w : World) (nrm : Nat → Nat → Option V3) (g : Nat) (a : Apply) : Option Apply :=
  (a.checkVector w g).bind fun r1 =>
  (r1.1.checkScalar w nrm g r1.2).bind fun r2 =>
  (r2.1.checkFilter w g r2.2).bind fun r3 =>
    if r3.2 then some r3.1
    else (constField w g (⟨0, 0, 0⟩ : V3)).map (fun f => { r3.1 with input := f })

/-- the loop of `execute`, src/manipulators/Apply.cpp:253-260: `m_output[ID] = m_factor*m_input[ID]` and
`modifyVertex` -/
def moveLoop (factor : ℝ) (input : Data V3) : List Nat → Data V3 × Obj V3 → Option (Data V3 × Obj V3)
  | [], s => some s
  | id :: ids, s =>
    match get input id, get s.2.verts id with
    | some v, some p =>
      moveLoop factor input ids
        (setAt s.1 id (V3.scale factor v), (modifyVertex s.2 (p + V3.scale factor v) id).1)
    | _, _ => none

/-- the annotations, src/manipulators/Apply.cpp:263-294 -/
def Apply.annotate (a : Apply) (g : Nat) (o : Obj V3) : Apply :=
  if a.annotation then
    let vs := (a.output.data.filter (fun e => ¬ norm2 e.2 < a.thres)).map (fun e => (e.1, e.1))
    let cs := (cellFromVertices o (vs.map Prod.fst) false).map (fun c => (c, c))
    { a with
      vertAnn := ⟨some g, a.vertLabel, .point, vs⟩
      cellAnn := ⟨some g, a.cellLabel, .cell, cs⟩ }
  else a

/-- `execute`, src/manipulators/Apply.cpp:241-299: nothing happens without geometry -/
def Apply.execute (w : World) (nrm : Nat → Nat → Option V3) (a : Apply) : Option (Apply × World) :=
  match a.geom with
  | none => some (a, w)
  | some g =>
    (a.checkInput w nrm g).bind fun a1 =>
    (moveLoop a1.factor a1.input.data ((w g).verts.map Prod.fst) (a1.input.data, w g)).bind fun s =>
      let a2 := { a1 with output := { a1.input with data := s.1 } }
      let a3 := a2.annotate g s.2
      (update s.2).map (fun o => (a3, fun h => if h = g then o else w h))

/-! ## ApplyFilter -/

/-- `checkInput` of ApplyFilter, first part, src/manipulators/ApplyFilter.cpp:163-174 -/
def Apply.checkVectorF (w : World) (a : Apply) : Option (Apply × Option Nat × Bool) :=
  if a.input.data.length = 0 then some (a, a.geom, false)
  else
    let lg := if a.geom = none then a.input.geo else a.geom
    let inp : Field Nat V3 := if a.geom = none then a.input else { a.input with geo := a.geom }
    if inp.loc = .point then
      (completeIn w inp ⟨0, 0, 0⟩).map (fun r => ({ a with input := r.1 }, lg, r.2))
    else some ({ a with input := inp }, lg, false)

/-- second part, src/manipulators/ApplyFilter.cpp:175-209; the surface kernel is not checked -/
def Apply.checkScalarF (w : World) (nrm : Nat → Nat → Option V3) (a : Apply) (lg : Option Nat) (check : Bool) :
    Option (Apply × Option Nat × Bool) :=
  if a.scalar.data.length = 0 then some (a, lg, check)
  else
    let lg' := if lg = none then a.scalar.geo else lg
    let sc : Field Nat ℝ := if lg = none then a.scalar else { a.scalar with geo := lg }
    if sc.loc = .point then
      match completeIn w sc 0, lg' with
      | none, _ => none
      | some (s, false), _ => some ({ a with scalar := s }, lg', false)
      | some (_, true), none => none
      | some (s, true), some g =>
        (normalLoop s.data (nrm g) ((w g).verts.map Prod.fst) []).map (fun d =>
          ({ a with
              scalar := s
              input := if (w g).verts = [] then ⟨none, defaultName, .undefined, []⟩
                else ⟨some g, defaultName, .point, d⟩ }, lg', true))
    else some ({ a with scalar := sc }, lg', false)

/-- third part, src/manipulators/ApplyFilter.cpp:210-227 -/
def Apply.checkFilterF (w : World) (a : Apply) (lg : Option Nat) (check : Bool) : Option (Apply × Bool) :=
  if a.filter.data.length = 0 then some (a, check)
  else
    let f : Field Nat ℝ := { a.filter with geo := lg }
    if f.loc = .point then
      match completeIn w f 0, lg with
      | none, _ => none
      | some (f, false), _ => some ({ a with filter := f }, false)
      | some (_, true), none => none
      | some (f, true), some g =>
        (filterLoop f.data ((w g).verts.map Prod.fst) a.input.data).map (fun d =>
          ({ a with filter := f, input := { a.input with data := d } }, true))
    else some ({ a with filter := f }, false)

/-- `ApplyFilter::execute`, src/manipulators/ApplyFilter.cpp:94-106, with `checkInput`, lines 157-233 (exception when not
valid).  The scaling is skipped when it is the largest double, which is not a real number of the model. -/
def Apply.executeFilter (w : World) (nrm : Nat → Nat → Option V3) (a : Apply) : Option Apply :=
  (a.checkVectorF w).bind fun r1 =>
  (r1.1.checkScalarF w nrm r1.2.1 r1.2.2).bind fun r2 =>
  (r2.1.checkFilterF w r2.2.1 r2.2.2).bind fun r3 =>
    if r3.2 then
      some { r3.1 with
        output := { r3.1.input with data := r3.1.input.data.map (fun e => (e.1, V3.scale r3.1.factor e.2)) } }
    else none

end
end Verif.Manip
