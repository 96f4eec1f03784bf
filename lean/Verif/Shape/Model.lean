import Mathlib.Analysis.SpecialFunctions.Complex.Arg
import Mathlib.Tactic.Ring
import Mathlib.Tactic.Linarith
import Mathlib.Tactic.FieldSimp
import Mathlib.Tactic.LinearCombination
/-
Elementary shapes of `mimmo::BasicShape` and its derived classes Cube, Cylinder, Sphere and Wedge
(src/core/BasicShapes.cpp, src/core/BasicShapes.hpp).

`double` is ℝ: no rounding, no overflow.  Divisions by zero (infinities and NaN in the code) are divisions by zero of
Lean; the theorems exclude them by hypothesis, and where the code itself creates them the result is `none`.
`assert(false)` before a `return` is the release behaviour (return).
The search trees are those of bitpit (external): a tree is given with its nodes, boxes and cells.
-/
namespace Verif.Shape
open Real

noncomputable section
open scoped Classical

/-- `darray3E` -/
@[ext] structure V3 where
  x : ℝ
  y : ℝ
  z : ℝ

/-- `point[i]` -/
def V3.at (v : V3) : Nat → ℝ
  | 0 => v.x
  | 1 => v.y
  | _ => v.z

instance : Add V3 := ⟨fun a b => ⟨a.x + b.x, a.y + b.y, a.z + b.z⟩⟩
instance : Sub V3 := ⟨fun a b => ⟨a.x - b.x, a.y - b.y, a.z - b.z⟩⟩

/-- scalar times array -/
def V3.scale (k : ℝ) (v : V3) : V3 := ⟨k * v.x, k * v.y, k * v.z⟩

/-- bitpit's `dotProduct`, `crossProduct`, `norm2` (external) -/
def dot (a b : V3) : ℝ := a.x * b.x + a.y * b.y + a.z * b.z
def cross (a b : V3) : V3 := ⟨a.y * b.z - a.z * b.y, a.z * b.x - a.x * b.z, a.x * b.y - a.y * b.x⟩
def norm2 (a : V3) : ℝ := √(dot a a)

/-- `dmatrix33E`, by rows -/
@[ext] structure M3 where
  r0 : V3
  r1 : V3
  r2 : V3

/-- `mat[i]` -/
def M3.row (m : M3) : Nat → V3
  | 0 => m.r0
  | 1 => m.r1
  | _ => m.r2

/-- `mat[i] = v` -/
def M3.setRow (m : M3) (i : Nat) (v : V3) : M3 :=
  match i with
  | 0 => { m with r0 := v }
  | 1 => { m with r1 := v }
  | _ => { m with r2 := v }

/-- identity matrix -/
def M3.one : M3 := ⟨⟨1, 0, 0⟩, ⟨0, 1, 0⟩, ⟨0, 0, 1⟩⟩

/-- the determinant computed in `inverse`, src/core/BasicShapes.cpp:832-834 -/
def M3.det (m : M3) : ℝ :=
  m.r0.x * (m.r1.y * m.r2.z - m.r2.y * m.r1.z) - m.r0.y * (m.r1.x * m.r2.z - m.r2.x * m.r1.z) +
    m.r0.z * (m.r1.x * m.r2.y - m.r2.x * m.r1.y)

/-- `inverse`, src/core/BasicShapes.cpp:829-847 -/
def M3.inverse (m : M3) : M3 :=
  ⟨⟨(m.r1.y * m.r2.z - m.r2.y * m.r1.z) / m.det, (m.r0.z * m.r2.y - m.r2.z * m.r0.y) / m.det,
      (m.r0.y * m.r1.z - m.r1.y * m.r0.z) / m.det⟩,
    ⟨(m.r1.z * m.r2.x - m.r2.z * m.r1.x) / m.det, (m.r0.x * m.r2.z - m.r2.x * m.r0.z) / m.det,
      (m.r0.z * m.r1.x - m.r1.z * m.r0.x) / m.det⟩,
    ⟨(m.r1.x * m.r2.y - m.r2.x * m.r1.y) / m.det, (m.r0.y * m.r2.x - m.r2.y * m.r0.x) / m.det,
      (m.r0.x * m.r1.y - m.r1.x * m.r0.y) / m.det⟩⟩

/-- the loops `work[i] = dotProduct(v, mat[i])` -/
def M3.app (m : M3) (v : V3) : V3 := ⟨dot v m.r0, dot v m.r1, dot v m.r2⟩

/-- `ShapeType`, src/core/BasicShapes.hpp:38-43 -/
inductive Kind
  | cube | cylinder | sphere | wedge
  deriving DecidableEq

/-- `CoordType`, src/core/BasicShapes.hpp:49-55 -/
inductive Coord
  | unclamped | clamped | periodic | symmetric
  deriving DecidableEq

/-- members of `BasicShape`, src/core/BasicShapes.hpp:93-104; the bounding box is computed by `bbox` where used -/
structure Shape where
  kind : Kind
  origin : V3
  span : V3
  inf : V3
  sdr : M3
  sdrInv : M3
  scaling : V3
  coord : Nat → Coord

/-- `BasicShape::BasicShape`, src/core/BasicShapes.cpp:91-102, and the default constructors of the derived classes,
lines 894-897, 1125-1129, 1387-1392, 1671-1674 -/
def basic (kind : Kind) : Shape where
  kind := kind
  origin := ⟨0, 0, 0⟩
  span := match kind with
    | .cube => ⟨1, 1, 1⟩
    | .cylinder => ⟨1, 2 * π, 1⟩
    | .sphere => ⟨1, 2 * π, π⟩
    | .wedge => ⟨1, 1, 1⟩
  inf := ⟨0, 0, 0⟩
  sdr := .one
  sdrInv := .one
  scaling := ⟨1, 1, 1⟩
  coord := fun i => match kind with
    | .cylinder => if i = 1 then .periodic else .clamped
    | .sphere => if i = 1 then .periodic else .clamped
    | _ => .clamped

/-- `m_typeCoord[dir] = type` -/
def setCoord (s : Shape) (t : Coord) (dir : Nat) : Shape :=
  { s with coord := fun i => if i = dir then t else s.coord i }

/-- `checkSpan`, src/core/BasicShapes.cpp:1013-1017 (cube), 1260-1269 (cylinder), 1532-1546 (sphere), 1803-1807 (wedge):
the corrected spans, and the object (whose second coordinate may become periodic) -/
def checkSpan (s : Shape) (v : V3) : V3 × Shape :=
  match s.kind with
  | .cube => (⟨|v.x|, |v.y|, |v.z|⟩, s)
  | .wedge => (⟨|v.x|, |v.y|, |v.z|⟩, s)
  | .cylinder =>
    let s1 := min |v.y| (2 * π)
    (⟨|v.x|, s1, |v.z|⟩, if ¬ s1 < 2 * π then setCoord s .periodic 1 else s)
  | .sphere =>
    let s1 := min |v.y| (2 * π)
    (⟨|v.x|, s1, min |v.z| (0.5 * (2 * π) - s.inf.z)⟩, if ¬ s1 < 2 * π then setCoord s .periodic 1 else s)

/-- `setScaling`, src/core/BasicShapes.cpp:1040-1045, 1302-1308, 1586-1593, 1830-1835 -/
def setScaling (s : Shape) (v : V3) : Shape :=
  match s.kind with
  | .cube => { s with span := ⟨1, 1, 1⟩, scaling := v }
  | .wedge => { s with span := ⟨1, 1, 1⟩, scaling := v }
  | .cylinder => { s with span := ⟨1, v.y, 1⟩, scaling := ⟨v.x, 1, v.z⟩ }
  | .sphere => { s with span := ⟨1, v.y, v.z⟩, scaling := ⟨v.x, 1, 1⟩ }

/-- `setSpan`, src/core/BasicShapes.cpp:140-152 -/
def setSpan (s : Shape) (v : V3) : Shape := setScaling (checkSpan s v).2 (checkSpan s v).1

/-- `getSpan`, src/core/BasicShapes.cpp:290-297 -/
def getSpan (s : Shape) : V3 := ⟨s.scaling.x * s.span.x, s.scaling.y * s.span.y, s.scaling.z * s.span.z⟩

/-- `checkInfLimits`, src/core/BasicShapes.cpp:1026-1032, 1278-1294, 1556-1578, 1816-1822: the corrected value where the
limit is accepted -/
def checkInf (s : Shape) (v : ℝ) (dir : Nat) : Option ℝ :=
  match s.kind with
  | .cube => none
  | .wedge => none
  | .cylinder => if dir = 0 then some (max 0 v) else if dir = 1 then some (min (2 * π) (max 0 v)) else none
  | .sphere =>
    if dir = 0 then some (max 0 v) else if dir = 1 then some (min (2 * π) (max 0 v))
    else if dir = 2 then some (min ((0.5 - 1 / 10 ^ 12) * (2 * π)) (max 0 v)) else none

/-- `m_infLimits[dir] = v` -/
def putInf (s : Shape) (v : ℝ) (dir : Nat) : Shape :=
  { s with inf := match dir with
    | 0 => { s.inf with x := v }
    | 1 => { s.inf with y := v }
    | _ => { s.inf with z := v } }

/-- `setInfLimits(double, int)`, src/core/BasicShapes.cpp:163-172 -/
def setInf (s : Shape) (v : ℝ) (dir : Int) : Shape :=
  if dir < 0 ∨ dir > 2 then s
  else
    match checkInf s v dir.toNat with
    | none => s
    | some o => setSpan (putInf s o dir.toNat) (getSpan s)

/-- `setInfLimits(darray3E)`, src/core/BasicShapes.cpp:182-186 -/
def setInfAll (s : Shape) (v : V3) : Shape := setInf (setInf (setInf s v.x 0) v.y 1) v.z 2

/-- `setOrigin`, src/core/BasicShapes.cpp:130-132 -/
def setOrigin (s : Shape) (o : V3) : Shape := { s with origin := o }

/-- constructors with origin and span, src/core/BasicShapes.cpp:905-909, 1137-1140, 1400-1404, 1682-1686 -/
def construct (kind : Kind) (o span : V3) : Shape := setSpan (setOrigin (basic kind) o) span

/-- `v /= a` -/
def V3.unit (v : V3) : V3 := ⟨v.x / norm2 v, v.y / norm2 v, v.z / norm2 v⟩

/-- `setRefSystem(axis0, axis1, axis2)`, src/core/BasicShapes.cpp:196-225 -/
def setRef3 (s : Shape) (a b c : V3) : Shape :=
  if ¬ (norm2 a > 0 ∧ norm2 b > 0 ∧ norm2 c > 0) then s
  else
    let a := a.unit
    let b := b.unit
    let c := c.unit
    if |dot a b| + |dot b c| + |dot a c| > 1 / 1000 then s
    else { s with sdr := ⟨a, b, c⟩, sdrInv := M3.inverse ⟨a, b, c⟩ }

/-- `setRefSystem(label, axis)`, src/core/BasicShapes.cpp:232-260; `none` where an axis becomes 0/0 (NaN components) -/
def setRef1 (s : Shape) (label : Int) (axis : V3) : Option Shape :=
  if label < 0 ∨ label > 2 then some s
  else if ¬ norm2 axis > 0 then some s
  else
    let l := label.toNat
    let next := (l + 1) % 3
    let fin := (l + 2) % 3
    let a := axis.unit
    let e := M3.one.row next
    let b := e - V3.scale (dot e a) a
    if norm2 b = 0 then none
    else
      let b := b.unit
      let c := cross a b
      if norm2 c = 0 then none
      else
        let m := ((s.sdr.setRow l a).setRow next b).setRow fin c.unit
        some { s with sdr := m, sdrInv := m.inverse }

/-- `std::atan2(y, x)`, in (-π, π] (the sign of zero is not modelled) -/
def atan2 (y x : ℝ) : ℝ := Complex.arg ⟨x, y⟩

/-- `getSign`, src/common/customOperators.hpp:141-145 -/
def sign (t : ℝ) : ℝ := if t < 0 then -1 else 1

/-- the angle shifted by the lower limit and wrapped, src/core/BasicShapes.cpp:1204-1207 and 1472-1475 -/
def wrap (t lim : ℝ) : ℝ :=
  let t := t - lim
  let t := if t < 0 then 2 * π + t else t
  if t > 2 * π then t - 2 * π else t

/-- the angle in [0, 2π), src/core/BasicShapes.cpp:1197-1202 and 1465-1470 -/
def angle (u v : ℝ) : ℝ :=
  if u = 0 ∧ v = 0 then 0 else atan2 v u - (sign (atan2 v u) - 1) * π

/-- `std::numeric_limits<double>::max()` -/
def dblMax : ℝ := (2 ^ 53 - 1) * 2 ^ 971

/-- componentwise product and quotient of the scaling loops -/
def V3.mul (a b : V3) : V3 := ⟨a.x * b.x, a.y * b.y, a.z * b.z⟩
def V3.div (a b : V3) : V3 := ⟨a.x / b.x, a.y / b.y, a.z / b.z⟩

/-- local xyz system to the proper local coordinates, before scaling: src/core/BasicShapes.cpp:1197-1211 (cylinder),
1462-1481 (sphere); `d` is `point - m_origin`, whose components stay in the sphere's angles at the centre -/
def curved (s : Shape) (d w : V3) : V3 :=
  match s.kind with
  | .cube => w
  | .wedge => w
  | .cylinder =>
    ⟨(if w.x = 0 ∧ w.y = 0 then 0 else √(w.x * w.x + w.y * w.y)) - s.inf.x, wrap (angle w.x w.y) s.inf.y, w.z⟩
  | .sphere =>
    if norm2 w > 0 then
      ⟨norm2 w - s.inf.x, wrap (angle w.x w.y) s.inf.y, arccos (w.z / norm2 w) - s.inf.z⟩
    else ⟨norm2 w - s.inf.x, d.y, d.z⟩

/-- the inverse: src/core/BasicShapes.cpp:1166-1168 and 1430-1432 -/
def straight (s : Shape) (w : V3) : V3 :=
  match s.kind with
  | .cube => w
  | .wedge => w
  | .cylinder => ⟨(w.x + s.inf.x) * cos (w.y + s.inf.y), (w.x + s.inf.x) * sin (w.y + s.inf.y), w.z⟩
  | .sphere =>
    ⟨(w.x + s.inf.x) * cos (w.y + s.inf.y) * sin (w.z + s.inf.z),
      (w.x + s.inf.x) * sin (w.y + s.inf.y) * sin (w.z + s.inf.z), (w.x + s.inf.x) * cos (w.z + s.inf.z)⟩

/-- Duffy transformation of the wedge, src/core/BasicShapes.cpp:1710-1711 -/
def duffy (s : Shape) (p : V3) : V3 :=
  match s.kind with
  | .wedge => { p with y := p.y * (1 - p.x) }
  | _ => p

/-- its inverse, src/core/BasicShapes.cpp:1757-1763 -/
def unduffy (s : Shape) (p : V3) : V3 :=
  match s.kind with
  | .wedge =>
    if |1 - p.x| > 0 then { p with y := p.y / (1 - p.x) }
    else if |p.y| > 0 then { p with y := dblMax } else { p with y := 0 }
  | _ => p

/-- `toWorldCoord`, src/core/BasicShapes.cpp:928-947, 1157-1177, 1421-1442, 1705-1728 -/
def toWorld (s : Shape) (p : V3) : V3 := s.sdrInv.app (straight s ((duffy s p).mul s.scaling)) + s.origin

/-- `toLocalCoord`, src/core/BasicShapes.cpp:955-977, 1185-1218, 1450-1488, 1736-1767 -/
def toLocal (s : Shape) (p : V3) : V3 :=
  let d := p - s.origin
  unduffy s ((curved s d (s.sdr.app d)).div s.scaling)

/-- `getLocalOrigin`, src/core/BasicShapes.cpp:982-984, 1223-1225, 1493-1495, 1772-1774 -/
def localOrigin (s : Shape) : V3 :=
  match s.kind with
  | .cube => ⟨-0.5, -0.5, -0.5⟩
  | .cylinder => ⟨0, 0, -0.5⟩
  | .sphere => ⟨0, 0, 0⟩
  | .wedge => ⟨0, 0, -0.5⟩

/-- `basicToLocal`, src/core/BasicShapes.cpp:992-994, 1233-1238, 1503-1509, 1782-1784 -/
def basicToLocal (s : Shape) (p : V3) : V3 :=
  match s.kind with
  | .cube => p + localOrigin s
  | .cylinder => { p with y := p.y * s.span.y } + localOrigin s
  | .sphere => { p with y := p.y * s.span.y, z := p.z * s.span.z } + localOrigin s
  | .wedge => p + localOrigin s

/-- `localToBasic`, src/core/BasicShapes.cpp:1002-1004, 1246-1251, 1517-1523, 1792-1794 -/
def localToBasic (s : Shape) (p : V3) : V3 :=
  match s.kind with
  | .cube => p - localOrigin s
  | .cylinder => let q := p - localOrigin s; { q with y := q.y / s.span.y }
  | .sphere => let q := p - localOrigin s; { q with y := q.y / s.span.y, z := q.z / s.span.z }
  | .wedge => p - localOrigin s

/-- `isPointIncluded`, src/core/BasicShapes.cpp:634-645 -/
def pointIncluded (s : Shape) (p : V3) : Prop :=
  let t := localToBasic s (toLocal s p)
  let tol : ℝ := 1 / 10 ^ 12
  (t.x > -1 * tol ∧ t.x < 1 + tol) ∧ (t.y > -1 * tol ∧ t.y < 1 + tol) ∧ (t.z > -1 * tol ∧ t.z < 1 + tol)

/-- `isSimplexIncluded`, src/core/BasicShapes.cpp:604-628 -/
def simplexIncluded (s : Shape) (ps : List V3) : Prop := ps.foldl (fun check p => check ∧ pointIncluded s p) True

/-! Boxes -/

/-- the eight corners in the order of the code, src/core/BasicShapes.cpp:1087-1090 (the same in the four classes) -/
def corners (lo hi : V3) : List V3 :=
  [⟨lo.x, lo.y, lo.z⟩, ⟨hi.x, lo.y, lo.z⟩, ⟨hi.x, hi.y, lo.z⟩, ⟨lo.x, hi.y, lo.z⟩,
    ⟨lo.x, lo.y, hi.z⟩, ⟨hi.x, lo.y, hi.z⟩, ⟨hi.x, hi.y, hi.z⟩, ⟨lo.x, hi.y, hi.z⟩]

/-- running minimum and maximum, src/core/BasicShapes.cpp:1098-1109: the first value starts both -/
def minMax : List ℝ → ℝ × ℝ
  | [] => (0, 0)
  | t :: ts => ts.foldl (fun m t => if t < m.1 then (t, m.2) else if t > m.2 then (m.1, t) else m) (t, t)

/-- minimum and maximum started from ±1e18, src/core/BasicShapes.cpp:1363-1368 -/
def minMax18 (l : List ℝ) : ℝ × ℝ := l.foldl (fun m t => (min m.1 t, max m.2 t)) (10 ^ 18, -10 ^ 18)

/-- `checkNearestPointToAABBox`, src/core/BasicShapes.cpp:666-675 -/
def nearest (p lo hi : V3) : V3 :=
  ⟨min hi.x (max p.x lo.x), min hi.y (max p.y lo.y), min hi.z (max p.z lo.z)⟩

/-- componentwise minimum and maximum of a list -/
def bounds (p : V3) (l : List V3) : V3 × V3 :=
  l.foldl (fun b q => (⟨min b.1.x q.x, min b.1.y q.y, min b.1.z q.z⟩, ⟨max b.2.x q.x, max b.2.y q.y, max b.2.z q.z⟩))
    (p, p)

/-- `Cube::intersectShapeAABBox`, src/core/BasicShapes.cpp:1085-1116 -/
def cubeBox (s : Shape) (lo hi : V3) : Prop :=
  let ps := (corners lo hi).map (fun p => p - s.origin)
  ∀ j ∈ [0, 1, 2],
    let m := minMax (ps.map (fun p => dot p (s.sdr.row j)))
    ¬ (m.1 > 0.5 * s.scaling.at j ∨ m.2 < -0.5 * s.scaling.at j)

/-- `Cylinder::intersectShapeAABBox` and `Sphere::intersectShapeAABBox`, src/core/BasicShapes.cpp:1352-1377 and
1635-1663 -/
def roundBox (s : Shape) (lo hi : V3) : Prop :=
  let ps := (corners lo hi).map (fun p => localToBasic s (toLocal s p))
  ∀ j ∈ [0, 1, 2],
    let m := minMax18 (ps.map (fun p => p.at j))
    if j = 0 then ¬ m.2 < 0 else ¬ (m.1 > 1 ∨ m.2 < 0)

/-- `Wedge::intersectShapeAABBox`, src/core/BasicShapes.cpp:1875-1917 -/
def wedgeBox (s : Shape) (lo hi : V3) : Prop :=
  let ps := (corners lo hi).map (fun p => p - s.origin)
  let ts := ps.map (fun p => dot p (s.sdr.row 2))
  let qs := ps.map (fun p => p - V3.scale (dot p (s.sdr.row 2)) (s.sdr.row 2))
  let m := minMax ts
  if m.1 > 0.5 * s.scaling.z ∨ m.2 < -0.5 * s.scaling.z then False
  else
    match qs with
    | [] => False
    | q :: qs => pointIncluded s (nearest ⟨0, 0, 0⟩ (bounds q qs).1 (bounds q qs).2 + s.origin)

/-- `intersectShapeAABBox` -/
def boxTest (s : Shape) (lo hi : V3) : Prop :=
  match s.kind with
  | .cube => cubeBox s lo hi
  | .cylinder => roundBox s lo hi
  | .sphere => roundBox s lo hi
  | .wedge => wedgeBox s lo hi

/-- the local points of `getTempBBox`, src/core/BasicShapes.cpp:1058-1066, 1322-1333, 1606-1618, 1848-1856 -/
def samples : Kind → List V3
  | .cylinder =>
    [0, 1].flatMap fun i => [0, 1, 2, 3, 4].flatMap fun j => [0, 1].map fun k => (⟨i * 1, j * 0.25, k * 1⟩ : V3)
  | .sphere =>
    [0, 1].flatMap fun i => [0, 1, 2, 3, 4].flatMap fun j => [0, 1, 2].map fun k => (⟨i * 1, j * 0.25, k * 0.5⟩ : V3)
  | _ => [⟨0, 0, 0⟩, ⟨1, 1, 1⟩, ⟨1, 1, 0⟩, ⟨0, 0, 1⟩, ⟨1, 0, 0⟩, ⟨0, 1, 1⟩, ⟨0, 1, 0⟩, ⟨1, 0, 1⟩]

/-- `getTempBBox`, src/core/BasicShapes.cpp:1051-1075, 1315-1342, 1599-1627, 1841-1865 -/
def bbox (s : Shape) : V3 × V3 :=
  (samples s.kind).foldl
    (fun b v =>
      let q := toWorld s (basicToLocal s v)
      (⟨min b.1.x q.x, min b.1.y q.y, min b.1.z q.z⟩, ⟨max b.2.x q.x, max b.2.y q.y, max b.2.z q.z⟩))
    (⟨10 ^ 18, 10 ^ 18, 10 ^ 18⟩, ⟨-10 ^ 18, -10 ^ 18, -10 ^ 18⟩)

/-! Selection of cells -/

/-- a search tree over cells (bitpit's PatchSkdTree, external): leaves hold cells, the other nodes two children -/
inductive Skd
  | leaf (lo hi : V3) (cells : List Nat)
  | two (lo hi : V3) (l r : Skd)

/-- number of nodes -/
def Skd.size : Skd → Nat
  | .leaf _ _ _ => 1
  | .two _ _ l r => l.size + r.size + 1

def Skd.lo : Skd → V3
  | .leaf lo _ _ => lo
  | .two lo _ _ _ => lo

def Skd.hi : Skd → V3
  | .leaf _ hi _ => hi
  | .two _ hi _ _ => hi

theorem Skd.size_pos (t : Skd) : 0 < t.size := by cases t <;> simp [Skd.size]

/-- the stack loop of `searchBvTreeMatches`, src/core/BasicShapes.cpp:735-767: the lists of cells of the leaves found;
the stack has its top first -/
def stackLoop (s : Shape) : List Skd → List (List Nat)
  | [] => []
  | .leaf lo hi cells :: st => if boxTest s lo hi then cells :: stackLoop s st else stackLoop s st
  | .two lo hi l r :: st => if boxTest s lo hi then stackLoop s (r :: l :: st) else stackLoop s st
termination_by st => (st.map Skd.size).sum
decreasing_by all_goals simp [Skd.size]; try omega

/-- `searchBvTreeMatches`, src/core/BasicShapes.cpp:734-782; `verts` gives the vertices of a cell -/
def searchSkd (s : Shape) (verts : Nat → List V3) (t : Skd) : List Nat :=
  (stackLoop s [t]).flatMap (fun cells => cells.filter (fun id => simplexIncluded s (verts id)))

/-- `includeGeometry(PatchKernel)` and `excludeGeometry(PatchKernel)`, src/core/BasicShapes.cpp:408-448 -/
def includePatch (s : Shape) (verts : Nat → List V3) (cells : List Nat) : List Nat :=
  cells.filter (fun id => simplexIncluded s (verts id))
def excludePatch (s : Shape) (verts : Nat → List V3) (cells : List Nat) : List Nat :=
  cells.filter (fun id => ¬ simplexIncluded s (verts id))

/-- `includeGeometry(MimmoObject)`, src/core/BasicShapes.cpp:355-366; `tree` is absent where trees are not supported -/
def includeGeo (s : Shape) (verts : Nat → List V3) (tree : Option Skd) : List Nat :=
  match tree with
  | none => []
  | some t => searchSkd s verts t

/-- `std::sort` -/
def sorted (l : List Nat) : List Nat := l.mergeSort (fun a b => decide (a ≤ b))

/-- the merging loop of `excludeGeometry` and `excludeCloudPoints`, src/core/BasicShapes.cpp:384-399 and 582-597;
`room` is what is left of the result array, whose end must not be passed (`none`) -/
def mergeOut : List Nat → List Nat → Nat → Option (List Nat)
  | [], _, room => some (List.replicate room 0)
  | o :: os, is, room =>
    match is with
    | i :: is' =>
      if o ≠ i then
        match room with
        | 0 => none
        | room + 1 => (mergeOut os is room).map (o :: ·)
      else mergeOut os is' room
    | [] =>
      match room with
      | 0 => none
      | room + 1 => (mergeOut os [] room).map (o :: ·)

/-- the difference of sizes wraps below zero: the allocation of the result throws (`none`) -/
def complement (originals internals : List Nat) : Option (List Nat) :=
  if originals.length < internals.length then none
  else mergeOut (sorted originals) (sorted internals) (originals.length - internals.length)

/-- `excludeGeometry(MimmoObject)`, src/core/BasicShapes.cpp:376-400 -/
def excludeGeo (s : Shape) (verts : Nat → List V3) (cells : List Nat) (tree : Option Skd) : Option (List Nat) :=
  complement cells (includeGeo s verts tree)

/-! Selection of points -/

/-- `includeCloudPoints(dvecarr3E)`, src/core/BasicShapes.cpp:456-471, and its complement, lines 479-494; the loop
index starts from `real` -/
def includeList (s : Shape) : List V3 → Nat → List Nat
  | [], _ => []
  | p :: ps, real => if pointIncluded s p then real :: includeList s ps (real + 1) else includeList s ps (real + 1)
def excludeList (s : Shape) : List V3 → Nat → List Nat
  | [], _ => []
  | p :: ps, real => if ¬ pointIncluded s p then real :: excludeList s ps (real + 1) else excludeList s ps (real + 1)

/-- kd-tree of labelled points (bitpit, external) -/
inductive Kd
  | nil
  | node (p : V3) (label : Nat) (l r : Kd)

def Kd.size : Kd → Nat
  | .nil => 0
  | .node _ _ l r => l.size + r.size + 1

/-- `intersectShapePlane`, src/core/BasicShapes.cpp:798-804 -/
def planeTest (b : V3 × V3) (level : Nat) (p : V3) : Nat :=
  if p.at level < b.1.at level then 1 else if p.at level > b.2.at level then 0 else 2

/-- bitpit's `intersectPointBox` (external): within the box up to a tolerance -/
def inBox (tol : ℝ) (b : V3 × V3) (p : V3) : Prop := ∀ i ∈ [0, 1, 2], b.1.at i - tol ≤ p.at i ∧ p.at i ≤ b.2.at i + tol

/-- the stack loop of `searchKdTreeMatches`, src/core/BasicShapes.cpp:687-709; the stack has its top first.  An empty
tree has no node 0 (`tree.nodes[0]` of an empty tree is excluded by the caller's `isEmpty` test). -/
def kdLoop (b : V3 × V3) (tol : ℝ) : List (Kd × Nat) → List (V3 × Nat)
  | [] => []
  | (.nil, _) :: st => kdLoop b tol st
  | (.node p label l r, level) :: st =>
    let check := planeTest b (level % 3) p
    let st1 := if check % 2 = 0 then (l, level + 1) :: st else st
    let st2 := if check > 0 then (r, level + 1) :: st1 else st1
    if inBox tol b p then (p, label) :: kdLoop b tol st2 else kdLoop b tol st2
termination_by st => (st.map (fun e => 2 * e.1.size + 1)).sum
decreasing_by
  all_goals simp [Kd.size]
  all_goals (repeat' split) <;> simp <;> omega

/-- `includeCloudPoints(MimmoObject)`, src/core/BasicShapes.cpp:551-564 with `searchKdTreeMatches`, lines 685-722 -/
def includeCloud (s : Shape) (tol : ℝ) (t : Kd) : List Nat :=
  ((kdLoop (bbox s) tol [(t, 0)]).filter (fun e => pointIncluded s e.1)).map Prod.snd

/-- `excludeCloudPoints(MimmoObject)`, src/core/BasicShapes.cpp:572-598: it takes the ids of the *cells* -/
def excludeCloud (s : Shape) (tol : ℝ) (cells : List Nat) (t : Kd) : Option (List Nat) :=
  complement cells (includeCloud s tol t)

end

end Verif.Shape
