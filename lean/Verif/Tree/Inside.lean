import Verif.Tree.SelectProps

/-!
Points in segments, triangles and polygons: src/core/MimmoCGUtils.cpp.

`areaTriangle` and `distancePointTriangle` belong to bitpit: the first is modelled as half the length of the cross product of
two sides, the second is a parameter.
-/

namespace Verif.Tree
open Verif.Shape
open Verif.Rbf (tiny huge)
noncomputable section
open scoped Classical

/-- `isPointInsideSegment`, src/core/MimmoCGUtils.cpp:68-76 -/
def inSegment (p v0 v1 : V3) (tol : ℝ) : Bool :=
  let pv := p - v0
  let len := norm2 (v1 - v0)
  let u := if len > tiny then (v1 - v0).unit else v1 - v0
  let v := dot pv u
  if norm2 (pv - V3.scale v u) > tol then false
  else decide (v ≥ 0 - tol ∧ v ≤ len + tol)

/-- `CGElem::areaTriangle` of bitpit -/
def areaTriangle (a b c : V3) : ℝ := 1 / 2 * norm2 (cross (b - a) (c - a))

/-- `isPointInsideTriangle`, src/core/MimmoCGUtils.cpp:86-100 -/
def inTriangle (p v0 v1 v2 : V3) (tol : ℝ) : Bool :=
  let n := cross (v1 - v0) (v2 - v0)
  let nn := norm2 n
  if nn > tiny then
    if |dot (p - v0) n.unit| > tol then false
    else
      let a1 := areaTriangle p v0 v1 / (1 / 2 * nn)
      let a2 := areaTriangle p v1 v2 / (1 / 2 * nn)
      let a3 := areaTriangle p v2 v0 / (1 / 2 * nn)
      decide (a1 + a2 + a3 - 1 ≤ tol)
  else false

/-- triangles of the fan around the first vertex, src/core/MimmoCGUtils.cpp:116-120 -/
def fanLoop (p v0 : V3) (tol : ℝ) : List V3 → Bool
  | a :: b :: l => inTriangle p v0 a b tol || fanLoop p v0 tol (b :: l)
  | _ => false

/-- `isPointInsidePolygon`, src/core/MimmoCGUtils.cpp:110-122; `none`: without vertices the bound of the loop wraps around -/
def inPolygon (p : V3) (vs : List V3) (tol : ℝ) : Option Bool :=
  match vs with
  | [] => none
  | v0 :: l => some (fanLoop p v0 tol l)

/-- sum of a list of points -/
def sumV (l : List V3) : V3 := l.foldl (· + ·) ⟨0, 0, 0⟩

/-- distances to the triangles between the barycenter and consecutive vertices, src/core/MimmoCGUtils.cpp:51-56; the triangle of the
last and the first vertex is not among them -/
def fanDistance (distTri : V3 → V3 → V3 → V3 → ℝ) (p b : V3) : List V3 → ℝ → ℝ
  | u :: v :: l, m => fanDistance distTri p b (v :: l) (min m (distTri p b u v))
  | _, m => m

/-- `distancePointPolygon`, src/core/MimmoCGUtils.cpp:41-58; `none`: without vertices the bound of the loop wraps around -/
def polygonDistance (distTri : V3 → V3 → V3 → V3 → ℝ) (p : V3) (vs : List V3) : Option ℝ :=
  match vs with
  | [] => none
  | _ => some (fanDistance distTri p (V3.scale (1 / vs.length) (sumV vs)) vs huge)

end
end Verif.Tree
