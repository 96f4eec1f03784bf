import Verif.Utils.PointProps
import Verif.Rbf.BoxProps
/-
Model of `AABBox` (src/utils/AABBox.cpp), one process.

The map of the geometries is kept as a list without repetitions; the order in which it is run through is not specified by
the language, C127_order shows that it does not matter.  The file with the results and the visualization file are not
modelled, only the eight points drawn.
-/
namespace Verif.Utils
open Verif.Shape Verif.Manip Verif.Field
open Verif.Rbf (tiny huge)

noncomputable section
open scoped Classical

/-- data members, src/utils/AABBox.hpp; an origin that is not a number is `none` -/
structure Aabb where
  geos : List Nat := []
  origin : Option V3 := some ⟨0, 0, 0⟩
  span : V3 := ⟨1, 1, 1⟩
  axes : M3 := M3.one

/-- `setGeometry`, src/utils/AABBox.cpp:187-196 -/
def Aabb.setGeometry (b : Aabb) (g : Option Nat) : Aabb :=
  match g with
  | none => b
  | some g => { b with geos := b.geos.insert g }

/-- `setGeometries`, src/utils/AABBox.cpp:174-180 -/
def Aabb.setGeometries (b : Aabb) (l : List (Option Nat)) : Aabb := l.foldl Aabb.setGeometry { b with geos := [] }

/-- `setAxes`, src/utils/AABBox.cpp:203-206 -/
def Aabb.setAxes (b : Aabb) (m : M3) : Aabb := { b with axes := m }

/-- the axes used, src/utils/AABBox.cpp:280-293 -/
def boxFrame (m : M3) : M3 :=
  let ab : V3 × V3 := if norm2 m.r0 > tiny ∧ norm2 m.r1 > tiny then (m.r0.unit, m.r1.unit) else (⟨0, 0, 1⟩, ⟨0, 1, 0⟩)
  ⟨ab.1, ab.2, cross ab.1 ab.2⟩

/-- the loop over the vertices for one axis, src/utils/AABBox.cpp:295-309 -/
def least (l : List ℝ) : ℝ := l.foldl min huge
def most (l : List ℝ) : ℝ := l.foldl max (-huge)

/-- the vertices run through, src/utils/AABBox.cpp:300-301 -/
def pointsOf (w : World) (geos : List Nat) : List V3 := geos.flatMap (fun g => (w g).verts.map Prod.snd)

/-- extents along the axes, src/utils/AABBox.cpp:295-309 -/
def leastAlong (m : M3) (ps : List V3) : V3 :=
  ⟨least (ps.map (fun p => dot p m.r0)), least (ps.map (fun p => dot p m.r1)), least (ps.map (fun p => dot p m.r2))⟩
def mostAlong (m : M3) (ps : List V3) : V3 :=
  ⟨most (ps.map (fun p => dot p m.r0)), most (ps.map (fun p => dot p m.r1)), most (ps.map (fun p => dot p m.r2))⟩

/-- spans close to zero are raised, src/utils/AABBox.cpp:318-325 -/
def raised (s : V3) : V3 :=
  let a := (s.x + s.y + s.z) / 3
  ⟨max s.x (1 / 10 ^ 4 * a), max s.y (1 / 10 ^ 4 * a), max s.z (1 / 10 ^ 4 * a)⟩

/-- `execute`, src/utils/AABBox.cpp:269-352; `inverse` (473-492) is the function of src/core/BasicShapes.cpp, dividing by a
determinant that may be zero -/
def Aabb.execute (w : World) (b : Aabb) : Aabb :=
  if b.geos.isEmpty then { b with span := ⟨0, 0, 0⟩, origin := some ⟨0, 0, 0⟩ }
  else
    let m := boxFrame b.axes
    let ps := pointsOf w b.geos
    let lo := leastAlong m ps
    let hi := mostAlong m ps
    { b with
      axes := m
      span := raised (hi - lo)
      origin := if m.det = 0 then none else some (m.inverse.app (V3.scale (1 / 2) (lo + hi))) }

/-- the eight points drawn, src/utils/AABBox.cpp:227-247 -/
def Aabb.drawn (b : Aabb) (o : V3) : List V3 :=
  let s := b.span
  let p0 := V3.scale (-(1 / 2)) s
  let p6 := V3.scale (1 / 2) s
  let p1 : V3 := ⟨p0.x + s.x, p0.y, p0.z⟩
  let p3 : V3 := ⟨p0.x, p0.y + s.y, p0.z⟩
  let p2 : V3 := ⟨p6.x, p6.y, p6.z + -1 * s.z⟩
  let p7 : V3 := ⟨p6.x + -1 * s.x, p6.y, p6.z⟩
  let p5 : V3 := ⟨p6.x, p6.y + -1 * s.y, p6.z⟩
  let p4 : V3 := ⟨p0.x, p0.y, p0.z + s.z⟩
  [p0, p1, p2, p3, p4, p5, p6, p7].map (fun p => b.axes.inverse.app p + o)

end
end Verif.Utils
