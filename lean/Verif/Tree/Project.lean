import Verif.Tree.InsideProps

/-!
Signed distances, projections and location of points: the serial functions of src/core/SkdTreeUtils.cpp.

Parameters, all of bitpit: the search of the closest cell (id and distance, nothing when no cell is within the radius, in which case
the distance is the largest number), the barycentric coordinates of the closest point of a cell, the normals at the vertices
of a cell.  A null tree and a tree of something that is not a surface (both exceptions) are not modelled.  Results are reals;
where the computation overflows or divides by zero the result is `none`.
-/

namespace Verif.Tree
open Verif.Shape
open Verif.Rbf (tiny huge)
noncomputable section
open scoped Classical

/-- kinds of cells that are told apart -/
inductive Kind | line | triangle | polygon | other
  deriving DecidableEq

/-- what is read from a surface -/
structure Surf where
  /-- kind and vertices of a cell -/
  cell : Nat → Option (Kind × List V3)
  /-- `evalVertexNormal` -/
  vertexNormal : Nat → Nat → V3
  /-- tolerance of the patch -/
  tol : ℝ
  /-- `findPointClosestCell` within a radius -/
  closest : V3 → ℝ → Option (Nat × ℝ)
  /-- `findPointClosestCell` without a radius -/
  nearest : V3 → Option (Nat × ℝ)
  /-- barycentric coordinates from `distancePointTriangle`, `distancePointSegment` and `distancePointPolygon` -/
  lam : V3 → List V3 → List ℝ

/-- sum of vectors with weights, from vector number `i` on -/
def weigh (v : Nat → V3) : List ℝ → Nat → V3 → V3
  | [], _, acc => acc
  | k :: l, i, acc => weigh v l (i + 1) (acc + V3.scale k (v i))

/-- a vector over its norm; not a number when the norm is zero -/
def unit? (v : V3) : Option V3 := if norm2 v = 0 then none else some v.unit

/-- sign of the pseudo normal and pseudo normal of a cell, `computePseudoNormal`, src/core/SkdTreeUtils.cpp:516-580; `none` for the whole:
the cell is not in the patch -/
def pseudoNormal (s : Surf) (p : V3) (id : Nat) : Option (ℝ × Option V3) := do
  let (_, vs) ← s.cell id
  let lam := s.lam p vs
  let normal := weigh (s.vertexNormal id) lam 0 ⟨0, 0, 0⟩
  let x := weigh (fun i => vs.getD i ⟨0, 0, 0⟩) lam 0 ⟨0, 0, 0⟩
  let sg : ℝ := if dot normal (p - x) < 0 then -1 else 1
  let pn := V3.scale sg (p - x)
  some (sg, if norm2 pn < s.tol then unit? normal else unit? pn)

/-- result of a signed distance -/
structure Signed where
  id : Option Nat
  /-- `none`: overflow -/
  dist : Option ℝ
  /-- `none`: not a number -/
  normal : Option V3

/-- `signedDistance` of a point, src/core/SkdTreeUtils.cpp:84-101 and 213-240.  Without a cell the pseudo normal is zero and its sign the
largest number (520-524), that multiplies a distance that is the largest number. -/
def signedDistance (s : Surf) (p : V3) (r : ℝ) : Option Signed :=
  match s.closest p r with
  | none => some ⟨none, none, some ⟨0, 0, 0⟩⟩
  | some (id, h) => do
    let (sg, n) ← pseudoNormal s p id
    some ⟨some id, some (sg * h), n⟩

/-- `distance` of a point, src/core/SkdTreeUtils.cpp:49-65 -/
def distance (s : Surf) (p : V3) (r : ℝ) : Option Nat × ℝ :=
  match s.closest p r with
  | none => (none, huge)
  | some (id, h) => (some id, h)

/-- signed distances of the points of a list, src/core/SkdTreeUtils.cpp:230-238 -/
def signedAll (s : Surf) : List (V3 × ℝ) → Option (List Signed)
  | [] => some []
  | (p, r) :: l => do
    let d ← signedDistance s p r
    let ds ← signedAll s l
    some (d :: ds)

/-- a distance that is not below the largest number -/
def tooFar (d : Option ℝ) : Bool :=
  match d with
  | none => true
  | some x => decide (huge ≤ |x|)

/-- the loop goes on when the greatest absolute value is exactly the largest number; not when one has overflown -/
def goesOn (ds : List Signed) : Bool :=
  !(ds.any fun d => d.dist.isNone) && (ds.any fun d => d.dist.any fun x => decide (|x| = huge)) &&
    (ds.all fun d => d.dist.all fun x => decide (|x| ≤ huge))

/-- the loop of `projectPoint`, src/core/SkdTreeUtils.cpp:429-441; `none`: a cell that is not there, or no end within the given number of
passes.  It also returns the radii, which the caller's array holds. -/
def projectLoop (s : Surf) (ps : List V3) : Nat → List ℝ → Option (List Signed × List ℝ)
  | 0, _ => none
  | f + 1, rs =>
    match signedAll s (ps.zip rs) with
    | none => none
    | some ds =>
      let rs' := List.zipWith (fun (d : Signed) r => if tooFar d.dist then r * (3 / 2) else r) ds rs
      if goesOn ds then projectLoop s ps f rs' else some (ds, rs')

/-- projected point, src/core/SkdTreeUtils.cpp:443-445; `none`: not a number -/
def projected (p : V3) (d : Signed) : Option V3 :=
  match d.dist, d.normal with
  | some x, some n => some (p - V3.scale x n)
  | _, _ => none

/-- `projectPoint`, src/core/SkdTreeUtils.cpp:419-446: projected points and ids -/
def projectPoints (s : Surf) (fuel : Nat) (ps : List V3) (rs : List ℝ) : Option (List (Option V3) × List (Option Nat)) :=
  if ps = [] then some ([], [])
  else
    match projectLoop s ps fuel (rs.map fun r => max r s.tol) with
    | none => none
    | some (ds, _) => some (List.zipWith projected ps ds, ds.map (·.id))

/-- `projectPoint` of one point, src/core/SkdTreeUtils.cpp:375-381 -/
def projectPoint (s : Surf) (fuel : Nat) (p : V3) (r : ℝ) : Option (Option V3) :=
  match projectPoints s fuel [p] [r] with
  | some (q :: _, _) => some q
  | _ => none

/-- `checkPointBelongsToCell`, src/core/SkdTreeUtils.cpp:591-624; `none`: cell not in the patch, kind not supported, too few vertices -/
def belongs (s : Surf) (p : V3) (id : Nat) : Option Bool :=
  match s.cell id with
  | some (.line, v0 :: v1 :: _) => some (inSegment p v0 v1 s.tol)
  | some (.triangle, v0 :: v1 :: v2 :: _) => some (inTriangle p v0 v1 v2 s.tol)
  | some (.polygon, vs) => inPolygon p vs s.tol
  | _ => none

/-- `locatePointOnPatch`, src/core/SkdTreeUtils.cpp:456-503 (the test is that of `belongs`); `none`: the cell asked for is not in the patch,
as when the patch is empty, or its kind is not supported -/
def locate (s : Surf) (p : V3) : Option (Option Nat) :=
  match s.nearest p with
  | none => none
  | some (id, _) =>
    match belongs s p id with
    | none => none
    | some b => some (if b then some id else none)

end
end Verif.Tree
