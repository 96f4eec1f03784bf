import Mathlib.Analysis.InnerProductSpace.PiL2
import Mathlib.Data.List.Sort
/-
Model of CreateSeedsOnSurface (src/utils/CreateSeedsOnSurface.cpp): the distribution of points on a surface.

Simplified: `double` is ℝ, with the tests for numbers that are not numbers left out; one process.  External, and parameters or relations here: the oriented box, the
projection on the surface, bitpit's tree of points (`hNeighbors` finds the points within a distance), the heap (a smallest key is extracted), the random generator,
the interpolation of the sensitivity at projected points.
-/
namespace Verif.Seeds

noncomputable section

open scoped Classical InnerProductSpace

/-- points -/
abbrev E := EuclideanSpace ℝ (Fin 3)

/-! ### Sensitivity -/

/-- smallest normal number -/
def dblMin : ℝ := 2 ^ (-1022 : ℤ)

/-- `minval` and `maxval` (bitpit) of a list -/
def least : List ℝ → ℝ
  | [] => 0
  | x :: xs => xs.foldl min x

def greatest : List ℝ → ℝ
  | [] => 0
  | x :: xs => xs.foldl max x

/-- `normalizeField`, src/utils/CreateSeedsOnSurface.cpp:1534-1553 -/
def normalise (s : List (Nat × ℝ)) : List (Nat × ℝ) :=
  let lo := least (s.map Prod.snd)
  let diff := greatest (s.map Prod.snd) - lo
  if diff ≤ dblMin then s.map fun e => (e.1, 1) else s.map fun e => (e.1, (e.2 - lo) / diff)

/-! ### Decimation -/

/-- numbers of cells of the grid, src/utils/CreateSeedsOnSurface.cpp:575-585: the dimensions are one more -/
def gridCells (n : Nat) (span : Fin 3 → ℝ) (i : Fin 3) : Nat :=
  max 1 ⌊span i * n / (span 0 + span 1 + span 2) + 0.5⌋₊

/-- number of candidates of the grid: its cells, src/utils/CreateSeedsOnSurface.cpp:587-599 -/
def gridCandidates (n : Nat) (span : Fin 3 → ℝ) : Nat := gridCells n span 0 * gridCells n span 1 * gridCells n span 2

/-- order by the distance from the seed, src/utils/CreateSeedsOnSurface.cpp:653-676, 782-805: pairs of distance and position are sorted -/
def order (seed : E) (pts : List (E × ℝ)) : List (E × ℝ) :=
  ((pts.zipIdx.map fun e => (‖seed - e.1.1‖, e.2, e.1)).insertionSort fun a b => a.1 < b.1 ∨ a.1 = b.1 ∧ a.2.1 ≤ b.2.1).map fun e => e.2.2

/-- coordinates relative to the first candidate, times the sensitivity, src/utils/CreateSeedsOnSurface.cpp:880-885 -/
def refer (pts : List (E × ℝ)) (j : Nat) : E :=
  match pts[j]?, pts[0]? with
  | some p, some o => p.2 • (p.1 - o.1)
  | _, _ => 0

/-- the candidates within a distance of those chosen -/
def near (ref : Nat → E) (n : Nat) (final : List Nat) (r : ℝ) : Set Nat := { j | j < n ∧ ∃ i ∈ final, ‖ref j - ref i‖ ≤ r }

/-- the loop that shrinks the distance while all candidates are visited, src/utils/CreateSeedsOnSurface.cpp:923-935; `none`: no end within the given number of
rounds -/
def shrink (ref : Nat → E) (n : Nat) (final : List Nat) : Nat → ℝ → Set Nat → Option (ℝ × Set Nat)
  | 0, _, _ => none
  | f + 1, r, visited =>
    if ∀ j < n, j ∈ visited then shrink ref n final f (0.9 * r) ({ j | j ∈ final } ∪ near ref n final (0.9 * r)) else some (r, visited)

/-- the score of a candidate: mean of its distances from those chosen, over the square of one plus the greatest relative deviation,
src/utils/CreateSeedsOnSurface.cpp:943-958 -/
def score (pos : Nat → E) (final : List Nat) (ind : Nat) : ℝ :=
  let norms := final.map fun i => ‖pos ind - pos i‖
  let mean := norms.sum / norms.length
  mean / (greatest (norms.map fun v => |v / mean - 1|) + 1) ^ 2

/-- the last of the candidates with the greatest score, src/utils/CreateSeedsOnSurface.cpp:937-961 -/
def pick (pos : Nat → E) (final : List Nat) : List Nat → Nat
  | [] => 0
  | i :: is => is.foldl (fun b j => if score pos final b ≤ score pos final j then j else b) i

/-- the loop over the points, src/utils/CreateSeedsOnSurface.cpp:906-965 -/
def choose (pos ref : Nat → E) (n fuel : Nat) : Nat → List Nat → Nat → ℝ → Set Nat → Option (List Nat × ℝ)
  | 0, final, _, r, _ => some (final, r)
  | k + 1, final, cand, r, visited =>
    let final := final ++ [cand]
    (shrink ref n final fuel r (visited ∪ {cand} ∪ near ref n [cand] r)).bind fun s =>
      choose pos ref n fuel k final (pick pos final ((List.range n).filter fun i => i ∉ s.2)) s.1 s.2

/-- `decimatePoints`, src/utils/CreateSeedsOnSurface.cpp:876-977: positions of the points in the list of candidates and the distance at the end -/
def decimate (fuel nPoints : Nat) (r : ℝ) (pts : List (E × ℝ)) : Option (List Nat × ℝ) :=
  choose (fun j => (pts[j]?.map Prod.fst).getD 0) (refer pts) pts.length fuel nPoints [] 0 r ∅

/-! ### Fast marching -/

/-- value at `V` of the front from the point of the edge `U`, `W` at `x`, src/utils/CreateSeedsOnSurface.cpp:1105-1119 -/
def front (g : ℝ) (V U W : E) (pU pW x : ℝ) : ℝ := (1 - x) * pU + x * pW + g * ‖V - ((1 - x) • U + x • W)‖

/-- coefficients, src/utils/CreateSeedsOnSurface.cpp:1069-1089 -/
structure Coef where
  a : ℝ
  b : ℝ
  c : ℝ
  K : ℝ

def coef (V U W : E) (pU pW : ℝ) : Coef :=
  let dVU := ‖V - U‖
  let dWU := ‖W - U‖
  ⟨dWU ^ 2, -dWU * dVU * ⟪(1 / dWU) • (W - U), (1 / dVU) • (V - U)⟫_ℝ, dVU ^ 2, pW - pU⟩

def Coef.A (k : Coef) : ℝ := k.a * (k.K ^ 2 - k.a)
def Coef.B (k : Coef) : ℝ := k.b * (k.K ^ 2 - k.a)
def Coef.C (k : Coef) : ℝ := k.K ^ 2 * k.c - k.b ^ 2
def Coef.discr (k : Coef) : ℝ := k.B ^ 2 - k.A * k.C

/-- `discrType`, src/utils/CreateSeedsOnSurface.cpp:1092 -/
def Coef.type (k : Coef) : Int :=
  (if k.discr < -1e-12 then 1 else 0) + 2 * (if |k.A| > 1e-12 then 1 else 0) + 3 * (if |k.A| < 1e-12 ∧ |k.A| ≥ 0 then 1 else 0) - 1

/-- restriction to [0, 1] -/
def clamp (x : ℝ) : ℝ := min 1 (max 0 x)

/-- the update from a triangle with two dead vertices, src/utils/CreateSeedsOnSurface.cpp:1067-1152 -/
def twoDead (g : ℝ) (V U W : E) (pU pW value : ℝ) : ℝ :=
  let k := coef V U W pU pW
  if k.type = 1 then
    let x1 := clamp ((-k.B - Real.sqrt |k.discr|) / k.A)
    let x2 := clamp ((-k.B + Real.sqrt |k.discr|) / k.A)
    min value (min (front g V U W pU pW x1) (front g V U W pU pW x2))
  else if k.type = 2 then min value (min (front g V U W pU pW 0) (front g V U W pU pW 1))
  else value

/-- a triangulation as seen from its vertices: position, and for each vertex the two other vertices of the triangles around it, in their order (bitpit's
`findCellVertexOneRing` and src/utils/CreateSeedsOnSurface.cpp:1019-1040) -/
structure Tri where
  ids : List Nat
  pos : Nat → E
  ring : Nat → List (Nat × Nat)

/-- `findVertexVertexOneRing`, src/utils/CreateSeedsOnSurface.cpp:1361-1381 -/
def Tri.neighs (t : Tri) (v : Nat) : List Nat := ((t.ring v).flatMap fun e => [e.1, e.2]).filter fun u => u ≠ v

/-- status of the vertices (0 dead, 1 alive, 2 far away), field, keys of the heap, which holds the alive vertices -/
structure Front where
  status : Nat → Nat
  field : Nat → ℝ
  key : Nat → ℝ

/-- one triangle of the loop of `updateEikonal`, src/utils/CreateSeedsOnSurface.cpp:1030-1156 -/
def Tri.cell (t : Tri) (g : ℝ) (s : Front) (V : Nat) (value : ℝ) (e : Nat × Nat) : ℝ :=
  if s.status e.1 = 0 ∧ s.status e.2 = 0 then twoDead g (t.pos V) (t.pos e.1) (t.pos e.2) |s.field e.1| |s.field e.2| value
  else if s.status e.1 = 0 ∨ s.status e.2 = 0 then
    let U := if s.status e.2 = 0 then e.2 else e.1
    min value (|s.field U| + g * ‖t.pos V - t.pos U‖)
  else value

/-- `updateEikonal`, src/utils/CreateSeedsOnSurface.cpp:994-1161 -/
def Tri.update (t : Tri) (g : ℝ) (s : Front) (V : Nat) : ℝ := (t.ring V).foldl (t.cell g s V) |s.field V|

/-- the field before, src/utils/CreateSeedsOnSurface.cpp:509-511 -/
def start (big : ℝ) (deads : List Nat) (v : Nat) : ℝ := if v ∈ deads then 0 else big

/-- the status before, and the keys of the alive vertices, src/utils/CreateSeedsOnSurface.cpp:1187-1226, 1240-1260; the callers give 1 for both speed and sign -/
def Tri.begin (t : Tri) (big : ℝ) (deads : List Nat) : Front :=
  let field := start big deads
  let status := fun v => if v ∈ deads then 0 else if ∃ u ∈ t.neighs v, 0 ≤ field u ∧ field u < big then 1 else 2
  let s : Front := ⟨status, field, fun _ => 0⟩
  { s with key := fun v => t.update 1 s v }

/-- a neighbour of the vertex that was extracted, src/utils/CreateSeedsOnSurface.cpp:1285-1312 -/
def Tri.visit (t : Tri) (s : Front) (J : Nat) : Front :=
  if s.status J = 1 then { s with key := fun v => if v = J then t.update 1 s J else s.key v }
  else if s.status J = 2 then
    { s with key := fun v => if v = J then t.update 1 s J else s.key v, status := fun v => if v = J then 1 else s.status v }
  else s

/-- what follows an extraction, src/utils/CreateSeedsOnSurface.cpp:1273-1312 -/
def Tri.accept (t : Tri) (s : Front) (v : Nat) : Front :=
  (t.neighs v).foldl t.visit { s with field := fun u => if u = v then s.key v else s.field u, status := fun u => if u = v then 0 else s.status u }

/-- a smallest key is extracted, src/utils/CreateSeedsOnSurface.cpp:1268-1271 -/
def Tri.Step (t : Tri) (s s' : Front) : Prop :=
  ∃ v ∈ t.ids, s.status v = 1 ∧ (∀ u ∈ t.ids, s.status u = 1 → s.key v ≤ s.key u) ∧ s' = t.accept s v

/-- `solveEikonal`, src/utils/CreateSeedsOnSurface.cpp:1175-1315, up to some extraction -/
inductive Tri.Reach (t : Tri) (big : ℝ) (deads : List Nat) : Front → Prop
  | start : t.Reach big deads (t.begin big deads)
  | step {s s' : Front} : t.Reach big deads s → t.Step s s' → t.Reach big deads s'

/-- the heap is empty -/
def Tri.Done (t : Tri) (big : ℝ) (deads : List Nat) (s : Front) : Prop := t.Reach big deads s ∧ ∀ v ∈ t.ids, s.status v ≠ 1

/-! ### Level sets -/

/-- the vertex with the greatest value, src/utils/CreateSeedsOnSurface.cpp:515-529: the first of those with the greatest positive one, or number 0 -/
def farthest (ids : List Nat) (field : Nat → ℝ) : Nat :=
  (ids.foldl (fun (b : ℝ × Nat) v => if field v > b.1 then (field v, v) else b) (0, 0)).2

/-- the loop over the points, src/utils/CreateSeedsOnSurface.cpp:507-535; `dist` is the field for given deads.  `none`: a value at an id that is no vertex. -/
def sow (ids : List Nat) (dist : List Nat → Nat → ℝ) (sens : Nat → ℝ) : Nat → List Nat → Option (List Nat)
  | 0, deads => some deads
  | k + 1, deads =>
    if ∀ d ∈ deads, d ∈ ids then sow ids dist sens k (deads ++ [farthest ids fun v => dist deads v * sens v]) else none

/-- `solveLSet`, src/utils/CreateSeedsOnSurface.cpp:442-545: from the vertex nearest to the seed (if there is one) -/
def levelSet (ids : List Nat) (dist : List Nat → Nat → ℝ) (sens : Nat → ℝ) (nPoints : Nat) (first : Option Nat) : Option (List Nat) :=
  match first with
  | none => some []
  | some v => (sow ids dist sens (nPoints - 1) [v]).bind fun l => if ∀ d ∈ l, d ∈ ids then some l else none

/-- the distance reported, src/utils/CreateSeedsOnSurface.cpp:547-553 -/
def minDistance (big : ℝ) : List E → ℝ
  | [] => big
  | p :: ps => (ps.map fun q => ‖p - q‖).foldl min (minDistance big ps)

/-! ### Settings -/

/-- data members, src/utils/CreateSeedsOnSurface.hpp:115-123; engines by their numbers (0 random, 1 level set, 2 grid) -/
structure Settings where
  nPoints : Int := 0
  seed : Fin 3 → ℝ := fun _ => 0
  engine : Int := 2
  massCenter : Bool := false
  randomFixed : Bool := false
  signature : Nat := 1

/-- the setters, src/utils/CreateSeedsOnSurface.cpp:245-330 -/
def Settings.setNPoints (s : Settings) (n : Int) : Settings := { s with nPoints := max n 0 }
def Settings.setEngine (s : Settings) (e : Int) : Settings := { s with engine := if e < 0 ∨ e > 2 then 2 else e }
def Settings.setSignature (s : Settings) (n : Nat) : Settings := { s with signature := n }

/-- the options of a section: numbers, and points -/
structure Section where
  nPoints : Option Int := none
  engine : Option Int := none
  seed : Option (Fin 3 → ℝ) := none
  massCenter : Option Int := none
  randomFixed : Option Int := none
  signature : Option Int := none

/-- `absorbSectionXML`, src/utils/CreateSeedsOnSurface.cpp:1389-1455, for options that are not empty -/
def Settings.absorb (s : Settings) (x : Section) : Settings :=
  let s := match x.nPoints with | none => s | some n => s.setNPoints (max n 0)
  let s := match x.engine with | none => s | some e => s.setEngine (min (max e 0) 2)
  let s := match x.seed with | none => s | some p => { s with seed := p }
  let s := match x.massCenter with | none => s | some b => { s with massCenter := decide (b ≠ 0) }
  match x.randomFixed with | none => s | some b => { s with randomFixed := decide (b ≠ 0) }

/-- the text of a coordinate, seven digits, and back -/
abbrev Round := ℝ → ℝ

/-- `flushSectionXML`, src/utils/CreateSeedsOnSurface.cpp:1463-1495 -/
def Settings.flush (round : Round) (s : Settings) : Section :=
  { nPoints := if s.nPoints ≠ 0 then some s.nPoints else none
    engine := if s.engine ≠ 2 then some s.engine else none
    seed := if s.seed ≠ 0 then some fun i => round (s.seed i) else none
    massCenter := if s.massCenter then some 1 else none
    randomFixed := if (s.signature : Int) ≠ -1 ∧ s.engine = 0 then some s.signature else none }

/-- the signature that an execution with the random engine uses, src/utils/CreateSeedsOnSurface.cpp:706-716 -/
def Settings.run (time : Nat) (s : Settings) : Settings := if s.engine = 0 ∧ ! s.randomFixed then { s with signature := time } else s

end

end Verif.Seeds
