import Mathlib.Analysis.SpecialFunctions.Pow.Real
import Mathlib.Algebra.BigOperators.Fin
import Mathlib.Tactic.Ring
import Mathlib.Tactic.Linarith
import Mathlib.Tactic.FieldSimp
/-
Model of src/propagators/StencilFunctions.cpp: stencils of gradients and Laplacians on a mesh.

Simplified: `double` is ℝ; one process, so that all cells and points are interior; positions, neighbours and interfaces of the mesh are given
(bitpit); bitpit's stencils are lists of items with a constant; a division by zero that the code does not exclude gives `none` where it is created
from the mesh as a whole, elsewhere the theorems exclude it by hypothesis.
-/
namespace Verif.Lapl
open List

noncomputable section

/-- `std::array<double,3>` -/
abbrev V := Fin 3 → ℝ

/-- bitpit's `dotProduct` and `norm2` (external) -/
def dot (a b : V) : ℝ := a 0 * b 0 + a 1 * b 1 + a 2 * b 2
def norm2 (a : V) : ℝ := √(dot a a)

/-- bitpit's `DiscreteStencil` (external): weights by id and a constant -/
structure Sten (β : Type) where
  items : List (Nat × β) := []
  const : β

variable {β : Type} [AddCommGroup β] [Module ℝ β]

/-- `sumItem`: added to the weight of the id, or appended -/
def sumItem (id : Nat) (w : β) : List (Nat × β) → List (Nat × β)
  | [] => [(id, w)]
  | e :: l => if e.1 = id then (id, e.2 + w) :: l else e :: sumItem id w l

/-- an empty stencil, `appendItem`, `sumConstant`, `operator+=`, `operator-=`, `operator*=`, `operator/=`, `addComplementToZero` -/
def Sten.empty : Sten β := ⟨[], 0⟩
def Sten.append (s : Sten β) (id : Nat) (w : β) : Sten β := ⟨s.items ++ [(id, w)], s.const⟩
def Sten.addConst (s : Sten β) (c : β) : Sten β := ⟨s.items, s.const + c⟩
def Sten.add (s t : Sten β) : Sten β := ⟨t.items.foldl (fun l e => sumItem e.1 e.2 l) s.items, s.const + t.const⟩
def Sten.scale (k : ℝ) (s : Sten β) : Sten β := ⟨s.items.map fun e => (e.1, k • e.2), k • s.const⟩
def Sten.sub (s t : Sten β) : Sten β := s.add (t.scale (-1))
def Sten.complement (s : Sten β) (id : Nat) : Sten β := s.append id (-(s.items.map Prod.snd).sum)

/-- `dotProduct(stencil, vector)` and `stencil * vector` -/
def Sten.dot (s : Sten V) (v : V) : Sten ℝ := ⟨s.items.map fun e => (e.1, Lapl.dot e.2 v), Lapl.dot s.const v⟩
def Sten.times (s : Sten ℝ) (v : V) : Sten V := ⟨s.items.map fun e => (e.1, e.2 • v), s.const • v⟩

/-- the value of a stencil for a field -/
def Sten.eval (s : Sten β) (u : Nat → ℝ) : β := (s.items.map fun e => u e.1 • e.2).sum + s.const

/-! ### Gradients at cells -/

/-- `isSingular`, src/propagators/StencilFunctions.cpp:52-58 -/
def singular (P : List V) (j : Fin 3) : Prop := ∀ p ∈ P, |p j| < 1e-12

open scoped Classical in
/-- the matrix, src/propagators/StencilFunctions.cpp:60-73 -/
def wlsMatrix (P : List V) (w : List ℝ) (j l : Fin 3) : ℝ :=
  ((P.zip w).map fun e => e.2 * e.1 l * e.1 j).sum + (if j = l ∧ singular P j then 1 else 0)

/-- the determinant, src/propagators/StencilFunctions.cpp:96 -/
def det3 (A : Fin 3 → Fin 3 → ℝ) : ℝ :=
  A 0 0 * (A 1 1 * A 2 2 - A 2 1 * A 1 2) - A 0 1 * (A 1 0 * A 2 2 - A 1 2 * A 2 0) + A 0 2 * (A 1 0 * A 2 1 - A 1 1 * A 2 0)

/-- the inverse, src/propagators/StencilFunctions.cpp:97-108 -/
def inv3 (A : Fin 3 → Fin 3 → ℝ) : Fin 3 → Fin 3 → ℝ :=
  let d := 1 / det3 A
  ![![(A 1 1 * A 2 2 - A 2 1 * A 1 2) * d, -(A 1 0 * A 2 2 - A 1 2 * A 2 0) * d, (A 1 0 * A 2 1 - A 2 0 * A 1 1) * d],
    ![-(A 0 1 * A 2 2 - A 0 2 * A 2 1) * d, (A 0 0 * A 2 2 - A 0 2 * A 2 0) * d, -(A 0 0 * A 2 1 - A 2 0 * A 0 1) * d],
    ![(A 0 1 * A 1 2 - A 0 2 * A 1 1) * d, -(A 0 0 * A 1 2 - A 1 0 * A 0 2) * d, (A 0 0 * A 1 1 - A 1 0 * A 0 1) * d]]

open scoped Classical in
/-- `computeWeightsWLS`, src/propagators/StencilFunctions.cpp:43-113, by columns; `none`: the determinant is zero -/
def wlsWeights (P : List V) (w : List ℝ) : Option (List V) :=
  let A := wlsMatrix P w
  if det3 A = 0 then none
  else
    let B := inv3 A
    some ((P.zip w).map fun e i => (B i 0 * e.1 0 + B i 1 * e.1 1 + B i 2 * e.1 2) * e.2)

/-- the stencil of a cell, src/propagators/StencilFunctions.cpp:149-187; `cent`: centroids, `neighs`: the neighbours at faces and edges -/
def cellGradient (cent : Nat → V) (neighs : List Nat) (c : Nat) : Option (Sten V) :=
  let points := neighs.map fun n => cent n - cent c
  let ww := points.map fun p => 1 / (norm2 p) ^ (1.5 : ℝ)
  (wlsWeights points ww).map fun g => (Sten.mk (neighs.zip g) 0).complement c

/-! ### Gradients at interfaces -/

/-- bitpit's projection on a line with a direction of unit length (external) -/
def projLine (x q n : V) : V := q + dot (x - q) n • n

open scoped Classical in
/-- the stencil of an interface between two cells, src/propagators/StencilFunctions.cpp:308-365; `none`: a centroid is in the plane of the
interface -/
def faceGradient (owner neigh : Nat) (cO cN cI n : V) (sO sN : Sten V) : Option (Sten V) :=
  let m := min (norm2 (projLine cO cI n - cI)) (norm2 (projLine cN cI n - cI))
  if m = 0 then none
  else
    let pO := cI - m • n
    let pN := cI + m • n
    let tO := (Sten.empty.append owner 1).add (sO.dot (pO - cO))
    let tN := (Sten.empty.append neigh 1).add (sN.dot (pN - cN))
    let avg := (sO.add sN).scale 0.5
    let it := avg.sub ((avg.dot n).times n)
    some (it.add ((tN.sub tO).times ((1 / (2 * m)) • n)))

/-- `computeBorderFaceGradient`, src/propagators/StencilFunctions.cpp:386-394 -/
def borderGradient (n : V) (s : Sten V) : Sten V := s.sub ((s.dot n).times n)

/-- `correctionNeumannBCFaceGradient`, src/propagators/StencilFunctions.cpp:412-418 -/
def neumannCorrection (val : ℝ) (n : V) : Sten V := Sten.empty.addConst (val • n)

/-- `correctionDirichletBCFaceGradient`, src/propagators/StencilFunctions.cpp:448-475 -/
def dirichletCorrection (val : ℝ) (owner : Nat) (cO cI n : V) (dist : ℝ) (s : Sten V) : Sten V :=
  let p := (Sten.empty.append owner 1).add (s.dot (cI - dist • n - cO))
  (((p.scale (1 / dist)).scale (-1)).times n).addConst ((val / dist) • n)

/-! ### Laplacians of volumes -/

/-- an interface: owner, neighbour (none on the border), area and unit normal from the owner -/
structure Face where
  owner : Nat
  neigh : Option Nat
  area : ℝ
  normal : V

/-- stencils by cell -/
abbrev Div := Nat → Option (Sten ℝ)

/-- `result->at(id) += s` -/
def Div.sum (r : Div) (id : Nat) (s : Sten ℝ) : Div := fun k => if k = id then (r k).map fun t => t.add s else r k

/-- the diffusivity at an interface, src/propagators/StencilFunctions.cpp:531, 536, 545-547 -/
def faceDiff (diff : Option (Nat → ℝ)) (f : Face) : ℝ :=
  match diff, f.neigh with
  | none, _ => f.area
  | some k, none => f.area * k f.owner
  | some k, some n => f.area * (0.5 * (k f.owner + k n))

/-- the loop over the interfaces, src/propagators/StencilFunctions.cpp:520-561; the second part: the cells that are involved -/
def divStep (diff : Option (Nat → ℝ)) (r : Div × List Nat) (e : Face × Sten V) : Div × List Nat :=
  let flux := (e.2.dot e.1.normal).scale (faceDiff diff e.1)
  match e.1.neigh with
  | none => (r.1.sum e.1.owner flux, e.1.owner :: r.2)
  | some n => ((r.1.sum e.1.owner flux).sum n (flux.scale (-1)), n :: e.1.owner :: r.2)

open scoped Classical in
/-- `computeFVLaplacianStencil`, src/propagators/StencilFunctions.cpp:496-573; `faces`: the interfaces with their gradient stencils -/
def laplacianFV (cells : List Nat) (vol : Nat → ℝ) (faces : List (Face × Sten V)) (diff : Option (Nat → ℝ)) : Div :=
  let r := faces.foldl (divStep diff) (fun k => if k ∈ cells then some Sten.empty else none, [])
  fun k => if k ∈ r.2 then (r.1 k).map fun s => s.scale (1 / vol k) else none

/-! ### Graph Laplacians -/

/-- the weight of an edge, src/propagators/StencilFunctions.cpp:631-636, 726-731 -/
def edgeWeight (pos : Nat → V) (diff : Nat → ℝ) (a b : Nat) : ℝ := 1 / (norm2 (pos a - pos b)) ^ (2 : ℝ) * (0.5 * (diff a + diff b))

/-- the stencil of a point, src/propagators/StencilFunctions.cpp:624-661, 720-754; `conn`: the points that share an edge with it -/
def graphStencil (pos : Nat → V) (diff : Nat → ℝ) (conn : Nat → List Nat) (a : Nat) : Sten ℝ :=
  let s : Sten ℝ := (conn a).foldl (fun s b => s.append b (edgeWeight pos diff a b)) Sten.empty
  let sum := (conn a).foldl (fun s b => s + edgeWeight pos diff a b) 0
  (s.scale (1 / sum)).complement a

/-- `computeLaplacianStencils`, src/propagators/StencilFunctions.cpp:594-672, 687-765: the points `ids`, the diffusivity 1 if none is given -/
def graphStencils (pos : Nat → V) (diff : Option (Nat → ℝ)) (conn : Nat → List Nat) (ids : List Nat) : Nat → Option (Sten ℝ) :=
  fun a => if a ∈ ids then some (graphStencil pos (diff.getD fun _ => 1) conn a) else none

end

end Verif.Lapl
