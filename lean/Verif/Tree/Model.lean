import Verif.Utils.PointProps
import Verif.Rbf.BoxModel

/-!
Search trees: src/core/SkdTreeUtils.cpp (serial functions).

The tree itself belongs to bitpit.  A node of the tree is modelled by the subtree under it: `nil` stands for the null id of a
missing child, `node b cells l r` for a node with box `b`, the list of its cells and its two children.  The distances of a
point to a box (`evalPointMinDistance`, `evalPointMaxDistance`) and to a cell are parameters; what is assumed about them is
in the theorems (`Built`, `Fits`).
-/

namespace Verif.Tree
open Verif.Shape
open Verif.Rbf (tiny huge)
noncomputable section
open scoped Classical

/-- an axis-aligned box -/
structure Box where
  lo : V3
  hi : V3

/-- a tree of boxes (bitpit::PatchSkdTree) -/
inductive Skd where
  | nil
  | node (b : Box) (cells : List Nat) (l r : Skd)

def Skd.size : Skd → Nat
  | .nil => 1
  | .node _ _ l r => 1 + l.size + r.size

/-- `SkdNode::getCells` -/
def Skd.cells : Skd → List Nat
  | .nil => []
  | .node _ cs _ _ => cs

/-- children in the order of the stack: the second child is on top -/
def Skd.kids : Skd → Skd → List Skd
  | .nil, .nil => []
  | l, .nil => [l]
  | .nil, r => [r]
  | l, r => [r, l]

theorem Skd.size_pos (t : Skd) : 0 < t.size := by cases t <;> simp [Skd.size] <;> omega

theorem kids_size (l r : Skd) : ((Skd.kids l r).map Skd.size).sum ≤ l.size + r.size := by
  cases l <;> cases r <;> simp [Skd.kids, Skd.size] <;> omega

/-! ### Closest cell -/

/-- search for candidate leaves, src/core/SkdTreeUtils.cpp:1588-1625: stack, estimate of the distance, leaves found with their
least distance -/
def collect (mn mx : Box → ℝ) : List Skd → ℝ → List (List Nat × ℝ) → List (List Nat × ℝ) × ℝ
  | [], e, acc => (acc, e)
  | .nil :: s, e, acc => collect mn mx s e acc
  | .node b cs l r :: s, e, acc =>
    if mn b > e then collect mn mx s e acc
    else
      if Skd.kids l r = [] then collect mn mx s (min (mx b) e) (acc ++ [(cs, mn b)])
      else collect mn mx (Skd.kids l r ++ s) (min (mx b) e) acc
termination_by s => (s.map Skd.size).sum
decreasing_by
  · simp [Skd.size]
  · simp [Skd.size]
  · simp [Skd.size]
  · have := kids_size l r
    simp only [List.map_append, List.sum_append, List.map_cons, List.sum_cons, Skd.size]
    omega

/-- one cell of `SkdNode::updatePointClosestCell` of bitpit: cells that are not wanted, and cells farther than the closest so
far, are left out; among cells at the same distance `tie` chooses -/
def updCell (d : Nat → ℝ) (wanted : Nat → Bool) (tie : Nat → Nat → Bool) (st : Option Nat × ℝ) (c : Nat) : Option Nat × ℝ :=
  if wanted c = false then st
  else if d c > st.2 then st
  else if d c < st.2 then (some c, d c)
  else match st.1 with
    | none => (some c, d c)
    | some o => if tie o c then (some c, d c) else st

/-- the candidates one after the other, src/core/SkdTreeUtils.cpp:1627-1643, with the number of leaves looked at -/
def process (d : Nat → ℝ) (wanted : Nat → Bool) (tie : Nat → Nat → Bool) :
    List (List Nat × ℝ) → (Option Nat × ℝ) × Nat → (Option Nat × ℝ) × Nat
  | [], st => st
  | (cs, m) :: l, st =>
    if m > st.1.2 then process d wanted tie l st
    else process d wanted tie l (cs.foldl (updCell d wanted tie) st.1, st.2 + 1)

/-- `findPointClosestCell`, src/core/SkdTreeUtils.cpp:1562-1652.  The function is called on trees with a root: `nil` is an
access out of range. -/
def closestCell (mn mx : Box → ℝ) (d : Nat → ℝ) (wanted : Nat → Bool) (tie : Nat → Nat → Bool) (t : Skd) (maxDist : ℝ) :
    Option ((Option Nat × ℝ) × Nat) :=
  match t with
  | .nil => none
  | .node b cs l r =>
    let ce := collect mn mx [.node b cs l r] (min (mx b) maxDist) []
    let res := process d wanted tie ce.1 ((none, ce.2), 0)
    some (if res.1.1 = none then ((none, huge), res.2) else res)

/-- without a maximum distance, src/core/SkdTreeUtils.cpp:1538-1542 -/
def closestCellAny (mn mx : Box → ℝ) (d : Nat → ℝ) (wanted : Nat → Bool) (tie : Nat → Nat → Bool) (t : Skd) :
    Option ((Option Nat × ℝ) × Nat) := closestCell mn mx d wanted tie t huge

/-- distance of a point to a box, in the sense of `evalPointMinDistance` -/
def boxMin (p : V3) (b : Box) : ℝ :=
  norm2 ⟨max 0 (max (b.lo.x - p.x) (p.x - b.hi.x)), max 0 (max (b.lo.y - p.y) (p.y - b.hi.y)),
    max 0 (max (b.lo.z - p.z) (p.z - b.hi.z))⟩

/-- distance of a point to the farthest corner of a box, in the sense of `evalPointMaxDistance` -/
def boxMax (p : V3) (b : Box) : ℝ :=
  norm2 ⟨max (p.x - b.lo.x) (b.hi.x - p.x), max (p.y - b.lo.y) (b.hi.y - p.y), max (p.z - b.lo.z) (b.hi.z - p.z)⟩

/-! ### Cells close to a patch -/

/-- `CGElem::intersectBoxBox` of bitpit with a tolerance -/
def meet (tol : ℝ) (a b : Box) : Bool :=
  decide (a.lo.x ≤ b.hi.x + tol ∧ b.lo.x ≤ a.hi.x + tol ∧ a.lo.y ≤ b.hi.y + tol ∧ b.lo.y ≤ a.hi.y + tol ∧
    a.lo.z ≤ b.hi.z + tol ∧ b.lo.z ≤ a.hi.z + tol)

/-- boxes of the leaves of a tree, src/core/SkdTreeUtils.cpp:257-258 -/
def leafBoxes : Skd → List Box
  | .nil => []
  | .node b _ l r => if Skd.kids l r = [] then [b] else leafBoxes l ++ leafBoxes r

/-- children with the boxes that meet them, src/core/SkdTreeUtils.cpp:325-343; the second child is on top -/
def meetKids (tol : ℝ) (bs : List Box) : List Skd → List (Skd × List Box)
  | [] => []
  | .nil :: s => meetKids tol bs s
  | .node b cs l r :: s =>
    if bs.filter (fun a => meet tol a b) = [] then meetKids tol bs s
    else (.node b cs l r, bs.filter (fun a => meet tol a b)) :: meetKids tol bs s

theorem meetKids_size (tol : ℝ) (bs : List Box) (s : List Skd) :
    ((meetKids tol bs s).map (fun e => e.1.size)).sum ≤ (s.map Skd.size).sum := by
  induction s with
  | nil => simp [meetKids]
  | cons t s ih =>
    cases t with
    | nil => simp only [meetKids, List.map_cons, List.sum_cons]; omega
    | node b cs l r =>
      simp only [meetKids]
      split <;> simp only [List.map_cons, List.sum_cons] <;> omega

/-- the loop of `extractTarget`, src/core/SkdTreeUtils.cpp:316-348: leaves of the target found, by their cells -/
def extractLoop (tol : ℝ) : List (Skd × List Box) → List (List Nat) → List (List Nat)
  | [], acc => acc
  | (.nil, _) :: s, acc => extractLoop tol s acc
  | (.node _ cs l r, bs) :: s, acc =>
    if Skd.kids l r = [] then extractLoop tol s (acc ++ [cs])
    else extractLoop tol (meetKids tol bs (Skd.kids l r) ++ s) acc
termination_by s => (s.map (fun e => e.1.size)).sum
decreasing_by
  · simp [Skd.size]
  · simp [Skd.size]
  · have := kids_size l r
    have := meetKids_size tol bs (Skd.kids l r)
    simp only [List.map_append, List.sum_append, List.map_cons, List.sum_cons, Skd.size]
    omega

/-- `extractTarget`, src/core/SkdTreeUtils.cpp:295-357; `none`: access to the root of a tree without nodes.  The order of the
result is that of a hash set: the order of the model is one of those possible. -/
def extractTarget (target : Skd) (leaves : List Box) (tol : ℝ) : Option (List Nat) :=
  if leaves = [] then some []
  else match target with
    | .nil => none
    | .node b cs l r =>
      some (extractLoop tol [(.node b cs l r, leaves.filter (fun a => meet tol a b))] []).flatten.dedup

/-- `selectByPatch`, src/core/SkdTreeUtils.cpp:251-279 -/
def selectByPatch (selection target : Skd) (tol : ℝ) : Option (List Nat) :=
  match target with
  | .nil => if leafBoxes selection = [] then some [] else none
  | .node b cs l r => extractTarget (.node b cs l r) ((leafBoxes selection).filter (fun a => meet tol a b)) tol

end
end Verif.Tree
