import Verif.Ffd.Curves
import Verif.Grid.DofProps
/-
The evaluation at a vertex: a combination of the values of the nodes.
-/
namespace Verif.Ffd
open Verif.Shape Verif.Grid Verif.Field
open List hiding get elem

noncomputable section
open scoped Classical

/-- specification: the influence of the node `a` along a direction at the value `u`, whose interval is `k`: the B-spline functions of
all the control points that are this node -/
def infl (nodes : List ℤ) (T : ℤ → ℝ) (k : ℤ) (p m : ℕ) (u : ℝ) (a : ℕ) : ℝ :=
  ∑ q ∈ Finset.range m, if nodes[q]? = some (a : ℤ) then boor T k p q u else 0

/-- what is used of a direction: the window of the control points `ν`, the values `b`, and the influences `φ` of the nodes -/
structure Window (c : Curve) (n : ℕ) (u : ℝ) (k : ℤ) (b : ℕ → ℝ) (ν : ℕ → ℕ) (φ : ℕ → ℝ) : Prop where
  find : knotInterval c u = some k
  vals : basis c k u = some b
  node : ∀ r < (c.deg + 1).toNat, elem c.nodes (k - c.deg + (r : ℤ)) = some (ν r : ℤ) ∧ ν r < n
  sum : ∀ F : ℕ → ℝ, ∑ r ∈ Finset.range (c.deg + 1).toNat, b r * F (ν r) = ∑ a ∈ Finset.range n, φ a * F a

/-- the influences are not negative and have sum one -/
structure Shares (n : ℕ) (φ : ℕ → ℝ) : Prop where
  nonneg : ∀ a, 0 ≤ φ a
  one : ∑ a ∈ Finset.range n, φ a = 1

theorem Spline.window {c : Curve} {n p m : ℕ} {T : ℤ → ℝ} {lo hi : ℝ} (h : Spline c n p m T lo hi) {u : ℝ} {k : ℤ}
    (hf : knotInterval c u = some k) (h1 : p ≤ k) (h2 : k < m) :
    ∃ b ν, Window c n u k b ν (infl c.nodes T k p m u) := by
  obtain ⟨b, hb, hv⟩ := h.basis h1 h2 u
  have hdeg : (c.deg + 1).toNat = p + 1 := by rw [h.deg]; omega
  have hq : ∀ r < p + 1, ∃ a : ℕ, a < n ∧ c.nodes[(k - p).toNat + r]? = some (a : ℤ) := fun r hr => h.node _ (by omega)
  let ν : ℕ → ℕ := fun r => if hr : r < p + 1 then (hq r hr).choose else 0
  have hν : ∀ r < p + 1, ν r < n ∧ c.nodes[(k - p).toNat + r]? = some (ν r : ℤ) := by
    intro r hr
    simp only [ν, dif_pos hr]
    exact (hq r hr).choose_spec
  refine ⟨b, ν, hf, hb, ?_, ?_⟩
  · intro r hr
    rw [hdeg] at hr
    refine ⟨?_, (hν r hr).1⟩
    rw [h.deg, show k - p + (r : ℤ) = (((k - p).toNat + r : ℕ) : ℤ) by omega, elem_nat]
    exact (hν r hr).2
  · intro F
    rw [hdeg]
    unfold infl
    simp only [Finset.sum_mul]
    rw [Finset.sum_comm]
    have inner : ∀ q ∈ Finset.range m, (∑ a ∈ Finset.range n, (if c.nodes[q]? = some (a : ℤ) then boor T k p q u else 0) * F a) =
        boor T k p q u * F (c.nodes[q]?.getD 0).toNat := by
      intro q hqm
      obtain ⟨a, ha, hn⟩ := h.node q (Finset.mem_range.1 hqm)
      rw [Finset.sum_eq_single a]
      · rw [if_pos hn, hn]; simp
      · intro a' _ hne
        rw [hn, if_neg (by intro e; exact hne (by have := Option.some.inj e; omega))]
        simp
      · intro hc; exact absurd (Finset.mem_range.2 ha) hc
    rw [Finset.sum_congr rfl inner]
    have sub : ∑ q ∈ Finset.range m, boor T k p q u * F (c.nodes[q]?.getD 0).toNat =
        ∑ q ∈ (Finset.range (p + 1)).image (fun r => (k - p).toNat + r), boor T k p q u * F (c.nodes[q]?.getD 0).toNat := by
      symm
      apply Finset.sum_subset
      · intro q hq
        obtain ⟨r, hr, rfl⟩ := Finset.mem_image.1 hq
        rw [Finset.mem_range] at hr ⊢
        omega
      · intro q hqm hq
        rw [Finset.mem_range] at hqm
        by_cases hl : (q : ℤ) + p < k
        · rw [boor_left T k u p q hl, zero_mul]
        · by_cases hr : k < (q : ℤ)
          · rw [boor_right T k u p q hr, zero_mul]
          · exfalso
            apply hq
            rw [Finset.mem_image]
            exact ⟨q - (k - p).toNat, Finset.mem_range.2 (by omega), by omega⟩
    rw [sub, Finset.sum_image (by intro a _ b _ h; simpa using h)]
    apply Finset.sum_congr rfl
    intro r hr
    rw [Finset.mem_range] at hr
    rw [hv r (by omega), (hν r hr).2, show (((k - p).toNat + r : ℕ) : ℤ) = k - p + r by omega]
    simp

theorem Spline.shares {c : Curve} {n p m : ℕ} {T : ℤ → ℝ} {lo hi : ℝ} (h : Spline c n p m T lo hi) {u : ℝ} {k : ℤ}
    (hf : knotInterval c u = some k) (h1 : p ≤ k) (h2 : k < m) (hl : T k ≤ u) (hu : u ≤ T (k + 1)) :
    Shares n (infl c.nodes T k p m u) := by
  constructor
  · intro a
    unfold infl
    apply Finset.sum_nonneg
    intro q _
    split
    · exact boor_nonneg hl hu p (h.around h1 h2) q
    · exact le_refl _
  · obtain ⟨b, ν, w⟩ := h.window hf h1 h2
    have e := w.sum (fun _ => 1)
    simp only [mul_one] at e
    rw [← e]
    obtain ⟨b', hb, hv⟩ := h.basis h1 h2 u
    rw [w.vals] at hb
    cases hb
    rw [show (c.deg + 1).toNat = p + 1 by rw [h.deg]; omega, ← boor_sum u p (h.around h1 h2)]
    apply Finset.sum_congr rfl
    intro r hr
    rw [Finset.mem_range] at hr
    exact hv r (by omega)

/-! ## The three loops -/

/-- specification: the sum over the nodes of the grid -/
def sum3 (n0 n1 n2 : ℕ) (φ0 φ1 φ2 : ℕ → ℝ) (G : ℕ → ℕ → ℕ → ℝ) : ℝ :=
  ∑ a ∈ Finset.range n0, ∑ b ∈ Finset.range n1, ∑ c ∈ Finset.range n2, φ0 a * φ1 b * φ2 c * G a b c

theorem sumLoop_spec {n : ℕ} {term : ℕ → Option (V3 × ℝ)} {t : ℕ → V3 × ℝ} (h : ∀ i < n, term i = some (t i)) :
    sumLoop n term = some (⟨∑ i ∈ Finset.range n, (t i).1.x, ∑ i ∈ Finset.range n, (t i).1.y, ∑ i ∈ Finset.range n, (t i).1.z⟩,
      ∑ i ∈ Finset.range n, (t i).2) := by
  unfold sumLoop
  induction n with
  | zero => simp
  | succ n ih =>
    rw [List.range_succ, foldlM_snoc, ih (fun i hi => h i (by omega))]
    simp only [Option.bind_some, Finset.sum_range_succ]
    rw [h n (by omega)]
    rfl

/-- the three loops in the order of the arguments: `x`, `y`, `z`, and weight of the result -/
theorem loops_spec {n0 n1 n2 m0 m1 m2 : ℕ} {b0 b1 b2 φ0 φ1 φ2 : ℕ → ℝ} {ν0 ν1 ν2 : ℕ → ℕ}
    (s0 : ∀ F : ℕ → ℝ, ∑ r ∈ Finset.range m0, b0 r * F (ν0 r) = ∑ a ∈ Finset.range n0, φ0 a * F a)
    (s1 : ∀ F : ℕ → ℝ, ∑ r ∈ Finset.range m1, b1 r * F (ν1 r) = ∑ a ∈ Finset.range n1, φ1 a * F a)
    (s2 : ∀ F : ℕ → ℝ, ∑ r ∈ Finset.range m2, b2 r * F (ν2 r) = ∑ a ∈ Finset.range n2, φ2 a * F a)
    {W : ℕ → ℕ → ℕ → ℝ} {D : ℕ → ℕ → ℕ → V3} {term : ℕ → ℕ → ℕ → Option (V3 × ℝ)}
    (ht : ∀ i < m0, ∀ j < m1, ∀ k < m2, term i j k = some (V3.scale (b2 k * W (ν0 i) (ν1 j) (ν2 k)) (D (ν0 i) (ν1 j) (ν2 k)),
      b2 k * W (ν0 i) (ν1 j) (ν2 k))) :
    (sumLoop m0 fun i => (sumLoop m1 fun j => (sumLoop m2 fun k => term i j k).map (times (b1 j))).map (times (b0 i))) =
      some (⟨sum3 n0 n1 n2 φ0 φ1 φ2 (fun a b c => W a b c * (D a b c).x), sum3 n0 n1 n2 φ0 φ1 φ2 (fun a b c => W a b c * (D a b c).y),
        sum3 n0 n1 n2 φ0 φ1 φ2 (fun a b c => W a b c * (D a b c).z)⟩, sum3 n0 n1 n2 φ0 φ1 φ2 W) := by
  have full : ∀ G : ℕ → ℕ → ℕ → ℝ, (∑ i ∈ Finset.range m0, b0 i * ∑ j ∈ Finset.range m1, b1 j * ∑ k ∈ Finset.range m2,
      b2 k * G (ν0 i) (ν1 j) (ν2 k)) = sum3 n0 n1 n2 φ0 φ1 φ2 G := by
    intro G
    have e2 : ∀ i j, (∑ k ∈ Finset.range m2, b2 k * G (ν0 i) (ν1 j) (ν2 k)) = ∑ c ∈ Finset.range n2, φ2 c * G (ν0 i) (ν1 j) c :=
      fun i j => s2 (fun c => G (ν0 i) (ν1 j) c)
    simp only [e2]
    have e1 : ∀ i, (∑ j ∈ Finset.range m1, b1 j * ∑ c ∈ Finset.range n2, φ2 c * G (ν0 i) (ν1 j) c) =
        ∑ b ∈ Finset.range n1, φ1 b * ∑ c ∈ Finset.range n2, φ2 c * G (ν0 i) b c :=
      fun i => s1 (fun b => ∑ c ∈ Finset.range n2, φ2 c * G (ν0 i) b c)
    simp only [e1]
    rw [s0 (fun a => ∑ b ∈ Finset.range n1, φ1 b * ∑ c ∈ Finset.range n2, φ2 c * G a b c)]
    unfold sum3
    simp only [Finset.mul_sum]
    refine Finset.sum_congr rfl (fun a _ => Finset.sum_congr rfl (fun b _ => Finset.sum_congr rfl (fun c _ => by ring)))
  have h2 : ∀ i < m0, ∀ j < m1, (sumLoop m2 fun k => term i j k) = some _ := fun i hi j hj => sumLoop_spec (ht i hi j hj)
  have h1 : ∀ i < m0, (sumLoop m1 fun j => (sumLoop m2 fun k => term i j k).map (times (b1 j))) = some _ := fun i hi =>
    sumLoop_spec (t := fun j => times (b1 j) _) (fun j hj => by rw [h2 i hi j hj]; rfl)
  have h0 := sumLoop_spec (n := m0)
    (term := fun i => (sumLoop m1 fun j => (sumLoop m2 fun k => term i j k).map (times (b1 j))).map (times (b0 i)))
    (t := fun i => times (b0 i) _) (fun i hi => by rw [h1 i hi]; rfl)
  rw [h0]
  have a := full (fun a b c => W a b c * (D a b c).x)
  have b := full (fun a b c => W a b c * (D a b c).y)
  have c := full (fun a b c => W a b c * (D a b c).z)
  have d := full W
  simp only [times, V3.scale]
  rw [← a, ← b, ← c, ← d]
  simp only [mul_assoc]

theorem orderOf_cases (a b c : Int) : orderOf a b c = (0, 1, 2) ∨ orderOf a b c = (0, 2, 1) ∨ orderOf a b c = (1, 0, 2) ∨
    orderOf a b c = (1, 2, 0) ∨ orderOf a b c = (2, 0, 1) ∨ orderOf a b c = (2, 1, 0) := by
  unfold orderOf
  split <;> split <;> (try split) <;> simp

theorem sum3_perm (n0 n1 n2 : ℕ) (φ0 φ1 φ2 : ℕ → ℝ) (G : ℕ → ℕ → ℕ → ℝ) :
    sum3 n0 n2 n1 φ0 φ2 φ1 (fun a c b => G a b c) = sum3 n0 n1 n2 φ0 φ1 φ2 G ∧
    sum3 n1 n0 n2 φ1 φ0 φ2 (fun b a c => G a b c) = sum3 n0 n1 n2 φ0 φ1 φ2 G ∧
    sum3 n1 n2 n0 φ1 φ2 φ0 (fun b c a => G a b c) = sum3 n0 n1 n2 φ0 φ1 φ2 G ∧
    sum3 n2 n0 n1 φ2 φ0 φ1 (fun c a b => G a b c) = sum3 n0 n1 n2 φ0 φ1 φ2 G ∧
    sum3 n2 n1 n0 φ2 φ1 φ0 (fun c b a => G a b c) = sum3 n0 n1 n2 φ0 φ1 φ2 G := by
  have s1 : ∀ (n0 n1 n2 : ℕ) (φ0 φ1 φ2 : ℕ → ℝ) (G : ℕ → ℕ → ℕ → ℝ),
      sum3 n0 n2 n1 φ0 φ2 φ1 (fun a c b => G a b c) = sum3 n0 n1 n2 φ0 φ1 φ2 G := by
    intro n0 n1 n2 φ0 φ1 φ2 G
    unfold sum3
    refine Finset.sum_congr rfl (fun a _ => ?_)
    rw [Finset.sum_comm]
    refine Finset.sum_congr rfl (fun b _ => Finset.sum_congr rfl (fun c _ => by ring))
  have s2 : ∀ (n0 n1 n2 : ℕ) (φ0 φ1 φ2 : ℕ → ℝ) (G : ℕ → ℕ → ℕ → ℝ),
      sum3 n1 n0 n2 φ1 φ0 φ2 (fun b a c => G a b c) = sum3 n0 n1 n2 φ0 φ1 φ2 G := by
    intro n0 n1 n2 φ0 φ1 φ2 G
    unfold sum3
    rw [Finset.sum_comm]
    refine Finset.sum_congr rfl (fun b _ => Finset.sum_congr rfl (fun c _ => Finset.sum_congr rfl (fun _ _ => by ring)))
  refine ⟨s1 _ _ _ _ _ _ _, s2 _ _ _ _ _ _ _, ?_, ?_, ?_⟩
  · rw [s1 n1 n0 n2 φ1 φ0 φ2 (fun b a c => G a b c), s2]
  · rw [s2 n0 n2 n1 φ0 φ2 φ1 (fun a c b => G a b c), s1]
  · rw [s1 n2 n0 n1 φ2 φ0 φ1 (fun c a b => G a b c), s2 n0 n2 n1 φ0 φ2 φ1 (fun a c b => G a b c), s1]

/-- the values of the nodes of the grid, as the lists give them -/
def Table {α : Type} (f : Ffd) (n0 n1 n2 : ℕ) (l : List α) (V : ℕ → ℕ → ℕ → α) : Prop :=
  ∀ a < n0, ∀ b < n1, ∀ c < n2, elem l (pointIndex f.lat.grid a b c) = some (V a b c)

/-- the accumulated values -/
def combine (n0 n1 n2 : ℕ) (φ0 φ1 φ2 : ℕ → ℝ) (W : ℕ → ℕ → ℕ → ℝ) (D : ℕ → ℕ → ℕ → V3) : V3 × ℝ :=
  (⟨sum3 n0 n1 n2 φ0 φ1 φ2 (fun a b c => W a b c * (D a b c).x), sum3 n0 n1 n2 φ0 φ1 φ2 (fun a b c => W a b c * (D a b c).y),
    sum3 n0 n1 n2 φ0 φ1 φ2 (fun a b c => W a b c * (D a b c).z)⟩, sum3 n0 n1 n2 φ0 φ1 φ2 W)

theorem evalVertex_spec {f : Ffd} {s : Shape} {target : V3} {displ : List V3} {weig : List ℝ} {n0 n1 n2 : ℕ} {k0 k1 k2 : ℤ}
    {b0 b1 b2 : ℕ → ℝ} {ν0 ν1 ν2 : ℕ → ℕ} {φ0 φ1 φ2 : ℕ → ℝ} {W : ℕ → ℕ → ℕ → ℝ} {D : ℕ → ℕ → ℕ → V3}
    (hs : f.lat.grid.shape = some s) {x y z : Int} (ho : f.order = orderOf x y z)
    (w0 : Window f.c0 n0 (toLocal s target).x k0 b0 ν0 φ0) (w1 : Window f.c1 n1 (toLocal s target).y k1 b1 ν1 φ1)
    (w2 : Window f.c2 n2 (toLocal s target).z k2 b2 ν2 φ2) (hW : Table f n0 n1 n2 weig W) (hD : Table f n0 n1 n2 displ D) :
    evalVertex f displ weig target = finish f s target (toLocal s target) (combine n0 n1 n2 φ0 φ1 φ2 W D) := by
  obtain ⟨p, hp⟩ : ∃ p, p = toLocal s target := ⟨_, rfl⟩
  rw [← hp] at w0 w1 w2 ⊢
  have idx : ∀ i < (f.c0.deg + 1).toNat, ∀ j < (f.c1.deg + 1).toNat, ∀ k < (f.c2.deg + 1).toNat,
      mapNode f (k0 - f.c0.deg + (i : ℤ)) (k1 - f.c1.deg + (j : ℤ)) (k2 - f.c2.deg + (k : ℤ)) =
        some (pointIndex f.lat.grid (ν0 i) (ν1 j) (ν2 k)) ∧
      elem weig (pointIndex f.lat.grid (ν0 i) (ν1 j) (ν2 k)) = some (W (ν0 i) (ν1 j) (ν2 k)) ∧
      elem displ (pointIndex f.lat.grid (ν0 i) (ν1 j) (ν2 k)) = some (D (ν0 i) (ν1 j) (ν2 k)) := by
    intro i hi j hj k hk
    obtain ⟨e0, l0⟩ := w0.node i hi
    obtain ⟨e1, l1⟩ := w1.node j hj
    obtain ⟨e2, l2⟩ := w2.node k hk
    refine ⟨?_, hW _ l0 _ l1 _ l2, hD _ l0 _ l1 _ l2⟩
    unfold mapNode
    rw [e0, e1, e2]
    rfl
  obtain ⟨q1, q2, q3, q4, q5⟩ := sum3_perm n0 n1 n2 φ0 φ1 φ2 W
  obtain ⟨x1, x2, x3, x4, x5⟩ := sum3_perm n0 n1 n2 φ0 φ1 φ2 (fun a b c => W a b c * (D a b c).x)
  obtain ⟨y1, y2, y3, y4, y5⟩ := sum3_perm n0 n1 n2 φ0 φ1 φ2 (fun a b c => W a b c * (D a b c).y)
  obtain ⟨z1, z2, z3, z4, z5⟩ := sum3_perm n0 n1 n2 φ0 φ1 φ2 (fun a b c => W a b c * (D a b c).z)
  unfold evalVertex combine
  rw [hs]
  simp only [Option.bind_eq_bind, Option.bind_some, ← hp]
  rcases orderOf_cases x y z with h | h | h | h | h | h <;> rw [ho, h] <;>
    simp only [Ffd.curve, V3.at, w0.find, w1.find, w2.find, Option.bind_some, w0.vals, w1.vals, w2.vals] <;> norm_num
  · rw [loops_spec w0.sum w1.sum w2.sum (W := W) (D := D) (by
      intro i hi j hj k hk
      obtain ⟨a, b, c⟩ := idx i hi j hj k hk
      rw [a, Option.bind_some, b, Option.bind_some, c]; rfl)]
    rfl
  · rw [loops_spec w0.sum w2.sum w1.sum (W := fun a c b => W a b c) (D := fun a c b => D a b c) (by
      intro i hi j hj k hk
      obtain ⟨a, b, c⟩ := idx i hi k hk j hj
      rw [a, Option.bind_some, b, Option.bind_some, c]; rfl), Option.bind_some, q1, x1, y1, z1]
  · rw [loops_spec w1.sum w0.sum w2.sum (W := fun b a c => W a b c) (D := fun b a c => D a b c) (by
      intro i hi j hj k hk
      obtain ⟨a, b, c⟩ := idx j hj i hi k hk
      rw [a, Option.bind_some, b, Option.bind_some, c]; rfl), Option.bind_some, q2, x2, y2, z2]
  · rw [loops_spec w1.sum w2.sum w0.sum (W := fun b c a => W a b c) (D := fun b c a => D a b c) (by
      intro i hi j hj k hk
      obtain ⟨a, b, c⟩ := idx k hk i hi j hj
      rw [a, Option.bind_some, b, Option.bind_some, c]; rfl), Option.bind_some, q3, x3, y3, z3]
  · rw [loops_spec w2.sum w0.sum w1.sum (W := fun c a b => W a b c) (D := fun c a b => D a b c) (by
      intro i hi j hj k hk
      obtain ⟨a, b, c⟩ := idx j hj k hk i hi
      rw [a, Option.bind_some, b, Option.bind_some, c]; rfl), Option.bind_some, q4, x4, y4, z4]
  · rw [loops_spec w2.sum w1.sum w0.sum (W := fun c b a => W a b c) (D := fun c b a => D a b c) (by
      intro i hi j hj k hk
      obtain ⟨a, b, c⟩ := idx k hk j hj i hi
      rw [a, Option.bind_some, b, Option.bind_some, c]; rfl), Option.bind_some, q5, x5, y5, z5]

end

end Verif.Ffd
