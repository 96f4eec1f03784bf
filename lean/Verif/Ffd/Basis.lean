import Verif.Ffd.Model
import Mathlib.Algebra.BigOperators.Ring.Finset
import Mathlib.Algebra.BigOperators.Group.Finset.Basic
import Mathlib.Algebra.Order.BigOperators.Group.Finset
import Mathlib.Tactic.FieldSimp
import Mathlib.Tactic.Linarith
import Mathlib.Tactic.Ring
/-
The algorithm of `basisITS0` computes the B-spline functions of the recursion of Cox and de Boor.
-/
namespace Verif.Ffd
open Verif.Shape Verif.Grid Verif.Field
open List hiding get

noncomputable section
open scoped Classical

/-- specification: the B-spline functions of degree `p` on the knots `T` (Cox and de Boor, 0/0 is 0), restricted to the interval
between the knots `k` and `k+1` -/
def boor (T : ℤ → ℝ) (k : ℤ) : ℕ → ℤ → ℝ → ℝ
  | 0, i, _ => if i = k then 1 else 0
  | p + 1, i, u => (u - T i) / (T (i + p + 1) - T i) * boor T k p i u +
      (T (i + p + 2) - u) / (T (i + p + 2) - T (i + 1)) * boor T k p (i + 1) u

/-- specification: the B-spline functions of degree `p` on the knots `T` -/
def bspline (T : ℤ → ℝ) : ℕ → ℤ → ℝ → ℝ
  | 0, i, u => if T i ≤ u ∧ u < T (i + 1) then 1 else 0
  | p + 1, i, u => (u - T i) / (T (i + p + 1) - T i) * bspline T p i u +
      (T (i + p + 2) - u) / (T (i + p + 2) - T (i + 1)) * bspline T p (i + 1) u

theorem boor_left (T : ℤ → ℝ) (k : ℤ) (u : ℝ) : ∀ (p : ℕ) (i : ℤ), i + p < k → boor T k p i u = 0
  | 0, i, h => by simp only [boor]; rw [if_neg (by simp at h; omega)]
  | p + 1, i, h => by
    push_cast at h
    simp only [boor]
    rw [boor_left T k u p i (by omega), boor_left T k u p (i + 1) (by omega)]
    ring

theorem boor_right (T : ℤ → ℝ) (k : ℤ) (u : ℝ) : ∀ (p : ℕ) (i : ℤ), k < i → boor T k p i u = 0
  | 0, i, h => by simp only [boor]; rw [if_neg (by omega)]
  | p + 1, i, h => by
    simp only [boor]
    rw [boor_right T k u p i h, boor_right T k u p (i + 1) (by omega)]
    ring

/-- within the interval the two specifications agree -/
theorem bspline_boor {T : ℤ → ℝ} (hT : Monotone T) {k : ℤ} {u : ℝ} (h1 : T k ≤ u) (h2 : u < T (k + 1)) :
    ∀ (p : ℕ) (i : ℤ), bspline T p i u = boor T k p i u
  | 0, i => by
    simp only [bspline, boor]
    by_cases h : i = k
    · rw [if_pos h, if_pos (by rw [h]; exact ⟨h1, h2⟩)]
    · rw [if_neg h, if_neg]
      rintro ⟨h3, h4⟩
      rcases lt_or_gt_of_ne h with h | h
      · have := hT (show i + 1 ≤ k by omega); linarith
      · have := hT (show k + 1 ≤ i by omega); linarith
  | p + 1, i => by
    simp only [bspline, boor]
    rw [bspline_boor hT h1 h2 p i, bspline_boor hT h1 h2 p (i + 1)]

/-- knots around the interval `k` for degree `p`: in order, and the interval is not empty -/
structure Around (T : ℤ → ℝ) (k : ℤ) (p : ℕ) : Prop where
  mono : ∀ i, k - p + 1 ≤ i → i < k + p → T i ≤ T (i + 1)
  gap : T k < T (k + 1)

theorem Around.less {T : ℤ → ℝ} {k : ℤ} {p q : ℕ} (h : Around T k p) (hq : q ≤ p) : Around T k q :=
  ⟨fun i h1 h2 => h.mono i (by omega) (by omega), h.gap⟩

theorem Around.low {T : ℤ → ℝ} {k : ℤ} {p : ℕ} (h : Around T k p) : ∀ n : ℕ, (n : ℤ) < p → T (k - n) ≤ T k
  | 0, _ => by simp
  | n + 1, hn => by
    have h1 := h.low n (by push_cast at hn; omega)
    have h2 := h.mono (k - (n + 1 : ℕ)) (by push_cast at hn ⊢; omega) (by push_cast; omega)
    have e : k - ((n + 1 : ℕ) : ℤ) + 1 = k - n := by push_cast; ring
    rw [e] at h2
    linarith

theorem Around.high {T : ℤ → ℝ} {k : ℤ} {p : ℕ} (h : Around T k p) : ∀ n : ℕ, (n : ℤ) < p → T (k + 1) ≤ T (k + 1 + n)
  | 0, _ => by simp
  | n + 1, hn => by
    have h1 := h.high n (by push_cast at hn; omega)
    have h2 := h.mono (k + 1 + n) (by push_cast at hn ⊢; omega) (by push_cast at hn; omega)
    have e : k + 1 + ((n + 1 : ℕ) : ℤ) = k + 1 + n + 1 := by push_cast; ring
    rw [e]
    linarith

theorem Around.le {T : ℤ → ℝ} {k : ℤ} {p : ℕ} (h : Around T k p) {i : ℤ} (h1 : k - p + 1 ≤ i) (h2 : i ≤ k) : T i ≤ T k := by
  have := h.low (k - i).toNat (by omega)
  rwa [show k - ((k - i).toNat : ℤ) = i by omega] at this

theorem Around.ge {T : ℤ → ℝ} {k : ℤ} {p : ℕ} (h : Around T k p) {i : ℤ} (h1 : k + 1 ≤ i) (h2 : i ≤ k + p) :
    T (k + 1) ≤ T i := by
  have := h.high (i - (k + 1)).toNat (by omega)
  rwa [show k + 1 + ((i - (k + 1)).toNat : ℤ) = i by omega] at this

/-- the denominators of the recursion -/
theorem Around.pos {T : ℤ → ℝ} {k : ℤ} {p : ℕ} (h : Around T k p) {i j : ℤ} (h1 : k - p + 1 ≤ i) (h2 : i ≤ k) (h3 : k + 1 ≤ j)
    (h4 : j ≤ k + p) : 0 < T j - T i := by
  have a := h.le h1 h2
  have b := h.ge h3 h4
  have c := h.gap
  linarith

theorem boor_nonneg {T : ℤ → ℝ} {k : ℤ} {u : ℝ} (h1 : T k ≤ u) (h2 : u ≤ T (k + 1)) :
    ∀ (p : ℕ) (_ : Around T k p) (i : ℤ), 0 ≤ boor T k p i u
  | 0, _, i => by simp only [boor]; split <;> norm_num
  | p + 1, h, i => by
    simp only [boor]
    have hp : Around T k p := h.less (by omega)
    apply add_nonneg
    · by_cases hr : k < i
      · rw [boor_right T k u p i hr]; simp
      by_cases hl : i + p < k
      · rw [boor_left T k u p i hl]; simp
      by_cases hi : i + p + 1 = k + 1 + p + 1
      · omega
      have d := h.pos (i := i) (j := i + p + 1) (by push_cast; omega) (by omega) (by omega) (by push_cast; omega)
      have l := h.le (i := i) (by push_cast; omega) (by omega)
      exact mul_nonneg (div_nonneg (by linarith) d.le) (boor_nonneg h1 h2 p hp i)
    · by_cases hr : k < i + 1
      · rw [boor_right T k u p (i + 1) hr]; simp
      by_cases hl : i + 1 + p < k
      · rw [boor_left T k u p (i + 1) hl]; simp
      have d := h.pos (i := i + 1) (j := i + p + 2) (by push_cast; omega) (by omega) (by omega) (by push_cast; omega)
      have l := h.ge (i := i + p + 2) (by omega) (by push_cast; omega)
      exact mul_nonneg (div_nonneg (by linarith) d.le) (boor_nonneg h1 h2 p hp (i + 1))

/-- the functions that are not zero on the interval have sum one -/
theorem boor_sum {T : ℤ → ℝ} {k : ℤ} (u : ℝ) :
    ∀ (p : ℕ) (_ : Around T k p), ∑ r ∈ Finset.range (p + 1), boor T k p (k - p + r) u = 1
  | 0, _ => by simp [boor]
  | p + 1, h => by
    have ih := boor_sum u p (h.less (Nat.le_succ p))
    have e : ∀ r : ℕ, boor T k (p + 1) (k - (p + 1 : ℕ) + r) u =
        (u - T (k - p - 1 + r)) / (T (k + r) - T (k - p - 1 + r)) * boor T k p (k - p - 1 + r) u +
        (T (k + r + 1) - u) / (T (k + r + 1) - T (k - p + r)) * boor T k p (k - p + r) u := by
      intro r
      simp only [boor]
      rw [show k - ((p + 1 : ℕ) : ℤ) + r = k - p - 1 + r by push_cast; ring,
        show k - (p : ℤ) - 1 + r + p + 1 = k + r by ring, show k - (p : ℤ) - 1 + r + p + 2 = k + r + 1 by ring,
        show k - (p : ℤ) - 1 + r + 1 = k - p + r by ring]
    simp only [e]
    rw [Finset.sum_add_distrib, Finset.sum_range_succ', Finset.sum_range_succ _ (p + 1)]
    rw [boor_left T k u p (k - p - 1 + (0 : ℕ)) (by push_cast; omega), boor_right T k u p (k - p + (p + 1 : ℕ)) (by push_cast; omega)]
    rw [mul_zero, mul_zero, add_zero, add_zero, ← Finset.sum_add_distrib, ← ih]
    apply Finset.sum_congr rfl
    intro r hr
    rw [Finset.mem_range] at hr
    rw [show k - (p : ℤ) - 1 + ((r + 1 : ℕ) : ℤ) = k - p + r by push_cast; ring,
      show k + ((r + 1 : ℕ) : ℤ) = k + r + 1 by push_cast; ring, ← add_mul]
    have d := h.pos (i := k - p + r) (j := k + r + 1) (by push_cast; omega) (by omega) (by omega) (by push_cast; omega)
    rw [← add_div, show u - T (k - p + r) + (T (k + r + 1) - u) = T (k + r + 1) - T (k - p + r) by ring, div_self d.ne', one_mul]

/-! ## The algorithm -/

theorem foldlM_snoc {α β : Type} (f : β → α → Option β) (b : β) (l : List α) (a : α) :
    (l ++ [a]).foldlM f b = (l.foldlM f b).bind (fun b => f b a) := by
  rw [List.foldlM_append]
  simp only [List.foldlM_cons, List.foldlM_nil]
  cases l.foldlM f b with
  | none => rfl
  | some x => simp

/-- the inner loop: the new values, and what is saved for the last one -/
theorem itsInner_spec (left right : Nat → ℝ) (j : Nat) (b : Nat → ℝ) (hden : ∀ r < j, right (r + 1) + left (j - r) ≠ 0) :
    ∃ b' s', itsInner left right j (b, 0) = some (b', s') ∧
      (∀ r < j, b' r = (if r = 0 then 0 else left (j - (r - 1)) * (b (r - 1) / (right r + left (j - (r - 1))))) +
        right (r + 1) * (b r / (right (r + 1) + left (j - r)))) ∧
      (∀ r, j ≤ r → b' r = b r) ∧
      s' = if j = 0 then 0 else left 1 * (b (j - 1) / (right j + left 1)) := by
  suffices H : ∀ m ≤ j, ∃ b' s', (List.range m).foldlM
      (fun (st : (Nat → ℝ) × ℝ) r =>
        let den := right (r + 1) + left (j - r)
        if den = 0 then none
        else
          let tmp := st.1 r / den
          some (upd st.1 r (st.2 + right (r + 1) * tmp), left (j - r) * tmp)) (b, 0) = some (b', s') ∧
      (∀ r < m, b' r = (if r = 0 then 0 else left (j - (r - 1)) * (b (r - 1) / (right r + left (j - (r - 1))))) +
        right (r + 1) * (b r / (right (r + 1) + left (j - r)))) ∧
      (∀ r, m ≤ r → b' r = b r) ∧
      s' = if m = 0 then 0 else left (j - (m - 1)) * (b (m - 1) / (right m + left (j - (m - 1)))) by
    obtain ⟨b', s', h1, h2, h3, h4⟩ := H j (Nat.le_refl _)
    refine ⟨b', s', h1, h2, h3, ?_⟩
    rw [h4]
    by_cases hj : j = 0
    · simp [hj]
    · rw [if_neg hj, if_neg hj, show j - (j - 1) = 1 by omega]
  intro m hm
  induction m with
  | zero => exact ⟨b, 0, by simp, by simp, by simp, by simp⟩
  | succ m ih =>
    obtain ⟨b', s', h1, h2, h3, h4⟩ := ih (by omega)
    refine ⟨upd b' m (s' + right (m + 1) * (b' m / (right (m + 1) + left (j - m)))),
      left (j - m) * (b' m / (right (m + 1) + left (j - m))), ?_, ?_, ?_, ?_⟩
    · rw [List.range_succ, foldlM_snoc, h1]
      simp only [Option.bind_some]
      rw [if_neg (hden m (by omega))]
    · intro r hr
      by_cases h : r = m
      · subst h
        simp only [upd, if_pos]
        rw [h3 r (Nat.le_refl _), h4]
      · simp only [upd, if_neg h]
        exact h2 r (by omega)
    · intro r hr
      simp only [upd]
      rw [if_neg (by omega)]
      exact h3 r (by omega)
    · rw [if_neg (by omega), h3 m (Nat.le_refl _)]
      simp

/-- `basisITS0` never divides by zero on an interval that is not empty, and its values are those of the specification -/
theorem basis_spec {c : Curve} {T : ℤ → ℝ} {k : ℤ} {p : ℕ} (u : ℝ) (hd : c.deg = p)
    (hv : ∀ i, k - p + 1 ≤ i → i ≤ k + p → knotValue c i = some (T i)) (ha : Around T k p) :
    ∃ b, basis c k u = some b ∧ ∀ r ≤ p, b r = boor T k p (k - p + r) u := by
  suffices H : ∀ m ≤ p, ∃ b left right, (List.range' 1 m).foldlM
      (fun (st : (Nat → ℝ) × (Nat → ℝ) × (Nat → ℝ)) (j : Nat) => do
        let left := upd st.2.1 j (u - (← knotValue c (k + 1 - (j : Int))))
        let right := upd st.2.2 j ((← knotValue c (k + (j : Int))) - u)
        let r ← itsInner left right j (st.1, 0)
        some (upd r.1 j r.2, left, right)) (fun _ => 1, fun _ => 0, fun _ => 0) = some (b, left, right) ∧
      (∀ r ≤ m, b r = boor T k m (k - m + r) u) ∧ (∀ j, 1 ≤ j → j ≤ m → left j = u - T (k + 1 - j)) ∧
      ∀ j, 1 ≤ j → j ≤ m → right j = T (k + j) - u by
    obtain ⟨b, left, right, h1, h2, -, -⟩ := H p (Nat.le_refl _)
    refine ⟨b, ?_, h2⟩
    unfold basis
    rw [hd, Int.toNat_natCast, h1]
    rfl
  intro m hm
  induction m with
  | zero => exact ⟨_, _, _, rfl, by intro r hr; simp [boor, show r = 0 by omega], by omega, by omega⟩
  | succ m ih =>
    obtain ⟨b, left, right, h1, h2, hl, hr⟩ := ih (by omega)
    have am : Around T k (m + 1) := ha.less hm
    have e1 : knotValue c (k + 1 - ((1 + m : ℕ) : ℤ)) = some (T (k - m)) := by
      rw [show k + 1 - ((1 + m : ℕ) : ℤ) = k - m by push_cast; ring]; exact hv _ (by omega) (by omega)
    have e2 : knotValue c (k + ((1 + m : ℕ) : ℤ)) = some (T (k + m + 1)) := by
      rw [show k + ((1 + m : ℕ) : ℤ) = k + m + 1 by push_cast; ring]; exact hv _ (by omega) (by omega)
    have hl' : ∀ j, 1 ≤ j → j ≤ m + 1 → upd left (1 + m) (u - T (k - m)) j = u - T (k + 1 - j) := by
      intro j j1 j2
      simp only [upd]
      by_cases hj : j = 1 + m
      · subst hj
        rw [if_pos rfl, show k + 1 - ((1 + m : ℕ) : ℤ) = k - m by push_cast; ring]
      · rw [if_neg hj]; exact hl j j1 (by omega)
    have hr' : ∀ j, 1 ≤ j → j ≤ m + 1 → upd right (1 + m) (T (k + m + 1) - u) j = T (k + j) - u := by
      intro j j1 j2
      simp only [upd]
      by_cases hj : j = 1 + m
      · subst hj
        rw [if_pos rfl, show k + ((1 + m : ℕ) : ℤ) = k + m + 1 by push_cast; ring]
      · rw [if_neg hj]; exact hr j j1 (by omega)
    obtain ⟨L, hL⟩ : ∃ L, L = upd left (1 + m) (u - T (k - m)) := ⟨_, rfl⟩
    obtain ⟨R, hR⟩ : ∃ R, R = upd right (1 + m) (T (k + m + 1) - u) := ⟨_, rfl⟩
    rw [← hL] at hl'
    rw [← hR] at hr'
    have eL : ∀ r < 1 + m, L (1 + m - r) = u - T (k - m + r) := by
      intro r hrm
      rw [hl' _ (by omega) (by omega),
        show k + 1 - ((1 + m - r : ℕ) : ℤ) = k - m + r by rw [Nat.cast_sub (by omega)]; push_cast; ring]
    have eR : ∀ r < 1 + m, R (r + 1) = T (k + r + 1) - u := by
      intro r hrm
      rw [hr' _ (by omega) (by omega), show k + ((r + 1 : ℕ) : ℤ) = k + r + 1 by push_cast; ring]
    have den : ∀ r < 1 + m, R (r + 1) + L (1 + m - r) = T (k + r + 1) - T (k - m + r) := by
      intro r hrm
      rw [eL r hrm, eR r hrm]; ring
    have pos : ∀ r < 1 + m, 0 < T (k + r + 1) - T (k - m + r) := fun r hrm =>
      am.pos (by push_cast; omega) (by omega) (by omega) (by push_cast; omega)
    obtain ⟨b', s', i1, i2, i3, i4⟩ := itsInner_spec L R (1 + m) b (by intro r hrm; rw [den r hrm]; exact (pos r hrm).ne')
    have hb : ∀ r, boor T k (m + 1) (k - (m + 1 : ℕ) + r) u =
        (u - T (k - m - 1 + r)) / (T (k + r) - T (k - m - 1 + r)) * boor T k m (k - m - 1 + r) u +
        (T (k + r + 1) - u) / (T (k + r + 1) - T (k - m + r)) * boor T k m (k - m + r) u := by
      intro r
      simp only [boor]
      rw [show k - ((m + 1 : ℕ) : ℤ) + r = k - m - 1 + r by push_cast; ring,
        show k - (m : ℤ) - 1 + r + m + 1 = k + r by ring, show k - (m : ℤ) - 1 + r + m + 2 = k + r + 1 by ring,
        show k - (m : ℤ) - 1 + r + 1 = k - m + r by ring]
    refine ⟨upd b' (1 + m) s', L, R, ?_, ?_, hl', hr'⟩
    · rw [List.range'_concat, foldlM_snoc, h1]
      simp only [Option.bind_some, Nat.one_mul, e1, e2, Option.bind_eq_bind, ← hL, ← hR, i1]
    · intro r hrm
      rw [hb r]
      simp only [upd]
      by_cases hr1 : r = 1 + m
      · rw [if_pos hr1, i4, if_neg (by omega), boor_right T k u m (k - m + r) (by omega), mul_zero, add_zero]
        have d := den m (by omega)
        have l := eL m (by omega)
        rw [show 1 + m - m = 1 by omega] at d l
        rw [show m + 1 = 1 + m by omega] at d
        rw [show 1 + m - 1 = m by omega, d, l, h2 m (Nat.le_refl _)]
        rw [show k - (m : ℤ) + m = k by ring, show k - (m : ℤ) - 1 + r = k by omega, show k + (m : ℤ) + 1 = k + r by omega]
        ring
      · rw [if_neg hr1, i2 r (by omega), den r (by omega), eR r (by omega), h2 r (by omega)]
        by_cases h0 : r = 0
        · subst h0
          rw [if_pos rfl, boor_left T k u m (k - m - 1 + (0 : ℕ)) (by push_cast; omega)]
          ring
        · rw [if_neg h0]
          have d := den (r - 1) (by omega)
          have l := eL (r - 1) (by omega)
          rw [show r - 1 + 1 = r by omega] at d
          rw [d, l, h2 (r - 1) (by omega)]
          rw [show k + ((r - 1 : ℕ) : ℤ) + 1 = k + r by omega, show k - (m : ℤ) + ((r - 1 : ℕ) : ℤ) = k - m - 1 + r by omega]
          ring

end

end Verif.Ffd
