import Verif.Seeds.Model
import Mathlib.Tactic.Linarith
import Mathlib.Tactic.NormNum
import Mathlib.Tactic.FieldSimp
import Mathlib.Tactic.Ring

/-! # The update of the distance in a triangle -/

namespace Verif.Seeds

open scoped Classical InnerProductSpace

/-! ### Specification -/

/-- the arrival time at `V` of a front that is linear along the edge `U`, `W` and leaves the edge at the given point: value there and length of the way -/
def Arrival (V U W : E) (pU pW : ℝ) (y : ℝ) : Prop := ∃ x, 0 ≤ x ∧ x ≤ 1 ∧ y = pU + x * (pW - pU) + ‖V - (U + x • (W - U))‖

theorem front_eq (V U W : E) (pU pW x : ℝ) : front 1 V U W pU pW x = pU + x * (pW - pU) + ‖V - (U + x • (W - U))‖ := by
  have : (1 - x) • U + x • W = U + x • (W - U) := by rw [sub_smul, one_smul, smul_sub]; abel
  rw [front, this]; ring

theorem front_zero (V U W : E) (pU pW : ℝ) : front 1 V U W pU pW 0 = pU + ‖V - U‖ := by rw [front_eq]; simp
theorem front_one (V U W : E) (pU pW : ℝ) : front 1 V U W pU pW 1 = pW + ‖V - W‖ := by rw [front_eq]; simp

theorem front_arrival {V U W : E} {pU pW x : ℝ} (h0 : 0 ≤ x) (h1 : x ≤ 1) : Arrival V U W pU pW (front 1 V U W pU pW x) := ⟨x, h0, h1, front_eq ..⟩

theorem clamp_mem (x : ℝ) : 0 ≤ clamp x ∧ clamp x ≤ 1 := ⟨le_min (by norm_num) (le_max_left _ _), min_le_left _ _⟩

theorem front_convex (V U W : E) (pU pW x y t : ℝ) (h0 : 0 ≤ t) (h1 : t ≤ 1) :
    front 1 V U W pU pW ((1 - t) * x + t * y) ≤ (1 - t) * front 1 V U W pU pW x + t * front 1 V U W pU pW y := by
  rw [front_eq, front_eq, front_eq]
  have e : V - (U + ((1 - t) * x + t * y) • (W - U)) = (1 - t) • (V - (U + x • (W - U))) + t • (V - (U + y • (W - U))) := by
    module
  have n := norm_add_le ((1 - t) • (V - (U + x • (W - U)))) (t • (V - (U + y • (W - U))))
  rw [norm_smul, norm_smul, Real.norm_of_nonneg h0, Real.norm_of_nonneg (by linarith : 0 ≤ 1 - t)] at n
  rw [e]
  linarith

/-- a least value on the line gives a least value on the edge -/
theorem clamp_least {V U W : E} {pU pW z : ℝ} (hz : ∀ x, front 1 V U W pU pW z ≤ front 1 V U W pU pW x) {x : ℝ} (h0 : 0 ≤ x) (h1 : x ≤ 1) :
    front 1 V U W pU pW (clamp z) ≤ front 1 V U W pU pW x := by
  rcases lt_or_ge z 0 with h | h
  · have e : clamp z = 0 := by rw [clamp, max_eq_left h.le]; norm_num
    rw [e]
    have := front_convex V U W pU pW z x (-z / (x - z)) (div_nonneg (by linarith) (by linarith)) ((div_le_one (by linarith)).2 (by linarith))
    have e2 : (1 - -z / (x - z)) * z + -z / (x - z) * x = 0 := by
      have : x - z ≠ 0 := by linarith
      field_simp; ring
    rw [e2] at this
    have h2 : (1 - -z / (x - z)) * front 1 V U W pU pW z ≤ (1 - -z / (x - z)) * front 1 V U W pU pW x :=
      mul_le_mul_of_nonneg_left (hz x) (by have := (div_le_one (by linarith : 0 < x - z)).2 (by linarith : -z ≤ x - z); linarith)
    linarith
  · rcases lt_or_ge 1 z with h' | h'
    · have e : clamp z = 1 := by rw [clamp, max_eq_right h, min_eq_left h'.le]
      rw [e]
      have := front_convex V U W pU pW z x ((z - 1) / (z - x)) (div_nonneg (by linarith) (by linarith)) ((div_le_one (by linarith)).2 (by linarith))
      have e2 : (1 - (z - 1) / (z - x)) * z + (z - 1) / (z - x) * x = 1 := by
        have : z - x ≠ 0 := by linarith
        field_simp; ring
      rw [e2] at this
      have h2 : (1 - (z - 1) / (z - x)) * front 1 V U W pU pW z ≤ (1 - (z - 1) / (z - x)) * front 1 V U W pU pW x :=
        mul_le_mul_of_nonneg_left (hz x) (by have := (div_le_one (by linarith : 0 < z - x)).2 (by linarith : z - 1 ≤ z - x); linarith)
      linarith
    · have e : clamp z = z := by rw [clamp, max_eq_right h, min_eq_right h']
      rw [e]; exact hz x

/-- squared distance to a point of the line through the edge -/
theorem dist_sq (V U W : E) (x : ℝ) :
    ‖V - (U + x • (W - U))‖ ^ 2 = ‖W - U‖ ^ 2 * x ^ 2 - 2 * ⟪W - U, V - U⟫_ℝ * x + ‖V - U‖ ^ 2 := by
  have e : V - (U + x • (W - U)) = (V - U) - x • (W - U) := by abel
  rw [e, norm_sub_sq_real, norm_smul, inner_smul_right, real_inner_comm, mul_pow, Real.norm_eq_abs, sq_abs]
  ring

theorem coef_b {V U W : E} (hU : V ≠ U) (hW : W ≠ U) (pU pW : ℝ) : (coef V U W pU pW).b = -⟪W - U, V - U⟫_ℝ := by
  have h1 : ‖V - U‖ ≠ 0 := norm_ne_zero_iff.2 (sub_ne_zero.2 hU)
  have h2 : ‖W - U‖ ≠ 0 := norm_ne_zero_iff.2 (sub_ne_zero.2 hW)
  show -‖W - U‖ * ‖V - U‖ * ⟪(1 / ‖W - U‖) • (W - U), (1 / ‖V - U‖) • (V - U)⟫_ℝ = _
  rw [inner_smul_left, inner_smul_right]
  simp only [conj_trivial]
  field_simp

/-- the two roots and the least value: with `r` the length of the edge, `m` the squared distance of `V` from the line, and `|K| < r` -/
theorem root_least {V U W : E} {pU pW : ℝ} (hU : V ≠ U) (hW : W ≠ U) (hK : |pW - pU| < ‖W - U‖) :
    ∃ z, (z = (-(coef V U W pU pW).B - Real.sqrt |(coef V U W pU pW).discr|) / (coef V U W pU pW).A ∨
        z = (-(coef V U W pU pW).B + Real.sqrt |(coef V U W pU pW).discr|) / (coef V U W pU pW).A) ∧
      ∀ x, front 1 V U W pU pW z ≤ front 1 V U W pU pW x := by
  have hr : 0 < ‖W - U‖ := norm_pos_iff.2 (sub_ne_zero.2 hW)
  have hb := coef_b hU hW pU pW
  have hcs : ⟪W - U, V - U⟫_ℝ ^ 2 ≤ ‖W - U‖ ^ 2 * ‖V - U‖ ^ 2 := by
    have := abs_real_inner_le_norm (W - U) (V - U)
    rw [← mul_pow, ← sq_abs]
    exact pow_le_pow_left₀ (abs_nonneg _) this 2
  have hq := dist_sq V U W
  have hqn : ∀ x : ℝ, 0 ≤ ‖V - (U + x • (W - U))‖ := fun x => norm_nonneg _
  have hKs : (pW - pU) ^ 2 < ‖W - U‖ ^ 2 := by
    rw [← sq_abs (pW - pU)]
    exact pow_lt_pow_left₀ hK (abs_nonneg _) (by norm_num)
  simp only [front_eq]
  have hA : (coef V U W pU pW).A = ‖W - U‖ ^ 2 * ((pW - pU) ^ 2 - ‖W - U‖ ^ 2) := rfl
  have hB : (coef V U W pU pW).B = -⟪W - U, V - U⟫_ℝ * ((pW - pU) ^ 2 - ‖W - U‖ ^ 2) := by rw [← hb]; rfl
  have hC : (coef V U W pU pW).C = (pW - pU) ^ 2 * ‖V - U‖ ^ 2 - (-⟪W - U, V - U⟫_ℝ) ^ 2 := by rw [← hb]; rfl
  have hd : (coef V U W pU pW).discr = (coef V U W pU pW).B ^ 2 - (coef V U W pU pW).A * (coef V U W pU pW).C := rfl
  rw [hd, hB, hC, hA]
  generalize ⟪W - U, V - U⟫_ℝ = b at *
  generalize ‖V - U‖ ^ 2 = c at *
  have ha : 0 < ‖W - U‖ ^ 2 := by positivity
  generalize ‖W - U‖ ^ 2 = a at *
  generalize pW - pU = K at *
  obtain ⟨q, hqe⟩ : ∃ q : ℝ → ℝ, q = fun x : ℝ => ‖V - (U + x • (W - U))‖ := ⟨_, rfl⟩
  have hqe' : ∀ x : ℝ, ‖V - (U + x • (W - U))‖ = q x := fun x => by rw [hqe]
  simp only [hqe'] at hq hqn ⊢
  clear hqe hqe' hA hB hC hd hb hK hr
  have hD : 0 < a - K ^ 2 := by linarith
  obtain ⟨s, hs⟩ : ∃ s, s = Real.sqrt (a - K ^ 2) := ⟨_, rfl⟩
  obtain ⟨n, hn⟩ : ∃ n, n = Real.sqrt (a * c - b ^ 2) := ⟨_, rfl⟩
  have hs0 : 0 < s := hs ▸ Real.sqrt_pos.2 hD
  have hn0 : 0 ≤ n := hn ▸ Real.sqrt_nonneg _
  have hs2 : s ^ 2 = a - K ^ 2 := hs ▸ Real.sq_sqrt hD.le
  have hn2 : n ^ 2 = a * c - b ^ 2 := hn ▸ Real.sq_sqrt (by linarith)
  have hroot : Real.sqrt |(-b * (K ^ 2 - a)) ^ 2 - a * (K ^ 2 - a) * (K ^ 2 * c - (-b) ^ 2)| = s * |K| * n := by
    have e : (-b * (K ^ 2 - a)) ^ 2 - a * (K ^ 2 - a) * (K ^ 2 * c - (-b) ^ 2) = (s * |K| * n) ^ 2 := by
      rw [show (s * |K| * n) ^ 2 = s ^ 2 * |K| ^ 2 * n ^ 2 by ring, hs2, sq_abs, hn2]; ring
    rw [e, abs_of_nonneg (sq_nonneg _), Real.sqrt_sq (by positivity)]
  rw [hroot]
  have hKa : a * (K ^ 2 - a) = -(a * s ^ 2) := by rw [hs2]; ring
  have hKb : -b * (K ^ 2 - a) = b * s ^ 2 := by rw [hs2]; ring
  rw [hKa, hKb]
  refine ⟨b / a - K * n / (a * s), ?_, ?_⟩
  · have hs0' : s ≠ 0 := hs0.ne'
    have ha' : a ≠ 0 := ha.ne'
    rcases le_total 0 K with h | h
    · right
      rw [abs_of_nonneg h]
      field_simp
      ring
    · left
      rw [abs_of_nonpos h]
      field_simp
      ring
  · have hs0' : s ≠ 0 := hs0.ne'
    have ha' : a ≠ 0 := ha.ne'
    have hz : q (b / a - K * n / (a * s)) = n / s := by
      have e : q (b / a - K * n / (a * s)) ^ 2 = (n / s) ^ 2 := by
        rw [hq]
        have hc : c = (n ^ 2 + b ^ 2) / a := by rw [hn2]; field_simp; ring
        have hK2 : K ^ 2 = a - s ^ 2 := by linarith
        rw [hc]
        field_simp
        ring_nf
        rw [hK2]
        ring
      exact (sq_eq_sq₀ (hqn _) (by positivity)).1 e
    intro x
    rw [hz]
    have h1 : (n * s - K * (a * x - b)) ^ 2 ≤ (a * q x) ^ 2 := by
      have e : (a * q x) ^ 2 = (K ^ 2 + s ^ 2) * ((a * x - b) ^ 2 + n ^ 2) := by
        rw [mul_pow, hq, hs2, hn2]; ring
      rw [e]
      nlinarith [sq_nonneg (K * n + s * (a * x - b))]
    have h2 : n * s - K * (a * x - b) ≤ a * q x := by
      have := abs_le_of_sq_le_sq' h1 (mul_nonneg ha.le (hqn x))
      exact this.2
    have h3 : a * ((b / a - K * n / (a * s)) * K + n / s) = K * b + n * s := by
      have hK2 : K ^ 2 = a - s ^ 2 := by linarith
      field_simp
      ring_nf
      rw [hK2]
      ring
    have h4 : a * ((b / a - K * n / (a * s)) * K + n / s) ≤ a * (x * K + q x) := by rw [h3]; nlinarith
    have := le_of_mul_le_mul_left h4 ha
    linarith

/-- `discr` is not negative -/
theorem discr_nonneg {V U W : E} {pU pW : ℝ} (hU : V ≠ U) (hW : W ≠ U) (hK : |pW - pU| ≤ ‖W - U‖) : 0 ≤ (coef V U W pU pW).discr := by
  have hb := coef_b hU hW pU pW
  have hcs : ⟪W - U, V - U⟫_ℝ ^ 2 ≤ ‖W - U‖ ^ 2 * ‖V - U‖ ^ 2 := by
    have := abs_real_inner_le_norm (W - U) (V - U)
    rw [← mul_pow, ← sq_abs]
    exact pow_le_pow_left₀ (abs_nonneg _) this 2
  have hKs : (pW - pU) ^ 2 ≤ ‖W - U‖ ^ 2 := by
    rw [← sq_abs (pW - pU)]
    exact pow_le_pow_left₀ (abs_nonneg _) hK 2
  have hd : (coef V U W pU pW).discr = ((coef V U W pU pW).b * ((pW - pU) ^ 2 - ‖W - U‖ ^ 2)) ^ 2 -
      ‖W - U‖ ^ 2 * ((pW - pU) ^ 2 - ‖W - U‖ ^ 2) * ((pW - pU) ^ 2 * ‖V - U‖ ^ 2 - (coef V U W pU pW).b ^ 2) := rfl
  rw [hd, hb]
  have e : (-⟪W - U, V - U⟫_ℝ * ((pW - pU) ^ 2 - ‖W - U‖ ^ 2)) ^ 2 -
      ‖W - U‖ ^ 2 * ((pW - pU) ^ 2 - ‖W - U‖ ^ 2) * ((pW - pU) ^ 2 * ‖V - U‖ ^ 2 - (-⟪W - U, V - U⟫_ℝ) ^ 2) =
      (‖W - U‖ ^ 2 - (pW - pU) ^ 2) * (pW - pU) ^ 2 * (‖W - U‖ ^ 2 * ‖V - U‖ ^ 2 - ⟪W - U, V - U⟫_ℝ ^ 2) := by ring
  rw [e]
  exact mul_nonneg (mul_nonneg (by linarith) (sq_nonneg _)) (by linarith)

theorem type_one {k : Coef} (hd : 0 ≤ k.discr) (hA : 1e-12 < |k.A|) : k.type = 1 := by
  have h1 : ¬ k.discr < -1e-12 := by norm_num; linarith
  have h2 : ¬ (|k.A| < 1e-12 ∧ |k.A| ≥ 0) := fun h => by linarith [h.1]
  rw [Coef.type, if_neg h1, if_pos hA, if_neg h2]
  rfl

theorem type_two {k : Coef} (hd : 0 ≤ k.discr) (hA : |k.A| < 1e-12) : k.type = 2 := by
  have h1 : ¬ k.discr < -1e-12 := by norm_num; linarith
  have h2 : ¬ |k.A| > 1e-12 := not_lt.2 hA.le
  rw [Coef.type, if_neg h1, if_neg h2, if_pos ⟨hA, abs_nonneg _⟩]
  rfl

theorem type_zero {k : Coef} (hd : 0 ≤ k.discr) (hA : |k.A| = 1e-12) : k.type = -1 := by
  have h1 : ¬ k.discr < -1e-12 := by norm_num; linarith
  have h2 : ¬ |k.A| > 1e-12 := not_lt.2 hA.le
  have h3 : ¬ (|k.A| < 1e-12 ∧ |k.A| ≥ 0) := fun h => by linarith [h.1]
  rw [Coef.type, if_neg h1, if_neg h2, if_neg h3]
  rfl

/-- the two candidates are arrival times -/
theorem twoDead_arrival (V U W : E) (pU pW value : ℝ) :
    twoDead 1 V U W pU pW value = value ∨ Arrival V U W pU pW (twoDead 1 V U W pU pW value) := by
  have key : ∀ x y, 0 ≤ x ∧ x ≤ 1 → 0 ≤ y ∧ y ≤ 1 → min value (min (front 1 V U W pU pW x) (front 1 V U W pU pW y)) = value ∨
      Arrival V U W pU pW (min value (min (front 1 V U W pU pW x) (front 1 V U W pU pW y))) := by
    intro x y hx hy
    rcases min_choice value (min (front 1 V U W pU pW x) (front 1 V U W pU pW y)) with h | h
    · exact .inl h
    · rw [h]
      rcases min_choice (front 1 V U W pU pW x) (front 1 V U W pU pW y) with h | h
      · rw [h]; exact .inr (front_arrival hx.1 hx.2)
      · rw [h]; exact .inr (front_arrival hy.1 hy.2)
  unfold twoDead
  simp only
  split
  · exact key _ _ (clamp_mem _) (clamp_mem _)
  · split
    · exact key 0 1 ⟨le_refl _, by norm_num⟩ ⟨by norm_num, le_refl _⟩
    · exact .inl rfl

theorem twoDead_le (V U W : E) (pU pW value : ℝ) : twoDead 1 V U W pU pW value ≤ value := by
  unfold twoDead
  simp only
  split
  · exact min_le_left _ _
  · split
    · exact min_le_left _ _
    · exact le_refl _

/-! ### Theorems -/

/-- **C185.** The value that a triangle with two finished vertices gives to the third is the one it had or an arrival time from a point of the opposite edge,
and never more than the one it had. -/
theorem C185_bound (V U W : E) (pU pW value : ℝ) : twoDead 1 V U W pU pW value ≤ value ∧
    (twoDead 1 V U W pU pW value = value ∨ Arrival V U W pU pW (twoDead 1 V U W pU pW value)) :=
  ⟨twoDead_le .., twoDead_arrival ..⟩

/-- **C185.** It is the least of all, when the values of the finished vertices differ by no more than the length of their edge and the edge is not so short that
the quadratic equation is taken for a linear one. -/
theorem C185_exact_partial {V U W : E} {pU pW : ℝ} (value : ℝ) (hU : V ≠ U) (hW : W ≠ U) (hK : |pW - pU| ≤ ‖W - U‖)
    (hA : |pW - pU| = ‖W - U‖ ∨ 1e-12 < ‖W - U‖ ^ 2 * (‖W - U‖ ^ 2 - (pW - pU) ^ 2)) {y : ℝ} (hy : Arrival V U W pU pW y) :
    twoDead 1 V U W pU pW value ≤ y := by
  have hd := discr_nonneg hU hW hK
  have hAe : (coef V U W pU pW).A = ‖W - U‖ ^ 2 * ((pW - pU) ^ 2 - ‖W - U‖ ^ 2) := rfl
  obtain ⟨x, h0, h1, rfl⟩ := hy
  rw [← front_eq]
  rcases hA with hA | hA
  · have h2 : (coef V U W pU pW).A = 0 := by rw [hAe, ← hA, sq_abs]; ring
    have ht := type_two hd (by rw [h2]; norm_num)
    unfold twoDead
    simp only [ht]
    norm_num
    right
    rw [front_zero, front_one, front_eq]
    have hn : 0 ≤ x * ‖W - U‖ := by positivity
    rcases abs_choice (pW - pU) with h | h
    · left
      have hK' : pW - pU = ‖W - U‖ := by rw [← hA, h]
      rw [hK']
      have := norm_sub_le (V - (U + x • (W - U))) (-(x • (W - U)))
      rw [norm_neg, norm_smul, Real.norm_of_nonneg h0] at this
      have e : V - (U + x • (W - U)) - -(x • (W - U)) = V - U := by abel
      rw [e] at this
      linarith
    · right
      have hK' : pW - pU = -‖W - U‖ := by rw [← hA, h]; ring
      have := norm_sub_le (V - (U + x • (W - U))) ((1 - x) • (W - U))
      rw [norm_smul, Real.norm_of_nonneg (by linarith : 0 ≤ 1 - x)] at this
      have e : V - (U + x • (W - U)) - (1 - x) • (W - U) = V - W := by module
      rw [e] at this
      have h2 : pU + x * (pW - pU) = pW + (1 - x) * ‖W - U‖ := by rw [hK']; linarith
      linarith
  · have hlt : |pW - pU| < ‖W - U‖ := by
      rcases lt_or_eq_of_le hK with h | h
      · exact h
      · rw [← h, sq_abs, sub_self, mul_zero] at hA
        norm_num at hA
    have hA' : 1e-12 < |(coef V U W pU pW).A| := by
      rw [hAe, abs_of_nonpos]
      · linarith
      · have : (pW - pU) ^ 2 ≤ ‖W - U‖ ^ 2 := by rw [← sq_abs (pW - pU)]; exact pow_le_pow_left₀ (abs_nonneg _) hK 2
        exact mul_nonpos_of_nonneg_of_nonpos (by positivity) (by linarith)
    have ht := type_one hd hA'
    unfold twoDead
    simp only [ht, if_true]
    obtain ⟨z, hz, hm⟩ := root_least hU hW hlt
    refine le_trans (min_le_right _ _) ?_
    rcases hz with rfl | rfl
    · exact le_trans (min_le_left _ _) (clamp_least hm h0 h1)
    · exact le_trans (min_le_right _ _) (clamp_least hm h0 h1)

/-- the premises hold for the unit right triangle with a difference of one half -/
example : ∃ V U W : E, V ≠ U ∧ W ≠ U ∧ |(1 / 2 : ℝ) - 0| ≤ ‖W - U‖ ∧ 1e-12 < ‖W - U‖ ^ 2 * (‖W - U‖ ^ 2 - ((1 / 2 : ℝ) - 0) ^ 2) ∧
    Arrival V U W 0 (1 / 2) 1 := by
  refine ⟨EuclideanSpace.single 1 1, 0, EuclideanSpace.single 0 1, ?_, ?_, ?_, ?_, 0, le_refl _, by norm_num, ?_⟩ <;> simp
  · norm_num
  · norm_num

/-- **C185.** The least of all, if the edge is longer than a thousandth and the values are equal -/
theorem C185_level {V U W : E} {p : ℝ} (value : ℝ) (hU : V ≠ U) (hW : 1e-3 < ‖W - U‖) {x : ℝ} (h0 : 0 ≤ x) (h1 : x ≤ 1) :
    twoDead 1 V U W p p value ≤ p + ‖V - (U + x • (W - U))‖ := by
  have hW' : W ≠ U := fun h => by rw [h, sub_self, norm_zero] at hW; norm_num at hW
  refine C185_exact_partial value hU hW' (by rw [sub_self, abs_zero]; positivity) (.inr ?_) ⟨x, h0, h1, by ring⟩
  rw [sub_self]
  have : (1e-3 : ℝ) ^ 2 < ‖W - U‖ ^ 2 := pow_lt_pow_left₀ hW (by norm_num) (by norm_num)
  have h3 : (1e-3 : ℝ) ^ 2 * 1e-3 ^ 2 < ‖W - U‖ ^ 2 * ‖W - U‖ ^ 2 := mul_lt_mul'' this this (by norm_num) (by norm_num)
  norm_num at h3 ⊢
  linarith

/-- **C185.** Violated on fine meshes: above an edge shorter than a thousandth with equal values, the middle of the edge is never used: the third vertex of an
isosceles triangle gets its distance from the ends, not the shorter one from the edge. -/
theorem C185_short_fails {V U W : E} {p : ℝ} (value : ℝ) (hU : V ≠ U) (hW : W ≠ U) (hs : ‖W - U‖ < 1e-3) (hi : ‖V - W‖ = ‖V - U‖) :
    twoDead 1 V U W p p value = min value (p + ‖V - U‖) ∧ ∃ y, Arrival V U W p p y ∧ y < p + ‖V - U‖ := by
  have hd := discr_nonneg (pU := p) (pW := p) hU hW (by rw [sub_self, abs_zero]; positivity)
  have hAe : (coef V U W p p).A = ‖W - U‖ ^ 2 * ((p - p) ^ 2 - ‖W - U‖ ^ 2) := rfl
  have hp : 0 < ‖W - U‖ := norm_pos_iff.2 (sub_ne_zero.2 hW)
  have ht : (coef V U W p p).type = 2 := by
    refine type_two hd ?_
    rw [hAe, sub_self, show ‖W - U‖ ^ 2 * ((0 : ℝ) ^ 2 - ‖W - U‖ ^ 2) = -(‖W - U‖ ^ 2 * ‖W - U‖ ^ 2) by ring, abs_neg, abs_of_nonneg (by positivity)]
    have : ‖W - U‖ ^ 2 < (1e-3 : ℝ) ^ 2 := pow_lt_pow_left₀ hs hp.le (by norm_num)
    have h3 : ‖W - U‖ ^ 2 * ‖W - U‖ ^ 2 < (1e-3 : ℝ) ^ 2 * 1e-3 ^ 2 := mul_lt_mul'' this this (by positivity) (by positivity)
    norm_num at h3 ⊢
    linarith
  refine ⟨?_, _, ⟨1 / 2, by norm_num, by norm_num, rfl⟩, ?_⟩
  · unfold twoDead
    simp only [ht]
    rw [if_neg (by decide), if_pos trivial, front_zero, front_one, hi, min_self]
  · have h1 := dist_sq V U W (1 / 2)
    have h2 := dist_sq V U W 1
    rw [one_smul, show U + (W - U) = W by abel, hi] at h2
    have h3 : ‖V - (U + (1 / 2 : ℝ) • (W - U))‖ ^ 2 < ‖V - U‖ ^ 2 := by rw [h1]; nlinarith
    have := lt_of_pow_lt_pow_left₀ 2 (norm_nonneg _) h3
    linarith

/-- **C185.** Violated in a gap between two tests: above an edge of length one thousandth with equal values, nothing is updated. -/
theorem C185_gap_fails {V U W : E} {p : ℝ} (value : ℝ) (hU : V ≠ U) (hs : ‖W - U‖ = 1e-3) : twoDead 1 V U W p p value = value := by
  have hW : W ≠ U := fun h => by rw [h, sub_self, norm_zero] at hs; norm_num at hs
  have hd := discr_nonneg (pU := p) (pW := p) hU hW (by rw [sub_self, abs_zero]; positivity)
  have hAe : (coef V U W p p).A = ‖W - U‖ ^ 2 * ((p - p) ^ 2 - ‖W - U‖ ^ 2) := rfl
  have ht : (coef V U W p p).type = -1 := by
    refine type_zero hd ?_
    rw [hAe, hs, sub_self]
    norm_num
  unfold twoDead
  simp only [ht]
  rw [if_neg (by decide), if_neg (by decide)]

example : ∃ V U W : E, V ≠ U ∧ W ≠ U ∧ ‖W - U‖ < 1e-3 ∧ ‖V - W‖ = ‖V - U‖ := by
  refine ⟨EuclideanSpace.single 1 1, EuclideanSpace.single 0 1e-4, EuclideanSpace.single 0 (-1e-4), ?_, ?_, ?_, ?_⟩
  · intro h; have := congrArg (fun x : E => x 1) h; simp at this
  · intro h; have := congrArg (fun x : E => x 0) h; norm_num at this
  · rw [EuclideanSpace.norm_eq, Real.sqrt_lt' (by norm_num)]; norm_num [Fin.sum_univ_three]
    rw [if_neg (show ¬ (2 : Fin 3) = 0 by decide), if_neg (show ¬ (2 : Fin 3) = 0 by decide)]; norm_num
  · rw [EuclideanSpace.norm_eq, EuclideanSpace.norm_eq]; simp [Fin.sum_univ_three]

end Verif.Seeds
