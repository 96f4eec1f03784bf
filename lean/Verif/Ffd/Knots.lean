import Verif.Ffd.Basis
/-
The knots that `setKnotsStructure` builds, and the search of the interval of a value.
-/
namespace Verif.Ffd
open Verif.Shape Verif.Grid Verif.Field
open List hiding get

noncomputable section
open scoped Classical

/-! ## Lists of values -/

/-- a list of `n` values -/
structure Has (l : List ℝ) (n : ℕ) (T : ℕ → ℝ) : Prop where
  len : l.length = n
  val : ∀ q < n, l[q]? = some (T q)

theorem Has.put {l : List ℝ} {n : ℕ} {T : ℕ → ℝ} (h : Has l n T) {i : ℕ} (hi : i < n) (x : ℝ) :
    ∃ l', put l i x = some l' ∧ Has l' n (fun q => if q = i then x else T q) := by
  refine ⟨l.set i x, by rw [Verif.Ffd.put, if_pos (by rw [h.len]; exact hi)], by rw [List.length_set, h.len], ?_⟩
  intro q hq
  by_cases hqi : q = i
  · subst hqi
    rw [if_pos rfl, List.getElem?_set_self (by rw [h.len]; exact hq)]
  · rw [if_neg hqi, List.getElem?_set_ne (fun e => hqi e.symm)]
    exact h.val q hq

theorem Has.congr {l : List ℝ} {n : ℕ} {T S : ℕ → ℝ} (h : Has l n T) (e : ∀ q < n, T q = S q) : Has l n S :=
  ⟨h.len, fun q hq => by rw [h.val q hq, e q hq]⟩

theorem has_replicate (n : ℕ) : Has (List.replicate n 0) n (fun _ => 0) :=
  ⟨List.length_replicate, fun q hq => by rw [List.getElem?_replicate, if_pos hq]⟩

theorem has_range (n : ℕ) (T : ℕ → ℝ) : Has ((List.range n).map T) n T :=
  ⟨by simp, fun q hq => by rw [List.getElem?_map, List.getElem?_range hq]; rfl⟩

/-! ## The two loops -/

/-- the mean of `p` consecutive values -/
def avg (e : ℕ → ℝ) (p i : ℕ) : ℝ := ∑ j ∈ Finset.range p, e (i + j) / p

theorem mean_spec {l : List ℝ} {n : ℕ} {e : ℕ → ℝ} (h : Has l n e) {p i : ℕ} (hi : i + p ≤ n) : mean l p i = some (avg e p i) := by
  unfold mean avg
  suffices H : ∀ m ≤ p, (List.range m).foldlM (fun a j => (l[i + j]?).map (fun v => a + v / (p : ℝ))) (0 : ℝ) =
      some (∑ j ∈ Finset.range m, e (i + j) / p) from H p (Nat.le_refl _)
  intro m hm
  induction m with
  | zero => simp
  | succ m ih =>
    rw [List.range_succ, foldlM_snoc, ih (by omega), Finset.sum_range_succ]
    simp only [Option.bind_some]
    rw [h.val (i + m) (by omega)]
    rfl

theorem avg_affine (a d : ℝ) {p : ℕ} (hp : 1 ≤ p) (i : ℕ) : avg (fun q => a + q * d) p i = a + (i + ((p : ℝ) - 1) / 2) * d := by
  have h0 : (p : ℝ) ≠ 0 := by positivity
  have h : ∀ m : ℕ, ∑ j ∈ Finset.range m, (a + ((i + j : ℕ) : ℝ) * d) / p = m * (a + (i + ((m : ℝ) - 1) / 2) * d) / p := by
    intro m
    induction m with
    | zero => simp
    | succ m ih =>
      rw [Finset.sum_range_succ, ih]
      push_cast
      field_simp
      ring
  unfold avg
  rw [h p]
  field_simp

theorem innerKnots_spec {l k : List ℝ} {m n : ℕ} {e T : ℕ → ℝ} (he : Has l m e) (hk : Has k n T) {p off stop : ℕ}
    (h1 : stop + p ≤ m + 1) (h2 : off + stop ≤ n) :
    ∃ k', innerKnots l p off stop k = some k' ∧
      Has k' n (fun q => if off < q ∧ q < off + stop then avg e p (q - off) else T q) := by
  unfold innerKnots
  suffices H : ∀ r, r ≤ stop - 1 → ∃ k', (List.range' 1 r).foldlM (fun k i => (mean l p i).bind (put k (off + i))) k = some k' ∧
      Has k' n (fun q => if off < q ∧ q < off + (r + 1) then avg e p (q - off) else T q) by
    obtain ⟨k', e1, e2⟩ := H (stop - 1) (Nat.le_refl _)
    refine ⟨k', e1, e2.congr ?_⟩
    intro q _
    by_cases hs : off < q ∧ q < off + stop
    · rw [if_pos hs, if_pos (by omega)]
    · rw [if_neg hs, if_neg (by omega)]
  intro r hr
  induction r with
  | zero => exact ⟨k, rfl, hk.congr (fun q _ => by rw [if_neg (by omega)])⟩
  | succ r ih =>
    obtain ⟨k', e1, e2⟩ := ih (by omega)
    obtain ⟨k2, e3, e4⟩ := e2.put (i := off + (1 + r)) (by omega) (avg e p (1 + r))
    refine ⟨k2, ?_, e4.congr ?_⟩
    · rw [List.range'_concat, foldlM_snoc, e1]
      simp only [Option.bind_some, Nat.one_mul]
      rw [mean_spec he (by omega)]
      exact e3
    · intro q _
      by_cases hq : q = off + (1 + r)
      · rw [if_pos hq, if_pos (by omega), hq, show off + (1 + r) - off = 1 + r by omega]
      · rw [if_neg hq]
        by_cases hs : off < q ∧ q < off + (r + 1)
        · rw [if_pos hs, if_pos (by omega)]
        · rw [if_neg hs, if_neg (by omega)]

/-- the knots on the two sides repeat the steps of the others -/
theorem unclamp_spec {k : List ℝ} {p e : ℕ} {T : ℕ → ℝ} (he : p + 1 ≤ e) (hk : Has k (e + p + 1) T) :
    ∃ k' S, unclamp p e k = some k' ∧ Has k' (e + p + 1) S ∧ (∀ q, p ≤ q → q ≤ e → S q = T q) ∧
      ∀ q < 2 * p, S (q + (e - p) + 1) - S (q + (e - p)) = S (q + 1) - S q := by
  unfold unclamp
  suffices H : ∀ m ≤ p, ∃ k' S, (List.range m).foldlM
      (fun k i => do
        let k ← put k (p - i - 1) ((← k[p - i]?) - ((← k[e - i]?) - (← k[e - i - 1]?)))
        put k (e + 1 + i) ((← k[e + i]?) + ((← k[p + i + 1]?) - (← k[p + i]?)))) k = some k' ∧
      Has k' (e + p + 1) S ∧ (∀ q, p ≤ q → q ≤ e → S q = T q) ∧
      ∀ q, p - m ≤ q → q < p + m → S (q + (e - p) + 1) - S (q + (e - p)) = S (q + 1) - S q by
    obtain ⟨k', S, e1, e2, e3, e4⟩ := H p (Nat.le_refl _)
    exact ⟨k', S, e1, e2, e3, fun q hq => e4 q (by omega) (by omega)⟩
  intro m hm
  induction m with
  | zero => exact ⟨k, T, rfl, hk, fun _ _ _ => rfl, by omega⟩
  | succ m ih =>
    obtain ⟨k', S, e1, e2, e3, e4⟩ := ih (by omega)
    obtain ⟨k1, f1, f2⟩ := e2.put (i := p - m - 1) (by omega) (S (p - m) - (S (e - m) - S (e - m - 1)))
    obtain ⟨k2, g1, g2⟩ := f2.put (i := e + 1 + m) (by omega) (S (e + m) + (S (p + m + 1) - S (p + m)))
    refine ⟨k2, _, ?_, g2, ?_, ?_⟩
    · rw [List.range_succ, foldlM_snoc, e1]
      simp only [Option.bind_some]
      rw [e2.val (p - m) (by omega), e2.val (e - m) (by omega), e2.val (e - m - 1) (by omega)]
      simp only [Option.bind_eq_bind, Option.bind_some, f1]
      rw [f2.val (e + m) (by omega), f2.val (p + m + 1) (by omega), f2.val (p + m) (by omega)]
      rw [if_neg (by omega), if_neg (by omega), if_neg (by omega)]
      simp only [Option.bind_some, g1]
    · intro q h1 h2
      rw [if_neg (by omega), if_neg (by omega)]
      exact e3 q h1 h2
    · intro q h1 h2
      by_cases ha : q = p - m - 1
      · subst ha
        rw [if_neg (by omega), if_neg (by omega), if_neg (by omega), if_neg (by omega), if_neg (by omega), if_neg (by omega),
          if_neg (by omega), if_pos rfl, show p - m - 1 + (e - p) + 1 = e - m by omega,
          show p - m - 1 + (e - p) = e - m - 1 by omega, show p - m - 1 + 1 = p - m by omega]
        ring
      by_cases hb : q = p + m
      · subst hb
        rw [if_pos (by omega), if_neg (by omega), if_neg (by omega), if_neg (by omega), if_neg (by omega), if_neg (by omega),
          if_neg (by omega), show p + m + (e - p) = e + m by omega]
        ring
      rw [if_neg (by omega), if_neg (by omega), if_neg (by omega), if_neg (by omega), if_neg (by omega), if_neg (by omega),
        if_neg (by omega), if_neg (by omega)]
      exact e4 q (by omega) (by omega)

/-- steps that repeat: the knots are those of a shift -/
theorem shift_of_steps {S : ℕ → ℝ} {p e : ℕ} (he : p ≤ e) (h : ∀ q < 2 * p, S (q + (e - p) + 1) - S (q + (e - p)) = S (q + 1) - S q) :
    ∀ q ≤ 2 * p, S (q + (e - p)) = S q + (S e - S p) := by
  have h0 : ∀ q ≤ 2 * p, S (q + (e - p)) - S q = S (e - p) - S 0 := by
    intro q
    induction q with
    | zero => intro _; simp
    | succ q ih =>
      intro hq
      have a := ih (by omega)
      have b := h q (by omega)
      rw [show q + 1 + (e - p) = q + (e - p) + 1 by omega]
      linarith
  intro q hq
  have a := h0 q hq
  have b := h0 p (by omega)
  rw [show p + (e - p) = e by omega] at b
  linarith

/-- steps that repeat are positive if those of a period are -/
theorem pos_of_steps {S : ℕ → ℝ} {p e : ℕ} (he : p + 1 ≤ e) (h : ∀ q < 2 * p, S (q + (e - p) + 1) - S (q + (e - p)) = S (q + 1) - S q)
    (hs : ∀ q, p ≤ q → q < e → S q < S (q + 1)) : ∀ q < e + p, S q < S (q + 1) := by
  have low : ∀ m ≤ p, ∀ q, p - m ≤ q → q < e → S q < S (q + 1) := by
    intro m
    induction m with
    | zero => intro _ q h1 h2; exact hs q (by omega) h2
    | succ m ih =>
      intro hm q h1 h2
      by_cases hq : q = p - m - 1
      · have a := h q (by omega)
        have b := ih (by omega) (q + (e - p)) (by omega) (by omega)
        linarith
      · exact ih (by omega) q (by omega) h2
  have high : ∀ m ≤ p, ∀ q < e + m, S q < S (q + 1) := by
    intro m
    induction m with
    | zero => intro _ q hq; exact low p (Nat.le_refl _) q (by omega) (by omega)
    | succ m ih =>
      intro hm q hq
      by_cases hqe : q = e + m
      · have a := h (p + m) (by omega)
        rw [show p + m + (e - p) = q by omega] at a
        have b := ih (by omega) (p + m) (by omega)
        linarith
      · exact ih (by omega) q (by omega)
  exact high p (Nat.le_refl _)

/-! ## The search -/

theorem bisect_spec {l : List ℝ} {n : ℕ} {T : ℕ → ℝ} (h : Has l n T) (u : ℝ) : ∀ (fuel low high : ℕ), low < high → high < n →
    high - low ≤ fuel → T low ≤ u → u < T high → ∃ m, bisect l u fuel low high = some m ∧ low ≤ m ∧ m < high ∧ T m ≤ u ∧ u < T (m + 1)
  | 0, low, high, h1, _, h3, _, _ => by omega
  | fuel + 1, low, high, h1, h2, h3, h4, h5 => by
    simp only [bisect]
    rw [h.val ((low + high) / 2) (by omega), h.val ((low + high) / 2 + 1) (by omega)]
    simp only [Option.bind_eq_bind, Option.bind_some]
    by_cases ha : u < T ((low + high) / 2)
    · rw [if_pos (.inl ha), if_pos ha]
      have hm : low < (low + high) / 2 := by
        by_contra hc
        rw [show (low + high) / 2 = low by omega] at ha
        linarith
      obtain ⟨m, e1, e2, e3, e4, e5⟩ := bisect_spec h u fuel low ((low + high) / 2) hm (by omega) (by omega) h4 ha
      exact ⟨m, e1, e2, by omega, e4, e5⟩
    · by_cases hb : u ≥ T ((low + high) / 2 + 1)
      · rw [if_pos (.inr hb), if_neg ha]
        have hm : low < (low + high) / 2 := by
          by_contra hc
          rw [show (low + high) / 2 = low by omega] at hb
          by_cases hl : high = low + 1
          · rw [← hl] at hb; linarith
          · omega
        obtain ⟨m, e1, e2, e3, e4, e5⟩ := bisect_spec h u fuel ((low + high) / 2) high (by omega) h2 (by omega) (by linarith) h5
        exact ⟨m, e1, by omega, e3, e4, e5⟩
      · rw [if_neg (by rintro (h | h); exacts [ha h, hb h])]
        exact ⟨_, rfl, by omega, by omega, by linarith, by linarith⟩

theorem mono_of_steps {T : ℕ → ℝ} {n : ℕ} (h : ∀ q < n, T q < T (q + 1)) : ∀ {a b : ℕ}, a ≤ b → b ≤ n → T a ≤ T b := by
  intro a b hab
  induction b with
  | zero => intro _; rw [show a = 0 by omega]
  | succ b ih =>
    intro hb
    by_cases e : a = b + 1
    · rw [e]
    · have h1 := ih (by omega) (by omega)
      have h2 := h b (by omega)
      linarith

end

end Verif.Ffd
