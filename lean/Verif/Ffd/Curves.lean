import Verif.Ffd.Knots
/-
What `setKnotsStructure` gives for each type of coordinate.
-/
namespace Verif.Ffd
open Verif.Shape Verif.Grid Verif.Field
open List hiding get elem

noncomputable section
open scoped Classical

/-- specification: a curve of degree `p` on `m` control points (each one of the `n` nodes of the direction) with knots `T`, defined
between `lo` and `hi` -/
structure Spline (c : Curve) (n p m : ℕ) (T : ℤ → ℝ) (lo hi : ℝ) : Prop where
  deg : c.deg = p
  pos : p < m
  count : c.nodes.length = m
  node : ∀ q < m, ∃ a : ℕ, a < n ∧ c.nodes[q]? = some (a : ℤ)
  mono : Monotone T
  strict : ∀ k : ℤ, p ≤ k → k < m → T k < T (k + 1)
  value : ∀ i : ℤ, 0 ≤ i → i < m + p → knotValue c i = some (T i)
  find : ∀ u, lo ≤ u → u ≤ hi → ∃ k : ℤ, knotInterval c u = some k ∧ p ≤ k ∧ k < m ∧ T k ≤ u ∧ u ≤ T (k + 1) ∧
    (u < T (k + 1) ∨ k = m - 1)

theorem Spline.around {c : Curve} {n p m : ℕ} {T : ℤ → ℝ} {lo hi : ℝ} (h : Spline c n p m T lo hi) {k : ℤ} (h1 : p ≤ k)
    (h2 : k < m) : Around T k p := ⟨fun i _ _ => h.mono (by omega), h.strict k h1 h2⟩

/-- the values of `basisITS0` -/
theorem Spline.basis {c : Curve} {n p m : ℕ} {T : ℤ → ℝ} {lo hi : ℝ} (h : Spline c n p m T lo hi) {k : ℤ} (h1 : p ≤ k)
    (h2 : k < m) (u : ℝ) : ∃ b, basis c k u = some b ∧ ∀ r ≤ p, b r = boor T k p (k - p + r) u :=
  basis_spec u h.deg (fun i _ _ => h.value i (by omega) (by omega)) (h.around h1 h2)

/-! ## The last position of an index -/

theorem theoIndex_spec {c : Curve} {loc : ℤ} {q : ℕ} (h0 : 0 ≤ loc) (h1 : loc < c.knots.length) (hq : c.eff[q]? = some loc)
    (ha : ∀ q', q < q' → c.eff[q']? ≠ some loc) : theoIndex c loc = q := by
  have hlen : q < c.eff.length := by
    by_contra hc
    rw [List.getElem?_eq_none (by omega)] at hq
    cases hq
  have hf : c.eff.reverse.findIdx (· == loc) = c.eff.length - 1 - q := by
    rw [List.findIdx_eq (by rw [List.length_reverse]; omega)]
    constructor
    · rw [List.getElem_reverse]
      have : c.eff[q] = loc := by rw [List.getElem?_eq_getElem hlen] at hq; exact Option.some.inj hq
      simp only [show c.eff.length - 1 - (c.eff.length - 1 - q) = q by omega, this]
      simp
    · intro j hj
      rw [List.getElem_reverse]
      have := ha (c.eff.length - 1 - j) (by omega)
      rw [List.getElem?_eq_getElem (by omega)] at this
      simpa using this
  unfold theoIndex
  rw [if_neg (by omega), hf]
  omega

/-! ## Clamped -/

/-- specification: the knots of a clamped curve with `n` equally spaced nodes: the ends repeated, and means of `p` nodes between -/
def clampT (n p : ℕ) (span lo : ℝ) (i : ℤ) : ℝ :=
  if i ≤ p then lo else if i ≥ n then lo + span else lo + ((i : ℝ) - ((p : ℝ) + 1) / 2) * (span / ((n : ℝ) - 1))

theorem clampT_strict {n p : ℕ} {span lo : ℝ} (hp : 1 ≤ p) (hn : p + 1 ≤ n) (hs : 0 < span) {i : ℤ} (h1 : p ≤ i) (h2 : i < n) :
    clampT n p span lo i < clampT n p span lo (i + 1) := by
  have hn1 : (0 : ℝ) < (n : ℝ) - 1 := by
    have : (2 : ℝ) ≤ n := by exact_mod_cast (by omega : 2 ≤ n)
    linarith
  have hd : 0 < span / ((n : ℝ) - 1) := by positivity
  have he : span = ((n : ℝ) - 1) * (span / ((n : ℝ) - 1)) := by field_simp
  have hp' : (1 : ℝ) ≤ p := by exact_mod_cast hp
  obtain ⟨d, hdd⟩ : ∃ d, d = span / ((n : ℝ) - 1) := ⟨_, rfl⟩
  rw [← hdd] at hd he
  unfold clampT
  rw [← hdd]
  rw [if_neg (show ¬ i + 1 ≤ (p : ℤ) by omega)]
  have hin : ((i : ℝ) + 1) ≤ n := by exact_mod_cast (by omega : i + 1 ≤ (n : ℤ))
  have hip : (p : ℝ) ≤ i := by exact_mod_cast h1
  by_cases ha : i ≤ p
  · rw [if_pos ha]
    by_cases hb : i + 1 ≥ (n : ℤ)
    · rw [if_pos hb]; linarith
    · rw [if_neg hb]
      push_cast
      have : 0 < ((i : ℝ) + 1 - ((p : ℝ) + 1) / 2) * d := mul_pos (by linarith) hd
      linarith
  · rw [if_neg ha, if_neg (by omega)]
    by_cases hb : i + 1 ≥ (n : ℤ)
    · rw [if_pos hb]
      have : ((i : ℝ) - ((p : ℝ) + 1) / 2) * d < ((n : ℝ) - 1) * d := mul_lt_mul_of_pos_right (by linarith) hd
      linarith
    · rw [if_neg hb]
      push_cast
      nlinarith

theorem monotone_int {T : ℤ → ℝ} (h : ∀ i, T i ≤ T (i + 1)) : Monotone T := monotone_int_of_le_succ h

theorem clampT_mono {n p : ℕ} {span lo : ℝ} (hp : 1 ≤ p) (hn : p + 1 ≤ n) (hs : 0 < span) : Monotone (clampT n p span lo) := by
  apply monotone_int
  intro i
  by_cases h1 : (p : ℤ) ≤ i
  · by_cases h2 : i < n
    · exact (clampT_strict hp hn hs h1 h2).le
    · unfold clampT
      rw [if_neg (by omega), if_pos (by omega), if_neg (by omega), if_pos (by omega)]
  · unfold clampT
    rw [if_pos (by omega), if_pos (by omega)]

theorem clamped_knots {n p : ℕ} (span lo : ℝ) (hp : 1 ≤ p) (hn : p + 1 ≤ n) :
    ∃ k, knotsOf .clamped n p span lo = some k ∧ Has k (n - p + 1) (fun q => clampT n p span lo ((p + q : ℕ) : ℤ)) := by
  have he : Has (equi .clamped n p span lo) n (fun i : ℕ => lo + i * (span / ((n : ℝ) - 1))) := by
    unfold equi
    simp only
    rw [Nat.cast_sub (by omega), Nat.cast_one]
    exact has_range n _
  have hn1 : (n : ℝ) - 1 ≠ 0 := by
    have : (2 : ℝ) ≤ n := by exact_mod_cast (by omega : 2 ≤ n)
    linarith
  unfold knotsOf
  simp only [Option.bind_eq_bind]
  rw [he.val 0 (by omega), he.len, he.val (n - 1) (by omega)]
  simp only [Option.bind_some]
  obtain ⟨k1, e1, f1⟩ := (has_replicate (n - p + 1)).put (i := 0) (by omega) (lo + ((0 : ℕ) : ℝ) * (span / ((n : ℝ) - 1)))
  rw [e1]
  simp only [Option.bind_some]
  obtain ⟨k2, e2, f2⟩ := f1.put (i := n - p + 1 - 1) (by omega) (lo + ((n - 1 : ℕ) : ℝ) * (span / ((n : ℝ) - 1)))
  rw [e2]
  simp only [Option.bind_some]
  obtain ⟨k3, e3, f3⟩ := innerKnots_spec he f2 (p := p) (off := 0) (stop := n - p + 1 - 1) (by omega) (by omega)
  refine ⟨k3, e3, f3.congr ?_⟩
  intro q hq
  simp only [clampT]
  by_cases h0 : q = 0
  · subst h0
    rw [if_neg (by omega), if_neg (by omega), if_pos rfl, if_pos (by omega)]
    simp
  by_cases h1 : q = n - p
  · rw [if_neg (by omega), if_pos (by omega), if_neg (by omega), if_pos (by omega)]
    rw [Nat.cast_sub (by omega), Nat.cast_one]
    field_simp
  · rw [if_pos (by omega), if_neg (by omega), if_neg (by omega), avg_affine _ _ hp]
    push_cast
    simp only [Nat.sub_zero]
    ring

theorem eff_clamped {n p q : ℕ} (hn : p + 1 ≤ n) (hq : q ≤ n + p) :
    (effOf .clamped n p)[q]? = some (((min (q - p) (n - p) : ℕ)) : ℤ) := by
  unfold effOf
  simp only
  rw [List.getElem?_map, List.getElem?_range (by omega)]
  simp only [Option.map_some]
  congr 1
  split
  · omega
  split <;> omega

theorem clamped_spline {n p : ℕ} (span lo : ℝ) (hp : 1 ≤ p) (hn : p + 1 ≤ n) (hs : 0 < span) :
    ∃ c, curveOf .clamped n p span lo = some c ∧ Spline c n p n (clampT n p span lo) lo (lo + span) ∧
      ∀ u, ∃ k : ℤ, knotInterval c u = some k ∧ p ≤ k ∧ k < n := by
  obtain ⟨k, hk, hv⟩ := clamped_knots span lo hp hn
  have hmin : min (p : ℤ) ((n : ℤ) - 1) = p := by omega
  have hcurve : curveOf .clamped n p span lo = some ⟨p, k, effOf .clamped n p, nodesOf .clamped n p⟩ := by
    unfold curveOf
    simp only [hmin, Int.toNat_natCast, hk, Option.map_some]
  refine ⟨_, hcurve, ?_⟩
  have theo : ∀ q < n - p, theoIndex ⟨p, k, effOf .clamped n p, nodesOf .clamped n p⟩ (q : ℕ) = ((p + q : ℕ) : ℤ) := by
    intro q hq
    apply theoIndex_spec (by omega)
    · simp only [hv.len]; omega
    · simp only
      rw [eff_clamped hn (by omega)]
      congr 2
      omega
    · intro q' hq'
      simp only
      by_cases hl : q' ≤ n + p
      · rw [eff_clamped hn hl]
        intro h
        have := Option.some.inj h
        omega
      · rw [List.getElem?_eq_none (by simp [effOf]; omega)]
        simp
  have key : ∀ u, ∃ k' : ℤ, knotInterval ⟨p, k, effOf .clamped n p, nodesOf .clamped n p⟩ u = some k' ∧ p ≤ k' ∧ k' < n ∧
      (lo ≤ u → u ≤ lo + span → clampT n p span lo k' ≤ u ∧ u ≤ clampT n p span lo (k' + 1) ∧
        (u < clampT n p span lo (k' + 1) ∨ k' = n - 1)) := by
    intro u
    have hlo : clampT n p span lo ((p + 0 : ℕ) : ℤ) = lo := by unfold clampT; rw [if_pos (by omega)]
    have hhi : clampT n p span lo ((p + (n - p) : ℕ) : ℤ) = lo + span := by
      unfold clampT; rw [if_neg (by omega), if_pos (by omega)]
    unfold knotInterval
    simp only [Option.bind_eq_bind, hv.len]
    rw [hv.val 0 (by omega), hv.val (n - p + 1 - 1) (by omega)]
    simp only [Option.bind_some, Nat.add_sub_cancel]
    rw [hlo, hhi]
    by_cases h1 : u < lo
    · rw [if_pos h1]
      have := theo 0 (by omega)
      rw [Nat.cast_zero] at this
      rw [this]
      exact ⟨_, rfl, by omega, by omega, fun h => absurd h1 (by linarith)⟩
    rw [if_neg h1]
    by_cases h2 : u ≥ lo + span
    · rw [if_pos h2]
      have := theo (n - p - 1) (by omega)
      rw [show ((n - p + 1 : ℕ) : ℤ) - 2 = ((n - p - 1 : ℕ) : ℤ) by omega, this]
      refine ⟨_, rfl, by omega, by omega, fun _ h3 => ?_⟩
      have e : (((p + (n - p - 1) : ℕ) : ℤ)) + 1 = ((p + (n - p) : ℕ) : ℤ) := by omega
      have st := clampT_strict (lo := lo) hp hn hs (i := ((p + (n - p - 1) : ℕ) : ℤ)) (by omega) (by omega)
      rw [e, hhi] at *
      exact ⟨by linarith, h3, .inr (by omega)⟩
    · rw [if_neg h2]
      obtain ⟨m, e1, e2, e3, e4, e5⟩ := bisect_spec hv u (n - p + 1) 0 (n - p) (by omega) (by omega) (by omega)
        (by rw [hlo]; linarith) (by rw [hhi]; linarith)
      rw [e1]
      simp only [Option.map_some]
      rw [theo m e3]
      refine ⟨_, rfl, by omega, by omega, fun _ _ => ?_⟩
      rw [show ((p + m : ℕ) : ℤ) + 1 = ((p + (m + 1) : ℕ) : ℤ) by push_cast; ring]
      exact ⟨e4, e5.le, .inl e5⟩
  refine ⟨⟨rfl, by omega, by simp [nodesOf], ?_, clampT_mono hp hn hs, fun i h1 h2 => clampT_strict hp hn hs h1 h2, ?_, ?_⟩,
    fun u => by obtain ⟨k', a, b, c, -⟩ := key u; exact ⟨k', a, b, c⟩⟩
  · intro q hq
    exact ⟨q, hq, by simp [nodesOf, hq]⟩
  · intro i h1 h2
    obtain ⟨q, rfl⟩ := Int.eq_ofNat_of_zero_le h1
    unfold knotValue
    have hlen : (effOf .clamped n p).length = n + p + 1 := by simp [effOf]
    simp only [hlen]
    rw [if_neg (by omega)]
    have : elem (effOf .clamped n p) (q : ℤ) = some (((min (q - p) (n - p) : ℕ)) : ℤ) := by
      unfold elem
      rw [if_neg (by omega), Int.toNat_natCast, eff_clamped hn (by omega)]
    rw [this]
    simp only [Option.bind_some, elem]
    rw [if_neg (by omega), Int.toNat_natCast, hv.val _ (by omega)]
    congr 1
    unfold clampT
    by_cases ha : q ≤ p
    · rw [if_pos (by omega), if_pos (by omega)]
    by_cases hb : n ≤ q
    · rw [if_neg (by omega), if_pos (by omega), if_neg (by omega), if_pos (by omega)]
    · rw [show ((p + min (q - p) (n - p) : ℕ) : ℤ) = q by omega]
  · intro u h1 h2
    obtain ⟨k', a, b, c, d⟩ := key u
    exact ⟨k', a, b, c, d h1 h2⟩

/-! ## The others -/

theorem ident_spline {k : List ℝ} {nd : List ℤ} {n p m N : ℕ} {S : ℕ → ℝ} {T : ℤ → ℝ} {lo hi : ℝ} (hN : m + p ≤ N) (hp : 1 ≤ p)
    (hm : p < m) (hk : Has k N S) (hs : ∀ q < N - 1, S q < S (q + 1)) (hnd : nd.length = m)
    (hn : ∀ q < m, ∃ a : ℕ, a < n ∧ nd[q]? = some (a : ℤ)) (hT : Monotone T) (he : ∀ q < N, T (q : ℕ) = S q)
    (hlo : S p ≤ lo) (hhi : hi < S m) :
    Spline ⟨p, k, (List.range N).map (fun (i : ℕ) => (i : ℤ)), nd⟩ n p m T lo hi := by
  have eff : ∀ q < N, ((List.range N).map (fun (i : ℕ) => (i : ℤ)))[q]? = some (q : ℤ) := by
    intro q hq; rw [List.getElem?_map, List.getElem?_range hq]; rfl
  have le : ∀ {a b : ℕ}, a ≤ b → b ≤ N - 1 → S a ≤ S b := mono_of_steps hs
  refine ⟨rfl, hm, hnd, hn, hT, ?_, ?_, ?_⟩
  · intro i h1 h2
    obtain ⟨q, rfl⟩ := Int.eq_ofNat_of_zero_le (show 0 ≤ i by omega)
    have e := he (q + 1) (by omega)
    rw [he q (by omega), show (q : ℤ) + 1 = ((q + 1 : ℕ) : ℤ) by push_cast; ring, e]
    exact hs q (by omega)
  · intro i h1 h2
    obtain ⟨q, rfl⟩ := Int.eq_ofNat_of_zero_le h1
    unfold knotValue
    simp only [List.length_map, List.length_range]
    rw [if_neg (by omega)]
    unfold elem
    rw [if_neg (by omega), Int.toNat_natCast, eff q (by omega)]
    simp only [Option.bind_some]
    rw [if_neg (by omega), Int.toNat_natCast, hk.val q (by omega), he q (by omega)]
  · intro u h1 h2
    unfold knotInterval
    simp only [Option.bind_eq_bind, hk.len]
    rw [hk.val 0 (by omega), hk.val (N - 1) (by omega)]
    simp only [Option.bind_some]
    have a := le (a := 0) (b := p) (by omega) (by omega)
    have b := le (a := m) (b := N - 1) (by omega) (by omega)
    rw [if_neg (by linarith), if_neg (by linarith)]
    obtain ⟨r, e1, e2, e3, e4, e5⟩ := bisect_spec hk u N 0 (N - 1) (by omega) (by omega) (by omega) (by linarith) (by linarith)
    rw [e1]
    simp only [Option.map_some]
    rw [theoIndex_spec (q := r) (by omega) (by simp only [hk.len]; omega) (eff r (by omega)) (by
      intro q' hq'
      by_cases hl : q' < N
      · simp only
        rw [eff q' hl]
        intro h
        have := Option.some.inj h
        omega
      · rw [List.getElem?_eq_none (by simp; omega)]
        simp)]
    have hpr : p ≤ r := by
      by_contra hc
      have := le (a := r + 1) (b := p) (by omega) (by omega)
      linarith
    have hrm : r < m := by
      by_contra hc
      have := le (a := m) (b := r) (by omega) (by omega)
      linarith
    refine ⟨_, rfl, by omega, by omega, ?_⟩
    have e := he (r + 1) (by omega)
    rw [he r (by omega), show (r : ℤ) + 1 = ((r + 1 : ℕ) : ℤ) by push_cast; ring, e]
    exact ⟨e4, e5.le, .inl e5⟩

/-- specification: the equally spaced knots of a closed or mirrored curve with `n` nodes; for even degrees they lie halfway between
the nodes -/
def ringT (n p : ℕ) (span lo : ℝ) (i : ℤ) : ℝ :=
  lo + ((i : ℝ) - p - (if p % 2 = 0 then 1 / 2 else 0)) * (span / ((n : ℝ) - 1))

/-- the first knot is replaced by zero if nearly zero: this makes no difference if it is zero, or not so near -/
def NoSnap (n p : ℕ) (span lo : ℝ) : Prop :=
  ringT n p span lo p = 0 ∨ 1 / 10 ^ 12 ≤ |ringT n p span lo p|

theorem retro_half (p : ℕ) (hp : 1 ≤ p) : ((p : ℝ) - 1) / 2 - retro p = -(if p % 2 = 0 then 1 / 2 else 0) := by
  obtain ⟨q, rfl | rfl⟩ := Nat.even_or_odd' p
  · rw [if_pos (by omega), show retro (2 * q) = q by unfold retro; omega]; push_cast; ring
  · rw [if_neg (by omega), show retro (2 * q + 1) = q by unfold retro; omega]; push_cast; ring

theorem ring_knots {n p : ℕ} (span lo : ℝ) (hp : 1 ≤ p) (hn : p + 1 ≤ n) (hs : NoSnap n p span lo) :
    (do
      let e := (List.range (n + p - 1)).map (fun (i : ℕ) => (lo - 1.0 * (retro p : ℝ) * (span / ((n - 1 : ℕ) : ℝ))) + (i : ℝ) * (span / ((n - 1 : ℕ) : ℝ)))
      let first ← mean e p 0
      let k ← put (List.replicate (n + p - 1 + p + 1) 0) p (if |first| < 1 / 10 ^ 12 then 0 else first)
      let k ← innerKnots e p p n k
      unclamp p (p + n - 1) k) = some ((List.range (n + 2 * p)).map (fun (i : ℕ) => ringT n p span lo i)) := by
  have hnr : (n : ℝ) - 1 ≠ 0 := by
    have : (2 : ℝ) ≤ n := by exact_mod_cast (by omega : 2 ≤ n)
    linarith
  rw [Nat.cast_sub (show 1 ≤ n by omega), Nat.cast_one]
  obtain ⟨d, hd⟩ : ∃ d, d = span / ((n : ℝ) - 1) := ⟨_, rfl⟩
  rw [← hd]
  have he : Has ((List.range (n + p - 1)).map (fun (i : ℕ) => (lo - 1.0 * (retro p : ℝ) * d) + (i : ℝ) * d)) (n + p - 1)
      (fun (i : ℕ) => (lo - 1.0 * (retro p : ℝ) * d) + (i : ℝ) * d) := has_range _ _
  have hav : ∀ i : ℕ, avg (fun (i : ℕ) => (lo - 1.0 * (retro p : ℝ) * d) + (i : ℝ) * d) p i = ringT n p span lo ((p + i : ℕ) : ℤ) := by
    intro i
    rw [avg_affine _ _ hp]
    unfold ringT
    rw [← hd]
    have := retro_half p hp
    push_cast
    have e : lo - 1.0 * (retro p : ℝ) * d + ((i : ℝ) + ((p : ℝ) - 1) / 2) * d = lo + (i + (((p : ℝ) - 1) / 2 - retro p)) * d := by
      norm_num; ring
    rw [e, this]
    ring
  simp only [Option.bind_eq_bind]
  rw [mean_spec he (by omega), Option.bind_some, hav 0]
  simp only [Nat.add_zero]
  have hsn : (if |ringT n p span lo p| < 1 / 10 ^ 12 then 0 else ringT n p span lo p) = ringT n p span lo p := by
    rcases hs with h | h
    · rw [h]; simp
    · rw [if_neg (by linarith)]
  rw [hsn]
  obtain ⟨k1, e1, f1⟩ := (has_replicate (n + p - 1 + p + 1)).put (i := p) (by omega) (ringT n p span lo p)
  rw [e1, Option.bind_some]
  obtain ⟨k2, e2, f2⟩ := innerKnots_spec he f1 (p := p) (off := p) (stop := n) (by omega) (by omega)
  rw [e2, Option.bind_some]
  have f2' := f2
  rw [show n + p - 1 + p + 1 = p + n - 1 + p + 1 by omega] at f2'
  obtain ⟨k3, S, e3, f3, f4, f5⟩ := unclamp_spec (p := p) (e := p + n - 1) (by omega) f2'
  rw [e3]
  congr 1
  have g : ∀ q, p ≤ q → q ≤ p + n - 1 → S q = ringT n p span lo (q : ℕ) := by
    intro q h1 h2
    rw [f4 q h1 h2]
    by_cases hq : q = p
    · subst hq; simp
    · rw [if_pos (by omega), hav, show p + (q - p) = q by omega]
  have step : ∀ i : ℤ, ringT n p span lo (i + 1) - ringT n p span lo i = d := by
    intro i; unfold ringT; rw [← hd]; push_cast; ring
  have low : ∀ t ≤ p, ∀ q, p - t ≤ q → q ≤ p + n - 1 → S q = ringT n p span lo (q : ℕ) := by
    intro t
    induction t with
    | zero => intro _ q h1 h2; exact g q (by omega) h2
    | succ t ih =>
      intro ht q h1 h2
      by_cases hq : q = p - t - 1
      · have a := f5 q (by omega)
        rw [ih (by omega) (q + (p + n - 1 - p) + 1) (by omega) (by omega), ih (by omega) (q + (p + n - 1 - p)) (by omega) (by omega),
          ih (by omega) (q + 1) (by omega) (by omega)] at a
        have b := step ((q + (p + n - 1 - p) : ℕ) : ℤ)
        have c := step (q : ℤ)
        push_cast at a b c ⊢
        linarith
      · exact ih (by omega) q (by omega) h2
  have high : ∀ t ≤ p, ∀ q, q ≤ p + n - 1 + t → S q = ringT n p span lo (q : ℕ) := by
    intro t
    induction t with
    | zero => intro _ q h; exact low p (Nat.le_refl _) q (by omega) (by omega)
    | succ t ih =>
      intro ht q h
      by_cases hq : q = p + n - 1 + t + 1
      · have a := f5 (p + t) (by omega)
        rw [show p + t + (p + n - 1 - p) + 1 = q by omega, ih (by omega) (p + t + (p + n - 1 - p)) (by omega),
          ih (by omega) (p + t + 1) (by omega), ih (by omega) (p + t) (by omega)] at a
        have b := step (((p + t + (p + n - 1 - p) : ℕ)) : ℤ)
        have c := step ((p + t : ℕ) : ℤ)
        rw [show (((p + t + (p + n - 1 - p) : ℕ)) : ℤ) + 1 = (q : ℕ) by omega] at b
        rw [show ((p + t : ℕ) : ℤ) + 1 = ((p + t + 1 : ℕ) : ℤ) by push_cast; ring] at c
        linarith
      · exact ih (by omega) q (by omega)
  apply List.ext_getElem?
  intro q
  by_cases hq : q < n + 2 * p
  · rw [f3.val q (by omega), high p (Nat.le_refl _) q (by omega), List.getElem?_map, List.getElem?_range hq]
    rfl
  · rw [List.getElem?_eq_none (by rw [f3.len]; omega), List.getElem?_eq_none (by simp; omega)]

theorem ringT_step (n p : ℕ) (span lo : ℝ) (i : ℤ) :
    ringT n p span lo (i + 1) = ringT n p span lo i + span / ((n : ℝ) - 1) := by unfold ringT; push_cast; ring

/-- the nodes of a closed curve: the first and the last node are different nodes at the same place; before the first comes the one
before the last, after the last the second -/
theorem nodes_periodic {n p q : ℕ} (hp : 1 ≤ p) (hn : p + 1 ≤ n) (hq : q < n + p) :
    ∃ a : ℕ, a < n ∧ (nodesOf .periodic n p)[q]? = some (a : ℤ) ∧
      (a = q - retro p ∧ retro p ≤ q ∧ q < retro p + n ∨ a + retro p + 1 = n + q ∧ q < retro p ∨
        a + (retro p + n) = q + 1 ∧ retro p + n ≤ q) := by
  have hr : retro p ≤ p := by unfold retro; omega
  have hr2 : p ≤ 2 * retro p + 1 := by unfold retro; omega
  unfold nodesOf
  simp only
  rw [List.getElem?_map, List.getElem?_range (by omega)]
  simp only [Option.map_some]
  by_cases h1 : q < retro p
  · exact ⟨n - retro p - 1 + q, by omega, by rw [if_pos h1]; congr 1; omega, by omega⟩
  by_cases h2 : q < retro p + n
  · exact ⟨q - retro p, by omega, by rw [if_neg h1, if_pos h2]; congr 1; omega, by omega⟩
  · exact ⟨1 + (q - retro p - n), by omega, by rw [if_neg h1, if_neg h2]; congr 1; omega, by omega⟩

theorem nodes_symmetric {n p q : ℕ} (hp : 1 ≤ p) (hn : p + 1 ≤ n) (hq : q < n + p) :
    ∃ a : ℕ, a < n ∧ (nodesOf .symmetric n p)[q]? = some (a : ℤ) := by
  have hr : retro p ≤ p := by unfold retro; omega
  have hr2 : p ≤ 2 * retro p + 1 := by unfold retro; omega
  have tm : ∀ x : ℤ, 0 ≤ x → ∃ a : ℕ, a < n ∧ x.tmod ((n : ℤ) - 1) = a := by
    intro x hx
    have h1 := Int.tmod_nonneg ((n : ℤ) - 1) hx
    have h2 := Int.tmod_lt_of_pos x (show (0 : ℤ) < (n : ℤ) - 1 by omega)
    exact ⟨(x.tmod ((n : ℤ) - 1)).toNat, by omega, by omega⟩
  unfold nodesOf
  simp only
  rw [List.getElem?_map, List.getElem?_range (by omega)]
  simp only [Option.map_some]
  by_cases h1 : q < retro p
  · obtain ⟨a, b, c⟩ := tm ((retro p : ℤ) - 1 - q + 1) (by omega)
    exact ⟨a, b, by rw [if_pos h1, c]⟩
  by_cases h2 : q < retro p + n
  · exact ⟨q - retro p, by omega, by rw [if_neg h1, if_pos h2]; congr 1; omega⟩
  · obtain ⟨a, b, c⟩ := tm ((n : ℤ) - 2 - ((q : ℤ) - retro p - n)) (by omega)
    exact ⟨a, b, by rw [if_neg h1, if_neg h2, c]⟩

theorem ring_spline {n p : ℕ} {span lo : ℝ} (hp : 1 ≤ p) (hn : p + 1 ≤ n) (hs : 0 < span) (hz : NoSnap n p span lo) {type : Coord}
    (ht : type = .periodic ∨ type = .symmetric) :
    ∃ c, curveOf type n p span lo = some c ∧ c.nodes = nodesOf type n p ∧
      Spline c n p (n + p) (ringT n p span lo) lo (lo + span) := by
  have hmin : min (p : ℤ) ((n : ℤ) - 1) = p := by omega
  have hk : knotsOf type n p span lo = some ((List.range (n + 2 * p)).map (fun (i : ℕ) => ringT n p span lo i)) := by
    rcases ht with rfl | rfl <;> exact ring_knots span lo hp hn hz
  have hef : effOf type n p = (List.range (n + 2 * p)).map (fun (i : ℕ) => (i : ℤ)) := by
    rcases ht with rfl | rfl <;> simp only [effOf] <;> rw [show n + p - 1 + p + 1 = n + 2 * p by omega]
  have hcurve : curveOf type n p span lo = some ⟨p, (List.range (n + 2 * p)).map (fun (i : ℕ) => ringT n p span lo i),
      (List.range (n + 2 * p)).map (fun (i : ℕ) => (i : ℤ)), nodesOf type n p⟩ := by
    unfold curveOf
    simp only [hmin, Int.toNat_natCast, hk, hef, Option.map_some]
  refine ⟨_, hcurve, rfl, ?_⟩
  have hn1 : (0 : ℝ) < (n : ℝ) - 1 := by
    have : (2 : ℝ) ≤ n := by exact_mod_cast (by omega : 2 ≤ n)
    linarith
  have hd : 0 < span / ((n : ℝ) - 1) := by positivity
  apply ident_spline (N := n + 2 * p) (S := fun q => ringT n p span lo (q : ℕ)) (by omega) hp (by omega) (has_range _ _)
  · intro q _
    have := ringT_step n p span lo q
    push_cast
    linarith
  · rcases ht with rfl | rfl <;> simp only [nodesOf, List.length_map, List.length_range] <;> omega
  · intro q hq
    rcases ht with rfl | rfl
    · obtain ⟨a, b, c, -⟩ := nodes_periodic hp hn hq
      exact ⟨a, b, c⟩
    · exact nodes_symmetric hp hn hq
  · apply monotone_int
    intro i
    rw [ringT_step]
    linarith
  · intro q _; rfl
  · have : (0 : ℝ) ≤ (if p % 2 = 0 then 1 / 2 else 0) := by split <;> norm_num
    simp only [ringT]
    push_cast
    nlinarith
  · have : (if p % 2 = 0 then (1 : ℝ) / 2 else 0) ≤ 1 / 2 := by split <;> norm_num
    simp only [ringT]
    push_cast
    have e : span = ((n : ℝ) - 1) * (span / ((n : ℝ) - 1)) := by field_simp
    nlinarith

/-- the curve without repeated knots: inner knots as for the clamped one, and steps that repeat on the two sides -/
theorem open_spline {n p : ℕ} {span lo : ℝ} (hp : 1 ≤ p) (hn : p + 1 ≤ n) (hs : 0 < span) :
    ∃ c T, curveOf .unclamped n p span lo = some c ∧ c.nodes = nodesOf .unclamped n p ∧ Spline c n p n T lo (lo + span) ∧
      (∀ i : ℤ, p ≤ i → i < n → T i = clampT n p span lo i) ∧ T n = lo + span + 1 / 10 ^ 12 ∧
      ∀ i : ℤ, 0 ≤ i → i ≤ 2 * p → T (i + (n - p)) = T i + (span + 1 / 10 ^ 12) := by
  have hmin : min (p : ℤ) ((n : ℤ) - 1) = p := by omega
  have hn1 : (0 : ℝ) < (n : ℝ) - 1 := by
    have : (2 : ℝ) ≤ n := by exact_mod_cast (by omega : 2 ≤ n)
    linarith
  have hn0 : (n : ℝ) - 1 ≠ 0 := hn1.ne'
  have he : Has (equi .unclamped n p span lo) n (fun i : ℕ => lo + i * (span / ((n : ℝ) - 1))) := by
    unfold equi
    simp only
    rw [Nat.cast_sub (by omega), Nat.cast_one]
    exact has_range n _
  obtain ⟨k1, e1, f1⟩ := (has_replicate (n + p + 1)).put (i := p) (by omega) (lo + ((0 : ℕ) : ℝ) * (span / ((n : ℝ) - 1)))
  obtain ⟨k2, e2, f2⟩ := f1.put (i := p + (n - p + 1) - 1) (by omega) (lo + ((n - 1 : ℕ) : ℝ) * (span / ((n : ℝ) - 1)) + 1 / 10 ^ 12)
  obtain ⟨k3, e3, f3⟩ := innerKnots_spec he f2 (p := p) (off := p) (stop := n - p + 1 - 1) (by omega) (by omega)
  have f3' := f3
  rw [show n + p + 1 = p + (n - p + 1) - 1 + p + 1 by omega] at f3'
  obtain ⟨k4, S, e4, f4, g1, g2⟩ := unclamp_spec (p := p) (e := p + (n - p + 1) - 1) (by omega) f3'
  have hee : p + (n - p + 1) - 1 = n := by omega
  rw [hee] at g1 g2 f4
  have hk : knotsOf .unclamped n p span lo = some k4 := by
    unfold knotsOf
    simp only [Option.bind_eq_bind]
    rw [he.val 0 (by omega), he.len, he.val (n - 1) (by omega)]
    simp only [Option.bind_some]
    rw [e1]
    simp only [Option.bind_some]
    rw [e2]
    simp only [Option.bind_some]
    rw [e3]
    simp only [Option.bind_some]
    rw [e4]
  have v1 : ∀ q : ℕ, p ≤ q → q < n → S q = clampT n p span lo q := by
    intro q h1 h2
    rw [g1 q h1 (by omega)]
    unfold clampT
    by_cases hq : q = p
    · subst hq
      rw [if_neg (by omega), if_neg (by omega), if_pos rfl, if_pos (by omega)]
      simp
    · rw [if_pos (by omega), if_neg (by omega), if_neg (by omega), avg_affine _ _ hp, Nat.cast_sub h1]
      push_cast
      ring
  have v2 : S n = lo + span + 1 / 10 ^ 12 := by
    rw [g1 n (by omega) (by omega), if_neg (by omega), if_pos (by omega), Nat.cast_sub (by omega), Nat.cast_one]
    congr 1
    field_simp
  have v3 : S p = lo := by
    rw [v1 p (by omega) (by omega)]; unfold clampT; rw [if_pos (by omega)]
  have inc : ∀ q, p ≤ q → q < n → S q < S (q + 1) := by
    intro q h1 h2
    have st := clampT_strict (lo := lo) hp hn hs (i := (q : ℤ)) (by omega) (by omega)
    rw [v1 q h1 h2]
    by_cases hq : q + 1 = n
    · rw [hq, v2]
      have : clampT n p span lo ((q : ℤ) + 1) = lo + span := by unfold clampT; rw [if_neg (by omega), if_pos (by omega)]
      rw [this] at st
      have : (0 : ℝ) < 1 / 10 ^ 12 := by positivity
      linarith
    · rw [v1 (q + 1) (by omega) (by omega)]
      push_cast
      exact st
  have incs := pos_of_steps (p := p) (e := n) (by omega) g2 inc
  have sh := shift_of_steps (p := p) (e := n) (by omega) g2
  have hcurve : curveOf .unclamped n p span lo = some ⟨p, k4, (List.range (n + p + 1)).map (fun (i : ℕ) => (i : ℤ)),
      nodesOf .unclamped n p⟩ := by
    unfold curveOf
    simp only [hmin, Int.toNat_natCast, hk, effOf, Option.map_some]
  have le : ∀ {a b : ℕ}, a ≤ b → b ≤ n + p → S a ≤ S b := mono_of_steps incs
  refine ⟨_, fun i => S (min i.toNat (n + p)), hcurve, rfl, ?_, ?_, ?_, ?_⟩
  · apply ident_spline (N := n + p + 1) (S := S) (by omega) hp (by omega) f4
    · intro q hq; exact incs q (by omega)
    · simp [nodesOf]
    · intro q hq; exact ⟨q, hq, by simp [nodesOf, hq]⟩
    · intro i j hij
      exact le (by omega) (by omega)
    · intro q hq
      simp only [Int.toNat_natCast]
      rw [min_eq_left (by omega)]
    · rw [v3]
    · rw [v2]
      have : (0 : ℝ) < 1 / 10 ^ 12 := by positivity
      linarith
  · intro i h1 h2
    obtain ⟨q, rfl⟩ := Int.eq_ofNat_of_zero_le (show 0 ≤ i by omega)
    simp only [Int.toNat_natCast]
    rw [min_eq_left (by omega)]
    exact v1 q (by omega) (by omega)
  · simp only [Int.toNat_natCast]
    rw [min_eq_left (by omega), v2]
  · intro i h1 h2
    obtain ⟨q, rfl⟩ := Int.eq_ofNat_of_zero_le h1
    have := sh q (by omega)
    rw [v2, v3] at this
    simp only [Int.toNat_natCast, show ((q : ℤ) + ((n : ℤ) - p)).toNat = q + (n - p) by omega]
    rw [min_eq_left (by omega), min_eq_left (by omega), this]
    ring

end

end Verif.Ffd
