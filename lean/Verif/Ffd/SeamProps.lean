import Verif.Ffd.NodeProps
import Verif.Grid.SameProps
/-
C94: the seam of a periodic coordinate.
-/
namespace Verif.Ffd
open Verif.Shape Verif.Grid Verif.Field Verif.Manip
open List hiding get elem

noncomputable section
open scoped Classical

theorem ringT_turn {n p : ℕ} (hn : 2 ≤ n) (span lo : ℝ) (i : ℤ) : ringT n p span lo (i + (n - 1)) = ringT n p span lo i + span := by
  have hn1 : (n : ℝ) - 1 ≠ 0 := by
    have : (2 : ℝ) ≤ n := by exact_mod_cast hn
    linarith
  unfold ringT
  push_cast
  field_simp
  ring

theorem boor_turn {T : ℤ → ℝ} {N : ℤ} {s : ℝ} (h : ∀ i, T (i + N) = T i + s) (k : ℤ) (u : ℝ) :
    ∀ (p : ℕ) (i : ℤ), boor T (k + N) p (i + N) (u + s) = boor T k p i u
  | 0, i => by simp only [boor]; by_cases e : i = k <;> simp [e]
  | p + 1, i => by
    simp only [boor]
    have ih := boor_turn h k u p (i + 1)
    rw [show i + 1 + N = i + N + 1 by ring] at ih
    rw [boor_turn h k u p i, ih, show i + N + p + 1 = (i + p + 1) + N by ring, show i + N + p + 2 = (i + p + 2) + N by ring,
      show i + N + 1 = (i + 1) + N by ring, h, h, h, h]
    congr 2 <;> ring

/-- the sum over the nodes is the sum over the control points of the window -/
theorem infl_sum {type : Coord} {n p m : ℕ} {T : ℤ → ℝ} {k : ℤ} {u : ℝ} (hk : (p : ℤ) ≤ k) (hm : k < m) (F : ℕ → ℝ)
    (hnode : ∀ q < m, ∃ a : ℕ, a < n ∧ (nodesOf type n p)[q]? = some (a : ℤ)) :
    ∑ a ∈ Finset.range n, infl (nodesOf type n p) T k p m u a * F a =
      ∑ r ∈ Finset.range (p + 1), boor T k p (k - p + r) u * F ((nodesOf type n p)[(k - p).toNat + r]?.getD 0).toNat := by
  unfold infl
  simp only [Finset.sum_mul]
  rw [Finset.sum_comm]
  have inner : ∀ q ∈ Finset.range m, (∑ a ∈ Finset.range n, (if (nodesOf type n p)[q]? = some (a : ℤ) then boor T k p q u else 0) * F a) =
      boor T k p q u * F ((nodesOf type n p)[q]?.getD 0).toNat := by
    intro q hqm
    obtain ⟨a, ha, hn⟩ := hnode q (Finset.mem_range.1 hqm)
    rw [Finset.sum_eq_single a]
    · rw [if_pos hn, hn]; simp
    · intro a' _ hne
      rw [hn, if_neg (by intro e; exact hne (by have := Option.some.inj e; omega))]
      simp
    · intro hc; exact absurd (Finset.mem_range.2 ha) hc
  rw [Finset.sum_congr rfl inner]
  have sub : ∑ q ∈ Finset.range m, boor T k p q u * F ((nodesOf type n p)[q]?.getD 0).toNat =
      ∑ q ∈ (Finset.range (p + 1)).image (fun r => (k - p).toNat + r), boor T k p q u * F ((nodesOf type n p)[q]?.getD 0).toNat := by
    symm
    apply Finset.sum_subset
    · intro q hq
      obtain ⟨r, hr, rfl⟩ := Finset.mem_image.1 hq
      rw [Finset.mem_range] at hr ⊢
      omega
    · intro q hqm hq
      rw [Finset.mem_range] at hqm
      by_cases hl : (q : ℤ) + p < k
      · rw [boor_left T k u p q hl, zero_mul]
      · by_cases hr : k < (q : ℤ)
        · rw [boor_right T k u p q hr, zero_mul]
        · exfalso
          apply hq
          rw [Finset.mem_image]
          exact ⟨q - (k - p).toNat, Finset.mem_range.2 (by omega), by omega⟩
  rw [sub, Finset.sum_image (by intro a _ b _ h; simpa using h)]
  apply Finset.sum_congr rfl
  intro r _
  rw [show (((k - p).toNat + r : ℕ) : ℤ) = k - p + r by omega]

/-- the two ends of a periodic direction give the same, for quantities that are the same at the first and the last node -/
theorem seam {n p m m' : ℕ} {span lo : ℝ} {T T' : ℤ → ℝ} {k k' : ℤ} {φ φ' : ℕ → ℝ} (hspan : 0 < span)
    (h : Along .periodic n p m span lo T k lo φ) (h' : Along .periodic n p m' span lo T' k' (lo + span) φ')
    {F : ℕ → ℝ} (hF : F 0 = F (n - 1)) : ∑ a ∈ Finset.range n, φ a * F a = ∑ a ∈ Finset.range n, φ' a * F a := by
  obtain ⟨rfl, rfl⟩ := h.knots
  obtain ⟨rfl, rfl⟩ := h'.knots
  have hp := h.pos
  have hn := h.deg
  have hn1 : (0 : ℝ) < (n : ℝ) - 1 := by
    have : (2 : ℝ) ≤ n := by exact_mod_cast (by omega : 2 ≤ n)
    linarith
  have hd : 0 < span / ((n : ℝ) - 1) := by positivity
  have step := ringT_step n p span lo
  have turn := ringT_turn (p := p) (by omega : 2 ≤ n) span lo
  have tp : ringT n p span lo p ≤ lo ∧ lo < ringT n p span lo (p + 1) := by
    rw [step]
    unfold ringT
    split <;> push_cast <;> constructor <;> nlinarith
  have hk : k = p := by
    by_contra hc
    have := h.mono (show (p : ℤ) + 1 ≤ k by have := h.first; omega)
    have := h.lower
    linarith
  have hk' : k' = p + (n - 1) := by
    have e : ringT n p span lo (p + (n - 1)) ≤ lo + span ∧ lo + span < ringT n p span lo (p + (n - 1) + 1) := by
      rw [turn, show (p : ℤ) + (n - 1) + 1 = (p + 1) + (n - 1) by ring, turn]
      constructor <;> linarith
    have l2 := h'.last
    have l1 := h'.lower
    have l3 := h'.strict
    have l4 := h'.upper
    push_cast at l2 l3
    rcases lt_trichotomy k' (p + (n - 1)) with hc | hc | hc
    · exfalso
      rcases l3 with l3 | l3
      · have := h'.mono (show k' + 1 ≤ (p : ℤ) + (n - 1) by omega)
        linarith
      · omega
    · exact hc
    · omega
  subst hk hk'
  rw [h.eq, h'.eq, infl_sum (by omega) (by push_cast; omega) F, infl_sum (by omega) (by push_cast; omega) F]
  rotate_left
  · intro q hq
    obtain ⟨a, a1, a2, -⟩ := nodes_periodic hp hn hq
    exact ⟨a, a1, a2⟩
  · intro q hq
    obtain ⟨a, a1, a2, -⟩ := nodes_periodic hp hn hq
    exact ⟨a, a1, a2⟩
  apply Finset.sum_congr rfl
  intro r hr
  rw [Finset.mem_range] at hr
  have e := boor_turn (T := ringT n p span lo) (N := (n : ℤ) - 1) (s := span) turn p lo p ((p : ℤ) - p + r)
  rw [show (p : ℤ) + ((n : ℤ) - 1) - p + r = (p : ℤ) - p + r + ((n : ℤ) - 1) by ring, e]
  congr 1
  obtain ⟨a, a1, a2, a3⟩ := nodes_periodic hp hn (show r < n + p by omega)
  obtain ⟨b, b1, b2, b3⟩ := nodes_periodic hp hn (show r + (n - 1) < n + p by omega)
  rw [show ((p : ℤ) - p).toNat + r = r by omega, show ((p : ℤ) + ((n : ℤ) - 1) - p).toNat + r = r + (n - 1) by omega, a2, b2]
  simp only [Option.getD_some, Int.toNat_natCast]
  have hr1 : retro p ≤ p := by unfold retro; omega
  have hab : a = b ∨ (a = 0 ∧ b = n - 1) ∨ (a = n - 1 ∧ b = 0) := by
    have : p ≤ 2 * retro p + 1 := by unfold retro; omega
    omega
  rcases hab with rfl | ⟨rfl, rfl⟩ | ⟨rfl, rfl⟩
  · rfl
  · exact hF
  · exact hF.symm

/-! ## Continuity -/

theorem boor_continuous (T : ℤ → ℝ) (k : ℤ) : ∀ (p : ℕ) (i : ℤ), Continuous (fun u => boor T k p i u)
  | 0, i => by simp only [boor]; exact continuous_const
  | p + 1, i => by
    simp only [boor]
    exact (((continuous_id.sub continuous_const).div_const _).mul (boor_continuous T k p i)).add
      (((continuous_const.sub continuous_id).div_const _).mul (boor_continuous T k p (i + 1)))

/-- the pieces on two intervals meet at the knot between them -/
theorem boor_joint {T : ℤ → ℝ} {k : ℤ} (h1 : T k < T (k + 1)) (h2 : T (k + 1) < T (k + 2)) :
    ∀ (p : ℕ) (i : ℤ), boor T k (p + 1) i (T (k + 1)) = boor T (k + 1) (p + 1) i (T (k + 1))
  | 0, i => by
    simp only [boor]
    simp only [Nat.cast_zero, add_zero]
    by_cases e1 : i = k + 1
    · subst e1
      rw [if_neg (by omega), if_neg (by omega), if_pos rfl, if_neg (by omega)]
      simp
    by_cases e2 : i = k
    · subst e2
      rw [if_pos rfl, if_neg (by omega), if_neg (by omega), if_pos rfl]
      have : T (i + 1) - T i ≠ 0 := by linarith [h1] |> fun h : 0 < T (i + 1) - T i => h.ne'
      have : T (i + 2) - T (i + 1) ≠ 0 := by linarith [h2] |> fun h : 0 < T (i + 2) - T (i + 1) => h.ne'
      rw [div_self ‹T (i + 1) - T i ≠ 0›, div_self ‹T (i + 2) - T (i + 1) ≠ 0›]
      ring
    by_cases e3 : i = k - 1
    · subst e3
      rw [if_neg (by omega), if_pos (by omega), if_neg (by omega), if_neg (by omega), show k - 1 + 2 = k + 1 by ring]
      simp
    · rw [if_neg e2, if_neg (by omega), if_neg e1, if_neg (by omega)]
  | p + 1, i => by
    have a := boor_joint h1 h2 p i
    have b := boor_joint h1 h2 p (i + 1)
    show _ * boor T k (p + 1) i (T (k + 1)) + _ * boor T k (p + 1) (i + 1) (T (k + 1)) = _
    rw [a, b]
    rfl

/-- near the end of a periodic direction the influences are continuous, and at the end they are as at the beginning -/
theorem seam_near {n p : ℕ} {span lo : ℝ} (hspan : 0 < span) (hp : 1 ≤ p) (hn : p + 1 ≤ n) {m : ℕ} {T : ℤ → ℝ} {k : ℤ} {φ : ℕ → ℝ}
    (h : Along .periodic n p m span lo T k lo φ) :
    ∃ (g : ℝ → ℕ → ℝ) (η : ℝ), 0 < η ∧ (∀ a, Continuous (fun u => g u a)) ∧
      (∀ F : ℕ → ℝ, F 0 = F (n - 1) → ∑ a ∈ Finset.range n, g (lo + span) a * F a = ∑ a ∈ Finset.range n, φ a * F a) ∧
      ∀ u, lo + span - η < u → u ≤ lo + span → ∀ m' T' k' φ', Along .periodic n p m' span lo T' k' u φ' → φ' = g u := by
  have hn1 : (0 : ℝ) < (n : ℝ) - 1 := by
    have : (2 : ℝ) ≤ n := by exact_mod_cast (by omega : 2 ≤ n)
    linarith
  have hd : 0 < span / ((n : ℝ) - 1) := by positivity
  have step := ringT_step n p span lo
  have turn := ringT_turn (p := p) (by omega : 2 ≤ n) span lo
  have mono : Monotone (ringT n p span lo) := monotone_int (fun i => by rw [step]; linarith)
  -- the interval that ends the direction from below
  obtain ⟨k0, hk0, hk1, low, up⟩ : ∃ k0 : ℤ, (k0 = p + (n - 1) ∨ k0 = p + (n - 1) - 1 ∧ ringT n p span lo (k0 + 1) = lo + span) ∧
      (p : ℤ) ≤ k0 ∧ ringT n p span lo k0 < lo + span ∧ lo + span ≤ ringT n p span lo (k0 + 1) := by
    rcases Nat.mod_two_eq_zero_or_one p with hpar | hpar
    · have e : ringT n p span lo p = lo - 1 / 2 * (span / ((n : ℝ) - 1)) := by
        unfold ringT; rw [if_pos hpar]; push_cast; ring
      refine ⟨p + (n - 1), .inl rfl, by omega, ?_, ?_⟩
      · rw [turn, e]; nlinarith
      · rw [step, turn, e]; nlinarith
    · have e : ringT n p span lo p = lo := by
        unfold ringT; rw [if_neg (by omega)]; push_cast; ring
      have e2 : ringT n p span lo (p + (n - 1) - 1 + 1) = lo + span := by rw [sub_add_cancel, turn, e]
      refine ⟨p + (n - 1) - 1, .inr ⟨rfl, e2⟩, by omega, ?_, ?_⟩
      · have := step (p + (n - 1) - 1)
        rw [e2] at this
        linarith
      · rw [e2]
  have ends : ∀ a, infl (nodesOf .periodic n p) (ringT n p span lo) k0 p (n + p) (lo + span) a =
      infl (nodesOf .periodic n p) (ringT n p span lo) (p + (n - 1)) p (n + p) (lo + span) a := by
    intro a
    rcases hk0 with rfl | ⟨hk0, e⟩
    · rfl
    · unfold infl
      apply Finset.sum_congr rfl
      intro q _
      split
      · obtain ⟨p', rfl⟩ : ∃ p', p = p' + 1 := ⟨p - 1, by omega⟩
        have h1 : ringT n (p' + 1) span lo k0 < ringT n (p' + 1) span lo (k0 + 1) := by rw [step]; linarith
        have h2 : ringT n (p' + 1) span lo (k0 + 1) < ringT n (p' + 1) span lo (k0 + 2) := by
          rw [show k0 + 2 = k0 + 1 + 1 by ring, step (k0 + 1)]; linarith
        have := boor_joint h1 h2 p' q
        rw [e] at this
        rw [this, show (((p' + 1 : ℕ) : ℤ) + ((n : ℤ) - 1)) = k0 + 1 by omega]
      · rfl
  have hend : Along .periodic n p (n + p) span lo (ringT n p span lo) (p + (n - 1)) (lo + span)
      (infl (nodesOf .periodic n p) (ringT n p span lo) (p + (n - 1)) p (n + p) (lo + span)) := by
    have tp : ringT n p span lo p ≤ lo ∧ lo ≤ ringT n p span lo (p + 1) := by
      rw [step]
      unfold ringT
      split <;> push_cast <;> constructor <;> nlinarith
    refine ⟨hp, hn, ⟨rfl, rfl⟩, mono, by omega, by push_cast; omega, by rw [step]; linarith, ?_, ?_, .inr (by push_cast; ring), rfl⟩
    · rw [turn]; linarith
    · rw [show (p : ℤ) + (n - 1) + 1 = (p + 1) + (n - 1) by ring, turn]; linarith
  refine ⟨fun u => infl (nodesOf .periodic n p) (ringT n p span lo) k0 p (n + p) u, lo + span - ringT n p span lo k0, by linarith, ?_, ?_, ?_⟩
  · intro a
    unfold infl
    apply continuous_finsetSum
    intro q _
    split
    · exact boor_continuous _ _ _ _
    · exact continuous_const
  · intro F hF
    simp only [ends]
    exact (seam hspan h hend hF).symm
  · intro u hu1 hu2 m' T' k' φ' h'
    obtain ⟨rfl, rfl⟩ := h'.knots
    rcases eq_or_lt_of_le hu2 with rfl | hlt
    · -- at the end
      have hk' : k' = p + (n - 1) := by
        rcases lt_trichotomy k' (p + (n - 1)) with hc | hc | hc
        · exfalso
          have l3 := h'.strict
          push_cast at l3
          rcases l3 with l3 | l3
          · have := h'.mono (show k' + 1 ≤ (p : ℤ) + (n - 1) by omega)
            have := hend.lower
            linarith
          · omega
        · exact hc
        · have l2 := h'.last
          push_cast at l2
          omega
      rw [h'.eq, hk']
      funext a
      exact (ends a).symm
    · have hk' : k' = k0 := by
        rcases lt_trichotomy k' k0 with hc | hc | hc
        · exfalso
          have l3 := h'.strict
          push_cast at l3
          rcases l3 with l3 | l3
          · have := h'.mono (show k' + 1 ≤ k0 by omega)
            linarith
          · omega
        · exact hc
        · exfalso
          have := h'.mono (show k0 + 1 ≤ k' by omega)
          have := h'.lower
          linarith
      rw [h'.eq, hk']

/-- the influences depend on the value only -/
theorem along_unique {type : Coord} (ht : type ≠ .unclamped) {n p m m' : ℕ} {span lo u : ℝ} {T T' : ℤ → ℝ} {k k' : ℤ} {φ φ' : ℕ → ℝ}
    (h : Along type n p m span lo T k u φ) (h' : Along type n p m' span lo T' k' u φ') : φ = φ' := by
  have key : m = m' ∧ T = T' := by
    have a := h.knots
    have b := h'.knots
    cases type with
    | unclamped => exact absurd rfl ht
    | clamped => exact ⟨a.1.trans b.1.symm, a.2.trans b.2.symm⟩
    | periodic => exact ⟨a.1.trans b.1.symm, a.2.trans b.2.symm⟩
    | symmetric => exact ⟨a.1.trans b.1.symm, a.2.trans b.2.symm⟩
  obtain ⟨rfl, rfl⟩ := key
  have side : ∀ {k k' : ℤ}, u < T (k + 1) ∨ k = m - 1 → T k' ≤ u → k' < m → k' ≤ k := by
    intro k k' s l e
    by_contra hc
    rcases s with s | s
    · have := h.mono (show k + 1 ≤ k' by omega)
      linarith
    · omega
  have : k = k' := le_antisymm (side h'.strict h.lower h.last) (side h.strict h'.lower h'.last)
  subst this
  rw [h.eq, h'.eq]

theorem sum3_second (n0 n1 n2 : ℕ) (φ0 φ1 φ2 : ℕ → ℝ) (F : ℕ → ℕ → ℕ → ℝ) : sum3 n0 n1 n2 φ0 φ1 φ2 F =
    ∑ a ∈ Finset.range n0, ∑ c ∈ Finset.range n2, φ0 a * φ2 c * ∑ b ∈ Finset.range n1, φ1 b * F a b c := by
  unfold sum3
  apply Finset.sum_congr rfl
  intro a _
  rw [Finset.sum_comm]
  refine Finset.sum_congr rfl fun c _ => ?_
  rw [Finset.mul_sum]
  exact Finset.sum_congr rfl fun b _ => by ring

theorem sum3_continuous {n0 n1 n2 : ℕ} {φ0 φ2 : ℕ → ℝ} {g : ℝ → ℕ → ℝ} (hg : ∀ a, Continuous (fun u => g u a)) (F : ℕ → ℕ → ℕ → ℝ) :
    Continuous (fun u => sum3 n0 n1 n2 φ0 (g u) φ2 F) := by
  unfold sum3
  exact continuous_finsetSum _ fun a _ => continuous_finsetSum _ fun b _ => continuous_finsetSum _ fun c _ =>
    ((continuous_const.mul (hg b)).mul continuous_const).mul continuous_const

/-- nodes that share a degree of freedom have the same weight and displacement -/
theorem value_same {f : Ffd} {a b c a' b' c' : ℕ} (h : SameDof f.lat (a, b, c) (a', b', c')) {α : Type} (v : List α) (d : α) :
    nodeValue f v d a b c = nodeValue f v d a' b' c' := by
  unfold nodeValue
  unfold SameDof at h
  dsimp only at h
  rw [h]

/-! ## C94 -/

/-- C94: on a full cylinder the deformation is closed: the displacement of points that come to the seam from the far side tends to the
displacement of the point of the seam with the same radius and height.  Vectors of the lattice are taken as global ones here (local ones
follow `carried`); the radius and height must not be of unclamped type (partial). -/
theorem C94_cylinder_partial {f : Ffd} {s : Shape} (h : Ready f s) (hk : s.kind = .cylinder) (hper : s.coord 1 = .periodic)
    (h0 : s.coord 0 ≠ .unclamped) (h2 : s.coord 2 ≠ .unclamped) (hspan : 0 < s.span.y) (hpos : ∀ x ∈ f.weights, 0 < x)
    (hg : f.global = true) {p v : V3} (hp : (toLocal s p).y = (localOrigin s).y) (hm : Moved f s p v) :
    ∀ ε > 0, ∃ η > 0, ∀ p' v', (toLocal s p').x = (toLocal s p).x → (toLocal s p').z = (toLocal s p).z →
      (localOrigin s).y + s.span.y - η < (toLocal s p').y → (toLocal s p').y ≤ (localOrigin s).y + s.span.y → Moved f s p' v' →
      |v'.x - v.x| < ε ∧ |v'.y - v.y| < ε ∧ |v'.z - v.z| < ε := by
  obtain ⟨φ0, φ1, φ2, hs, rfl⟩ := hm
  obtain ⟨m0, T0, k0, l0⟩ := hs.x
  obtain ⟨m1, T1, k1, l1⟩ := hs.y
  obtain ⟨m2, T2, k2, l2⟩ := hs.z
  rw [hper, hp] at l1
  obtain ⟨g, η, hη, hcont, hsum, hnear⟩ := seam_near hspan l1.pos l1.deg l1
  -- nodes of the two ends have the same entry
  have same : ∀ a < (nodesAlong f).1, ∀ c < (nodesAlong f).2.2, SameDof f.lat (a, (0 : ℕ), c) (a, ((nodesAlong f).2.1 - 1 : ℕ), c) := by
    intro a ha c hc
    obtain ⟨l, hl⟩ := h.run
    have px := h.made.px
    have py := h.made.py
    have pz := h.made.pz
    obtain ⟨s', hs', hgr, -⟩ := execute_spec hl
    have hsh : s' = s := by
      have e1 := (hgr ▸ made_build hs' : Made f.lat.grid s').shape
      exact Option.some.inj (e1.symm.trans h.made.shape)
    subst hsh
    unfold nodesAlong at *
    dsimp only at *
    refine (same_dof hl hs' (nx := f.lat.grid.nx.toNat) (ny := f.lat.grid.ny.toNat) (nz := f.lat.grid.nz.toNat)
      (by omega) (by omega) (by omega) (by omega) (by omega)).2 ?_
    unfold repS repT
    rw [hk]
    dsimp only
    rw [if_neg (by omega), if_pos ⟨hper, by omega⟩]
  have ends : ∀ F : ℕ → ℕ → ℕ → ℝ, (∀ a < (nodesAlong f).1, ∀ c < (nodesAlong f).2.2, F a 0 c = F a ((nodesAlong f).2.1 - 1) c) →
      sum3 (nodesAlong f).1 (nodesAlong f).2.1 (nodesAlong f).2.2 φ0 (g ((localOrigin s).y + s.span.y)) φ2 F =
        sum3 (nodesAlong f).1 (nodesAlong f).2.1 (nodesAlong f).2.2 φ0 φ1 φ2 F := by
    intro F hF
    rw [sum3_second, sum3_second]
    refine Finset.sum_congr rfl fun a ha => Finset.sum_congr rfl fun c hc => ?_
    rw [hsum _ (hF a (Finset.mem_range.1 ha) c (Finset.mem_range.1 hc))]
  have tend : ∀ G : ℕ → ℕ → ℕ → ℝ, (∀ a < (nodesAlong f).1, ∀ c < (nodesAlong f).2.2, G a 0 c = G a ((nodesAlong f).2.1 - 1) c) → ∀ ε > 0,
      ∃ δ > 0, ∀ u, |u - ((localOrigin s).y + s.span.y)| < δ →
        |blend (nodesAlong f) φ0 (g u) φ2 (nodeWeight f) G - blend (nodesAlong f) φ0 φ1 φ2 (nodeWeight f) G| < ε := by
    intro G hG ε hε
    have eW := ends (nodeWeight f) fun a ha c hc => value_same (same a ha c hc) _ _
    have eN := ends (fun a b c => nodeWeight f a b c * G a b c) fun a ha c hc => by
      have : nodeWeight f a 0 c = nodeWeight f a ((nodesAlong f).2.1 - 1) c := value_same (same a ha c hc) _ _
      rw [this, hG a ha c hc]
    have hne : sum3 (nodesAlong f).1 (nodesAlong f).2.1 (nodesAlong f).2.2 φ0 (g ((localOrigin s).y + s.span.y)) φ2 (nodeWeight f) ≠ 0 := by
      rw [eW]; exact (sum3_pos hs.sx hs.sy hs.sz (weight_pos hpos)).ne'
    have hc : ContinuousAt (fun u => blend (nodesAlong f) φ0 (g u) φ2 (nodeWeight f) G) ((localOrigin s).y + s.span.y) :=
      (sum3_continuous hcont _).continuousAt.div (sum3_continuous hcont _).continuousAt hne
    have lim : blend (nodesAlong f) φ0 (g ((localOrigin s).y + s.span.y)) φ2 (nodeWeight f) G =
        blend (nodesAlong f) φ0 φ1 φ2 (nodeWeight f) G := by
      unfold blend
      rw [eW, eN]
    obtain ⟨δ, hδ, hd⟩ := Metric.continuousAt_iff.1 hc ε hε
    refine ⟨δ, hδ, fun u hu => ?_⟩
    have := hd (show dist u _ < δ by rw [Real.dist_eq]; exact hu)
    rw [Real.dist_eq] at this
    rw [← lim]
    exact this
  intro ε hε
  have sd : ∀ a < (nodesAlong f).1, ∀ c < (nodesAlong f).2.2, nodeDispl f a 0 c = nodeDispl f a ((nodesAlong f).2.1 - 1) c :=
    fun a ha c hc => value_same (same a ha c hc) _ _
  obtain ⟨δx, hx, tx⟩ := tend (fun a b c => (nodeDispl f a b c).x) (fun a ha c hc => by rw [sd a ha c hc]) ε hε
  obtain ⟨δy, hy, ty⟩ := tend (fun a b c => (nodeDispl f a b c).y) (fun a ha c hc => by rw [sd a ha c hc]) ε hε
  obtain ⟨δz, hz, tz⟩ := tend (fun a b c => (nodeDispl f a b c).z) (fun a ha c hc => by rw [sd a ha c hc]) ε hε
  refine ⟨min η (min δx (min δy δz)), by positivity, ?_⟩
  intro p' v' ex ez lo hi hm'
  obtain ⟨ψ0, ψ1, ψ2, hs', rfl⟩ := hm'
  obtain ⟨m0', T0', k0', l0'⟩ := hs'.x
  obtain ⟨m1', T1', k1', l1'⟩ := hs'.y
  obtain ⟨m2', T2', k2', l2'⟩ := hs'.z
  rw [ex] at l0'
  rw [ez] at l2'
  rw [hper] at l1'
  obtain rfl := along_unique h0 l0 l0'
  obtain rfl := along_unique h2 l2 l2'
  have b1 := min_le_left η (min δx (min δy δz))
  have b2 := min_le_right η (min δx (min δy δz))
  have b3 := min_le_left δx (min δy δz)
  have b4 := min_le_right δx (min δy δz)
  have b5 := min_le_left δy δz
  have b6 := min_le_right δy δz
  obtain rfl := hnear _ (by linarith) hi _ _ _ _ l1'
  unfold carried
  rw [hg]
  simp only [if_true]
  unfold blendV
  dsimp only
  exact ⟨tx _ (by rw [abs_lt]; constructor <;> linarith), ty _ (by rw [abs_lt]; constructor <;> linarith),
    tz _ (by rw [abs_lt]; constructor <;> linarith)⟩

/-! A lattice of degree one on the default cylinder or sphere -/

/-- the lattice, not built -/
def round (kind : Kind) : Ffd :=
  { Ffd.new with lat := ⟨{ Grid.new with shape := some (basic kind), nx := 1, ny := 4, nz := 2 }, 0, []⟩, global := true }

theorem round_ready {kind : Kind} (hk : kind = .cylinder ∨ kind = .sphere) : ∃ f : Ffd, Ready f (basic kind) ∧ f.global = true ∧
    (∀ x ∈ f.weights, x = 1) ∧ f.lat.grid.nx = 1 ∧ f.lat.grid.ny = 4 ∧ f.lat.grid.nz = 2 ∧ f.degrees = (1, 1, 1) := by
  obtain ⟨l, hl⟩ := execute_some (l := (round kind).lat) (s := basic kind) rfl
  obtain ⟨s, h1, h2, -, -⟩ := execute_spec hl
  have hx : l.grid.nx = 1 := by rw [h2]; rcases hk with rfl | rfl <;> simp [round, Grid.build, basic, dimLimit]
  have hy : l.grid.ny = 4 := by rw [h2]; rcases hk with rfl | rfl <;> simp [round, Grid.build, basic, dimLimit]
  have hz : l.grid.nz = 2 := by rw [h2]; rcases hk with rfl | rfl <;> simp [round, Grid.build, basic, dimLimit]
  have hd : ∀ n : ℤ, 1 ≤ n → degree n 1 = 1 := by intro n hn; unfold degree; omega
  have fine : Fine (.periodic) 5 1 (2 * Real.pi) 0 := ⟨by positivity, fun _ => .inl (by simp [ringT])⟩
  obtain ⟨b, e1, e2, e3, e4, e5, e6, e7, e8, e9, e10, e11, e12, -⟩ := build_spec (f := round kind) (s := basic kind) rfl hl
    (by simp [round, Ffd.new])
    (by rcases hk with rfl | rfl <;> exact ⟨by simp [basic], by simp [basic]⟩)
    (by
      rw [hy, show degree 4 (round kind).c1.deg = 1 from hd 4 (by omega)]
      rcases hk with rfl | rfl <;> exact fine)
    (by rcases hk with rfl | rfl <;> exact ⟨by simp [basic, Real.pi_pos], by simp [basic]⟩)
  refine ⟨b, e3, by rw [e9]; rfl, ?_, by rw [e2, hx], by rw [e2, hy], by rw [e2, hz], ?_⟩
  · intro x hx
    have : b.weights = List.replicate l.np.toNat 1 := by simpa [round, Ffd.new, takeWeights] using e7.symm
    rw [this] at hx
    exact List.eq_of_mem_replicate hx
  · rw [e6, hx, hy, hz]
    have a := hd 1 (by omega)
    have b := hd 4 (by omega)
    have c := hd 2 (by omega)
    simp [round, Ffd.new, Curve.new, a, b, c]

/-- points of the seam of the default cylinder, and points near it on the far side -/
example : ∃ (f : Ffd) (s : Shape), Ready f s ∧ s.kind = .cylinder ∧ s.coord 1 = .periodic ∧ s.coord 0 ≠ .unclamped ∧
    s.coord 2 ≠ .unclamped ∧ 0 < s.span.y ∧ (∀ x ∈ f.weights, 0 < x) ∧ f.global = true ∧
    (∃ p v, (toLocal s p).y = (localOrigin s).y ∧ (toLocal s p).x = 1 / 2 ∧ (toLocal s p).z = 0 ∧ Moved f s p v) ∧
    ∀ η > 0, ∃ p' v', (toLocal s p').x = 1 / 2 ∧ (toLocal s p').z = 0 ∧ (localOrigin s).y + s.span.y - η < (toLocal s p').y ∧
      (toLocal s p').y ≤ (localOrigin s).y + s.span.y ∧ Moved f s p' v' := by
  obtain ⟨f, h, hg, hw, -⟩ := round_ready (.inl rfl)
  have hpos : ∀ x ∈ f.weights, 0 < x := fun x hx => by rw [hw x hx]; exact one_pos
  have pp := Real.pi_pos
  have there : ∀ y, 0 ≤ y → y < 2 * Real.pi → ∃ p v, toLocal (basic .cylinder) p = ⟨1 / 2, y, 0⟩ ∧ Moved f (basic .cylinder) p v := by
    intro y y1 y2
    have e : toLocal (basic .cylinder) (toWorld (basic .cylinder) ⟨1 / 2, y, 0⟩) = ⟨1 / 2, y, 0⟩ :=
      C62_local_world_local_partial (basic_frame _) (basic_scaled _) (basic_limits _) (by simp [Regular, basic, y1, y2])
    have hi : Inside (basic .cylinder) (toWorld (basic .cylinder) ⟨1 / 2, y, 0⟩) := by
      unfold Inside
      rw [e]
      simp [basic, localOrigin]
      exact ⟨by norm_num, ⟨y1, y2.le⟩, by norm_num⟩
    obtain ⟨_, _, v, -, -, -, hm⟩ := vertex_value h hpos (by rw [hg]; intro hc; cases hc) hi
    exact ⟨_, v, e, hm⟩
  refine ⟨f, basic .cylinder, h, rfl, rfl, by simp [basic], by simp [basic], by simp [basic, pp], hpos, hg, ?_, ?_⟩
  · obtain ⟨p, v, e, hm⟩ := there 0 (le_refl _) (by linarith)
    exact ⟨p, v, by (rw [e]; simp [localOrigin, basic]), by simp [e], by simp [e], hm⟩
  · intro η hη
    obtain ⟨p, v, e, hm⟩ := there (max (2 * Real.pi - η / 2) 0) (le_max_right _ _) (max_lt (by linarith) (by linarith))
    refine ⟨p, v, by simp [e], by simp [e], ?_, ?_, hm⟩
    · rw [e]
      simp only [localOrigin, basic]
      have := le_max_left (2 * Real.pi - η / 2) 0
      linarith
    · rw [e]
      simp only [localOrigin, basic]
      exact max_le (by linarith) (by linarith)

theorem sole_one {n : ℕ} {φ : ℕ → ℝ} (h : Shares n φ) {a : ℕ} (ha : a < n) (hs : Sole n φ a) : φ a = 1 := by
  rw [← h.one]
  exact (Finset.sum_eq_single a (fun b hb hne => hs b (Finset.mem_range.1 hb) hne)
    (fun hc => absurd (Finset.mem_range.2 ha) hc)).symm

theorem blend_sole {n : ℕ × ℕ × ℕ} {φ0 φ1 φ2 : ℕ → ℝ} (s0 : Shares n.1 φ0) (s1 : Shares n.2.1 φ1) (s2 : Shares n.2.2 φ2) {a c : ℕ}
    (ha : a < n.1) (hc : c < n.2.2) (h0 : Sole n.1 φ0 a) (h2 : Sole n.2.2 φ2 c) {W : ℕ → ℕ → ℕ → ℝ} (hW : ∀ a b c, W a b c = 1)
    (G : ℕ → ℕ → ℕ → ℝ) : blend n φ0 φ1 φ2 W G = ∑ b ∈ Finset.range n.2.1, φ1 b * G a b c := by
  have key : ∀ F : ℕ → ℕ → ℕ → ℝ, sum3 n.1 n.2.1 n.2.2 φ0 φ1 φ2 F = ∑ b ∈ Finset.range n.2.1, φ1 b * F a b c := by
    intro F
    rw [sum3_second, Finset.sum_eq_single a, Finset.sum_eq_single c, sole_one s0 ha h0, sole_one s2 hc h2]
    · ring
    · intro c' hc' hne
      rw [h2 c' (Finset.mem_range.1 hc') hne]; ring
    · intro hn; exact absurd (Finset.mem_range.2 hc) hn
    · intro a' ha' hne
      rw [h0 a' (Finset.mem_range.1 ha') hne]
      simp
    · intro hn; exact absurd (Finset.mem_range.2 ha) hn
  unfold blend
  rw [key, key]
  simp only [hW, mul_one, one_mul]
  rw [s1.one, div_one]

/-- the influences in a closed direction of degree one with five nodes: at the first value and near the last one -/
theorem five {lo span u : ℝ} (hs : 0 < span) {m : ℕ} {T : ℤ → ℝ} {k : ℤ} {φ : ℕ → ℝ} (h : Along .periodic 5 1 m span lo T k u φ) :
    (u = lo → φ 4 = 0) ∧ (lo + span - span / 8 < u → u < lo + span → 1 / 2 ≤ φ 4) := by
  obtain ⟨rfl, rfl⟩ := h.knots
  have t : ∀ i : ℤ, ringT 5 1 span lo i = lo + (i - 1) * (span / 4) := by
    intro i; unfold ringT; norm_num
  have k1 := h.first
  have k2 := h.last
  have l := h.lower
  have r := h.upper
  have st := h.strict
  push_cast at k1 k2 st
  have e4 : φ 4 = boor (ringT 5 1 span lo) k 1 4 u := by
    rw [h.eq]
    unfold infl
    rw [Finset.sum_eq_single 4]
    · rw [if_pos (by decide)]; rfl
    · intro q hq hne
      rw [if_neg]
      have := Finset.mem_range.1 hq
      rcases (by omega : q = 0 ∨ q = 1 ∨ q = 2 ∨ q = 3 ∨ q = 5) with rfl | rfl | rfl | rfl | rfl <;> decide
    · intro hc; exact absurd (Finset.mem_range.2 (by norm_num)) hc
  rw [e4]
  rw [t] at l r
  rw [t] at st
  push_cast at r st
  constructor
  · rintro rfl
    have : k < 4 := by
      by_contra hc
      have : (4 : ℝ) ≤ k := by exact_mod_cast (by omega : (4 : ℤ) ≤ k)
      nlinarith
    exact boor_right _ _ _ _ _ this
  · intro h1 h2
    have hk : k = 4 := by
      have a : k < 5 := by
        by_contra hc
        have : (5 : ℝ) ≤ k := by exact_mod_cast (by omega : (5 : ℤ) ≤ k)
        nlinarith
      have b : 3 < k := by
        by_contra hc
        have : (k : ℝ) ≤ 3 := by exact_mod_cast (by omega : k ≤ (3 : ℤ))
        nlinarith
      omega
    subst hk
    simp only [boor, t]
    norm_num
    rw [le_div_iff₀ (by linarith)]
    linarith

/-- C94 does not hold on spheres: the last node of a parallel has an entry of its own (the one before shares that of the first), so
a displacement of this entry alone tears the surface along the seam: zero on one side, at least 1/2 at any distance on the other. -/
theorem C94_sphere_fails : ∃ (f : Ffd) (s : Shape) (p v : V3), Ready f s ∧ s.kind = .sphere ∧ s.coord 1 = .periodic ∧ f.global = true ∧
    (∀ x ∈ f.weights, x = 1) ∧ (toLocal s p).y = (localOrigin s).y ∧ Moved f s p v ∧ v.x = 0 ∧
    ∀ η > 0, ∃ p' v', (toLocal s p').x = (toLocal s p).x ∧ (toLocal s p').z = (toLocal s p).z ∧
      (localOrigin s).y + s.span.y - η < (toLocal s p').y ∧ (toLocal s p').y < (localOrigin s).y + s.span.y ∧ Moved f s p' v' ∧
      1 / 2 ≤ v'.x := by
  obtain ⟨f, h, hg, hw, nx, ny, nz, hdeg⟩ := round_ready (.inr rfl)
  have pp := Real.pi_pos
  obtain ⟨l, hl⟩ := h.run
  obtain ⟨s', hs', hgr, -⟩ := execute_spec hl
  have hsh : s' = basic .sphere := by
    have e1 := (hgr ▸ made_build hs' : Made f.lat.grid s').shape
    exact Option.some.inj (e1.symm.trans h.made.shape)
  subst hsh
  -- the entry of the last node of the equator
  obtain ⟨dof, -⟩ := C75_dofs hl
  have there : ∀ b : ℕ, b ≤ 4 → ∃ d : ℕ, dofFromGrid f.lat (pointIndex f.lat.grid (1 : ℕ) b (1 : ℕ)) = some (d : ℤ) ∧ (d : ℤ) < f.lat.np := by
    intro b hb
    have hn := (C68_node_there f.lat.grid (i := (1 : ℕ)) (j := b) (k := (1 : ℕ)) ⟨by omega, by omega, by omega⟩).2
    obtain ⟨d, e1, e2, e3⟩ := dof _ hn.1 hn.2
    exact ⟨d.toNat, by rw [e1]; congr 1; omega, by omega⟩
  obtain ⟨d4, e4, l4⟩ := there 4 (le_refl _)
  have hlen := h.dlen
  obtain ⟨D, hD⟩ : ∃ D : List V3, D = (List.replicate f.displ.length ⟨0, 0, 0⟩).set d4 ⟨1, 0, 0⟩ := ⟨_, rfl⟩
  have hDl : D.length = f.displ.length := by rw [hD, List.length_set, List.length_replicate]
  have hr := ready_displ h hDl
  have val : ∀ b : ℕ, b ≤ 4 → (nodeDispl (f.setDisplacements D) 1 b 1).x = if b = 4 then 1 else 0 := by
    intro b hb
    obtain ⟨d, e, hd⟩ := there b hb
    have : nodeDispl (f.setDisplacements D) 1 b 1 = if d = d4 then ⟨1, 0, 0⟩ else ⟨0, 0, 0⟩ := by
      unfold nodeDispl nodeValue
      show Option.getD (Option.bind (dofFromGrid f.lat (pointIndex f.lat.grid (1 : ℕ) b (1 : ℕ))) (elem D)) _ = _
      rw [e, Option.bind_some, elem_nat, hD, List.getElem?_set]
      by_cases c : d = d4
      · rw [if_pos c.symm, if_pos (by rw [List.length_replicate]; omega), if_pos c]; rfl
      · rw [if_neg (Ne.symm c), List.getElem?_replicate, if_pos (by omega), if_neg c]; rfl
    rw [this]
    have same := same_dof hl hs' (nx := 1) (ny := 4) (nz := 2) nx ny nz (i := 1) (j := b) (k := 1) (i' := 1) (j' := 4) (k' := 1)
      ⟨by omega, hb, by omega⟩ (by omega)
    have hsd : SameDof f.lat ((1 : ℕ), b, (1 : ℕ)) ((1 : ℕ), (4 : ℕ), (1 : ℕ)) ↔ d = d4 := by
      unfold SameDof
      dsimp only
      rw [e, e4]
      constructor
      · intro hh; have := Option.some.inj hh; omega
      · rintro rfl; rfl
    rw [hsd] at same
    have rep : repS (basic .sphere) 1 4 2 1 b 1 = repS (basic .sphere) 1 4 2 1 4 1 ↔ b = 4 := by
      simp only [repS, repT, basic]
      norm_num
      constructor
      · intro hh
        split at hh
        · omega
        · exact hh
      · rintro rfl; rfl
    rw [rep] at same
    by_cases c : d = d4
    · rw [if_pos c, if_pos (same.1 c)]
    · rw [if_neg c, if_neg (fun hb => c (same.2 hb))]
  have hn : nodesAlong (f.setDisplacements D) = (2, 5, 3) := by
    show ((f.lat.grid.nx + 1).toNat, (f.lat.grid.ny + 1).toNat, (f.lat.grid.nz + 1).toNat) = _
    rw [nx, ny, nz]; rfl
  have hc0 : f.c0.deg = 1 := congrArg (fun q => q.1) hdeg
  have hc1 : f.c1.deg = 1 := congrArg (fun q => q.2.1) hdeg
  have hc2 : f.c2.deg = 1 := congrArg (fun q => q.2.2) hdeg
  have hpos : ∀ x ∈ (f.setDisplacements D).weights, 0 < x := fun x hx => by rw [hw x hx]; exact one_pos
  have hW : ∀ a b c, nodeWeight (f.setDisplacements D) a b c = 1 := by
    intro a b c
    show nodeValue f f.weights 1 a b c = 1
    unfold nodeValue
    cases hd : (dofFromGrid f.lat (pointIndex f.lat.grid a b c)).bind (elem f.weights) with
    | none => rfl
    | some x =>
      obtain ⟨d, -, hx⟩ := Option.bind_eq_some_iff.1 hd
      unfold elem at hx
      split at hx
      · cases hx
      · exact hw x (List.mem_of_getElem? hx)
  have point : ∀ y, 0 ≤ y → y < 2 * Real.pi → ∃ p v m T k φ, toLocal (basic .sphere) p = ⟨1, y, Real.pi / 2⟩ ∧
      Moved (f.setDisplacements D) (basic .sphere) p v ∧ Along .periodic 5 1 m (2 * Real.pi) 0 T k y φ ∧ v.x = φ 4 := by
    intro y y1 y2
    have e : toLocal (basic .sphere) (toWorld (basic .sphere) ⟨1, y, Real.pi / 2⟩) = ⟨1, y, Real.pi / 2⟩ :=
      C62_local_world_local_partial (basic_frame _) (basic_scaled _) (basic_limits _) (by
        simp only [Regular, basic]
        refine ⟨by norm_num, ⟨y1, y2⟩, by linarith, by linarith⟩)
    have hi : Inside (basic .sphere) (toWorld (basic .sphere) ⟨1, y, Real.pi / 2⟩) := by
      unfold Inside
      rw [e]
      simp only [basic, localOrigin]
      exact ⟨⟨by norm_num, by norm_num⟩, ⟨y1, by linarith⟩, by linarith, by linarith⟩
    obtain ⟨_, _, v, -, -, -, hm⟩ := vertex_value hr hpos (by intro hc; rw [show (f.setDisplacements D).global = f.global from rfl, hg] at hc; cases hc) hi
    have hm' := hm
    obtain ⟨φ0, φ1, φ2, hs, rfl⟩ := hm
    obtain ⟨m0, T0, k0, a0⟩ := hs.x
    obtain ⟨m1, T1, k1, a1⟩ := hs.y
    obtain ⟨m2, T2, k2, a2⟩ := hs.z
    have s0 := hs.sx
    have s1 := hs.sy
    have s2 := hs.sz
    rw [hn] at a0 a1 a2 s0 s1 s2
    rw [show (f.setDisplacements D).c0.deg.toNat = 1 by show f.c0.deg.toNat = 1; rw [hc0]; rfl, e] at a0
    rw [show (f.setDisplacements D).c1.deg.toNat = 1 by show f.c1.deg.toNat = 1; rw [hc1]; rfl, e] at a1
    rw [show (f.setDisplacements D).c2.deg.toNat = 1 by show f.c2.deg.toNat = 1; rw [hc2]; rfl, e] at a2
    refine ⟨_, _, m1, T1, k1, φ1, e, hm', a1, ?_⟩
    unfold carried
    rw [show (f.setDisplacements D).global = true from hg, if_pos rfl]
    show blend _ φ0 φ1 φ2 _ _ = φ1 4
    rw [hn, blend_sole (n := (2, 5, 3)) s0 s1 s2 (a := 1) (c := 1) (by norm_num) (by norm_num)
      (sole_of a0 ⟨rfl, by simp [basic], by norm_num, by simp [basic, localOrigin]; norm_num, by norm_num⟩)
      (sole_of a2 ⟨rfl, by simp [basic, pp], by norm_num, by simp [basic, localOrigin]; norm_num, by norm_num⟩) hW]
    dsimp only
    rw [Finset.sum_eq_single 4]
    · rw [val 4 (le_refl _), if_pos rfl, mul_one]
    · intro b hb hne
      have := Finset.mem_range.1 hb
      rw [val b (by omega), if_neg hne, mul_zero]
    · intro hc; exact absurd (Finset.mem_range.2 (by norm_num)) hc
  obtain ⟨p, v, m, T, k, φ, e, hm, a, hv⟩ := point 0 (le_refl _) (by linarith)
  refine ⟨f.setDisplacements D, basic .sphere, p, v, hr, rfl, rfl, hg, hw, by rw [e]; rfl, hm, ?_, ?_⟩
  · rw [hv]; exact (five (by linarith) a).1 rfl
  · intro η hη
    have m1 := le_max_left (2 * Real.pi - η / 2) (2 * Real.pi - Real.pi / 8)
    have m2 := le_max_right (2 * Real.pi - η / 2) (2 * Real.pi - Real.pi / 8)
    have m3 : max (2 * Real.pi - η / 2) (2 * Real.pi - Real.pi / 8) < 2 * Real.pi := max_lt (by linarith) (by linarith)
    obtain ⟨p', v', m', T', k', φ', e', hm', a', hv'⟩ := point (max (2 * Real.pi - η / 2) (2 * Real.pi - Real.pi / 8)) (by linarith) m3
    refine ⟨p', v', by rw [e, e'], by rw [e, e'], ?_, ?_, hm', ?_⟩
    · rw [e']; simp only [basic, localOrigin]; linarith
    · rw [e']; simp only [basic, localOrigin]; linarith
    · rw [hv']
      exact (five (by linarith) a').2 (by linarith) (by linarith)

end

end Verif.Ffd
