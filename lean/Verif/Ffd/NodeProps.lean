import Verif.Ffd.MoveProps
/-
C92 and C93: which nodes act on which points.
-/
namespace Verif.Ffd
open Verif.Shape Verif.Grid Verif.Field Verif.Manip
open List hiding get elem

noncomputable section
open scoped Classical

/-! ## Only the nodes with an influence matter -/

theorem sum3_congr {n0 n1 n2 : ℕ} {φ0 φ1 φ2 : ℕ → ℝ} {F G : ℕ → ℕ → ℕ → ℝ}
    (h : ∀ a < n0, ∀ b < n1, ∀ c < n2, φ0 a ≠ 0 → φ1 b ≠ 0 → φ2 c ≠ 0 → F a b c = G a b c) :
    sum3 n0 n1 n2 φ0 φ1 φ2 F = sum3 n0 n1 n2 φ0 φ1 φ2 G := by
  unfold sum3
  refine Finset.sum_congr rfl fun a ha => Finset.sum_congr rfl fun b hb => Finset.sum_congr rfl fun c hc => ?_
  by_cases h0 : φ0 a = 0
  · rw [h0]; ring
  by_cases h1 : φ1 b = 0
  · rw [h1]; ring
  by_cases h2 : φ2 c = 0
  · rw [h2]; ring
  rw [h a (Finset.mem_range.1 ha) b (Finset.mem_range.1 hb) c (Finset.mem_range.1 hc) h0 h1 h2]

theorem blendV_congr {n : ℕ × ℕ × ℕ} {φ0 φ1 φ2 : ℕ → ℝ} {W : ℕ → ℕ → ℕ → ℝ} {D E : ℕ → ℕ → ℕ → V3}
    (h : ∀ a < n.1, ∀ b < n.2.1, ∀ c < n.2.2, φ0 a ≠ 0 → φ1 b ≠ 0 → φ2 c ≠ 0 → D a b c = E a b c) :
    blendV n φ0 φ1 φ2 W D = blendV n φ0 φ1 φ2 W E := by
  unfold blendV blend
  rw [sum3_congr (F := fun a b c => W a b c * (D a b c).x) (G := fun a b c => W a b c * (E a b c).x)
    fun a ha b hb c hc x y z => by rw [h a ha b hb c hc x y z],
    sum3_congr (F := fun a b c => W a b c * (D a b c).y) (G := fun a b c => W a b c * (E a b c).y)
    fun a ha b hb c hc x y z => by rw [h a ha b hb c hc x y z],
    sum3_congr (F := fun a b c => W a b c * (D a b c).z) (G := fun a b c => W a b c * (E a b c).z)
    fun a ha b hb c hc x y z => by rw [h a ha b hb c hc x y z]]

theorem blendV_const {n : ℕ × ℕ × ℕ} {φ0 φ1 φ2 : ℕ → ℝ} (s0 : Shares n.1 φ0) (s1 : Shares n.2.1 φ1) (s2 : Shares n.2.2 φ2)
    {W : ℕ → ℕ → ℕ → ℝ} (hW : ∀ a b c, 0 < W a b c) (t : V3) : blendV n φ0 φ1 φ2 W (fun _ _ _ => t) = t := by
  have key : ∀ r : ℝ, blend n φ0 φ1 φ2 W (fun _ _ _ => r) = r := by
    intro r
    have := blend_bounds s0 s1 s2 hW (G := fun _ _ _ => r) (lo := r) (hi := r) fun _ _ _ _ _ _ => ⟨le_refl _, le_refl _⟩
    exact le_antisymm this.2 this.1
  unfold blendV
  rw [key, key, key]

/-! ## C92: reach of a node -/

theorem infl_clamped {n p a : ℕ} (ha : a < n) (T : ℤ → ℝ) (k : ℤ) (u : ℝ) : infl (nodesOf .clamped n p) T k p n u a = boor T k p a u := by
  unfold infl
  rw [Finset.sum_eq_single a]
  · rw [if_pos]
    unfold nodesOf
    simp only
    rw [List.getElem?_map, List.getElem?_range ha]
    rfl
  · intro q hq hne
    rw [if_neg]
    unfold nodesOf
    simp only
    rw [List.getElem?_map, List.getElem?_range (Finset.mem_range.1 hq)]
    intro e
    have := Option.some.inj e
    dsimp only at this
    omega
  · intro hc; exact absurd (Finset.mem_range.2 ha) hc

/-- specification: the node `a` can act at the value `u`.  `clamped`: between its knots; `periodic`: within (p+1)/2 steps of the node,
up to a turn; other types: everywhere. -/
def Reaches (type : Coord) (n p : ℕ) (span lo u : ℝ) (a : ℕ) : Prop :=
  match type with
  | .clamped => clampT n p span lo a ≤ u ∧ u ≤ clampT n p span lo (a + p + 1)
  | .periodic => ∃ j : ℤ, |u - (lo + a * (span / ((n : ℝ) - 1))) - j * span| ≤ ((p : ℝ) + 1) / 2 * (span / ((n : ℝ) - 1))
  | _ => True

theorem boor_between {T : ℤ → ℝ} (hT : Monotone T) {k : ℤ} {u : ℝ} {p : ℕ} {i : ℤ} (h1 : T k ≤ u) (h2 : u ≤ T (k + 1))
    (h : boor T k p i u ≠ 0) : T i ≤ u ∧ u ≤ T (i + p + 1) := by
  have a1 : i ≤ k := by by_contra hc; exact h (boor_right T k u p i (by omega))
  have a2 : k ≤ i + p := by by_contra hc; exact h (boor_left T k u p i (by omega))
  exact ⟨le_trans (hT a1) h1, le_trans h2 (hT (by omega))⟩

theorem ringT_node (n p : ℕ) (hp : 1 ≤ p) (span lo : ℝ) (q : ℤ) :
    ringT n p span lo q = lo + (q - retro p) * (span / ((n : ℝ) - 1)) - ((p : ℝ) + 1) / 2 * (span / ((n : ℝ) - 1)) := by
  have := retro_half p hp
  unfold ringT
  have e : -(if p % 2 = 0 then (1 : ℝ) / 2 else 0) = ((p : ℝ) - 1) / 2 - retro p := this.symm
  rw [sub_eq_add_neg ((q : ℝ) - p), e]
  ring

theorem along_reaches {type : Coord} {n p m : ℕ} {span lo u : ℝ} {T : ℤ → ℝ} {k : ℤ} {φ : ℕ → ℝ}
    (h : Along type n p m span lo T k u φ) {a : ℕ} (ha : a < n) (hφ : φ a ≠ 0) : Reaches type n p span lo u a := by
  have kn := h.knots
  have e := h.eq
  cases type with
  | clamped =>
    obtain ⟨rfl, rfl⟩ := kn
    rw [e, infl_clamped ha] at hφ
    exact boor_between h.mono h.lower h.upper hφ
  | periodic =>
    obtain ⟨rfl, rfl⟩ := kn
    rw [e] at hφ
    unfold infl at hφ
    obtain ⟨q, hq, hne⟩ := Finset.exists_ne_zero_of_sum_ne_zero hφ
    have hq' := Finset.mem_range.1 hq
    by_cases hn : (nodesOf .periodic n p)[q]? = some (a : ℤ)
    · rw [if_pos hn] at hne
      obtain ⟨b1, b2⟩ := boor_between h.mono h.lower h.upper hne
      obtain ⟨a', -, e', hcase⟩ := nodes_periodic h.pos h.deg hq'
      rw [hn] at e'
      have haa : a = a' := by have := Option.some.inj e'; omega
      subst haa
      rw [ringT_node n p h.pos] at b1 b2
      have hn1 : (n : ℝ) - 1 ≠ 0 := by
        have : (2 : ℝ) ≤ n := by exact_mod_cast (by have := h.pos; have := h.deg; omega : 2 ≤ n)
        linarith
      have hspan : span = ((n : ℝ) - 1) * (span / ((n : ℝ) - 1)) := by field_simp
      obtain ⟨δ, hδ⟩ : ∃ δ, δ = span / ((n : ℝ) - 1) := ⟨_, rfl⟩
      rw [← hδ] at b1 b2 hspan
      obtain ⟨j, hj⟩ : ∃ j : ℤ, (q : ℝ) - retro p = a + j * ((n : ℝ) - 1) := by
        rcases hcase with ⟨c1, c2, c3⟩ | ⟨c1, c2⟩ | ⟨c1, c2⟩
        · refine ⟨0, ?_⟩
          have : (a : ℝ) = q - retro p := by rw [c1, Nat.cast_sub c2]
          rw [this]; push_cast; ring
        · refine ⟨-1, ?_⟩
          have : (a : ℝ) + retro p + 1 = n + q := by exact_mod_cast c1
          push_cast; linarith
        · refine ⟨1, ?_⟩
          have : (a : ℝ) + (retro p + n) = q + 1 := by exact_mod_cast c1
          push_cast; linarith
      refine ⟨j, ?_⟩
      rw [← hδ, abs_le]
      push_cast at b1 b2
      rw [show ((q : ℝ) + p + 1 - retro p) = ((q : ℝ) - retro p) + p + 1 by ring] at b2
      rw [hj] at b1 b2
      rw [hspan]
      constructor <;> nlinarith [b1, b2]
    · rw [if_neg hn] at hne; exact absurd rfl hne
  | symmetric => trivial
  | unclamped => trivial

/-- specification: the node `(a, b, c)` can act on the point -/
def Acts (f : Ffd) (s : Shape) (p : V3) (a b c : ℕ) : Prop :=
  Reaches (s.coord 0) (nodesAlong f).1 f.c0.deg.toNat s.span.x (localOrigin s).x (toLocal s p).x a ∧
  Reaches (s.coord 1) (nodesAlong f).2.1 f.c1.deg.toNat s.span.y (localOrigin s).y (toLocal s p).y b ∧
  Reaches (s.coord 2) (nodesAlong f).2.2 f.c2.deg.toNat s.span.z (localOrigin s).z (toLocal s p).z c

/-- C92: a change of the displacements of nodes that are out of reach of a point does not change the displacement of the point. The
reach is stated for clamped and periodic coordinates (the default ones); for other types set by the user it is everything (partial). -/
theorem C92_local_partial {f f' : Ffd} {s : Shape} {p v : V3} (hl : f'.lat = f.lat) (h0 : f'.c0 = f.c0) (h1 : f'.c1 = f.c1) (h2 : f'.c2 = f.c2)
    (hw : f'.weights = f.weights) (hg : f'.global = f.global)
    (hd : ∀ a b c, a < (nodesAlong f).1 → b < (nodesAlong f).2.1 → c < (nodesAlong f).2.2 → Acts f s p a b c →
      nodeDispl f' a b c = nodeDispl f a b c) (hm : Moved f s p v) : Moved f' s p v := by
  obtain ⟨φ0, φ1, φ2, hs, rfl⟩ := hm
  have hn : nodesAlong f' = nodesAlong f := by unfold nodesAlong; rw [hl]
  have hW : nodeWeight f' = nodeWeight f := by funext a b c; unfold nodeWeight nodeValue; rw [hl, hw]
  refine ⟨φ0, φ1, φ2, ⟨?_, ?_, ?_, ?_, ?_, ?_⟩, ?_⟩
  · rw [hn, h0]; exact hs.x
  · rw [hn, h1]; exact hs.y
  · rw [hn, h2]; exact hs.z
  · rw [hn]; exact hs.sx
  · rw [hn]; exact hs.sy
  · rw [hn]; exact hs.sz
  · rw [hn, hW, hg]
    congr 1
    apply blendV_congr
    intro a ha b hb c hc e0 e1 e2
    obtain ⟨_, _, _, l0⟩ := hs.x
    obtain ⟨_, _, _, l1⟩ := hs.y
    obtain ⟨_, _, _, l2⟩ := hs.z
    exact (hd a b c ha hb hc ⟨along_reaches l0 ha e0, along_reaches l1 hb e1, along_reaches l2 hc e2⟩).symm

/-- with eleven nodes and degree two, the first node does not reach the middle of a clamped direction -/
example : ¬ Reaches .clamped 11 2 1 0 (1 / 2) 0 := by
  unfold Reaches clampT
  norm_num

/-! ## C93: faces, corners, nodes of degree one -/

theorem boor_low {T : ℤ → ℝ} {k : ℤ} {u : ℝ} : ∀ (p : ℕ) (i : ℤ), (∀ j, i ≤ j → j ≤ k → T j = u) → k < i + p → boor T k p i u = 0
  | 0, i, _, hi => boor_right T k u 0 i (by simpa using hi)
  | p + 1, i, h, hi => by
    by_cases hk : k < i
    · exact boor_right T k u _ i hk
    · push_cast at hi
      simp only [boor]
      rw [h i (le_refl _) (by omega), boor_low p (i + 1) (fun j h1 h2 => h j (by omega) h2) (by omega)]
      ring

theorem boor_high {T : ℤ → ℝ} {k : ℤ} {u : ℝ} : ∀ (p : ℕ) (i : ℤ), (∀ j, k + 1 ≤ j → j ≤ i + p + 1 → T j = u) → i < k →
    boor T k p i u = 0
  | 0, i, _, hi => by simp only [boor]; rw [if_neg (by omega)]
  | p + 1, i, h, hi => by
    push_cast at h
    simp only [boor]
    rw [boor_high p i (fun j h1 h2 => h j h1 (by omega)) hi, mul_zero, zero_add]
    by_cases hk : i + p + 2 < k + 1
    · rw [boor_left T k u p (i + 1) (by omega), mul_zero]
    · rw [h (i + p + 2) (by omega) (by omega), sub_self, zero_div, zero_mul]

/-- at the first value of a clamped direction only the first node acts, at the last value only the last node -/
theorem ends_clamped {n p m : ℕ} {span lo u : ℝ} {T : ℤ → ℝ} {k : ℤ} {φ : ℕ → ℝ} (h : Along .clamped n p m span lo T k u φ)
    (hspan : 0 < span) :
    (u = lo → ∀ a < n, a ≠ 0 → φ a = 0) ∧ (u = lo + span → ∀ a < n, a ≠ n - 1 → φ a = 0) := by
  obtain ⟨rfl, rfl⟩ := h.knots
  have hp := h.pos
  have hn := h.deg
  have k1 := h.first
  have k2 := h.last
  have low : ∀ j : ℤ, j ≤ p → clampT m p span lo j = lo := by intro j hj; unfold clampT; rw [if_pos hj]
  have high : ∀ j : ℤ, m ≤ j → clampT m p span lo j = lo + span := by
    intro j hj; unfold clampT; rw [if_neg (by omega), if_pos (by omega)]
  constructor
  · intro hu a ha hne
    rw [h.eq, infl_clamped ha]
    have hk : k = p := by
      by_contra hc
      have h1 := h.lower
      have h2 := clampT_strict (lo := lo) hp hn hspan (i := p) (le_refl _) (by omega)
      have h3 := h.mono (show (p : ℤ) + 1 ≤ k by omega)
      rw [low p (le_refl _)] at h2
      linarith
    exact boor_low p a (fun j _ h2 => by rw [low j (by omega), hu]) (by omega)
  · intro hu a ha hne
    rw [h.eq, infl_clamped ha]
    have hk : k = m - 1 := by
      rcases h.strict with h1 | h1
      · exfalso
        have h3 := h.mono (show k + 1 ≤ (m : ℤ) by omega)
        rw [high m (le_refl _)] at h3
        linarith
      · exact h1
    exact boor_high p a (fun j h1 _ => by rw [high j (by omega), hu]) (by omega)

/-- at the place of a node of a clamped direction of degree one only this node acts -/
theorem node_linear {n m : ℕ} {span lo u : ℝ} {T : ℤ → ℝ} {k : ℤ} {φ : ℕ → ℝ} (h : Along .clamped n 1 m span lo T k u φ)
    (hspan : 0 < span) {a : ℕ} (ha : a < n) (hu : u = lo + a * (span / ((n : ℝ) - 1))) : ∀ a' < n, a' ≠ a → φ a' = 0 := by
  intro a' ha' hne
  have hn := h.deg
  have hn1 : (0 : ℝ) < (n : ℝ) - 1 := by
    have : (2 : ℝ) ≤ n := by exact_mod_cast (by omega : 2 ≤ n)
    linarith
  have hd : 0 < span / ((n : ℝ) - 1) := by positivity
  have hs : span = ((n : ℝ) - 1) * (span / ((n : ℝ) - 1)) := by field_simp
  obtain ⟨δ, hδ⟩ : ∃ δ, δ = span / ((n : ℝ) - 1) := ⟨_, rfl⟩
  have kn : ∀ i : ℤ, 1 ≤ i → i ≤ n → clampT n 1 span lo i = lo + (i - 1) * δ := by
    intro i h1 h2
    unfold clampT
    by_cases c1 : i ≤ (1 : ℕ)
    · rw [if_pos c1, show i = 1 by push_cast at c1; omega]; push_cast; ring
    · rw [if_neg c1]
      by_cases c2 : i ≥ n
      · rw [if_pos c2, show i = n by omega, hs, ← hδ]; push_cast; ring
      · rw [if_neg c2, ← hδ]; push_cast; ring
  obtain ⟨rfl, rfl⟩ := h.knots
  by_contra hc
  rw [h.eq, infl_clamped ha'] at hc
  have k1 := h.first
  have k2 := h.last
  have l := h.lower
  have u' := h.upper
  rw [kn k (by push_cast at k1; omega) (by omega), hu, ← hδ] at l
  rw [kn (k + 1) (by push_cast at k1; omega) (by omega), hu, ← hδ] at u'
  rw [← hδ] at hd
  push_cast at u' k1
  have b1 : k - 1 ≤ (a : ℤ) := by
    by_contra hcc
    have : (a : ℝ) + 1 ≤ (k : ℝ) - 1 := by exact_mod_cast (by omega : (a : ℤ) + 1 ≤ k - 1)
    nlinarith
  have b2 : (a : ℤ) ≤ k := by
    by_contra hcc
    have : (k : ℝ) + 1 ≤ a := by exact_mod_cast (by omega : k + 1 ≤ (a : ℤ))
    nlinarith
  have c1 : (a' : ℤ) ≤ k := by by_contra hcc; exact hc (boor_right _ _ _ _ _ (by omega))
  have c2 : k ≤ (a' : ℤ) + 1 := by by_contra hcc; exact hc (boor_left _ _ _ _ _ (by push_cast; omega))
  rcases (by omega : k = a + 1 ∨ k = a) with e | e
  · -- the value is the lower knot of the interval
    apply hc
    apply boor_low
    · intro j h1 h2
      rw [show j = k by omega, kn k (by omega) (by omega), hu, ← hδ, e]; push_cast; ring
    · push_cast; omega
  · apply hc
    apply boor_high
    · intro j h1 h2
      push_cast at h2
      rw [show j = k + 1 by omega, kn (k + 1) (by omega) (by omega), hu, ← hδ, e]; push_cast; ring
    · omega

/-- a value where only one node of a direction acts -/
def Sole (n : ℕ) (φ : ℕ → ℝ) (a : ℕ) : Prop := ∀ a' < n, a' ≠ a → φ a' = 0

/-- if only one node acts in each direction, the point gets its displacement -/
theorem moved_sole {f : Ffd} {s : Shape} (hpos : ∀ x ∈ f.weights, 0 < x) {p v : V3} (hm : Moved f s p v) {a b c : ℕ}
    (h : ∀ φ0 φ1 φ2, Shared f s p φ0 φ1 φ2 → Sole (nodesAlong f).1 φ0 a ∧ Sole (nodesAlong f).2.1 φ1 b ∧ Sole (nodesAlong f).2.2 φ2 c) :
    v = carried f.global s p (nodeDispl f a b c) := by
  obtain ⟨φ0, φ1, φ2, hs, rfl⟩ := hm
  obtain ⟨h0, h1, h2⟩ := h φ0 φ1 φ2 hs
  congr 1
  rw [← blendV_const hs.sx hs.sy hs.sz (weight_pos hpos) (nodeDispl f a b c)]
  apply blendV_congr
  intro a' ha b' hb c' hc e0 e1 e2
  have q0 : a' = a := by by_contra hne; exact e0 (h0 a' ha hne)
  have q1 : b' = b := by by_contra hne; exact e1 (h1 b' hb hne)
  have q2 : c' = c := by by_contra hne; exact e2 (h2 c' hc hne)
  rw [q0, q1, q2]

/-- specification: the local coordinate is at the node `a` of a direction where only that node acts: the first or the last of a clamped
direction, or any node of a clamped direction of degree one -/
def AtNode (type : Coord) (n p : ℕ) (span lo u : ℝ) (a : ℕ) : Prop :=
  type = .clamped ∧ 0 < span ∧ a < n ∧ u = lo + a * (span / ((n : ℝ) - 1)) ∧ (a = 0 ∨ a = n - 1 ∨ p = 1)

theorem sole_of {type : Coord} {n p m : ℕ} {span lo u : ℝ} {T : ℤ → ℝ} {k : ℤ} {φ : ℕ → ℝ}
    (h : Along type n p m span lo T k u φ) {a : ℕ} (ha : AtNode type n p span lo u a) : Sole n φ a := by
  obtain ⟨rfl, hs, han, hu, hc⟩ := ha
  have hn := h.deg
  have hp := h.pos
  have hn1 : (n : ℝ) - 1 ≠ 0 := by
    have : (2 : ℝ) ≤ n := by exact_mod_cast (by omega : 2 ≤ n)
    linarith
  rcases hc with rfl | rfl | rfl
  · exact fun a' h1 h2 => (ends_clamped h hs).1 (by rw [hu]; push_cast; ring) a' h1 h2
  · refine fun a' h1 h2 => (ends_clamped h hs).2 ?_ a' h1 h2
    rw [hu, Nat.cast_sub (by omega)]
    push_cast
    field_simp
  · exact fun a' h1 h2 => node_linear h hs han hu a' h1 h2

/-- C93: a vertex at a corner of a lattice with clamped coordinates, or at any of its nodes in directions of degree one, gets exactly
the displacement of that node, whatever the weights and the other displacements. -/
theorem C93_node {f : Ffd} {s : Shape} (hpos : ∀ x ∈ f.weights, 0 < x) {p v : V3} (hm : Moved f s p v) {a b c : ℕ}
    (ha : AtNode (s.coord 0) (nodesAlong f).1 f.c0.deg.toNat s.span.x (localOrigin s).x (toLocal s p).x a)
    (hb : AtNode (s.coord 1) (nodesAlong f).2.1 f.c1.deg.toNat s.span.y (localOrigin s).y (toLocal s p).y b)
    (hc : AtNode (s.coord 2) (nodesAlong f).2.2 f.c2.deg.toNat s.span.z (localOrigin s).z (toLocal s p).z c) :
    v = carried f.global s p (nodeDispl f a b c) := by
  refine moved_sole hpos hm fun φ0 φ1 φ2 hs => ?_
  obtain ⟨_, _, _, l0⟩ := hs.x
  obtain ⟨_, _, _, l1⟩ := hs.y
  obtain ⟨_, _, _, l2⟩ := hs.z
  exact ⟨sole_of l0 ha, sole_of l1 hb, sole_of l2 hc⟩

/-- the corner (1/2, 1/2, -1/2) of the default cuboid -/
example : ∃ (f : Ffd) (v : V3), Ready f (basic .cube) ∧ (∀ x ∈ f.weights, 0 < x) ∧ Moved f (basic .cube) ⟨1 / 2, 1 / 2, -(1 / 2)⟩ v ∧
    AtNode .clamped (nodesAlong f).1 f.c0.deg.toNat 1 (-0.5) (1 / 2) 2 ∧
    AtNode .clamped (nodesAlong f).2.1 f.c1.deg.toNat 1 (-0.5) (1 / 2) 1 ∧
    AtNode .clamped (nodesAlong f).2.2 f.c2.deg.toNat 1 (-0.5) (-(1 / 2)) 0 := by
  obtain ⟨f, h1, h2, h3, h4, h5, h6, h7, h8, hx, hy, hz, -⟩ := demo_ready [⟨1, 0, 0⟩] true
  have hpos : ∀ x ∈ f.weights, 0 < x := fun x hx => by rw [h6 x hx]; exact one_pos
  have hi : Inside (basic .cube) ⟨1 / 2, 1 / 2, -(1 / 2)⟩ := by
    simp [Inside, toLocal, unduffy, curved, basic, localOrigin, M3.app, M3.one, dot, V3.div]
    norm_num
  obtain ⟨_, _, v, -, -, -, hm⟩ := vertex_value h1 hpos (by rw [h5]; intro hc; cases hc) hi
  refine ⟨f, v, h1, hpos, hm, ⟨rfl, one_pos, ?_, ?_, ?_⟩, ⟨rfl, one_pos, ?_, ?_, ?_⟩, ⟨rfl, one_pos, ?_, ?_, ?_⟩⟩ <;>
    simp [nodesAlong, hx, hy, hz] <;> norm_num

/-- C93: on a face or an edge of a lattice with those coordinates clamped, only the nodes of the face or edge count: a change of the
displacements of the other nodes changes nothing. -/
theorem C93_face {f f' : Ffd} {s : Shape} {p v : V3} (hl : f'.lat = f.lat) (h0 : f'.c0 = f.c0) (h1 : f'.c1 = f.c1) (h2 : f'.c2 = f.c2)
    (hw : f'.weights = f.weights) (hg : f'.global = f.global)
    (hd : ∀ a b c,
      (∀ a0, AtNode (s.coord 0) (nodesAlong f).1 f.c0.deg.toNat s.span.x (localOrigin s).x (toLocal s p).x a0 → a = a0) →
      (∀ b0, AtNode (s.coord 1) (nodesAlong f).2.1 f.c1.deg.toNat s.span.y (localOrigin s).y (toLocal s p).y b0 → b = b0) →
      (∀ c0, AtNode (s.coord 2) (nodesAlong f).2.2 f.c2.deg.toNat s.span.z (localOrigin s).z (toLocal s p).z c0 → c = c0) →
      nodeDispl f' a b c = nodeDispl f a b c) (hm : Moved f s p v) : Moved f' s p v := by
  obtain ⟨φ0, φ1, φ2, hs, rfl⟩ := hm
  have hn : nodesAlong f' = nodesAlong f := by unfold nodesAlong; rw [hl]
  have hW : nodeWeight f' = nodeWeight f := by funext a b c; unfold nodeWeight nodeValue; rw [hl, hw]
  refine ⟨φ0, φ1, φ2, ⟨?_, ?_, ?_, ?_, ?_, ?_⟩, ?_⟩
  · rw [hn, h0]; exact hs.x
  · rw [hn, h1]; exact hs.y
  · rw [hn, h2]; exact hs.z
  · rw [hn]; exact hs.sx
  · rw [hn]; exact hs.sy
  · rw [hn]; exact hs.sz
  · rw [hn, hW, hg]
    congr 1
    apply blendV_congr
    intro a' ha' b hb c hc e0 e1 e2
    obtain ⟨_, _, _, l0⟩ := hs.x
    obtain ⟨_, _, _, l1⟩ := hs.y
    obtain ⟨_, _, _, l2⟩ := hs.z
    refine (hd a' b c (fun a0 h => ?_) (fun b0 h => ?_) (fun c0 h => ?_)).symm
    · by_contra hne; exact e0 (sole_of l0 h a' ha' hne)
    · by_contra hne; exact e1 (sole_of l1 h b hb hne)
    · by_contra hne; exact e2 (sole_of l2 h c hc hne)

/-- a point of the face x = 1/2 of the default cuboid is at the last node of that direction, and at no node of the others -/
example : AtNode .clamped 3 2 1 (-0.5) (1 / 2) 2 ∧ ∀ b, ¬ AtNode .clamped 2 1 1 (-0.5) (1 / 3) b := by
  refine ⟨⟨rfl, one_pos, by norm_num, by norm_num, by norm_num⟩, ?_⟩
  rintro b ⟨-, -, h1, h2, -⟩
  rcases (by omega : b = 0 ∨ b = 1) with rfl | rfl <;> norm_num at h2

end

end Verif.Ffd
