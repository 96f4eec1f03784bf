import Verif.Shape.LocalProps
/-
C64: dimensions of a shape within the limits of its type; with C63, the frame is valid all along.
-/
namespace Verif.Shape
open Real

/-- the public operations that modify a shape (the frame left with NaN excepted, `C63_parallel_fails`) -/
inductive Step : Shape → Shape → Prop
  | origin (s o) : Step s (setOrigin s o)
  | span (s v) : Step s (setSpan s v)
  | inf (s v dir) : Step s (setInf s v dir)
  | coord (s t dir) : Step s (setCoord s t dir)
  | ref3 (s a b c) : Step s (setRef3 s a b c)
  | ref1 (s l a s') : setRef1 s l a = some s' → Step s s'

/-- a shape and what becomes of it -/
inductive Reach : Shape → Prop
  | new (k) : Reach (basic k)
  | make (k o v) : Reach (construct k o v)
  | step (s s') : Reach s → Step s s' → Reach s'

/-- the dimensions the user sees are within the limits -/
structure Bounded (s : Shape) : Prop where
  x : 0 ≤ (getSpan s).x
  y : 0 ≤ (getSpan s).y
  z : 0 ≤ (getSpan s).z
  infX : 0 ≤ s.inf.x
  infY : 0 ≤ s.inf.y ∧ s.inf.y ≤ 2 * π
  infZ : 0 ≤ s.inf.z
  flat : (s.kind = .cube ∨ s.kind = .wedge) → s.inf = ⟨0, 0, 0⟩
  round : (s.kind = .cylinder ∨ s.kind = .sphere) → (getSpan s).y ≤ 2 * π
  polar : s.kind = .sphere → s.inf.z + (getSpan s).z ≤ π
  height : s.kind = .cylinder → s.inf.z = 0

/-- how the dimensions are split between scaling and span -/
structure Split (s : Shape) : Prop where
  spX : s.span.x = 1
  spY : (s.kind = .cube ∨ s.kind = .wedge) → s.span.y = 1
  spZ : s.kind ≠ .sphere → s.span.z = 1
  scY : (s.kind = .cylinder ∨ s.kind = .sphere) → s.scaling.y = 1
  scZ : s.kind = .sphere → s.scaling.z = 1

structure Limits (s : Shape) : Prop where
  bounded : Bounded s
  split : Split s

theorem checkSpan_fields (s : Shape) (v : V3) : (checkSpan s v).2.kind = s.kind ∧ (checkSpan s v).2.inf = s.inf ∧
    (checkSpan s v).2.sdr = s.sdr ∧ (checkSpan s v).2.sdrInv = s.sdrInv ∧ (checkSpan s v).2.origin = s.origin := by
  unfold checkSpan
  split
  · simp
  · simp
  · simp only
    split <;> simp [setCoord]
  · simp only
    split <;> simp [setCoord]

theorem setSpan_fields (s : Shape) (v : V3) : (setSpan s v).kind = s.kind ∧ (setSpan s v).inf = s.inf ∧
    (setSpan s v).sdr = s.sdr ∧ (setSpan s v).sdrInv = s.sdrInv ∧ (setSpan s v).origin = s.origin := by
  have h := checkSpan_fields s v
  unfold setSpan
  unfold setScaling
  split <;> exact h

/-- what the user sees after setting the span -/
theorem getSpan_setSpan (s : Shape) (v : V3) : getSpan (setSpan s v) = (checkSpan s v).1 := by
  unfold setSpan setScaling getSpan
  split <;> simp

theorem checkSpan_val (s : Shape) (v : V3) : (checkSpan s v).1 =
    ⟨|v.x|, if s.kind = .cylinder ∨ s.kind = .sphere then min |v.y| (2 * π) else |v.y|,
      if s.kind = .sphere then min |v.z| (π - s.inf.z) else |v.z|⟩ := by
  rcases hk : s.kind <;> simp [checkSpan, hk]
  congr 1; ring

theorem split_setSpan (s : Shape) (v : V3) : Split (setSpan s v) := by
  have hk := (checkSpan_fields s v).1
  have h : ∀ t w, Split (setScaling t w) := by
    intro t w
    unfold setScaling
    rcases ht : t.kind <;> constructor <;> simp [ht]
  exact h _ _

theorem limits_setSpan {s : Shape} (v : V3) (hx : 0 ≤ s.inf.x) (hy : 0 ≤ s.inf.y ∧ s.inf.y ≤ 2 * π)
    (hz : 0 ≤ s.inf.z) (hf : (s.kind = .cube ∨ s.kind = .wedge) → s.inf = ⟨0, 0, 0⟩)
    (hp : s.kind = .sphere → s.inf.z ≤ π) (hh : s.kind = .cylinder → s.inf.z = 0) : Limits (setSpan s v) := by
  obtain ⟨e1, e2, -⟩ := setSpan_fields s v
  have hv := getSpan_setSpan s v
  rw [checkSpan_val] at hv
  have pp := pi_pos
  refine ⟨⟨?_, ?_, ?_, ?_, ?_, ?_, ?_, ?_, ?_, ?_⟩, split_setSpan s v⟩
  · rw [hv]; exact abs_nonneg _
  · rw [hv]; simp only; split
    · exact le_min (abs_nonneg _) (by linarith)
    · exact abs_nonneg _
  · rw [hv]; simp only; split
    · rename_i h; exact le_min (abs_nonneg _) (by linarith [hp h])
    · exact abs_nonneg _
  · rw [e2]; exact hx
  · rw [e2]; exact hy
  · rw [e2]; exact hz
  · rw [e1, e2]; exact hf
  · rw [e1, hv]; intro h; simp only; rw [if_pos h]; exact min_le_right _ _
  · rw [e1, e2, hv]; intro h; simp only; rw [if_pos h]
    have := min_le_right |v.z| (π - s.inf.z)
    linarith
  · rw [e1, e2]; exact hh

theorem limits_basic (k : Kind) : Limits (basic k) := by
  have pp := pi_pos
  cases k <;> refine ⟨⟨?_, ?_, ?_, ?_, ?_, ?_, ?_, ?_, ?_, ?_⟩, ⟨?_, ?_, ?_, ?_, ?_⟩⟩ <;>
    simp [basic, getSpan, pp.le]

/-- a step that leaves type, limits, span and scaling alone -/
theorem limits_same {s s' : Shape} (h : Limits s) (h1 : s'.kind = s.kind) (h2 : s'.inf = s.inf) (h3 : s'.span = s.span)
    (h4 : s'.scaling = s.scaling) : Limits s' := by
  obtain ⟨k, o, sp, i, m, mi, sc, c⟩ := s
  obtain ⟨k', o', sp', i', m', mi', sc', c'⟩ := s'
  simp only at h1 h2 h3 h4
  subst h1 h2 h3 h4
  exact ⟨⟨h.1.1, h.1.2, h.1.3, h.1.4, h.1.5, h.1.6, h.1.7, h.1.8, h.1.9, h.1.10⟩, ⟨h.2.1, h.2.2, h.2.3, h.2.4, h.2.5⟩⟩

theorem setRef3_fields (s : Shape) (a b c : V3) : (setRef3 s a b c).kind = s.kind ∧ (setRef3 s a b c).inf = s.inf ∧
    (setRef3 s a b c).span = s.span ∧ (setRef3 s a b c).scaling = s.scaling := by
  unfold setRef3
  split
  · simp
  · simp only; split <;> simp

theorem setRef1_fields {s s' : Shape} {l : Int} {a : V3} (h : setRef1 s l a = some s') : s'.kind = s.kind ∧ s'.inf = s.inf ∧
    s'.span = s.span ∧ s'.scaling = s.scaling := by
  unfold setRef1 at h
  split at h
  · cases h; simp
  · split at h
    · cases h; simp
    · simp only at h
      split at h
      · cases h
      · split at h
        · cases h
        · cases h; simp

theorem limits_setInf {s : Shape} (h : Limits s) (v : ℝ) (dir : Int) : Limits (setInf s v dir) := by
  have pp := pi_pos
  unfold setInf
  split
  · exact h
  · split
    · exact h
    · rename_i o hc
      have hd : dir.toNat = 0 ∨ dir.toNat = 1 ∨ dir.toNat = 2 := by omega
      generalize dir.toNat = d at hc hd
      rcases hk : s.kind <;> simp only [checkInf, hk] at hc
      · cases hc
      · rcases hd with rfl | rfl | rfl
        · simp at hc; subst hc
          apply limits_setSpan <;> simp [putInf, hk]
          · exact h.1.infY
          · exact h.1.infZ
          · exact h.1.height hk
        · simp at hc; subst hc
          apply limits_setSpan <;> simp [putInf, hk, pp.le]
          · exact h.1.infX
          · exact h.1.infZ
          · exact h.1.height hk
        · simp at hc
      · have hiz : s.inf.z ≤ π := by have := h.1.polar hk; have := h.1.z; linarith
        rcases hd with rfl | rfl | rfl
        · simp at hc; subst hc
          apply limits_setSpan <;> simp [putInf, hk]
          · exact h.1.infY
          · exact h.1.infZ
          · exact hiz
        · simp at hc; subst hc
          apply limits_setSpan <;> simp [putInf, hk, pp.le]
          · exact h.1.infX
          · exact h.1.infZ
          · exact hiz
        · simp at hc; subst hc
          apply limits_setSpan <;> simp [putInf, hk]
          · exact h.1.infX
          · exact h.1.infY
          · apply mul_nonneg _ (by linarith); norm_num
          · left; nlinarith
      · cases hc

/-- C64: whatever the sequence of operations, dimensions are never negative, angles never exceed a turn, the polar angle
never passes the pole and lower limits are within their range. -/
theorem C64_bounded {s : Shape} (h : Reach s) : Limits s := by
  induction h with
  | new k => exact limits_basic k
  | make k o v =>
    unfold construct
    have hb := limits_basic k
    have pp := pi_pos
    apply limits_setSpan <;> simp [setOrigin, basic, pp.le]
  | step s s' _ hst ih =>
    cases hst with
    | origin o => exact limits_same ih rfl rfl rfl rfl
    | span v =>
      apply limits_setSpan v ih.1.infX ih.1.infY ih.1.infZ ih.1.flat _ ih.1.height
      intro hk
      have := ih.1.polar hk; have := ih.1.z; linarith
    | inf v dir => exact limits_setInf ih v dir
    | coord t dir => exact limits_same ih rfl rfl rfl rfl
    | ref3 a b c =>
      obtain ⟨h1, h2, h3, h4⟩ := setRef3_fields s a b c
      exact limits_same ih h1 h2 h3 h4
    | ref1 l a _ hr =>
      obtain ⟨h1, h2, h3, h4⟩ := setRef1_fields hr
      exact limits_same ih h1 h2 h3 h4

/-- a sphere with a lower polar limit, then enlarged -/
example : Reach (setSpan (setInf (basic .sphere) 1 2) ⟨2, 7, 7⟩) :=
  .step _ _ (.step _ _ (.new .sphere) (.inf _ 1 2)) (.span _ _)

theorem frame_setInf {s : Shape} (v : ℝ) (dir : Int) : (setInf s v dir).sdr = s.sdr ∧ (setInf s v dir).sdrInv = s.sdrInv := by
  unfold setInf
  split
  · simp
  · split
    · simp
    · rename_i o _
      have := setSpan_fields (putInf s o dir.toNat) (getSpan s)
      exact ⟨this.2.2.1, this.2.2.2.1⟩

theorem frame_same {s s' : Shape} (h : Frame s) (h1 : s'.sdr = s.sdr) (h2 : s'.sdrInv = s.sdrInv) : Frame s' :=
  ⟨by rw [h1]; exact h.det, by rw [h1, h2]; exact h.inv, by rw [h1]; exact h.unit⟩

/-- C63: whatever the sequence of operations, the axes have length one, are independent, and the stored inverse is their
inverse: coordinates can always be converted (`C62`). -/
theorem C63_always_valid {s : Shape} (h : Reach s) : Frame s := by
  induction h with
  | new k => exact basic_frame k
  | make k o v =>
    have := setSpan_fields (setOrigin (basic k) o) v
    exact frame_same (basic_frame k) this.2.2.1 this.2.2.2.1
  | step s s' _ hst ih =>
    cases hst with
    | origin o => exact frame_same ih rfl rfl
    | span v => have := setSpan_fields s v; exact frame_same ih this.2.2.1 this.2.2.2.1
    | inf v dir => have := frame_setInf (s := s) v dir; exact frame_same ih this.1 this.2
    | coord t dir => exact frame_same ih rfl rfl
    | ref3 a b c =>
      by_cases hz : a = ⟨0, 0, 0⟩ ∨ b = ⟨0, 0, 0⟩ ∨ c = ⟨0, 0, 0⟩ ∨
        |dot a b| / (norm2 a * norm2 b) + |dot b c| / (norm2 b * norm2 c) + |dot a c| / (norm2 a * norm2 c) > 1 / 1000
      · rw [C63_refused s hz]; exact ih
      · simp only [not_or, not_lt] at hz
        exact (C63_three_axes s hz.1 hz.2.1 hz.2.2.1 hz.2.2.2).2.1
    | ref1 l a _ hr =>
      by_cases hl : l < 0 ∨ 2 < l ∨ a = ⟨0, 0, 0⟩
      · rw [C63_one_axis_refused s l a hl] at hr; cases hr; exact ih
      · simp only [not_or, not_lt] at hl
        obtain ⟨n, rfl⟩ : ∃ n : Nat, l = n := ⟨l.toNat, by omega⟩
        by_cases hc : cross a (axisOf ((n + 1) % 3)) = ⟨0, 0, 0⟩
        · rw [C63_parallel_fails s (by omega) hl.2.2 hc] at hr; cases hr
        · obtain ⟨s'', h1, -, -, h4, -⟩ := C63_one_axis_partial s (l := n) (by omega) hc
          rw [hr] at h1; cases h1; exact h4

example : Reach (setRef3 (basic .cube) ⟨0, 1, 0⟩ ⟨-1, 0, 0⟩ ⟨0, 0, 1⟩) := .step _ _ (.new .cube) (.ref3 _ _ _ _)

/-- the spans allowed by the type of shape and the lower limits -/
def Allowed (s : Shape) (v : V3) : Prop :=
  0 ≤ v.x ∧ 0 ≤ v.y ∧ 0 ≤ v.z ∧ ((s.kind = .cylinder ∨ s.kind = .sphere) → v.y ≤ 2 * π) ∧
    (s.kind = .sphere → s.inf.z + v.z ≤ π)

/-- C64: spans within the limits are stored as given, and nothing else the user sees changes. -/
theorem C64_stored {s : Shape} {v : V3} (h : Allowed s v) : getSpan (setSpan s v) = v ∧
    (setSpan s v).inf = s.inf ∧ (setSpan s v).origin = s.origin ∧ (setSpan s v).sdr = s.sdr ∧ (setSpan s v).kind = s.kind := by
  obtain ⟨e1, e2, e3, e4, e5⟩ := setSpan_fields s v
  refine ⟨?_, e2, e5, e3, e1⟩
  obtain ⟨hx, hy, hz, hr, hp⟩ := h
  rw [getSpan_setSpan, checkSpan_val, abs_of_nonneg hx, abs_of_nonneg hy, abs_of_nonneg hz]
  ext
  · rfl
  · simp only
    split
    · rename_i h; exact min_eq_left (hr h)
    · rfl
  · simp only
    split
    · rename_i h; exact min_eq_left (by linarith [hp h])
    · rfl

example : Allowed (basic .cylinder) ⟨2, 3, 4⟩ := by
  have := two_le_pi
  refine ⟨by norm_num, by norm_num, by norm_num, fun _ => ?_, fun h => ?_⟩
  · simp only; linarith
  · simp [basic] at h

/-- C64: a lower limit is accepted for the radius and the angles only; it is clamped, and the other lower limits stay. -/
theorem C64_lower_limit {s : Shape} (v : ℝ) :
    ((setInf s v 0).inf = if s.kind = .cylinder ∨ s.kind = .sphere then { s.inf with x := max 0 v } else s.inf) ∧
    ((setInf s v 1).inf = if s.kind = .cylinder ∨ s.kind = .sphere then { s.inf with y := min (2 * π) (max 0 v) } else s.inf) ∧
    ((setInf s v 2).inf = if s.kind = .sphere then { s.inf with z := min ((0.5 - 1 / 10 ^ 12) * (2 * π)) (max 0 v) } else s.inf) := by
  rcases hk : s.kind <;> simp [setInf, checkInf, hk, (setSpan_fields _ _).2.1, putInf]

/-- C64: changing a lower limit keeps the spans, except that the polar span of a sphere is cut at the pole. -/
theorem C64_lower_keeps_span {s : Shape} (h : Reach s) (v : ℝ) (dir : Int) :
    getSpan (setInf s v dir) = (if s.kind = .sphere then
      { getSpan s with z := min (getSpan s).z (π - (setInf s v dir).inf.z) } else getSpan s) := by
  have hl := C64_bounded h
  have hb := hl.1
  have key : getSpan s = (if s.kind = .sphere then
      { getSpan s with z := min (getSpan s).z (π - s.inf.z) } else getSpan s) := by
    split
    · rename_i hk
      ext <;> simp only
      rw [min_eq_left]; linarith [hb.polar hk]
    · rfl
  unfold setInf
  split
  · exact key
  · split
    · exact key
    · rename_i o hc
      rw [getSpan_setSpan, checkSpan_val, (setSpan_fields _ _).2.1, abs_of_nonneg hb.x, abs_of_nonneg hb.y,
        abs_of_nonneg hb.z]
      have hk : (putInf s o dir.toNat).kind = s.kind := rfl
      rw [hk]
      have hy : (if s.kind = .cylinder ∨ s.kind = .sphere then min (getSpan s).y (2 * π) else (getSpan s).y) = (getSpan s).y := by
        split
        · rename_i h; exact min_eq_left (hb.round h)
        · rfl
      rw [hy]
      split <;> rfl

/-- a cylinder of radius 2 given the inner radius 1 -/
example : Reach (construct .cylinder ⟨0, 0, 0⟩ ⟨2, 1, 3⟩) := .make _ _ _

theorem inLimits_of {s : Shape} (h : Limits s) : InLimits s := ⟨h.1.infY, h.2.scY, h.2.scZ⟩

end Verif.Shape
