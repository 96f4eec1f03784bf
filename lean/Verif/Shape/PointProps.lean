import Verif.Shape.LimitProps
/-
C65, first part: the test of a point against a shape.  The solid is described by its parametrisation.
-/
namespace Verif.Shape
open Real

/-- the solid of a shape: the image of the unit box of parameters -/
def Solid (s : Shape) (p : V3) : Prop :=
  ∃ t : V3, (0 ≤ t.x ∧ t.x ≤ 1) ∧ (0 ≤ t.y ∧ t.y ≤ 1) ∧ (0 ≤ t.z ∧ t.z ≤ 1) ∧ p = toWorld s (basicToLocal s t)

/-- C64: the origin is the one given to the constructor or to the last `setOrigin`; the other operations do not move it. -/
theorem C64_origin (s : Shape) : (∀ k o v, (construct k o v).origin = o) ∧ (∀ o, (setOrigin s o).origin = o) ∧
    (∀ v, (setSpan s v).origin = s.origin) ∧ (∀ v dir, (setInf s v dir).origin = s.origin) ∧ (∀ a b c, (setRef3 s a b c).origin = s.origin) ∧
    (∀ l a s', setRef1 s l a = some s' → s'.origin = s.origin) := by
  refine ⟨fun k o v => (setSpan_fields _ v).2.2.2.2, fun o => rfl, fun v => (setSpan_fields s v).2.2.2.2, fun v dir => ?_, fun a b c => ?_, ?_⟩
  · unfold setInf
    split
    · rfl
    · split
      · rfl
      · rw [(setSpan_fields _ _).2.2.2.2]; rfl
  · unfold setRef3
    dsimp only
    split
    · rfl
    · split <;> rfl
  · intro l a s' h
    unfold setRef1 at h
    dsimp only at h
    split at h
    · cases h; rfl
    · split at h
      · cases h; rfl
      · split at h
        · cases h
        · first | (cases h; rfl) | (split at h <;> first | (cases h; rfl) | cases h)

/-- C64: moving the origin translates the solid. -/
theorem C64_origin_moves (s : Shape) (o p : V3) : Solid (setOrigin s o) (p + o) ↔ Solid s (p + s.origin) := by
  have e : ∀ t, toWorld (setOrigin s o) (basicToLocal (setOrigin s o) t) = s.sdrInv.app (straight s ((duffy s (basicToLocal s t)).mul s.scaling)) + o :=
    fun t => rfl
  have c : ∀ q r : V3, p + r = q + r ↔ p = q := by
    intro q r
    constructor
    · intro h
      have hx := congrArg V3.x h
      have hy := congrArg V3.y h
      have hz := congrArg V3.z h
      simp only [add_x, add_y, add_z, add_left_inj] at hx hy hz
      ext <;> assumption
    · rintro rfl; rfl
  unfold Solid
  simp only [e, c]
  simp only [toWorld, c]

/-- the same with parameters within the tolerance of the unit box -/
def Near (s : Shape) (p : V3) : Prop :=
  ∃ t : V3, (-(1 / 10 ^ 12) < t.x ∧ t.x < 1 + 1 / 10 ^ 12) ∧ (-(1 / 10 ^ 12) < t.y ∧ t.y < 1 + 1 / 10 ^ 12) ∧
    (-(1 / 10 ^ 12) < t.z ∧ t.z < 1 + 1 / 10 ^ 12) ∧ p = toWorld s (basicToLocal s t)

/-- a shape in a valid frame, within its limits, with no dimension zero -/
structure Proper (s : Shape) : Prop where
  frame : Frame s
  limits : Limits s
  x : 0 < (getSpan s).x
  y : 0 < (getSpan s).y
  z : 0 < (getSpan s).z

/-- every shape with positive dimensions that the public operations can produce -/
theorem proper_of_reach {s : Shape} (h : Reach s) (hx : 0 < (getSpan s).x) (hy : 0 < (getSpan s).y) (hz : 0 < (getSpan s).z) :
    Proper s := ⟨C63_always_valid h, C64_bounded h, hx, hy, hz⟩

theorem Proper.scaled {s : Shape} (h : Proper s) : Scaled s := by
  have hx := h.x; have hy := h.y; have hz := h.z
  simp only [getSpan] at hx hy hz
  exact ⟨fun e => by rw [e] at hx; simp at hx, fun e => by rw [e] at hy; simp at hy, fun e => by rw [e] at hz; simp at hz⟩

theorem Proper.spanY {s : Shape} (h : Proper s) : s.span.y ≠ 0 := by
  have hy := h.y; simp only [getSpan] at hy
  exact fun e => by rw [e] at hy; simp at hy

theorem Proper.spanZ {s : Shape} (h : Proper s) : s.span.z ≠ 0 := by
  have hz := h.z; simp only [getSpan] at hz
  exact fun e => by rw [e] at hz; simp at hz

theorem Proper.scX {s : Shape} (h : Proper s) : 0 < s.scaling.x := by
  have hx := h.x; simp only [getSpan] at hx; rwa [h.limits.2.spX, mul_one] at hx

theorem Proper.scZ {s : Shape} (h : Proper s) : 0 < s.scaling.z := by
  by_cases hk : s.kind = .sphere
  · rw [h.limits.2.scZ hk]; exact one_pos
  · have hz := h.z; simp only [getSpan] at hz; rwa [h.limits.2.spZ hk, mul_one] at hz

theorem Proper.scY {s : Shape} (h : Proper s) : 0 < s.scaling.y := by
  rcases hk : s.kind
  · have hz := h.y; simp only [getSpan] at hz; rwa [h.limits.2.spY (.inl hk), mul_one] at hz
  · rw [h.limits.2.scY (.inl hk)]; exact one_pos
  · rw [h.limits.2.scY (.inr hk)]; exact one_pos
  · have hz := h.y; simp only [getSpan] at hz; rwa [h.limits.2.spY (.inr hk), mul_one] at hz

theorem Proper.spY {s : Shape} (h : Proper s) : 0 < s.span.y := by
  have hz := h.y; simp only [getSpan] at hz
  exact (pos_iff_pos_of_mul_pos hz).1 h.scY

theorem Proper.spZ {s : Shape} (h : Proper s) : 0 < s.span.z := by
  have hz := h.z; simp only [getSpan] at hz
  exact (pos_iff_pos_of_mul_pos hz).1 h.scZ

/-- C65: a point reported as included is in the solid, up to the tolerance. -/
theorem C65_point_sound {s : Shape} (h : Proper s) {p : V3} (hp : pointIncluded s p) : Near s p := by
  have hb := (C62_basic s h.spanY h.spanZ (toLocal s p)).2
  unfold pointIncluded at hp
  simp only [neg_one_mul, gt_iff_lt] at hp
  obtain ⟨h1, h2, h3⟩ := hp
  refine ⟨localToBasic s (toLocal s p), h1, h2, h3, ?_⟩
  rw [hb]
  symm
  apply C62_world_local_world_partial h.frame h.scaled
  rintro ⟨hk, hx, hy⟩
  have : (localToBasic s (toLocal s p)).y = dblMax := by
    have hx' : dot (p - s.origin) s.sdr.r0 / s.scaling.x = 1 := hx
    simp only [localToBasic, toLocal, unduffy, curved, hk, V3.div, M3.app, hx', sub_self, abs_zero, lt_irrefl, gt_iff_lt, if_false]
    rw [if_pos (abs_pos.2 hy)]
    simp [localOrigin, hk]
  rw [this] at h2
  have h3 : (2 : ℝ) ≤ dblMax := by
    unfold dblMax
    have : (1 : ℝ) ≤ 2 ^ 971 := one_le_pow₀ (by norm_num)
    generalize (2 : ℝ) ^ 971 = k at this
    norm_num
    linarith
  have h4 := h2.2
  norm_num at h4
  linarith

/-- the axis of a sector of a cylinder or of a sphere (but its centre), where the lower angle is not zero and the sector
does not reach the angle of a full turn -/
def AxisCut (s : Shape) (p : V3) : Prop :=
  (s.kind = .cylinder ∨ s.kind = .sphere ∧ p ≠ s.origin) ∧
    dot (p - s.origin) s.sdr.r0 = 0 ∧ dot (p - s.origin) s.sdr.r1 = 0 ∧
    0 < s.inf.y ∧ (1 + 1 / 10 ^ 12) * s.span.y ≤ 2 * π - s.inf.y

theorem wrap_polar {r t : ℝ} (hr : 0 < r) (l : ℝ) (hl : 0 ≤ l ∧ l ≤ 2 * π) (ht : 0 ≤ t ∧ t ≤ 2 * π) :
    0 ≤ wrap (angle (r * cos (t + l)) (r * sin (t + l))) l ∧ wrap (angle (r * cos (t + l)) (r * sin (t + l))) l ≤ t := by
  rcases lt_or_eq_of_le ht.2 with h | h
  · rw [angle_polar hr l hl ⟨ht.1, h⟩]; exact ⟨ht.1, le_refl _⟩
  · have := wrap_range (angle_range (r * cos (t + l)) (r * sin (t + l))) hl
    exact ⟨this.1, by rw [h]; rw [h] at this; exact this.2.le⟩

theorem wrap_zero {l : ℝ} (h0 : 0 ≤ l) : wrap 0 l = if l = 0 then 0 else 2 * π - l := by
  have pp := pi_pos
  unfold wrap
  simp only
  split
  · rename_i h
    rw [if_neg (by linarith), if_neg (by intro e; rw [e] at h; simp at h)]; ring
  · have : l = 0 := by linarith
    subst this
    simp [pp.le]

theorem angle_zero : angle 0 0 = 0 := by simp [angle]

theorem app_frame {s : Shape} (h : Frame s) (w : V3) : s.sdr.app (s.sdrInv.app w + s.origin - s.origin) = w := by
  have e : s.sdrInv.app w + s.origin - s.origin = s.sdrInv.app w := by ext <;> simp
  rw [e, h.inv, app_inv h.det]

theorem toLocal_toWorld {s : Shape} (h : Frame s) (q : V3) : toLocal s (toWorld s q) =
    unduffy s ((curved s (s.sdrInv.app (straight s ((duffy s q).mul s.scaling)))
      (straight s ((duffy s q).mul s.scaling))).div s.scaling) := by
  have e : ∀ w : V3, w + s.origin - s.origin = w := by intro w; ext <;> simp
  unfold toLocal toWorld
  simp only
  rw [app_frame h, e]

/-- C65: every point of the solid is reported as included, except on the axis of a sector (full statement: every
point). -/
theorem C65_point_complete_partial {s : Shape} (h : Proper s) {p : V3} (hp : Solid s p) (ha : ¬ AxisCut s p) : pointIncluded s p := by
  have pp := pi_pos
  obtain ⟨t, hx, hy, hz, rfl⟩ := hp
  have htol : (0 : ℝ) < 1 / 10 ^ 12 := by positivity
  have suff : ∀ q : V3, localToBasic s (toLocal s (toWorld s (basicToLocal s t))) = q → (0 ≤ q.x ∧ q.x ≤ 1) → (-(1 / 10 ^ 12) < q.y ∧ q.y < 1 + 1 / 10 ^ 12) →
      (0 ≤ q.z ∧ q.z ≤ 1) → pointIncluded s (toWorld s (basicToLocal s t)) := by
    intro q e h1 h2 h3
    unfold pointIncluded
    simp only [e, neg_one_mul, gt_iff_lt]
    exact ⟨⟨by linarith [h1.1], by linarith [h1.2]⟩, h2, by linarith [h3.1], by linarith [h3.2]⟩
  have near : ∀ y : ℝ, (0 ≤ y ∧ y ≤ 1) → (-(1 / 10 ^ 12) < y ∧ y < 1 + 1 / 10 ^ 12) :=
    fun y h => ⟨by linarith [h.1], by linarith [h.2]⟩
  have hsc := h.scaled
  have hli := inLimits_of h.limits
  have reg : Regular s (basicToLocal s t) → pointIncluded s (toWorld s (basicToLocal s t)) := by
    intro hr
    refine suff t ?_ hx (near _ hy) hz
    rw [C62_local_world_local_partial h.frame hsc hli hr, (C62_basic s h.spanY h.spanZ t).1]
  rcases hk : s.kind
  · apply reg; simp [Regular, hk]
  · -- cylinder
    have hsy := hli.scY (.inl hk)
    have hsp : s.span.y ≤ 2 * π := by
      have := h.limits.1.round (.inl hk); simp only [getSpan, hsy, one_mul] at this; exact this
    have hang : 0 ≤ t.y * s.span.y ∧ t.y * s.span.y ≤ 2 * π := by
      constructor
      · exact mul_nonneg hy.1 h.spY.le
      · nlinarith [h.spY]
    have hR : 0 ≤ t.x * s.scaling.x + s.inf.x := add_nonneg (mul_nonneg hx.1 h.scX.le) h.limits.1.infX
    have hw := app_frame h.frame (straight s ((duffy s (basicToLocal s t)).mul s.scaling))
    have hst : straight s ((duffy s (basicToLocal s t)).mul s.scaling) =
        ⟨(t.x * s.scaling.x + s.inf.x) * cos (t.y * s.span.y + s.inf.y),
          (t.x * s.scaling.x + s.inf.x) * sin (t.y * s.span.y + s.inf.y), (t.z + -0.5) * s.scaling.z⟩ := by
      simp [straight, duffy, basicToLocal, localOrigin, hk, V3.mul, hsy]
    have hloc : localToBasic s (toLocal s (toWorld s (basicToLocal s t))) =
        ⟨t.x, wrap (angle ((t.x * s.scaling.x + s.inf.x) * cos (t.y * s.span.y + s.inf.y))
          ((t.x * s.scaling.x + s.inf.x) * sin (t.y * s.span.y + s.inf.y))) s.inf.y / s.span.y, t.z⟩ := by
      have hrad : √((t.x * s.scaling.x + s.inf.x) * cos (t.y * s.span.y + s.inf.y) * ((t.x * s.scaling.x + s.inf.x) * cos (t.y * s.span.y + s.inf.y)) +
          (t.x * s.scaling.x + s.inf.x) * sin (t.y * s.span.y + s.inf.y) * ((t.x * s.scaling.x + s.inf.x) * sin (t.y * s.span.y + s.inf.y))) =
          t.x * s.scaling.x + s.inf.x := by
        refine (sqrt_eq_iff_mul_self_eq (add_nonneg (mul_self_nonneg _) (mul_self_nonneg _)) hR).2 ?_
        linear_combination (t.x * s.scaling.x + s.inf.x) ^ 2 * sin_sq_add_cos_sq (t.y * s.span.y + s.inf.y)
      have hrad2 : (if (t.x * s.scaling.x + s.inf.x) * cos (t.y * s.span.y + s.inf.y) = 0 ∧
          (t.x * s.scaling.x + s.inf.x) * sin (t.y * s.span.y + s.inf.y) = 0 then (0 : ℝ) else
          √((t.x * s.scaling.x + s.inf.x) * cos (t.y * s.span.y + s.inf.y) * ((t.x * s.scaling.x + s.inf.x) * cos (t.y * s.span.y + s.inf.y)) +
          (t.x * s.scaling.x + s.inf.x) * sin (t.y * s.span.y + s.inf.y) * ((t.x * s.scaling.x + s.inf.x) * sin (t.y * s.span.y + s.inf.y)))) =
          t.x * s.scaling.x + s.inf.x := by
        split
        · rename_i e; rw [e.1, e.2] at hrad; simpa using hrad
        · exact hrad
      rw [toLocal_toWorld h.frame, hst]
      have h1 := hsc.x
      have h3 := hsc.z
      have h2 := h.spanY
      simp only [localToBasic, unduffy, curved, hk, V3.div, localOrigin, hsy, div_one, hrad2]
      ext <;> simp only [sub_x, sub_y, sub_z] <;> field_simp <;> ring
    rcases eq_or_lt_of_le hR with h0 | h0
    · -- on the axis
      rw [← h0] at hloc
      simp only [zero_mul, angle_zero] at hloc
      refine suff _ hloc hx ?_ hz
      simp only
      rw [wrap_zero h.limits.1.infY.1]
      split
      · simp only [zero_div]; constructor <;> linarith
      · rename_i hne
        have hpos : 0 < s.inf.y := lt_of_le_of_ne h.limits.1.infY.1 (Ne.symm hne)
        have hlt : 2 * π - s.inf.y < (1 + 1 / 10 ^ 12) * s.span.y := by
          by_contra hle
          apply ha
          have hw' := hw
          rw [hst] at hw'
          refine ⟨.inl hk, ?_, ?_, hpos, not_lt.1 hle⟩
          · have := congrArg V3.x hw'
            simp only [← h0, zero_mul] at this
            unfold toWorld; rw [hst]; simpa [M3.app, ← h0] using this
          · have := congrArg V3.y hw'
            simp only [← h0, zero_mul] at this
            unfold toWorld; rw [hst]; simpa [M3.app, ← h0] using this
        constructor
        · have : 0 ≤ (2 * π - s.inf.y) / s.span.y := div_nonneg (by linarith [h.limits.1.infY.2]) h.spY.le
          linarith
        · rw [div_lt_iff₀ h.spY]; exact hlt
    · have hwp := wrap_polar h0 s.inf.y h.limits.1.infY hang
      refine suff _ hloc hx (near _ ?_) hz
      refine ⟨div_nonneg hwp.1 h.spY.le, ?_⟩
      rw [div_le_one h.spY]
      refine le_trans hwp.2 ?_
      nlinarith [h.spY]
  · -- sphere
    have hsy := hli.scY (.inr hk)
    have hszz := hli.scZ hk
    have hsp : s.span.y ≤ 2 * π := by
      have := h.limits.1.round (.inr hk); simp only [getSpan, hsy, one_mul] at this; exact this
    have hpol : s.inf.z + s.span.z ≤ π := by
      have := h.limits.1.polar hk; simp only [getSpan, hszz, one_mul] at this; exact this
    have hang : 0 ≤ t.y * s.span.y ∧ t.y * s.span.y ≤ 2 * π := by
      constructor
      · exact mul_nonneg hy.1 h.spY.le
      · nlinarith [h.spY]
    have hpsi : 0 ≤ t.z * s.span.z + s.inf.z ∧ t.z * s.span.z + s.inf.z ≤ π := by
      have := h.limits.1.infZ
      constructor
      · have := mul_nonneg hz.1 h.spZ.le; linarith
      · nlinarith [h.spZ]
    have hR : 0 ≤ t.x * s.scaling.x + s.inf.x := add_nonneg (mul_nonneg hx.1 h.scX.le) h.limits.1.infX
    have hw := app_frame h.frame (straight s ((duffy s (basicToLocal s t)).mul s.scaling))
    have hst : straight s ((duffy s (basicToLocal s t)).mul s.scaling) =
        ⟨(t.x * s.scaling.x + s.inf.x) * cos (t.y * s.span.y + s.inf.y) * sin (t.z * s.span.z + s.inf.z),
          (t.x * s.scaling.x + s.inf.x) * sin (t.y * s.span.y + s.inf.y) * sin (t.z * s.span.z + s.inf.z),
          (t.x * s.scaling.x + s.inf.x) * cos (t.z * s.span.z + s.inf.z)⟩ := by
      simp [straight, duffy, basicToLocal, localOrigin, hk, V3.mul, hsy, hszz]
    generalize hRd : t.x * s.scaling.x + s.inf.x = R at *
    generalize hPd : t.z * s.span.z + s.inf.z = P at *
    have hn : norm2 ⟨R * cos (t.y * s.span.y + s.inf.y) * sin P, R * sin (t.y * s.span.y + s.inf.y) * sin P, R * cos P⟩ = R := by
      unfold norm2
      rw [← sqrt_sq hR]; congr 1
      simp only [dot, sqrt_sq hR]
      linear_combination R ^ 2 * sin P ^ 2 * sin_sq_add_cos_sq (t.y * s.span.y + s.inf.y) + R ^ 2 * sin_sq_add_cos_sq P
    have h1 := hsc.x
    have h2 := h.spanY
    have h3 := h.spanZ
    rcases eq_or_lt_of_le hR with h0 | h0
    · -- centre
      have hloc : localToBasic s (toLocal s (toWorld s (basicToLocal s t))) = ⟨t.x, 0, 0⟩ := by
        have hd : s.sdrInv.app (⟨0, 0, 0⟩ : V3) = ⟨0, 0, 0⟩ := by ext <;> simp [M3.app, dot]
        rw [← h0] at hn
        simp only [zero_mul] at hn
        rw [toLocal_toWorld h.frame, hst, ← h0]
        simp only [zero_mul, hd]
        simp only [localToBasic, unduffy, curved, hk, V3.div, localOrigin, hn, lt_irrefl, gt_iff_lt, if_false]
        ext <;> simp only [sub_x, sub_y, sub_z]
        · have : (0 : ℝ) - s.inf.x = t.x * s.scaling.x := by rw [h0, ← hRd]; ring
          rw [this]; field_simp; ring
        · simp
        · simp
      exact suff _ hloc hx (near _ ⟨le_refl _, zero_le_one⟩) ⟨le_refl _, zero_le_one⟩
    · have hloc : localToBasic s (toLocal s (toWorld s (basicToLocal s t))) =
          ⟨t.x, wrap (angle (R * cos (t.y * s.span.y + s.inf.y) * sin P) (R * sin (t.y * s.span.y + s.inf.y) * sin P)) s.inf.y / s.span.y, t.z⟩ := by
        rw [toLocal_toWorld h.frame, hst]
        have hc : R * cos P / R = cos P := by field_simp
        simp only [localToBasic, unduffy, curved, hk, V3.div, localOrigin, hsy, hszz, div_one, hn, gt_iff_lt, if_pos h0, hc,
          arccos_cos hpsi.1 hpsi.2]
        ext <;> simp only [sub_x, sub_y, sub_z]
        · have : R - s.inf.x = t.x * s.scaling.x := by rw [← hRd]; ring
          rw [this]; field_simp; ring
        · ring
        · have : P - s.inf.z - 0 = t.z * s.span.z := by rw [← hPd]; ring
          rw [this]; field_simp
      have hsin : 0 ≤ sin P := sin_nonneg_of_nonneg_of_le_pi hpsi.1 hpsi.2
      rcases eq_or_lt_of_le hsin with hs0 | hs0
      · rw [← hs0] at hloc
        simp only [mul_zero, angle_zero] at hloc
        refine suff _ hloc hx ?_ hz
        simp only
        rw [wrap_zero h.limits.1.infY.1]
        split
        · simp only [zero_div]; constructor <;> linarith
        · rename_i hne
          have hpos : 0 < s.inf.y := lt_of_le_of_ne h.limits.1.infY.1 (Ne.symm hne)
          have hlt : 2 * π - s.inf.y < (1 + 1 / 10 ^ 12) * s.span.y := by
            by_contra hle
            apply ha
            have hw' := hw
            rw [hst] at hw'
            refine ⟨.inr ⟨hk, ?_⟩, ?_, ?_, hpos, not_lt.1 hle⟩
            · intro e
              unfold toWorld at e
              rw [e] at hw
              have e0 : s.origin - s.origin = ⟨0, 0, 0⟩ := by ext <;> simp
              rw [e0, hst] at hw
              rw [← hw] at hn
              have : R = 0 := by rw [← hn]; simp [norm2, M3.app, dot]
              linarith
            · have := congrArg V3.x hw'
              simp only [← hs0, mul_zero] at this
              unfold toWorld; rw [hst]; simpa [M3.app, ← hs0] using this
            · have := congrArg V3.y hw'
              simp only [← hs0, mul_zero] at this
              unfold toWorld; rw [hst]; simpa [M3.app, ← hs0] using this
          constructor
          · have : 0 ≤ (2 * π - s.inf.y) / s.span.y := div_nonneg (by linarith [h.limits.1.infY.2]) h.spY.le
            linarith
          · rw [div_lt_iff₀ h.spY]; exact hlt
      · have e1 : R * cos (t.y * s.span.y + s.inf.y) * sin P = (R * sin P) * cos (t.y * s.span.y + s.inf.y) := by ring
        have e2 : R * sin (t.y * s.span.y + s.inf.y) * sin P = (R * sin P) * sin (t.y * s.span.y + s.inf.y) := by ring
        rw [e1, e2] at hloc
        have hwp := wrap_polar (mul_pos h0 hs0) s.inf.y h.limits.1.infY hang
        refine suff _ hloc hx (near _ ?_) hz
        refine ⟨div_nonneg hwp.1 h.spY.le, ?_⟩
        rw [div_le_one h.spY]
        refine le_trans hwp.2 ?_
        nlinarith [h.spY]
  · -- wedge
    by_cases hx1 : t.x = 1
    · have hsx : (basicToLocal s t).x = 1 := by simp [basicToLocal, localOrigin, hk, hx1]
      have hdf : duffy s (basicToLocal s t) = ⟨1, 0, t.z + -0.5⟩ := by
        simp [duffy, basicToLocal, localOrigin, hk, hx1]
      have hloc : localToBasic s (toLocal s (toWorld s (basicToLocal s t))) = ⟨1, 0, t.z⟩ := by
        rw [toLocal_toWorld h.frame, hdf]
        have h1 := hsc.x
        have h3 := hsc.z
        simp only [localToBasic, unduffy, curved, straight, V3.mul, hk, V3.div, localOrigin, one_mul, div_self h1, sub_self, abs_zero,
          lt_irrefl, gt_iff_lt, if_false, zero_mul, zero_div]
        ext <;> simp only [sub_x, sub_y, sub_z] <;> (try field_simp) <;> ring
      exact suff _ hloc ⟨zero_le_one, le_refl _⟩ (near _ ⟨le_refl _, zero_le_one⟩) hz
    · apply reg
      simpa [Regular, hk, basicToLocal, localOrigin] using hx1

theorem getSpan_basic (k : Kind) : 0 < (getSpan (basic k)).x ∧ 0 < (getSpan (basic k)).y ∧ 0 < (getSpan (basic k)).z := by
  have pp := pi_pos
  cases k <;> simp [basic, getSpan, pp]

theorem proper_basic (k : Kind) : Proper (basic k) :=
  proper_of_reach (.new k) (getSpan_basic k).1 (getSpan_basic k).2.1 (getSpan_basic k).2.2

/-- the middle point of the parameters of the default cylinder -/
example : Proper (basic .cylinder) ∧ Solid (basic .cylinder) (toWorld (basic .cylinder) (basicToLocal (basic .cylinder) ⟨1 / 2, 1 / 2, 1 / 2⟩)) ∧
    ¬ AxisCut (basic .cylinder) (toWorld (basic .cylinder) (basicToLocal (basic .cylinder) ⟨1 / 2, 1 / 2, 1 / 2⟩)) := by
  refine ⟨proper_basic _, ⟨_, by norm_num, by norm_num, by norm_num, rfl⟩, fun h => ?_⟩
  have := h.2.2.2.1
  simp [basic] at this

/-- C65 does not hold on the axis of a sector: those points of the solid are reported as outside. -/
theorem C65_axis_fails {s : Shape} (h : Proper s) {p : V3} (ha : AxisCut s p) : ¬ pointIncluded s p := by
  obtain ⟨hk, h0, h1, hpos, hle⟩ := ha
  have hy : (localToBasic s (toLocal s p)).y = (2 * π - s.inf.y) / s.span.y := by
    have hwr := wrap_zero hpos.le
    rw [if_neg (ne_of_gt hpos)] at hwr
    rcases hk with hk | ⟨hk, hne⟩
    · have hsy := h.limits.2.scY (.inl hk)
      simp only [localToBasic, toLocal, unduffy, curved, hk, V3.div, M3.app, h0, h1, angle_zero, hwr, hsy, localOrigin, sub_y]
      simp
    · have hsy := h.limits.2.scY (.inr hk)
      have hn : norm2 (s.sdr.app (p - s.origin)) > 0 := by
        refine lt_of_le_of_ne (norm2_nonneg _) (fun e => hne ?_)
        have hz := norm2_eq_zero.1 e.symm
        have hi := inv_app h.frame.det (p - s.origin)
        rw [hz] at hi
        have hx := congrArg V3.x hi; have hy := congrArg V3.y hi; have hz := congrArg V3.z hi
        simp [M3.app, dot] at hx hy hz
        ext <;> linarith
      simp only [localToBasic, toLocal, unduffy, curved, hk, V3.div, if_pos hn]
      simp only [M3.app, h0, h1, angle_zero, hwr, hsy, localOrigin, hk, sub_y]
      simp
  intro hp
  unfold pointIncluded at hp
  simp only at hp
  have := hp.2.1.2
  rw [hy, div_lt_iff₀ h.spY] at this
  linarith

/-- the quarter of cylinder from π/2 to π and its centre, which is in the solid -/
noncomputable def quarter : Shape := setInf (construct .cylinder ⟨0, 0, 0⟩ ⟨1, π / 2, 1⟩) (π / 2) 1

theorem quarter_val : quarter = { basic .cylinder with span := ⟨1, π / 2, 1⟩, inf := ⟨0, π / 2, 0⟩ } := by
  have pp := pi_pos
  have a1 : |π| = π := abs_of_pos pp
  have a2 : min (π / 2) (2 * π) = π / 2 := min_eq_left (by linarith)
  have a3 : max 0 (π / 2) = π / 2 := max_eq_right (by linarith)
  have a4 : min (2 * π) (π / 2) = π / 2 := min_eq_right (by linarith)
  have a5 : ¬ (2 * π ≤ π / 2) := by linarith
  simp [quarter, construct, setInf, checkInf, setSpan, checkSpan, setScaling, getSpan, putInf, setOrigin, basic, abs_div, a1, a2, a3, a4, a5]

theorem quarter_proper : Proper quarter := by
  have pp := pi_pos
  apply proper_of_reach (.step _ _ (.make _ _ _) (.inf _ _ _))
  · change 0 < (getSpan quarter).x; rw [quarter_val]; simp [getSpan, basic]
  · change 0 < (getSpan quarter).y; rw [quarter_val]; simp [getSpan, basic, pp]
  · change 0 < (getSpan quarter).z; rw [quarter_val]; simp [getSpan, basic]

example : Proper quarter ∧ Solid quarter ⟨0, 0, 0⟩ ∧ AxisCut quarter ⟨0, 0, 0⟩ := by
  have pp := pi_pos
  refine ⟨quarter_proper, ⟨⟨0, 0, 1 / 2⟩, by norm_num, by norm_num, by norm_num, ?_⟩, ?_⟩
  · rw [quarter_val]
    simp [toWorld, basicToLocal, localOrigin, duffy, straight, V3.mul, basic, M3.app, M3.one, dot]
    ext <;> norm_num
  · rw [quarter_val]
    refine ⟨.inl rfl, ?_, ?_, ?_, ?_⟩
    · simp [dot, basic]
    · simp [dot, basic]
    · simp [pp]
    · simp only; linarith

end Verif.Shape
