import Verif.Shape.FrameProps
/-
C62: local and world coordinates.
-/
namespace Verif.Shape
open Real

/-! ### Angles -/

theorem wrap_cos (t l : ℝ) : cos (wrap t l + l) = cos t ∧ sin (wrap t l + l) = sin t := by
  have h2 : ∀ x : ℝ, cos (2 * π + x) = cos x ∧ sin (2 * π + x) = sin x := by
    intro x; rw [add_comm]; exact ⟨cos_add_two_pi x, sin_add_two_pi x⟩
  have h3 : ∀ x : ℝ, cos (x - 2 * π) = cos x ∧ sin (x - 2 * π) = sin x := fun x => ⟨cos_sub_two_pi x, sin_sub_two_pi x⟩
  unfold wrap
  simp only
  split <;> split
  · have e : 2 * π + (t - l) - 2 * π + l = t := by ring
    rw [e]; exact ⟨rfl, rfl⟩
  · have e : 2 * π + (t - l) + l = 2 * π + t := by ring
    rw [e]; exact h2 t
  · have e : t - l - 2 * π + l = t - 2 * π := by ring
    rw [e]; exact h3 t
  · have e : t - l + l = t := by ring
    rw [e]; exact ⟨rfl, rfl⟩

theorem angle_cos (u v : ℝ) : √(u * u + v * v) * cos (angle u v) = u ∧ √(u * u + v * v) * sin (angle u v) = v := by
  by_cases h : u = 0 ∧ v = 0
  · obtain ⟨rfl, rfl⟩ := h; simp
  · have hn : ‖(⟨u, v⟩ : ℂ)‖ = √(u * u + v * v) := by
      rw [Complex.norm_def]; simp [Complex.normSq]
    have hc := Complex.norm_mul_cos_arg ⟨u, v⟩
    have hs := Complex.norm_mul_sin_arg ⟨u, v⟩
    rw [hn] at hc hs
    have ha : cos (angle u v) = cos (Complex.arg ⟨u, v⟩) ∧ sin (angle u v) = sin (Complex.arg ⟨u, v⟩) := by
      unfold angle sign atan2
      rw [if_neg h]
      split
      · have e : Complex.arg ⟨u, v⟩ - (-1 - 1) * π = Complex.arg ⟨u, v⟩ + 2 * π := by ring
        rw [e]; exact ⟨cos_add_two_pi _, sin_add_two_pi _⟩
      · have e : Complex.arg ⟨u, v⟩ - (1 - 1) * π = Complex.arg ⟨u, v⟩ := by ring
        rw [e]; exact ⟨rfl, rfl⟩
    rw [ha.1, ha.2]
    exact ⟨hc, hs⟩

theorem angle_range (u v : ℝ) : 0 ≤ angle u v ∧ angle u v < 2 * π := by
  unfold angle sign atan2
  have h1 := Complex.arg_le_pi ⟨u, v⟩
  have h2 := Complex.neg_pi_lt_arg ⟨u, v⟩
  have hp := pi_pos
  split
  · exact ⟨le_refl _, by linarith⟩
  · split
    · constructor <;> nlinarith
    · constructor <;> nlinarith

theorem wrap_range {t l : ℝ} (ht : 0 ≤ t ∧ t < 2 * π) (hl : 0 ≤ l ∧ l ≤ 2 * π) : 0 ≤ wrap t l ∧ wrap t l < 2 * π := by
  unfold wrap
  simp only
  have hp := pi_pos
  split <;> split <;> constructor <;> linarith

theorem angle_unique {a b : ℝ} (ha : 0 ≤ a ∧ a < 2 * π) (hb : 0 ≤ b ∧ b < 2 * π) (hc : cos a = cos b) (hs : sin a = sin b) :
    a = b := by
  have h : cos (a - b) = 1 := by
    rw [cos_sub, hc, hs]
    nlinarith [sin_sq_add_cos_sq b]
  have := (cos_eq_one_iff_of_lt_of_lt (by linarith) (by linarith)).1 h
  linarith

theorem angle_polar {r t : ℝ} (hr : 0 < r) (l : ℝ) (hl : 0 ≤ l ∧ l ≤ 2 * π) (ht : 0 ≤ t ∧ t < 2 * π) :
    wrap (angle (r * cos (t + l)) (r * sin (t + l))) l = t := by
  have hrad : √(r * cos (t + l) * (r * cos (t + l)) + r * sin (t + l) * (r * sin (t + l))) = r := by
    have : r * cos (t + l) * (r * cos (t + l)) + r * sin (t + l) * (r * sin (t + l)) = r ^ 2 := by
      nlinarith [sin_sq_add_cos_sq (t + l)]
    rw [this, sqrt_sq hr.le]
  have ha := angle_cos (r * cos (t + l)) (r * sin (t + l))
  rw [hrad] at ha
  have hc := mul_left_cancel₀ (ne_of_gt hr) ha.1
  have hs := mul_left_cancel₀ (ne_of_gt hr) ha.2
  have hw := wrap_cos (angle (r * cos (t + l)) (r * sin (t + l))) l
  rw [hc, hs] at hw
  apply angle_unique (wrap_range (angle_range _ _) hl) ht
  · have e : ∀ x, cos x = cos (x + l) * cos l + sin (x + l) * sin l := by
      intro x; rw [← cos_sub]; congr 1; ring
    rw [e (wrap _ _), e t, hw.1, hw.2]
  · have e : ∀ x, sin x = sin (x + l) * cos l - cos (x + l) * sin l := by
      intro x; rw [← sin_sub]; congr 1; ring
    rw [e (wrap _ _), e t, hw.1, hw.2]

/-! ### From the world and back -/

/-- the curved part is undone by the straight one -/
theorem straight_curved (s : Shape) (d w : V3) (hd : w = ⟨0, 0, 0⟩ → d = ⟨0, 0, 0⟩) : straight s (curved s d w) = w := by
  rcases hk : s.kind
  · simp [straight, curved, hk]
  · simp only [straight, curved, hk]
    have hw := wrap_cos (angle w.x w.y) s.inf.y
    have ha := angle_cos w.x w.y
    have hr : (if w.x = 0 ∧ w.y = 0 then (0 : ℝ) else √(w.x * w.x + w.y * w.y)) = √(w.x * w.x + w.y * w.y) := by
      split
      · rename_i h; rw [h.1, h.2]; simp
      · rfl
    rw [hr, hw.1, hw.2]
    ext
    · simp only; rw [sub_add_cancel]; exact ha.1
    · simp only; rw [sub_add_cancel]; exact ha.2
    · rfl
  · simp only [straight, curved, hk]
    split
    · rename_i hn
      have hw := wrap_cos (angle w.x w.y) s.inf.y
      have ha := angle_cos w.x w.y
      have h0 : norm2 w ≠ 0 := ne_of_gt hn
      have hsq := norm2_sq w
      have hz : -1 ≤ w.z / norm2 w ∧ w.z / norm2 w ≤ 1 := by
        rw [← abs_le, abs_div, abs_of_pos hn, div_le_one hn]
        apply abs_le_of_sq_le_sq _ hn.le
        rw [sq (norm2 w), hsq]; unfold dot; nlinarith [sq_nonneg w.x, sq_nonneg w.y]
      have hs : norm2 w * sin (arccos (w.z / norm2 w)) = √(w.x * w.x + w.y * w.y) := by
        rw [sin_arccos]
        have e : w.x * w.x + w.y * w.y = (norm2 w) ^ 2 * (1 - (w.z / norm2 w) ^ 2) := by
          field_simp
          rw [sq (norm2 w), hsq]; unfold dot; ring
        rw [e, sqrt_mul (sq_nonneg _), sqrt_sq hn.le]
      simp only [sub_add_cancel, hw.1, hw.2, cos_arccos hz.1 hz.2]
      ext
      · simp only
        have : norm2 w * cos (angle w.x w.y) * sin (arccos (w.z / norm2 w)) =
          (norm2 w * sin (arccos (w.z / norm2 w))) * cos (angle w.x w.y) := by ring
        rw [this, hs]; exact ha.1
      · simp only
        have : norm2 w * sin (angle w.x w.y) * sin (arccos (w.z / norm2 w)) =
          (norm2 w * sin (arccos (w.z / norm2 w))) * sin (angle w.x w.y) := by ring
        rw [this, hs]; exact ha.2
      · simp only; field_simp
    · rename_i hn
      have h0 : norm2 w = 0 := le_antisymm (not_lt.1 hn) (norm2_nonneg w)
      have hw := norm2_eq_zero.1 h0
      rw [h0, hw]
      simp
  · simp [straight, curved, hk]

/-- no direction is flattened -/
structure Scaled (s : Shape) : Prop where
  x : s.scaling.x ≠ 0
  y : s.scaling.y ≠ 0
  z : s.scaling.z ≠ 0

theorem mul_div {a b : V3} (h : b.x ≠ 0 ∧ b.y ≠ 0 ∧ b.z ≠ 0) : (a.div b).mul b = a := by
  obtain ⟨h1, h2, h3⟩ := h
  ext <;> simp only [V3.div, V3.mul] <;> field_simp

theorem div_mul {a b : V3} (h : b.x ≠ 0 ∧ b.y ≠ 0 ∧ b.z ≠ 0) : (a.mul b).div b = a := by
  obtain ⟨h1, h2, h3⟩ := h
  ext <;> simp only [V3.div, V3.mul] <;> field_simp

/-- on the wedge, the points of the sharp edge plane: local x equal to 1 and y not 0 -/
def EdgePlane (s : Shape) (p : V3) : Prop :=
  s.kind = .wedge ∧ (dot (p - s.origin) s.sdr.r0) / s.scaling.x = 1 ∧ dot (p - s.origin) s.sdr.r1 / s.scaling.y ≠ 0

theorem duffy_unduffy (s : Shape) (p : V3) (h : s.kind = .wedge → p.x = 1 → p.y = 0) : duffy s (unduffy s p) = p := by
  rcases hk : s.kind <;> simp only [duffy, unduffy, hk]
  by_cases hx : p.x = 1
  · have hy := h hk hx
    rw [hx, hy]
    simp only [sub_self, abs_zero, lt_irrefl, gt_iff_lt, if_false]
    ext <;> simp [hy, hx]
  · have hp : |1 - p.x| > 0 := abs_pos.2 (sub_ne_zero.2 (Ne.symm hx))
    have hp' : (1 - p.x) ≠ 0 := sub_ne_zero.2 (Ne.symm hx)
    rw [if_pos hp]
    ext <;> simp only <;> field_simp

/-- C62: a point of space, taken to local coordinates and back, is the same point: for every shape with non-zero
dimensions in a valid frame; of a wedge, for the points outside the plane of the sharp edge (full statement: all). -/
theorem C62_world_local_world_partial {s : Shape} (hf : Frame s) (hs : Scaled s) {p : V3} (hw : ¬ EdgePlane s p) :
    toWorld s (toLocal s p) = p := by
  unfold toWorld toLocal
  simp only
  have hd : s.sdr.app (p - s.origin) = ⟨0, 0, 0⟩ → p - s.origin = ⟨0, 0, 0⟩ := by
    intro h
    have := inv_app hf.det (p - s.origin)
    rw [h] at this
    rw [← this]; ext <;> simp [M3.app, dot]
  rw [duffy_unduffy, mul_div ⟨hs.x, hs.y, hs.z⟩, straight_curved s _ _ hd, hf.inv, inv_app hf.det]
  · ext <;> simp
  · intro hk hx
    by_contra hy
    apply hw
    refine ⟨hk, ?_, ?_⟩
    · simpa [V3.div, curved, hk, M3.app] using hx
    · simpa [V3.div, curved, hk, M3.app] using hy

theorem basic_frame (k : Kind) : Frame (basic k) := by
  refine ⟨?_, ?_, ?_⟩
  · simp [basic, M3.one, M3.det]
  · simp [basic, M3.one, M3.inverse, M3.det]
  · simp [basic, M3.one, dot]

theorem basic_scaled (k : Kind) : Scaled (basic k) := ⟨one_ne_zero, one_ne_zero, one_ne_zero⟩

/-- a default cylinder and the point (0, -1, 5) -/
example : Frame (basic .cylinder) ∧ Scaled (basic .cylinder) ∧ ¬ EdgePlane (basic .cylinder) ⟨0, -1, 5⟩ :=
  ⟨basic_frame _, basic_scaled _, fun h => by have := h.1; simp [basic] at this⟩

/-- C62 does not hold in the plane of the sharp edge of a wedge: every such point is taken to one and the same local
point as its neighbour, and comes back elsewhere. -/
theorem C62_edge_plane_fails {s : Shape} (hf : Frame s) (hs : Scaled s) {p : V3} (hw : EdgePlane s p) :
    toWorld s (toLocal s p) ≠ p := by
  obtain ⟨hk, hx, hy⟩ := hw
  intro h
  apply hy
  unfold toWorld toLocal at h
  simp only at h
  have h' : (s.sdr.app (_ - s.origin)).y = (s.sdr.app (p - s.origin)).y := congrArg (fun q => (s.sdr.app (q - s.origin)).y) h
  have e : ∀ a : V3, a + s.origin - s.origin = a := by intro a; ext <;> simp
  rw [e, hf.inv, app_inv hf.det] at h'
  have hx' : (dot (p - s.origin) s.sdr.r0) / s.scaling.x = 1 := hx
  have h0 : (straight s ((duffy s (unduffy s ((curved s (p - s.origin) (s.sdr.app (p - s.origin))).div s.scaling))).mul
      s.scaling)).y = 0 := by
    simp only [straight, duffy, unduffy, curved, hk, V3.div, V3.mul, M3.app, hx', sub_self, abs_zero, lt_irrefl, gt_iff_lt,
      if_false]
    split <;> simp
  rw [h0] at h'
  have : dot (p - s.origin) s.sdr.r1 = 0 := h'.symm
  rw [this, zero_div]

/-- the point (1, 1, 0) of the default wedge -/
example : EdgePlane (basic .wedge) ⟨1, 1, 0⟩ := by
  refine ⟨rfl, ?_, ?_⟩ <;> simp [basic, M3.one, dot]

/-! ### From local coordinates and back -/

/-- the local coordinates that name one point only: away from the axis, the poles, the sharp edge, and within one turn -/
def Regular (s : Shape) (q : V3) : Prop :=
  match s.kind with
  | .cube => True
  | .wedge => q.x ≠ 1
  | .cylinder => 0 < q.x * s.scaling.x + s.inf.x ∧ 0 ≤ q.y ∧ q.y < 2 * π
  | .sphere => 0 < q.x * s.scaling.x + s.inf.x ∧ (0 ≤ q.y ∧ q.y < 2 * π) ∧ 0 < q.z + s.inf.z ∧ q.z + s.inf.z < π

/-- the dimensions of the shape are within the limits of its type -/
structure InLimits (s : Shape) : Prop where
  infY : 0 ≤ s.inf.y ∧ s.inf.y ≤ 2 * π
  scY : (s.kind = .cylinder ∨ s.kind = .sphere) → s.scaling.y = 1
  scZ : s.kind = .sphere → s.scaling.z = 1

theorem curved_straight {s : Shape} (hs : Scaled s) (hi : InLimits s) (d : V3) {q : V3} (hr : Regular s q) :
    curved s d (straight s (q.mul s.scaling)) = q.mul s.scaling := by
  rcases hk : s.kind
  · simp [straight, curved, hk]
  · simp only [Regular, hk] at hr
    obtain ⟨h0, h1⟩ := hr
    have hy := hi.scY (.inl hk)
    simp only [straight, curved, hk, V3.mul, hy, mul_one]
    have hrad : √((q.x * s.scaling.x + s.inf.x) * cos (q.y + s.inf.y) * ((q.x * s.scaling.x + s.inf.x) * cos (q.y + s.inf.y)) +
        (q.x * s.scaling.x + s.inf.x) * sin (q.y + s.inf.y) * ((q.x * s.scaling.x + s.inf.x) * sin (q.y + s.inf.y))) =
        q.x * s.scaling.x + s.inf.x := by
      have : (q.x * s.scaling.x + s.inf.x) * cos (q.y + s.inf.y) * ((q.x * s.scaling.x + s.inf.x) * cos (q.y + s.inf.y)) +
        (q.x * s.scaling.x + s.inf.x) * sin (q.y + s.inf.y) * ((q.x * s.scaling.x + s.inf.x) * sin (q.y + s.inf.y)) =
          (q.x * s.scaling.x + s.inf.x) ^ 2 := by
        have := sin_sq_add_cos_sq (q.y + s.inf.y)
        linear_combination (q.x * s.scaling.x + s.inf.x) ^ 2 * this
      rw [this, sqrt_sq h0.le]
    have hr2 : (if (q.x * s.scaling.x + s.inf.x) * cos (q.y + s.inf.y) = 0 ∧ (q.x * s.scaling.x + s.inf.x) * sin (q.y + s.inf.y) = 0
        then (0 : ℝ) else √((q.x * s.scaling.x + s.inf.x) * cos (q.y + s.inf.y) * ((q.x * s.scaling.x + s.inf.x) * cos (q.y + s.inf.y)) +
        (q.x * s.scaling.x + s.inf.x) * sin (q.y + s.inf.y) * ((q.x * s.scaling.x + s.inf.x) * sin (q.y + s.inf.y)))) =
        q.x * s.scaling.x + s.inf.x := by
      split
      · rename_i h
        rw [h.1, h.2] at hrad
        simpa using hrad
      · exact hrad
    rw [hr2, angle_polar h0 _ hi.infY h1]
    ext <;> simp
  · simp only [Regular, hk] at hr
    obtain ⟨h0, h1, h2⟩ := hr
    have hy := hi.scY (.inr hk)
    have hz := hi.scZ hk
    have hsin : 0 < sin (q.z + s.inf.z) := sin_pos_of_pos_of_lt_pi h2.1 h2.2
    simp only [straight, curved, hk, V3.mul, hy, hz, mul_one]
    generalize hR : q.x * s.scaling.x + s.inf.x = R at h0
    have hn : norm2 ⟨R * cos (q.y + s.inf.y) * sin (q.z + s.inf.z), R * sin (q.y + s.inf.y) * sin (q.z + s.inf.z),
        R * cos (q.z + s.inf.z)⟩ = R := by
      have : dot ⟨R * cos (q.y + s.inf.y) * sin (q.z + s.inf.z), R * sin (q.y + s.inf.y) * sin (q.z + s.inf.z),
        R * cos (q.z + s.inf.z)⟩ ⟨R * cos (q.y + s.inf.y) * sin (q.z + s.inf.z), R * sin (q.y + s.inf.y) * sin (q.z + s.inf.z),
        R * cos (q.z + s.inf.z)⟩ = R ^ 2 := by
        have e1 := sin_sq_add_cos_sq (q.y + s.inf.y)
        have e2 := sin_sq_add_cos_sq (q.z + s.inf.z)
        simp only [dot]
        linear_combination R ^ 2 * sin (q.z + s.inf.z) ^ 2 * e1 + R ^ 2 * e2
      unfold norm2
      rw [this, sqrt_sq h0.le]
    rw [hn, if_pos h0]
    have e1 : R * cos (q.y + s.inf.y) * sin (q.z + s.inf.z) = (R * sin (q.z + s.inf.z)) * cos (q.y + s.inf.y) := by ring
    have e2 : R * sin (q.y + s.inf.y) * sin (q.z + s.inf.z) = (R * sin (q.z + s.inf.z)) * sin (q.y + s.inf.y) := by ring
    have e3 : R * cos (q.z + s.inf.z) / R = cos (q.z + s.inf.z) := by field_simp
    simp only [e1, e2, e3]
    rw [angle_polar (mul_pos h0 hsin) _ hi.infY h1, arccos_cos h2.1.le h2.2.le]
    ext
    · simp only; rw [← hR]; ring
    · rfl
    · simp
  · simp [straight, curved, hk]

/-- C62: local coordinates, taken to space and back, are the same (full statement: at the axis, the poles, the sharp edge
and after a full turn several local coordinates name the same point, and one of them is returned). -/
theorem C62_local_world_local_partial {s : Shape} (hf : Frame s) (hs : Scaled s) (hi : InLimits s) {q : V3} (hr : Regular s q) :
    toLocal s (toWorld s q) = q := by
  unfold toWorld toLocal
  simp only
  have e : ∀ a : V3, a + s.origin - s.origin = a := by intro a; ext <;> simp
  rw [e, hf.inv, app_inv hf.det]
  have hrd : Regular s (duffy s q) := by
    rcases hk : s.kind <;> simp [Regular, duffy, hk] at hr ⊢ <;> exact hr
  rw [curved_straight hs hi _ hrd, div_mul ⟨hs.x, hs.y, hs.z⟩]
  rcases hk : s.kind <;> simp only [duffy, unduffy, hk]
  have hx : q.x ≠ 1 := by simpa [Regular, hk] using hr
  have hp : |1 - q.x| > 0 := abs_pos.2 (sub_ne_zero.2 (Ne.symm hx))
  have hp' : (1 - q.x) ≠ 0 := sub_ne_zero.2 (Ne.symm hx)
  rw [if_pos hp]
  ext <;> simp only <;> field_simp

theorem basic_limits (k : Kind) : InLimits (basic k) :=
  ⟨⟨le_refl _, by simp [basic, pi_pos.le]⟩, fun _ => rfl, fun _ => rfl⟩

/-- a default sphere and the local coordinates (1/2, 3, 1) -/
example : Frame (basic .sphere) ∧ Scaled (basic .sphere) ∧ InLimits (basic .sphere) ∧ Regular (basic .sphere) ⟨1 / 2, 3, 1⟩ := by
  refine ⟨basic_frame _, basic_scaled _, basic_limits _, ?_⟩
  simp only [Regular, basic]
  have := two_le_pi
  refine ⟨?_, ⟨?_, ?_⟩, ?_, ?_⟩ <;> norm_num <;> linarith

/-- C62: the two numberings of the local coordinates (those scaled to the unit box and the proper ones) are inverse
of each other. -/
theorem C62_basic (s : Shape) (hy : s.span.y ≠ 0) (hz : s.span.z ≠ 0) (t : V3) :
    localToBasic s (basicToLocal s t) = t ∧ basicToLocal s (localToBasic s t) = t := by
  rcases hk : s.kind <;> simp only [localToBasic, basicToLocal, localOrigin, hk] <;> constructor <;> ext <;>
    simp only [add_x, add_y, add_z, sub_x, sub_y, sub_z] <;> (try field_simp) <;> ring

example : (basic .sphere).span.y ≠ 0 ∧ (basic .sphere).span.z ≠ 0 := by
  simp [basic, pi_ne_zero]

end Verif.Shape
