import Verif.Manip.FilterProps
/-
C79 (rotation), C80 (translation), C82 (twist).
-/
namespace Verif.Manip
open Verif.Field Verif.Mesh Verif.Shape
open List hiding get

noncomputable section
open scoped Classical

/-! ### Specification of a rotation of angle `θ` about the axis through `o` with unit direction `u` -/

/-- the part of `p - o` orthogonal to the axis -/
def radial (o u p : V3) : V3 := p - o - V3.scale (dot (p - o) u) u

/-- `p'` is `p` turned by `θ` about the axis, counterclockwise: same position along the axis, same distance from it, and
the angle between the two radii is `θ` -/
structure Turned (o u : V3) (θ : ℝ) (p p' : V3) : Prop where
  axial : dot (p' - o) u = dot (p - o) u
  radius : dot (radial o u p') (radial o u p') = dot (radial o u p) (radial o u p)
  cos : dot (radial o u p) (radial o u p') = Real.cos θ * dot (radial o u p) (radial o u p)
  sin : dot u (cross (radial o u p) (radial o u p')) = Real.sin θ * dot (radial o u p) (radial o u p)

theorem sub_self_eq {a b : V3} (h : dot (a - b) (a - b) = 0) : a = b := by
  have := dot_self_eq_zero h
  have hx := congrArg V3.x this
  have hy := congrArg V3.y this
  have hz := congrArg V3.z this
  simp only [sub_x, sub_y, sub_z] at hx hy hz
  ext <;> linarith

/-- the specification determines the turned point -/
theorem turned_unique {o u : V3} (hu : dot u u = 1) {θ : ℝ} {p a b : V3} (ha : Turned o u θ p a) (hb : Turned o u θ p b) :
    a = b := by
  have key : ∀ {c : V3}, Turned o u θ p c → c = V3.scale (Real.cos θ) (radial o u p) +
      V3.scale (Real.sin θ) (cross u (radial o u p)) + (o + V3.scale (dot (p - o) u) u) := by
    intro c hc
    have e : c = radial o u c + (o + V3.scale (dot (p - o) u) u) := by
      rw [← hc.axial]
      ext <;> simp [radial, V3.scale]
    have hr : dot u (radial o u p) = 0 := by
      have : dot u (radial o u p) = dot (p - o) u * (1 - dot u u) := by
        simp only [radial, dot, sub_x, sub_y, sub_z, V3.scale]; ring
      rw [this, hu]; ring
    have h2 : radial o u c = V3.scale (Real.cos θ) (radial o u p) + V3.scale (Real.sin θ) (cross u (radial o u p)) := by
      apply sub_self_eq
      have hcs := Real.sin_sq_add_cos_sq θ
      have e1 := hc.radius
      have e2 := hc.cos
      have e3 := hc.sin
      revert e1 e2 e3 hr
      generalize radial o u c = r'
      generalize radial o u p = r
      intro hr e1 e2 e3
      have l := lagrange u r
      rw [hu, hr] at l
      have t : dot u (cross r r') = dot r' (cross u r) := by
        simp only [dot, cross]; ring
      have x : dot (r' - (V3.scale (Real.cos θ) r + V3.scale (Real.sin θ) (cross u r)))
          (r' - (V3.scale (Real.cos θ) r + V3.scale (Real.sin θ) (cross u r))) =
          dot r' r' + Real.cos θ ^ 2 * dot r r + Real.sin θ ^ 2 * dot (cross u r) (cross u r)
            - 2 * Real.cos θ * dot r r' - 2 * Real.sin θ * dot r' (cross u r) := by
        simp only [dot, cross, sub_x, sub_y, sub_z, add_x, add_y, add_z, V3.scale]; ring
      rw [x, e1, e2, l, ← t, e3]
      linear_combination (-dot r r) * hcs
    rw [← h2]
    exact e
  rw [key ha, key hb]

/-! ### The formula of the code meets the specification -/

theorem rodrigues_dot {u : V3} (hu : dot u u = 1) (θ : ℝ) (v : V3) : dot (rodrigues u θ v) u = dot v u := by
  have e : dot (rodrigues u θ v) u = Real.cos θ * dot v u + dot v u * (1 - Real.cos θ) * dot u u := by
    simp only [rodrigues, dot, cross, V3.scale, add_x, add_y, add_z]; ring
  rw [e, hu]; ring

theorem rodrigues_norm {u : V3} (hu : dot u u = 1) (θ : ℝ) (v : V3) :
    dot (rodrigues u θ v) (rodrigues u θ v) = dot v v := by
  have l := lagrange u v
  rw [hu] at l
  have hcs := Real.sin_sq_add_cos_sq θ
  have e : dot (rodrigues u θ v) (rodrigues u θ v) = Real.cos θ ^ 2 * dot v v +
      (dot u v) ^ 2 * (1 - Real.cos θ) ^ 2 * dot u u + 2 * Real.cos θ * (1 - Real.cos θ) * (dot u v) ^ 2 +
      Real.sin θ ^ 2 * dot (cross u v) (cross u v) := by
    simp only [rodrigues, dot, cross, V3.scale, add_x, add_y, add_z]; ring
  rw [e, hu, l]
  linear_combination (dot v v - dot u v ^ 2) * hcs

theorem rodrigues_sub (u : V3) (θ : ℝ) (a b : V3) : rodrigues u θ a - rodrigues u θ b = rodrigues u θ (a - b) := by
  ext <;> simp only [rodrigues, dot, cross, V3.scale, add_x, add_y, add_z, sub_x, sub_y, sub_z] <;> ring

theorem add_sub_self (a b : V3) : a + b - b = a := by ext <;> simp

theorem rodrigues_turned {o u : V3} (hu : dot u u = 1) (θ : ℝ) (p : V3) :
    Turned o u θ p (rodrigues u θ (p - o) + o) := by
  have hcs := Real.sin_sq_add_cos_sq θ
  have ha := rodrigues_dot hu θ (p - o)
  have hr : radial o u (rodrigues u θ (p - o) + o) =
      V3.scale (Real.cos θ) (radial o u p) + V3.scale (Real.sin θ) (cross u (radial o u p)) := by
    unfold radial
    rw [add_sub_self, ha]
    generalize p - o = q
    ext <;> simp only [rodrigues, dot, cross, V3.scale, add_x, add_y, add_z, sub_x, sub_y, sub_z] <;> ring
  have h0 : dot u (radial o u p) = 0 := by
    have : dot u (radial o u p) = dot (p - o) u * (1 - dot u u) := by
      simp only [radial, dot, sub_x, sub_y, sub_z, V3.scale]; ring
    rw [this, hu]; ring
  have l := lagrange u (radial o u p)
  rw [hu, h0] at l
  refine ⟨by rw [add_sub_self, ha], ?_, ?_, ?_⟩ <;> rw [hr] <;> revert l h0 <;> generalize radial o u p = r <;>
    intro h0 l
  · have e : dot (V3.scale (Real.cos θ) r + V3.scale (Real.sin θ) (cross u r))
        (V3.scale (Real.cos θ) r + V3.scale (Real.sin θ) (cross u r)) =
        Real.cos θ ^ 2 * dot r r + Real.sin θ ^ 2 * dot (cross u r) (cross u r) := by
      simp only [dot, cross, V3.scale, add_x, add_y, add_z]; ring
    rw [e, l]
    linear_combination (dot r r) * hcs
  · simp only [dot, cross, V3.scale, add_x, add_y, add_z]; ring
  · have e : dot u (cross r (V3.scale (Real.cos θ) r + V3.scale (Real.sin θ) (cross u r))) =
        Real.sin θ * dot (cross u r) (cross u r) := by
      simp only [dot, cross, V3.scale, add_x, add_y, add_z]; ring
    rw [e, l]
    ring

/-- turning is rigid -/
theorem turned_rigid {o u : V3} (hu : dot u u = 1) {θ : ℝ} {p q p' q' : V3} (hp : Turned o u θ p p')
    (hq : Turned o u θ q q') : norm2 (p' - q') = norm2 (p - q) := by
  rw [turned_unique hu hp (rodrigues_turned hu θ p), turned_unique hu hq (rodrigues_turned hu θ q)]
  have e : rodrigues u θ (p - o) + o - (rodrigues u θ (q - o) + o) = rodrigues u θ (p - q) := by
    have : p - q = (p - o) - (q - o) := by ext <;> simp
    rw [this, ← rodrigues_sub u θ (p - o) (q - o)]
    ext <;> simp
  unfold norm2
  rw [e, rodrigues_norm hu]

/-- specification: `u` is the direction of `d` -/
structure DirectionOf (d u : V3) : Prop where
  unit : dot u u = 1
  along : d = V3.scale (norm2 d) u

theorem direction_unit {d : V3} (h : d ≠ ⟨0, 0, 0⟩) : DirectionOf d d.unit := by
  have hn : norm2 d ≠ 0 := fun e => h (norm2_eq_zero.1 e)
  refine ⟨unit_dot (lt_of_le_of_ne (norm2_nonneg d) (Ne.symm hn)), ?_⟩
  ext <;> simp only [V3.scale, V3.unit] <;> field_simp

/-! ### Execution and application, without filter -/

/-- what a transformation block does to the geometry when executed without filter and applied -/
theorem run_apply {w w' : World} (hw : WorldOk w) {b b' : Block} (hf : Ok b.filter.data) {g : Nat} (hg : b.geom = some g)
    (hu : ¬ Usable w g b.filter) {value : Obj V3 → V3 → ℝ → V3} (hr : b.run w value = some b')
    (ha : b'.apply w = some w') :
    (∀ id p, get (w g).verts id = some p → get (w' g).verts id = some (p + value (w g) p 1)) ∧
    (w' g).verts.map Prod.fst = (w g).verts.map Prod.fst := by
  obtain ⟨c, h1, h2, h3, h4, h5, h6, -⟩ := run_spec hw hf hg value
  rw [hr] at h1
  cases h1
  obtain ⟨k1, k2, -⟩ := C77_apply hw h2 ⟨h3, h4, h5⟩ ha
  refine ⟨?_, k2⟩
  intro id p hp
  obtain ⟨d, hd, hd'⟩ := k1 id p hp
  rw [h6 id p hp, weight, if_neg hu] at hd
  cases hd
  exact hd'

/-! ### C79 -/

/-- C79 (part): RotationGeometry executed without filter and applied turns every vertex by the given angle about the
axis, if the direction of the axis has unit length, in particular if it was given by setDirection; hence distances
between vertices do not change.  Missing: directions of other lengths given by setAxis, the constructor or the port
(C79_axis_fails). -/
theorem C79_turn_partial {w w' : World} (hw : WorldOk w) {t t' : Rotation} (hf : Ok t.filter.data) {g : Nat}
    (hg : t.geom = some g) (hn : ¬ Usable w g t.filter) (hu : dot t.direction t.direction = 1)
    (he : t.execute w = some t') (ha : t'.apply w = some w') :
    (∀ id p, get (w g).verts id = some p →
      ∃ p', get (w' g).verts id = some p' ∧ Turned t.origin t.direction t.alpha p p') ∧
    ∀ i j p q p' q', get (w g).verts i = some p → get (w g).verts j = some q → get (w' g).verts i = some p' →
      get (w' g).verts j = some q' → norm2 (p' - q') = norm2 (p - q) := by
  simp only [Rotation.execute, Option.map_eq_some_iff] at he
  obtain ⟨b, hb, rfl⟩ := he
  obtain ⟨h1, -⟩ := run_apply hw hf hg hn hb ha
  have key : ∀ id p, get (w g).verts id = some p →
      ∃ p', get (w' g).verts id = some p' ∧ Turned t.origin t.direction t.alpha p p' := by
    intro id p hp
    refine ⟨_, h1 id p hp, ?_⟩
    have : p + t.value (w g) p 1 = rodrigues t.direction t.alpha (p - t.origin) + t.origin := by
      simp only [Rotation.value, scale_one]
      ext <;> simp only [add_x, add_y, add_z, sub_x, sub_y, sub_z] <;> ring
    rw [this]
    exact rodrigues_turned hu _ _
  refine ⟨key, ?_⟩
  intro i j p q p' q' hp hq hp' hq'
  obtain ⟨a, a1, a2⟩ := key i p hp
  obtain ⟨c, c1, c2⟩ := key j q hq
  rw [hp'] at a1; cases a1
  rw [hq'] at c1; cases c1
  exact turned_rigid hu a2 c2

/-- C79: setDirection with a vector that is not zero gives the axis the direction of the vector. -/
theorem C79_direction (t : Rotation) {d : V3} (h : d ≠ ⟨0, 0, 0⟩) : DirectionOf d (t.setDirection d).direction ∧
    (t.setDirection d).origin = t.origin ∧ (t.setDirection d).alpha = t.alpha ∧
    (t.setDirection d).toBlock = t.toBlock := ⟨direction_unit h, rfl, rfl, rfl⟩

/-- C79 is false for an axis given by setAxis (or the constructor, or the port) whose direction has not unit length: a
vertex off the axis, in the plane through the origin orthogonal to it, changes its distance from the origin. -/
theorem C79_axis_fails {w w' : World} (hw : WorldOk w) {t t' : Rotation} (o d : V3) (hf : Ok t.filter.data) {g : Nat}
    (hg : t.geom = some g) (hn : ¬ Usable w g t.filter) (hd : dot d d ≠ 1) (hs : Real.sin t.alpha ≠ 0)
    (he : (t.setAxis o d).execute w = some t') (ha : t'.apply w = some w')
    {id : Nat} {p p' : V3} (hp : get (w g).verts id = some p) (hp' : get (w' g).verts id = some p')
    (hpo : p ≠ o) (horth : dot d (p - o) = 0) : norm2 (p' - o) ≠ norm2 (p - o) := by
  simp only [Rotation.execute, Option.map_eq_some_iff] at he
  obtain ⟨b, hb, rfl⟩ := he
  obtain ⟨h1, -⟩ := run_apply (b := (t.setAxis o d).toBlock) hw hf hg hn hb ha
  rw [h1 id p hp] at hp'
  cases hp'
  have e : p + (t.setAxis o d).value (w g) p 1 - o = rodrigues d t.alpha (p - o) := by
    simp only [Rotation.value, scale_one, Rotation.setAxis]
    ext <;> simp only [add_x, add_y, add_z, sub_x, sub_y, sub_z] <;> ring
  rw [e]
  have l := lagrange d (p - o)
  rw [horth] at l
  have hq : dot (p - o) (p - o) ≠ 0 := fun h => hpo (sub_self_eq h)
  revert l horth hq
  generalize p - o = q
  intro horth l hq h
  have h2 : dot (rodrigues d t.alpha q) (rodrigues d t.alpha q) = dot q q := by
    have := congrArg (fun x => x * x) h
    simp only [norm2_sq] at this
    exact this
  have e2 : dot (rodrigues d t.alpha q) (rodrigues d t.alpha q) = Real.cos t.alpha ^ 2 * dot q q +
      (dot d q) ^ 2 * (1 - Real.cos t.alpha) ^ 2 * dot d d +
      2 * Real.cos t.alpha * (1 - Real.cos t.alpha) * (dot d q) ^ 2 +
      Real.sin t.alpha ^ 2 * dot (cross d q) (cross d q) := by
    simp only [rodrigues, dot, cross, V3.scale, add_x, add_y, add_z]; ring
  rw [e2, l, horth] at h2
  have hcs := Real.sin_sq_add_cos_sq t.alpha
  have h3 : Real.sin t.alpha ^ 2 * ((dot d d - 1) * dot q q) = 0 := by
    linear_combination h2 - (dot q q) * hcs
  rcases mul_eq_zero.1 h3 with h4 | h4
  · exact hs (pow_eq_zero_iff (two_ne_zero)|>.1 h4)
  · rcases mul_eq_zero.1 h4 with h5 | h5
    · exact hd (by linarith)
    · exact hq h5

/-! ### C80 -/

/-- C80: TranslationGeometry executed without filter and applied moves all vertices by the same vector: the value times
the direction. -/
theorem C80_same_vector {w w' : World} (hw : WorldOk w) {t t' : Translation} (hf : Ok t.filter.data) {g : Nat}
    (hg : t.geom = some g) (hn : ¬ Usable w g t.filter) (he : t.execute w = some t') (ha : t'.apply w = some w') :
    ∀ id p, get (w g).verts id = some p → get (w' g).verts id = some (p + V3.scale t.alpha t.direction) := by
  simp only [Translation.execute, Option.map_eq_some_iff] at he
  obtain ⟨b, hb, rfl⟩ := he
  obtain ⟨h1, -⟩ := run_apply hw hf hg hn hb ha
  intro id p hp
  rw [h1 id p hp]
  simp only [Translation.value, scale_one]

/-- C80 (part): if the direction was given by setDirection every vertex moves by exactly the given length, along the
given direction.  Missing: directions given by the constructor or the port (C80_port_fails). -/
theorem C80_length_partial {w w' : World} (hw : WorldOk w) {t t' : Translation} {d : V3} (hd : d ≠ ⟨0, 0, 0⟩)
    (hf : Ok t.filter.data) {g : Nat} (hg : t.geom = some g) (hn : ¬ Usable w g t.filter)
    (he : (t.setDirection d).execute w = some t') (ha : t'.apply w = some w')
    {id : Nat} {p p' : V3} (hp : get (w g).verts id = some p) (hp' : get (w' g).verts id = some p') :
    norm2 (p' - p) = |t.alpha| ∧ ∃ u, DirectionOf d u ∧ p' - p = V3.scale t.alpha u := by
  have h := C80_same_vector (t := t.setDirection d) hw hf hg hn he ha id p hp
  rw [hp'] at h
  cases h
  have hu := direction_unit hd
  have e : p + V3.scale (t.setDirection d).alpha (t.setDirection d).direction - p = V3.scale t.alpha d.unit := by
    ext <;> simp [Translation.setDirection, normalize, V3.scale]
  rw [e]
  refine ⟨?_, d.unit, hu, rfl⟩
  have : dot (V3.scale t.alpha d.unit) (V3.scale t.alpha d.unit) = t.alpha ^ 2 * dot d.unit d.unit := by
    simp only [dot, V3.scale]; ring
  rw [norm2, this, hu.unit, mul_one, Real.sqrt_sq_eq_abs]

/-- C80 is false for a direction given through the port (or the constructor) that has not unit length. -/
theorem C80_port_fails {w w' : World} (hw : WorldOk w) {t t' : Translation} {d : V3} (hd : dot d d ≠ 1)
    (h0 : t.alpha ≠ 0) (hf : Ok t.filter.data) {g : Nat} (hg : t.geom = some g) (hn : ¬ Usable w g t.filter)
    (he : (t.portAxis d).execute w = some t') (ha : t'.apply w = some w')
    {id : Nat} {p p' : V3} (hp : get (w g).verts id = some p) (hp' : get (w' g).verts id = some p') :
    norm2 (p' - p) ≠ |t.alpha| := by
  have h := C80_same_vector (t := t.portAxis d) hw hf hg hn he ha id p hp
  rw [hp'] at h
  cases h
  have e : p + V3.scale (t.portAxis d).alpha (t.portAxis d).direction - p = V3.scale t.alpha d := by
    ext <;> simp [Translation.portAxis, V3.scale]
  rw [e]
  intro h
  have h2 := congrArg (fun x => x * x) h
  simp only [norm2_sq, abs_mul_abs_self] at h2
  have : dot (V3.scale t.alpha d) (V3.scale t.alpha d) = t.alpha * t.alpha * dot d d := by
    simp only [dot, V3.scale]; ring
  rw [this] at h2
  have h3 : t.alpha * t.alpha * (dot d d - 1) = 0 := by linear_combination h2
  rcases mul_eq_zero.1 h3 with h4 | h4
  · exact h0 (mul_self_eq_zero.1 h4)
  · exact hd (by linarith)

/-! ### C82 -/

/-- specification: the angle of the twist at the signed position `x` along the axis: from 0 at the origin it grows
linearly to the given angle at the given distance and stays there; behind the origin it is 0, or the opposite one if the
twist is symmetric -/
def twistAngle (alpha distance : ℝ) (sym : Bool) (x : ℝ) : ℝ :=
  if 0 ≤ x then (if x ≤ distance then x / distance * alpha else alpha)
  else if sym then (if -x ≤ distance then x / distance * alpha else -alpha)
  else 0

theorem angle_eq {t : Twist} (ha : 0 ≤ t.alpha) (hd : 0 < t.distance) (x : ℝ) :
    t.angle x = twistAngle t.alpha t.distance t.sym x := by
  have key : ∀ y : ℝ, min t.alpha (y / t.distance * t.alpha) = if y ≤ t.distance then y / t.distance * t.alpha
      else t.alpha := by
    intro y
    by_cases hy : y ≤ t.distance
    · rw [if_pos hy, min_eq_right]
      have : y / t.distance ≤ 1 := by rw [div_le_one hd]; exact hy
      nlinarith
    · rw [if_neg hy, min_eq_left]
      have : 1 ≤ y / t.distance := by rw [one_le_div hd]; linarith
      nlinarith
  unfold Twist.angle twistAngle
  by_cases hx : x < 0
  · have hx' : ¬ 0 ≤ x := by linarith
    simp only [hx, if_true, hx', if_false, abs_of_neg hx, key]
    cases t.sym
    · simp
    · simp only [if_true, mul_one]
      split
      · ring
      · rfl
  · have hx' : 0 ≤ x := by linarith
    simp only [hx, if_false, hx', if_true, abs_of_nonneg hx', key]

theorem twist_value {t : Twist} (hu : dot t.direction t.direction = 1) (o : Obj V3) (p : V3) :
    Turned t.origin t.direction (t.angle (dot (p - t.origin) t.direction)) p (p + t.value o p 1) := by
  set θ := t.angle (dot (p - t.origin) t.direction) with hθ
  have e : p + t.value o p 1 = rodrigues t.direction θ (p - t.origin) + t.origin := by
    have e1 : p - (V3.scale (dot (p - t.origin) t.direction) t.direction + t.origin) =
        p - t.origin - V3.scale (dot (p - t.origin) t.direction) t.direction := by
      ext <;> simp <;> ring
    have e2 : rodrigues t.direction θ (p - t.origin) - rodrigues t.direction θ
        (V3.scale (dot (p - t.origin) t.direction) t.direction) =
        rodrigues t.direction θ (p - t.origin - V3.scale (dot (p - t.origin) t.direction) t.direction) :=
      rodrigues_sub _ _ _ _
    have e3 : ∀ k : ℝ, rodrigues t.direction θ (V3.scale k t.direction) = V3.scale k t.direction := by
      intro k
      have hd : dot t.direction (V3.scale k t.direction) = k := by
        have : dot t.direction (V3.scale k t.direction) = k * dot t.direction t.direction := by
          simp only [dot, V3.scale]; ring
        rw [this, hu, mul_one]
      unfold rodrigues
      rw [hd]
      ext <;> simp only [V3.scale, cross, add_x, add_y, add_z] <;> ring
    simp only [Twist.value, scale_one, ← hθ]
    rw [e1, ← e2, e3]
    ext <;> simp only [add_x, add_y, add_z, sub_x, sub_y, sub_z] <;> ring
  rw [e]
  exact rodrigues_turned hu _ _

/-- C82 (part): TwistGeometry executed without filter and applied turns every vertex about the axis by an angle that
grows linearly with the position along the axis up to the given one, if the angle is not negative, the distance is
positive and the axis has unit length.  Missing: negative angles (C82_negative_fails). -/
theorem C82_twist_partial {w w' : World} (hw : WorldOk w) {t t' : Twist} (hf : Ok t.filter.data) {g : Nat}
    (hg : t.geom = some g) (hn : ¬ Usable w g t.filter) (hu : dot t.direction t.direction = 1)
    (hα : 0 ≤ t.alpha) (hd : 0 < t.distance) (he : t.execute w = some t') (ha : t'.apply w = some w') :
    ∀ id p, get (w g).verts id = some p → ∃ p', get (w' g).verts id = some p' ∧
      Turned t.origin t.direction (twistAngle t.alpha t.distance t.sym (dot (p - t.origin) t.direction)) p p' := by
  simp only [Twist.execute, Option.map_eq_some_iff] at he
  obtain ⟨b, hb, rfl⟩ := he
  obtain ⟨h1, -⟩ := run_apply hw hf hg hn hb ha
  intro id p hp
  refine ⟨_, h1 id p hp, ?_⟩
  rw [← angle_eq hα hd]
  exact twist_value hu _ _

/-- C82: setDirection with a vector that is not zero gives the axis the direction of the vector. -/
theorem C82_direction (t : Twist) {d : V3} (h : d ≠ ⟨0, 0, 0⟩) : DirectionOf d (t.setDirection d).direction ∧
    (t.setDirection d).origin = t.origin ∧ (t.setDirection d).alpha = t.alpha ∧
    (t.setDirection d).distance = t.distance ∧ (t.setDirection d).sym = t.sym ∧
    (t.setDirection d).toBlock = t.toBlock := ⟨direction_unit h, rfl, rfl, rfl, rfl, rfl⟩

/-- C82 is false for a negative angle (a clockwise twist): all vertices between the origin and the distance are turned
by the full angle, even those in the plane of the origin, which should not move, and beyond the distance the angle keeps
growing. -/
theorem C82_negative_fails {w w' : World} (hw : WorldOk w) {t t' : Twist} (hf : Ok t.filter.data) {g : Nat}
    (hg : t.geom = some g) (hn : ¬ Usable w g t.filter) (hu : dot t.direction t.direction = 1)
    (hα : t.alpha < 0) (hd : 0 < t.distance) (he : t.execute w = some t') (ha : t'.apply w = some w')
    {id : Nat} {p p' : V3} (hp : get (w g).verts id = some p) (hp' : get (w' g).verts id = some p') :
    (0 ≤ dot (p - t.origin) t.direction → dot (p - t.origin) t.direction ≤ t.distance →
      Turned t.origin t.direction t.alpha p p') ∧
    (t.distance ≤ dot (p - t.origin) t.direction →
      Turned t.origin t.direction (dot (p - t.origin) t.direction / t.distance * t.alpha) p p') ∧
    (dot (p - t.origin) t.direction = 0 → p ≠ t.origin → Real.cos t.alpha ≠ 1 → p' ≠ p) := by
  simp only [Twist.execute, Option.map_eq_some_iff] at he
  obtain ⟨b, hb, rfl⟩ := he
  obtain ⟨h1, -⟩ := run_apply hw hf hg hn hb ha
  rw [h1 id p hp] at hp'
  cases hp'
  have hv := twist_value hu (w g) p
  have near : 0 ≤ dot (p - t.origin) t.direction → dot (p - t.origin) t.direction ≤ t.distance →
      Turned t.origin t.direction t.alpha p (p + t.value (w g) p 1) := by
    intro h0 h1
    have : t.angle (dot (p - t.origin) t.direction) = t.alpha := by
      have hx : ¬ dot (p - t.origin) t.direction < 0 := by linarith
      simp only [Twist.angle, hx, if_false, abs_of_nonneg h0]
      rw [min_eq_left]
      have : dot (p - t.origin) t.direction / t.distance ≤ 1 := by rw [div_le_one hd]; exact h1
      nlinarith
    rw [this] at hv
    exact hv
  refine ⟨near, ?_, ?_⟩
  · intro h1
    have : t.angle (dot (p - t.origin) t.direction) = dot (p - t.origin) t.direction / t.distance * t.alpha := by
      have hx : ¬ dot (p - t.origin) t.direction < 0 := by linarith
      simp only [Twist.angle, hx, if_false, abs_of_nonneg (by linarith : 0 ≤ dot (p - t.origin) t.direction)]
      rw [min_eq_right]
      have : 1 ≤ dot (p - t.origin) t.direction / t.distance := by rw [one_le_div hd]; exact h1
      nlinarith
    rw [this] at hv
    exact hv
  · intro h0 hpo hc heq
    have := near (by rw [h0]) (by rw [h0]; exact le_of_lt hd)
    rw [heq] at this
    have hcos := this.cos
    have hr : radial t.origin t.direction p = p - t.origin := by
      rw [radial, h0]; ext <;> simp [V3.scale]
    rw [hr] at hcos
    have hq : dot (p - t.origin) (p - t.origin) ≠ 0 := fun h => hpo (sub_self_eq h)
    apply hc
    have : (Real.cos t.alpha - 1) * dot (p - t.origin) (p - t.origin) = 0 := by linear_combination -hcos
    rcases mul_eq_zero.1 this with h | h
    · linarith
    · exact absurd h hq

/-! ### Cases that meet the hypotheses -/

theorem demo_update (o : Obj V3) (h : o.skd.st = .none) : ∃ o', update o = some o' := by
  have h2 : (stepInt (stepAdj o)).skd.st = .none := by
    unfold stepInt stepAdj updateInt updateAdj
    repeat' split
    all_goals first | exact h | simp_all
  unfold update stepSkd
  rw [if_neg (by rw [h2]; decide)]
  exact ⟨_, rfl⟩

theorem applyLoop_skd (disp : Data V3) : ∀ (ids : List Nat) (o : Obj V3), o.skd.st = .none →
    (applyLoop disp ids o).skd.st = .none
  | [], _, h => h
  | id :: ids, o, h => by
    unfold applyLoop
    cases get o.verts id with
    | none => exact applyLoop_skd disp ids o h
    | some p =>
      apply applyLoop_skd disp ids
      unfold modifyVertex
      split
      · simp only [h]; rfl
      · exact h

theorem demo_apply {b : Block} {g : Nat} (hg : b.geom = some g) : ∃ w', b.apply demoWorld = some w' := by
  obtain ⟨o', ho⟩ := demo_update _ (applyLoop_skd b.displ.data ((demoWorld g).verts.map Prod.fst) (demoWorld g) rfl)
  exact ⟨_, by simp only [Block.apply, hg, applyDisp, ho]; rfl⟩

theorem demo_run {b : Block} (hf : Ok b.filter.data) {g : Nat} (hg : b.geom = some g)
    (value : Obj V3 → V3 → ℝ → V3) : ∃ b' w', b.run demoWorld value = some b' ∧ b'.apply demoWorld = some w' := by
  obtain ⟨b', h1, h2, -⟩ := run_spec demoWorld_ok hf hg value
  obtain ⟨w', h3⟩ := demo_apply h2
  exact ⟨b', w', h1, h3⟩

theorem noFilter_not_usable (w : World) (g : Nat) : ¬ Usable w g noFilter := by rintro ⟨h, -⟩; cases h

/-- a block on the demo geometry, without filter -/
def demoBlock : Block := ⟨some 0, noFilter, make none .undefined⟩

def demoRotation : Rotation := { demoBlock with origin := ⟨0, 0, 0⟩, direction := ⟨0, 0, 1⟩, alpha := Real.pi / 2 }

example : ∃ t' w', demoRotation.execute demoWorld = some t' ∧ t'.apply demoWorld = some w' ∧
    demoRotation.geom = some 0 ∧ Ok demoRotation.filter.data ∧ ¬ Usable demoWorld 0 demoRotation.filter ∧
    dot demoRotation.direction demoRotation.direction = 1 := by
  obtain ⟨b, w', h1, h2⟩ := demo_run (b := demoBlock) (g := 0) (by simp [Ok, demoBlock, noFilter, make]) rfl
    demoRotation.value
  refine ⟨{ demoRotation with toBlock := b }, w', ?_, h2, rfl, by simp [Ok, demoRotation, demoBlock, noFilter, make],
    noFilter_not_usable _ _, by simp [demoRotation, dot]⟩
  simp only [Rotation.execute]
  exact congrArg (Option.map _) h1

/-- the axis (0, 0, 2) and a right angle take the vertex (1, 0, 0) to (0, 2, 0) -/
example : ∃ t' w', (demoRotation.setAxis ⟨0, 0, 0⟩ ⟨0, 0, 2⟩).execute demoWorld = some t' ∧
    t'.apply demoWorld = some w' ∧ dot (⟨0, 0, 2⟩ : V3) ⟨0, 0, 2⟩ ≠ 1 ∧ Real.sin demoRotation.alpha ≠ 0 ∧
    get (demoWorld 0).verts 4 = some ⟨1, 0, 0⟩ ∧ get (w' 0).verts 4 = some ⟨0, 2, 0⟩ ∧
    (⟨1, 0, 0⟩ : V3) ≠ ⟨0, 0, 0⟩ ∧ dot (⟨0, 0, 2⟩ : V3) (⟨1, 0, 0⟩ - ⟨0, 0, 0⟩) = 0 := by
  have hok : Ok demoBlock.filter.data := by simp [Ok, demoBlock, noFilter, make]
  obtain ⟨b, w', h1, h2⟩ := demo_run (b := demoBlock) (g := 0) hok rfl
    (demoRotation.setAxis ⟨0, 0, 0⟩ ⟨0, 0, 2⟩).value
  have h3 := (run_apply demoWorld_ok hok rfl (noFilter_not_usable _ _) h1 h2).1 4 ⟨1, 0, 0⟩
    (by simp [demoWorld, demoObj, Verif.Field.get])
  refine ⟨{ demoRotation.setAxis ⟨0, 0, 0⟩ ⟨0, 0, 2⟩ with toBlock := b }, w', ?_, h2, by norm_num [dot], ?_, ?_, ?_, ?_, ?_⟩
  · simp only [Rotation.execute]
    exact congrArg (Option.map _) h1
  · simp [demoRotation]
  · simp [demoWorld, demoObj, Verif.Field.get]
  · rw [h3]
    congr 1
    ext <;> simp [Rotation.value, Rotation.setAxis, demoRotation, rodrigues, V3.scale, dot, cross]
  · intro h; have := congrArg V3.x h; simp at this
  · simp [dot]

def demoTwist : Twist :=
  { demoBlock with origin := ⟨0, 0, 0⟩, direction := ⟨0, 1, 0⟩, alpha := 1, distance := 1, sym := true }

example : ∃ t' w', demoTwist.execute demoWorld = some t' ∧ t'.apply demoWorld = some w' ∧
    dot demoTwist.direction demoTwist.direction = 1 ∧ 0 ≤ demoTwist.alpha ∧ 0 < demoTwist.distance ∧
    twistAngle 1 1 true (1 / 2) = 1 / 2 ∧ twistAngle 1 1 true (-3) = -1 ∧ twistAngle 1 1 false (-3) = 0 ∧
    twistAngle 1 1 true 0 = 0 := by
  obtain ⟨b, w', h1, h2⟩ := demo_run (b := demoBlock) (g := 0) (by simp [Ok, demoBlock, noFilter, make]) rfl
    demoTwist.value
  refine ⟨{ demoTwist with toBlock := b }, w', ?_, h2, by simp [demoTwist, dot], by simp [demoTwist],
    by simp [demoTwist], ?_, ?_, ?_, ?_⟩
  · simp only [Twist.execute]
    exact congrArg (Option.map _) h1
  all_goals norm_num [twistAngle]

/-- a clockwise twist about the y axis: the vertex (1, 0, 0) lies in the plane of the origin -/
example : ∃ t' w', (demoTwist.setTwist (-1)).execute demoWorld = some t' ∧ t'.apply demoWorld = some w' ∧
    (demoTwist.setTwist (-1)).alpha < 0 ∧ get (demoWorld 0).verts 4 = some ⟨1, 0, 0⟩ ∧
    dot ((⟨1, 0, 0⟩ : V3) - demoTwist.origin) demoTwist.direction = 0 ∧ (⟨1, 0, 0⟩ : V3) ≠ demoTwist.origin := by
  obtain ⟨b, w', h1, h2⟩ := demo_run (b := demoBlock) (g := 0) (by simp [Ok, demoBlock, noFilter, make]) rfl
    (demoTwist.setTwist (-1)).value
  refine ⟨{ demoTwist.setTwist (-1) with toBlock := b }, w', ?_, h2, by simp [Twist.setTwist],
    by simp [demoWorld, demoObj, Verif.Field.get], by simp [dot, demoTwist], ?_⟩
  · simp only [Twist.execute]
    exact congrArg (Option.map _) h1
  · intro h; have := congrArg V3.x h; simp [demoTwist] at this

def demoTranslation : Translation := { demoBlock with direction := ⟨1, 0, 0⟩, alpha := 3 }

example : ∃ t' w', (demoTranslation.setDirection ⟨0, 3, 4⟩).execute demoWorld = some t' ∧
    t'.apply demoWorld = some w' ∧ (⟨0, 3, 4⟩ : V3) ≠ ⟨0, 0, 0⟩ := by
  obtain ⟨b, w', h1, h2⟩ := demo_run (b := demoBlock) (g := 0) (by simp [Ok, demoBlock, noFilter, make]) rfl
    (demoTranslation.setDirection ⟨0, 3, 4⟩).value
  refine ⟨{ demoTranslation.setDirection ⟨0, 3, 4⟩ with toBlock := b }, w', ?_, h2, ?_⟩
  · simp only [Translation.execute]
    exact congrArg (Option.map _) h1
  · intro h; have := congrArg V3.y h; simp at this

example : ∃ t' w', (demoTranslation.portAxis ⟨0, 3, 4⟩).execute demoWorld = some t' ∧
    t'.apply demoWorld = some w' ∧ dot (⟨0, 3, 4⟩ : V3) ⟨0, 3, 4⟩ ≠ 1 ∧ demoTranslation.alpha ≠ 0 := by
  obtain ⟨b, w', h1, h2⟩ := demo_run (b := demoBlock) (g := 0) (by simp [Ok, demoBlock, noFilter, make]) rfl
    (demoTranslation.portAxis ⟨0, 3, 4⟩).value
  refine ⟨{ demoTranslation.portAxis ⟨0, 3, 4⟩ with toBlock := b }, w', ?_, h2, by norm_num [dot],
    by norm_num [demoTranslation]⟩
  simp only [Translation.execute]
  exact congrArg (Option.map _) h1

end
end Verif.Manip
