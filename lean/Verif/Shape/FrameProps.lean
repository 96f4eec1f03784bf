import Verif.Shape.Model
/-
C62 (local and world coordinates), C63 (reference system), C64 (limits).
-/
namespace Verif.Shape
open Real

@[simp] theorem add_x (a b : V3) : (a + b).x = a.x + b.x := rfl
@[simp] theorem add_y (a b : V3) : (a + b).y = a.y + b.y := rfl
@[simp] theorem add_z (a b : V3) : (a + b).z = a.z + b.z := rfl
@[simp] theorem sub_x (a b : V3) : (a - b).x = a.x - b.x := rfl
@[simp] theorem sub_y (a b : V3) : (a - b).y = a.y - b.y := rfl
@[simp] theorem sub_z (a b : V3) : (a - b).z = a.z - b.z := rfl

theorem inv_app {m : M3} (h : m.det ≠ 0) (v : V3) : m.inverse.app (m.app v) = v := by
  have h' := h
  unfold M3.det at h'
  ext <;> simp only [M3.app, M3.inverse, dot] <;> field_simp <;> simp only [M3.det] <;> ring

theorem app_inv {m : M3} (h : m.det ≠ 0) (v : V3) : m.app (m.inverse.app v) = v := by
  ext <;> simp only [M3.app, M3.inverse, dot] <;> field_simp <;> simp only [M3.det] <;> ring

theorem norm2_nonneg (v : V3) : 0 ≤ norm2 v := sqrt_nonneg _

theorem dot_self_nonneg (v : V3) : 0 ≤ dot v v := by
  unfold dot; nlinarith [sq_nonneg v.x, sq_nonneg v.y, sq_nonneg v.z]

theorem norm2_sq (v : V3) : norm2 v * norm2 v = dot v v := mul_self_sqrt (dot_self_nonneg v)

theorem dot_self_eq_zero {v : V3} (h : dot v v = 0) : v = ⟨0, 0, 0⟩ := by
  unfold dot at h
  have hx : v.x = 0 := by nlinarith [sq_nonneg v.x, sq_nonneg v.y, sq_nonneg v.z]
  have hy : v.y = 0 := by nlinarith [sq_nonneg v.x, sq_nonneg v.y, sq_nonneg v.z]
  have hz : v.z = 0 := by nlinarith [sq_nonneg v.x, sq_nonneg v.y, sq_nonneg v.z]
  ext <;> assumption

theorem norm2_eq_zero {v : V3} : norm2 v = 0 ↔ v = ⟨0, 0, 0⟩ := by
  constructor
  · intro h
    apply dot_self_eq_zero
    rw [← norm2_sq, h, mul_zero]
  · rintro rfl; simp [norm2, dot]

theorem unit_dot {v : V3} (h : norm2 v > 0) : dot v.unit v.unit = 1 := by
  have h2 := norm2_sq v
  have h0 : norm2 v ≠ 0 := ne_of_gt h
  unfold V3.unit dot at *
  field_simp
  nlinarith

/-! ### C63 -/

/-- Gram determinant -/
theorem det_sq (m : M3) : m.det ^ 2 =
    dot m.r0 m.r0 * (dot m.r1 m.r1 * dot m.r2 m.r2 - dot m.r1 m.r2 ^ 2) -
      dot m.r0 m.r1 * (dot m.r0 m.r1 * dot m.r2 m.r2 - dot m.r1 m.r2 * dot m.r0 m.r2) +
      dot m.r0 m.r2 * (dot m.r0 m.r1 * dot m.r1 m.r2 - dot m.r1 m.r1 * dot m.r0 m.r2) := by
  simp only [M3.det, dot]; ring

theorem det_ne_of_nearly_orthogonal {m : M3} (h0 : dot m.r0 m.r0 = 1) (h1 : dot m.r1 m.r1 = 1) (h2 : dot m.r2 m.r2 = 1)
    (h : |dot m.r0 m.r1| + |dot m.r1 m.r2| + |dot m.r0 m.r2| ≤ 1 / 1000) : m.det ≠ 0 := by
  intro hd
  have hg := det_sq m
  rw [hd, h0, h1, h2] at hg
  generalize dot m.r0 m.r1 = a at *
  generalize dot m.r1 m.r2 = b at *
  generalize dot m.r0 m.r2 = c at *
  have ha : |a| ≤ 1 / 1000 := by linarith [abs_nonneg b, abs_nonneg c]
  have hb : |b| ≤ 1 / 1000 := by linarith [abs_nonneg a, abs_nonneg c]
  have hc : |c| ≤ 1 / 1000 := by linarith [abs_nonneg b, abs_nonneg a]
  rw [abs_le] at ha hb hc
  have h1 : a ^ 2 ≤ 1 / 1000 := by nlinarith
  have h2 : b ^ 2 ≤ 1 / 1000 := by nlinarith
  have h3 : c ^ 2 ≤ 1 / 1000 := by nlinarith
  have h4 : a * b * c ≥ -(1 / 1000) := by
    have : (a * b) ^ 2 ≤ 1 := by nlinarith
    have h5 : |a * b| ≤ 1 := by rw [← sq_le_one_iff_abs_le_one]; exact this
    rw [abs_le] at h5
    nlinarith
  nlinarith

/-- a frame: the inverse kept beside is the inverse of the axes, which have length one -/
structure Frame (s : Shape) : Prop where
  det : s.sdr.det ≠ 0
  inv : s.sdrInv = s.sdr.inverse
  unit : dot s.sdr.r0 s.sdr.r0 = 1 ∧ dot s.sdr.r1 s.sdr.r1 = 1 ∧ dot s.sdr.r2 s.sdr.r2 = 1

/-- C63: three non-zero axes, orthogonal within the tolerance, are stored normalised, and the frame is invertible. -/
theorem C63_three_axes (s : Shape) {a b c : V3} (ha : a ≠ ⟨0, 0, 0⟩) (hb : b ≠ ⟨0, 0, 0⟩) (hc : c ≠ ⟨0, 0, 0⟩)
    (ho : |dot a b| / (norm2 a * norm2 b) + |dot b c| / (norm2 b * norm2 c) + |dot a c| / (norm2 a * norm2 c) ≤ 1 / 1000) :
    (setRef3 s a b c).sdr = ⟨a.unit, b.unit, c.unit⟩ ∧ Frame (setRef3 s a b c) ∧
      { setRef3 s a b c with sdr := s.sdr, sdrInv := s.sdrInv } = s := by
  have pa : norm2 a > 0 := lt_of_le_of_ne (norm2_nonneg a) (fun h => ha (norm2_eq_zero.1 h.symm))
  have pb : norm2 b > 0 := lt_of_le_of_ne (norm2_nonneg b) (fun h => hb (norm2_eq_zero.1 h.symm))
  have pc : norm2 c > 0 := lt_of_le_of_ne (norm2_nonneg c) (fun h => hc (norm2_eq_zero.1 h.symm))
  have hd : ∀ {u v : V3}, norm2 u > 0 → norm2 v > 0 → |dot u.unit v.unit| = |dot u v| / (norm2 u * norm2 v) := by
    intro u v hu hv
    have h0 : norm2 u ≠ 0 := ne_of_gt hu
    have h1 : norm2 v ≠ 0 := ne_of_gt hv
    have : dot u.unit v.unit = dot u v / (norm2 u * norm2 v) := by
      unfold V3.unit dot; field_simp
    rw [this, abs_div, abs_of_pos (mul_pos hu hv)]
  have hle : |dot a.unit b.unit| + |dot b.unit c.unit| + |dot a.unit c.unit| ≤ 1 / 1000 := by
    rw [hd pa pb, hd pb pc, hd pa pc]; exact ho
  have he : setRef3 s a b c =
      { s with sdr := ⟨a.unit, b.unit, c.unit⟩, sdrInv := M3.inverse ⟨a.unit, b.unit, c.unit⟩ } := by
    unfold setRef3
    rw [if_neg (by simp [pa, pb, pc])]
    simp only
    rw [if_neg (by linarith)]
  rw [he]
  exact ⟨rfl, ⟨det_ne_of_nearly_orthogonal (unit_dot pa) (unit_dot pb) (unit_dot pc) hle, rfl,
    unit_dot pa, unit_dot pb, unit_dot pc⟩, rfl⟩

/-- the axes (3,4,0), (-4,3,0), (0,0,2) -/
example : (⟨3, 4, 0⟩ : V3) ≠ ⟨0, 0, 0⟩ ∧ |dot ⟨3, 4, 0⟩ ⟨-4, 3, 0⟩| / (norm2 ⟨3, 4, 0⟩ * norm2 ⟨-4, 3, 0⟩) +
    |dot ⟨-4, 3, 0⟩ ⟨0, 0, 2⟩| / (norm2 ⟨-4, 3, 0⟩ * norm2 ⟨0, 0, 2⟩) +
    |dot ⟨3, 4, 0⟩ ⟨0, 0, 2⟩| / (norm2 ⟨3, 4, 0⟩ * norm2 ⟨0, 0, 2⟩) ≤ 1 / 1000 := by
  constructor
  · intro h; simp at h
  · norm_num [dot]

/-- C63: with a zero axis or axes that are not orthogonal within the tolerance nothing changes. -/
theorem C63_refused (s : Shape) {a b c : V3} (h : a = ⟨0, 0, 0⟩ ∨ b = ⟨0, 0, 0⟩ ∨ c = ⟨0, 0, 0⟩ ∨
    |dot a b| / (norm2 a * norm2 b) + |dot b c| / (norm2 b * norm2 c) + |dot a c| / (norm2 a * norm2 c) > 1 / 1000) :
    setRef3 s a b c = s := by
  unfold setRef3
  by_cases hp : norm2 a > 0 ∧ norm2 b > 0 ∧ norm2 c > 0
  · rw [if_neg (by simp [hp])]
    obtain ⟨pa, pb, pc⟩ := hp
    have hz : ∀ {v : V3}, norm2 v > 0 → v ≠ ⟨0, 0, 0⟩ := by
      intro v hv h0; rw [norm2_eq_zero.2 h0] at hv; exact lt_irrefl _ hv
    have hd : ∀ {u v : V3}, norm2 u > 0 → norm2 v > 0 → |dot u.unit v.unit| = |dot u v| / (norm2 u * norm2 v) := by
      intro u v hu hv
      have h0 : norm2 u ≠ 0 := ne_of_gt hu
      have h1 : norm2 v ≠ 0 := ne_of_gt hv
      have : dot u.unit v.unit = dot u v / (norm2 u * norm2 v) := by
        unfold V3.unit dot; field_simp
      rw [this, abs_div, abs_of_pos (mul_pos hu hv)]
    rcases h with h | h | h | h
    · exact absurd h (hz pa)
    · exact absurd h (hz pb)
    · exact absurd h (hz pc)
    · simp only
      rw [if_pos]
      rw [hd pa pb, hd pb pc, hd pa pc]; exact h
  · rw [if_pos (by simpa using hp)]

/-- right-handed orthonormal axes -/
structure Orthonormal (m : M3) : Prop where
  unit : dot m.r0 m.r0 = 1 ∧ dot m.r1 m.r1 = 1 ∧ dot m.r2 m.r2 = 1
  orth : dot m.r0 m.r1 = 0 ∧ dot m.r1 m.r2 = 0 ∧ dot m.r0 m.r2 = 0
  right : m.det = 1

theorem cross_self_dot {a b : V3} (h0 : dot a a = 1) (h1 : dot b b = 1) (h : dot a b = 0) :
    dot (cross a b) (cross a b) = 1 := by
  have : dot (cross a b) (cross a b) = dot a a * dot b b - dot a b ^ 2 := by
    simp only [dot, cross]; ring
  rw [this, h0, h1, h]; ring

theorem norm2_of_unit {v : V3} (h : dot v v = 1) : norm2 v = 1 := by unfold norm2; rw [h, sqrt_one]

theorem unit_of_unit {v : V3} (h : dot v v = 1) : v.unit = v := by
  unfold V3.unit; rw [norm2_of_unit h]; simp

/-- the second axis: what is left of the unit vector `e` -/
theorem rest_dot {e a : V3} (he : dot e e = 1) (ha : dot a a = 1) :
    dot (e - V3.scale (dot e a) a) (e - V3.scale (dot e a) a) = 1 - dot e a ^ 2 := by
  have : dot (e - V3.scale (dot e a) a) (e - V3.scale (dot e a) a) =
      dot e e - 2 * dot e a ^ 2 + dot e a ^ 2 * dot a a := by
    simp only [dot, V3.scale, sub_x, sub_y, sub_z]; ring
  rw [this, he, ha]; ring

theorem unit_orth {a b : V3} (h : dot a b = 0) : dot a b.unit = 0 := by
  have : dot a b.unit = dot a b / norm2 b := by unfold V3.unit dot; ring
  rw [this, h, zero_div]

theorem lagrange (a b : V3) : dot (cross a b) (cross a b) = dot a a * dot b b - dot a b ^ 2 := by
  simp only [dot, cross]; ring

/-- the coordinate direction of a label -/
def axisOf : Nat → V3
  | 0 => ⟨1, 0, 0⟩
  | 1 => ⟨0, 1, 0⟩
  | _ => ⟨0, 0, 1⟩

theorem one_row (i : Nat) : M3.one.row i = axisOf i := by
  match i with
  | 0 => rfl
  | 1 => rfl
  | n + 2 => rfl

theorem axisOf_unit (i : Nat) : dot (axisOf i) (axisOf i) = 1 := by
  match i with
  | 0 => simp [axisOf, dot]
  | 1 => simp [axisOf, dot]
  | n + 2 => simp [axisOf, dot]

theorem rest_zero_iff {e a : V3} (he : dot e e = 1) (hp : norm2 a > 0) :
    norm2 (e - V3.scale (dot e a.unit) a.unit) = 0 ↔ cross a e = ⟨0, 0, 0⟩ := by
  have hu := unit_dot hp
  have h0 : norm2 a ≠ 0 := ne_of_gt hp
  have hr := rest_dot he hu
  have hl := lagrange a e
  have hde : dot e a.unit = dot a e / norm2 a := by unfold V3.unit dot; field_simp
  have hsq := norm2_sq a
  constructor
  · intro h
    apply dot_self_eq_zero
    rw [norm2_eq_zero] at h
    rw [h] at hr
    have hr' : (0 : ℝ) = 1 - (dot a e / norm2 a) ^ 2 := by rw [← hde, ← hr]; simp [dot]
    rw [hl, he]
    have : (dot a e) ^ 2 = norm2 a * norm2 a := by
      have : (dot a e / norm2 a) ^ 2 = 1 := by linarith
      rw [div_pow, div_eq_one_iff_eq (pow_ne_zero 2 h0)] at this
      rw [this]; ring
    rw [this, hsq]; ring
  · intro h
    rw [norm2_eq_zero]
    apply dot_self_eq_zero
    rw [hr, hde]
    rw [h] at hl
    have : (dot a e) ^ 2 = dot a a := by
      have h' : (0 : ℝ) = dot a a * dot e e - dot a e ^ 2 := by rw [← hl]; simp [dot]
      rw [he] at h'; linarith
    rw [div_pow, this, ← hsq]
    field_simp
    ring

/-- C63: one axis, not parallel to the coordinate direction after its label (full statement: any non-zero axis): it is
stored normalised and completed to a right-handed orthonormal frame; the inverse is kept in step. -/
theorem C63_one_axis_partial (s : Shape) {l : Nat} (hl : l < 3) {a : V3} (ha : cross a (axisOf ((l + 1) % 3)) ≠ ⟨0, 0, 0⟩) :
    ∃ s', setRef1 s l a = some s' ∧ s'.sdr.row l = a.unit ∧ Orthonormal s'.sdr ∧ Frame s' ∧
      { s' with sdr := s.sdr, sdrInv := s.sdrInv } = s := by
  have hp : norm2 a > 0 := by
    refine lt_of_le_of_ne (norm2_nonneg a) (fun h => ha ?_)
    rw [norm2_eq_zero.1 h.symm]; simp [cross]
  have hu := unit_dot hp
  have he := axisOf_unit ((l + 1) % 3)
  have hz := rest_zero_iff he hp
  generalize hbd : axisOf ((l + 1) % 3) - V3.scale (dot (axisOf ((l + 1) % 3)) a.unit) a.unit = b at hz
  have hb : norm2 b ≠ 0 := fun h => ha (hz.1 h)
  have hbu : dot b.unit b.unit = 1 := unit_dot (lt_of_le_of_ne (norm2_nonneg b) (Ne.symm hb))
  have hab : dot a.unit b = 0 := by
    have : dot a.unit b = dot (axisOf ((l + 1) % 3)) a.unit * (1 - dot a.unit a.unit) := by
      rw [← hbd]; simp only [dot, V3.scale, sub_x, sub_y, sub_z]; ring
    rw [this, hu]; ring
  have hau := unit_orth hab
  have hc := cross_self_dot hu hbu hau
  have hcu := unit_of_unit hc
  have hcn : norm2 (cross a.unit b.unit) ≠ 0 := by rw [norm2_of_unit hc]; exact one_ne_zero
  have hca : dot a.unit (cross a.unit b.unit) = 0 := by simp only [dot, cross]; ring
  have hcb : dot b.unit (cross a.unit b.unit) = 0 := by simp only [dot, cross]; ring
  have hdot : ∀ u v, dot u v = dot v u := by intro u v; simp only [dot]; ring
  have hm : setRef1 s l a = some { s with
      sdr := ((s.sdr.setRow l a.unit).setRow ((l + 1) % 3) b.unit).setRow ((l + 2) % 3) (cross a.unit b.unit)
      sdrInv := (((s.sdr.setRow l a.unit).setRow ((l + 1) % 3) b.unit).setRow ((l + 2) % 3)
        (cross a.unit b.unit)).inverse } := by
    unfold setRef1
    rw [if_neg (by omega), if_neg (by simpa using hp)]
    simp only [Int.toNat_natCast, one_row, hbd]
    rw [if_neg hb, if_neg hcn, hcu]
  have key : Orthonormal (((s.sdr.setRow l a.unit).setRow ((l + 1) % 3) b.unit).setRow ((l + 2) % 3)
      (cross a.unit b.unit)) ∧
      (((s.sdr.setRow l a.unit).setRow ((l + 1) % 3) b.unit).setRow ((l + 2) % 3) (cross a.unit b.unit)).row l = a.unit := by
    have hdet : ∀ u v : V3, (M3.mk u v (cross u v)).det = dot (cross u v) (cross u v) := by
      intro u v; simp only [M3.det, dot, cross]; ring
    have hdet2 : ∀ u v : V3, (M3.mk (cross u v) u v).det = dot (cross u v) (cross u v) := by
      intro u v; simp only [M3.det, dot, cross]; ring
    have hdet3 : ∀ u v : V3, (M3.mk v (cross u v) u).det = dot (cross u v) (cross u v) := by
      intro u v; simp only [M3.det, dot, cross]; ring
    have hl' : l = 0 ∨ l = 1 ∨ l = 2 := by omega
    rcases hl' with rfl | rfl | rfl
    · exact ⟨⟨⟨hu, hbu, hc⟩, ⟨hau, hcb, hca⟩, by rw [← hc]; exact hdet _ _⟩, rfl⟩
    · exact ⟨⟨⟨hc, hu, hbu⟩, ⟨(hdot _ _).trans hca, hau, (hdot _ _).trans hcb⟩, by rw [← hc]; exact hdet2 _ _⟩, rfl⟩
    · exact ⟨⟨⟨hbu, hc, hu⟩, ⟨hcb, (hdot _ _).trans hca, (hdot _ _).trans hau⟩, by rw [← hc]; exact hdet3 _ _⟩, rfl⟩
  refine ⟨_, hm, key.2, key.1, ⟨?_, rfl, key.1.unit⟩, rfl⟩
  rw [key.1.right]; exact one_ne_zero

/-- the axis (1,1,0) given to label 0 -/
example : (0 : Nat) < 3 ∧ cross ⟨1, 1, 0⟩ (axisOf ((0 + 1) % 3)) ≠ ⟨0, 0, 0⟩ := by
  refine ⟨by omega, fun h => ?_⟩
  have := congrArg V3.z h
  simp [cross, axisOf] at this

/-- C63 does not hold for an axis parallel to the coordinate direction after its label: the frame is filled with 0/0.
For instance the local x axis cannot be turned to the global y direction. -/
theorem C63_parallel_fails (s : Shape) {l : Nat} (hl : l < 3) {a : V3} (hn : a ≠ ⟨0, 0, 0⟩)
    (ha : cross a (axisOf ((l + 1) % 3)) = ⟨0, 0, 0⟩) : setRef1 s l a = none := by
  have hp : norm2 a > 0 := lt_of_le_of_ne (norm2_nonneg a) (fun h => hn (norm2_eq_zero.1 h.symm))
  have hz := (rest_zero_iff (axisOf_unit ((l + 1) % 3)) hp).2 ha
  unfold setRef1
  rw [if_neg (by omega), if_neg (by simpa using hp)]
  simp only [Int.toNat_natCast, one_row]
  rw [if_pos hz]

example : setRef1 (basic .cube) 0 ⟨0, 1, 0⟩ = none :=
  C63_parallel_fails _ (l := 0) (by omega) (by intro h; simp at h) (by simp [cross, axisOf])

/-- C63: a label out of range or a zero axis changes nothing. -/
theorem C63_one_axis_refused (s : Shape) (l : Int) (a : V3) (h : l < 0 ∨ 2 < l ∨ a = ⟨0, 0, 0⟩) :
    setRef1 s l a = some s := by
  unfold setRef1
  by_cases hl : l < 0 ∨ l > 2
  · rw [if_pos hl]
  · rw [if_neg hl, if_pos]
    rcases h with h | h | h
    · exact absurd (.inl h) hl
    · exact absurd (.inr h) hl
    · rw [norm2_eq_zero.2 h]; exact lt_irrefl _

end Verif.Shape
