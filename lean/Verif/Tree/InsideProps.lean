import Verif.Tree.Inside
import Mathlib.Topology.Instances.Real.Lemmas
import Mathlib.Topology.Order.Compact
import Mathlib.Topology.MetricSpace.Bounded
import Mathlib.Analysis.Real.Sqrt

/-!
C134: points in segments, triangles and polygons.  C135: distance to a polygon.
-/

namespace Verif.Tree
open Verif.Shape
open Verif.Rbf (tiny huge)
noncomputable section
open scoped Classical

/-! ### Segments -/

/-- the point at `t` of a segment -/
def along (v0 v1 : V3) (t : ℝ) : V3 := v0 + V3.scale t (v1 - v0)

theorem norm2_le_iff {u : V3} {r : ℝ} (hr : 0 ≤ r) : norm2 u ≤ r ↔ dot u u ≤ r * r := by
  unfold norm2
  rw [Real.sqrt_le_left hr, sq]

theorem dot_le_norm {u v : V3} (hv : dot v v = 1) : |dot u v| ≤ norm2 u := by
  unfold norm2
  apply Real.abs_le_sqrt
  have h : 0 ≤ dot (cross u v) (cross u v) := dot_self_nonneg _
  rw [lagrange, hv] at h
  linarith

theorem unit_scale {v : V3} (h : 0 < norm2 v) : v = V3.scale (norm2 v) v.unit := by
  ext <;> simp only [V3.scale, V3.unit] <;> field_simp

/-- **C134** a point within `tol` of a point of the segment is inside. -/
theorem C134_segment_complete {p v0 v1 : V3} {tol t : ℝ} (hl : tiny < norm2 (v1 - v0)) (h0 : 0 ≤ t) (h1 : t ≤ 1)
    (hd : norm2 (p - along v0 v1 t) ≤ tol) : inSegment p v0 v1 tol = true := by
  have hpos : 0 < norm2 (v1 - v0) := lt_trans Verif.Rbf.tiny_pos hl
  have hu := unit_dot hpos
  set L := norm2 (v1 - v0) with hL
  set u := (v1 - v0).unit with hue
  have he : v1 - v0 = V3.scale L u := unit_scale hpos
  have hp : p - v0 = (p - along v0 v1 t) + V3.scale (t * L) u := by
    unfold along; rw [he]
    ext <;> simp only [V3.scale, add_x, add_y, add_z, sub_x, sub_y, sub_z] <;> ring
  set q := p - along v0 v1 t with hq
  have htol : 0 ≤ tol := (Shape.norm2_nonneg q).trans hd
  have hv : dot (p - v0) u = dot q u + t * L := by
    rw [hp]
    have : dot (q + V3.scale (t * L) u) u = dot q u + t * L * dot u u := by
      simp only [dot, V3.scale, add_x, add_y, add_z]; ring
    rw [this, hu, mul_one]
  have hperp : p - v0 - V3.scale (dot (p - v0) u) u = q - V3.scale (dot q u) u := by
    rw [hv, hp]
    ext <;> simp only [V3.scale, add_x, add_y, add_z, sub_x, sub_y, sub_z] <;> ring
  have hle : norm2 (q - V3.scale (dot q u) u) ≤ norm2 q := by
    unfold norm2
    apply Real.sqrt_le_sqrt
    have : dot (q - V3.scale (dot q u) u) (q - V3.scale (dot q u) u) = dot q q - dot q u ^ 2 * (2 - dot u u) := by
      simp only [dot, V3.scale, sub_x, sub_y, sub_z]; ring
    rw [this, hu]
    nlinarith [sq_nonneg (dot q u)]
  have hqu := abs_le.1 ((dot_le_norm (u := q) hu).trans hd)
  unfold inSegment
  simp only
  rw [← hL, if_pos (show L > tiny from hl), ← hue, hperp, if_neg (not_lt.2 (hle.trans hd)), hv]
  simp only [decide_eq_true_eq]
  constructor
  · nlinarith [hqu.1]
  · nlinarith [hqu.2]

/-- **C134** a point that is inside is within √2 `tol` of the segment. -/
theorem C134_segment_sound {p v0 v1 : V3} {tol : ℝ} (hl : tiny < norm2 (v1 - v0)) (h : inSegment p v0 v1 tol = true) :
    ∃ t, 0 ≤ t ∧ t ≤ 1 ∧ norm2 (p - along v0 v1 t) ≤ Real.sqrt 2 * tol := by
  have hpos : 0 < norm2 (v1 - v0) := lt_trans Verif.Rbf.tiny_pos hl
  have hu := unit_dot hpos
  unfold inSegment at h
  simp only at h
  set L := norm2 (v1 - v0) with hL
  rw [if_pos (show L > tiny from hl)] at h
  set u := (v1 - v0).unit with hue
  have he : v1 - v0 = V3.scale L u := unit_scale hpos
  set v := dot (p - v0) u with hv
  split at h
  · cases h
  · rename_i hperp
    have hperp := not_lt.1 hperp
    have htol : 0 ≤ tol := (Shape.norm2_nonneg _).trans hperp
    simp only [decide_eq_true_eq] at h
    obtain ⟨g1, g2⟩ := h
    have hpp := (norm2_le_iff htol).1 hperp
    set w := p - v0 - V3.scale v u with hw
    have hwu : dot w u = 0 := by
      have : dot w u = v - v * dot u u := by
        rw [hw, hv]; simp only [dot, V3.scale, sub_x, sub_y, sub_z]; ring
      rw [this, hu]; ring
    have key : ∀ s : ℝ, |v - s| ≤ tol → norm2 (p - along v0 v1 (s / L)) ≤ Real.sqrt 2 * tol := by
      intro s hs
      have e : p - along v0 v1 (s / L) = w + V3.scale (v - s) u := by
        unfold along; rw [he, hw]
        ext <;> simp only [V3.scale, add_x, add_y, add_z, sub_x, sub_y, sub_z] <;> field_simp <;> ring
      rw [e, norm2_le_iff (by positivity)]
      have e2 : dot (w + V3.scale (v - s) u) (w + V3.scale (v - s) u) = dot w w + 2 * (v - s) * dot w u + (v - s) ^ 2 * dot u u := by
        simp only [dot, V3.scale, add_x, add_y, add_z]; ring
      rw [e2, hwu, hu]
      have h2 : Real.sqrt 2 * Real.sqrt 2 = 2 := Real.mul_self_sqrt (by norm_num)
      have h3 : (v - s) ^ 2 ≤ tol * tol := by
        have := abs_le.1 hs; nlinarith
      nlinarith
    by_cases c1 : v < 0
    · refine ⟨0, le_refl _, zero_le_one, ?_⟩
      have := key 0 (by rw [sub_zero, abs_of_neg c1]; linarith)
      simpa using this
    · by_cases c2 : v ≤ L
      · refine ⟨v / L, div_nonneg (not_lt.1 c1) hpos.le, (div_le_one hpos).2 c2, ?_⟩
        exact key v (by simpa using htol)
      · refine ⟨1, zero_le_one, le_refl _, ?_⟩
        have := key L (by rw [abs_of_pos (by linarith)]; linarith)
        rwa [div_self hpos.ne'] at this

/-- **C134** a segment of length zero: the points within `tol` of it are inside. -/
theorem C134_segment_point {p v0 : V3} {tol : ℝ} : inSegment p v0 v0 tol = true ↔ norm2 (p - v0) ≤ tol := by
  have e0 : v0 - v0 = ⟨0, 0, 0⟩ := by ext <;> simp
  have hn : norm2 (⟨0, 0, 0⟩ : V3) = 0 := by simp [norm2, dot]
  have hif : ¬ (0 : ℝ) > tiny := not_lt.2 Verif.Rbf.tiny_pos.le
  have e1 : dot (p - v0) ⟨0, 0, 0⟩ = 0 := by simp [dot]
  have e2 : p - v0 - V3.scale 0 ⟨0, 0, 0⟩ = p - v0 := by ext <;> simp [V3.scale]
  unfold inSegment
  simp only [e0, hn, if_neg hif, e1, e2]
  have := Shape.norm2_nonneg (p - v0)
  constructor
  · intro h; split at h
    · cases h
    · linarith
  · intro h
    rw [if_neg (by linarith)]
    simp only [decide_eq_true_eq]
    constructor <;> linarith

/-! ### Triangles -/

/-- the point of the plane of a triangle with coordinates `a`, `b` -/
def inPlane (v0 v1 v2 : V3) (a b : ℝ) : V3 := v0 + V3.scale a (v1 - v0) + V3.scale b (v2 - v0)

/-- normal of a triangle -/
def triNormal (v0 v1 v2 : V3) : V3 := cross (v1 - v0) (v2 - v0)

/-- every point is a point of the plane plus a multiple of the normal -/
theorem decompose {v0 v1 v2 : V3} (hn : 0 < norm2 (triNormal v0 v1 v2)) (p : V3) :
    ∃ a b, p = inPlane v0 v1 v2 a b + V3.scale (dot (p - v0) (triNormal v0 v1 v2).unit) (triNormal v0 v1 v2).unit := by
  set n := triNormal v0 v1 v2 with hne
  have hN : dot n n ≠ 0 := by
    rw [← norm2_sq]; positivity
  refine ⟨dot (cross (p - v0) (v2 - v0)) n / dot n n, dot (cross (v1 - v0) (p - v0)) n / dot n n, ?_⟩
  have hu : V3.scale (dot (p - v0) n.unit) n.unit = V3.scale (dot (p - v0) n / dot n n) n := by
    have := norm2_sq n
    ext <;> simp only [V3.scale, V3.unit, dot] at * <;> rw [← this] <;> field_simp
  rw [hu]
  have id1 : V3.scale (dot n n) (p - v0) = V3.scale (dot (cross (p - v0) (v2 - v0)) n) (v1 - v0) +
      V3.scale (dot (cross (v1 - v0) (p - v0)) n) (v2 - v0) + V3.scale (dot (p - v0) n) n := by
    rw [hne]; unfold triNormal
    generalize v1 - v0 = e1
    generalize v2 - v0 = e2
    generalize p - v0 = w
    ext <;> simp only [V3.scale, dot, cross, add_x, add_y, add_z] <;> ring
  have c : ∀ f : V3 → ℝ, (∀ k v, f (V3.scale k v) = k * f v) → (∀ u v, f (u + v) = f u + f v) → (∀ u v, f (u - v) = f u - f v) →
      f p = f (inPlane v0 v1 v2 (dot (cross (p - v0) (v2 - v0)) n / dot n n) (dot (cross (v1 - v0) (p - v0)) n / dot n n) +
        V3.scale (dot (p - v0) n / dot n n) n) := by
    intro f hs ha hd
    have := congrArg f id1
    rw [hs, ha, ha, hs, hs, hs, hd, hd, hd] at this
    unfold inPlane
    rw [ha, ha, ha, hs, hs, hs, hd, hd]
    field_simp
    linear_combination this
  ext
  · exact c (fun v => v.x) (fun _ _ => rfl) (fun _ _ => rfl) (fun _ _ => rfl)
  · exact c (fun v => v.y) (fun _ _ => rfl) (fun _ _ => rfl) (fun _ _ => rfl)
  · exact c (fun v => v.z) (fun _ _ => rfl) (fun _ _ => rfl) (fun _ _ => rfl)

theorem norm2_scale (k : ℝ) (v : V3) : norm2 (V3.scale k v) = |k| * norm2 v := by
  unfold norm2
  rw [show dot (V3.scale k v) (V3.scale k v) = k ^ 2 * dot v v by simp only [dot, V3.scale]; ring,
    Real.sqrt_mul (sq_nonneg _), Real.sqrt_sq_eq_abs]

/-- twice the areas of the triangles with a point of the plane -/
theorem cross_sides (v0 v1 v2 : V3) (a b : ℝ) (w : V3) :
    cross (v0 - (inPlane v0 v1 v2 a b + w)) (v1 - (inPlane v0 v1 v2 a b + w)) = V3.scale b (triNormal v0 v1 v2) - cross w (v1 - v0) ∧
    cross (v1 - (inPlane v0 v1 v2 a b + w)) (v2 - (inPlane v0 v1 v2 a b + w)) =
      V3.scale (1 - a - b) (triNormal v0 v1 v2) - cross w (v2 - v1) ∧
    cross (v2 - (inPlane v0 v1 v2 a b + w)) (v0 - (inPlane v0 v1 v2 a b + w)) = V3.scale a (triNormal v0 v1 v2) - cross w (v0 - v2) := by
  refine ⟨?_, ?_, ?_⟩ <;>
    (ext <;> simp only [inPlane, triNormal, V3.scale, cross, add_x, add_y, add_z, sub_x, sub_y, sub_z] <;> ring)

/-- areas relative to that of the triangle -/
theorem areas_ge {v0 v1 v2 : V3} (hn : 0 < norm2 (triNormal v0 v1 v2)) (a b h : ℝ) :
    let p := inPlane v0 v1 v2 a b + V3.scale h (triNormal v0 v1 v2).unit
    let m := 1 / 2 * norm2 (triNormal v0 v1 v2)
    |b| ≤ areaTriangle p v0 v1 / m ∧ |1 - a - b| ≤ areaTriangle p v1 v2 / m ∧ |a| ≤ areaTriangle p v2 v0 / m := by
  intro p m
  have hm : 0 < m := by simp only [m]; positivity
  obtain ⟨c1, c2, c3⟩ := cross_sides v0 v1 v2 a b (V3.scale h (triNormal v0 v1 v2).unit)
  set n := triNormal v0 v1 v2 with hne
  have hu := unit_dot hn
  have hnu : dot n n.unit = norm2 n := by
    have h2 := norm2_sq n
    have h3 : dot n n.unit = dot n n / norm2 n := by
      simp only [dot, V3.unit]; field_simp
    rw [h3, ← h2]; field_simp
  have ge : ∀ (k : ℝ) (e : V3), |k| * norm2 n ≤ norm2 (V3.scale k n - cross (V3.scale h n.unit) e) := by
    intro k e
    have h1 := dot_le_norm (u := V3.scale k n - cross (V3.scale h n.unit) e) hu
    have h2 : dot (V3.scale k n - cross (V3.scale h n.unit) e) n.unit = k * dot n n.unit := by
      generalize n.unit = u
      simp only [dot, V3.scale, cross, sub_x, sub_y, sub_z]; ring
    rw [h2, hnu, abs_mul, abs_of_pos hn] at h1
    exact h1
  have fin : ∀ (k : ℝ) (x : V3) (e : V3), x = V3.scale k n - cross (V3.scale h n.unit) e → |k| ≤ 1 / 2 * norm2 x / m := by
    intro k x e hx
    rw [le_div_iff₀ hm, hx]
    have := ge k e
    simp only [m]
    linarith
  exact ⟨fin b _ _ c1, fin (1 - a - b) _ _ c2, fin a _ _ c3⟩

theorem areas_eq {v0 v1 v2 : V3} (hn : 0 < norm2 (triNormal v0 v1 v2)) (a b : ℝ) :
    let p := inPlane v0 v1 v2 a b
    let m := 1 / 2 * norm2 (triNormal v0 v1 v2)
    areaTriangle p v0 v1 / m = |b| ∧ areaTriangle p v1 v2 / m = |1 - a - b| ∧ areaTriangle p v2 v0 / m = |a| := by
  intro p m
  have hm : 0 < m := by simp only [m]; positivity
  obtain ⟨c1, c2, c3⟩ := cross_sides v0 v1 v2 a b ⟨0, 0, 0⟩
  have e0 : inPlane v0 v1 v2 a b + ⟨0, 0, 0⟩ = p := by ext <;> simp [p, add_x, add_y, add_z]
  rw [e0] at c1 c2 c3
  have fin : ∀ (k : ℝ) (x e : V3), x = V3.scale k (triNormal v0 v1 v2) - cross ⟨0, 0, 0⟩ e → 1 / 2 * norm2 x / m = |k| := by
    intro k x e hx
    have : x = V3.scale k (triNormal v0 v1 v2) := by
      rw [hx]; ext <;> simp [cross, sub_x, sub_y, sub_z]
    rw [this, norm2_scale]
    simp only [m]
    field_simp
  exact ⟨fin b _ _ c1, fin (1 - a - b) _ _ c2, fin a _ _ c3⟩

/-- **C134** points of the plane of a triangle: inside are those whose three barycentric coordinates have absolute values
adding up to at most 1 + `tol`. -/
theorem C134_triangle_plane {v0 v1 v2 : V3} (hn : tiny < norm2 (triNormal v0 v1 v2)) {tol : ℝ} (ht : 0 ≤ tol) (a b : ℝ) :
    inTriangle (inPlane v0 v1 v2 a b) v0 v1 v2 tol = true ↔ |1 - a - b| + |a| + |b| ≤ 1 + tol := by
  have hpos := lt_trans Verif.Rbf.tiny_pos hn
  obtain ⟨e1, e2, e3⟩ := areas_eq hpos a b
  have hd : dot (inPlane v0 v1 v2 a b - v0) (triNormal v0 v1 v2).unit = 0 := by
    have : dot (inPlane v0 v1 v2 a b - v0) (triNormal v0 v1 v2) = 0 := by
      simp only [inPlane, triNormal, V3.scale, dot, cross, add_x, add_y, add_z, sub_x, sub_y, sub_z]; ring
    simp only [dot, V3.unit] at this ⊢
    linear_combination (1 / norm2 (triNormal v0 v1 v2)) * this
  unfold inTriangle
  simp only
  rw [if_pos (show norm2 (cross (v1 - v0) (v2 - v0)) > tiny from hn)]
  change (if |dot (inPlane v0 v1 v2 a b - v0) (triNormal v0 v1 v2).unit| > tol then false else _) = true ↔ _
  rw [hd, abs_zero, if_neg (not_lt.2 ht)]
  change decide (areaTriangle (inPlane v0 v1 v2 a b) v0 v1 / (1 / 2 * norm2 (triNormal v0 v1 v2)) +
    areaTriangle (inPlane v0 v1 v2 a b) v1 v2 / (1 / 2 * norm2 (triNormal v0 v1 v2)) +
    areaTriangle (inPlane v0 v1 v2 a b) v2 v0 / (1 / 2 * norm2 (triNormal v0 v1 v2)) - 1 ≤ tol) = true ↔ _
  rw [e1, e2, e3, decide_eq_true_eq]
  constructor <;> intro h <;> linarith

/-- **C134** the points of a triangle are inside. -/
theorem C134_triangle_complete {v0 v1 v2 : V3} (hn : tiny < norm2 (triNormal v0 v1 v2)) {tol : ℝ} (ht : 0 ≤ tol) {a b : ℝ}
    (ha : 0 ≤ a) (hb : 0 ≤ b) (hab : a + b ≤ 1) : inTriangle (inPlane v0 v1 v2 a b) v0 v1 v2 tol = true := by
  rw [C134_triangle_plane hn ht, abs_of_nonneg ha, abs_of_nonneg hb, abs_of_nonneg (by linarith)]
  linarith

/-- **C134** a point that is inside a triangle lies within `tol` of its plane, over a point of the plane with coordinates
as in `C134_triangle_plane`.  With `tol = 0` it is a point of the triangle.  Missing: with a tolerance, points inside
may be farther from the triangle than the tolerance, and points within the tolerance may not be inside
(`C134_far_fails`, `C134_near_fails`). -/
theorem C134_triangle_sound_partial {v0 v1 v2 p : V3} {tol : ℝ} (h : inTriangle p v0 v1 v2 tol = true) :
    ∃ a b c, p = inPlane v0 v1 v2 a b + V3.scale c (triNormal v0 v1 v2).unit ∧ |c| ≤ tol ∧ |1 - a - b| + |a| + |b| ≤ 1 + tol ∧
      (tol = 0 → p = inPlane v0 v1 v2 a b ∧ 0 ≤ a ∧ 0 ≤ b ∧ a + b ≤ 1) := by
  unfold inTriangle at h
  simp only at h
  split at h
  · rename_i hn
    have hpos := lt_trans Verif.Rbf.tiny_pos hn
    split at h
    · cases h
    · rename_i hc
      rw [decide_eq_true_eq] at h
      obtain ⟨a, b, hp⟩ := decompose (v0 := v0) (v1 := v1) (v2 := v2) hpos p
      have hc' : |dot (p - v0) (triNormal v0 v1 v2).unit| ≤ tol := not_lt.1 hc
      generalize hcd : dot (p - v0) (triNormal v0 v1 v2).unit = c at hp hc'
      obtain ⟨g1, g2, g3⟩ := areas_ge hpos a b c
      rw [← hp] at g1 g2 g3
      have hsum : |1 - a - b| + |a| + |b| ≤ 1 + tol := by
        have h' : areaTriangle p v0 v1 / (1 / 2 * norm2 (triNormal v0 v1 v2)) + areaTriangle p v1 v2 / (1 / 2 * norm2 (triNormal v0 v1 v2)) +
          areaTriangle p v2 v0 / (1 / 2 * norm2 (triNormal v0 v1 v2)) - 1 ≤ tol := h
        linarith
      refine ⟨a, b, c, hp, hc', hsum, ?_⟩
      rintro rfl
      have hc0 : c = 0 := abs_eq_zero.1 (le_antisymm hc' (abs_nonneg _))
      refine ⟨?_, ?_, ?_, ?_⟩
      · rw [hp, hc0]
        ext <;> simp [V3.scale, add_x, add_y, add_z]
      · have := le_abs_self (1 - a - b); have := neg_abs_le a; have := le_abs_self b; linarith [abs_nonneg a]
      · have := le_abs_self (1 - a - b); have := neg_abs_le b; have := le_abs_self a; linarith [abs_nonneg b]
      · have := neg_abs_le (1 - a - b); have := le_abs_self a; have := le_abs_self b; linarith [abs_nonneg (1 - a - b)]
  · cases h

theorem tiny_lt_half : tiny < 1 / 2 := by
  unfold tiny
  rw [one_div, one_div]
  apply inv_strictAnti₀ (by norm_num)
  calc (2 : ℝ) = 2 ^ 1 := by norm_num
    _ < 2 ^ 1022 := pow_lt_pow_right₀ (by norm_num) (by norm_num)

theorem tiny_lt_one' : tiny < 1 := by have := tiny_lt_half; linarith

/-- **C134, violated** a triangle without area has no inside, not even its vertices. -/
theorem C134_flat_fails {v0 v1 v2 p : V3} (hn : norm2 (triNormal v0 v1 v2) ≤ tiny) (tol : ℝ) : inTriangle p v0 v1 v2 tol = false := by
  unfold inTriangle
  simp only
  exact if_neg (not_lt.2 hn)

theorem norm2_of_dot {v : V3} {r : ℝ} (hr : 0 ≤ r) (h : dot v v = r ^ 2) : norm2 v = r := by
  rw [norm2, h, Real.sqrt_sq hr]

/-- **C134, violated** whatever the tolerance, some triangle has points inside that are farther than `k` tolerances from it. -/
theorem C134_far_fails {k tol : ℝ} (hk : 0 ≤ k) (ht : 0 < tol) :
    ∃ p v0 v1 v2, tiny < norm2 (triNormal v0 v1 v2) ∧ inTriangle p v0 v1 v2 tol = true ∧
      ∀ a b, 0 ≤ a → 0 ≤ b → a + b ≤ 1 → k * tol < norm2 (p - inPlane v0 v1 v2 a b) := by
  have hn : norm2 (triNormal ⟨0, 0, 0⟩ ⟨2 * k + 1, 0, 0⟩ ⟨0, 2 * k + 1, 0⟩) = (2 * k + 1) ^ 2 :=
    norm2_of_dot (by positivity) (by simp only [triNormal, dot, cross, sub_x, sub_y, sub_z]; ring)
  have hn1 : tiny < norm2 (triNormal ⟨0, 0, 0⟩ ⟨2 * k + 1, 0, 0⟩ ⟨0, 2 * k + 1, 0⟩) := by
    rw [hn]; have := tiny_lt_one'; nlinarith
  refine ⟨inPlane ⟨0, 0, 0⟩ ⟨2 * k + 1, 0, 0⟩ ⟨0, 2 * k + 1, 0⟩ (-(tol / 2)) (1 / 2), ⟨0, 0, 0⟩, ⟨2 * k + 1, 0, 0⟩, ⟨0, 2 * k + 1, 0⟩, hn1, ?_, ?_⟩
  · rw [C134_triangle_plane hn1 ht.le, abs_of_nonneg (by linarith), abs_of_nonpos (by linarith), abs_of_pos (by norm_num)]
    linarith
  · intro a b ha hb hab
    have h1 := abs_le_norm2 (inPlane ⟨0, 0, 0⟩ ⟨2 * k + 1, 0, 0⟩ ⟨0, 2 * k + 1, 0⟩ (-(tol / 2)) (1 / 2) -
      inPlane ⟨0, 0, 0⟩ ⟨2 * k + 1, 0, 0⟩ ⟨0, 2 * k + 1, 0⟩ a b)
    have h2 := (neg_le_abs _).trans h1.1
    refine lt_of_lt_of_le ?_ h2
    simp only [inPlane, V3.scale, add_x, sub_x]
    nlinarith

/-- **C134, violated** whatever the tolerance, some point at that distance from a point of a triangle is not inside. -/
theorem C134_near_fails {tol : ℝ} (ht : 0 < tol) :
    ∃ p v0 v1 v2, tiny < norm2 (triNormal v0 v1 v2) ∧ norm2 (p - inPlane v0 v1 v2 (1 / 2) 0) = tol ∧ inTriangle p v0 v1 v2 tol = false := by
  have hN : triNormal ⟨0, 0, 0⟩ ⟨1, 0, 0⟩ ⟨0, 1 / 2, 0⟩ = ⟨0, 0, 1 / 2⟩ := by
    ext <;> simp only [triNormal, cross, sub_x, sub_y, sub_z] <;> norm_num
  have hn : norm2 (triNormal ⟨0, 0, 0⟩ ⟨1, 0, 0⟩ ⟨0, 1 / 2, 0⟩) = 1 / 2 := by
    rw [hN]; exact norm2_of_dot (by norm_num) (by simp only [dot]; ring)
  have hn1 : tiny < norm2 (triNormal ⟨0, 0, 0⟩ ⟨1, 0, 0⟩ ⟨0, 1 / 2, 0⟩) := by
    rw [hn]; exact tiny_lt_half
  refine ⟨⟨1 / 2, 0, tol⟩, ⟨0, 0, 0⟩, ⟨1, 0, 0⟩, ⟨0, 1 / 2, 0⟩, hn1, ?_, ?_⟩
  · apply norm2_of_dot ht.le
    simp only [dot, inPlane, V3.scale, add_x, add_y, add_z, sub_x, sub_y, sub_z]; ring
  · rw [Bool.eq_false_iff]
    intro h
    have hpos := lt_trans Verif.Rbf.tiny_pos hn1
    obtain ⟨-, g2, g3⟩ := areas_ge hpos (1 / 2) 0 tol
    have hp : inPlane ⟨0, 0, 0⟩ ⟨1, 0, 0⟩ ⟨0, 1 / 2, 0⟩ (1 / 2) 0 + V3.scale tol (triNormal ⟨0, 0, 0⟩ ⟨1, 0, 0⟩ ⟨0, 1 / 2, 0⟩).unit =
        ⟨1 / 2, 0, tol⟩ := by
      unfold V3.unit
      rw [hn, hN]
      ext <;> simp only [inPlane, V3.scale, add_x, add_y, add_z, sub_x, sub_y, sub_z] <;> ring
    rw [hp, hn] at g2 g3
    have g1 : areaTriangle ⟨1 / 2, 0, tol⟩ ⟨0, 0, 0⟩ ⟨1, 0, 0⟩ = 1 / 2 * tol := by
      unfold areaTriangle
      rw [norm2_of_dot ht.le (by simp only [dot, cross, sub_x, sub_y, sub_z]; ring)]
    unfold inTriangle at h
    simp only at h
    rw [if_pos (show norm2 (cross _ _) > tiny from hn1)] at h
    split at h
    · cases h
    · rw [decide_eq_true_eq, show norm2 (cross ((⟨1, 0, 0⟩ : V3) - ⟨0, 0, 0⟩) (⟨0, 1 / 2, 0⟩ - ⟨0, 0, 0⟩)) = 1 / 2 from hn, g1] at h
      norm_num [abs_of_pos] at g2 g3 h
      linarith

/-- a segment, a triangle and points of theirs meet the hypotheses -/
example : inSegment ⟨1 / 2, 1, 0⟩ ⟨0, 0, 0⟩ ⟨1, 0, 0⟩ 1 = true ∧ inTriangle ⟨3, 0, 0⟩ ⟨0, 0, 0⟩ ⟨10, 0, 0⟩ ⟨0, 10, 0⟩ 0 = true := by
  constructor
  · have hl : norm2 ((⟨1, 0, 0⟩ : V3) - ⟨0, 0, 0⟩) = 1 := norm2_of_dot (by norm_num) (by simp [dot])
    refine C134_segment_complete (t := 1 / 2) (by rw [hl]; exact tiny_lt_one') (by norm_num) (by norm_num) (le_of_eq ?_)
    refine norm2_of_dot (by norm_num) ?_
    simp only [along, dot, V3.scale, add_x, add_y, add_z, sub_x, sub_y, sub_z]; norm_num
  · have hn : norm2 (triNormal ⟨0, 0, 0⟩ ⟨10, 0, 0⟩ ⟨0, 10, 0⟩) = 100 :=
      norm2_of_dot (by norm_num) (by simp only [triNormal, dot, cross, sub_x, sub_y, sub_z]; norm_num)
    have := C134_triangle_complete (v0 := ⟨0, 0, 0⟩) (v1 := ⟨10, 0, 0⟩) (v2 := ⟨0, 10, 0⟩) (tol := 0) (a := 3 / 10) (b := 0)
      (by rw [hn]; have := tiny_lt_one'; linarith) (le_refl _) (by norm_num) (by norm_num) (by norm_num)
    convert this using 1
    congr 1
    ext <;> simp only [inPlane, V3.scale, add_x, add_y, add_z, sub_x, sub_y, sub_z] <;> norm_num

/-! ### Polygons -/

/-- the consecutive pairs of a list -/
def edges : List V3 → List (V3 × V3)
  | a :: b :: l => (a, b) :: edges (b :: l)
  | _ => []

/-- `q` on the left of `a b`, seen from the side of `n` -/
def LeftOf (n q : V3) (e : V3 × V3) : Prop := 0 ≤ dot (cross (e.2 - e.1) (q - e.1)) n

theorem fanLoop_true {p v0 : V3} {tol : ℝ} : ∀ l, fanLoop p v0 tol l = true ↔ ∃ e ∈ edges l, inTriangle p v0 e.1 e.2 tol = true
  | [] => by simp [fanLoop, edges]
  | [_] => by simp [fanLoop, edges]
  | a :: b :: l => by simp [fanLoop, edges, fanLoop_true (b :: l)]

/-- **C134** a point is inside a polygon when it is inside a triangle of the first vertex and two others that are consecutive. -/
theorem C134_polygon_fan {p v0 : V3} {l : List V3} {tol : ℝ} :
    inPolygon p (v0 :: l) tol = some true ↔ ∃ e ∈ edges l, inTriangle p v0 e.1 e.2 tol = true := by
  rw [← fanLoop_true]; simp [inPolygon]

/-- coordinates in the plane of two vectors -/
theorem cramer (x y w n : V3) :
    V3.scale (dot (cross x y) n) w = V3.scale (dot (cross w y) n) x + V3.scale (dot (cross x w) n) y + V3.scale (dot (cross x y) w) n := by
  ext <;> simp only [V3.scale, dot, cross, add_x, add_y, add_z] <;> ring

/-- a point in the sector of a triangle and on the inner side of the opposite edge is in the triangle -/
theorem in_sector {n v0 a b q : V3} (hn : dot n n = 1) (hd : 0 < dot (triNormal v0 a b) n) (ha : dot (a - v0) n = 0)
    (hb : dot (b - v0) n = 0) (hq : dot (q - v0) n = 0) (h1 : LeftOf n q (v0, a)) (h2 : LeftOf n q (b, v0)) (h3 : LeftOf n q (a, b)) :
    ∃ α β, 0 ≤ α ∧ 0 ≤ β ∧ α + β ≤ 1 ∧ q = inPlane v0 a b α β := by
  set D := dot (triNormal v0 a b) n with hD
  have e1 : dot (cross (a - v0) (q - v0)) n = dot (cross (a - v0) (q - v0)) n := rfl
  have i2 : dot (cross (v0 - b) (q - b)) n = dot (cross (q - v0) (b - v0)) n := by
    simp only [dot, cross, sub_x, sub_y, sub_z]; ring
  have i3 : dot (cross (b - a) (q - a)) n = D - dot (cross (a - v0) (q - v0)) n - dot (cross (q - v0) (b - v0)) n := by
    rw [hD]; simp only [triNormal, dot, cross, sub_x, sub_y, sub_z]; ring
  have h1 : 0 ≤ dot (cross (a - v0) (q - v0)) n := h1
  have h2 : 0 ≤ dot (cross (v0 - b) (q - b)) n := h2
  have h3 : 0 ≤ dot (cross (b - a) (q - a)) n := h3
  rw [i2] at h2
  rw [i3] at h3
  have hc := cramer (a - v0) (b - v0) (q - v0) n
  have h0 : dot (cross (a - v0) (b - v0)) (q - v0) = 0 := by
    have := congrArg (fun v => dot v n) hc
    have s : ∀ k (v : V3), dot (V3.scale k v) n = k * dot v n := by intro k v; simp only [dot, V3.scale]; ring
    have t : ∀ u v : V3, dot (u + v) n = dot u n + dot v n := by intro u v; simp only [dot, add_x, add_y, add_z]; ring
    simp only [t, s] at this
    rw [ha, hb, hq, hn] at this
    linarith
  rw [h0] at hc
  refine ⟨dot (cross (q - v0) (b - v0)) n / D, dot (cross (a - v0) (q - v0)) n / D, div_nonneg h2 hd.le, div_nonneg h1 hd.le, ?_, ?_⟩
  · rw [← add_div, div_le_one hd]; linarith
  · have c : ∀ f : V3 → ℝ, (∀ k v, f (V3.scale k v) = k * f v) → (∀ u v, f (u + v) = f u + f v) → (∀ u v, f (u - v) = f u - f v) →
        f q = f (inPlane v0 a b (dot (cross (q - v0) (b - v0)) n / D) (dot (cross (a - v0) (q - v0)) n / D)) := by
      intro f hs ha' hd'
      have := congrArg f hc
      rw [hs, ha', ha', hs, hs, hs, hd', hd', hd'] at this
      unfold inPlane
      rw [ha', ha', hs, hs, hd', hd']
      have hD' : dot (cross (a - v0) (b - v0)) n = D := rfl
      rw [hD'] at this
      field_simp
      linear_combination this
    ext
    · exact c (fun v => v.x) (fun _ _ => rfl) (fun _ _ => rfl) (fun _ _ => rfl)
    · exact c (fun v => v.y) (fun _ _ => rfl) (fun _ _ => rfl) (fun _ _ => rfl)
    · exact c (fun v => v.z) (fun _ _ => rfl) (fun _ _ => rfl) (fun _ _ => rfl)

theorem dot_unit_le {v n : V3} (hn : dot n n = 1) : dot v n ≤ norm2 v := (le_abs_self _).trans (dot_le_norm hn)

theorem fan_complete {n v0 q : V3} {tol : ℝ} (hn : dot n n = 1) (ht : 0 ≤ tol) (hq : dot (q - v0) n = 0) :
    ∀ (a b : V3) (l : List V3), (∀ v ∈ a :: b :: l, dot (v - v0) n = 0) →
      (∀ e ∈ edges (a :: b :: l), tiny < dot (triNormal v0 e.1 e.2) n ∧ LeftOf n q e) →
      LeftOf n q (v0, a) → LeftOf n q ((b :: l).getLast (by simp), v0) → fanLoop q v0 tol (a :: b :: l) = true
  | a, b, l, hpl, he, h1, h2 => by
    obtain ⟨hD, h3⟩ := he (a, b) (by simp [edges])
    by_cases hb : LeftOf n q (b, v0)
    · obtain ⟨α, β, hα, hβ, hs, hqe⟩ := in_sector hn (lt_trans Verif.Rbf.tiny_pos hD) (hpl a (by simp)) (hpl b (by simp)) hq h1 hb h3
      have hN : tiny < norm2 (triNormal v0 a b) := lt_of_lt_of_le hD (dot_unit_le hn)
      have := C134_triangle_complete hN ht hα hβ hs
      rw [← hqe] at this
      simp [fanLoop, this]
    · have hb' : LeftOf n q (v0, b) := by
        have i2 : dot (cross (v0 - b) (q - b)) n = - dot (cross (b - v0) (q - v0)) n := by
          simp only [dot, cross, sub_x, sub_y, sub_z]; ring
        have : ¬ 0 ≤ dot (cross (v0 - b) (q - b)) n := hb
        change 0 ≤ dot (cross (b - v0) (q - v0)) n
        rw [i2] at this
        linarith
      cases l with
      | nil => exact absurd (by simpa using h2) hb
      | cons c l =>
        have := fan_complete hn ht hq b c l (fun v hv => hpl v (List.mem_cons_of_mem _ hv))
          (fun e he' => he e (by rw [edges]; exact List.mem_cons_of_mem _ he')) hb' (by simpa using h2)
        simp [fanLoop] at this ⊢
        exact Or.inr this

/-- a plane convex polygon with unit normal `n`: its fan of triangles is oriented as `n`, none of them too thin -/
structure Convex (n v0 : V3) (l : List V3) : Prop where
  unit : dot n n = 1
  plane : ∀ v ∈ l, dot (v - v0) n = 0
  turn : ∀ e ∈ edges l, tiny < dot (triNormal v0 e.1 e.2) n

/-- **C134** a point in the plane of a convex polygon and on the left of all its edges is inside.  Missing: what `tol` means for a
polygon is what it means for its triangles; polygons that are not convex (`C134_concave_fails`). -/
theorem C134_polygon_complete_partial {n v0 a b q : V3} {l : List V3} {tol : ℝ} (hc : Convex n v0 (a :: b :: l)) (ht : 0 ≤ tol)
    (hq : dot (q - v0) n = 0) (hin : ∀ e ∈ edges (v0 :: a :: b :: l ++ [v0]), LeftOf n q e) :
    inPolygon q (v0 :: a :: b :: l) tol = some true := by
  have hl : ∀ (x : V3) (l : List V3), (l.getLast?.getD x, v0) ∈ edges (x :: l ++ [v0]) := by
    intro x l
    induction l generalizing x with
    | nil => simp [edges]
    | cons y l ih =>
      have := ih y
      simp only [List.cons_append, edges]
      refine List.mem_cons_of_mem _ ?_
      cases l with
      | nil => simpa using this
      | cons z l => simpa [List.getLast?_eq_some_getLast] using this
  have sub : ∀ (x : V3) (l : List V3) e, e ∈ edges (x :: l) → e ∈ edges (x :: l ++ [v0]) := by
    intro x l
    induction l generalizing x with
    | nil => intro e he; simp [edges] at he
    | cons y l ih =>
      intro e he
      simp only [edges, List.mem_cons, List.cons_append] at he ⊢
      rcases he with he | he
      · exact Or.inl he
      · exact Or.inr (by simpa using ih y e he)
  unfold inPolygon
  rw [Option.some_inj]
  have tail : ∀ e, e ∈ edges (a :: b :: l ++ [v0]) → LeftOf n q e := fun e he => hin e (by
    simp only [List.cons_append, edges] at he ⊢
    exact List.mem_cons_of_mem _ he)
  refine fan_complete hc.unit ht hq a b l hc.plane (fun e he => ⟨hc.turn e he, tail e (sub a (b :: l) e he)⟩)
    (hin _ (by simp [edges])) ?_
  have := tail _ (hl a (b :: l))
  rwa [List.getLast?_eq_some_getLast (by simp), Option.getD_some] at this

/-- the arrow with vertices (3,0), (1,1), (0,3), (0,0), listed from a tip -/
def arrow : List V3 := [⟨3, 0, 0⟩, ⟨1, 1, 0⟩, ⟨0, 3, 0⟩, ⟨0, 0, 0⟩]

/-- **C134, violated** a point outside a concave polygon may be reported inside: the arrow is made of the triangles of (0,0), (1,1) and
each tip, and (4/3,4/3) is in neither. -/
theorem C134_concave_fails :
    inPolygon ⟨4 / 3, 4 / 3, 0⟩ arrow 0 = some true ∧
      ∀ a b, 0 ≤ a → 0 ≤ b → a + b ≤ 1 →
        inPlane ⟨0, 0, 0⟩ ⟨3, 0, 0⟩ ⟨1, 1, 0⟩ a b ≠ ⟨4 / 3, 4 / 3, 0⟩ ∧ inPlane ⟨0, 0, 0⟩ ⟨1, 1, 0⟩ ⟨0, 3, 0⟩ a b ≠ ⟨4 / 3, 4 / 3, 0⟩ := by
  constructor
  · unfold arrow
    rw [C134_polygon_fan]
    refine ⟨(⟨1, 1, 0⟩, ⟨0, 3, 0⟩), by simp [edges], ?_⟩
    have hn : norm2 (triNormal ⟨3, 0, 0⟩ ⟨1, 1, 0⟩ ⟨0, 3, 0⟩) = 3 :=
      norm2_of_dot (by norm_num) (by simp only [triNormal, dot, cross, sub_x, sub_y, sub_z]; norm_num)
    have hp : (⟨4 / 3, 4 / 3, 0⟩ : V3) = inPlane ⟨3, 0, 0⟩ ⟨1, 1, 0⟩ ⟨0, 3, 0⟩ (1 / 3) (1 / 3) := by
      ext <;> simp only [inPlane, V3.scale, add_x, add_y, add_z, sub_x, sub_y, sub_z] <;> norm_num
    rw [hp]
    exact C134_triangle_complete (by rw [hn]; have := tiny_lt_one'; linarith) (le_refl _) (by norm_num) (by norm_num) (by norm_num)
  · intro a b ha hb hab
    constructor
    · intro h
      have h2 := congrArg V3.y h
      simp only [inPlane, V3.scale, add_y, sub_y] at h2
      linarith
    · intro h
      have h1 := congrArg V3.x h
      simp only [inPlane, V3.scale, add_x, sub_x] at h1
      linarith

/-- **C134, violated** without vertices the answer is undefined, with one or two the answer is no, even at a vertex. -/
theorem C134_few_fails (p v0 v1 : V3) (tol : ℝ) :
    inPolygon p [] tol = none ∧ inPolygon v0 [v0] tol = some false ∧ inPolygon v0 [v0, v1] tol = some false := ⟨rfl, rfl, rfl⟩

/-- a square and its centre meet the hypotheses -/
example : Convex ⟨0, 0, 1⟩ ⟨0, 0, 0⟩ [⟨1, 0, 0⟩, ⟨1, 1, 0⟩, ⟨0, 1, 0⟩] ∧
    inPolygon ⟨1 / 2, 1 / 2, 0⟩ [⟨0, 0, 0⟩, ⟨1, 0, 0⟩, ⟨1, 1, 0⟩, ⟨0, 1, 0⟩] 0 = some true := by
  have hc : Convex ⟨0, 0, 1⟩ ⟨0, 0, 0⟩ [⟨1, 0, 0⟩, ⟨1, 1, 0⟩, ⟨0, 1, 0⟩] := by
    refine ⟨by simp [dot], by simp [dot], ?_⟩
    have := tiny_lt_one'
    simpa [edges, triNormal, cross, dot] using this
  refine ⟨hc, C134_polygon_complete_partial hc (le_refl _) (by simp [dot]) ?_⟩
  norm_num [edges, LeftOf, dot, cross]

/-! ### Distance from a polygon -/

/-- the points of a triangle -/
def InTri (v0 v1 v2 q : V3) : Prop := ∃ a b, 0 ≤ a ∧ 0 ≤ b ∧ a + b ≤ 1 ∧ q = inPlane v0 v1 v2 a b

/-- what `distancePointTriangle` of bitpit computes: the distance to the closest point of the triangle -/
def TriDist (f : V3 → V3 → V3 → V3 → ℝ) : Prop :=
  ∀ p v0 v1 v2, (∀ q, InTri v0 v1 v2 q → f p v0 v1 v2 ≤ norm2 (p - q)) ∧ ∃ q, InTri v0 v1 v2 q ∧ f p v0 v1 v2 = norm2 (p - q)

theorem fanDistance_min {f : V3 → V3 → V3 → V3 → ℝ} {p b : V3} :
    ∀ l m, (fanDistance f p b l m ≤ m ∧ ∀ e ∈ edges l, fanDistance f p b l m ≤ f p b e.1 e.2) ∧
      (fanDistance f p b l m = m ∨ ∃ e ∈ edges l, fanDistance f p b l m = f p b e.1 e.2)
  | [], m => by simp [fanDistance, edges]
  | [_], m => by simp [fanDistance, edges]
  | u :: v :: l, m => by
    obtain ⟨⟨h1, h2⟩, h3⟩ := fanDistance_min (p := p) (b := b) (f := f) (v :: l) (min m (f p b u v))
    simp only [fanDistance, edges, List.mem_cons, forall_eq_or_imp, exists_eq_or_imp]
    refine ⟨⟨h1.trans (min_le_left _ _), h1.trans (min_le_right _ _), h2⟩, ?_⟩
    rcases h3 with h3 | h3
    · rcases min_choice m (f p b u v) with hm | hm
      · exact Or.inl (h3.trans hm)
      · exact Or.inr (Or.inl (h3.trans hm))
    · exact Or.inr (Or.inr h3)

/-- the barycenter of the vertices -/
def Barycenter (vs : List V3) (b : V3) : Prop :=
  b.x = (vs.map V3.x).sum / vs.length ∧ b.y = (vs.map V3.y).sum / vs.length ∧ b.z = (vs.map V3.z).sum / vs.length

theorem foldl_add : ∀ (l : List V3) (s : V3), (l.foldl (· + ·) s).x = s.x + (l.map V3.x).sum ∧
    (l.foldl (· + ·) s).y = s.y + (l.map V3.y).sum ∧ (l.foldl (· + ·) s).z = s.z + (l.map V3.z).sum
  | [], s => by simp
  | a :: l, s => by
    obtain ⟨h1, h2, h3⟩ := foldl_add l (s + a)
    simp only [List.foldl_cons, List.map_cons, List.sum_cons]
    rw [h1, h2, h3]
    simp only [add_x, add_y, add_z]
    refine ⟨by ring, by ring, by ring⟩

theorem barycenter (vs : List V3) : Barycenter vs (V3.scale (1 / vs.length) (sumV vs)) := by
  obtain ⟨h1, h2, h3⟩ := foldl_add vs ⟨0, 0, 0⟩
  unfold Barycenter sumV
  simp only [V3.scale]
  rw [h1, h2, h3]
  simp only [zero_add]
  refine ⟨by ring, by ring, by ring⟩

/-- **C135** the distance from a polygon is that of the closest point among the triangles of the barycenter and two consecutive vertices.
Missing: the triangle of the last and the first vertex (`C135_closing_fails`). -/
theorem C135_distance_partial {f : V3 → V3 → V3 → V3 → ℝ} (hf : TriDist f) {p u v : V3} {l : List V3} :
    ∃ b d, Barycenter (u :: v :: l) b ∧ polygonDistance f p (u :: v :: l) = some d ∧
      (∀ e ∈ edges (u :: v :: l), ∀ q, InTri b e.1 e.2 q → d ≤ norm2 (p - q)) ∧
      (d < huge → ∃ e ∈ edges (u :: v :: l), ∃ q, InTri b e.1 e.2 q ∧ d = norm2 (p - q)) := by
  obtain ⟨⟨h1, h2⟩, h3⟩ := fanDistance_min (p := p) (f := f)
    (b := V3.scale (1 / (u :: v :: l).length) (sumV (u :: v :: l))) (u :: v :: l) huge
  refine ⟨_, _, barycenter _, rfl, ?_, ?_⟩
  · intro e he q hq
    exact (h2 e he).trans ((hf p _ e.1 e.2).1 q hq)
  · intro hd
    rcases h3 with h3 | ⟨e, he, h3⟩
    · rw [h3] at hd; exact absurd hd (lt_irrefl _)
    · obtain ⟨q, hq, hqd⟩ := (hf p (V3.scale (1 / (u :: v :: l).length) (sumV (u :: v :: l))) e.1 e.2).2
      exact ⟨e, he, q, hq, h3.trans hqd⟩

/-- such a distance exists -/
theorem triDist_exists : ∃ f, TriDist f := by
  have : ∀ p v0 v1 v2 : V3, ∃ q, InTri v0 v1 v2 q ∧ ∀ q', InTri v0 v1 v2 q' → norm2 (p - q) ≤ norm2 (p - q') := by
    intro p v0 v1 v2
    let K : Set (ℝ × ℝ) := (Set.Icc 0 1 ×ˢ Set.Icc 0 1) ∩ {x | x.1 + x.2 ≤ 1}
    have hK : IsCompact K := (isCompact_Icc.prod isCompact_Icc).inter_right (isClosed_le (by fun_prop) (by fun_prop))
    have hne : K.Nonempty := ⟨(0, 0), by simp [K]⟩
    have hcont : ContinuousOn (fun x : ℝ × ℝ => norm2 (p - inPlane v0 v1 v2 x.1 x.2)) K := by
      apply Continuous.continuousOn
      unfold norm2
      simp only [dot, inPlane, V3.scale, add_x, add_y, add_z, sub_x, sub_y, sub_z]
      fun_prop
    obtain ⟨x, hx, hmin⟩ := hK.exists_isMinOn hne hcont
    obtain ⟨⟨⟨a0, a1⟩, ⟨b0, b1⟩⟩, hab⟩ := hx
    refine ⟨inPlane v0 v1 v2 x.1 x.2, ⟨x.1, x.2, a0, b0, hab, rfl⟩, ?_⟩
    rintro q' ⟨a, b, ha, hb, hs, rfl⟩
    exact hmin (show (a, b) ∈ K from ⟨⟨⟨ha, by simp only; linarith⟩, ⟨hb, by simp only; linarith⟩⟩, hs⟩)
  choose g hg using this
  exact ⟨fun p v0 v1 v2 => norm2 (p - g p v0 v1 v2), fun p v0 v1 v2 => ⟨fun q hq => (hg p v0 v1 v2).2 q hq, _, (hg p v0 v1 v2).1, rfl⟩⟩

example : ∃ f, TriDist f ∧ ∃ d, polygonDistance f ⟨0, 1 / 2, 0⟩ [⟨0, 0, 0⟩, ⟨1, 0, 0⟩, ⟨1, 1, 0⟩, ⟨0, 1, 0⟩] = some d ∧
    ∀ q, InTri ⟨1 / 2, 1 / 2, 0⟩ ⟨0, 0, 0⟩ ⟨1, 0, 0⟩ q → d ≤ norm2 (⟨0, 1 / 2, 0⟩ - q) := by
  obtain ⟨f, hf⟩ := triDist_exists
  obtain ⟨b, d, ⟨h1, h2, h3⟩, hd, hm, -⟩ := C135_distance_partial hf (p := ⟨0, 1 / 2, 0⟩) (u := ⟨0, 0, 0⟩) (v := ⟨1, 0, 0⟩)
    (l := [⟨1, 1, 0⟩, ⟨0, 1, 0⟩])
  have hb : b = ⟨1 / 2, 1 / 2, 0⟩ := by
    ext
    · rw [h1]; norm_num
    · rw [h2]; norm_num
    · rw [h3]; norm_num
  subst hb
  exact ⟨f, hf, d, hd, hm (⟨0, 0, 0⟩, ⟨1, 0, 0⟩) (by simp [edges])⟩

/-- **C135, violated** the middle of the closing edge of the unit square is reported away from it. -/
theorem C135_closing_fails {f : V3 → V3 → V3 → V3 → ℝ} (hf : TriDist f) :
    ∃ d, polygonDistance f ⟨0, 1 / 2, 0⟩ [⟨0, 0, 0⟩, ⟨1, 0, 0⟩, ⟨1, 1, 0⟩, ⟨0, 1, 0⟩] = some d ∧ 1 / 3 < d := by
  obtain ⟨b, d, hb, hd, -, hq⟩ := C135_distance_partial hf (p := ⟨0, 1 / 2, 0⟩) (u := ⟨0, 0, 0⟩) (v := ⟨1, 0, 0⟩) (l := [⟨1, 1, 0⟩, ⟨0, 1, 0⟩])
  refine ⟨d, hd, ?_⟩
  by_cases hh : d < huge
  · obtain ⟨e, he, q, ⟨α, β, h1, h2, h3, rfl⟩, rfl⟩ := hq hh
    have hbe : b = ⟨1 / 2, 1 / 2, 0⟩ := by
      obtain ⟨g1, g2, g3⟩ := hb
      ext
      · rw [g1]; norm_num
      · rw [g2]; norm_num
      · rw [g3]; norm_num
    subst hbe
    have key : ∀ X S : ℝ, 1 / 2 ≤ X + S → 1 / 9 < X * X + S * S := by
      intro X S h; nlinarith [sq_nonneg (X - S)]
    rw [← not_le, norm2_le_iff (by norm_num), not_le]
    simp only [edges, List.mem_cons, List.not_mem_nil, or_false] at he
    rcases he with rfl | rfl | rfl <;> simp only [dot, inPlane, V3.scale, add_x, add_y, add_z, sub_x, sub_y, sub_z]
    · have := key (1 / 2 - α / 2 + β / 2) (α / 2 + β / 2) (by linarith)
      nlinarith
    · nlinarith
    · have := key (1 / 2 + α / 2 - β / 2) (α / 2 + β / 2) (by linarith)
      nlinarith
  · have := ten_le_huge
    linarith

end
end Verif.Tree
