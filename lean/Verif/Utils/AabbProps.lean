import Verif.Utils.Aabb
/-
C127: the box of a set of geometries along given axes.
-/
namespace Verif.Utils
open Verif.Shape Verif.Manip Verif.Field
open Verif.Rbf (tiny huge Fits)
open List hiding get get_of_mem

noncomputable section
open scoped Classical

/-! ### Specification -/

/-- `p` is a vertex of one of the geometries -/
def IsVertex (w : World) (gs : List Nat) (p : V3) : Prop := ∃ g ∈ gs, ∃ id, get (w g).verts id = some p

/-- the numbers `lo` and `hi` are the least and the largest coordinate along `a` of the points -/
structure Extent (P : V3 → Prop) (a : V3) (lo hi : ℝ) : Prop where
  low : ∀ p, P p → lo ≤ dot p a
  high : ∀ p, P p → dot p a ≤ hi
  lowest : ∃ p, P p ∧ dot p a = lo
  highest : ∃ p, P p ∧ dot p a = hi

theorem extent_unique {P : V3 → Prop} {a : V3} {l h l' h' : ℝ} (e : Extent P a l h) (e' : Extent P a l' h') :
    l = l' ∧ h = h' := by
  obtain ⟨p, hp, rfl⟩ := e.lowest
  obtain ⟨q, hq, rfl⟩ := e.highest
  obtain ⟨p', hp', rfl⟩ := e'.lowest
  obtain ⟨q', hq', rfl⟩ := e'.highest
  exact ⟨le_antisymm (e.low _ hp') (e'.low _ hp), le_antisymm (e'.high _ hq) (e.high _ hq')⟩

/-- the points between the three pairs of planes at half the span from the origin -/
structure Within (m : M3) (o s p : V3) : Prop where
  axis0 : |dot p m.r0 - dot o m.r0| ≤ s.x / 2
  axis1 : |dot p m.r1 - dot o m.r1| ≤ s.y / 2
  axis2 : |dot p m.r2 - dot o m.r2| ≤ s.z / 2

/-! ### The loops -/

theorem fold_min (l : List ℝ) (m : ℝ) : l.foldl min m ≤ m ∧ (∀ v ∈ l, l.foldl min m ≤ v) ∧
    (l.foldl min m = m ∨ l.foldl min m ∈ l) := by
  induction l generalizing m with
  | nil => simp
  | cons a l ih =>
    rw [foldl_cons]
    obtain ⟨h1, h2, h3⟩ := ih (min m a)
    refine ⟨h1.trans (min_le_left _ _), ?_, ?_⟩
    · intro v hv
      rcases mem_cons.1 hv with rfl | hv
      · exact h1.trans (min_le_right _ _)
      · exact h2 v hv
    · rcases h3 with h3 | h3
      · rcases min_choice m a with h | h
        · exact .inl (h3.trans h)
        · exact .inr (by rw [h3, h]; simp)
      · exact .inr (mem_cons_of_mem _ h3)

theorem fold_max (l : List ℝ) (m : ℝ) : m ≤ l.foldl max m ∧ (∀ v ∈ l, v ≤ l.foldl max m) ∧
    (l.foldl max m = m ∨ l.foldl max m ∈ l) := by
  induction l generalizing m with
  | nil => simp
  | cons a l ih =>
    rw [foldl_cons]
    obtain ⟨h1, h2, h3⟩ := ih (max m a)
    refine ⟨(le_max_left _ _).trans h1, ?_, ?_⟩
    · intro v hv
      rcases mem_cons.1 hv with rfl | hv
      · exact (le_max_right _ _).trans h1
      · exact h2 v hv
    · rcases h3 with h3 | h3
      · rcases max_choice m a with h | h
        · exact .inl (h3.trans h)
        · exact .inr (by rw [h3, h]; simp)
      · exact .inr (mem_cons_of_mem _ h3)

theorem mem_points {w : World} (hw : WorldOk w) {gs : List Nat} {p : V3} : p ∈ pointsOf w gs ↔ IsVertex w gs p := by
  simp only [pointsOf, mem_flatMap, mem_map, IsVertex]
  constructor
  · rintro ⟨g, hg, e, he, rfl⟩
    exact ⟨g, hg, e.1, Verif.Mesh.get_of_mem (hw.verts g) he⟩
  · rintro ⟨g, hg, id, h⟩
    exact ⟨g, hg, (id, p), get_some_mem h, rfl⟩

theorem extent_of {w : World} (hw : WorldOk w) {gs : List Nat} {a : V3} (hne : ∃ p, IsVertex w gs p)
    (hf : ∀ p, IsVertex w gs p → Fits (dot p a)) :
    Extent (IsVertex w gs) a (least ((pointsOf w gs).map (fun p => dot p a)))
      (most ((pointsOf w gs).map (fun p => dot p a))) := by
  obtain ⟨p0, hp0⟩ := hne
  obtain ⟨-, h2, h3⟩ := fold_min ((pointsOf w gs).map (fun p => dot p a)) huge
  obtain ⟨-, k2, k3⟩ := fold_max ((pointsOf w gs).map (fun p => dot p a)) (-huge)
  have hm : ∀ p, IsVertex w gs p → dot p a ∈ (pointsOf w gs).map (fun p => dot p a) :=
    fun p hp => mem_map.2 ⟨p, (mem_points hw).2 hp, rfl⟩
  refine ⟨fun p hp => h2 _ (hm p hp), fun p hp => k2 _ (hm p hp), ?_, ?_⟩
  · rcases h3 with h3 | h3
    · refine ⟨p0, hp0, le_antisymm ?_ (h2 _ (hm p0 hp0))⟩
      unfold least
      rw [h3]
      exact (hf p0 hp0).2
    · obtain ⟨q, hq, e⟩ := mem_map.1 h3
      exact ⟨q, (mem_points hw).1 hq, e⟩
  · rcases k3 with k3 | k3
    · refine ⟨p0, hp0, le_antisymm (k2 _ (hm p0 hp0)) ?_⟩
      unfold most
      rw [k3]
      exact (hf p0 hp0).1
    · obtain ⟨q, hq, e⟩ := mem_map.1 k3
      exact ⟨q, (mem_points hw).1 hq, e⟩

theorem frame_det (a b : V3) : (⟨a, b, cross a b⟩ : M3).det = dot (cross a b) (cross a b) := by
  simp only [M3.det, cross, dot]; ring

theorem pos_ne {d : V3} (h : tiny < norm2 d) : d ≠ ⟨0, 0, 0⟩ := by
  intro e
  rw [norm2_eq_zero.2 e] at h
  exact absurd h (not_lt.2 tiny_pos.le)

theorem cross_unit {a b : V3} (h : cross a.unit b.unit = ⟨0, 0, 0⟩) (ha : norm2 a ≠ 0) (hb : norm2 b ≠ 0) :
    cross a b = ⟨0, 0, 0⟩ := by
  have hx := congrArg V3.x h
  have hy := congrArg V3.y h
  have hz := congrArg V3.z h
  simp only [cross, V3.unit] at hx hy hz
  field_simp at hx hy hz
  ext <;> simp only [cross] <;> linarith

/-- the axes given are usable: the first two are not (almost) zero and not parallel -/
structure GoodAxes (m : M3) : Prop where
  first : tiny < norm2 m.r0
  second : tiny < norm2 m.r1
  apart : cross m.r0 m.r1 ≠ ⟨0, 0, 0⟩

theorem frame_good {m : M3} (h : GoodAxes m) : boxFrame m = ⟨m.r0.unit, m.r1.unit, cross m.r0.unit m.r1.unit⟩ := by
  unfold boxFrame
  rw [if_pos ⟨h.first, h.second⟩]

theorem frame_det_ne {m : M3} (h : GoodAxes m) : (boxFrame m).det ≠ 0 := by
  rw [frame_good h, frame_det]
  intro e
  refine h.apart (cross_unit (dot_self_eq_zero e) ?_ ?_)
  · exact fun e => pos_ne h.first (norm2_eq_zero.1 e)
  · exact fun e => pos_ne h.second (norm2_eq_zero.1 e)

/-- the third component of what is found: the mean of the extents -/
def meanOf (lo hi : V3) : ℝ := ((hi.x - lo.x) + (hi.y - lo.y) + (hi.z - lo.z)) / 3

/-! ### C127 -/

/-- **C127**: the axes found are the directions of the first two given and their cross product -/
theorem C127_axes (w : World) (b : Aabb) (hg : b.geos ≠ []) (h : GoodAxes b.axes) :
    DirectionOf b.axes.r0 (b.execute w).axes.r0 ∧ DirectionOf b.axes.r1 (b.execute w).axes.r1 ∧
    (b.execute w).axes.r2 = cross (b.execute w).axes.r0 (b.execute w).axes.r1 := by
  have e : (b.execute w).axes = boxFrame b.axes := by
    unfold Aabb.execute; rw [if_neg (by simpa using hg)]
  rw [e, frame_good h]
  exact ⟨direction_unit (pos_ne h.first), direction_unit (pos_ne h.second), rfl⟩

theorem good_one : GoodAxes M3.one := by
  have h1 : norm2 M3.one.r0 = 1 := norm2_one (by norm_num [dot, M3.one])
  have h2 : norm2 M3.one.r1 = 1 := norm2_one (by norm_num [dot, M3.one])
  refine ⟨by rw [h1]; exact tiny_lt_one, by rw [h2]; exact tiny_lt_one, ?_⟩
  intro h
  have := congrArg V3.z h
  norm_num [cross, M3.one] at this

example : ({ geos := [0] } : Aabb).geos ≠ [] ∧ GoodAxes ({ geos := [0] } : Aabb).axes := ⟨by simp, good_one⟩

/-- **C127**: with orthogonal axes the axes found are a right-handed orthonormal frame -/
theorem C127_orthonormal (w : World) (b : Aabb) (hg : b.geos ≠ []) (h : GoodAxes b.axes) (ho : dot b.axes.r0 b.axes.r1 = 0) :
    let m := (b.execute w).axes
    dot m.r0 m.r0 = 1 ∧ dot m.r1 m.r1 = 1 ∧ dot m.r2 m.r2 = 1 ∧ dot m.r0 m.r1 = 0 ∧ dot m.r0 m.r2 = 0 ∧ dot m.r1 m.r2 = 0 ∧
      m.det = 1 := by
  obtain ⟨h0, h1, h2⟩ := C127_axes w b hg h
  intro m
  have e : dot m.r0 m.r1 = 0 := by
    have k : dot b.axes.r0 b.axes.r1 = norm2 b.axes.r0 * norm2 b.axes.r1 * dot m.r0 m.r1 := by
      conv_lhs => rw [h0.along, h1.along]
      simp only [dot, V3.scale, m]; ring
    rw [ho] at k
    have n0 : norm2 b.axes.r0 ≠ 0 := fun e => pos_ne h.first (norm2_eq_zero.1 e)
    have n1 : norm2 b.axes.r1 ≠ 0 := fun e => pos_ne h.second (norm2_eq_zero.1 e)
    rcases mul_eq_zero.1 k.symm with k | k
    · rcases mul_eq_zero.1 k with k | k
      · exact absurd k n0
      · exact absurd k n1
    · exact k
  have l := lagrange m.r0 m.r1
  have u0 : dot m.r0 m.r0 = 1 := h0.unit
  have u1 : dot m.r1 m.r1 = 1 := h1.unit
  have q : m.r2 = cross m.r0 m.r1 := h2
  rw [u0, u1, e] at l
  refine ⟨u0, u1, ?_, e, ?_, ?_, ?_⟩
  · rw [q, l]; norm_num
  · rw [q]; simp only [dot, cross]; ring
  · rw [q]; simp only [dot, cross]; ring
  · have : m = ⟨m.r0, m.r1, cross m.r0 m.r1⟩ := by rw [← q]
    rw [this, frame_det, l]; norm_num

example : dot M3.one.r0 M3.one.r1 = 0 := by norm_num [dot, M3.one]

/-- **C127**: along each axis the origin found is midway between the least and the largest coordinate of the vertices of all
the geometries, and the span is the difference of the two, unless that is less than a ten-thousandth of the mean of the
three, in which case it is that -/
theorem C127_box {w : World} (hw : WorldOk w) (b : Aabb) (h : GoodAxes b.axes) (hne : ∃ p, IsVertex w b.geos p)
    (hf : ∀ p, IsVertex w b.geos p → Fits (dot p (b.execute w).axes.r0) ∧ Fits (dot p (b.execute w).axes.r1) ∧
      Fits (dot p (b.execute w).axes.r2)) :
    let m := (b.execute w).axes
    ∃ lo hi o : V3, Extent (IsVertex w b.geos) m.r0 lo.x hi.x ∧ Extent (IsVertex w b.geos) m.r1 lo.y hi.y ∧
      Extent (IsVertex w b.geos) m.r2 lo.z hi.z ∧ (b.execute w).origin = some o ∧
      dot o m.r0 = (lo.x + hi.x) / 2 ∧ dot o m.r1 = (lo.y + hi.y) / 2 ∧ dot o m.r2 = (lo.z + hi.z) / 2 ∧
      (b.execute w).span.x = max (hi.x - lo.x) (meanOf lo hi / 10000) ∧
      (b.execute w).span.y = max (hi.y - lo.y) (meanOf lo hi / 10000) ∧
      (b.execute w).span.z = max (hi.z - lo.z) (meanOf lo hi / 10000) := by
  have hg : b.geos ≠ [] := by
    obtain ⟨p, g, hg, -⟩ := hne
    exact ne_nil_of_mem hg
  have e : b.execute w = { b with
      axes := boxFrame b.axes
      span := raised (mostAlong (boxFrame b.axes) (pointsOf w b.geos) - leastAlong (boxFrame b.axes) (pointsOf w b.geos))
      origin := some ((boxFrame b.axes).inverse.app (V3.scale (1 / 2) (leastAlong (boxFrame b.axes) (pointsOf w b.geos) +
        mostAlong (boxFrame b.axes) (pointsOf w b.geos)))) } := by
    unfold Aabb.execute
    rw [if_neg (by simpa using hg)]
    simp only [if_neg (frame_det_ne h)]
  have em : (b.execute w).axes = boxFrame b.axes := by rw [e]
  rw [em] at hf
  rw [em]
  refine ⟨leastAlong (boxFrame b.axes) (pointsOf w b.geos), mostAlong (boxFrame b.axes) (pointsOf w b.geos), _,
    extent_of hw hne (fun p hp => (hf p hp).1), extent_of hw hne (fun p hp => (hf p hp).2.1),
    extent_of hw hne (fun p hp => (hf p hp).2.2), by rw [e], ?_, ?_, ?_, ?_, ?_, ?_⟩
  · have := congrArg V3.x (app_inv (frame_det_ne h) (V3.scale (1 / 2) (leastAlong (boxFrame b.axes) (pointsOf w b.geos) +
        mostAlong (boxFrame b.axes) (pointsOf w b.geos))))
    simp only [M3.app] at this
    simp only [M3.app]
    rw [this]
    simp only [V3.scale, add_x]; ring
  · have := congrArg V3.y (app_inv (frame_det_ne h) (V3.scale (1 / 2) (leastAlong (boxFrame b.axes) (pointsOf w b.geos) +
        mostAlong (boxFrame b.axes) (pointsOf w b.geos))))
    simp only [M3.app] at this
    simp only [M3.app]
    rw [this]
    simp only [V3.scale, add_y]; ring
  · have := congrArg V3.z (app_inv (frame_det_ne h) (V3.scale (1 / 2) (leastAlong (boxFrame b.axes) (pointsOf w b.geos) +
        mostAlong (boxFrame b.axes) (pointsOf w b.geos))))
    simp only [M3.app] at this
    simp only [M3.app]
    rw [this]
    simp only [V3.scale, add_z]; ring
  all_goals
    rw [e]
    simp only [raised, meanOf, sub_x, sub_y, sub_z]
    congr 1
    ring

/-- **C127**: every vertex of every geometry is in the box -/
theorem C127_contains {w : World} (hw : WorldOk w) (b : Aabb) (h : GoodAxes b.axes)
    (hf : ∀ p, IsVertex w b.geos p → Fits (dot p (b.execute w).axes.r0) ∧ Fits (dot p (b.execute w).axes.r1) ∧
      Fits (dot p (b.execute w).axes.r2)) {p : V3} (hp : IsVertex w b.geos p) :
    ∃ o, (b.execute w).origin = some o ∧ Within (b.execute w).axes o (b.execute w).span p := by
  obtain ⟨lo, hi, o, e0, e1, e2, ho, o0, o1, o2, s0, s1, s2⟩ := C127_box hw b h ⟨p, hp⟩ hf
  refine ⟨o, ho, ?_, ?_, ?_⟩
  · rw [o0, s0, abs_le]
    have := le_max_left (hi.x - lo.x) (meanOf lo hi / 10000)
    constructor <;> linarith [e0.low p hp, e0.high p hp]
  · rw [o1, s1, abs_le]
    have := le_max_left (hi.y - lo.y) (meanOf lo hi / 10000)
    constructor <;> linarith [e1.low p hp, e1.high p hp]
  · rw [o2, s2, abs_le]
    have := le_max_left (hi.z - lo.z) (meanOf lo hi / 10000)
    constructor <;> linarith [e2.low p hp, e2.high p hp]

theorem huge_ge : (10 : ℝ) ≤ huge := by
  unfold huge
  have h1 : (2 : ℝ) ^ 10 ≤ 2 ^ 1023 := pow_le_pow_right₀ (by norm_num) (by norm_num)
  have h2 : (1 : ℝ) ≤ 2 - 1 / 2 ^ 52 := by norm_num
  generalize (2 : ℝ) ^ 1023 = t at *
  generalize (2 : ℝ) - 1 / 2 ^ 52 = s at *
  nlinarith

/-- the box of the demonstration triangle: the hypotheses hold and the numbers are the expected ones -/
theorem demo_fits : ∀ p, IsVertex demoWorld [0] p → Fits (dot p M3.one.r0) ∧ Fits (dot p M3.one.r1) ∧
    Fits (dot p M3.one.r2) := by
  rintro p ⟨g, -, id, hp⟩
  have := get_some_mem hp
  have hh := huge_ge
  simp only [demoWorld, demoObj, mem_cons, Prod.mk.injEq, not_mem_nil, or_false] at this
  rcases this with ⟨-, rfl⟩ | ⟨-, rfl⟩ | ⟨-, rfl⟩ <;>
    (simp only [Fits, dot, M3.one]; refine ⟨⟨?_, ?_⟩, ⟨?_, ?_⟩, ⟨?_, ?_⟩⟩ <;> linarith)

theorem frame_one : boxFrame M3.one = M3.one := by
  rw [frame_good good_one, unit_of_unit (by norm_num [dot, M3.one]), unit_of_unit (by norm_num [dot, M3.one])]
  simp [M3.one, cross]

example : WorldOk demoWorld ∧ GoodAxes ({ geos := [0] } : Aabb).axes ∧
    (∀ p, IsVertex demoWorld [0] p → Fits (dot p (({ geos := [0] } : Aabb).execute demoWorld).axes.r0) ∧
      Fits (dot p (({ geos := [0] } : Aabb).execute demoWorld).axes.r1) ∧
      Fits (dot p (({ geos := [0] } : Aabb).execute demoWorld).axes.r2)) ∧
    IsVertex demoWorld [0] ⟨0, 2, 0⟩ := by
  refine ⟨demoWorld_ok, good_one, ?_, 0, by simp, 7, rfl⟩
  have : (({ geos := [0] } : Aabb).execute demoWorld).axes = M3.one := frame_one
  rw [this]
  exact demo_fits

theorem fold_min_congr {l l' : List ℝ} (h : ∀ v, v ∈ l ↔ v ∈ l') (m : ℝ) : l.foldl min m = l'.foldl min m := by
  obtain ⟨a1, a2, a3⟩ := fold_min l m
  obtain ⟨b1, b2, b3⟩ := fold_min l' m
  apply le_antisymm
  · rcases b3 with b3 | b3
    · rw [b3]; exact a1
    · exact a2 _ ((h _).2 b3)
  · rcases a3 with a3 | a3
    · rw [a3]; exact b1
    · exact b2 _ ((h _).1 a3)

theorem fold_max_congr {l l' : List ℝ} (h : ∀ v, v ∈ l ↔ v ∈ l') (m : ℝ) : l.foldl max m = l'.foldl max m := by
  obtain ⟨a1, a2, a3⟩ := fold_max l m
  obtain ⟨b1, b2, b3⟩ := fold_max l' m
  apply le_antisymm
  · rcases a3 with a3 | a3
    · rw [a3]; exact b1
    · exact b2 _ ((h _).1 a3)
  · rcases b3 with b3 | b3
    · rw [b3]; exact a1
    · exact a2 _ ((h _).2 b3)

/-- **C127**: the box depends on which geometries are in the list, not on their order -/
theorem C127_order (w : World) (b : Aabb) {gs gs' : List Nat} (h : ∀ g, g ∈ gs ↔ g ∈ gs') :
    let r := ({ b with geos := gs } : Aabb).execute w
    let r' := ({ b with geos := gs' } : Aabb).execute w
    r.origin = r'.origin ∧ r.span = r'.span ∧ r.axes = r'.axes := by
  have hp : ∀ p, p ∈ pointsOf w gs ↔ p ∈ pointsOf w gs' := by
    intro p; simp only [pointsOf, mem_flatMap, h]
  have hm : ∀ (f : V3 → ℝ) v, v ∈ (pointsOf w gs).map f ↔ v ∈ (pointsOf w gs').map f := by
    intro f v; simp only [mem_map, hp]
  have hl : leastAlong (boxFrame b.axes) (pointsOf w gs) = leastAlong (boxFrame b.axes) (pointsOf w gs') := by
    unfold leastAlong least
    rw [fold_min_congr (hm _), fold_min_congr (hm _), fold_min_congr (hm _)]
  have hh : mostAlong (boxFrame b.axes) (pointsOf w gs) = mostAlong (boxFrame b.axes) (pointsOf w gs') := by
    unfold mostAlong most
    rw [fold_max_congr (hm _), fold_max_congr (hm _), fold_max_congr (hm _)]
  have he : gs.isEmpty = gs'.isEmpty := by
    rcases gs with _ | ⟨a, t⟩ <;> rcases gs' with _ | ⟨a', t'⟩
    · rfl
    · have := (h a').2 (by simp); simp at this
    · have := (h a).1 (by simp); simp at this
    · rfl
  simp only [Aabb.execute, he, hl, hh]
  split <;> simp

example : ∀ g, g ∈ [3, 1, 2] ↔ g ∈ [1, 2, 3] := by intro g; simp; omega

/-- **C127**: executing again gives the same box: the axes found are kept -/
theorem C127_again (w : World) (b : Aabb) (h : GoodAxes b.axes) : (b.execute w).execute w = b.execute w := by
  by_cases hg : b.geos = []
  · simp [Aabb.execute, hg]
  · have hi : boxFrame (boxFrame b.axes) = boxFrame b.axes := by
      have u0 := unit_dot (lt_trans tiny_pos h.first)
      have u1 := unit_dot (lt_trans tiny_pos h.second)
      rw [frame_good h]
      unfold boxFrame
      rw [if_pos]
      · rw [unit_of_unit u0, unit_of_unit u1]
      · rw [norm2_one u0, norm2_one u1]; exact ⟨tiny_lt_one, tiny_lt_one⟩
    have hn : ¬ b.geos.isEmpty = true := by simpa using hg
    simp only [Aabb.execute, if_neg hn, hi]

/-- **C127**: the geometries asked for last are the ones that are used: `setGeometries` forgets the list, `setGeometry` adds
to it, pointers to nothing are dropped, and no geometry is listed twice -/
theorem C127_list (b : Aabb) (l : List (Option Nat)) (g : Option Nat) (hn : b.geos.Nodup) :
    (∀ x, x ∈ (b.setGeometry g).geos ↔ x ∈ b.geos ∨ some x = g) ∧ (b.setGeometry g).geos.Nodup ∧
    (∀ x, x ∈ (b.setGeometries l).geos ↔ some x ∈ l) ∧ (b.setGeometries l).geos.Nodup := by
  have one : ∀ (b : Aabb) (g : Option Nat), b.geos.Nodup →
      (∀ x, x ∈ (b.setGeometry g).geos ↔ x ∈ b.geos ∨ some x = g) ∧ (b.setGeometry g).geos.Nodup := by
    intro b g hn
    cases g with
    | none => simp [Aabb.setGeometry, hn]
    | some g =>
      refine ⟨fun x => ?_, hn.insert⟩
      simp only [Aabb.setGeometry, mem_insert_iff, Option.some.injEq]
      tauto
  have many : ∀ (l : List (Option Nat)) (b : Aabb), b.geos.Nodup →
      (∀ x, x ∈ (l.foldl Aabb.setGeometry b).geos ↔ x ∈ b.geos ∨ some x ∈ l) ∧
      (l.foldl Aabb.setGeometry b).geos.Nodup := by
    intro l
    induction l with
    | nil => intro b hn; simp [hn]
    | cons a l ih =>
      intro b hn
      obtain ⟨h1, h2⟩ := one b a hn
      obtain ⟨h3, h4⟩ := ih (b.setGeometry a) h2
      refine ⟨fun x => ?_, h4⟩
      rw [foldl_cons, h3, h1, mem_cons]
      tauto
  obtain ⟨h1, h2⟩ := one b g hn
  obtain ⟨h3, h4⟩ := many l { b with geos := [] } (by simp)
  refine ⟨h1, h2, fun x => ?_, h4⟩
  have := h3 x
  simp only [not_mem_nil, false_or] at this
  exact this

example : ({} : Aabb).geos.Nodup := by simp

/-- **C127**: the eight points drawn are the corners of the box, in the order of a hexahedron of the visualization format -/
theorem C127_drawn (b : Aabb) (o : V3) (h : b.axes.det ≠ 0) (i : Nat) (hi : i < 8) :
    ∃ p, (b.drawn o)[i]? = some p ∧
      dot p b.axes.r0 - dot o b.axes.r0 = (if i % 4 = 1 ∨ i % 4 = 2 then 1 else -1) * (b.span.x / 2) ∧
      dot p b.axes.r1 - dot o b.axes.r1 = (if i % 4 = 2 ∨ i % 4 = 3 then 1 else -1) * (b.span.y / 2) ∧
      dot p b.axes.r2 - dot o b.axes.r2 = (if 4 ≤ i then 1 else -1) * (b.span.z / 2) := by
  have key : ∀ q : V3, dot (b.axes.inverse.app q + o) b.axes.r0 - dot o b.axes.r0 = q.x ∧
      dot (b.axes.inverse.app q + o) b.axes.r1 - dot o b.axes.r1 = q.y ∧
      dot (b.axes.inverse.app q + o) b.axes.r2 - dot o b.axes.r2 = q.z := by
    intro q
    have e := app_inv h q
    have add : ∀ u v a : V3, dot (u + v) a - dot v a = dot u a := by
      intro u v a; simp only [dot, add_x, add_y, add_z]; ring
    rw [add, add, add]
    exact ⟨congrArg V3.x e, congrArg V3.y e, congrArg V3.z e⟩
  have hl : i = 0 ∨ i = 1 ∨ i = 2 ∨ i = 3 ∨ i = 4 ∨ i = 5 ∨ i = 6 ∨ i = 7 := by omega
  rcases hl with rfl | rfl | rfl | rfl | rfl | rfl | rfl | rfl <;>
    refine ⟨_, rfl, (key _).1.trans ?_, (key _).2.1.trans ?_, (key _).2.2.trans ?_⟩ <;>
      simp only [V3.scale] <;> norm_num <;> ring

example : ({} : Aabb).axes.det ≠ 0 := by norm_num [M3.det, M3.one]

/-- without geometries the box is a point at the origin of space -/
theorem C127_none (w : World) (b : Aabb) (h : b.geos = []) : (b.execute w).origin = some ⟨0, 0, 0⟩ ∧
    (b.execute w).span = ⟨0, 0, 0⟩ ∧ (b.execute w).axes = b.axes := by
  simp [Aabb.execute, h]

/-- **C127** fails for parallel axes: there is no origin -/
theorem C127_parallel_fails (w : World) (b : Aabb) (hg : b.geos ≠ []) (h0 : tiny < norm2 b.axes.r0)
    (h1 : tiny < norm2 b.axes.r1) (hp : cross b.axes.r0 b.axes.r1 = ⟨0, 0, 0⟩) : (b.execute w).origin = none := by
  have e : cross b.axes.r0.unit b.axes.r1.unit = ⟨0, 0, 0⟩ := by
    have hx := congrArg V3.x hp
    have hy := congrArg V3.y hp
    have hz := congrArg V3.z hp
    simp only [cross] at hx hy hz
    have n0 : norm2 b.axes.r0 ≠ 0 := (lt_trans tiny_pos h0).ne'
    have n1 : norm2 b.axes.r1 ≠ 0 := (lt_trans tiny_pos h1).ne'
    ext <;> simp only [cross, V3.unit] <;> field_simp <;> linarith
  unfold Aabb.execute
  rw [if_neg (by simpa using hg)]
  have : (boxFrame b.axes).det = 0 := by
    unfold boxFrame
    rw [if_pos ⟨h0, h1⟩, frame_det]
    simp only [e]
    norm_num [dot]
  simp only [if_pos this]

example : tiny < norm2 (⟨0, 0, 1⟩ : V3) ∧ tiny < norm2 (⟨0, 0, -1⟩ : V3) ∧
    cross ⟨0, 0, 1⟩ ⟨0, 0, -1⟩ = ⟨0, 0, 0⟩ := by
  refine ⟨?_, ?_, by simp [cross]⟩ <;> rw [norm2_one (by norm_num [dot])] <;> exact tiny_lt_one

/-- **C127** fails for a zero axis: all three axes asked for are replaced, and not by the axes of the space in their order -/
theorem C127_zero_axis_fails (w : World) (b : Aabb) (hg : b.geos ≠ []) (h : b.axes.r0 = ⟨0, 0, 0⟩ ∨ b.axes.r1 = ⟨0, 0, 0⟩) :
    (b.execute w).axes = ⟨⟨0, 0, 1⟩, ⟨0, 1, 0⟩, ⟨-1, 0, 0⟩⟩ := by
  unfold Aabb.execute
  rw [if_neg (by simpa using hg)]
  simp only [boxFrame]
  rw [if_neg]
  · simp [cross]
  · rintro ⟨h0, h1⟩
    rcases h with h | h
    · exact pos_ne h0 h
    · exact pos_ne h1 h

/-- **C127** fails for geometries without vertices: the spans are negative -/
theorem C127_empty_fails (w : World) (b : Aabb) (hg : b.geos ≠ []) (h : ∀ g ∈ b.geos, (w g).verts = []) :
    (b.execute w).span.x < 0 ∧ (b.execute w).span.y < 0 ∧ (b.execute w).span.z < 0 := by
  have e : pointsOf w b.geos = [] := by
    simp only [pointsOf, flatMap_eq_nil_iff, map_eq_nil_iff]
    exact h
  have hh := huge_ge
  unfold Aabb.execute
  rw [if_neg (by simpa using hg)]
  simp only [e, leastAlong, mostAlong, least, most, map_nil, foldl_nil, raised, sub_x, sub_y, sub_z, max_lt_iff]
  refine ⟨⟨?_, ?_⟩, ⟨?_, ?_⟩, ⟨?_, ?_⟩⟩ <;> norm_num <;> linarith

example : ({ geos := [0] } : Aabb).geos ≠ [] ∧
    ∀ g ∈ ({ geos := [0] } : Aabb).geos, ((fun _ => { demoObj with verts := [] } : World) g).verts = [] :=
  ⟨by simp, fun _ _ => rfl⟩

end
end Verif.Utils
