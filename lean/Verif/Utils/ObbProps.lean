import Verif.Utils.Obb
/-
C160: the box found encloses the geometries, whatever the strategy.
-/
namespace Verif.Utils
open Verif.Shape Verif.Manip Verif.Field
open Verif.Rbf (tiny huge Fits)
open List hiding get get_of_mem

noncomputable section
open scoped Classical

/-! ### Specification -/

/-- a right-handed orthonormal frame, by rows -/
structure Triad (m : M3) : Prop where
  u0 : dot m.r0 m.r0 = 1
  u1 : dot m.r1 m.r1 = 1
  o01 : dot m.r0 m.r1 = 0
  hand : m.r2 = cross m.r0 m.r1

/-- three orthonormal rows, right-handed or not -/
structure Ortho (m : M3) : Prop where
  u0 : dot m.r0 m.r0 = 1
  u1 : dot m.r1 m.r1 = 1
  u2 : dot m.r2 m.r2 = 1
  o01 : dot m.r0 m.r1 = 0
  o02 : dot m.r0 m.r2 = 0
  o12 : dot m.r1 m.r2 = 0

/-- the box with centre `o`, sides `s` along the axes `m` is the least one along these axes around the points, no side being less than a
ten-thousandth of the mean of the three extents -/
def LeastBox (P : V3 → Prop) (m : M3) (o s : V3) : Prop :=
  ∃ lo hi : V3, Extent P m.r0 lo.x hi.x ∧ Extent P m.r1 lo.y hi.y ∧ Extent P m.r2 lo.z hi.z ∧
    dot o m.r0 = (lo.x + hi.x) / 2 ∧ dot o m.r1 = (lo.y + hi.y) / 2 ∧ dot o m.r2 = (lo.z + hi.z) / 2 ∧
    s.x = max (hi.x - lo.x) (meanOf lo hi / 10000) ∧ s.y = max (hi.y - lo.y) (meanOf lo hi / 10000) ∧
    s.z = max (hi.z - lo.z) (meanOf lo hi / 10000)

/-- the numbers along the axes are representable -/
def FitsAlong (w : World) (gs : List Nat) (m : M3) : Prop :=
  ∀ p, IsVertex w gs p → Fits (dot p m.r0) ∧ Fits (dot p m.r1) ∧ Fits (dot p m.r2)

/-- a matrix equal to its transpose -/
def Symm (m : M3) : Prop := m.r0.y = m.r1.x ∧ m.r0.z = m.r2.x ∧ m.r1.z = m.r2.y

/-! ### Frames -/

theorem triad_det {m : M3} (h : Triad m) : m.det = 1 := by
  have e : m = ⟨m.r0, m.r1, cross m.r0 m.r1⟩ := by rw [← h.hand]
  have l := lagrange m.r0 m.r1
  rw [e, frame_det, l, h.u0, h.u1, h.o01]; norm_num

theorem triad_ortho {m : M3} (h : Triad m) : Ortho m := by
  have l := lagrange m.r0 m.r1
  rw [h.u0, h.u1, h.o01] at l
  refine ⟨h.u0, h.u1, by rw [h.hand, l]; norm_num, h.o01, ?_, ?_⟩ <;> rw [h.hand] <;> simp only [dot, cross] <;> ring

/-- components along two vectors and their cross product -/
theorem split_along (a b v : V3) :
    V3.scale (dot (cross a b) (cross a b)) v =
      V3.scale (dot v a * dot b b - dot v b * dot a b) a + V3.scale (dot v b * dot a a - dot v a * dot a b) b +
        V3.scale (dot v (cross a b)) (cross a b) := by
  ext <;> simp only [V3.scale, add_x, add_y, add_z, dot, cross] <;> ring

theorem third_of {a b v : V3} (ha : dot a a = 1) (hb : dot b b = 1) (hab : dot a b = 0) (hva : dot v a = 0) (hvb : dot v b = 0) :
    v = V3.scale (dot v (cross a b)) (cross a b) := by
  have h := split_along a b v
  have l := lagrange a b
  rw [ha, hb, hab] at l
  rw [l, hva, hvb] at h
  have hx := congrArg V3.x h
  have hy := congrArg V3.y h
  have hz := congrArg V3.z h
  simp only [V3.scale, add_x, add_y, add_z] at hx hy hz
  ext <;> simp only [V3.scale] <;> linarith

theorem dot_comm (a b : V3) : dot a b = dot b a := by simp only [dot]; ring

theorem turned_triad {m : M3} (h : Ortho m) : Triad (turned m) := by
  have l := lagrange m.r0 m.r1
  rw [h.u0, h.u1, h.o01] at l
  have t := third_of h.u0 h.u1 h.o01 (v := m.r2) (by rw [dot_comm]; exact h.o02) (by rw [dot_comm]; exact h.o12)
  generalize hk : dot m.r2 (cross m.r0 m.r1) = k at t
  have k2 : k * k = 1 := by
    have u := h.u2
    rw [t] at u
    have : dot (V3.scale k (cross m.r0 m.r1)) (V3.scale k (cross m.r0 m.r1)) =
        k * k * dot (cross m.r0 m.r1) (cross m.r0 m.r1) := by simp only [dot, V3.scale]; ring
    rw [this, l] at u
    linarith
  have k1 : k = 1 ∨ k = -1 := by
    have : (k - 1) * (k + 1) = 0 := by linarith
    rcases mul_eq_zero.1 this with h | h
    · exact .inl (by linarith)
    · exact .inr (by linarith)
  unfold turned
  rw [hk]
  split
  · rename_i hn
    have : k = -1 := by rcases k1 with h | h <;> [linarith; exact h]
    refine ⟨h.u0, h.u1, h.o01, ?_⟩
    simp only
    rw [t, this]
    ext <;> simp only [V3.scale] <;> ring
  · rename_i hn
    have : k = 1 := by rcases k1 with h | h <;> [exact h; linarith]
    refine ⟨h.u0, h.u1, h.o01, ?_⟩
    rw [t, this]
    ext <;> simp only [V3.scale] <;> ring

theorem triad_one : Triad M3.one := by
  refine ⟨?_, ?_, ?_, ?_⟩ <;> simp [M3.one, dot, cross]

theorem cross_norm {a b : V3} (ha : dot a a = 1) (hb : dot b b = 1) (hab : dot a b = 0) : dot (cross a b) (cross a b) = 1 := by
  rw [lagrange, ha, hb, hab]; norm_num

theorem adjust_triad {m : M3} (h : Ortho m) (v : V3) : Triad (adjustBasis m v) := by
  unfold adjustBasis
  simp only
  split
  · exact triad_one
  · split
    · exact turned_triad h
    · split
      · -- the third is the product of the first two
        have c1 := cross_norm h.u0 h.u1 h.o01
        simp only [M3.row, M3.setRow]
        rw [if_pos (by rw [norm2_one c1]; exact tiny_lt_one), unit_of_unit c1]
        refine turned_triad ⟨h.u0, h.u1, c1, h.o01, ?_, ?_⟩ <;> simp only [dot, cross] <;> ring
      · have c1 := cross_norm h.u2 h.u0 (by rw [dot_comm]; exact h.o02)
        simp only [M3.row, M3.setRow]
        rw [if_pos (by rw [norm2_one c1]; exact tiny_lt_one), unit_of_unit c1]
        refine turned_triad ⟨h.u0, c1, h.u2, ?_, h.o02, ?_⟩ <;> simp only [dot, cross] <;> ring

theorem eigen_ortho {syev : M3 → M3 × V3} {c : M3} (h : Ortho (syev c).1) : Ortho (eigenVectors syev c).1 := by
  unfold eigenVectors
  simp only [unit_of_unit h.u0, unit_of_unit h.u1, unit_of_unit h.u2]
  exact ⟨h.u2, h.u1, h.u0, by rw [dot_comm]; exact h.o12, by rw [dot_comm]; exact h.o02, by rw [dot_comm]; exact h.o01⟩

/-! ### Boxes -/

theorem boxAlong_least {w : World} (hw : WorldOk w) {gs : List Nat} {m : M3} {d : BoxData} (h : boxAlong w gs m = some d)
    (hne : ∃ p, IsVertex w gs p) (hf : FitsAlong w gs d.axes) : d.axes = m ∧ LeastBox (IsVertex w gs) d.axes d.origin d.span := by
  unfold boxAlong at h
  simp only at h
  split at h
  · exact absurd h (by simp)
  rename_i hd
  obtain rfl := Option.some.inj h
  refine ⟨rfl, leastAlong m (pointsOf w gs), mostAlong m (pointsOf w gs), extent_of hw hne (fun p hp => (hf p hp).1),
    extent_of hw hne (fun p hp => (hf p hp).2.1), extent_of hw hne (fun p hp => (hf p hp).2.2), ?_⟩
  have e := app_inv hd (V3.scale (1 / 2) (leastAlong m (pointsOf w gs) + mostAlong m (pointsOf w gs)))
  have ex := congrArg V3.x e
  have ey := congrArg V3.y e
  have ez := congrArg V3.z e
  simp only [M3.app] at ex ey ez
  refine ⟨?_, ?_, ?_, ?_, ?_, ?_⟩
  · simp only [M3.app]; rw [ex]; simp only [V3.scale, add_x]; ring
  · simp only [M3.app]; rw [ey]; simp only [V3.scale, add_y]; ring
  · simp only [M3.app]; rw [ez]; simp only [V3.scale, add_z]; ring
  all_goals
    simp only [raised, meanOf, sub_x, sub_y, sub_z]
    congr 1
    ring

theorem dot_one (p : V3) : dot p M3.one.r0 = p.x ∧ dot p M3.one.r1 = p.y ∧ dot p M3.one.r2 = p.z := by
  simp [dot, M3.one]

theorem aabb_along (w : World) (gs : List Nat) : boxAlong w gs M3.one = some (computeAabb w gs) := by
  have hd : M3.one.det = 1 := triad_det triad_one
  unfold boxAlong computeAabb
  simp only [hd, one_ne_zero, if_false]
  have h1 : leastAlong M3.one (pointsOf w gs) = leastPoint (pointsOf w gs) := by
    simp only [leastAlong, leastPoint, (dot_one _).1, (dot_one _).2.1, (dot_one _).2.2]
  have h2 : mostAlong M3.one (pointsOf w gs) = mostPoint (pointsOf w gs) := by
    simp only [mostAlong, mostPoint, (dot_one _).1, (dot_one _).2.1, (dot_one _).2.2]
  rw [h1, h2]
  congr 1
  congr 1
  have hd' : (⟨⟨1, 0, 0⟩, ⟨0, 1, 0⟩, ⟨0, 0, 1⟩⟩ : M3).det = 1 := hd
  ext <;> simp [M3.app, M3.inverse, dot, M3.one, V3.scale, hd']

/-- where a result comes from: a box along a frame -/
theorem execute_along {syev : M3 → M3 × V3} {junk : S3} {w : World} {b r : Obb} (hg : b.geos ≠ [])
    (hs : ∀ c, Symm c → Ortho (syev c).1) (hc : ∀ c, covariance junk w b.geos = some c → Symm c)
    (h : b.execute syev junk w = some r) :
    ∃ m d, Triad m ∧ boxAlong w b.geos m = some d ∧ r = b.put d := by
  have obbCase : ∀ d, computeObb syev junk w b.geos = some d → ∃ m, Triad m ∧ boxAlong w b.geos m = some d := by
    intro d hd
    unfold computeObb at hd
    cases hm : covariance junk w b.geos with
    | none => rw [hm] at hd; exact absurd hd (by simp)
    | some c =>
      rw [hm] at hd
      exact ⟨_, adjust_triad (eigen_ortho (hs c (hc c hm))) _, hd⟩
  unfold Obb.execute at h
  rw [if_neg (by simpa using hg)] at h
  split at h
  · obtain ⟨d, hd, rfl⟩ := Option.map_eq_some_iff.1 h
    obtain ⟨m, hm, e⟩ := obbCase d hd
    exact ⟨m, d, hm, e, rfl⟩
  · exact ⟨M3.one, _, triad_one, aabb_along w b.geos, (Option.some.inj h).symm⟩
  · obtain ⟨d, hd, rfl⟩ := Option.map_eq_some_iff.1 h
    simp only
    split
    · obtain ⟨m, hm, e⟩ := obbCase d hd
      exact ⟨m, d, hm, e, rfl⟩
    · exact ⟨M3.one, _, triad_one, aabb_along w b.geos, rfl⟩

theorem covariance_symm {junk : S3} {w : World} {gs : List Nat} {c : M3} (h : covariance junk w gs = some c) : Symm c := by
  unfold covariance at h
  split at h
  · unfold pointsMatrix at h
    simp only at h
    split at h
    · exact absurd h (by simp)
    · obtain rfl := Option.some.inj h
      exact ⟨rfl, rfl, rfl⟩
  · unfold elementsMatrix at h
    obtain ⟨ts, -, h⟩ := Option.bind_eq_some_iff.1 h
    simp only at h
    split at h
    · exact absurd h (by simp)
    · obtain rfl := Option.some.inj h
      refine ⟨?_, ?_, ?_⟩ <;> simp only [] <;> ring

theorem put_parts (b : Obb) (d : BoxData) : (b.put d).origin = d.origin ∧ (b.put d).span = d.span ∧ (b.put d).axes = d.axes ∧
    (b.put d).geos = b.geos ∧ (b.put d).strategy = b.strategy ∧ (b.put d).info = b.info := ⟨rfl, rfl, rfl, rfl, rfl, rfl⟩

theorem boxAlong_axes {w : World} {gs : List Nat} {m : M3} {d : BoxData} (h : boxAlong w gs m = some d) : d.axes = m := by
  unfold boxAlong at h
  simp only at h
  split at h
  · exact absurd h (by simp)
  · obtain rfl := Option.some.inj h; rfl

/-! ### C160 -/

/-- **C160**: whatever the strategy, if the eigenvalue solver returns orthonormal vectors for symmetric matrices, the axes found are a
right-handed orthonormal frame, also for repeated eigenvalues -/
theorem C160_axes {syev : M3 → M3 × V3} (hs : ∀ c, Symm c → Ortho (syev c).1) {junk : S3} {w : World} {b r : Obb}
    (h : b.execute syev junk w = some r) : Triad r.axes := by
  by_cases hg : b.geos = []
  · unfold Obb.execute at h
    rw [if_pos (by simp [hg])] at h
    obtain rfl := Option.some.inj h
    exact triad_one
  · obtain ⟨m, d, hm, hd, rfl⟩ := execute_along hg hs (fun c => covariance_symm) h
    rw [(put_parts b d).2.2.1, boxAlong_axes hd]
    exact hm

/-- **C160**: whatever the strategy (and whatever is in the unset matrix), the box is the least one along its axes around the vertices of
all the geometries, with no side under a ten-thousandth of the mean extent -/
theorem C160_box {syev : M3 → M3 × V3} (hs : ∀ c, Symm c → Ortho (syev c).1) {junk : S3} {w : World} (hw : WorldOk w) {b r : Obb}
    (h : b.execute syev junk w = some r) (hne : ∃ p, IsVertex w b.geos p) (hf : FitsAlong w b.geos r.axes) :
    LeastBox (IsVertex w b.geos) r.axes r.origin r.span := by
  have hg : b.geos ≠ [] := by
    obtain ⟨p, g, hg, -⟩ := hne
    exact ne_nil_of_mem hg
  obtain ⟨m, d, hm, hd, rfl⟩ := execute_along hg hs (fun c => covariance_symm) h
  exact (boxAlong_least hw hd hne hf).2

theorem least_within {P : V3 → Prop} {m : M3} {o s p : V3} (h : LeastBox P m o s) (hp : P p) : Within m o s p := by
  obtain ⟨lo, hi, e0, e1, e2, o0, o1, o2, s0, s1, s2⟩ := h
  refine ⟨?_, ?_, ?_⟩
  · rw [o0, s0, abs_le]
    have := le_max_left (hi.x - lo.x) (meanOf lo hi / 10000)
    constructor <;> linarith [e0.low p hp, e0.high p hp]
  · rw [o1, s1, abs_le]
    have := le_max_left (hi.y - lo.y) (meanOf lo hi / 10000)
    constructor <;> linarith [e1.low p hp, e1.high p hp]
  · rw [o2, s2, abs_le]
    have := le_max_left (hi.z - lo.z) (meanOf lo hi / 10000)
    constructor <;> linarith [e2.low p hp, e2.high p hp]

/-- **C160**: every vertex of every geometry is in the box -/
theorem C160_contains {syev : M3 → M3 × V3} (hs : ∀ c, Symm c → Ortho (syev c).1) {junk : S3} {w : World} (hw : WorldOk w) {b r : Obb}
    (h : b.execute syev junk w = some r) (hf : FitsAlong w b.geos r.axes) {p : V3} (hp : IsVertex w b.geos p) :
    Within r.axes r.origin r.span p :=
  least_within (C160_box hs hw h ⟨p, hp⟩ hf) hp

/-- **C160**: as soon as two vertices differ, no side of the box is zero, also when the geometries are flat or along a line -/
theorem C160_thick {syev : M3 → M3 × V3} (hs : ∀ c, Symm c → Ortho (syev c).1) {junk : S3} {w : World} (hw : WorldOk w) {b r : Obb}
    (h : b.execute syev junk w = some r) (hf : FitsAlong w b.geos r.axes) {p q : V3} (hp : IsVertex w b.geos p)
    (hq : IsVertex w b.geos q) (hpq : p ≠ q) : 0 < r.span.x ∧ 0 < r.span.y ∧ 0 < r.span.z := by
  obtain ⟨lo, hi, e0, e1, e2, -, -, -, s0, s1, s2⟩ := C160_box hs hw h ⟨p, hp⟩ hf
  have d := triad_det (C160_axes hs h)
  have hpos : 0 < meanOf lo hi := by
    unfold meanOf
    have n0 : lo.x ≤ hi.x := (e0.low p hp).trans (e0.high p hp)
    have n1 : lo.y ≤ hi.y := (e1.low p hp).trans (e1.high p hp)
    have n2 : lo.z ≤ hi.z := (e2.low p hp).trans (e2.high p hp)
    by_contra hc
    have z0 : hi.x = lo.x := by linarith
    have z1 : hi.y = lo.y := by linarith
    have z2 : hi.z = lo.z := by linarith
    apply hpq
    have key : r.axes.app p = r.axes.app q := by
      simp only [M3.app]
      rw [V3.mk.injEq]
      refine ⟨?_, ?_, ?_⟩
      · linarith [e0.low p hp, e0.high p hp, e0.low q hq, e0.high q hq]
      · linarith [e1.low p hp, e1.high p hp, e1.low q hq, e1.high q hq]
      · linarith [e2.low p hp, e2.high p hp, e2.low q hq, e2.high q hq]
    have hd : r.axes.det ≠ 0 := by rw [d]; norm_num
    rw [← inv_app hd p, ← inv_app hd q, key]
  refine ⟨?_, ?_, ?_⟩
  · rw [s0]; exact lt_max_of_lt_right (by linarith)
  · rw [s1]; exact lt_max_of_lt_right (by linarith)
  · rw [s2]; exact lt_max_of_lt_right (by linarith)

/-- **C160**: the axis aligned strategy always gives a result, along the coordinates -/
theorem C160_aligned (syev : M3 → M3 × V3) (junk : S3) (w : World) (b : Obb) (hb : b.strategy = .aabb) :
    ∃ r, b.execute syev junk w = some r ∧ r.axes = M3.one := by
  unfold Obb.execute
  split
  · exact ⟨_, rfl, rfl⟩
  · rw [hb]; exact ⟨_, rfl, rfl⟩

/-- **C160**: the strategy of least volume gives the result of one of the two others, and no smaller volume is among them -/
theorem C160_minvol {syev : M3 → M3 × V3} {junk : S3} {w : World} {b r : Obb} (hb : b.strategy = .minvol)
    (h : b.execute syev junk w = some r) :
    ∃ o a, ({ b with strategy := .obb } : Obb).execute syev junk w = some o ∧ ({ b with strategy := .aabb } : Obb).execute syev junk w = some a ∧
      (r = { o with strategy := .minvol } ∨ r = { a with strategy := .minvol }) ∧
      r.span.x * r.span.y * r.span.z = min (o.span.x * o.span.y * o.span.z) (a.span.x * a.span.y * a.span.z) := by
  have hr : ∀ d : BoxData, b.put d = { b with origin := d.origin, span := d.span, axes := d.axes, strategy := .minvol } := by
    intro d; unfold Obb.put; rw [← hb]
  unfold Obb.execute at h ⊢
  split at h
  · rename_i hg
    simp only [hg, if_true]
    refine ⟨_, _, rfl, rfl, .inl ?_, ?_⟩
    · rw [← Option.some.inj h, hr]; rfl
    · rw [← Option.some.inj h]; simp [Obb.put]
  · rename_i hg
    simp only [hg, if_false]
    rw [hb] at h
    obtain ⟨d, hd, rfl⟩ := Option.map_eq_some_iff.1 h
    rw [hd]
    refine ⟨_, _, rfl, rfl, ?_⟩
    simp only
    split
    · rename_i hv
      refine ⟨.inl (hr d), ?_⟩
      exact (min_eq_left hv.le).symm
    · rename_i hv
      refine ⟨.inr (hr _), ?_⟩
      exact (min_eq_right (not_lt.1 hv)).symm

/-- **C160**: without geometries the box is a point at the origin of space, with the axes of the space -/
theorem C160_none (syev : M3 → M3 × V3) (junk : S3) (w : World) (b : Obb) (h : b.geos = []) :
    b.execute syev junk w = some { b with origin := ⟨0, 0, 0⟩, span := ⟨0, 0, 0⟩, axes := ⟨⟨1, 0, 0⟩, ⟨0, 1, 0⟩, ⟨0, 0, 1⟩⟩ } := by
  simp [Obb.execute, h, Obb.put, M3.one]

/-- **C160**: executing again gives the same box, and only the box is replaced -/
theorem C160_again {syev : M3 → M3 × V3} {junk : S3} {w : World} {b r : Obb} (h : b.execute syev junk w = some r) :
    r.execute syev junk w = some r ∧ r.geos = b.geos ∧ r.strategy = b.strategy ∧ r.info = b.info := by
  have hput : ∃ d, r = b.put d := by
    unfold Obb.execute at h
    split at h
    · exact ⟨_, (Option.some.inj h).symm⟩
    · split at h
      · obtain ⟨d, -, rfl⟩ := Option.map_eq_some_iff.1 h; exact ⟨_, rfl⟩
      · exact ⟨_, (Option.some.inj h).symm⟩
      · obtain ⟨d, -, rfl⟩ := Option.map_eq_some_iff.1 h; exact ⟨_, rfl⟩
  obtain ⟨d, rfl⟩ := hput
  refine ⟨?_, rfl, rfl, rfl⟩
  have pp : ∀ e, (b.put d).put e = b.put e := fun e => rfl
  rw [← h]
  unfold Obb.execute
  simp only [(put_parts b d).2.2.2.1, (put_parts b d).2.2.2.2.1, pp]
  have : (b.put d).put = b.put := funext pp
  rw [this]

end
end Verif.Utils
