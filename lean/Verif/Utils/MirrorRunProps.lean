import Verif.Utils.MirrorProps

/-!
Mirrored point clouds and projected patches, continued: C128 to C131.
-/

namespace Verif.Utils
open List hiding get get_of_mem
open Verif.Shape Verif.Manip Verif.Mesh Verif.Field Verif.Rbf
noncomputable section

/-! ### A case -/

/-- a cloud of three points, with ids 3, 8, 5 and cells 1, 2, 4 -/
def demoCloud : Obj V3 where
  type := 3
  verts := [(3, ⟨1, 0, 0⟩), (8, ⟨-2, 1, 0⟩), (5, ⟨0, 4, 0⟩)]
  cells := [(1, ⟨.vertex, [3], 0, true⟩), (2, ⟨.vertex, [8], 0, true⟩), (4, ⟨.vertex, [5], 0, true⟩)]
  pids := [0]
  names := [(0, "")]
  tree := false
  kd := ⟨.none, none⟩
  skd := ⟨.notSupported, none⟩
  adj := ⟨.none, none⟩
  int := ⟨.none, none⟩
  info := ⟨.none, none⟩
  bbox := ⟨.none, none⟩
  pc := ⟨.none, none⟩

theorem demoCloud_good : GoodCloud demoCloud where
  type := rfl
  verts := by simp [Ok, demoCloud]
  cells := by simp [Ok, demoCloud]
  fresh := by constructor <;> simp [demoCloud]
  elems := by simp [demoCloud]
  names := by simp [demoCloud]
  skd := by simp [demoCloud]
  kd := by simp [demoCloud]
  pc := by simp [demoCloud]

/-- the cloud is handle 0 -/
def cloudWorld : World := fun _ => demoCloud

/-- the plane x = 0, values at two points -/
def demoMirror : Mirror :=
  Mirror.new.sets cloudWorld [.cloud (some 0), .plane ⟨0, 7, 0⟩ ⟨2, 0, 0⟩, .force false,
    .scalar (some ⟨some 0, defaultName, .point, [(3, 6), (8, 9)]⟩)]

theorem norm_two : norm2 (⟨2, 0, 0⟩ : V3) = 2 := by
  unfold norm2
  rw [show dot (⟨2, 0, 0⟩ : V3) ⟨2, 0, 0⟩ = 2 ^ 2 by norm_num [dot]]
  exact Real.sqrt_sq (by norm_num)

theorem unit_two : (⟨2, 0, 0⟩ : V3).unit = ⟨1, 0, 0⟩ := by
  unfold V3.unit; rw [norm_two]; ext <;> norm_num

theorem tiny_lt_two : tiny < norm2 (⟨2, 0, 0⟩ : V3) := by rw [norm_two]; linarith [tiny_lt_one]

/-- setting a plane by a point and a normal puts it in force -/
theorem inForce_plane (w : World) (s : Mirror) {o n : V3} (h : tiny < norm2 n) : InForce (s.set w (.plane o n)) o n := by
  have h0 : n ≠ ⟨0, 0, 0⟩ := by
    rintro rfl; rw [norm2_eq_zero.2 rfl] at h; exact absurd h (not_lt.2 tiny_pos.le)
  left
  refine ⟨rfl, h0, ?_, ?_⟩
  · simp only [Mirror.set, Mirror.setPlane, if_pos h]; exact direction_unit h0
  · simp only [Mirror.set, Mirror.setPlane, if_pos h, dot]; ring

theorem demo_inForce : InForce demoMirror ⟨0, 7, 0⟩ ⟨2, 0, 0⟩ := by
  have := inForce_plane cloudWorld (Mirror.new.set cloudWorld (.cloud (some 0))) (o := ⟨0, 7, 0⟩) tiny_lt_two
  exact this

/-- the point 3 is mirrored with its value; points 5 (on the plane) and 8 (on the other side) are not -/
example (sf : Surface) : ∃ s' r, demoMirror.execute sf cloudWorld = some s' ∧ s'.result = some r ∧
    (∃ i, i ≠ 3 ∧ i ≠ 8 ∧ i ≠ 5 ∧ get r.verts i = some ⟨-1, 0, 0⟩ ∧ get s'.scalarOut i = some 6 ∧
      ∀ j, (get r.verts j).isSome → j = i ∨ j = 3 ∨ j = 8 ∨ j = 5) := by
  obtain ⟨s', r, twin, h1, h2, h3⟩ := C128_mirrored_partial sf cloudWorld demoMirror (g := 0) rfl demoCloud_good demo_inForce
    (by intro x hx; simp [Mirror.surface, demoMirror, Mirror.sets, Mirror.set, Mirror.new, Mirror.setPlane, cloudWorld, demoCloud] at hx)
  have hm : mirrorMargin sf (demoMirror.surface cloudWorld) = 1 / 10 ^ 12 := by
    simp [mirrorMargin, Mirror.surface, demoMirror, Mirror.sets, Mirror.set, Mirror.new, Mirror.setPlane, cloudWorld, demoCloud]
  have ha : afterwards sf cloudWorld demoMirror = id := by
    simp [afterwards, Mirror.surface, demoMirror, Mirror.sets, Mirror.set, Mirror.new, Mirror.setPlane, cloudWorld, demoCloud]
  have hio : demoMirror.insideOut = false := by
    simp [demoMirror, Mirror.sets, Mirror.set, Mirror.new, Mirror.setPlane, cloudWorld, demoCloud]
  have hfo : demoMirror.force = false := by
    simp [demoMirror, Mirror.sets, Mirror.set, Mirror.new, Mirror.setPlane, cloudWorld, demoCloud]
  have hsc : dataAt demoMirror.scalar 0 3 = 6 := by
    simp [dataAt, demoMirror, Mirror.sets, Mirror.set, Mirror.new, Mirror.setPlane, cloudWorld, demoCloud, Verif.Field.get]
  rw [hm, ha] at h3
  have g3 : get (cloudWorld 0).verts 3 = some ⟨1, 0, 0⟩ := by simp [cloudWorld, demoCloud, Verif.Field.get]
  have s3 : Beyond demoMirror (1 / 10 ^ 12) ⟨0, 7, 0⟩ ⟨2, 0, 0⟩ ⟨1, 0, 0⟩ := by
    unfold Beyond; rw [hio, norm_two]; norm_num [dot]
  have n8 : ¬ Beyond demoMirror (1 / 10 ^ 12) ⟨0, 7, 0⟩ ⟨2, 0, 0⟩ ⟨-2, 1, 0⟩ := by
    unfold Beyond; rw [hio, norm_two]; norm_num [dot]
  have n5 : ¬ Beyond demoMirror (1 / 10 ^ 12) ⟨0, 7, 0⟩ ⟨2, 0, 0⟩ ⟨0, 4, 0⟩ := by
    unfold Beyond; rw [hio, norm_two]; norm_num [dot]
  obtain ⟨q, hq, hr⟩ := h3.image 3 _ g3 (.inl s3)
  have hqe : q = ⟨-1, 0, 0⟩ := reflected_unique (n := ⟨2, 0, 0⟩) (by intro h; have := congrArg V3.x h; norm_num at this) hq
    ⟨by ext <;> norm_num [cross], by norm_num [dot, V3.scale]⟩
  have hfr := h3.fresh 3 _ g3 (.inl s3)
  refine ⟨s', r, h1, h2, twin 3, ?_, ?_, ?_, by rw [hr, hqe]; rfl, by rw [h3.scalar 3 _ g3 (.inl s3), hsc], ?_⟩
  · intro e; rw [e] at hfr; simp [cloudWorld, demoCloud, Verif.Field.get] at hfr
  · intro e; rw [e] at hfr; simp [cloudWorld, demoCloud, Verif.Field.get] at hfr
  · intro e; rw [e] at hfr; simp [cloudWorld, demoCloud, Verif.Field.get] at hfr
  · intro j hj
    have old : ∀ j p, get (cloudWorld 0).verts j = some p → j = 3 ∧ p = ⟨1, 0, 0⟩ ∨ j = 8 ∧ p = ⟨-2, 1, 0⟩ ∨ j = 5 ∧ p = ⟨0, 4, 0⟩ := by
      intro j p h
      have := get_some_mem h
      simpa [cloudWorld, demoCloud] using this
    rcases h3.only j hj with h | ⟨id, p, hp, hsel, rfl⟩
    · obtain ⟨p, hp⟩ := Option.isSome_iff_exists.1 h
      rcases old j p hp with h | h | h <;> simp [h.1]
    · rcases old id p hp with ⟨rfl, rfl⟩ | ⟨rfl, rfl⟩ | ⟨rfl, rfl⟩
      · left; rfl
      · rcases hsel with h | h
        · exact absurd h n8
        · rw [hfo] at h; cases h
      · rcases hsel with h | h
        · exact absurd h n5
        · rw [hfo] at h; cases h

/-! ### C128: what fails -/

/-- coefficients of any length: the plane used is the one where the normal is divided by its length, but not the offset -/
theorem C128_coefficients (sf : Surface) (w : World) (s : Mirror) {g : Nat} {c n : V3} {d : ℝ} (hg : s.cloud = some g)
    (hc : GoodCloud (w g)) (hn : tiny < norm2 n) (hd : dot n c + norm2 n * d = 0)
    (hsurf : ∀ x, s.surface w = some x → GoodSurface x) :
    ∃ s' r twin, (s.set w (.coefficients n d)).execute sf w = some s' ∧ s'.result = some r ∧
      Mirrored (w g) r (fun p => Beyond s (mirrorMargin sf (s.surface w)) c n p ∨ s.force = true) c n (afterwards sf w s)
        (dataAt s.scalar 0) (dataAt s.vector ⟨0, 0, 0⟩) s'.scalarOut s'.vectorOut twin := by
  have h0 : 0 < norm2 n := lt_trans tiny_pos hn
  have hne : n ≠ ⟨0, 0, 0⟩ := by rintro rfl; rw [norm2_eq_zero.2 rfl] at h0; exact lt_irrefl _ h0
  have ha := (direction_unit hne).along
  refine mirrored_core sf w (s.set w (.coefficients n d)) hg hc hsurf (not_le.2 hn) (unit_dot h0) ?_ ha h0
  show dot n.unit c + d = 0
  have e : dot n c = norm2 n * dot n.unit c := by
    conv_lhs => rw [ha]
    simp only [dot, V3.scale]; ring
  rw [e, ← mul_add] at hd
  exact (mul_eq_zero.1 hd).resolve_left h0.ne'

/-- **C128** fails for coefficients whose normal has another length: with the plane 2x - 2 = 0, that is x = 1, the point
(1, 0, 0) of the plane should be its own image, and its image is (3, 0, 0) -/
theorem C128_coefficients_fails (sf : Surface) : ∃ s' r i,
    (Mirror.new.sets cloudWorld [.cloud (some 0), .coefficients ⟨2, 0, 0⟩ (-2)]).execute sf cloudWorld = some s' ∧
      s'.result = some r ∧ get (cloudWorld 0).verts 3 = some ⟨1, 0, 0⟩ ∧ Reflected ⟨1, 0, 0⟩ ⟨2, 0, 0⟩ ⟨1, 0, 0⟩ ⟨1, 0, 0⟩ ∧
      get (cloudWorld 0).verts i = none ∧ get r.verts i = some ⟨3, 0, 0⟩ := by
  have hs : (Mirror.new.set cloudWorld (.cloud (some 0))).surface cloudWorld = none := by
    simp [Mirror.surface, Mirror.set, Mirror.new, cloudWorld, demoCloud]
  obtain ⟨s', r, twin, h1, h2, h3⟩ := C128_coefficients sf cloudWorld (Mirror.new.set cloudWorld (.cloud (some 0))) (g := 0)
    (c := ⟨2, 0, 0⟩) (n := ⟨2, 0, 0⟩) (d := -2) rfl demoCloud_good tiny_lt_two (by rw [norm_two]; norm_num [dot])
    (by intro x hx; rw [hs] at hx; cases hx)
  have g3 : get (cloudWorld 0).verts 3 = some ⟨1, 0, 0⟩ := by simp [cloudWorld, demoCloud, Verif.Field.get]
  obtain ⟨q, hq, hr⟩ := h3.image 3 _ g3 (.inr rfl)
  have hqe : q = ⟨3, 0, 0⟩ := reflected_unique (n := ⟨2, 0, 0⟩) (by intro h; have := congrArg V3.x h; norm_num at this) hq
    ⟨by ext <;> norm_num [cross], by norm_num [dot, V3.scale]⟩
  have ha : afterwards sf cloudWorld (Mirror.new.set cloudWorld (.cloud (some 0))) = id := by unfold afterwards; rw [hs]
  rw [hqe, ha] at hr
  exact ⟨s', r, twin 3, h1, h2, g3, ⟨by ext <;> norm_num [cross], by norm_num [dot, V3.scale]⟩, h3.fresh 3 _ g3 (.inr rfl), hr⟩

/-- no execution without a cloud -/
theorem C128_no_cloud (sf : Surface) (w : World) (s : Mirror) (h : s.cloud = none) : s.execute sf w = none := by
  unfold Mirror.execute; rw [h]

/-- **C128** fails without a normal: the cloud returned is a copy whose data are zero, whatever data were given -/
theorem C128_no_normal_fails (sf : Surface) (w : World) (s : Mirror) {g : Nat} (hg : s.cloud = some g) (hc : GoodCloud (w g))
    (hn : if s.implicit then s.n = ⟨0, 0, 0⟩ else s.normal = ⟨0, 0, 0⟩) :
    ∃ s' r, s.execute sf w = some s' ∧ s'.result = some r ∧ r.verts = (w g).verts ∧ r.cells = (w g).cells ∧
      ∀ id p, get (w g).verts id = some p → get s'.scalarOut id = some 0 ∧ get s'.vectorOut id = some ⟨0, 0, 0⟩ := by
  obtain ⟨o, k1, k2, k3, k4, k5⟩ := clone_cloud hc
  have hz : norm2 s.prepared.n ≤ tiny := by
    have : s.prepared.n = ⟨0, 0, 0⟩ := by
      unfold Mirror.prepared
      cases hi : s.implicit with
      | true => rw [hi] at hn; simpa using hn
      | false =>
        rw [hi] at hn
        simp only [Bool.false_eq_true, if_false] at hn ⊢
        rw [hn]
        simp only [Mirror.setPlane]
        rw [if_neg]
        rw [norm2_eq_zero.2 rfl]; exact not_lt.2 tiny_pos.le
    rw [this, norm2_eq_zero.2 rfl]; exact tiny_pos.le
  refine ⟨{ s.prepared with result := some o, scalarOut := zeros 0 o.verts, vectorOut := zeros ⟨0, 0, 0⟩ o.verts }, o, ?_, rfl, k3, k4, ?_⟩
  · unfold Mirror.execute
    rw [hg]
    simp only [k1, Option.bind_some]
    rw [show (if s.implicit = true then s else s.setPlane s.origin s.normal) = s.prepared from rfl, if_pos hz]
  · intro id p h
    rw [← k3] at h
    exact ⟨zeros_get 0 h, zeros_get _ h⟩

/-- the hypotheses of the last theorem: a new block with a cloud -/
example : (Mirror.new.sets cloudWorld [.cloud (some 0)]).cloud = some 0 ∧
    (if (Mirror.new.sets cloudWorld [.cloud (some 0)]).implicit then (Mirror.new.sets cloudWorld [.cloud (some 0)]).n = ⟨0, 0, 0⟩
      else (Mirror.new.sets cloudWorld [.cloud (some 0)]).normal = ⟨0, 0, 0⟩) := by
  simp [Mirror.sets, Mirror.set, Mirror.new, cloudWorld, demoCloud]

/-! ### C129 -/

/-- **C129** with `force` off and no surface: no point on the plane or on the side not chosen has an image: the points of the result
are the original ones and the images of points beyond 1e-12 on the side chosen -/
theorem C129_side_partial (sf : Surface) (w : World) (s : Mirror) {g : Nat} {c n : V3} (hg : s.cloud = some g)
    (hc : GoodCloud (w g)) (hp : InForce s c n) (hsurf : s.surface w = none) (hf : s.force = false) :
    ∃ s' r, s.execute sf w = some s' ∧ s'.result = some r ∧
      (∀ id p, get (w g).verts id = some p → get r.verts id = some p) ∧
      (∀ i q, get r.verts i = some q → get (w g).verts i = some q ∨
        ∃ id p, get (w g).verts id = some p ∧ Reflected c n p q ∧
          1 / 10 ^ 12 * norm2 n < (if s.insideOut then -1 else 1) * dot n (p - c)) ∧
      (∀ id p, get (w g).verts id = some p → 1 / 10 ^ 12 * norm2 n < (if s.insideOut then -1 else 1) * dot n (p - c) →
        ∃ i q, get (w g).verts i = none ∧ get r.verts i = some q ∧ Reflected c n p q) := by
  obtain ⟨s', r, twin, h1, h2, h3⟩ := C128_mirrored_partial sf w s hg hc hp (by intro x hx; rw [hsurf] at hx; cases hx)
  have hm : mirrorMargin sf (s.surface w) = 1 / 10 ^ 12 := by rw [hsurf]; rfl
  have ha : afterwards sf w s = id := by unfold afterwards; rw [hsurf]
  rw [hm, ha] at h3
  refine ⟨s', r, h1, h2, fun id p h => (h3.kept id p h).1, ?_, ?_⟩
  · intro i q hi
    rcases h3.only i (by rw [hi]; rfl) with h | ⟨id, p, hp, hsel, rfl⟩
    · obtain ⟨p, hp⟩ := Option.isSome_iff_exists.1 h
      have := (h3.kept i p hp).1
      rw [hi] at this
      left; rw [hp, Option.some.inj this]; rfl
    · right
      obtain ⟨q', hq, hr⟩ := h3.image id p hp hsel
      rw [hi] at hr
      rw [Option.some.inj hr]
      refine ⟨id, p, hp, hq, ?_⟩
      rcases hsel with h | h
      · exact h
      · rw [hf] at h; cases h
  · intro id p h hb
    obtain ⟨q, hq, hr⟩ := h3.image id p h (.inl hb)
    exact ⟨twin id, q, h3.fresh id p h (.inl hb), hr, hq⟩

/-- **C129** fails with `force` on, as it is in a new block: points of the side not chosen have an image too -/
theorem C129_other_side_fails (sf : Surface) (w : World) (s : Mirror) {g : Nat} {c n : V3} (hg : s.cloud = some g)
    (hc : GoodCloud (w g)) (hp : InForce s c n) (hsurf : s.surface w = none) (hf : s.force = true) {id : Nat} {p : V3}
    (h : get (w g).verts id = some p) (_hside : (if s.insideOut then -1 else 1) * dot n (p - c) < 0) :
    ∃ s' r i q, s.execute sf w = some s' ∧ s'.result = some r ∧ get (w g).verts i = none ∧ get r.verts i = some q ∧
      Reflected c n p q := by
  obtain ⟨s', r, twin, h1, h2, h3⟩ := C128_mirrored_partial sf w s hg hc hp (by intro x hx; rw [hsurf] at hx; cases hx)
  have ha : afterwards sf w s = fun x => x := by unfold afterwards; rw [hsurf]; rfl
  obtain ⟨q, hq, hr⟩ := h3.image id p h (.inr hf)
  rw [ha] at hr
  exact ⟨s', r, twin id, q, h1, h2, h3.fresh id p h (.inr hf), hr, hq⟩

/-! ### C130 -/

/-- the plane a call defines completely -/
def Mirror.Call.plane? : Mirror.Call → Option (V3 × V3 ⊕ V3 × ℝ)
  | .plane o n => some (.inl (o, n))
  | .coefficients n d => some (.inr (n, d))
  | _ => none

/-- the origin a call sets -/
def Mirror.Call.origin? : Mirror.Call → Option V3
  | .origin o => some o
  | _ => none

/-- the normal a call sets -/
def Mirror.Call.normal? : Mirror.Call → Option V3
  | .normal n => some n
  | _ => none

/-- normal, offset and kind of the plane after settings of which `x` is the last complete one -/
def planeAfter (s : Mirror) : Option (V3 × V3 ⊕ V3 × ℝ) → V3 × ℝ × Bool
  | none => (s.n, s.d, s.implicit)
  | some (.inl (o, n)) => ((s.setPlane o n).n, (s.setPlane o n).d, true)
  | some (.inr (n, d)) => (n, d, true)

/-- plane, origin and normal after a sequence of settings -/
theorem mirror_sets (w : World) (s : Mirror) (cs : List Mirror.Call) :
    ((s.sets w cs).n, (s.sets w cs).d, (s.sets w cs).implicit) = planeAfter s (latest Mirror.Call.plane? cs) ∧
    (s.sets w cs).origin = (latest Mirror.Call.origin? cs).getD s.origin ∧
    (s.sets w cs).normal = (latest Mirror.Call.normal? cs).getD s.normal := by
  induction cs using List.reverseRecOn with
  | nil => simp [Mirror.sets, latest, planeAfter]
  | append_singleton cs c ih =>
    obtain ⟨h1, h2, h3⟩ := ih
    have e : s.sets w (cs ++ [c]) = (s.sets w cs).set w c := by simp [Mirror.sets]
    rw [e, latest_concat, latest_concat, latest_concat]
    generalize s.sets w cs = t at *
    cases c with
    | cloud g => cases g <;> simp only [Mirror.set] <;> [skip; split] <;> exact ⟨h1, h2, h3⟩
    | geometry g => cases g <;> simp only [Mirror.set] <;> [skip; split] <;> exact ⟨h1, h2, h3⟩
    | scalar g => cases g <;> simp only [Mirror.set] <;> [skip; split] <;> exact ⟨h1, h2, h3⟩
    | vector g => cases g <;> simp only [Mirror.set] <;> [skip; split] <;> exact ⟨h1, h2, h3⟩
    | coefficients n d => exact ⟨rfl, h2, h3⟩
    | plane o n => exact ⟨rfl, h2, h3⟩
    | origin o => exact ⟨h1, rfl, h3⟩
    | normal n => exact ⟨h1, h2, rfl⟩
    | insideOut b => exact ⟨h1, h2, h3⟩
    | force b => exact ⟨h1, h2, h3⟩
    | kdTree b => exact ⟨h1, h2, h3⟩

/-- **C130** a plane given by a point and a normal is in force until another plane is given -/
theorem C130_plane (w : World) (s : Mirror) (cs : List Mirror.Call) {o n : V3}
    (h : latest Mirror.Call.plane? cs = some (.inl (o, n))) (hn : tiny < norm2 n) : InForce (s.sets w cs) o n := by
  obtain ⟨h1, -, -⟩ := mirror_sets w s cs
  rw [h] at h1
  simp only [planeAfter, Prod.mk.injEq] at h1
  have := inForce_plane w s (o := o) hn
  simp only [InForce, Mirror.set] at this ⊢
  rw [h1.1, h1.2.1, h1.2.2]
  rcases this with t | t
  · exact .inl ⟨rfl, t.2⟩
  · exact absurd t.1 (by simp [Mirror.setPlane])

/-- **C130** coefficients with a unit normal are in force until another plane is given.  Missing: normals of another length
(`C128_coefficients_fails`) -/
theorem C130_coefficients_partial (w : World) (s : Mirror) (cs : List Mirror.Call) {c n : V3} {d : ℝ}
    (h : latest Mirror.Call.plane? cs = some (.inr (n, d))) (hn : dot n n = 1) (hc : dot n c + d = 0) :
    InForce (s.sets w cs) c n := by
  obtain ⟨h1, -, -⟩ := mirror_sets w s cs
  rw [h] at h1
  simp only [planeAfter, Prod.mk.injEq] at h1
  left
  rw [h1.1, h1.2.1, h1.2.2]
  refine ⟨rfl, ?_, ⟨hn, ?_⟩, hc⟩
  · rintro rfl; norm_num [dot] at hn
  · rw [norm2_one hn]; ext <;> simp [V3.scale]

/-- **C130** in a block where no plane was ever given at once, and which was never executed, origin and normal set last
are in force -/
theorem C130_points_partial (w : World) (cs : List Mirror.Call) {o n : V3} (h : latest Mirror.Call.plane? cs = none)
    (ho : latest Mirror.Call.origin? cs = some o) (hn : latest Mirror.Call.normal? cs = some n) (hl : tiny < norm2 n) :
    InForce (Mirror.new.sets w cs) o n := by
  obtain ⟨h1, h2, h3⟩ := mirror_sets w Mirror.new cs
  rw [h] at h1; rw [ho] at h2; rw [hn] at h3
  simp only [planeAfter, Prod.mk.injEq] at h1
  right
  exact ⟨h1.2.2, h2.symm, h3.symm, hl⟩

/-- sequences of settings that meet the hypotheses -/
example : latest Mirror.Call.plane? [.coefficients ⟨0, 0, 1⟩ 3, .origin ⟨1, 1, 1⟩, .plane ⟨0, 7, 0⟩ ⟨2, 0, 0⟩, .force false] =
      some (.inl (⟨0, 7, 0⟩, ⟨2, 0, 0⟩)) ∧
    latest Mirror.Call.plane? [.plane ⟨0, 7, 0⟩ ⟨2, 0, 0⟩, .coefficients ⟨0, 0, 1⟩ 3] = some (.inr (⟨0, 0, 1⟩, 3)) ∧
    dot (⟨0, 0, 1⟩ : V3) ⟨0, 0, 1⟩ = 1 ∧ dot (⟨0, 0, 1⟩ : V3) ⟨5, 5, -3⟩ + 3 = 0 ∧
    latest Mirror.Call.plane? [.origin ⟨1, 1, 1⟩, .normal ⟨2, 0, 0⟩] = none := by
  refine ⟨rfl, rfl, by norm_num [dot], by norm_num [dot], rfl⟩

/-! what an execution gives, from the settings it reads -/

/-- result and data of an execution -/
def outcome (sf : Surface) (w : World) (g : Nat) (n : V3) (d : ℝ) (insideOut force : Bool) (scalar : Option (Data ℝ))
    (vector : Option (Data V3)) (surf : Option (Obj V3)) (kd : Bool) : Option (Obj V3 × Data ℝ × Data V3) :=
  (clone (w g)).bind fun o =>
    if norm2 n ≤ tiny then some (o, zeros 0 o.verts, zeros ⟨0, 0, 0⟩ o.verts)
    else
      let ids := o.verts.map Prod.fst
      (mirrorLoop n.unit d (if insideOut then -1 else 1) (mirrorMargin sf surf) force ids
        ⟨o, labelAbove ids, labelAbove (o.cells.map Prod.fst), copied scalar ids (zeros 0 o.verts),
          copied vector ids (zeros ⟨0, 0, 0⟩ o.verts)⟩).bind fun r =>
        (finishCloud sf surf r.o).bind fun o' => some (if kd then Mesh.buildKd o' else o', r.s, r.v)

theorem execute_outcome (sf : Surface) (w : World) (s : Mirror) : s.execute sf w = s.cloud.bind fun g =>
    (outcome sf w g s.prepared.n s.prepared.d s.insideOut s.force s.scalar s.vector (s.surface w) s.kd).map fun x =>
      { s.prepared with result := some x.1, scalarOut := x.2.1, vectorOut := x.2.2 } := by
  obtain ⟨q1, q2, q3, q4, q5, q6, q7, -, -, -⟩ := prepared_rest s
  have hsf : s.prepared.surface w = s.surface w := by unfold Mirror.surface; rw [q2]
  unfold Mirror.execute outcome
  cases s.cloud with
  | none => rfl
  | some g =>
    simp only [Option.bind_some]
    cases clone (w g) with
    | none => rfl
    | some o =>
      simp only [Option.bind_some]
      rw [show (if s.implicit = true then s else s.setPlane s.origin s.normal) = s.prepared from rfl]
      by_cases hn : norm2 s.prepared.n ≤ tiny
      · rw [if_pos hn, if_pos hn]; rfl
      · rw [if_neg hn, if_neg hn, hsf, q3, q4, q5, q6, q7]
        generalize mirrorLoop _ _ _ _ _ _ _ = x
        cases x with
        | none => rfl
        | some r =>
          simp only [Option.bind_some]
          generalize finishCloud _ _ _ = y
          cases y with
          | none => rfl
          | some o' => simp

/-- **C130** fails for origin and normal set after a plane was given at once: they have no effect -/
theorem C130_implicit_fails (sf : Surface) (w : World) (s : Mirror) (h : s.implicit = true) (o n : V3) {s' : Mirror}
    (he : s.execute sf w = some s') : ∃ s'', (s.sets w [.origin o, .normal n]).execute sf w = some s'' ∧
      s''.result = s'.result ∧ s''.scalarOut = s'.scalarOut ∧ s''.vectorOut = s'.vectorOut := by
  have e1 : s.prepared = s := by unfold Mirror.prepared; rw [if_pos h]
  have e2 : (s.sets w [.origin o, .normal n]).prepared = s.sets w [.origin o, .normal n] := by
    unfold Mirror.prepared; rw [if_pos]; exact h
  rw [execute_outcome, e1] at he
  rw [execute_outcome, e2]
  cases hg : s.cloud with
  | none => rw [hg] at he; cases he
  | some g =>
    rw [hg] at he
    simp only [Option.bind_some, Option.map_eq_some_iff] at he
    obtain ⟨x, hx, rfl⟩ := he
    refine ⟨{ s.sets w [.origin o, .normal n] with result := some x.1, scalarOut := x.2.1, vectorOut := x.2.2 }, ?_, rfl, rfl, rfl⟩
    rw [show (s.sets w [.origin o, .normal n]).cloud = some g from hg]
    simp only [Option.bind_some, Option.map_eq_some_iff]
    exact ⟨x, hx, rfl⟩

/-- **C130** fails for origin and normal changed between two executions: the second gives what the first gave -/
theorem C130_again_fails (sf : Surface) (w : World) (s : Mirror) (o n : V3) {s' : Mirror} (he : s.execute sf w = some s') :
    ∃ s'', (s'.sets w [.origin o, .normal n]).execute sf w = some s'' ∧ s''.result = s'.result ∧
      s''.scalarOut = s'.scalarOut ∧ s''.vectorOut = s'.vectorOut := by
  have key : s'.implicit = true ∧ s'.execute sf w = some s' := by
    obtain ⟨q1, q2, q3, q4, q5, q6, q7, -, -, q8⟩ := prepared_rest s
    have hsf : s.prepared.surface w = s.surface w := by unfold Mirror.surface; rw [q2]
    rw [execute_outcome] at he
    cases hg : s.cloud with
    | none => rw [hg] at he; cases he
    | some g =>
      rw [hg] at he
      simp only [Option.bind_some, Option.map_eq_some_iff] at he
      obtain ⟨x, hx, rfl⟩ := he
      refine ⟨q8, ?_⟩
      rw [execute_outcome]
      have e : ∀ t : Mirror, t.implicit = true → t.prepared = t := by
        intro t h; unfold Mirror.prepared; rw [if_pos h]
      rw [e { s.prepared with result := some x.1, scalarOut := x.2.1, vectorOut := x.2.2 } q8]
      rw [show ({ s.prepared with result := some x.1, scalarOut := x.2.1, vectorOut := x.2.2 } : Mirror).cloud = some g from q1.trans hg]
      simp only [Option.bind_some, Option.map_eq_some_iff]
      refine ⟨x, ?_, by rw [q1, hg]⟩
      rw [q3, q4, q5, q6, q7]
      have : ∀ t : Mirror, t.geom = s.prepared.geom → t.surface w = s.surface w := by
        intro t ht; rw [← hsf]; unfold Mirror.surface; rw [ht]
      refine Eq.trans ?_ hx
      congr 1
  exact C130_implicit_fails sf w s' key.1 o n key.2

/-- **C130** fails after `clear` of a block with a plane: origin and normal set then are not used; there is no valid plane, so
a copy of the cloud is returned, without data -/
theorem C130_clear_fails (sf : Surface) (w : World) (s : Mirror) {g : Nat} (hg : s.cloud = some g) (hc : GoodCloud (w g))
    (hi : s.implicit = true) (o n : V3) (sc : Field Nat ℝ) :
    ∃ s' r, (s.clear.sets w [.origin o, .normal n, .scalar (some sc)]).execute sf w = some s' ∧ s'.result = some r ∧
      r.verts = (w g).verts ∧ ∀ id p, get (w g).verts id = some p → get s'.scalarOut id = some 0 := by
  obtain ⟨s', r, h1, h2, h3, -, h4⟩ := C128_no_normal_fails sf w (s.clear.sets w [.origin o, .normal n, .scalar (some sc)]) (g := g)
    (by simp only [Mirror.sets, foldl_cons, foldl_nil, Mirror.set]; split <;> exact hg) hc (by
      simp only [Mirror.sets, foldl_cons, foldl_nil, Mirror.set]
      split <;> simp [Mirror.clear, hi])
  exact ⟨s', r, h1, h2, h3, fun id p h => (h4 id p h).1⟩

/-- a copy gives what the original would give -/
theorem C130_copy (sf : Surface) (w : World) (s : Mirror) {s' : Mirror} (he : s.execute sf w = some s') :
    s.copy.result = none ∧ s.copy.execute sf w = some s' := by
  refine ⟨rfl, ?_⟩
  rw [execute_outcome] at he ⊢
  have e : s.copy.prepared = s.prepared.copy := by
    unfold Mirror.prepared
    rw [show s.copy.implicit = s.implicit from rfl]
    cases s.implicit <;> rfl
  rw [e]
  cases hg : s.cloud with
  | none => rw [hg] at he; cases he
  | some g =>
    rw [hg] at he
    rw [show s.copy.cloud = some g from hg]
    exact he

example (sf : Surface) : (∃ s', demoMirror.execute sf cloudWorld = some s') ∧ demoMirror.implicit = true := by
  obtain ⟨s', r, twin, h1, -⟩ := C128_mirrored_partial sf cloudWorld demoMirror (g := 0) rfl demoCloud_good demo_inForce
    (by intro x hx; simp [Mirror.surface, demoMirror, Mirror.sets, Mirror.set, Mirror.new, Mirror.setPlane, cloudWorld, demoCloud] at hx)
  refine ⟨⟨s', h1⟩, ?_⟩
  simp [demoMirror, Mirror.sets, Mirror.set, Mirror.new, Mirror.setPlane, cloudWorld, demoCloud]

/-! ### Settings -/

/-- a point cloud -/
def Mirror.Call.cloud? (w : World) : Mirror.Call → Option Nat
  | .cloud (some g) => if (w g).type = 3 then some g else none
  | _ => none

/-- a surface -/
def Mirror.Call.geometry? (w : World) : Mirror.Call → Option Nat
  | .geometry (some g) => if (w g).type = 1 then some g else none
  | _ => none

/-- scalar data on points -/
def Mirror.Call.scalar? : Mirror.Call → Option (List (Nat × ℝ))
  | .scalar (some f) => if f.loc = .point then some f.data else none
  | _ => none

/-- vector data on points -/
def Mirror.Call.vector? : Mirror.Call → Option (List (Nat × V3))
  | .vector (some f) => if f.loc = .point then some f.data else none
  | _ => none

def Mirror.Call.insideOut? : Mirror.Call → Option Bool
  | .insideOut b => some b
  | _ => none

def Mirror.Call.force? : Mirror.Call → Option Bool
  | .force b => some b
  | _ => none

/-- **C128** the cloud, surface, data and flags are those given last: only point clouds are accepted as clouds, only surfaces as surfaces,
only data on points as data. -/
theorem C128_settings (w : World) (s : Mirror) (cs : List Mirror.Call) :
    (s.sets w cs).cloud = (latest (Mirror.Call.cloud? w) cs).or s.cloud ∧
    (s.sets w cs).geom = (latest (Mirror.Call.geometry? w) cs).or s.geom ∧
    (s.sets w cs).scalar = (latest Mirror.Call.scalar? cs).or s.scalar ∧
    (s.sets w cs).vector = (latest Mirror.Call.vector? cs).or s.vector ∧
    (s.sets w cs).insideOut = (latest Mirror.Call.insideOut? cs).getD s.insideOut ∧
    (s.sets w cs).force = (latest Mirror.Call.force? cs).getD s.force := by
  induction cs using List.reverseRecOn with
  | nil => simp [Mirror.sets, latest_nil]
  | append_singleton cs c ih =>
    obtain ⟨h1, h2, h3, h4, h5, h6⟩ := ih
    have e : s.sets w (cs ++ [c]) = (s.sets w cs).set w c := by simp [Mirror.sets]
    simp only [e, latest_concat]
    cases c with
    | cloud g =>
      cases g with
      | none => simp [Mirror.set, Mirror.Call.cloud?, Mirror.Call.geometry?, Mirror.Call.scalar?, Mirror.Call.vector?, Mirror.Call.insideOut?,
          Mirror.Call.force?, h1, h2, h3, h4, h5, h6]
      | some g => by_cases ht : (w g).type = 3 <;>
          simp [Mirror.set, Mirror.Call.cloud?, Mirror.Call.geometry?, Mirror.Call.scalar?, Mirror.Call.vector?, Mirror.Call.insideOut?,
          Mirror.Call.force?, h1, h2, h3, h4, h5, h6, ht]
    | geometry g =>
      cases g with
      | none => simp [Mirror.set, Mirror.Call.cloud?, Mirror.Call.geometry?, Mirror.Call.scalar?, Mirror.Call.vector?, Mirror.Call.insideOut?,
          Mirror.Call.force?, h1, h2, h3, h4, h5, h6]
      | some g => by_cases ht : (w g).type = 1 <;>
          simp [Mirror.set, Mirror.Call.cloud?, Mirror.Call.geometry?, Mirror.Call.scalar?, Mirror.Call.vector?, Mirror.Call.insideOut?,
          Mirror.Call.force?, h1, h2, h3, h4, h5, h6, ht]
    | scalar f =>
      cases f with
      | none => simp [Mirror.set, Mirror.Call.cloud?, Mirror.Call.geometry?, Mirror.Call.scalar?, Mirror.Call.vector?, Mirror.Call.insideOut?,
          Mirror.Call.force?, h1, h2, h3, h4, h5, h6]
      | some f => by_cases ht : f.loc = .point <;>
          simp [Mirror.set, Mirror.Call.cloud?, Mirror.Call.geometry?, Mirror.Call.scalar?, Mirror.Call.vector?, Mirror.Call.insideOut?,
          Mirror.Call.force?, h1, h2, h3, h4, h5, h6, ht]
    | vector f =>
      cases f with
      | none => simp [Mirror.set, Mirror.Call.cloud?, Mirror.Call.geometry?, Mirror.Call.scalar?, Mirror.Call.vector?, Mirror.Call.insideOut?,
          Mirror.Call.force?, h1, h2, h3, h4, h5, h6]
      | some f => by_cases ht : f.loc = .point <;>
          simp [Mirror.set, Mirror.Call.cloud?, Mirror.Call.geometry?, Mirror.Call.scalar?, Mirror.Call.vector?, Mirror.Call.insideOut?,
          Mirror.Call.force?, h1, h2, h3, h4, h5, h6, ht]
    | _ => simp [Mirror.set, Mirror.setPlane, Mirror.Call.cloud?, Mirror.Call.geometry?, Mirror.Call.scalar?, Mirror.Call.vector?,
          Mirror.Call.insideOut?, Mirror.Call.force?, h1, h2, h3, h4, h5, h6]

/-- **C128** the surface points are projected on is the linked one, whenever it has a cell. -/
theorem C128_surface (w : World) (s : Mirror) : s.surface w = (s.geom.filter fun g => !(w g).cells.isEmpty).map w := by
  unfold Mirror.surface
  cases s.geom with
  | none => rfl
  | some g => cases h : (w g).cells <;> simp [h]

example : (Mirror.new.sets cloudWorld [.cloud (some 0), .cloud none, .force false]).cloud = some 0 := by
  rw [(C128_settings cloudWorld Mirror.new _).1]
  simp [latest, List.filterMap_cons, Mirror.Call.cloud?, cloudWorld, demoCloud]

end
end Verif.Utils
