import Verif.Shape.SelectProps
/-
C65, third part: the shapes whose box test loses cells.
-/
namespace Verif.Shape
open Real

theorem angle_gt {u v : ℝ} (h : u < 0 ∨ v < 0) : π / 2 < angle u v := by
  by_contra hn
  have hr := angle_range u v
  have ha := angle_cos u v
  have hc : 0 ≤ cos (angle u v) := cos_nonneg_of_mem_Icc ⟨by linarith [pi_pos, hr.1], not_lt.1 hn⟩
  have hs : 0 ≤ sin (angle u v) := sin_nonneg_of_nonneg_of_le_pi hr.1 (by linarith [pi_pos, not_lt.1 hn])
  have h1 : 0 ≤ u := by rw [← ha.1]; exact mul_nonneg (sqrt_nonneg _) hc
  have h2 : 0 ≤ v := by rw [← ha.2]; exact mul_nonneg (sqrt_nonneg _) hs
  rcases h with h | h <;> linarith

theorem angle_le {u v : ℝ} (hu : 0 ≤ u) (hv : 0 ≤ v) : angle u v ≤ π / 2 := by
  unfold angle
  split
  · linarith [pi_pos]
  · have h1 : 0 ≤ Complex.arg ⟨u, v⟩ := Complex.arg_nonneg_iff.2 hv
    have h2 : |Complex.arg ⟨u, v⟩| ≤ π / 2 := Complex.abs_arg_le_pi_div_two_iff.2 hu
    rw [abs_of_nonneg h1] at h2
    unfold atan2 sign
    rw [if_neg (not_lt.2 h1)]
    linarith

theorem wrap_at_zero {t : ℝ} (h : 0 ≤ t ∧ t < 2 * π) : wrap t 0 = t := by
  unfold wrap
  simp only [sub_zero]
  have h0 : ¬ t < 0 := not_lt.2 h.1
  rw [if_neg h0, if_neg (by linarith [h.2])]

theorem solid_of_local {s : Shape} (h : Proper s) {p : V3} (he : ¬ EdgePlane s p)
    (hx : 0 ≤ (localToBasic s (toLocal s p)).x ∧ (localToBasic s (toLocal s p)).x ≤ 1)
    (hy : 0 ≤ (localToBasic s (toLocal s p)).y ∧ (localToBasic s (toLocal s p)).y ≤ 1)
    (hz : 0 ≤ (localToBasic s (toLocal s p)).z ∧ (localToBasic s (toLocal s p)).z ≤ 1) : Solid s p := by
  refine ⟨_, hx, hy, hz, ?_⟩
  rw [(C62_basic s h.spanY h.spanZ _).2, C62_world_local_world_partial h.frame h.scaled he]

/-- the second parameter of a round shape -/
theorem round_y {s : Shape} (h : Proper s) (hk : s.kind = .cylinder ∨ s.kind = .sphere) {p : V3} (hn : norm2 (s.sdr.app (p - s.origin)) > 0) :
    (localToBasic s (toLocal s p)).y = wrap (angle (dot (p - s.origin) s.sdr.r0) (dot (p - s.origin) s.sdr.r1)) s.inf.y / s.span.y := by
  have hsy := h.limits.2.scY hk
  rcases hk with hk | hk
  · simp only [localToBasic, toLocal, unduffy, curved, hk, V3.div, localOrigin, sub_y, hsy, M3.app]
    simp
  · simp only [localToBasic, toLocal, unduffy, curved, hk, V3.div, localOrigin, sub_y, hsy, if_pos hn]
    simp [M3.app]

/-- a box all of whose corners are outside the first quadrant is discarded by a quarter -/
theorem quarter_discards {s : Shape} (h : Proper s) (hk : s.kind = .cylinder ∨ s.kind = .sphere) (hi : s.inf.y = 0) (hq : s.span.y = π / 2)
    {lo hi' : V3} (hc : ∀ q ∈ corners lo hi', dot (q - s.origin) s.sdr.r0 < 0 ∨ dot (q - s.origin) s.sdr.r1 < 0) :
    ¬ boxTest s lo hi' := by
  have pp := pi_pos
  have hall : ∀ t ∈ ((corners lo hi').map (fun p => localToBasic s (toLocal s p))).map (fun p => p.at 1), 1 < t := by
    intro t ht
    rw [List.map_map] at ht
    obtain ⟨q, hq', rfl⟩ := List.mem_map.1 ht
    have hn : norm2 (s.sdr.app (q - s.origin)) > 0 := by
      refine lt_of_le_of_ne (norm2_nonneg _) (fun e => ?_)
      have hz := norm2_eq_zero.1 e.symm
      have h1 := congrArg V3.x hz
      have h2 := congrArg V3.y hz
      simp only [M3.app] at h1 h2
      rcases hc q hq' with h | h <;> linarith
    change 1 < (localToBasic s (toLocal s q)).y
    rw [round_y h hk hn, hi, wrap_at_zero (angle_range _ _), hq, lt_div_iff₀ (by linarith)]
    linarith [angle_gt (hc q hq')]
  have hm := minMax18_gt (by norm_num) hall
  have hr : ¬ roundBox s lo hi' := by
    intro hr
    have := hr 1 (by simp)
    simp only at this
    rw [if_neg (by omega)] at this
    exact this (.inl hm)
  unfold boxTest
  rcases hk with hk | hk <;> simpa [hk] using hr

/-- third axis of the frames below -/
theorem norm_345 : norm2 ⟨4 / 5, 3 / 5, 0⟩ = 1 ∧ norm2 ⟨-(3 / 5), 4 / 5, 0⟩ = 1 ∧ norm2 ⟨0, 0, 1⟩ = 1 ∧
    norm2 ⟨3 / 5, 4 / 5, 0⟩ = 1 ∧ norm2 ⟨-(4 / 5), 3 / 5, 0⟩ = 1 := by
  refine ⟨?_, ?_, ?_, ?_, ?_⟩ <;> (unfold norm2 dot; norm_num)

/-- a quarter of a cylinder or of a sphere, turned about its axis -/
noncomputable def turned (k : Kind) : Shape :=
  setRef3 (construct k ⟨0, 0, 0⟩ ⟨1, π / 2, if k = .sphere then π else 1⟩) ⟨4 / 5, 3 / 5, 0⟩ ⟨-(3 / 5), 4 / 5, 0⟩ ⟨0, 0, 1⟩

theorem turned_val {k : Kind} (hk : k = .cylinder ∨ k = .sphere) : turned k =
    { basic k with span := ⟨1, π / 2, if k = .sphere then π else 1⟩
                   sdr := ⟨⟨4 / 5, 3 / 5, 0⟩, ⟨-(3 / 5), 4 / 5, 0⟩, ⟨0, 0, 1⟩⟩
                   sdrInv := M3.inverse ⟨⟨4 / 5, 3 / 5, 0⟩, ⟨-(3 / 5), 4 / 5, 0⟩, ⟨0, 0, 1⟩⟩ } := by
  have pp := pi_pos
  have a1 : |π| = π := abs_of_pos pp
  have a2 : min (π / 2) (2 * π) = π / 2 := min_eq_left (by linarith)
  have a5 : ¬ (2 * π ≤ π / 2) := by linarith
  have a6 : min π (0.5 * (2 * π)) = π := min_eq_left (by linarith)
  obtain ⟨n1, n2, n3, -, -⟩ := norm_345
  have hc : construct k ⟨0, 0, 0⟩ ⟨1, π / 2, if k = .sphere then π else 1⟩ =
      { basic k with span := ⟨1, π / 2, if k = .sphere then π else 1⟩ } := by
    rcases hk with rfl | rfl
    · simp [construct, setSpan, checkSpan, setScaling, setOrigin, basic, abs_div, a1, a2, a5]
    · simp [construct, setSpan, checkSpan, setScaling, setOrigin, basic, abs_div, a1, a2, a5, a6]
  have hd : |dot ⟨4 / 5, 3 / 5, 0⟩ ⟨-(3 / 5), 4 / 5, 0⟩| + |dot ⟨-(3 / 5), 4 / 5, 0⟩ ⟨0, 0, 1⟩| + |dot ⟨4 / 5, 3 / 5, 0⟩ ⟨0, 0, 1⟩| = 0 := by
    simp only [dot]; norm_num
  unfold turned setRef3
  rw [hc, if_neg (by simp [n1, n2, n3])]
  simp only [V3.unit, n1, n2, n3, div_one]
  rw [if_neg]
  rw [hd]; norm_num

theorem turned_reach (k : Kind) : Reach (turned k) := .step _ _ (.make _ _ _) (.ref3 _ _ _ _)

theorem turned_proper {k : Kind} (hk : k = .cylinder ∨ k = .sphere) : Proper (turned k) := by
  have pp := pi_pos
  apply proper_of_reach (turned_reach k)
  all_goals rw [turned_val hk]; simp [getSpan, basic]
  · exact pp
  · split <;> simp [pp]

/-- a small triangle within the quarter and a larger cell across it -/
noncomputable def twoCells : Nat → List V3
  | 0 => [⟨0, 3 / 10, 0⟩, ⟨1 / 10, 3 / 10, 0⟩, ⟨0, 4 / 10, 0⟩]
  | _ => [⟨-1, 1 / 10, -(1 / 10)⟩, ⟨1, 1 / 2, 1 / 10⟩]

theorem turned_solid {k : Kind} (hk : k = .cylinder ∨ k = .sphere) {p : V3} (hz : p.z = 0) (h0 : 0 ≤ dot p ⟨4 / 5, 3 / 5, 0⟩)
    (h1 : 0 ≤ dot p ⟨-(3 / 5), 4 / 5, 0⟩) (hp : 0 < dot p p) (hr : dot p p ≤ 1) : Solid (turned k) p := by
  have pp := pi_pos
  have hP := turned_proper hk
  have e : p - (turned k).origin = p := by rw [turned_val hk]; ext <;> simp [basic]
  have hrow : (turned k).sdr = ⟨⟨4 / 5, 3 / 5, 0⟩, ⟨-(3 / 5), 4 / 5, 0⟩, ⟨0, 0, 1⟩⟩ := by rw [turned_val hk]
  have hkk : (turned k).kind = k := by rw [turned_val hk]; rfl
  have hdot : dot p ⟨4 / 5, 3 / 5, 0⟩ * dot p ⟨4 / 5, 3 / 5, 0⟩ + dot p ⟨-(3 / 5), 4 / 5, 0⟩ * dot p ⟨-(3 / 5), 4 / 5, 0⟩ = dot p p := by
    simp only [dot, hz]; ring
  have hn : norm2 ((turned k).sdr.app (p - (turned k).origin)) = √(dot p p) := by
    rw [e, hrow]; unfold norm2; congr 1; simp only [M3.app]
    rw [← hdot]; simp only [dot, hz]; ring
  have hn0 : norm2 ((turned k).sdr.app (p - (turned k).origin)) > 0 := by rw [hn]; exact sqrt_pos.2 hp
  have hr1 : √(dot p p) ≤ 1 := by rw [← sqrt_one]; exact sqrt_le_sqrt hr
  have hy := round_y hP (by rw [hkk]; exact hk) hn0
  have hin : (turned k).inf = ⟨0, 0, 0⟩ := by rw [turned_val hk]; rfl
  have hsc : (turned k).scaling = ⟨1, 1, 1⟩ := by rw [turned_val hk]; rfl
  have hsp : (turned k).span = ⟨1, π / 2, if k = .sphere then π else 1⟩ := by rw [turned_val hk]
  apply solid_of_local hP
  · intro he; have := he.1; rw [hkk] at this; rcases hk with rfl | rfl <;> cases this
  · have : (localToBasic (turned k) (toLocal (turned k) p)).x = √(dot p p) := by
      rcases hk with rfl | rfl
      · simp only [localToBasic, toLocal, unduffy, curved, hkk, V3.div, localOrigin, sub_x, hsc, hin, e, M3.app, hrow, hdot]
        simp
        intro h2 h3
        rw [h2, h3] at hdot
        rw [← hdot]; simp
      · simp only [localToBasic, toLocal, unduffy, curved, hkk, V3.div, localOrigin, sub_x, hsc, hin, if_pos hn0]
        simp [hn]
    rw [this]; exact ⟨sqrt_nonneg _, hr1⟩
  · rw [hy, hin, wrap_at_zero (angle_range _ _), hsp, e, hrow]
    refine ⟨div_nonneg (angle_range _ _).1 (by simp only; linarith), ?_⟩
    rw [div_le_one (by simp only; linarith)]
    exact angle_le h0 h1
  · have hdz : dot p ⟨0, 0, 1⟩ = 0 := by simp [dot, hz]
    rcases hk with rfl | rfl
    · have : (localToBasic (turned .cylinder) (toLocal (turned .cylinder) p)).z = 1 / 2 := by
        simp only [localToBasic, toLocal, unduffy, curved, hkk, V3.div, localOrigin, sub_z, hsc, e, M3.app, hrow, hdz]
        norm_num
      rw [this]; norm_num
    · have : (localToBasic (turned .sphere) (toLocal (turned .sphere) p)).z = 1 / 2 := by
        simp only [localToBasic, toLocal, unduffy, curved, hkk, V3.div, localOrigin, sub_z, hsc, hin, hsp, if_pos hn0]
        simp only [e, M3.app, hrow, hdz]
        simp
        field_simp
      rw [this]; norm_num

/-- C65 does not hold for portions of cylinders and spheres: a cell all of whose vertices are in the solid, and which the
search over the patch finds, is lost where the corners of the box of its tree node are all outside the angular range. -/
theorem C65_sector_fails {k : Kind} (hk : k = .cylinder ∨ k = .sphere) : ∃ (s : Shape) (verts : Nat → List V3) (t : Skd),
    Reach s ∧ Proper s ∧ s.kind = k ∧ t.Valid verts ∧ 0 ∈ t.cells ∧ verts 0 ≠ [] ∧ (∀ p ∈ verts 0, Solid s p) ∧
      0 ∈ includePatch s verts t.cells ∧ 0 ∉ includeGeo s verts (some t) := by
  have hP := turned_proper hk
  have hkk : (turned k).kind = k := by rw [turned_val hk]; rfl
  have hin : (turned k).inf = ⟨0, 0, 0⟩ := by rw [turned_val hk]; rfl
  have hsol : ∀ p ∈ twoCells 0, Solid (turned k) p := by
    intro p hp
    simp only [twoCells, List.mem_cons, List.not_mem_nil, or_false] at hp
    rcases hp with rfl | rfl | rfl <;> apply turned_solid hk <;> norm_num [dot]
  refine ⟨turned k, twoCells, .leaf ⟨-1, 1 / 10, -(1 / 10)⟩ ⟨1, 1 / 2, 1 / 10⟩ [0, 1], turned_reach k, hP, hkk, ?_, by simp [Skd.cells],
    by simp [twoCells], hsol, ?_, ?_⟩
  · intro id hid p hp
    simp only [List.mem_cons, List.not_mem_nil, or_false] at hid
    rcases hid with rfl | rfl
    · simp only [twoCells, List.mem_cons, List.not_mem_nil, or_false] at hp
      rcases hp with rfl | rfl | rfl <;> norm_num [InB]
    · simp only [twoCells, List.mem_cons, List.not_mem_nil, or_false] at hp
      rcases hp with rfl | rfl <;> norm_num [InB]
  · have := ((C66_patch (turned k) twoCells [0, 1]).2.2 0 (by simp)).1
    apply this.2
    intro p hp
    apply C65_point_complete_partial hP (hsol p hp)
    intro ha
    have := ha.2.2.2.1
    rw [hin] at this
    exact lt_irrefl _ this
  · intro hm
    obtain ⟨h1, -⟩ := search_mem.1 hm
    have hb : ¬ boxTest (turned k) ⟨-1, 1 / 10, -(1 / 10)⟩ ⟨1, 1 / 2, 1 / 10⟩ := by
      apply quarter_discards hP (by rw [hkk]; exact hk) (by rw [hin]) (by rw [turned_val hk])
      have e : (turned k).origin = ⟨0, 0, 0⟩ := by rw [turned_val hk]; rfl
      have hrow : (turned k).sdr = ⟨⟨4 / 5, 3 / 5, 0⟩, ⟨-(3 / 5), 4 / 5, 0⟩, ⟨0, 0, 1⟩⟩ := by rw [turned_val hk]
      rw [e, hrow]
      intro q hq
      simp only [corners, List.mem_cons, List.not_mem_nil, or_false] at hq
      rcases hq with rfl | rfl | rfl | rfl | rfl | rfl | rfl | rfl <;> simp only [dot, sub_x, sub_y, sub_z] <;> norm_num
    rw [stackLoop, if_neg hb, stackLoop] at h1
    simp at h1

/-! ### A turned wedge -/

noncomputable def turnedWedge : Shape :=
  setRef3 (construct .wedge ⟨0, 0, 0⟩ ⟨1, 1, 1⟩) ⟨3 / 5, 4 / 5, 0⟩ ⟨-(4 / 5), 3 / 5, 0⟩ ⟨0, 0, 1⟩

theorem turnedWedge_val : turnedWedge =
    { basic .wedge with sdr := ⟨⟨3 / 5, 4 / 5, 0⟩, ⟨-(4 / 5), 3 / 5, 0⟩, ⟨0, 0, 1⟩⟩
                        sdrInv := M3.inverse ⟨⟨3 / 5, 4 / 5, 0⟩, ⟨-(4 / 5), 3 / 5, 0⟩, ⟨0, 0, 1⟩⟩ } := by
  obtain ⟨-, -, n3, n1, n2⟩ := norm_345
  have hc : construct .wedge ⟨0, 0, 0⟩ ⟨1, 1, 1⟩ = basic .wedge := by
    simp [construct, setSpan, checkSpan, setScaling, setOrigin, basic]
  have hd : |dot ⟨3 / 5, 4 / 5, 0⟩ ⟨-(4 / 5), 3 / 5, 0⟩| + |dot ⟨-(4 / 5), 3 / 5, 0⟩ ⟨0, 0, 1⟩| + |dot ⟨3 / 5, 4 / 5, 0⟩ ⟨0, 0, 1⟩| = 0 := by
    simp only [dot]; norm_num
  unfold turnedWedge setRef3
  rw [hc, if_neg (by simp [n1, n2, n3])]
  simp only [V3.unit, n1, n2, n3, div_one]
  rw [if_neg]
  rw [hd]; norm_num

theorem turnedWedge_proper : Proper turnedWedge := by
  apply proper_of_reach (.step _ _ (.make _ _ _) (.ref3 _ _ _ _))
  · change 0 < (getSpan turnedWedge).x; rw [turnedWedge_val]; simp [getSpan, basic]
  · change 0 < (getSpan turnedWedge).y; rw [turnedWedge_val]; simp [getSpan, basic]
  · change 0 < (getSpan turnedWedge).z; rw [turnedWedge_val]; simp [getSpan, basic]

noncomputable def wedgeCells : Nat → List V3
  | 0 => [⟨45 / 100, 65 / 100, 0⟩, ⟨5 / 10, 7 / 10, 0⟩, ⟨42 / 100, 6 / 10, 0⟩]
  | _ => [⟨3 / 10, 3 / 10, -(1 / 10)⟩, ⟨6 / 10, 8 / 10, 1 / 10⟩]

theorem turnedWedge_local {p : V3} (hz : p.z = 0) (hne : dot p ⟨3 / 5, 4 / 5, 0⟩ < 1) :
    localToBasic turnedWedge (toLocal turnedWedge p) =
      ⟨dot p ⟨3 / 5, 4 / 5, 0⟩, dot p ⟨-(4 / 5), 3 / 5, 0⟩ / (1 - dot p ⟨3 / 5, 4 / 5, 0⟩), 1 / 2⟩ := by
  have e : p - turnedWedge.origin = p := by rw [turnedWedge_val]; ext <;> simp [basic]
  have hrow : turnedWedge.sdr = ⟨⟨3 / 5, 4 / 5, 0⟩, ⟨-(4 / 5), 3 / 5, 0⟩, ⟨0, 0, 1⟩⟩ := by rw [turnedWedge_val]
  have hk : turnedWedge.kind = .wedge := by rw [turnedWedge_val]; rfl
  have hsc : turnedWedge.scaling = ⟨1, 1, 1⟩ := by rw [turnedWedge_val]; rfl
  have hdz : dot p ⟨0, 0, 1⟩ = 0 := by simp [dot, hz]
  have hpos : |1 - dot p ⟨3 / 5, 4 / 5, 0⟩| > 0 := abs_pos.2 (by linarith)
  simp only [localToBasic, toLocal, unduffy, curved, hk, V3.div, localOrigin, hsc, e, M3.app, hrow, hdz, div_one, if_pos hpos]
  ext <;> simp
  norm_num

/-- C65 does not hold for a wedge not along the coordinate axes: only the point of the box nearest to the origin of the
wedge is tested, which may be outside while the box crosses the wedge. -/
theorem C65_turned_wedge_fails : ∃ (s : Shape) (verts : Nat → List V3) (t : Skd),
    Reach s ∧ Proper s ∧ s.kind = .wedge ∧ t.Valid verts ∧ 0 ∈ t.cells ∧ verts 0 ≠ [] ∧ (∀ p ∈ verts 0, Solid s p) ∧
      0 ∈ includePatch s verts t.cells ∧ 0 ∉ includeGeo s verts (some t) := by
  have hP := turnedWedge_proper
  have hk : turnedWedge.kind = .wedge := by rw [turnedWedge_val]; rfl
  have e : turnedWedge.origin = ⟨0, 0, 0⟩ := by rw [turnedWedge_val]; rfl
  have hrow : turnedWedge.sdr = ⟨⟨3 / 5, 4 / 5, 0⟩, ⟨-(4 / 5), 3 / 5, 0⟩, ⟨0, 0, 1⟩⟩ := by rw [turnedWedge_val]
  have hsc : turnedWedge.scaling = ⟨1, 1, 1⟩ := by rw [turnedWedge_val]; rfl
  have hsol : ∀ p ∈ wedgeCells 0, Solid turnedWedge p := by
    intro p hp
    simp only [wedgeCells, List.mem_cons, List.not_mem_nil, or_false] at hp
    have aux : ∀ p : V3, p.z = 0 → 0 ≤ dot p ⟨3 / 5, 4 / 5, 0⟩ → dot p ⟨3 / 5, 4 / 5, 0⟩ < 1 → 0 ≤ dot p ⟨-(4 / 5), 3 / 5, 0⟩ →
        dot p ⟨-(4 / 5), 3 / 5, 0⟩ ≤ 1 - dot p ⟨3 / 5, 4 / 5, 0⟩ → Solid turnedWedge p := by
      intro p hz h0 h1 h2 h3
      have hl := turnedWedge_local hz h1
      have hpos : 0 < 1 - dot p ⟨3 / 5, 4 / 5, 0⟩ := by linarith
      apply solid_of_local hP
      · intro he
        have := he.2.1
        rw [e, hrow, hsc] at this
        have e2 : p - (⟨0, 0, 0⟩ : V3) = p := by ext <;> simp
        rw [e2, div_one] at this
        linarith
      · rw [hl]; exact ⟨h0, h1.le⟩
      · rw [hl]; exact ⟨div_nonneg h2 hpos.le, by simp only; rw [div_le_one hpos]; exact h3⟩
      · rw [hl]; norm_num
    rcases hp with rfl | rfl | rfl <;> apply aux <;> norm_num [dot]
  refine ⟨turnedWedge, wedgeCells, .leaf ⟨3 / 10, 3 / 10, -(1 / 10)⟩ ⟨6 / 10, 8 / 10, 1 / 10⟩ [0, 1],
    .step _ _ (.make _ _ _) (.ref3 _ _ _ _), hP, hk, ?_, by simp [Skd.cells], by simp [wedgeCells], hsol, ?_, ?_⟩
  · intro id hid p hp
    simp only [List.mem_cons, List.not_mem_nil, or_false] at hid
    rcases hid with rfl | rfl
    · simp only [wedgeCells, List.mem_cons, List.not_mem_nil, or_false] at hp
      rcases hp with rfl | rfl | rfl <;> norm_num [InB]
    · simp only [wedgeCells, List.mem_cons, List.not_mem_nil, or_false] at hp
      rcases hp with rfl | rfl <;> norm_num [InB]
  · have := ((C66_patch turnedWedge wedgeCells [0, 1]).2.2 0 (by simp)).1
    apply this.2
    intro p hp
    apply C65_point_complete_partial hP (hsol p hp)
    intro ha
    rcases ha.1 with h | h
    · rw [hk] at h; cases h
    · rw [hk] at h; cases h.1
  · intro hm
    obtain ⟨h1, -⟩ := search_mem.1 hm
    have hb : ¬ boxTest turnedWedge ⟨3 / 10, 3 / 10, -(1 / 10)⟩ ⟨6 / 10, 8 / 10, 1 / 10⟩ := by
      unfold boxTest
      rw [hk]
      simp only
      have r2 : turnedWedge.sdr.row 2 = ⟨0, 0, 1⟩ := by rw [hrow]; rfl
      have dz : ∀ v : V3, dot v ⟨0, 0, 1⟩ = v.z := by intro v; simp [dot]
      unfold wedgeBox
      simp only [r2, dz, e]
      intro hb
      split at hb
      · exact hb
      · have hn : nearest ⟨0, 0, 0⟩ (bounds ⟨3 / 10, 3 / 10, 0⟩ [⟨6 / 10, 3 / 10, 0⟩, ⟨6 / 10, 8 / 10, 0⟩, ⟨3 / 10, 8 / 10, 0⟩,
            ⟨3 / 10, 3 / 10, 0⟩, ⟨6 / 10, 3 / 10, 0⟩, ⟨6 / 10, 8 / 10, 0⟩, ⟨3 / 10, 8 / 10, 0⟩]).1
            (bounds ⟨3 / 10, 3 / 10, 0⟩ [⟨6 / 10, 3 / 10, 0⟩, ⟨6 / 10, 8 / 10, 0⟩, ⟨3 / 10, 8 / 10, 0⟩,
            ⟨3 / 10, 3 / 10, 0⟩, ⟨6 / 10, 3 / 10, 0⟩, ⟨6 / 10, 8 / 10, 0⟩, ⟨3 / 10, 8 / 10, 0⟩]).2 = ⟨3 / 10, 3 / 10, 0⟩ := by
          simp [bounds, nearest]; norm_num
        simp only [corners, List.map_cons, List.map_nil] at hb
        have hsub : ∀ a b c : ℝ, ((⟨a, b, c⟩ : V3) - ⟨0, 0, 0⟩ - V3.scale ((⟨a, b, c⟩ : V3) - ⟨0, 0, 0⟩).z ⟨0, 0, 1⟩) = ⟨a, b, 0⟩ := by
          intro a b c; ext <;> simp [V3.scale]
        simp only [hsub, hn] at hb
        have e3 : (⟨3 / 10, 3 / 10, 0⟩ : V3) + ⟨0, 0, 0⟩ = ⟨3 / 10, 3 / 10, 0⟩ := by ext <;> simp
        rw [e3] at hb
        unfold pointIncluded at hb
        rw [turnedWedge_local rfl (by norm_num [dot])] at hb
        have := hb.2.1.1
        norm_num [dot] at this
    rw [stackLoop, if_neg hb, stackLoop] at h1
    simp at h1

end Verif.Shape
