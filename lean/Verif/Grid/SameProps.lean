import Verif.Grid.DofProps
/-
C76: nodes that share a degree of freedom and nodes that are the same point.
-/
namespace Verif.Grid
open Real Verif.Shape

/-- two nodes have the same degree of freedom -/
def SameDof (l : Lattice) (a b : Int × Int × Int) : Prop :=
  dofFromGrid l (pointIndex l.grid a.1 a.2.1 a.2.2) = dofFromGrid l (pointIndex l.grid b.1 b.2.1 b.2.2)

/-- two nodes are the same point of space -/
def SamePoint (l : Lattice) (a b : Int × Int × Int) : Prop :=
  globalPointN l.grid (pointIndex l.grid a.1 a.2.1 a.2.2) = globalPointN l.grid (pointIndex l.grid b.1 b.2.1 b.2.2)

def Node (l : Lattice) (a : Int × Int × Int) : Prop := IsNode l.grid a.1 a.2.1 a.2.2

section
open scoped Classical

noncomputable def repS (s : Shape) (nx ny nz i j k : Nat) : Nat × Nat × Nat :=
  repT s.kind (s.coord 1 = .periodic) (s.inf.z = 0) (s.inf.z + s.span.z = π) nx ny nz i j k

theorem same_dof {l l' : Lattice} {s : Shape} (h : execute l = some l') (hs : l.grid.shape = some s) {nx ny nz i j k i' j' k' : Nat}
    (hx : l'.grid.nx = nx) (hy : l'.grid.ny = ny) (hz : l'.grid.nz = nz)
    (ha : i ≤ nx ∧ j ≤ ny ∧ k ≤ nz) (hb : i' ≤ nx ∧ j' ≤ ny ∧ k' ≤ nz) :
    SameDof l' (i, j, k) (i', j', k') ↔ repS s nx ny nz i j k = repS s nx ny nz i' j' k' := by
  obtain ⟨s', hs', hg, hmap, hnp⟩ := execute_spec h
  obtain rfl : s' = s := Option.some.inj (hs'.symm.trans hs)
  rw [hx, hy, hz] at hmap
  simp only [Int.toNat_natCast] at hmap
  have at_eq : ∀ a b c : Nat, pointIndex l'.grid (a : Int) (b : Int) (c : Int) = (at3 (ny + 1) (nz + 1) a b c : Nat) := by
    intro a b c
    unfold pointIndex at3
    rw [hy, hz]
    push_cast
    rfl
  have get : ∀ a b c : Nat, a ≤ nx → b ≤ ny → c ≤ nz → dofFromGrid l' (pointIndex l'.grid (a : Int) (b : Int) (c : Int)) =
      some (rank (repOf s' nx ny nz) (repOf s' nx ny nz (at3 (ny + 1) (nz + 1) a b c)) : Int) := by
    intro a b c h1 h2 h3
    unfold dofFromGrid
    rw [at_eq, elem_nat, hmap, numbering_get (at3_lt (by omega) (by omega) (by omega))]
  unfold SameDof
  dsimp only
  rw [get i j k ha.1 ha.2.1 ha.2.2, get i' j' k' hb.1 hb.2.1 hb.2.2]
  have h1 : at3 (ny + 1) (nz + 1) i j k < (nx + 1) * (ny + 1) * (nz + 1) := at3_lt (by omega) (by omega) (by omega)
  have h2 : at3 (ny + 1) (nz + 1) i' j' k' < (nx + 1) * (ny + 1) * (nz + 1) := at3_lt (by omega) (by omega) (by omega)
  have e : repOf s' nx ny nz (at3 (ny + 1) (nz + 1) i j k) = repOf s' nx ny nz (at3 (ny + 1) (nz + 1) i' j' k') ↔
      repS s' nx ny nz i j k = repS s' nx ny nz i' j' k' := by
    rw [repOf_at s' (by omega : j < ny + 1) (by omega : k < nz + 1), eq_comm, repOf_eq s' _ _ (by omega : j' < ny + 1) (by omega : k' < nz + 1)]
    · exact eq_comm
    · exact (repT_bounds s'.kind _ _ _ (by omega : j < ny + 1) (by omega : k < nz + 1)).2.2.2.1
    · exact (repT_bounds s'.kind _ _ _ (by omega : j < ny + 1) (by omega : k < nz + 1)).2.2.2.2
  rw [← e]
  constructor
  · intro hq
    simp only [Option.some.injEq, Int.natCast_inj] at hq
    exact rank_inj (repOf_idem s' h1) (repOf_idem s' h2) hq
  · intro hq; rw [hq]

/-- the place of a node -/
noncomputable def place (s : Shape) (nx ny nz i j k : Nat) : V3 := toWorld s (basicToLocal s ⟨i / nx, j / ny, k / nz⟩)

theorem same_point {l l' : Lattice} {s : Shape} (h : execute l = some l') (hs : l.grid.shape = some s) (hr : Reach s)
    {nx ny nz i j k i' j' k' : Nat} (hx : l'.grid.nx = nx) (hy : l'.grid.ny = ny) (hz : l'.grid.nz = nz)
    (ha : i ≤ nx ∧ j ≤ ny ∧ k ≤ nz) (hb : i' ≤ nx ∧ j' ≤ ny ∧ k' ≤ nz) :
    SamePoint l' (i, j, k) (i', j', k') ↔ place s nx ny nz i j k = place s nx ny nz i' j' k' := by
  obtain ⟨s', hs', hg, hmap, hnp⟩ := execute_spec h
  obtain rfl : s' = s := Option.some.inj (hs'.symm.trans hs)
  have get : ∀ a b c : Nat, a ≤ nx → b ≤ ny → c ≤ nz → globalPointN l'.grid (pointIndex l'.grid (a : Int) (b : Int) (c : Int)) =
      some (place s' nx ny nz a b c) := by
    intro a b c h1 h2 h3
    have hn : IsNode (build l.grid).1 (a : Int) (b : Int) (c : Int) := by
      rw [← hg]; exact ⟨⟨by omega, by omega⟩, ⟨by omega, by omega⟩, ⟨by omega, by omega⟩⟩
    have := C69_nodes hs hr hn
    dsimp only at this
    rw [← hg, hx, hy, hz] at this
    rw [this.2.2.2.2, this.2.1]
    simp [place]
  unfold SamePoint
  dsimp only
  rw [get i j k ha.1 ha.2.1 ha.2.2, get i' j' k' hb.1 hb.2.1 hb.2.2, Option.some.injEq]

theorem toWorld_inj {s : Shape} (hf : Frame s) {a b : V3} :
    toWorld s a = toWorld s b ↔ straight s ((duffy s a).mul s.scaling) = straight s ((duffy s b).mul s.scaling) := by
  constructor
  · intro h
    have e : ∀ p : V3, p + s.origin - s.origin = p := by intro p; ext <;> simp
    unfold toWorld at h
    have h2 := congrArg (fun p => s.sdr.app (p - s.origin)) h
    simp only [e, hf.inv, app_inv hf.det] at h2
    exact h2
  · intro h; unfold toWorld; rw [h]

/-- the extents of a shape are not zero -/
structure Thick (s : Shape) : Prop where
  x : (getSpan s).x ≠ 0
  y : (getSpan s).y ≠ 0
  z : (getSpan s).z ≠ 0

theorem Thick.scaled {s : Shape} (h : Thick s) : Scaled s :=
  ⟨fun e => h.x (by simp [getSpan, e]), fun e => h.y (by simp [getSpan, e]), fun e => h.z (by simp [getSpan, e])⟩

/-- the shapes for which the statement holds: boxes; sectors of tubes and full tubes with the angle marked periodic exactly when the
turn is complete; sectors of hollow spheres with the angle not periodic -/
def Plain (s : Shape) : Prop :=
  match s.kind with
  | .cube => True
  | .cylinder => 0 < s.inf.x ∧ (s.coord 1 = .periodic ↔ (getSpan s).y = 2 * π)
  | .sphere => 0 < s.inf.x ∧ s.coord 1 ≠ .periodic ∧ (getSpan s).y < 2 * π
  | .wedge => False

theorem div_inj {n i j : Nat} (hn : 1 ≤ n) (h : (i : ℝ) / n = j / n) : i = j := by
  have hn' : (n : ℝ) ≠ 0 := by exact_mod_cast (by omega : n ≠ 0)
  field_simp at h
  exact_mod_cast h

theorem frac_nat {i n : Nat} (h : i ≤ n) (hn : 1 ≤ n) : (0 : ℝ) ≤ (i : ℝ) / n ∧ (i : ℝ) / n ≤ 1 := by
  have hn' : (0 : ℝ) < n := by exact_mod_cast hn
  exact ⟨by positivity, (div_le_one hn').2 (by exact_mod_cast h)⟩

theorem frac_lt {i n : Nat} (h : i < n) (hn : 1 ≤ n) : (i : ℝ) / n < 1 := by
  have hn' : (0 : ℝ) < n := by exact_mod_cast hn
  exact (div_lt_one hn').2 (by exact_mod_cast h)

/-- at regular places, the same point only for the same node -/
theorem place_inj {s : Shape} (hr : Reach s) (ht : Thick s) {nx ny nz i j k i' j' k' : Nat} (px : 1 ≤ nx) (py : 1 ≤ ny) (pz : 1 ≤ nz)
    (h1 : Regular s (basicToLocal s ⟨i / nx, j / ny, k / nz⟩)) (h2 : Regular s (basicToLocal s ⟨i' / nx, j' / ny, k' / nz⟩))
    (h : place s nx ny nz i j k = place s nx ny nz i' j' k') : i = i' ∧ j = j' ∧ k = k' := by
  have hf := C63_always_valid hr
  have hl := C64_bounded hr
  have hsc := ht.scaled
  unfold place at h
  have e := congrArg (toLocal s) h
  rw [C62_local_world_local_partial hf hsc (inLimits_of hl) h1, C62_local_world_local_partial hf hsc (inLimits_of hl) h2] at e
  have sy : s.span.y ≠ 0 := fun e => ht.y (by simp [getSpan, e])
  have sz : s.span.z ≠ 0 := fun e => ht.z (by simp [getSpan, e])
  have e2 := congrArg (localToBasic s) e
  rw [(C62_basic s sy sz _).1, (C62_basic s sy sz _).1] at e2
  simp only [V3.mk.injEq] at e2
  exact ⟨div_inj px e2.1, div_inj py e2.2.1, div_inj pz e2.2.2⟩

theorem cube_same {s : Shape} (hr : Reach s) (ht : Thick s) (hk : s.kind = .cube) {nx ny nz i j k i' j' k' : Nat} (px : 1 ≤ nx) (py : 1 ≤ ny)
    (pz : 1 ≤ nz) : repS s nx ny nz i j k = repS s nx ny nz i' j' k' ↔ place s nx ny nz i j k = place s nx ny nz i' j' k' := by
  simp only [repS, repT, hk, Prod.mk.injEq]
  constructor
  · rintro ⟨rfl, rfl, rfl⟩; rfl
  · exact place_inj hr ht px py pz (by simp [Regular, hk]) (by simp [Regular, hk])

theorem scale_pos {s : Shape} (hl : Limits s) (ht : Thick s) : 0 < s.scaling.x := by
  have h1 := hl.1.x
  have h2 := ht.x
  simp only [getSpan, hl.2.spX, mul_one] at h1 h2
  exact lt_of_le_of_ne h1 (Ne.symm h2)

theorem turn_pos {s : Shape} (hl : Limits s) (ht : Thick s) (hk : s.kind = .cylinder ∨ s.kind = .sphere) :
    s.scaling.y = 1 ∧ (getSpan s).y = s.span.y ∧ 0 < s.span.y ∧ s.span.y ≤ 2 * π := by
  have h0 := hl.2.scY hk
  have h1 := hl.1.y
  have h2 := ht.y
  have h3 := hl.1.round hk
  simp only [getSpan, h0, one_mul] at h1 h2 h3 ⊢
  exact ⟨trivial, trivial, lt_of_le_of_ne h1 (Ne.symm h2), h3⟩

theorem cylinder_same {s : Shape} (hr : Reach s) (ht : Thick s) (hk : s.kind = .cylinder) (hp : Plain s) {nx ny nz i j k i' j' k' : Nat}
    (px : 1 ≤ nx) (py : 1 ≤ ny) (pz : 1 ≤ nz) (ha : j ≤ ny) (hb : j' ≤ ny) :
    repS s nx ny nz i j k = repS s nx ny nz i' j' k' ↔ place s nx ny nz i j k = place s nx ny nz i' j' k' := by
  have hl := C64_bounded hr
  obtain ⟨t1, t2, t3, t4⟩ := turn_pos hl ht (.inl hk)
  have hsx := scale_pos hl ht
  simp only [Plain, hk, t2] at hp
  obtain ⟨p1, p2⟩ := hp
  -- the representative is the same point
  have rep : ∀ i j k : Nat, place s nx ny nz i (if s.coord 1 = .periodic ∧ j = ny then 0 else j) k = place s nx ny nz i j k := by
    intro i j k
    split
    · rename_i h
      obtain ⟨h1, rfl⟩ := h
      have e := p2.1 h1
      have hn' : (j : ℝ) ≠ 0 := by exact_mod_cast (by omega : j ≠ 0)
      unfold place toWorld
      congr 2
      simp only [straight, hk, duffy, basicToLocal, localOrigin, V3.mul, add_x, add_y, add_z, e, t1, Nat.cast_zero, zero_div, zero_mul, div_self hn',
        one_mul, add_zero, mul_one, zero_add]
      have : 2 * π + s.inf.y = s.inf.y + 2 * π := by ring
      rw [this, cos_add_two_pi, sin_add_two_pi]
    · rfl
  have regular : ∀ i j k : Nat, j ≤ ny → Regular s (basicToLocal s ⟨(i : ℝ) / nx, ((if s.coord 1 = .periodic ∧ j = ny then 0 else j : Nat) : ℝ) / ny, (k : ℝ) / nz⟩) := by
    intro i j k hj
    simp only [Regular, hk, basicToLocal, localOrigin, add_x, add_y, add_z, add_zero]
    refine ⟨by positivity, ?_, ?_⟩
    · have := (frac_nat (i := if s.coord 1 = .periodic ∧ j = ny then 0 else j) (n := ny) (by split <;> omega) py).1
      positivity
    · by_cases h1 : s.coord 1 = .periodic
      · have := frac_lt (i := if s.coord 1 = .periodic ∧ j = ny then 0 else j) (n := ny) (by simp only [h1, true_and]; split <;> omega) py
        nlinarith
      · have h2 : s.span.y < 2 * π := lt_of_le_of_ne t4 (fun e => h1 (p2.2 e))
        have := (frac_nat (i := if s.coord 1 = .periodic ∧ j = ny then 0 else j) (n := ny) (by split <;> omega) py).2
        nlinarith
  simp only [repS, repT, hk, Prod.mk.injEq]
  rw [← rep i j k, ← rep i' j' k']
  constructor
  · rintro ⟨rfl, h, rfl⟩; rw [h]
  · exact place_inj hr ht px py pz (regular i j k ha) (regular i' j' k' hb)

theorem sphere_same {s : Shape} (hr : Reach s) (ht : Thick s) (hk : s.kind = .sphere) (hp : Plain s) {nx ny nz i j k i' j' k' : Nat}
    (px : 1 ≤ nx) (py : 1 ≤ ny) (pz : 1 ≤ nz) (ha : j ≤ ny ∧ k ≤ nz) (hb : j' ≤ ny ∧ k' ≤ nz) :
    repS s nx ny nz i j k = repS s nx ny nz i' j' k' ↔ place s nx ny nz i j k = place s nx ny nz i' j' k' := by
  have hl := C64_bounded hr
  obtain ⟨t1, t2, t3, t4⟩ := turn_pos hl ht (.inr hk)
  have hsx := scale_pos hl ht
  have hz0 := hl.1.infZ
  have hz1 := hl.1.polar hk
  have hz2 := hl.1.z
  have hz3 := ht.z
  have hscz := hl.2.scZ hk
  simp only [getSpan, hscz, one_mul] at hz1 hz2 hz3
  have hz4 : 0 < s.span.z := lt_of_le_of_ne hz2 (Ne.symm hz3)
  simp only [Plain, hk, t2] at hp
  obtain ⟨p1, p2, p3⟩ := hp
  have hnz : (0 : ℝ) < nz := by exact_mod_cast pz
  -- the polar angle of a node
  have polar : ∀ k : Nat, k ≤ nz → 0 ≤ (k : ℝ) / nz * s.span.z + s.inf.z ∧ (k : ℝ) / nz * s.span.z + s.inf.z ≤ π := by
    intro k h
    have := frac_nat h pz
    constructor
    · have := this.1; positivity
    · nlinarith
  have north : ∀ k : Nat, k ≤ nz → ((k : ℝ) / nz * s.span.z + s.inf.z = 0 ↔ s.inf.z = 0 ∧ k = 0) := by
    intro k h
    have f := frac_nat h pz
    constructor
    · intro e
      have h1 : 0 ≤ (k : ℝ) / nz * s.span.z := mul_nonneg f.1 hz4.le
      have h2 : (k : ℝ) / nz * s.span.z = 0 := by linarith
      refine ⟨by linarith, ?_⟩
      rcases mul_eq_zero.1 h2 with h3 | h3
      · rcases div_eq_zero_iff.1 h3 with h4 | h4
        · exact_mod_cast h4
        · exact absurd h4 (ne_of_gt hnz)
      · exact absurd h3 hz3
    · rintro ⟨h1, rfl⟩; simp [h1]
  have south : ∀ k : Nat, k ≤ nz → ((k : ℝ) / nz * s.span.z + s.inf.z = π ↔ s.inf.z + s.span.z = π ∧ k = nz) := by
    intro k h
    have f := frac_nat h pz
    constructor
    · intro e
      have h1 : (k : ℝ) / nz = 1 := by
        by_contra hne
        have : (k : ℝ) / nz < 1 := lt_of_le_of_ne f.2 hne
        nlinarith
      refine ⟨by rw [h1] at e; linarith, ?_⟩
      rw [div_eq_one_iff_eq (ne_of_gt hnz)] at h1
      exact_mod_cast h1
    · rintro ⟨h1, rfl⟩; rw [div_self (ne_of_gt hnz)]; linarith
  have pos : ∀ i j k : Nat, straight s ((duffy s (basicToLocal s ⟨(i : ℝ) / nx, (j : ℝ) / ny, (k : ℝ) / nz⟩)).mul s.scaling) =
      ⟨((i : ℝ) / nx * s.scaling.x + s.inf.x) * cos ((j : ℝ) / ny * s.span.y + s.inf.y) * sin ((k : ℝ) / nz * s.span.z + s.inf.z),
        ((i : ℝ) / nx * s.scaling.x + s.inf.x) * sin ((j : ℝ) / ny * s.span.y + s.inf.y) * sin ((k : ℝ) / nz * s.span.z + s.inf.z),
        ((i : ℝ) / nx * s.scaling.x + s.inf.x) * cos ((k : ℝ) / nz * s.span.z + s.inf.z)⟩ := by
    intro i j k
    simp only [straight, hk, duffy, basicToLocal, localOrigin, V3.mul, add_x, add_y, add_z, t1, hscz, add_zero, mul_one]
  have radius : ∀ i : Nat, 0 < (i : ℝ) / nx * s.scaling.x + s.inf.x := fun i => by positivity
  have hpe : repS s nx ny nz i j k = repS s nx ny nz i' j' k' ↔ i = i' ∧ k = k' ∧ ((s.inf.z = 0 ∧ k = 0) ∨ (s.inf.z + s.span.z = π ∧ k = nz) ∨ j = j') := by
    simp only [repS, repT, hk, Prod.mk.injEq, p2, false_and, false_or]
    constructor
    · rintro ⟨rfl, h, rfl⟩
      refine ⟨rfl, rfl, ?_⟩
      grind
    · rintro ⟨rfl, rfl, h⟩
      refine ⟨rfl, ?_, rfl⟩
      grind
  rw [hpe]
  unfold place
  rw [toWorld_inj (C63_always_valid hr), pos, pos]
  have r1 := radius i
  have r2 := radius i'
  have n1 := north k ha.2
  have n2 := south k ha.2
  have a1 := polar k ha.2
  have a2 := polar k' hb.2
  refine ⟨?_, ?_⟩
  rotate_left
  · intro e
    simp only [V3.mk.injEq] at e
    obtain ⟨e1, e2, e3⟩ := e
    have hR : (i : ℝ) / nx * s.scaling.x + s.inf.x = (i' : ℝ) / nx * s.scaling.x + s.inf.x := by
      have c1 := sin_sq_add_cos_sq ((j : ℝ) / ny * s.span.y + s.inf.y)
      have c2 := sin_sq_add_cos_sq ((k : ℝ) / nz * s.span.z + s.inf.z)
      have c3 := sin_sq_add_cos_sq ((j' : ℝ) / ny * s.span.y + s.inf.y)
      have c4 := sin_sq_add_cos_sq ((k' : ℝ) / nz * s.span.z + s.inf.z)
      generalize (i : ℝ) / nx * s.scaling.x + s.inf.x = R at *
      generalize (i' : ℝ) / nx * s.scaling.x + s.inf.x = R' at *
      generalize (j : ℝ) / ny * s.span.y + s.inf.y = A at *
      generalize (j' : ℝ) / ny * s.span.y + s.inf.y = A' at *
      generalize (k : ℝ) / nz * s.span.z + s.inf.z = B at *
      generalize (k' : ℝ) / nz * s.span.z + s.inf.z = B' at *
      have q1 : (R * cos A * sin B) ^ 2 + (R * sin A * sin B) ^ 2 + (R * cos B) ^ 2 = R ^ 2 := by
        linear_combination R ^ 2 * sin B ^ 2 * c1 + R ^ 2 * c2
      have q2 : (R' * cos A' * sin B') ^ 2 + (R' * sin A' * sin B') ^ 2 + (R' * cos B') ^ 2 = R' ^ 2 := by
        linear_combination R' ^ 2 * sin B' ^ 2 * c3 + R' ^ 2 * c4
      rw [e1, e2, e3, q2] at q1
      nlinarith
    have hi : i = i' := by
      have : (i : ℝ) / nx = (i' : ℝ) / nx := by
        have : (i : ℝ) / nx * s.scaling.x = (i' : ℝ) / nx * s.scaling.x := by linarith
        exact mul_right_cancel₀ (ne_of_gt hsx) this
      exact div_inj px this
    rw [hR] at e3
    have hcos := mul_left_cancel₀ (ne_of_gt r2) e3
    have hB := injOn_cos ⟨a1.1, a1.2⟩ ⟨a2.1, a2.2⟩ hcos
    have hkk : k = k' := by
      have : (k : ℝ) / nz = (k' : ℝ) / nz := by
        have : (k : ℝ) / nz * s.span.z = (k' : ℝ) / nz * s.span.z := by linarith
        exact mul_right_cancel₀ hz3 this
      exact div_inj pz this
    refine ⟨hi, hkk, ?_⟩
    subst hi hkk
    by_cases hN : s.inf.z = 0 ∧ k = 0
    · exact .inl hN
    · by_cases hS : s.inf.z + s.span.z = π ∧ k = nz
      · exact .inr (.inl hS)
      · refine .inr (.inr ?_)
        have g1 : 0 < (k : ℝ) / nz * s.span.z + s.inf.z := lt_of_le_of_ne a1.1 (fun h => hN (n1.1 h.symm))
        have g2 : (k : ℝ) / nz * s.span.z + s.inf.z < π := lt_of_le_of_ne a1.2 (fun h => hS (n2.1 h))
        have reg : ∀ j : Nat, j ≤ ny → Regular s (basicToLocal s ⟨(i : ℝ) / nx, (j : ℝ) / ny, (k : ℝ) / nz⟩) := by
          intro j hj
          have f := frac_nat hj py
          simp only [Regular, hk, basicToLocal, localOrigin, add_x, add_y, add_z, add_zero]
          refine ⟨r1, ⟨by have := f.1; positivity, by nlinarith⟩, g1, g2⟩
        refine (place_inj hr ht px py pz (reg j ha.1) (reg j' hb.1) ?_).2.1
        unfold place
        rw [toWorld_inj (C63_always_valid hr), pos, pos, e1, e2]
  · rintro ⟨rfl, rfl, h⟩
    rcases h with h | h | rfl
    · rw [n1.2 h]; simp
    · rw [n2.2 h]; simp
    · rfl

/-- C76: two nodes have the same degree of freedom exactly when they are the same point (full statement: for every shape; it
fails for wedges, cylinders and spheres that reach their axis or centre, spheres whose angle is periodic and sectors of
cylinders whose angle is still marked periodic). -/
theorem C76_same_partial {l l' : Lattice} {s : Shape} (h : execute l = some l') (hs : l.grid.shape = some s) (hr : Reach s) (ht : Thick s)
    (hp : Plain s) {a b : Int × Int × Int} (ha : Node l' a) (hb : Node l' b) : SameDof l' a b ↔ SamePoint l' a b := by
  obtain ⟨i, j, k⟩ := a
  obtain ⟨i', j', k'⟩ := b
  obtain ⟨⟨x1, x2⟩, ⟨y1, y2⟩, ⟨z1, z2⟩⟩ := ha
  obtain ⟨⟨x3, x4⟩, ⟨y3, y4⟩, ⟨z3, z4⟩⟩ := hb
  dsimp only at *
  obtain ⟨s', hs', hg, -, -⟩ := execute_spec h
  have hm : Made l'.grid s := hg ▸ made_build hs
  have px := hm.px
  have py := hm.py
  have pz := hm.pz
  obtain ⟨nx, hx⟩ := Int.eq_ofNat_of_zero_le (by omega : 0 ≤ l'.grid.nx)
  obtain ⟨ny, hy⟩ := Int.eq_ofNat_of_zero_le (by omega : 0 ≤ l'.grid.ny)
  obtain ⟨nz, hz⟩ := Int.eq_ofNat_of_zero_le (by omega : 0 ≤ l'.grid.nz)
  obtain ⟨i, rfl⟩ := Int.eq_ofNat_of_zero_le x1
  obtain ⟨j, rfl⟩ := Int.eq_ofNat_of_zero_le y1
  obtain ⟨k, rfl⟩ := Int.eq_ofNat_of_zero_le z1
  obtain ⟨i', rfl⟩ := Int.eq_ofNat_of_zero_le x3
  obtain ⟨j', rfl⟩ := Int.eq_ofNat_of_zero_le y3
  obtain ⟨k', rfl⟩ := Int.eq_ofNat_of_zero_le z3
  have ha : i ≤ nx ∧ j ≤ ny ∧ k ≤ nz := ⟨by omega, by omega, by omega⟩
  have hb : i' ≤ nx ∧ j' ≤ ny ∧ k' ≤ nz := ⟨by omega, by omega, by omega⟩
  have px' : 1 ≤ nx := by omega
  have py' : 1 ≤ ny := by omega
  have pz' : 1 ≤ nz := by omega
  rw [same_dof h hs hx hy hz ha hb, same_point h hs hr hx hy hz ha hb]
  rcases hk : s.kind
  · exact cube_same hr ht hk px' py' pz'
  · exact cylinder_same hr ht hk hp px' py' pz' ha.2.1 hb.2.1
  · exact sphere_same hr ht hk hp px' py' pz' ha.2 hb.2
  · simp [Plain, hk] at hp

/-- a default box with 3 × 3 × 3 nodes -/
example : ∃ l', execute ⟨setDimension (setShapeCopy new (some (basic .cube))) 3 3 3, 0, []⟩ = some l' ∧ Reach (basic .cube) ∧ Thick (basic .cube) ∧
    Plain (basic .cube) ∧ Node l' (2, 2, 1) ∧ Node l' (0, 1, 1) := by
  refine ⟨_, rfl, .new _, ⟨?_, ?_, ?_⟩, trivial, ?_, ?_⟩
  · simp [getSpan, basic]
  · simp [getSpan, basic]
  · simp [getSpan, basic]
  · simp [Node, IsNode, build, setDimension, setShapeCopy, basic, dimLimit]
  · simp [Node, IsNode, build, setDimension, setShapeCopy, basic, dimLimit]

/-- a full tube: a default cylinder whose radius starts from 1 -/
example : Reach (setInf (basic .cylinder) 1 0) ∧ Thick (setInf (basic .cylinder) 1 0) ∧ Plain (setInf (basic .cylinder) 1 0) := by
  have e : setInf (basic .cylinder) 1 0 = setSpan (putInf (basic .cylinder) 1 0) (getSpan (basic .cylinder)) := by
    simp [setInf, checkInf, basic]
  have hpi := pi_pos
  refine ⟨.step _ _ (.new _) (.inf _ _ _), ?_, ?_⟩ <;> rw [e]
  · refine ⟨?_, ?_, ?_⟩ <;> simp [getSpan, setSpan, setScaling, checkSpan, basic, putInf, setCoord, hpi.ne', abs_of_pos hpi]
  · simp [Plain, getSpan, setSpan, setScaling, checkSpan, basic, putInf, setCoord, abs_of_pos hpi]

/-- C76 fails for wedges: the nodes of the sharp edge at the two ends have the same degree of freedom though they are apart, and nodes
that are all on the sharp edge at the same height have different ones. -/
theorem C76_wedge_fails {l l' : Lattice} {s : Shape} (h : execute l = some l') (hs : l.grid.shape = some s) (hr : Reach s) (ht : Thick s)
    (hk : s.kind = .wedge) :
    ∃ a b c, Node l' a ∧ Node l' b ∧ Node l' c ∧ (SameDof l' a b ∧ ¬ SamePoint l' a b) ∧ (¬ SameDof l' a c ∧ SamePoint l' a c) := by
  obtain ⟨s', hs', hg, -, -⟩ := execute_spec h
  have hm : Made l'.grid s := hg ▸ made_build hs
  have px := hm.px
  have py := hm.py
  have pz := hm.pz
  obtain ⟨nx, hx⟩ := Int.eq_ofNat_of_zero_le (by omega : 0 ≤ l'.grid.nx)
  obtain ⟨ny, hy⟩ := Int.eq_ofNat_of_zero_le (by omega : 0 ≤ l'.grid.ny)
  obtain ⟨nz, hz⟩ := Int.eq_ofNat_of_zero_le (by omega : 0 ≤ l'.grid.nz)
  have nx0 : (nx : ℝ) ≠ 0 := by exact_mod_cast (by omega : nx ≠ 0)
  have nz0 : (nz : ℝ) ≠ 0 := by exact_mod_cast (by omega : nz ≠ 0)
  have hsc := ht.scaled
  refine ⟨((nx : Nat), (0 : Nat), (0 : Nat)), ((nx : Nat), (0 : Nat), (nz : Nat)), ((nx : Nat), (1 : Nat), (0 : Nat)), ?_, ?_, ?_, ⟨?_, ?_⟩, ?_, ?_⟩
  · exact ⟨⟨by dsimp only; omega, by dsimp only; omega⟩, ⟨by dsimp only; omega, by dsimp only; omega⟩, ⟨by dsimp only; omega, by dsimp only; omega⟩⟩
  · exact ⟨⟨by dsimp only; omega, by dsimp only; omega⟩, ⟨by dsimp only; omega, by dsimp only; omega⟩, ⟨by dsimp only; omega, by dsimp only; omega⟩⟩
  · exact ⟨⟨by dsimp only; omega, by dsimp only; omega⟩, ⟨by dsimp only; omega, by dsimp only; omega⟩, ⟨by dsimp only; omega, by dsimp only; omega⟩⟩
  · rw [same_dof h hs hx hy hz (by omega) (by omega)]
    simp [repS, repT, hk]
  · rw [same_point h hs hr hx hy hz (by omega) (by omega)]
    unfold place
    rw [toWorld_inj (C63_always_valid hr)]
    simp [straight, hk, duffy, basicToLocal, localOrigin, V3.mul, div_self nz0]
    intro e
    have : s.scaling.z = 0 := by linarith
    exact hsc.z this
  · rw [same_dof h hs hx hy hz (by omega) (by omega)]
    simp [repS, repT, hk]
  · rw [same_point h hs hr hx hy hz (by omega) (by omega)]
    unfold place
    rw [toWorld_inj (C63_always_valid hr)]
    simp [straight, hk, duffy, basicToLocal, localOrigin, V3.mul, div_self nx0]

example : Reach (basic .wedge) ∧ Thick (basic .wedge) := by
  refine ⟨.new _, ?_, ?_, ?_⟩ <;> simp [getSpan, basic]

/-- C76 fails for cylinders that reach their axis: the nodes of the axis at the same height are the same point and have different
degrees of freedom. -/
theorem C76_axis_fails {l l' : Lattice} {s : Shape} (h : execute l = some l') (hs : l.grid.shape = some s) (hr : Reach s)
    (hk : s.kind = .cylinder) (h0 : s.inf.x = 0) :
    ∃ a b, Node l' a ∧ Node l' b ∧ ¬ SameDof l' a b ∧ SamePoint l' a b := by
  obtain ⟨s', hs', hg, -, -⟩ := execute_spec h
  have hm : Made l'.grid s := hg ▸ made_build hs
  have px := hm.px
  have py := hm.ny
  have pz := hm.pz
  rw [hk] at py
  simp only [dimLimit] at py
  obtain ⟨nx, hx⟩ := Int.eq_ofNat_of_zero_le (by omega : 0 ≤ l'.grid.nx)
  obtain ⟨ny, hy⟩ := Int.eq_ofNat_of_zero_le (by omega : 0 ≤ l'.grid.ny)
  obtain ⟨nz, hz⟩ := Int.eq_ofNat_of_zero_le (by omega : 0 ≤ l'.grid.nz)
  refine ⟨((0 : Nat), (0 : Nat), (0 : Nat)), ((0 : Nat), (1 : Nat), (0 : Nat)), ?_, ?_, ?_, ?_⟩
  · exact ⟨⟨by dsimp only; omega, by dsimp only; omega⟩, ⟨by dsimp only; omega, by dsimp only; omega⟩, ⟨by dsimp only; omega, by dsimp only; omega⟩⟩
  · exact ⟨⟨by dsimp only; omega, by dsimp only; omega⟩, ⟨by dsimp only; omega, by dsimp only; omega⟩, ⟨by dsimp only; omega, by dsimp only; omega⟩⟩
  · rw [same_dof h hs hx hy hz (by omega) (by omega)]
    have h1 : ¬ 0 = ny := by omega
    have h2 : ¬ 1 = ny := by omega
    simp [repS, repT, hk, h1, h2]
  · rw [same_point h hs hr hx hy hz (by omega) (by omega)]
    unfold place
    rw [toWorld_inj (C63_always_valid hr)]
    simp [straight, hk, duffy, basicToLocal, localOrigin, V3.mul, h0]

example : ∃ l', execute ⟨setShapeCopy new (some (basic .cylinder)), 0, []⟩ = some l' ∧ Reach (basic .cylinder) ∧ (basic .cylinder).inf.x = 0 :=
  ⟨_, rfl, .new _, rfl⟩

/-- C76 fails for complete spheres: the nodes of the last but one meridian have the degrees of freedom of those of the first one,
from which they are apart, and those of the last meridian, which is the first one, have their own. -/
theorem C76_sphere_fails {l l' : Lattice} {s : Shape} (h : execute l = some l') (hs : l.grid.shape = some s) (hr : Reach s) (ht : Thick s)
    (hk : s.kind = .sphere) (hp : s.coord 1 = .periodic) (hy : (getSpan s).y = 2 * π) :
    ∃ a b c, Node l' a ∧ Node l' b ∧ Node l' c ∧ (SameDof l' a b ∧ ¬ SamePoint l' a b) ∧ (¬ SameDof l' a c ∧ SamePoint l' a c) := by
  obtain ⟨s', hs', hg, -, -⟩ := execute_spec h
  have hm : Made l'.grid s := hg ▸ made_build hs
  have px := hm.px
  have py := hm.ny
  have pz := hm.nz
  rw [hk] at py pz
  simp only [dimLimit] at py pz
  have hl := C64_bounded hr
  obtain ⟨t1, t2, t3, t4⟩ := turn_pos hl ht (.inr hk)
  have hsx := scale_pos hl ht
  have hz0 := hl.1.infZ
  have hix := hl.1.infX
  have hz1 := hl.1.polar hk
  have hz2 := hl.1.z
  have hz3 := ht.z
  have hscz := hl.2.scZ hk
  rw [t2] at hy
  simp only [getSpan, hscz, one_mul] at hz1 hz2 hz3
  have hz4 : 0 < s.span.z := lt_of_le_of_ne hz2 (Ne.symm hz3)
  obtain ⟨nx, hx⟩ := Int.eq_ofNat_of_zero_le (by omega : 0 ≤ l'.grid.nx)
  obtain ⟨ny, hyn⟩ := Int.eq_ofNat_of_zero_le (by omega : 0 ≤ l'.grid.ny)
  obtain ⟨nz, hz⟩ := Int.eq_ofNat_of_zero_le (by omega : 0 ≤ l'.grid.nz)
  have nx0 : (nx : ℝ) ≠ 0 := by exact_mod_cast (by omega : nx ≠ 0)
  have ny0 : (ny : ℝ) ≠ 0 := by exact_mod_cast (by omega : ny ≠ 0)
  have nz0 : (nz : ℝ) ≠ 0 := by exact_mod_cast (by omega : nz ≠ 0)
  have e1 : ¬ 0 = ny - 1 := by omega
  have e2 : ¬ ny = ny - 1 := by omega
  have e3 : ¬ 1 = nz := by omega
  have e4 : ny ≠ 0 := by omega
  refine ⟨((nx : Nat), (0 : Nat), (1 : Nat)), ((nx : Nat), ((ny - 1 : Nat) : Int), (1 : Nat)), ((nx : Nat), (ny : Nat), (1 : Nat)), ?_, ?_, ?_, ⟨?_, ?_⟩, ?_, ?_⟩
  · exact ⟨⟨by dsimp only; omega, by dsimp only; omega⟩, ⟨by dsimp only; omega, by dsimp only; omega⟩, ⟨by dsimp only; omega, by dsimp only; omega⟩⟩
  · exact ⟨⟨by dsimp only; omega, by dsimp only; omega⟩, ⟨by dsimp only; omega, by dsimp only; omega⟩, ⟨by dsimp only; omega, by dsimp only; omega⟩⟩
  · exact ⟨⟨by dsimp only; omega, by dsimp only; omega⟩, ⟨by dsimp only; omega, by dsimp only; omega⟩, ⟨by dsimp only; omega, by dsimp only; omega⟩⟩
  · rw [same_dof h hs hx hyn hz (by omega) (by omega)]
    simp [repS, repT, hk, hp]
  · rw [same_point h hs hr hx hyn hz (by omega) (by omega)]
    intro e
    have reg : ∀ j : Nat, j < ny → Regular s (basicToLocal s ⟨(nx : ℝ) / nx, (j : ℝ) / ny, ((1 : Nat) : ℝ) / nz⟩) := by
      intro j hj
      have f := frac_nat hj.le (by omega : 1 ≤ ny)
      have f2 := frac_lt hj (by omega : 1 ≤ ny)
      have f3 := frac_lt (i := 1) (n := nz) (by omega) (by omega)
      have f4 : (0 : ℝ) < ((1 : Nat) : ℝ) / nz := by
        have : (0 : ℝ) < nz := by exact_mod_cast (by omega : 0 < nz)
        rw [Nat.cast_one]; positivity
      simp only [Regular, hk, basicToLocal, localOrigin, add_x, add_y, add_z, add_zero, div_self nx0, one_mul]
      refine ⟨by positivity, ⟨by have := f.1; positivity, by nlinarith⟩, by positivity, by nlinarith⟩
    have := (place_inj hr ht (by omega) (by omega) (by omega) (reg 0 (by omega)) (reg (ny - 1) (by omega)) e).2.1
    omega
  · rw [same_dof h hs hx hyn hz (by omega) (by omega)]
    simp [repS, repT, hk, hp, e1, e2, e3, Ne.symm e4]
  · rw [same_point h hs hr hx hyn hz (by omega) (by omega)]
    unfold place
    rw [toWorld_inj (C63_always_valid hr)]
    have : 2 * π + s.inf.y = s.inf.y + 2 * π := by ring
    simp [straight, hk, duffy, basicToLocal, localOrigin, V3.mul, div_self ny0, hy, t1, this]

example : Reach (basic .sphere) ∧ Thick (basic .sphere) ∧ (basic .sphere).coord 1 = .periodic ∧ (getSpan (basic .sphere)).y = 2 * π := by
  refine ⟨.new _, ⟨?_, ?_, ?_⟩, ?_, ?_⟩ <;> simp [getSpan, basic, pi_ne_zero]

/-- C76 fails for sectors of cylinders whose angle is marked periodic: the nodes of the two end faces have the same degree of
freedom though they are apart. -/
theorem C76_sector_fails {l l' : Lattice} {s : Shape} (h : execute l = some l') (hs : l.grid.shape = some s) (hr : Reach s) (ht : Thick s)
    (hk : s.kind = .cylinder) (hp : s.coord 1 = .periodic) (hy : (getSpan s).y < 2 * π) :
    ∃ a b, Node l' a ∧ Node l' b ∧ SameDof l' a b ∧ ¬ SamePoint l' a b := by
  obtain ⟨s', hs', hg, -, -⟩ := execute_spec h
  have hm : Made l'.grid s := hg ▸ made_build hs
  have px := hm.px
  have py := hm.py
  have pz := hm.pz
  have hl := C64_bounded hr
  obtain ⟨t1, t2, t3, t4⟩ := turn_pos hl ht (.inl hk)
  have hsx := scale_pos hl ht
  have hix := hl.1.infX
  rw [t2] at hy
  obtain ⟨nx, hx⟩ := Int.eq_ofNat_of_zero_le (by omega : 0 ≤ l'.grid.nx)
  obtain ⟨ny, hyn⟩ := Int.eq_ofNat_of_zero_le (by omega : 0 ≤ l'.grid.ny)
  obtain ⟨nz, hz⟩ := Int.eq_ofNat_of_zero_le (by omega : 0 ≤ l'.grid.nz)
  have nx0 : (nx : ℝ) ≠ 0 := by exact_mod_cast (by omega : nx ≠ 0)
  refine ⟨((nx : Nat), (0 : Nat), (0 : Nat)), ((nx : Nat), (ny : Nat), (0 : Nat)), ?_, ?_, ?_, ?_⟩
  · exact ⟨⟨by dsimp only; omega, by dsimp only; omega⟩, ⟨by dsimp only; omega, by dsimp only; omega⟩, ⟨by dsimp only; omega, by dsimp only; omega⟩⟩
  · exact ⟨⟨by dsimp only; omega, by dsimp only; omega⟩, ⟨by dsimp only; omega, by dsimp only; omega⟩, ⟨by dsimp only; omega, by dsimp only; omega⟩⟩
  · rw [same_dof h hs hx hyn hz (by omega) (by omega)]
    simp [repS, repT, hk, hp]
  · rw [same_point h hs hr hx hyn hz (by omega) (by omega)]
    intro e
    have reg : ∀ j : Nat, j ≤ ny → Regular s (basicToLocal s ⟨(nx : ℝ) / nx, (j : ℝ) / ny, ((0 : Nat) : ℝ) / nz⟩) := by
      intro j hj
      have f := frac_nat hj (by omega : 1 ≤ ny)
      simp only [Regular, hk, basicToLocal, localOrigin, add_x, add_y, add_z, add_zero, div_self nx0, one_mul]
      refine ⟨by positivity, by have := f.1; positivity, by nlinarith⟩
    have := (place_inj hr ht (by omega) (by omega) (by omega) (reg 0 (by omega)) (reg ny (by omega)) e).2.1
    omega

/-- half a cylinder: the span set to π -/
example : Reach (setSpan (basic .cylinder) ⟨1, π, 1⟩) ∧ Thick (setSpan (basic .cylinder) ⟨1, π, 1⟩) ∧
    (setSpan (basic .cylinder) ⟨1, π, 1⟩).coord 1 = .periodic ∧ (getSpan (setSpan (basic .cylinder) ⟨1, π, 1⟩)).y < 2 * π := by
  have hpi := pi_pos
  have hm : min π (2 * π) = π := min_eq_left (by linarith)
  refine ⟨.step _ _ (.new _) (.span _ _), ⟨?_, ?_, ?_⟩, ?_, ?_⟩
  all_goals simp [getSpan, setSpan, setScaling, checkSpan, basic, abs_of_pos hpi, hm, hpi.ne', hpi]
end

end Verif.Grid
