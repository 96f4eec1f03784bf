import Verif.Prim.Model
import Verif.Grid.StateProps
import Verif.Xml.Props
/-
C229: a block holding a shape, written in the dictionary and read back.
-/
namespace Verif.Prim
open Real Verif.Shape Verif.Grid Verif.Xml

/-! ### What every shape satisfies -/

/-- the axes of a shape are orthogonal within the tolerance, and the lower polar limit of a sphere is below the pole -/
def Square (s : Shape) : Prop :=
  |dot s.sdr.r0 s.sdr.r1| + |dot s.sdr.r1 s.sdr.r2| + |dot s.sdr.r0 s.sdr.r2| ≤ 1 / 1000

theorem square_same {s s' : Shape} (h : Square s) (e : s'.sdr = s.sdr) : Square s' := by unfold Square; rw [e]; exact h

theorem square_setRef3 {s : Shape} (h : Square s) (a b c : V3) : Square (setRef3 s a b c) := by
  unfold setRef3
  split
  · exact h
  · simp only
    split
    · exact h
    · rename_i hn; exact not_lt.1 hn

theorem square_one : |dot M3.one.r0 M3.one.r1| + |dot M3.one.r1 M3.one.r2| + |dot M3.one.r0 M3.one.r2| ≤ 1 / 1000 := by
  simp [M3.one, dot]

theorem square {s : Shape} (h : Reach s) : Square s := by
  induction h with
  | new k => exact square_one
  | make k o v =>
    have := setSpan_fields (setOrigin (basic k) o) v
    exact square_same (s := basic k) square_one this.2.2.1
  | step s s' _ hst ih =>
    cases hst with
    | origin o => exact square_same ih rfl
    | span v => have := setSpan_fields s v; exact square_same ih this.2.2.1
    | inf v dir => exact square_same ih (setInf_other s v dir).2.2
    | coord t dir => exact square_same ih rfl
    | ref3 a b c => exact square_setRef3 ih a b c
    | ref1 l a _ hr =>
      by_cases hl : l < 0 ∨ 2 < l ∨ a = ⟨0, 0, 0⟩
      · rw [C63_one_axis_refused s l a hl] at hr; cases hr; exact ih
      · simp only [not_or, not_lt] at hl
        obtain ⟨n, rfl⟩ : ∃ n : Nat, l = n := ⟨l.toNat, by omega⟩
        by_cases hc : cross a (axisOf ((n + 1) % 3)) = ⟨0, 0, 0⟩
        · rw [C63_parallel_fails s (by omega) hl.2.2 hc] at hr; cases hr
        · obtain ⟨s'', h1, -, h3, -, -⟩ := C63_one_axis_partial s (l := n) (by omega) hc
          rw [hr] at h1; cases h1
          unfold Square
          rw [h3.orth.1, h3.orth.2.1, h3.orth.2.2]; norm_num

/-- the lower polar limit -/
noncomputable def cap : ℝ := (0.5 - 1 / 10 ^ 12) * (2 * π)

theorem cap_nonneg : 0 ≤ cap := by
  have : (0 : ℝ) ≤ 0.5 - 1 / 10 ^ 12 := by norm_num
  have := pi_pos
  unfold cap
  positivity

theorem inf_z (s : Shape) (v : ℝ) (dir : Int) (h : s.inf.z ≤ cap) : (setInf s v dir).inf.z ≤ cap := by
  by_cases hd : dir < 0 ∨ dir > 2
  · unfold setInf; rw [if_pos hd]; exact h
  · have hl := C64_lower_limit (s := s) v
    have : dir = 0 ∨ dir = 1 ∨ dir = 2 := by omega
    rcases this with rfl | rfl | rfl
    · rw [hl.1]; split <;> exact h
    · rw [hl.2.1]; split <;> exact h
    · rw [hl.2.2]; split
      · exact min_le_left _ _
      · exact h

theorem capped {s : Shape} (h : Reach s) : s.inf.z ≤ cap := by
  induction h with
  | new k => exact cap_nonneg
  | make k o v =>
    have := setSpan_fields (setOrigin (basic k) o) v
    show (setSpan _ _).inf.z ≤ _
    rw [this.2.1]; exact cap_nonneg
  | step s s' _ hst ih =>
    cases hst with
    | origin o => exact ih
    | span v => rw [(setSpan_fields s v).2.1]; exact ih
    | inf v dir => exact inf_z s v dir ih
    | coord t dir => exact ih
    | ref3 a b c => rw [(setRef3_fields s a b c).2.1]; exact ih
    | ref1 l a _ hr =>
      by_cases hl : l < 0 ∨ 2 < l ∨ a = ⟨0, 0, 0⟩
      · rw [C63_one_axis_refused s l a hl] at hr; cases hr; exact ih
      · simp only [not_or, not_lt] at hl
        obtain ⟨n, rfl⟩ : ∃ n : Nat, l = n := ⟨l.toNat, by omega⟩
        by_cases hc : cross a (axisOf ((n + 1) % 3)) = ⟨0, 0, 0⟩
        · rw [C63_parallel_fails s (by omega) hl.2.2 hc] at hr; cases hr
        · obtain ⟨s'', h1, -, -, -, h5⟩ := C63_one_axis_partial s (l := n) (by omega) hc
          rw [hr] at h1; cases h1
          have : s'.inf = s.inf := by rw [← h5]
          rw [this]; exact ih

/-- the axes of a shape given to another one are its axes -/
theorem same_axes {s : Shape} (h : Reach s) (t : Shape) : (setRef3 t s.sdr.r0 s.sdr.r1 s.sdr.r2).sdr = s.sdr := by
  have hu := (C63_always_valid h).unit
  have n : ∀ v : V3, dot v v = 1 → norm2 v = 1 ∧ v.unit = v := by
    intro v hv
    have : norm2 v = 1 := by unfold norm2; rw [hv]; simp
    refine ⟨this, ?_⟩
    unfold V3.unit; rw [this]; simp
  obtain ⟨n0, u0⟩ := n _ hu.1
  obtain ⟨n1, u1⟩ := n _ hu.2.1
  obtain ⟨n2, u2⟩ := n _ hu.2.2
  unfold setRef3
  rw [if_neg (by rw [n0, n1, n2]; norm_num)]
  simp only [u0, u1, u2]
  rw [if_neg (not_lt.2 (square h))]

/-- type, origin, dimensions, lower limits and axes given in this order to a new shape -/
theorem rebuilt {s : Shape} (h : Reach s) (t : Shape) (ht : Reach t) (hk : t.kind = s.kind) (hi : t.inf = ⟨0, 0, 0⟩) :
    let u := setRef3 (setSpan (setOrigin t s.origin) (getSpan s)) s.sdr.r0 s.sdr.r1 s.sdr.r2
    Reach u ∧ u.kind = s.kind ∧ u.origin = s.origin ∧ getSpan u = getSpan s ∧ u.sdr = s.sdr ∧ u.inf = ⟨0, 0, 0⟩ := by
  intro u
  have hb := (C64_bounded h).1
  have ha : Allowed (setOrigin t s.origin) (getSpan s) := by
    refine ⟨hb.x, hb.y, hb.z, fun hh => hb.round (by rw [← hk]; exact hh), fun hh => ?_⟩
    have := hb.polar (by rw [← hk]; exact hh)
    show t.inf.z + _ ≤ π
    rw [hi]
    have := hb.infZ
    simp only
    linarith
  have hs := C64_stored ha
  have r := ref_last (setSpan (setOrigin t s.origin) (getSpan s)) s.sdr
  refine ⟨.step _ _ (.step _ _ (.step _ _ ht (.origin _ _)) (.span _ _)) (.ref3 _ _ _ _), r.1.trans (hs.2.2.2.2.trans hk),
    r.2.1.trans hs.2.2.1, r.2.2.2.trans hs.1, same_axes h _, r.2.2.1.trans (hs.2.1.trans hi)⟩

/-- then its lower limits -/
theorem relimited {s u : Shape} (h : Reach s) (hu : Reach u) (hk : u.kind = s.kind) (ho : u.origin = s.origin)
    (hg : getSpan u = getSpan s) (ha : u.sdr = s.sdr) (hi : u.inf = ⟨0, 0, 0⟩) :
    let t := setInf (setInf (setInf u s.inf.x 0) s.inf.y 1) s.inf.z 2
    t.kind = s.kind ∧ t.origin = s.origin ∧ getSpan t = getSpan s ∧ t.sdr = s.sdr ∧ t.inf = s.inf := by
  intro t
  obtain ⟨a1, a2, a3, a4, a5, a6, a7⟩ := inf3 hu hi s.inf
  have hb := (C64_bounded h).1
  have hc : s.inf.z ≤ (0.5 - 1 / 10 ^ 12) * (2 * π) := capped h
  rw [hk] at a1 a4 a5 a6 a7
  have ez : s.kind = .sphere → t.inf.z = s.inf.z := by
    intro hs
    rw [show t.inf.z = _ from a5, if_pos hs, max_eq_right hb.infZ, min_eq_right hc]
  refine ⟨a1, a2.trans ho, ?_, a3.trans ha, ?_⟩
  · rw [show getSpan t = _ from a7]
    split
    · rename_i hs
      have hp := hb.polar hs
      have := ez hs
      rw [show (setInf (setInf (setInf u s.inf.x 0) s.inf.y 1) s.inf.z 2).inf.z = s.inf.z from this, hg, min_eq_left (by linarith)]
    · exact hg
  · cases hs : s.kind with
    | cube => rw [show t.inf = _ from a6 (.inl hs), hb.flat (.inl hs)]
    | wedge => rw [show t.inf = _ from a6 (.inr hs), hb.flat (.inr hs)]
    | cylinder =>
      obtain ⟨x, y⟩ := a4 (.inl hs)
      ext
      · exact x.trans (max_eq_right hb.infX)
      · exact y.trans (by rw [max_eq_right hb.infY.1, min_eq_right hb.infY.2])
      · rw [show t.inf.z = _ from a5, hs, hb.height hs]; simp
    | sphere =>
      obtain ⟨x, y⟩ := a4 (.inr hs)
      ext
      · exact x.trans (max_eq_right hb.infX)
      · exact y.trans (by rw [max_eq_right hb.infY.1, min_eq_right hb.infY.2])
      · exact ez hs

/-! ### C229 -/

/-- three numbers whose text is read as those numbers -/
def Survives (E : Env) (v : V3) : Prop := trim (E.print v) ≠ [] ∧ ∀ d, E.parse d (trim (E.print v)) = v
def SurvivesI (E : Env) (v : Int × Int × Int) : Prop := trim (E.printI v) ≠ [] ∧ ∀ d, E.parseI d (trim (E.printI v)) = v

/-- the numbers of a shape that are written -/
structure Written (E : Env) (s : Shape) : Prop where
  origin : Survives E s.origin
  span : Survives E (getSpan s)
  axis0 : Survives E s.sdr.r0
  axis1 : Survives E s.sdr.r1
  axis2 : Survives E s.sdr.r2

theorem triple_of {E : Env} {v : V3} (h : Survives E v) (d : V3) : triple E d (E.print v) = v := by
  unfold triple; rw [if_neg h.1]; exact h.2 d

theorem kind_of (k : Kind) : kindOf (trim (kindText k)) = k := by cases k <;> decide

theorem read_axes {E : Env} {s : Shape} (h : Written E s) : readAxes E (flushAxes E s.sdr) = some s.sdr := by
  simp [readAxes, flushAxes, Section.set, triple_of h.axis0, triple_of h.axis1, triple_of h.axis2]

/-- a shape chosen on a new mesh -/
theorem new_shape (k : Kind) (j0 j2 : ℝ) : ∃ t, setShape new k j0 j2 = { new with shape := some t } ∧ Reach t ∧ t.kind = k ∧
    t.inf = ⟨0, 0, 0⟩ := by
  have e : ∀ v, Reach (construct k ⟨0, 0, 0⟩ v) ∧ (construct k ⟨0, 0, 0⟩ v).kind = k ∧ (construct k ⟨0, 0, 0⟩ v).inf = ⟨0, 0, 0⟩ := by
    intro v
    have := setSpan_fields (setOrigin (basic k) ⟨0, 0, 0⟩) v
    exact ⟨.make _ _ _, this.1, this.2.1⟩
  refine ⟨construct k ⟨0, 0, 0⟩ (filler j0 j2 k), ?_, e _⟩
  cases k <;> rfl

theorem read_shape {E : Env} {s : Shape} (h : Reach s) (hw : Written E s) (x : Section) (j0 j2 : ℝ)
    (hs : x "Shape" = some (kindText s.kind)) (ho : x "Origin" = some (E.print s.origin)) (hv : x "Span" = some (E.print (getSpan s))) :
    ∃ u, absorbAxes E (some (flushAxes E s.sdr)) (absorbShape E x j0 j2 new) = some { new with shape := some u } ∧
      Reach u ∧ u.kind = s.kind ∧ u.origin = s.origin ∧ getSpan u = getSpan s ∧ u.sdr = s.sdr ∧ u.inf = ⟨0, 0, 0⟩ := by
  obtain ⟨t, e, ht, hk, hi⟩ := new_shape s.kind j0 j2
  refine ⟨_, ?_, rebuilt h t ht hk hi⟩
  simp only [absorbAxes, absorbShape, read_axes hw, hs, ho, hv, kind_of, e, triple_of hw.origin, triple_of hw.span, setOriginG, setSpanG,
    setRef3G, Option.map_some]
  rfl

/-- C229, partial (full statement: for all numbers): a lattice with a shape, written and read into a new one, has the type, the origin,
the dimensions, the axes, the lower limits and the numbers of nodes it had, if the text of each of these numbers is read as the number. -/
theorem C229_lattice_partial {E : Env} {b : Block} {s : Shape} (hg : b.grid.shape = some s) (h : Reach s) (hw : Written E s)
    (hi : Survives E s.inf) (hd : SurvivesI E (getDimension b.grid)) (x : Section) (j0 j2 : ℝ) :
    ∃ b' s', absorbLattice E (flushLattice E b x) j0 j2 fresh = some b' ∧ b'.grid.shape = some s' ∧ s'.kind = s.kind ∧
      s'.origin = s.origin ∧ getSpan s' = getSpan s ∧ s'.sdr = s.sdr ∧ s'.inf = s.inf ∧ getDimension b'.grid = getDimension b.grid := by
  obtain ⟨u, e, hu, k, o, v, a, i⟩ := read_shape h hw (flushLattice E b x).opts j0 j2
    (by simp [flushLattice, Section.set, getKind, hg]) (by simp [flushLattice, Section.set, getOrigin, hg])
    (by simp [flushLattice, Section.set, getSpanG, hg])
  have hx : (flushLattice E b x).axes = some (flushAxes E s.sdr) := by simp [flushLattice, getRef, hg]
  have hinf : (flushLattice E b x).opts "InfLimits" = some (E.print s.inf) := by simp [flushLattice, Section.set, getInf, hg]
  have hdim : (flushLattice E b x).opts "Dimension" = some (E.printI (getDimension b.grid)) := by simp [flushLattice, Section.set]
  have hfin := relimited h hu k o v a i
  refine ⟨⟨absorbSection (flushLattice E b x).opts Settings.fresh, setDimension
      { new with shape := some (setInf (setInf (setInf u s.inf.x 0) s.inf.y 1) s.inf.z 2) } (getDimension b.grid).1 (getDimension b.grid).2.1
      (getDimension b.grid).2.2⟩, _, ?_, rfl, hfin.1, hfin.2.1, hfin.2.2.1, hfin.2.2.2.1, hfin.2.2.2.2, ?_⟩
  · simp only [absorbLattice, hx, fresh, e, absorbInf, hinf, triple_of hi, setInfAllG, setInfG, Option.bind_eq_bind, Option.bind_some,
      absorbDim, hdim, if_neg hd.1, hd.2]
  · simp [setDimension, getDimension]

/-- C229, partial: a primitive keeps type, origin, dimensions and axes, not the lower limits: these are not written. -/
theorem C229_primitive_partial {E : Env} {b : Block} {s : Shape} (hg : b.grid.shape = some s) (h : Reach s) (hw : Written E s)
    (x : Section) (hx : x "InfLimits" = none) (j0 j2 : ℝ) :
    ∃ b' s', absorbPrimitive E (flushPrimitive E b x) j0 j2 fresh = some b' ∧ b'.grid.shape = some s' ∧ s'.kind = s.kind ∧
      s'.origin = s.origin ∧ getSpan s' = getSpan s ∧ s'.sdr = s.sdr := by
  obtain ⟨u, e, hu, k, o, v, a, i⟩ := read_shape h hw (flushPrimitive E b x).opts j0 j2
    (by simp [flushPrimitive, Section.set, getKind, hg]) (by simp [flushPrimitive, Section.set, getOrigin, hg])
    (by simp [flushPrimitive, Section.set, getSpanG, hg])
  have ha : (flushPrimitive E b x).axes = some (flushAxes E s.sdr) := by simp [flushPrimitive, getRef, hg]
  have hinf : (flushPrimitive E b x).opts "InfLimits" = none := by
    cases hp : b.base.apply <;> cases hq : b.base.plot <;> simp [flushPrimitive, Section.set, flushSection, hp, hq, hx]
  refine ⟨⟨absorbSection (flushPrimitive E b x).opts Settings.fresh, { new with shape := some u }⟩, u, ?_, rfl, k, o, v, a⟩
  simp only [absorbPrimitive, ha, fresh, e, absorbInf, hinf, Option.bind_eq_bind, Option.bind_some]

open scoped Classical in
/-- texts for five triples -/
noncomputable def letters : Env where
  print := fun v => if v = ⟨0, 0, 0⟩ then ['0'] else if v = ⟨1, 0, 0⟩ then ['x'] else if v = ⟨0, 1, 0⟩ then ['y'] else
    if v = ⟨0, 0, 1⟩ then ['z'] else ['1']
  parse := fun _ t => if t = ['0'] then ⟨0, 0, 0⟩ else if t = ['x'] then ⟨1, 0, 0⟩ else if t = ['y'] then ⟨0, 1, 0⟩ else
    if t = ['z'] then ⟨0, 0, 1⟩ else ⟨1, 1, 1⟩
  printI := fun _ => ['n']
  parseI := fun _ _ => (7, 8, 9)

/-- a hollow sector of a cylinder -/
noncomputable def hollow : Shape := setInf (construct .cylinder ⟨0, 0, 0⟩ ⟨1, 1, 1⟩) 1 0

theorem hollow_reach : Reach hollow := .step _ _ (.make _ _ _) (.inf _ _ _)

theorem hollow_has : hollow.origin = ⟨0, 0, 0⟩ ∧ getSpan hollow = ⟨1, 1, 1⟩ ∧ hollow.sdr = .one ∧ hollow.inf = ⟨1, 0, 0⟩ := by
  have f := setSpan_fields (setOrigin (basic .cylinder) ⟨0, 0, 0⟩) ⟨1, 1, 1⟩
  have o := setInf_other (construct .cylinder ⟨0, 0, 0⟩ ⟨1, 1, 1⟩) 1 0
  have hk : (construct .cylinder ⟨0, 0, 0⟩ ⟨1, 1, 1⟩).kind = .cylinder := f.1
  have hi : (construct .cylinder ⟨0, 0, 0⟩ ⟨1, 1, 1⟩).inf = ⟨0, 0, 0⟩ := f.2.1
  have pp := two_le_pi
  refine ⟨o.2.1.trans f.2.2.2.2, ?_, o.2.2.trans f.2.2.1, ?_⟩
  · have := C64_lower_keeps_span (Reach.make .cylinder ⟨0, 0, 0⟩ ⟨1, 1, 1⟩) 1 0
    rw [hk] at this
    simp only [reduceCtorEq, if_false] at this
    refine this.trans ?_
    refine (C64_stored ⟨by norm_num, by norm_num, by norm_num, fun _ => ?_, fun h => ?_⟩).1
    · simp only; linarith
    · simp [setOrigin, basic] at h
  · have := (C64_lower_limit (s := construct .cylinder ⟨0, 0, 0⟩ ⟨1, 1, 1⟩) 1).1
    rw [hk, hi] at this
    refine this.trans ?_
    simp

theorem letters_survive : Survives letters ⟨0, 0, 0⟩ ∧ Survives letters ⟨1, 0, 0⟩ ∧ Survives letters ⟨0, 1, 0⟩ ∧
    Survives letters ⟨0, 0, 1⟩ ∧ Survives letters ⟨1, 1, 1⟩ := by
  refine ⟨?_, ?_, ?_, ?_, ?_⟩ <;> simp [Survives, letters, trim, blank]

theorem hollow_written : Written letters hollow := by
  obtain ⟨h1, h2, h3, -⟩ := hollow_has
  obtain ⟨l0, lx, ly, lz, l1⟩ := letters_survive
  exact ⟨by rw [h1]; exact l0, by rw [h2]; exact l1, by rw [h3]; exact lx, by rw [h3]; exact ly, by rw [h3]; exact lz⟩

example : Reach hollow ∧ Written letters hollow ∧ Survives letters hollow.inf ∧
    SurvivesI letters (getDimension (setDimension new 7 8 9)) ∧ hollow.inf ≠ ⟨0, 0, 0⟩ := by
  refine ⟨hollow_reach, hollow_written, ?_, ?_, ?_⟩
  · rw [hollow_has.2.2.2]; exact letters_survive.2.1
  · simp [SurvivesI, letters, trim, blank, getDimension, setDimension]
  · rw [hollow_has.2.2.2]; simp

/-- C229: the settings common to all blocks come back as for any block (C22). -/
theorem C229_base_partial (E : Env) {b : Block} (hp : b.base.priority ≤ INT_MAX) (ho : trim b.base.out = b.base.out) (hn : b.base.out ≠ [])
    (j0 j2 : ℝ) {b' : Block} (h : absorbPrimitive E (flushPrimitive E b fun _ => none) j0 j2 fresh = some b' ∨
      absorbLattice E (flushLattice E b fun _ => none) j0 j2 fresh = some b') :
    b'.base.priority = b.base.priority ∧ b'.base.apply = b.base.apply ∧ b'.base.plot = b.base.plot ∧
      (b.base.plot = true → b'.base.out = b.base.out) := by
  have key : b'.base = absorbSection (flushSection b.base fun _ => none) Settings.fresh := by
    rcases h with h | h
    · simp only [absorbPrimitive, Option.bind_eq_bind, Option.bind_eq_some_iff, Option.some.injEq] at h
      obtain ⟨_, _, _, _, rfl⟩ := h
      simp [absorbSection, flushPrimitive, Section.set, fresh]
    · simp only [absorbLattice, Option.bind_eq_bind, Option.bind_eq_some_iff, Option.some.injEq] at h
      obtain ⟨_, _, _, _, rfl⟩ := h
      simp [absorbSection, flushLattice, Section.set, fresh]
  rw [key]
  exact C22_round_trip_partial b.base hp ho hn

example : fresh.base.priority ≤ INT_MAX ∧ trim fresh.base.out = fresh.base.out ∧ fresh.base.out ≠ [] := by decide

/-- C229 does not hold for primitives: a lower limit is lost (the sector of a cylinder starts elsewhere, the hole of a hollow one is
filled). -/
theorem C229_limits_fails {E : Env} {b : Block} {s : Shape} (hg : b.grid.shape = some s) (h : Reach s) (hw : Written E s)
    (hi : s.inf ≠ ⟨0, 0, 0⟩) (j0 j2 : ℝ) :
    ∃ b', absorbPrimitive E (flushPrimitive E b fun _ => none) j0 j2 fresh = some b' ∧ getInf b'.grid = ⟨0, 0, 0⟩ ∧
      getInf b'.grid ≠ getInf b.grid := by
  obtain ⟨u, e, hu, k, o, v, a, i⟩ := read_shape h hw (flushPrimitive E b fun _ => none).opts j0 j2
    (by simp [flushPrimitive, Section.set, getKind, hg]) (by simp [flushPrimitive, Section.set, getOrigin, hg])
    (by simp [flushPrimitive, Section.set, getSpanG, hg])
  have ha : (flushPrimitive E b fun _ => none).axes = some (flushAxes E s.sdr) := by simp [flushPrimitive, getRef, hg]
  have hinf : (flushPrimitive E b fun _ => none).opts "InfLimits" = none := by
    cases hp : b.base.apply <;> cases hq : b.base.plot <;> simp [flushPrimitive, Section.set, flushSection, hp, hq]
  refine ⟨⟨absorbSection (flushPrimitive E b fun _ => none).opts Settings.fresh, { new with shape := some u }⟩, ?_, i, ?_⟩
  · simp only [absorbPrimitive, ha, fresh, e, absorbInf, hinf, Option.bind_eq_bind, Option.bind_some]
  · show u.inf ≠ getInf b.grid
    rw [i]; simp only [getInf, hg]; exact fun hh => hi hh.symm

/-- a mesh on a cube -/
def Cubic (g : Grid) : Prop := ∃ s, g.shape = some s ∧ s.kind = .cube

theorem cubic_origin {g : Grid} (h : Cubic g) (o : V3) : Cubic (setOriginG g o) := by
  obtain ⟨s, h1, h2⟩ := h
  exact ⟨setOrigin s o, by simp [setOriginG, h1], h2⟩

theorem cubic_span {g : Grid} (h : Cubic g) (v : V3) : Cubic (setSpanG g v) := by
  obtain ⟨s, h1, h2⟩ := h
  exact ⟨setSpan s v, by simp [setSpanG, h1], (setSpan_fields s v).1.trans h2⟩

theorem cubic_axes {g : Grid} (h : Cubic g) (a b c : V3) : Cubic (setRef3G g a b c) := by
  obtain ⟨s, h1, h2⟩ := h
  exact ⟨setRef3 s a b c, by simp [setRef3G, h1], (setRef3_fields s a b c).1.trans h2⟩

theorem cubic_inf {g : Grid} (h : Cubic g) (w : V3) : ∃ g', setInfAllG g w = some g' ∧ Cubic g' := by
  obtain ⟨s, h1, h2⟩ := h
  refine ⟨{ g with shape := some (setInf (setInf (setInf s w.x 0) w.y 1) w.z 2) }, ?_, _, rfl, ?_⟩
  · simp [setInfAllG, setInfG, h1]
  · exact ((setInf_other _ _ _).1.trans ((setInf_other _ _ _).1.trans (setInf_other _ _ _).1)).trans h2

theorem cubic_shape {E : Env} (x : Section) (hx : x "Shape" = some (kindText .cube)) (m : M3) (j0 j2 : ℝ) :
    ∃ g, absorbAxes E (some (flushAxes E m)) (absorbShape E x j0 j2 new) = some g ∧ Cubic g := by
  have h0 : Cubic (setShape new (kindOf (trim (kindText .cube))) j0 j2) := by
    obtain ⟨t, e, _, hk, _⟩ := new_shape .cube j0 j2
    rw [kind_of, e]; exact ⟨t, rfl, hk⟩
  have h1 : Cubic (absorbShape E x j0 j2 new) := by
    unfold absorbShape
    rw [hx]
    simp only
    cases x "Span" with
    | none => cases x "Origin" with
      | none => exact h0
      | some o => exact cubic_origin h0 _
    | some v => cases x "Origin" with
      | none => exact cubic_span h0 _
      | some o => exact cubic_span (cubic_origin h0 _) _
  refine ⟨_, ?_, cubic_axes h1 (triple E M3.one.r0 (E.print m.r0)) (triple E M3.one.r1 (E.print m.r1)) (triple E M3.one.r2 (E.print m.r2))⟩
  simp only [absorbAxes, readAxes, flushAxes, Section.set]
  rfl

/-- C229 does not hold for a block without shape: it comes back with a cube. -/
theorem C229_empty_fails (E : Env) {b : Block} (hg : b.grid.shape = none) (j0 j2 : ℝ) :
    (∃ b' s, absorbPrimitive E (flushPrimitive E b fun _ => none) j0 j2 fresh = some b' ∧ b'.grid.shape = some s ∧ s.kind = .cube) ∧
    (∃ b' s, absorbLattice E (flushLattice E b fun _ => none) j0 j2 fresh = some b' ∧ b'.grid.shape = some s ∧ s.kind = .cube) := by
  constructor
  · obtain ⟨g, e, s, h1, h2⟩ := cubic_shape (E := E) (flushPrimitive E b fun _ => none).opts
      (by simp [flushPrimitive, Section.set, getKind, hg]) (getRef b.grid) j0 j2
    have hinf : (flushPrimitive E b fun _ => none).opts "InfLimits" = none := by
      cases hp : b.base.apply <;> cases hq : b.base.plot <;> simp [flushPrimitive, Section.set, flushSection, hp, hq]
    refine ⟨⟨absorbSection (flushPrimitive E b fun _ => none).opts Settings.fresh, g⟩, s, ?_, h1, h2⟩
    have e' : absorbAxes E (flushPrimitive E b fun _ => none).axes (absorbShape E (flushPrimitive E b fun _ => none).opts j0 j2 new) = some g := e
    simp only [absorbPrimitive, fresh, e', absorbInf, hinf, Option.bind_eq_bind, Option.bind_some]
  · obtain ⟨g, e, hc⟩ := cubic_shape (E := E) (flushLattice E b fun _ => none).opts
      (by simp [flushLattice, Section.set, getKind, hg]) (getRef b.grid) j0 j2
    obtain ⟨g', e2, s, h1, h2⟩ := cubic_inf hc (triple E ⟨0, 0, 0⟩ (E.print (getInf b.grid)))
    have hinf : (flushLattice E b fun _ => none).opts "InfLimits" = some (E.print (getInf b.grid)) := by simp [flushLattice, Section.set]
    refine ⟨⟨absorbSection (flushLattice E b fun _ => none).opts Settings.fresh, absorbDim E (flushLattice E b fun _ => none).opts g'⟩, s, ?_, ?_, h2⟩
    · have e' : absorbAxes E (flushLattice E b fun _ => none).axes (absorbShape E (flushLattice E b fun _ => none).opts j0 j2 new) = some g := e
      simp only [absorbLattice, fresh, e', absorbInf, hinf, e2, Option.bind_eq_bind, Option.bind_some]
    · unfold absorbDim
      split <;> exact h1

example : fresh.grid.shape = none := rfl

/-- C229: an axis that is missing in `RefSystem` is an exception, whereas one left blank is the axis of the world. -/
theorem C229_axis_fails (E : Env) (x : Sec) (a : Section) (hx : x.axes = some a) (hm : a "axis0" = none ∨ a "axis1" = none ∨ a "axis2" = none)
    (j0 j2 : ℝ) (b : Block) : absorbPrimitive E x j0 j2 b = none ∧ absorbLattice E x j0 j2 b = none := by
  have : readAxes E a = none := by
    unfold readAxes
    rcases hm with h | h | h <;> rw [h] <;> cases a "axis0" <;> cases a "axis1" <;> rfl
  simp [absorbPrimitive, absorbLattice, absorbAxes, hx, this]

example : (flushAxes letters M3.one) "axis3" = none ∧ (Section.set (fun _ => none) "axis0" ['x']) "axis1" = none := by
  simp [flushAxes, Section.set]

/-- C229: options that are missing leave the settings as they are. -/
theorem C229_absent (E : Env) (x : Sec) (ha : x.axes = none) (hs : x.opts "Shape" = none) (ho : x.opts "Origin" = none)
    (hv : x.opts "Span" = none) (hi : x.opts "InfLimits" = none) (hd : x.opts "Dimension" = none) (j0 j2 : ℝ) (b : Block) :
    (absorbPrimitive E x j0 j2 b).map Block.grid = some b.grid ∧ (absorbLattice E x j0 j2 b).map Block.grid = some b.grid := by
  simp [absorbPrimitive, absorbLattice, absorbAxes, absorbShape, absorbInf, absorbDim, ha, hs, ho, hv, hi, hd]

example : (⟨fun _ => none, none⟩ : Sec).opts "Shape" = none := rfl

end Verif.Prim
