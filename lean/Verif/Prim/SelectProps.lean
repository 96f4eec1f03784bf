import Verif.Prim.Select
import Verif.Prim.Props
/-
C230: a selection by shape, written in the dictionary and read back.  C231: the magnitudes of a vector field.
-/
namespace Verif.Prim
open Real Verif.Shape Verif.Xml

/-! ### C230 -/

theorem bit_read (b : Bool) : trim (bit b) ≠ [] ∧ readBool (trim (bit b)) = b := by cases b <;> decide

theorem axis_of {E : Env} {v : V3} (h : Survives E v) (x : Section) (key : String) (hx : x key = some (E.print v)) (d : V3) :
    axisOr E x key d = v := by
  unfold axisOr; rw [hx]; exact triple_of h d

/-- C230, partial (full statement: for all numbers): a selection by box, cylinder or sphere written and read into a new one of its class
has the dual choice, the origin, the dimensions, the axes and the lower limits it had, if the text of each number is read as the number. -/
theorem C230_roundtrip_partial {E : Env} {l : Sel} (h : Reach l.shape) (hk : l.shape.kind ≠ .wedge) (hw : Written E l.shape)
    (hi : Survives E l.shape.inf) :
    let l' := absorbSel E (flushSel E l fun _ => none) (freshSel l.shape.kind)
    l'.dual = l.dual ∧ l'.shape.kind = l.shape.kind ∧ l'.shape.origin = l.shape.origin ∧ getSpan l'.shape = getSpan l.shape ∧
      l'.shape.sdr = l.shape.sdr ∧ l'.shape.inf = l.shape.inf := by
  intro l'
  set s := l.shape with hs
  obtain ⟨hu, k, o, v, a, i⟩ := rebuilt h (basic s.kind) (.new _) rfl rfl
  set u := setRef3 (setSpan (setOrigin (basic s.kind) s.origin) (getSpan s)) s.sdr.r0 s.sdr.r1 s.sdr.r2 with hu'
  have hd : l'.dual = l.dual := by
    show (absorbSel E _ _).dual = _
    have : (flushSel E l fun _ => none).opts "Dual" = some (bit l.dual) := by
      unfold flushSel; simp only; split <;> simp [Section.set]
    simp only [absorbSel, this, if_neg (bit_read l.dual).1, (bit_read l.dual).2]
  have h1 : (flushSel E l fun _ => none).opts "Origin" = some (E.print s.origin) := by
    unfold flushSel; simp only; split <;> simp [Section.set, hs]
  have h2 : (flushSel E l fun _ => none).opts "Span" = some (E.print (getSpan s)) := by
    unfold flushSel; simp only; split <;> simp [Section.set, hs]
  have h3 : (flushSel E l fun _ => none).axes = some (flushAxes E s.sdr) := rfl
  have e : l'.shape = match (flushSel E l fun _ => none).opts "InfLimits" with
      | none => u
      | some t => if u.kind = .cube then u else setInfAll u (triple E ⟨0, 0, 0⟩ t) := by
    show (absorbSel E _ _).shape = _
    simp only [absorbSel, h1, h2, h3, triple_of hw.origin, triple_of hw.span]
    rw [axis_of hw.axis0 _ _ (by simp [flushAxes, Section.set]), axis_of hw.axis1 _ _ (by simp [flushAxes, Section.set]),
      axis_of hw.axis2 _ _ (by simp [flushAxes, Section.set])]
    rfl
  refine ⟨hd, ?_⟩
  by_cases hc : s.kind = .cube
  · have h4 : (flushSel E l fun _ => none).opts "InfLimits" = none := by
      unfold flushSel
      simp only [← hs, hc, if_true]
      cases hp : l.base.apply <;> cases hq : l.base.plot <;> simp [Section.set, flushSection, hp, hq]
    rw [h4] at e
    rw [e]
    exact ⟨k, o, v, a, i.trans ((C64_bounded h).1.flat (.inl hc)).symm⟩
  · have h4 : (flushSel E l fun _ => none).opts "InfLimits" = some (E.print s.inf) := by
      unfold flushSel
      simp only [← hs, hc, if_false]
      simp [Section.set]
    rw [h4] at e
    simp only [k, hc, if_false, triple_of hi] at e
    rw [e]
    exact relimited h hu k o v a i

example : Reach hollow ∧ hollow.kind ≠ .wedge ∧ Written letters hollow ∧ Survives letters hollow.inf := by
  refine ⟨hollow_reach, ?_, hollow_written, ?_⟩
  · have : hollow.kind = .cylinder := (Verif.Grid.setInf_other (construct .cylinder ⟨0, 0, 0⟩ ⟨1, 1, 1⟩) 1 0).1.trans
      (setSpan_fields (setOrigin (basic .cylinder) ⟨0, 0, 0⟩) ⟨1, 1, 1⟩).1
    rw [this]; simp
  · rw [hollow_has.2.2.2]; exact letters_survive.2.1

/-- C230: axes that are given, non-zero and orthogonal, are those of the shape; an axis that is missing is the one of the world. -/
theorem C230_axes {E : Env} {x : Sec} {a : Section} (hx : x.axes = some a) (hi : x.opts "InfLimits" = none) (l : Sel) {v0 v1 v2 : V3}
    (h0 : v0 = match a "axis0" with | none => ⟨1, 0, 0⟩ | some t => if trim t = [] then ⟨1, 0, 0⟩ else E.parse ⟨1, 0, 0⟩ (trim t))
    (h1 : v1 = match a "axis1" with | none => ⟨0, 1, 0⟩ | some t => if trim t = [] then ⟨0, 1, 0⟩ else E.parse ⟨0, 1, 0⟩ (trim t))
    (h2 : v2 = match a "axis2" with | none => ⟨0, 0, 1⟩ | some t => if trim t = [] then ⟨0, 0, 1⟩ else E.parse ⟨0, 0, 1⟩ (trim t))
    (hg : Verif.Grid.GoodAxes ⟨v0, v1, v2⟩) : (absorbSel E x l).shape.sdr = ⟨v0.unit, v1.unit, v2.unit⟩ := by
  have e0 : axisOr E a "axis0" M3.one.r0 = v0 := by rw [h0]; rfl
  have e1 : axisOr E a "axis1" M3.one.r1 = v1 := by rw [h1]; rfl
  have e2 : axisOr E a "axis2" M3.one.r2 = v2 := by rw [h2]; rfl
  simp only [absorbSel, hx, hi, e0, e1, e2]
  exact Verif.Grid.ref_good _ hg

example : Verif.Grid.GoodAxes ⟨⟨0, 1, 0⟩, ⟨-1, 0, 0⟩, ⟨0, 0, 1⟩⟩ := by simp [Verif.Grid.GoodAxes, dot]

/-- C230 does not hold if one axis alone is given and it is not one of the world: it is compared with the other two axes of the world, and
the axes of the shape stay as they are. -/
theorem C230_single_fails {E : Env} {x : Sec} {a : Section} (hx : x.axes = some a) (hi : x.opts "InfLimits" = none) (l : Sel) {t : Text}
    (h2 : a "axis2" = some t) (h0 : a "axis0" = none) (h1 : a "axis1" = none) {v : V3} (hv : triple E ⟨0, 0, 1⟩ t = v)
    (ho : |v.x| + |v.y| > norm2 v / 1000) (hn : v ≠ ⟨0, 0, 0⟩) : (absorbSel E x l).shape.sdr = l.shape.sdr := by
  have e0 : axisOr E a "axis0" M3.one.r0 = ⟨1, 0, 0⟩ := by unfold axisOr; rw [h0]; rfl
  have e1 : axisOr E a "axis1" M3.one.r1 = ⟨0, 1, 0⟩ := by unfold axisOr; rw [h1]; rfl
  have e2 : axisOr E a "axis2" M3.one.r2 = v := by unfold axisOr; rw [h2]; exact hv
  have hp : 0 < norm2 v := lt_of_le_of_ne (norm2_nonneg v) (fun h => hn (norm2_eq_zero.1 h.symm))
  have r : ∀ s : Shape, setRef3 s ⟨1, 0, 0⟩ ⟨0, 1, 0⟩ v = s := by
    intro s
    refine C63_refused s (.inr (.inr (.inr ?_)))
    have n0 : norm2 ⟨1, 0, 0⟩ = 1 := by simp [norm2, dot]
    have n1 : norm2 ⟨0, 1, 0⟩ = 1 := by simp [norm2, dot]
    rw [n0, n1]
    simp only [dot, one_mul, zero_mul, add_zero, zero_add, mul_zero, mul_one, abs_zero, zero_div]
    rw [← add_div, gt_iff_lt, lt_div_iff₀ hp]
    linarith
  have sp : ∀ (s : Shape) w, (setSpan s w).sdr = s.sdr := fun s w => (setSpan_fields s w).2.2.1
  simp only [absorbSel, hx, hi, e0, e1, e2, r]
  cases x.opts "Span" <;> cases x.opts "Origin" <;> simp [sp, setOrigin]

example : |(⟨1, 0, 0⟩ : V3).x| + |(⟨1, 0, 0⟩ : V3).y| > norm2 ⟨1, 0, 0⟩ / 1000 := by simp [norm2, dot]; norm_num

/-! ### C231 -/
open Verif.Field

theorem magn_loop : ∀ (d : Data V3) (r : Data ℝ), (d.map Prod.fst).Nodup → (∀ e ∈ d, ∀ q ∈ r, e.1 ≠ q.1) →
    magnLoop d r = some (r ++ d.map (fun e => (e.1, norm2 e.2)))
  | [], r, _, _ => by simp [magnLoop]
  | e :: d, r, hn, hd => by
    simp only [List.map_cons, List.nodup_cons] at hn
    have : has r e.1 = false := by
      simp only [has, List.any_eq_false, beq_iff_eq]
      intro q hq h
      exact hd e (by simp) q hq h.symm
    simp only [magnLoop, ins, this, Bool.false_eq_true, if_false, Option.bind_some]
    rw [magn_loop d _ hn.2]
    · simp
    · intro e' he' q hq
      rcases List.mem_append.1 hq with hq | hq
      · exact hd e' (by simp [he']) q hq
      · simp only [List.mem_singleton] at hq
        subst hq
        intro h
        exact hn.1 (h ▸ List.mem_map_of_mem he')

/-- C231: the result has the geometry and the location of the input, the same ids in the same order, and for each the length of its
vector, whatever the earlier result; the input stays. -/
theorem C231_magnitude {m : Magn} (hn : (m.field.data.map Prod.fst).Nodup) : ∃ m', magnExecute m = some m' ∧ m'.field = m.field ∧
    m'.result.geo = m.field.geo ∧ m'.result.loc = m.field.loc ∧ m'.result.data.map Prod.fst = m.field.data.map Prod.fst ∧
    ∀ id v, (id, v) ∈ m.field.data → ∃ r, (id, r) ∈ m'.result.data ∧ 0 ≤ r ∧ r ^ 2 = v.x ^ 2 + v.y ^ 2 + v.z ^ 2 := by
  have e := magn_loop m.field.data [] hn (by simp)
  refine ⟨⟨m.field, ⟨m.field.geo, defaultName, m.field.loc, [] ++ m.field.data.map (fun e => (e.1, norm2 e.2))⟩⟩,
    by simp only [magnExecute, clear]; rw [e]; rfl, rfl, rfl, rfl, ?_, ?_⟩
  · simp [Function.comp_def]
  · intro id v hv
    refine ⟨norm2 v, ?_, norm2_nonneg v, ?_⟩
    · simp only [List.nil_append, List.mem_map]
      exact ⟨(id, v), hv, rfl⟩
    · unfold norm2
      rw [Real.sq_sqrt]
      · simp only [dot]; ring
      · simp only [dot]; nlinarith [sq_nonneg v.x, sq_nonneg v.y, sq_nonneg v.z]

example : ((⟨none, [], .point, [(7, ⟨3, 4, 0⟩), (2, ⟨0, 0, 0⟩)]⟩ : Field Geo V3).data.map Prod.fst).Nodup := by simp

/-- C231: a field given again replaces the earlier one entirely; no field given leaves it. -/
theorem C231_given {m : Magn} (f : Field Geo V3) (hn : (f.data.map Prod.fst).Nodup) :
    ∃ m', magnExecute (setField (some f) m) = some m' ∧ m'.result.data.map Prod.fst = f.data.map Prod.fst ∧ m'.result.geo = f.geo ∧
      magnExecute (setField none m') = some m' := by
  have e := magn_loop f.data [] hn (by simp)
  refine ⟨⟨f, ⟨f.geo, defaultName, f.loc, [] ++ f.data.map (fun e => (e.1, norm2 e.2))⟩⟩,
    by simp only [magnExecute, setField, clear]; rw [e]; rfl, ?_, rfl, ?_⟩
  · simp [Function.comp_def]
  · simp only [magnExecute, setField, clear]; rw [e]; rfl

end Verif.Prim
