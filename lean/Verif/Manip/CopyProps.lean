import Verif.Manip.ApplyMain
/-
C86 (copies of blocks), C87 (ApplyFilter), and cases that meet the hypotheses of C84-C87.
-/
namespace Verif.Manip
open Verif.Field Verif.Mesh Verif.Shape
open List hiding get

noncomputable section
open scoped Classical

/-- the run of a block does not depend on the displacements it holds -/
theorem run_copy (w : World) (b : Block) (value : Obj V3 → V3 → ℝ → V3) :
    (b.copy.run w value).map Block.displ = (b.run w value).map Block.displ := by
  unfold Block.run
  have h1 : b.copy.geom = b.geom := rfl
  have h2 : b.copy.filter = b.filter := rfl
  rw [h1, h2]

/-- C86: a copy of a transformation block computes the displacements of the original. -/
theorem C86_translation (w : World) (t : Translation) :
    (t.copy.execute w).map (fun x => x.displ) = (t.execute w).map (fun x => x.displ) := by
  have := (run_copy w t.toBlock t.value)
  simp only [Translation.execute, Option.map_map]
  exact this

theorem C86_rotation (w : World) (t : Rotation) :
    (t.copy.execute w).map (fun x => x.displ) = (t.execute w).map (fun x => x.displ) := by
  have := (run_copy w t.toBlock t.value)
  simp only [Rotation.execute, Option.map_map]
  exact this

theorem C86_scale (w : World) (t : Scale) :
    (t.copy.execute w).map (fun x => x.displ) = (t.execute w).map (fun x => x.displ) := by
  have := (run_copy w t.toBlock t.value)
  simp only [Scale.execute, Option.map_map]
  exact this

theorem C86_twist (w : World) (t : Twist) :
    (t.copy.execute w).map (fun x => x.displ) = (t.execute w).map (fun x => x.displ) := by
  have := (run_copy w t.toBlock t.value)
  simp only [Twist.execute, Option.map_map]
  exact this

theorem C86_bend (w : World) (t : Bend) :
    (t.copy.execute w).map (fun x => x.displ) = (t.execute w).map (fun x => x.displ) := by
  have := run_copy w t.toBlock t.value
  simp only [Bend.execute, Option.map_map]
  exact this

/-- replaces what `execute` only writes -/
def upd (o : Field Nat V3) (v c : Field Nat Nat) (a : Apply) : Apply := { a with output := o, vertAnn := v, cellAnn := c }

theorem checkVector_upd (w : World) (g : Nat) (o : Field Nat V3) (v c : Field Nat Nat) (a : Apply) :
    (upd o v c a).checkVector w g = (a.checkVector w g).map (fun r => (upd o v c r.1, r.2)) := by
  have h1 : (upd o v c a).input = a.input := rfl
  unfold Apply.checkVector
  rw [h1]
  by_cases h : a.input.data.length = 0
  · rw [if_pos h, if_pos h]; rfl
  · rw [if_neg h, if_neg h]
    by_cases h : a.input.loc = .point ∧ a.input.geo = some g
    · rw [if_pos h, if_pos h]; simp only [Option.map_map]; rfl
    · rw [if_neg h, if_neg h]; rfl

theorem checkScalar_upd (w : World) (nrm : Nat → Nat → Option V3) (g : Nat) (o : Field Nat V3) (v c : Field Nat Nat)
    (a : Apply) (b : Bool) :
    (upd o v c a).checkScalar w nrm g b = (a.checkScalar w nrm g b).map (fun r => (upd o v c r.1, r.2)) := by
  have h1 : (upd o v c a).scalar = a.scalar := rfl
  unfold Apply.checkScalar
  rw [h1]
  by_cases h : a.scalar.data.length = 0
  · rw [if_pos h, if_pos h]; rfl
  · rw [if_neg h, if_neg h]
    by_cases h : a.scalar.loc = .point ∧ (w g).type = 1 ∧ a.scalar.geo = some g
    · rw [if_pos h, if_pos h]
      cases completeIn w a.scalar 0 with
      | none => rfl
      | some r =>
        obtain ⟨s, b⟩ := r
        cases b with
        | false => rfl
        | true => simp only [Option.map_map]; rfl
    · rw [if_neg h, if_neg h]; rfl

theorem checkFilter_upd (w : World) (g : Nat) (o : Field Nat V3) (v c : Field Nat Nat)
    (a : Apply) (b : Bool) :
    (upd o v c a).checkFilter w g b = (a.checkFilter w g b).map (fun r => (upd o v c r.1, r.2)) := by
  have h1 : (upd o v c a).filter = a.filter := rfl
  have h2 : (upd o v c a).input = a.input := rfl
  unfold Apply.checkFilter
  rw [h1, h2]
  by_cases h : a.filter.data.length = 0
  · rw [if_pos h, if_pos h]; rfl
  · rw [if_neg h, if_neg h]
    simp only
    by_cases h : a.filter.loc = .point ∧ (w g).type = 1
    · rw [if_pos h, if_pos h]
      cases completeIn w { a.filter with geo := some g } 0 with
      | none => rfl
      | some r =>
        obtain ⟨s, b⟩ := r
        cases b with
        | false => rfl
        | true => simp only [Option.map_map]; rfl
    · rw [if_neg h, if_neg h]; rfl

theorem checkInput_upd (w : World) (nrm : Nat → Nat → Option V3) (g : Nat) (o : Field Nat V3) (v c : Field Nat Nat)
    (a : Apply) : (upd o v c a).checkInput w nrm g = (a.checkInput w nrm g).map (upd o v c) := by
  unfold Apply.checkInput
  rw [checkVector_upd]
  cases a.checkVector w g with
  | none => rfl
  | some r1 =>
    simp only [Option.map_some, Option.bind_some]
    rw [checkScalar_upd]
    cases r1.1.checkScalar w nrm g r1.2 with
    | none => rfl
    | some r2 =>
      simp only [Option.map_some, Option.bind_some]
      rw [checkFilter_upd]
      cases r2.1.checkFilter w g r2.2 with
      | none => rfl
      | some r3 =>
        simp only [Option.map_some, Option.bind_some]
        split
        · rfl
        · simp only [Option.map_map]; rfl

theorem execute_upd (w : World) (nrm : Nat → Nat → Option V3) (o : Field Nat V3) (v c : Field Nat Nat)
    (a : Apply) : ((upd o v c a).execute w nrm).map Prod.snd = (a.execute w nrm).map Prod.snd := by
  unfold Apply.execute
  have : (upd o v c a).geom = a.geom := rfl
  rw [this]
  cases a.geom with
  | none => rfl
  | some g =>
    simp only
    rw [checkInput_upd]
    cases a.checkInput w nrm g with
    | none => rfl
    | some a1 =>
      simp only [Option.map_some, Option.bind_some]
      have h1 : (upd o v c a1).factor = a1.factor := rfl
      have h2 : (upd o v c a1).input = a1.input := rfl
      rw [h1, h2]
      cases moveLoop a1.factor a1.input.data ((w g).verts.map Prod.fst) (a1.input.data, w g) with
      | none => rfl
      | some s => simp only [Option.bind_some, Option.map_map]; rfl

/-- C86: a copy of an Apply block without filter moves every geometry as the original does. -/
theorem C86_apply_partial (w : World) (nrm : Nat → Nat → Option V3) (a : Apply) (hf : a.filter = make none .undefined) :
    (a.copy.execute w nrm).map Prod.snd = (a.execute w nrm).map Prod.snd := by
  have : a.copy = upd (make none .undefined) (make none .undefined) (make none .undefined) a := by
    unfold Apply.copy Apply.new upd
    rw [← hf]
  rw [this, execute_upd]

/-- C86 fails for Apply with a filter: the filter is not copied, the copy moves the vertices by the unfiltered
displacement. -/
theorem C86_apply_fails {w : World} (hw : WorldOk w) (nrm : Nat → Nat → Option V3) {a : Apply} {g : Nat}
    (hg : a.geom = some g) (hs : Updatable (w g)) (hu : Usable w g a.input) (hne : a.input.data ≠ [])
    (hi : Ok a.input.data) (hsc : a.scalar.data = []) (hf : Ok a.filter.data) (hfil : GoodFilter w g a.filter) :
    ∃ a' w' c' u, a.execute w nrm = some (a', w') ∧ a.copy.execute w nrm = some (c', u) ∧
      ∀ id p v, get (w g).verts id = some p → get a.input.data id = some v →
        get (w' g).verts id = some (p + V3.scale a.factor (V3.scale (applyWeight a.filter id) v)) ∧
        get (u g).verts id = some (p + V3.scale a.factor v) := by
  obtain ⟨a', w', h1, h2, -⟩ := C84_vector_partial hw nrm hg hs hu hne hi hsc hf hfil
  obtain ⟨c', u, k1, k2, -⟩ := C84_vector_partial hw nrm (a := a.copy) hg hs hu hne hi hsc nodup_nil (.inl rfl)
  refine ⟨a', w', c', u, h1, k1, ?_⟩
  intro id p v hp hv
  have e1 := h2.moves id p hp
  have e2 := k2.moves id p hp
  rw [hv] at e1
  have : get a.copy.input.data id = some v := hv
  rw [this] at e2
  refine ⟨e1, ?_⟩
  rw [e2]
  have : applyWeight a.copy.filter id = 1 := by simp [applyWeight, Apply.copy, Apply.new, make]
  rw [this, scale_one]; rfl

/-! ## ApplyFilter -/

/-- specification: the geometry ApplyFilter works on: its own if it has one, else the one of the input -/
def target (a : Apply) (inputGeo : Option Nat) : Option Nat :=
  match a.geom with
  | some g => some g
  | none => inputGeo

/-- specification: points, all of them vertices of the geometry -/
def OnPoints {α : Type} (w : World) (g : Nat) (f : Field Nat α) : Prop :=
  f.loc = .point ∧ ∀ e ∈ f.data, ∃ p, get (w g).verts e.1 = some p

theorem checkFilterF_vec {w : World} (hw : WorldOk w) {a : Apply} {g : Nat} (v : Nat → V3)
    (hf : Ok a.filter.data) (hfil : a.filter.data = [] ∨ OnPoints w g a.filter)
    (hH : Holds w g a.input.data v) :
    ∃ a1 : Apply, a.checkFilterF w (some g) true = some (a1, true) ∧
      a1 = { a with input := a1.input, filter := a1.filter } ∧ a1.input.geo = a.input.geo ∧ a1.input.loc = a.input.loc ∧
      a1.input.data.map Prod.fst = a.input.data.map Prod.fst ∧
      Holds w g a1.input.data (fun id => V3.scale (applyWeight a.filter id) (v id)) ∧ Ok a1.filter.data ∧
      (a1.filter.data = [] ∨ OnPoints w g a1.filter) ∧
      (∀ id p, get (w g).verts id = some p → applyWeight a1.filter id = applyWeight a.filter id) := by
  have hHH := holds_iff.1 hH
  unfold Apply.checkFilterF
  by_cases he : a.filter.data = []
  · refine ⟨a, by simp [he], rfl, rfl, rfl, rfl, ?_, hf, .inl he, fun _ _ _ => rfl⟩
    intro id
    simp only [hH id, applyWeight, he, if_true, scale_one]
  · have hlen : ¬ a.filter.data.length = 0 := fun h => he (length_eq_zero_iff.1 h)
    obtain ⟨hl, hids⟩ := hfil.resolve_left he
    obtain ⟨f', c1, c2, c3, -, c5, c6, c7⟩ := completeIn_ok hw (f := { a.filter with geo := some g }) hf (0 : ℝ) hl rfl hids
    obtain ⟨d', l1, l2, l3⟩ := filterLoop_spec f'.data (applyWeight a.filter) v ((w g).verts.map Prod.fst) a.input.data
      (hw.verts g) (by
        intro id hid
        obtain ⟨p, hp⟩ := mem_ids.1 hid
        rw [c6 id p hp, applyWeight, if_neg he]) (by
        intro id hid
        obtain ⟨p, hp⟩ := mem_ids.1 hid
        exact hHH.1 id p hp)
    rw [if_neg hlen]
    simp only [hl, if_true] at c1 ⊢
    rw [c1]
    simp only [l1, Option.map_some]
    refine ⟨_, rfl, rfl, rfl, rfl, l2, holds_iff.2 ⟨?_, ?_⟩, c5, .inr ⟨c3, ?_⟩, ?_⟩
    · intro id p hp
      rw [l3, if_pos (mem_ids.2 ⟨p, hp⟩)]
    · intro id hn
      rw [l3, if_neg ((get_none_iff _ _).1 hn)]
      exact hHH.2 id hn
    · intro e hee
      have := get_of_mem c5 (show (e.1, e.2) ∈ f'.data from hee)
      cases hp : get (w g).verts e.1 with
      | none => rw [c7 _ hp] at this; cases this
      | some p => exact ⟨p, rfl⟩
    · intro id p hp
      have h0 : f'.data ≠ [] := by
        intro h; have := c6 id p hp; rw [h] at this; cases this
      simp only [applyWeight, h0, he, if_false, c6 id p hp]; rfl

theorem output_holds {w : World} {g : Nat} {d : Data V3} {v : Nat → V3} (h : Holds w g d v) (k : ℝ) :
    Holds w g (d.map (fun e => (e.1, V3.scale k e.2))) (fun id => V3.scale k (v id)) := by
  intro id
  rw [get_map_val d (fun _ x => V3.scale k x), h id, Option.map_map]
  rfl

/-- C87, with what the block holds afterwards -/
theorem filter_core {w : World} (hw : WorldOk w) (nrm : Nat → Nat → Option V3) {a : Apply} {g : Nat}
    (hg : target a a.input.geo = some g) (hu : OnPoints w g a.input) (hne : a.input.data ≠ []) (hi : Ok a.input.data)
    (hsc : a.scalar.data = []) (hf : Ok a.filter.data) (hfil : a.filter.data = [] ∨ OnPoints w g a.filter) :
    ∃ a' : Apply, a.executeFilter w nrm = some a' ∧ a'.output.geo = some g ∧ a'.output.loc = .point ∧
      Holds w g a'.output.data (fun id =>
        V3.scale a.factor (V3.scale (applyWeight a.filter id) ((get a.input.data id).getD ⟨0, 0, 0⟩))) ∧
      Holds w g a'.input.data (fun id => V3.scale (applyWeight a.filter id) ((get a.input.data id).getD ⟨0, 0, 0⟩)) ∧
      Ok a'.input.data ∧ a'.input.geo = some g ∧ a'.input.loc = .point ∧ Ok a'.filter.data ∧
      (a'.filter.data = [] ∨ OnPoints w g a'.filter) ∧
      (∀ id p, get (w g).verts id = some p → applyWeight a'.filter id = applyWeight a.filter id) ∧
      a'.geom = a.geom ∧ a'.factor = a.factor ∧ a'.scalar = a.scalar := by
  have hlen : ¬ a.input.data.length = 0 := fun h => hne (length_eq_zero_iff.1 h)
  obtain ⟨inp, hinp, hid, hil, hig, hlg⟩ : ∃ inp : Field Nat V3,
      inp = (if a.geom = none then a.input else { a.input with geo := a.geom }) ∧ inp.data = a.input.data ∧
      inp.loc = a.input.loc ∧ inp.geo = some g ∧ (if a.geom = none then a.input.geo else a.geom) = some g := by
    refine ⟨_, rfl, ?_⟩
    unfold target at hg
    cases hgg : a.geom with
    | none => rw [hgg] at hg; simpa using hg
    | some k => rw [hgg] at hg; simpa using hg
  obtain ⟨f', c1, c2, c3, -, c5, c6, c7⟩ := completeIn_ok hw (f := inp) (by rw [hid]; exact hi) (⟨0, 0, 0⟩ : V3)
    (by rw [hil]; exact hu.1) hig (by rw [hid]; exact hu.2)
  rw [hid] at c6
  have hv : a.checkVectorF w = some ({ a with input := f' }, some g, true) := by
    unfold Apply.checkVectorF
    rw [if_neg hlen]
    simp only [← hinp, hlg]
    rw [if_pos (by rw [hil]; exact hu.1), c1]
    rfl
  obtain ⟨a1, k1, k2, k3, k4, k5, k6, k7, k8, k9⟩ := checkFilterF_vec hw (a := { a with input := f' }) (g := g) _ hf hfil
    (holds_iff.2 ⟨c6, c7⟩)
  have hfac : a1.factor = a.factor := by rw [k2]
  refine ⟨{ a1 with output := { a1.input with data := a1.input.data.map (fun e => (e.1, V3.scale a1.factor e.2)) } },
    ?_, by simp only; rw [k3]; exact c2, by simp only; rw [k4]; exact c3, ?_, k6,
    ok_of_keys k5 c5, by simp only; rw [k3]; exact c2, by simp only; rw [k4]; exact c3, k7, k8, k9, by simp only; rw [k2],
    hfac, by simp only; rw [k2]⟩
  · unfold Apply.executeFilter
    rw [hv]
    simp only [Option.bind_some, Apply.checkScalarF, hsc, length_nil, if_true, k1]
  · have := output_holds k6 a.factor
    simp only [hfac]
    exact this

/-- C87: ApplyFilter returns, for every vertex of the geometry, factor · filter · displacement, on geometries of every
type; a filter or displacement that is missing counts as 0, no filter as 1; geometries are not touched. -/
theorem C87_filter_partial {w : World} (hw : WorldOk w) (nrm : Nat → Nat → Option V3) {a : Apply} {g : Nat}
    (hg : target a a.input.geo = some g) (hu : OnPoints w g a.input) (hne : a.input.data ≠ []) (hi : Ok a.input.data)
    (hsc : a.scalar.data = []) (hf : Ok a.filter.data) (hfil : a.filter.data = [] ∨ OnPoints w g a.filter) :
    ∃ a' : Apply, a.executeFilter w nrm = some a' ∧ a'.output.geo = some g ∧ a'.output.loc = .point ∧
      Holds w g a'.output.data (fun id =>
        V3.scale a.factor (V3.scale (applyWeight a.filter id) ((get a.input.data id).getD ⟨0, 0, 0⟩))) := by
  obtain ⟨a', h1, h2, h3, h4, -⟩ := filter_core hw nrm hg hu hne hi hsc hf hfil
  exact ⟨a', h1, h2, h3, h4⟩

/-- C87 fails for repeated executions: the second output is factor · filter² · displacement. -/
theorem C87_again_fails {w : World} (hw : WorldOk w) (nrm : Nat → Nat → Option V3) {a : Apply} {g : Nat}
    (hg : target a a.input.geo = some g) (hu : OnPoints w g a.input) (hne : a.input.data ≠ []) (hi : Ok a.input.data)
    (hsc : a.scalar.data = []) (hf : Ok a.filter.data) (hfil : a.filter.data = [] ∨ OnPoints w g a.filter)
    {a' : Apply} (he : a.executeFilter w nrm = some a') :
    ∃ a'' : Apply, a'.executeFilter w nrm = some a'' ∧
      ∀ id p v, get (w g).verts id = some p → get a.input.data id = some v → get a''.output.data id =
        some (V3.scale a.factor (V3.scale (applyWeight a.filter id) (V3.scale (applyWeight a.filter id) v))) := by
  obtain ⟨b, h1, h2, h3, h4, h5, h6, h7, h8, h9, h10, h11, h12, h13, h14⟩ := filter_core hw nrm hg hu hne hi hsc hf hfil
  rw [he] at h1; cases h1
  have hHin := holds_iff.1 h5
  have ht : target a' a'.input.geo = some g := by
    unfold target at hg ⊢
    rw [h12, h7]
    cases hgg : a.geom with
    | none => rfl
    | some k => rw [hgg] at hg; exact hg
  have hids : ∀ e ∈ a'.input.data, ∃ p, get (w g).verts e.1 = some p := by
    intro e hee
    have := get_of_mem h6 (show (e.1, e.2) ∈ a'.input.data from hee)
    cases hp : get (w g).verts e.1 with
    | none => rw [hHin.2 _ hp] at this; cases this
    | some p => exact ⟨p, rfl⟩
  have hne' : a'.input.data ≠ [] := by
    obtain ⟨e, he'⟩ := exists_mem_of_ne_nil _ hne
    obtain ⟨p, hp⟩ := hu.2 e he'
    intro h
    have := hHin.1 _ p hp
    rw [h] at this; cases this
  obtain ⟨a'', k1, -, -, k4, -⟩ := filter_core hw nrm (a := a') ht ⟨h8, hids⟩ hne' h6 (by rw [h14]; exact hsc) h9 h10
  refine ⟨a'', k1, ?_⟩
  intro id p v hp hv
  have := (holds_iff.1 k4).1 id p hp
  rw [h13, h11 id p hp, hHin.1 id p hp, hv] at this
  exact this

/-- C87: a displacement field that is not on points, or has ids that are not vertices, is refused (exception), and so is
a block without input. -/
theorem C87_refused {w : World} (nrm : Nat → Nat → Option V3) {a : Apply} {g : Nat}
    (hg : target a a.input.geo = some g) (hu : a.input.data = [] ∨ ¬ OnPoints w g a.input)
    (hsc : a.scalar.data = []) (hf : a.filter.data = []) : a.executeFilter w nrm = none := by
  obtain ⟨a1, lg, h1, h2⟩ : ∃ (a1 : Apply) (lg : Option Nat), a.checkVectorF w = some (a1, lg, false) ∧
      a1 = { a with input := a1.input } := by
    unfold Apply.checkVectorF
    by_cases he : a.input.data.length = 0
    · exact ⟨a, a.geom, by rw [if_pos he], rfl⟩
    · rw [if_neg he]
      have hu : ¬ OnPoints w g a.input := hu.resolve_left (fun h => he (by rw [h]; rfl))
      obtain ⟨inp, hinp, hid, hil, hig⟩ : ∃ inp : Field Nat V3,
          inp = (if a.geom = none then a.input else { a.input with geo := a.geom }) ∧ inp.data = a.input.data ∧
          inp.loc = a.input.loc ∧ inp.geo = some g := by
        refine ⟨_, rfl, ?_⟩
        unfold target at hg
        cases hgg : a.geom with
        | none => rw [hgg] at hg; simpa using hg
        | some k => rw [hgg] at hg; simpa using hg
      simp only [← hinp, hil]
      by_cases hl : a.input.loc = .point
      · rw [if_pos hl, completeIn_no _ (by rw [hil]; exact hl) (.inr ⟨g, hig, ?_⟩)]
        · exact ⟨_, _, rfl, rfl⟩
        · by_contra hno
          apply hu
          refine ⟨hl, ?_⟩
          intro e he'
          cases hp : get (w g).verts e.1 with
          | none => exact absurd ⟨e, by rw [hid]; exact he', hp⟩ hno
          | some p => exact ⟨p, rfl⟩
      · rw [if_neg hl]
        exact ⟨_, _, rfl, rfl⟩
  have hse : a1.scalar = a.scalar := by rw [h2]
  have hfe : a1.filter = a.filter := by rw [h2]
  unfold Apply.executeFilter
  rw [h1]
  simp only [Option.bind_some, Apply.checkScalarF, hse, hsc, length_nil, if_true, Apply.checkFilterF, hfe, hf,
    Bool.false_eq_true, if_false]

/-! ## Cases that meet the hypotheses -/

theorem demo_updatable : Updatable demoObj :=
  ⟨⟨by simp [demoObj], by simp [demoObj]⟩, by decide⟩

/-- displacements for two of the three vertices, a filter for two of them, factor 2, annotations -/
def demoApply : Apply :=
  { Apply.new [] [] with
    geom := some 0
    input := ⟨some 0, defaultName, .point, [(4, ⟨1, 0, 0⟩), (7, ⟨0, 3, 0⟩)]⟩
    filter := ⟨none, defaultName, .point, [(4, 1 / 2), (0, 5)]⟩
    factor := 2
    annotation := true }

theorem demoApply_ok : Usable demoWorld 0 demoApply.input ∧ demoApply.input.data ≠ [] ∧ Ok demoApply.input.data ∧
    demoApply.scalar.data = [] ∧ Ok demoApply.filter.data ∧ GoodFilter demoWorld 0 demoApply.filter := by
  refine ⟨⟨rfl, rfl, ?_⟩, by simp [demoApply], by simp [Ok, demoApply], rfl, by simp [Ok, demoApply],
    .inr ⟨rfl, rfl, ?_⟩⟩
  · simp [demoApply, demoWorld, demoObj, Verif.Field.get]
  · simp [demoApply, demoWorld, demoObj, Verif.Field.get]

/-- vertex 4 moves by 2 · 1/2 · (1, 0, 0); vertex 7 has no filter value and stays, as does vertex 0 -/
example : ∃ a' w', demoApply.execute demoWorld (fun _ _ => none) = some (a', w') ∧
    get (w' 0).verts 4 = some ⟨2, 0, 0⟩ ∧ get (w' 0).verts 7 = some ⟨0, 2, 0⟩ ∧ get (w' 0).verts 0 = some ⟨0, 0, 0⟩ := by
  obtain ⟨h1, h2, h3, h4, h5, h6⟩ := demoApply_ok
  obtain ⟨a', w', e1, e2, -⟩ := C84_vector_partial demoWorld_ok (fun _ _ => none) (a := demoApply) (g := 0) rfl
    demo_updatable h1 h2 h3 h4 h5 h6
  refine ⟨a', w', e1, ?_, ?_, ?_⟩
  · rw [e2.moves 4 ⟨1, 0, 0⟩ (by simp [demoWorld, demoObj, Verif.Field.get])]
    congr 1
    ext <;> simp [demoApply, applyWeight, V3.scale, Verif.Field.get] <;> norm_num
  · rw [e2.moves 7 ⟨0, 2, 0⟩ (by simp [demoWorld, demoObj, Verif.Field.get])]
    congr 1
    ext <;> simp [demoApply, applyWeight, V3.scale, Verif.Field.get] <;> norm_num
  · rw [e2.moves 0 ⟨0, 0, 0⟩ (by simp [demoWorld, demoObj, Verif.Field.get])]
    congr 1
    ext <;> simp [demoApply, applyWeight, V3.scale, Verif.Field.get] <;> norm_num

/-- the second execution moves vertex 4 by 2 · 1/4 only -/
example : ∃ a' w' a'' w'', demoApply.execute demoWorld (fun _ _ => none) = some (a', w') ∧
    a'.execute w' (fun _ _ => none) = some (a'', w'') ∧ get (w'' 0).verts 4 = some ⟨5 / 2, 0, 0⟩ := by
  obtain ⟨h1, h2, h3, h4, h5, h6⟩ := demoApply_ok
  obtain ⟨a', w', e1, e2, -⟩ := C84_vector_partial demoWorld_ok (fun _ _ => none) (a := demoApply) (g := 0) rfl
    demo_updatable h1 h2 h3 h4 h5 h6
  obtain ⟨a'', w'', f1, f2⟩ := C84_again_fails demoWorld_ok (fun _ _ => none) (a := demoApply) (g := 0) rfl
    demo_updatable h1 h2 h3 h4 h5 h6 e1
  refine ⟨a', w', a'', w'', e1, f1, ?_⟩
  have := e2.moves 4 ⟨1, 0, 0⟩ (by simp [demoWorld, demoObj, Verif.Field.get])
  rw [f2 4 _ this]
  congr 1
  ext <;> simp [demoApply, applyWeight, V3.scale, Verif.Field.get] <;> norm_num

/-- scalar displacement along the normals -/
example : ∃ a' w', ({ demoApply with
      scalar := ⟨some 0, defaultName, .point, [(7, 3)]⟩
      filter := make none .undefined } : Apply).execute demoWorld
      (fun _ _ => some ⟨0, 0, 1⟩) = some (a', w') ∧ get (w' 0).verts 7 = some ⟨0, 2, 6⟩ ∧
    get (w' 0).verts 4 = some ⟨1, 0, 0⟩ := by
  obtain ⟨a', w', e1, e2, -⟩ := C84_scalar_partial demoWorld_ok (nrm := fun _ _ => some ⟨0, 0, 1⟩)
    (a := { demoApply with
      scalar := ⟨some 0, defaultName, .point, [(7, 3)]⟩
      filter := make none .undefined }) (g := 0) rfl demo_updatable
    ⟨rfl, rfl, by simp [demoWorld, demoObj, Verif.Field.get]⟩ (by simp) (by simp [Ok]) (by simp [Ok, demoApply]) rfl
    (fun _ => ⟨0, 0, 1⟩) (fun _ _ _ => rfl) nodup_nil (.inl rfl)
  refine ⟨a', w', e1, ?_, ?_⟩
  · rw [e2.moves 7 ⟨0, 2, 0⟩ (by simp [demoWorld, demoObj, Verif.Field.get])]
    congr 1
    ext <;> simp [demoApply, applyWeight, V3.scale, Verif.Field.get, make] <;> norm_num
  · rw [e2.moves 4 ⟨1, 0, 0⟩ (by simp [demoWorld, demoObj, Verif.Field.get])]
    congr 1
    ext <;> simp [demoApply, applyWeight, V3.scale, Verif.Field.get, make] <;> norm_num

/-- a volume mesh: the same block moves nothing -/
def demoVolume : World := fun _ => { demoObj with type := 2 }

example : WorldOk demoVolume ∧ Updatable (demoVolume 0) ∧ demoApply.filter.data ≠ [] ∧ (demoVolume 0).type ≠ 1 :=
  ⟨⟨fun _ => by simp [Ok, demoVolume, demoObj], fun _ => by simp [Ok, demoVolume, demoObj]⟩,
    ⟨⟨by simp [demoVolume, demoObj], by simp [demoVolume, demoObj]⟩, by decide⟩, by simp [demoApply],
    by simp [demoVolume, demoObj]⟩

/-- a filter alone: undefined behaviour -/
example : ({ demoApply with input := make none .undefined } : Apply).execute demoWorld (fun _ _ => none) = none :=
  C84_filter_alone_fails demoWorld_ok _ (g := 0) rfl rfl rfl demoApply_ok.2.2.2.2.1 (by simp [demoApply])
    demoApply_ok.2.2.2.2.2

/-- a copy moves vertex 4 by the whole displacement -/
example : ∃ c' u, demoApply.copy.execute demoWorld (fun _ _ => none) = some (c', u) ∧
    get (u 0).verts 4 = some ⟨3, 0, 0⟩ := by
  obtain ⟨h1, h2, h3, h4, h5, h6⟩ := demoApply_ok
  obtain ⟨a', w', c', u, -, e2, e3⟩ := C86_apply_fails demoWorld_ok (fun _ _ => none) (a := demoApply) (g := 0) rfl
    demo_updatable h1 h2 h3 h4 h5 h6
  refine ⟨c', u, e2, ?_⟩
  rw [(e3 4 ⟨1, 0, 0⟩ ⟨1, 0, 0⟩ (by simp [demoWorld, demoObj, Verif.Field.get])
    (by simp [demoApply, Verif.Field.get])).2]
  congr 1
  ext <;> norm_num [demoApply, V3.scale]

/-- annotations of the demo: vertex 4 and the triangle -/
example : ∃ a' w', demoApply.execute demoWorld (fun _ _ => none) = some (a', w') ∧
    get a'.vertAnn.data 4 = some 4 ∧ get a'.vertAnn.data 7 = none ∧ get a'.cellAnn.data 3 = some 3 := by
  obtain ⟨h1, h2, h3, h4, h5, h6⟩ := demoApply_ok
  obtain ⟨a', w', e1, e2, -⟩ := C84_vector_partial demoWorld_ok (fun _ _ => none) (a := demoApply) (g := 0) rfl
    demo_updatable h1 h2 h3 h4 h5 h6
  obtain ⟨D, d1, d2⟩ := C85_vector demoWorld_ok (fun _ _ => none) (a := demoApply) (g := 0) rfl
    demo_updatable h1 h2 h3 h4 h5 h6 rfl e1
  have q4 : D 4 = ⟨1, 0, 0⟩ := by
    have hp : get (demoWorld 0).verts 4 = some ⟨1, 0, 0⟩ := by simp [demoWorld, demoObj, Verif.Field.get]
    have a1 := e2.moves 4 _ hp
    have a2 := d1.moves 4 _ hp
    rw [a1] at a2
    have a3 := Option.some.inj a2
    have x := congrArg V3.x a3
    have y := congrArg V3.y a3
    have z := congrArg V3.z a3
    ext
    · simp [demoApply, applyWeight, V3.scale, Verif.Field.get] at x; simp; linarith
    · simp [demoApply, applyWeight, V3.scale, Verif.Field.get] at y; simp; linarith
    · simp [demoApply, applyWeight, V3.scale, Verif.Field.get] at z; simp; linarith
  have q7 : D 7 = ⟨0, 0, 0⟩ := by
    have hp : get (demoWorld 0).verts 7 = some ⟨0, 2, 0⟩ := by simp [demoWorld, demoObj, Verif.Field.get]
    have a1 := e2.moves 7 _ hp
    have a2 := d1.moves 7 _ hp
    rw [a1] at a2
    have a3 := Option.some.inj a2
    have x := congrArg V3.x a3
    have y := congrArg V3.y a3
    have z := congrArg V3.z a3
    ext
    · simp [demoApply, applyWeight, V3.scale, Verif.Field.get] at x; simp; linarith
    · simp [demoApply, applyWeight, V3.scale, Verif.Field.get] at y; simp; linarith
    · simp [demoApply, applyWeight, V3.scale, Verif.Field.get] at z; simp; linarith
  have t4 : demoApply.thres ≤ norm2 (D 4) := by rw [q4]; norm_num [norm2, dot, demoApply, Apply.new]
  have t7 : ¬ demoApply.thres ≤ norm2 (D 7) := by rw [q7]; norm_num [norm2, dot, demoApply, Apply.new]
  have v4 : ∃ p, get (demoWorld 0).verts 4 = some p := ⟨_, by simp [demoWorld, demoObj, Verif.Field.get]; rfl⟩
  refine ⟨a', w', e1, ?_, ?_, ?_⟩
  · rw [d2.verts, if_pos ⟨v4, t4⟩]
  · rw [d2.verts, if_neg (fun h => t7 h.2)]
  · rw [d2.cells, if_pos ⟨by decide, ⟨.triangle, [0, 4, 7], 0, true⟩, rfl, 4, by decide, v4, t4⟩]

/-- ApplyFilter on a volume mesh, geometry taken from the input -/
example : ∃ a' : Apply, ({ demoApply with geom := none } : Apply).executeFilter demoVolume (fun _ _ => none) = some a' ∧
    get a'.output.data 4 = some ⟨1, 0, 0⟩ ∧ get a'.output.data 7 = some ⟨0, 0, 0⟩ := by
  obtain ⟨a', h1, -, -, h4⟩ := C87_filter_partial (w := demoVolume)
    ⟨fun _ => by simp [Ok, demoVolume, demoObj], fun _ => by simp [Ok, demoVolume, demoObj]⟩ (fun _ _ => none)
    (a := { demoApply with geom := none }) (g := 0) rfl ⟨rfl, by simp [demoApply, demoVolume, demoObj, Verif.Field.get]⟩
    (by simp [demoApply]) (by simp [Ok, demoApply]) rfl (by simp [Ok, demoApply])
    (.inr ⟨rfl, by simp [demoApply, demoVolume, demoObj, Verif.Field.get]⟩)
  refine ⟨a', h1, ?_, ?_⟩
  · rw [(holds_iff.1 h4).1 4 ⟨1, 0, 0⟩ (by simp [demoVolume, demoObj, Verif.Field.get])]
    congr 1
    ext <;> simp [demoApply, applyWeight, V3.scale, Verif.Field.get] <;> norm_num
  · rw [(holds_iff.1 h4).1 7 ⟨0, 2, 0⟩ (by simp [demoVolume, demoObj, Verif.Field.get])]
    congr 1
    ext <;> simp [demoApply, applyWeight, V3.scale, Verif.Field.get] <;> norm_num

end
end Verif.Manip
