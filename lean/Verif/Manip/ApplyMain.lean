import Verif.Manip.ApplyProps
/-
C84 (Apply), C85 (annotations), C86 (copies), C87 (ApplyFilter): the statements.
-/
namespace Verif.Manip
open Verif.Field Verif.Mesh Verif.Shape
open List hiding get

noncomputable section
open scoped Classical

theorem holds_iff {w : World} {g : Nat} {d : Data V3} {D : Nat → V3} :
    Holds w g d D ↔ (∀ id p, get (w g).verts id = some p → get d id = some (D id)) ∧
      (∀ id, get (w g).verts id = none → get d id = none) := by
  constructor
  · intro h
    exact ⟨fun id p hp => by rw [h id, hp]; rfl, fun id hp => by rw [h id, hp]; rfl⟩
  · intro h id
    cases hp : get (w g).verts id with
    | none => rw [h.2 id hp]; rfl
    | some p => rw [h.1 id p hp]; rfl

theorem ok_of_keys {α : Type} {d d' : Data α} (h : d'.map Prod.fst = d.map Prod.fst) (hd : Ok d) : Ok d' := by
  unfold Ok; rw [h]; exact hd

theorem checkVector_ok {w : World} (hw : WorldOk w) {a : Apply} {g : Nat} (hu : Usable w g a.input)
    (hne : a.input.data ≠ []) (hi : Ok a.input.data) :
    ∃ a1 : Apply, a.checkVector w g = some (a1, true) ∧ a1 = { a with input := a1.input } ∧ a1.input.geo = some g ∧
      a1.input.loc = .point ∧ Ok a1.input.data ∧
      Holds w g a1.input.data (fun id => (get a.input.data id).getD ⟨0, 0, 0⟩) := by
  obtain ⟨f', c1, c2, c3, -, c5, c6, c7⟩ := completeIn_ok hw hi (⟨0, 0, 0⟩ : V3) hu.1 hu.2.1 hu.2.2
  have hlen : ¬ a.input.data.length = 0 := fun h => hne (length_eq_zero_iff.1 h)
  refine ⟨{ a with input := f' }, ?_, rfl, c2, c3, c5, holds_iff.2 ⟨c6, c7⟩⟩
  unfold Apply.checkVector
  rw [if_neg hlen, if_pos ⟨hu.1, hu.2.1⟩, c1]; rfl

theorem checkVector_total {w : World} (hw : WorldOk w) {a : Apply} (g : Nat) (hi : Ok a.input.data) :
    ∃ (a1 : Apply) (b : Bool), a.checkVector w g = some (a1, b) ∧ a1 = { a with input := a1.input } := by
  unfold Apply.checkVector
  split
  · exact ⟨a, false, rfl, rfl⟩
  · split
    · next h =>
      obtain ⟨f', b, h1, -⟩ := completeIn_total hw hi (⟨0, 0, 0⟩ : V3) h.1
      exact ⟨{ a with input := f' }, b, by rw [h1]; rfl, rfl⟩
    · exact ⟨a, false, rfl, rfl⟩

/-- the checked input from a vector input -/
theorem checkInput_vec {w : World} (hw : WorldOk w) {nrm : Nat → Nat → Option V3} {a : Apply} {g : Nat}
    (hu : Usable w g a.input) (hne : a.input.data ≠ []) (hi : Ok a.input.data) (hsc : a.scalar.data = [])
    (hf : Ok a.filter.data) (hfil : GoodFilter w g a.filter) :
    ∃ a1 : Apply, a.checkInput w nrm g = some a1 ∧ a1 = { a with input := a1.input, filter := a1.filter } ∧
      a1.input.geo = some g ∧ a1.input.loc = .point ∧ Ok a1.input.data ∧
      Holds w g a1.input.data (fun id => V3.scale (applyWeight a.filter id) ((get a.input.data id).getD ⟨0, 0, 0⟩)) ∧
      Ok a1.filter.data ∧ GoodFilter w g a1.filter ∧
      (∀ id p, get (w g).verts id = some p → applyWeight a1.filter id = applyWeight a.filter id) := by
  obtain ⟨a1, h1, h2, h3, h4, h5, h6⟩ := checkVector_ok hw hu hne hi
  have hH := holds_iff.1 h6
  have hfe : a1.filter = a.filter := by rw [h2]
  have hse : a1.scalar = a.scalar := by rw [h2]
  obtain ⟨a2, k1, k2, k3, k4, k5, k6, k7, k8, k9, k10⟩ := checkFilter_vec hw (a := a1) (g := g) _
    (by rw [hfe]; exact hf) (by rw [hfe]; exact hfil) hH.1 hH.2
  rw [hfe] at k6 k9 k10
  refine ⟨a2, ?_, ?_, by rw [k3, h3], by rw [k4, h4], ok_of_keys k5 h5, holds_iff.2 ⟨k6, k7⟩, k8, ?_, ?_⟩
  · unfold Apply.checkInput
    rw [h1]
    simp only [Option.bind_some, Apply.checkScalar, hse, hsc, length_nil, if_true, k1]
  · rw [k2, h2]
  · by_cases he : a.filter.data = []
    · left; rw [k9 he]; exact he
    · right
      obtain ⟨q1, q2, q3, q4⟩ := k10 he
      refine ⟨q1, (hfil.resolve_left he).2.1, ?_⟩
      intro e hee
      have := get_of_mem k8 (show (e.1, e.2) ∈ a2.filter.data from hee)
      cases hp : get (w g).verts e.1 with
      | none => rw [q4 _ hp] at this; cases this
      | some p => exact ⟨p, rfl⟩
  · intro id p hp
    by_cases he : a.filter.data = []
    · rw [k9 he]
    · obtain ⟨q1, q2, q3, q4⟩ := k10 he
      have h0 : a2.filter.data ≠ [] := by
        intro h; have := q3 id p hp; rw [h] at this; cases this
      rw [applyWeight, if_neg h0, q3 id p hp]; rfl

/-- C84, C85: with a displacement for (some of) the vertices and no scalar input, Apply moves every vertex by
factor · filter · displacement (0 for vertices without displacement), returns that field, and annotates what moved. -/
theorem C84_vector_partial {w : World} (hw : WorldOk w) (nrm : Nat → Nat → Option V3) {a : Apply} {g : Nat}
    (hg : a.geom = some g) (hs : Updatable (w g)) (hu : Usable w g a.input) (hne : a.input.data ≠ [])
    (hi : Ok a.input.data) (hsc : a.scalar.data = []) (hf : Ok a.filter.data) (hfil : GoodFilter w g a.filter) :
    ∃ a' w', a.execute w nrm = some (a', w') ∧
      Displaced w w' g (fun id =>
        V3.scale a.factor (V3.scale (applyWeight a.filter id) ((get a.input.data id).getD ⟨0, 0, 0⟩))) ∧
      a'.output.geo = some g ∧ a'.output.loc = .point ∧
      Holds w g a'.output.data (fun id =>
        V3.scale a.factor (V3.scale (applyWeight a.filter id) ((get a.input.data id).getD ⟨0, 0, 0⟩))) := by
  obtain ⟨a1, h1, h2, h3, h4, h5, h6, -⟩ := checkInput_vec hw (nrm := nrm) hu hne hi hsc hf hfil
  obtain ⟨a', w', e1, e2, e3, e4, e5, -⟩ := execute_core hw hg hs h1 (by rw [h2]) _ h6 h5
  exact ⟨a', w', e1, e2, by rw [e4, h3], by rw [e5, h4], e3⟩

/-- C84 fails for repeated executions: the filter is folded into the stored input, so executing the same block again
moves the vertices by factor · filter² · displacement. -/
theorem C84_again_fails {w : World} (hw : WorldOk w) (nrm : Nat → Nat → Option V3) {a : Apply} {g : Nat}
    (hg : a.geom = some g) (hs : Updatable (w g)) (hu : Usable w g a.input) (hne : a.input.data ≠ [])
    (hi : Ok a.input.data) (hsc : a.scalar.data = []) (hf : Ok a.filter.data) (hfil : GoodFilter w g a.filter)
    {a' : Apply} {w' : World} (he : a.execute w nrm = some (a', w')) :
    ∃ a'' w'', a'.execute w' nrm = some (a'', w'') ∧
      ∀ id p', get (w' g).verts id = some p' → get (w'' g).verts id = some (p' +
        V3.scale a.factor (V3.scale (applyWeight a.filter id) (V3.scale (applyWeight a.filter id)
          ((get a.input.data id).getD ⟨0, 0, 0⟩)))) := by
  obtain ⟨a1, h1, h2, h3, h4, h5, h6, h7, h8, h9⟩ := checkInput_vec hw (nrm := nrm) hu hne hi hsc hf hfil
  obtain ⟨b, v, e1, e2, e3, e4, e5, e6, e7, e8, e9, e10, e11, -⟩ :=
    execute_core hw hg hs h1 (by rw [h2]) _ h6 h5
  rw [he] at e1; cases e1
  have hw' := worldOk_displaced hw e2
  have hkeys : ∀ id, (∃ p, get (w' g).verts id = some p) ↔ ∃ p, get (w g).verts id = some p := by
    intro id; rw [← mem_ids, ← mem_ids, e2.ids]
  have hHin := holds_iff.1 h6
  have hids : ∀ e ∈ a'.input.data, ∃ p, get (w' g).verts e.1 = some p := by
    intro e hee
    rw [hkeys, e7] at *
    have := get_of_mem h5 (show (e.1, e.2) ∈ a1.input.data from hee)
    cases hp : get (w g).verts e.1 with
    | none => rw [hHin.2 _ hp] at this; cases this
    | some p => exact ⟨p, rfl⟩
  have hne' : a'.input.data ≠ [] := by
    rw [e7]
    obtain ⟨e, he'⟩ := exists_mem_of_ne_nil _ hne
    obtain ⟨p, hp⟩ := hu.2.2 e he'
    intro h
    have := hHin.1 _ p hp
    rw [h] at this; cases this
  have hgf : GoodFilter w' g a'.filter := by
    rw [e9]
    rcases h8 with h | ⟨q1, q2, q3⟩
    · exact .inl h
    · exact .inr ⟨q1, by rw [e2.type]; exact q2, fun e h => (hkeys _).2 (q3 e h)⟩
  obtain ⟨a'', w'', f1, f2, -⟩ := C84_vector_partial hw' nrm (a := a') (g := g) (by rw [e6, h2]; exact hg) e11
    ⟨by rw [e7]; exact h4, by rw [e7]; exact h3, hids⟩ hne' (by rw [e7]; exact h5)
    (by rw [e8, h2]; exact hsc) (by rw [e9]; exact h7) hgf
  refine ⟨a'', w'', f1, ?_⟩
  intro id p' hp'
  obtain ⟨p, hp⟩ := (hkeys id).1 ⟨p', hp'⟩
  rw [f2.moves id p' hp']
  have hfa : a'.factor = a.factor := by rw [e10, h2]
  rw [hfa, e9, h9 id p hp, e7, hHin.1 id p hp]
  rfl

/-- the checked input from a scalar input -/
theorem checkInput_scalar {w : World} (hw : WorldOk w) {nrm : Nat → Nat → Option V3} {a : Apply} {g : Nat}
    (hu : Usable w g a.scalar) (hne : a.scalar.data ≠ []) (hsc : Ok a.scalar.data) (hi : Ok a.input.data)
    (ht : (w g).type = 1) (n : Nat → V3) (hn : ∀ id p, get (w g).verts id = some p → nrm g id = some (n id))
    (hf : Ok a.filter.data) (hfil : GoodFilter w g a.filter) :
    ∃ a1 : Apply, a.checkInput w nrm g = some a1 ∧
      a1 = { a with input := a1.input, scalar := a1.scalar, filter := a1.filter } ∧ Ok a1.input.data ∧
      ((w g).verts ≠ [] → a1.input.geo = some g ∧ a1.input.loc = .point) ∧
      Holds w g a1.input.data (fun id => V3.scale (applyWeight a.filter id)
        (V3.scale ((get a.scalar.data id).getD 0) (n id))) := by
  obtain ⟨a1, b, h1, h2⟩ := checkVector_total hw g hi
  have hse : a1.scalar = a.scalar := by rw [h2]
  obtain ⟨s, c1, c2, c3, -, c5, c6, c7⟩ := completeIn_ok hw hsc (0 : ℝ) hu.1 hu.2.1 hu.2.2
  have hlen : ¬ a.scalar.data.length = 0 := fun h => hne (length_eq_zero_iff.1 h)
  have hno := hw.verts g
  have hl := normalLoop_spec s.data (nrm g) (fun id => (get a.scalar.data id).getD 0) n ((w g).verts.map Prod.fst) []
    (by unfold Ok at hno; simpa using hno)
    (by intro id hid; obtain ⟨p, hp⟩ := mem_ids.1 hid; exact c6 id p hp)
    (by intro id hid; obtain ⟨p, hp⟩ := mem_ids.1 hid; exact hn id p hp)
  rw [nil_append] at hl
  generalize hd : (((w g).verts.map Prod.fst).map (fun id => (id, V3.scale ((get a.scalar.data id).getD 0) (n id)))) = d at hl
  have hgd : Holds w g d (fun id => V3.scale ((get a.scalar.data id).getD 0) (n id)) := by
    intro id
    rw [← hd, get_ids_map]
    cases hp : get (w g).verts id with
    | none => rw [if_neg ((get_none_iff _ _).1 hp)]; rfl
    | some p => rw [if_pos (mem_ids.2 ⟨p, hp⟩)]; rfl
  have hdk : Ok d := by
    unfold Ok at hno ⊢; rw [← hd]; simpa [map_map, Function.comp_def] using hno
  obtain ⟨inp, hinp⟩ : ∃ inp : Field Nat V3, inp = (if (w g).verts = [] then ⟨none, defaultName, .undefined, []⟩
      else ⟨some g, defaultName, .point, d⟩) := ⟨_, rfl⟩
  have hid : inp.data = d := by
    rw [hinp]
    split
    · next h => rw [← hd, h]; rfl
    · rfl
  have hH := holds_iff.1 hgd
  obtain ⟨a2, k1, k2, k3, k4, k5, k6, k7, k8, k9, k10⟩ := checkFilter_vec hw
    (a := { a1 with scalar := s, input := inp }) (g := g) (fun id => V3.scale ((get a.scalar.data id).getD 0) (n id))
    (by rw [h2]; exact hf) (by rw [h2]; exact hfil) (by simp only [hid]; exact hH.1) (by simp only [hid]; exact hH.2)
  simp only at k3 k4 k5 k6
  refine ⟨a2, ?_, ?_, ok_of_keys (by rw [k5, hid]) hdk, ?_, holds_iff.2 ⟨?_, k7⟩⟩
  · unfold Apply.checkInput
    rw [h1]
    simp only [Option.bind_some, Apply.checkScalar, hse, hlen, if_false, hu.1, hu.2.1, ht, true_and, if_true, c1]
    simp only [hl, Option.map_some, Option.bind_some, ← hinp, k1, if_true]
  · rw [k2, h2]
  · intro hv
    rw [k3, k4, hinp, if_neg hv]
    exact ⟨rfl, rfl⟩
  · have : a1.filter = a.filter := by rw [h2]
    simpa only [this] using k6

/-- C84: with a scalar displacement on a surface, every vertex moves along its normal by factor · filter · scalar,
whatever vector input the block holds. -/
theorem C84_scalar_partial {w : World} (hw : WorldOk w) {nrm : Nat → Nat → Option V3} {a : Apply} {g : Nat}
    (hg : a.geom = some g) (hs : Updatable (w g)) (hu : Usable w g a.scalar) (hne : a.scalar.data ≠ [])
    (hsc : Ok a.scalar.data) (hi : Ok a.input.data) (ht : (w g).type = 1) (n : Nat → V3)
    (hn : ∀ id p, get (w g).verts id = some p → nrm g id = some (n id))
    (hf : Ok a.filter.data) (hfil : GoodFilter w g a.filter) :
    ∃ a' w', a.execute w nrm = some (a', w') ∧
      Displaced w w' g (fun id => V3.scale a.factor (V3.scale (applyWeight a.filter id)
        (V3.scale ((get a.scalar.data id).getD 0) (n id)))) ∧
      Holds w g a'.output.data (fun id => V3.scale a.factor (V3.scale (applyWeight a.filter id)
        (V3.scale ((get a.scalar.data id).getD 0) (n id)))) := by
  obtain ⟨a1, h1, h2, h3, h4, h5⟩ := checkInput_scalar hw hu hne hsc hi ht n hn hf hfil
  obtain ⟨a', w', e1, e2, e3, -⟩ := execute_core hw hg hs h1 (by rw [h2]) _ h5 h3
  exact ⟨a', w', e1, e2, e3⟩

/-- C84 fails when the input of a block is replaced: a vector input set after a scalar input has been given is ignored,
the displacement is still the one of the scalar. -/
theorem C84_replaced_input_fails {w : World} (hw : WorldOk w) {nrm : Nat → Nat → Option V3} {a : Apply} {g : Nat}
    (hg : a.geom = some g) (hs : Updatable (w g)) (hu : Usable w g a.scalar) (hne : a.scalar.data ≠ [])
    (hsc : Ok a.scalar.data) (ht : (w g).type = 1) (n : Nat → V3)
    (hn : ∀ id p, get (w g).verts id = some p → nrm g id = some (n id))
    (hf : a.filter.data = []) (f : Field Nat V3) (hi : Ok f.data) :
    ∃ a' w', (a.setInput f).execute w nrm = some (a', w') ∧
      Displaced w w' g (fun id => V3.scale a.factor (V3.scale ((get a.scalar.data id).getD 0) (n id))) := by
  obtain ⟨a', w', h1, h2, -⟩ := C84_scalar_partial hw (a := a.setInput f) hg hs hu hne hsc hi ht n hn
    (by simp only [Apply.setInput]; rw [hf]; exact nodup_nil) (.inl hf)
  refine ⟨a', w', h1, ?_⟩
  simpa only [Apply.setInput, applyWeight, hf, if_true, scale_one] using h2

/-- an input that is not usable is replaced by zero -/
theorem execute_zero {w : World} (hw : WorldOk w) {nrm : Nat → Nat → Option V3} {a : Apply} {g : Nat}
    (hg : a.geom = some g) (hs : Updatable (w g)) {a1 : Apply} (h1 : a1.factor = a.factor)
    (hc : a.checkInput w nrm g = (constField w g (⟨0, 0, 0⟩ : V3)).map (fun f => { a1 with input := f })) :
    ∃ a' w', a.execute w nrm = some (a', w') ∧ Displaced w w' g (fun _ => ⟨0, 0, 0⟩) ∧
      Holds w g a'.output.data (fun _ => ⟨0, 0, 0⟩) := by
  rw [constField_spec hw, Option.map_some] at hc
  have hno := hw.verts g
  have z : V3.scale a.factor (⟨0, 0, 0⟩ : V3) = ⟨0, 0, 0⟩ := by simp [V3.scale]
  have hH : Holds w g (((w g).verts.map Prod.fst).map (fun i => (i, (⟨0, 0, 0⟩ : V3)))) (fun _ => ⟨0, 0, 0⟩) := by
    intro id
    rw [get_const']
    cases hp : get (w g).verts id with
    | none => rw [if_neg ((get_none_iff _ _).1 hp)]; rfl
    | some p => rw [if_pos (mem_ids.2 ⟨p, hp⟩)]; rfl
  obtain ⟨b, w', o, e1, e2, e3, e4, e5, e6, e7, e8, e9, e10, e11, e12, e13, e14, e15⟩ :=
    execute_of_input hw hg hs hc (fun _ => ⟨0, 0, 0⟩) (fun id p hp => (holds_iff.1 hH).1 id p hp)
      (fun id hp => (holds_iff.1 hH).2 id hp)
  simp only [h1, z] at e7 e10
  have han := annotate_fields b g w'
  exact ⟨_, o, e4, ⟨e10, e11, e12, e13, e14⟩, by rw [han.2.2.2.2.2]; exact holds_iff.2 ⟨e7, e8⟩⟩

/-- C84: an input on cells, or linked to another geometry, or with ids that are no vertices, or no input at all, moves
nothing. -/
theorem C84_unusable {w : World} (hw : WorldOk w) (nrm : Nat → Nat → Option V3) {a : Apply} {g : Nat}
    (hg : a.geom = some g) (hs : Updatable (w g)) (hu : a.input.data = [] ∨ ¬ Usable w g a.input)
    (hi : Ok a.input.data) (hsc : a.scalar.data = []) (hf : a.filter.data = []) :
    ∃ a' w', a.execute w nrm = some (a', w') ∧ Displaced w w' g (fun _ => ⟨0, 0, 0⟩) ∧
      Holds w g a'.output.data (fun _ => ⟨0, 0, 0⟩) := by
  obtain ⟨a1, h1, h2⟩ : ∃ a1 : Apply, a.checkVector w g = some (a1, false) ∧ a1 = { a with input := a1.input } := by
    unfold Apply.checkVector
    by_cases he : a.input.data.length = 0
    · exact ⟨a, by rw [if_pos he], rfl⟩
    · rw [if_neg he]
      have hu : ¬ Usable w g a.input := hu.resolve_left (fun h => he (by rw [h]; rfl))
      by_cases hc : a.input.loc = .point ∧ a.input.geo = some g
      · rw [if_pos hc, completeIn_no _ hc.1 (.inr ⟨g, hc.2, ?_⟩)]
        · exact ⟨_, rfl, rfl⟩
        · by_contra hno
          apply hu
          refine ⟨hc.1, hc.2, ?_⟩
          intro e he'
          cases hp : get (w g).verts e.1 with
          | none => exact absurd ⟨e, he', hp⟩ hno
          | some p => exact ⟨p, rfl⟩
      · exact ⟨a, by rw [if_neg hc], rfl⟩
  have hse : a1.scalar = a.scalar := by rw [h2]
  have hfe : a1.filter = a.filter := by rw [h2]
  refine execute_zero hw hg hs (a1 := a1) (by rw [h2]) ?_
  unfold Apply.checkInput
  rw [h1]
  simp only [Option.bind_some, Apply.checkScalar, hse, hsc, length_nil, if_true, Apply.checkFilter, hfe, hf,
    Bool.false_eq_true, if_false]

/-- C84 fails on geometries that are not surfaces: with any filter set, nothing moves, whatever the displacements. -/
theorem C84_volume_filter_fails {w : World} (hw : WorldOk w) (nrm : Nat → Nat → Option V3) {a : Apply} {g : Nat}
    (hg : a.geom = some g) (hs : Updatable (w g)) (hi : Ok a.input.data) (hsc : a.scalar.data = [])
    (hf : a.filter.data ≠ []) (ht : (w g).type ≠ 1) :
    ∃ a' w', a.execute w nrm = some (a', w') ∧ Displaced w w' g (fun _ => ⟨0, 0, 0⟩) := by
  obtain ⟨a1, b, h1, h2⟩ := checkVector_total hw g hi
  have hse : a1.scalar = a.scalar := by rw [h2]
  have hfe : a1.filter = a.filter := by rw [h2]
  have hlen : ¬ a.filter.data.length = 0 := fun h => hf (length_eq_zero_iff.1 h)
  obtain ⟨a', w', e1, e2, -⟩ := execute_zero hw hg hs (nrm := nrm)
    (a1 := { a1 with filter := { a.filter with geo := some g } }) (by rw [h2]) (by
      unfold Apply.checkInput
      rw [h1]
      simp only [Option.bind_some, Apply.checkScalar, hse, hsc, length_nil, if_true, Apply.checkFilter, hfe, hlen,
        if_false, ht, and_false, Bool.false_eq_true])
  exact ⟨a', w', e1, e2⟩

/-- C84 fails with a filter and no usable input: instead of moving nothing, the code multiplies an entry that does not
exist (undefined behaviour). -/
theorem C84_filter_alone_fails {w : World} (hw : WorldOk w) (nrm : Nat → Nat → Option V3) {a : Apply} {g : Nat}
    (hg : a.geom = some g) (hin : a.input.data = []) (hsc : a.scalar.data = []) (hf : Ok a.filter.data)
    (hne : a.filter.data ≠ []) (hfil : GoodFilter w g a.filter) : a.execute w nrm = none := by
  obtain ⟨hl, ht, hids⟩ := hfil.resolve_left hne
  have hlen : ¬ a.filter.data.length = 0 := fun h => hne (length_eq_zero_iff.1 h)
  obtain ⟨f', c1, c2, c3, -, c5, c6, c7⟩ := completeIn_ok hw (f := { a.filter with geo := some g }) hf (0 : ℝ) hl rfl hids
  simp only at c1
  obtain ⟨e, he⟩ := exists_mem_of_ne_nil _ hne
  obtain ⟨p, hp⟩ := hids e he
  have hv : ∃ id ids, (w g).verts.map Prod.fst = id :: ids := by
    cases h : (w g).verts with
    | nil => rw [h] at hp; cases hp
    | cons x l => exact ⟨x.1, l.map Prod.fst, rfl⟩
  obtain ⟨id, ids, hv⟩ := hv
  unfold Apply.execute
  rw [hg]
  simp only
  unfold Apply.checkInput Apply.checkVector
  simp only [hin, length_nil, if_true, Option.bind_some, Apply.checkScalar, hsc, Apply.checkFilter, hlen, if_false, hl, ht,
    true_and]
  simp only [← hl] at c1 ⊢
  rw [c1]
  simp only [hv, filterLoop]
  have : get ([] : Data V3) id = none := rfl
  rw [this]
  cases get f'.data id <;> rfl

/-- C84: without geometry nothing happens. -/
theorem C84_no_geometry (w : World) (nrm : Nat → Nat → Option V3) (a : Apply) (hg : a.geom = none) :
    a.execute w nrm = some (a, w) := by unfold Apply.execute; rw [hg]

/-- C85: with annotations on, the annotated vertices are exactly those that moved by at least the threshold, and the
annotated cells exactly those with such a vertex (none for point clouds); vector input. -/
theorem C85_vector {w : World} (hw : WorldOk w) (nrm : Nat → Nat → Option V3) {a : Apply} {g : Nat}
    (hg : a.geom = some g) (hs : Updatable (w g)) (hu : Usable w g a.input) (hne : a.input.data ≠ [])
    (hi : Ok a.input.data) (hsc : a.scalar.data = []) (hf : Ok a.filter.data) (hfil : GoodFilter w g a.filter)
    (han : a.annotation = true) {a' : Apply} {w' : World} (he : a.execute w nrm = some (a', w')) :
    ∃ D, Displaced w w' g D ∧ Annotated w g a a' D := by
  obtain ⟨a1, h1, h2, h3, h4, h5, h6, -⟩ := checkInput_vec hw (nrm := nrm) hu hne hi hsc hf hfil
  obtain ⟨b, v, e1, e2, -, -, -, -, -, -, -, -, -, e12⟩ := execute_core hw hg hs h1 (by rw [h2]) _ h6 h5
  rw [he] at e1; cases e1
  exact ⟨_, e2, e12 han⟩

/-- C85, scalar input -/
theorem C85_scalar {w : World} (hw : WorldOk w) {nrm : Nat → Nat → Option V3} {a : Apply} {g : Nat}
    (hg : a.geom = some g) (hs : Updatable (w g)) (hu : Usable w g a.scalar) (hne : a.scalar.data ≠ [])
    (hsc : Ok a.scalar.data) (hi : Ok a.input.data) (ht : (w g).type = 1)
    (hn : ∀ id p, get (w g).verts id = some p → nrm g id ≠ none)
    (hf : Ok a.filter.data) (hfil : GoodFilter w g a.filter)
    (han : a.annotation = true) {a' : Apply} {w' : World} (he : a.execute w nrm = some (a', w')) :
    ∃ D, Displaced w w' g D ∧ Annotated w g a a' D := by
  obtain ⟨a1, h1, h2, h3, h4, h5⟩ := checkInput_scalar (nrm := nrm) hw hu hne hsc hi ht (fun id => (nrm g id).getD ⟨0, 0, 0⟩) (by
    intro id p hp
    cases h : nrm g id with
    | none => exact absurd h (hn id p hp)
    | some n => simp [h]) hf hfil
  obtain ⟨b, v, e1, e2, -, -, -, -, -, -, -, -, -, e12⟩ := execute_core hw hg hs h1 (by rw [h2]) _ h5 h3
  rw [he] at e1; cases e1
  exact ⟨_, e2, e12 han⟩

end
end Verif.Manip
