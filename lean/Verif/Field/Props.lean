import Verif.Field.Model
/-
Property theorems about fields (C24-C28, C54, C55, C57).
-/
namespace Verif.Field
open List Verif.BinStream

variable {α : Type}

/-- the ids of a container are distinct (guaranteed by the base container) -/
def Ok (d : Data α) : Prop := (d.map Prod.fst).Nodup

theorem has_iff (d : Data α) (id : Nat) : has d id = true ↔ id ∈ d.map Prod.fst := by
  unfold has
  rw [any_eq_true]
  simp only [beq_iff_eq, mem_map]

theorem get_cons (e : Nat × α) (d : Data α) (id : Nat) :
    get (e :: d) id = if e.1 = id then some e.2 else get d id := by
  unfold get
  by_cases h : e.1 = id
  · simp [h]
  · rw [find?_cons_of_neg (by simpa using h), if_neg h]

theorem get_none_iff (d : Data α) (id : Nat) : get d id = none ↔ id ∉ d.map Prod.fst := by
  induction d with
  | nil => simp [get]
  | cons e d ih =>
    rw [get_cons]
    by_cases h : e.1 = id
    · simp [h]
    · rw [if_neg h, ih]
      simp [Ne.symm h]

theorem get_some_mem {d : Data α} {id : Nat} {v : α} (h : get d id = some v) : (id, v) ∈ d := by
  induction d with
  | nil => simp [get] at h
  | cons e d ih =>
    rw [get_cons] at h
    by_cases he : e.1 = id
    · rw [if_pos he] at h; simp at h; subst h; subst he; simp
    · rw [if_neg he] at h; simp [ih h]

theorem get_append (d d' : Data α) (id : Nat) : get (d ++ d') id = (get d id).or (get d' id) := by
  induction d with
  | nil => simp [get]
  | cons e d ih =>
    rw [cons_append, get_cons, get_cons]
    by_cases h : e.1 = id
    · simp [h]
    · simp [h, ih]

theorem has_eq_isSome (d : Data α) (id : Nat) : has d id = (get d id).isSome := by
  cases h : get d id with
  | none =>
    rw [get_none_iff] at h
    cases hh : has d id with
    | false => rfl
    | true => exact absurd ((has_iff d id).1 hh) h
  | some v =>
    rw [Option.isSome_some, has_iff]
    exact mem_map.2 ⟨_, get_some_mem h, rfl⟩

theorem ok_append {d : Data α} (hd : Ok d) {id : Nat} {v : α} (h : has d id = false) : Ok (d ++ [(id, v)]) := by
  unfold Ok at hd ⊢
  rw [map_append, nodup_append]
  refine ⟨hd, by simp, ?_⟩
  intro a ha b hb
  simp at hb; subst hb
  rintro rfl
  rw [(has_iff d _).2 ha] at h
  cases h

theorem get_single (id j : Nat) (v : α) : get [(id, v)] j = if id = j then some v else none := by
  rw [get_cons]; simp [get]

/-! ### C25 -/

theorem fill_spec (def_ : α) : ∀ (ids : List Nat) (d : Data α), Ok d →
    ∃ d', fill def_ ids d = some d' ∧ Ok d' ∧
      ∀ j, get d' j = if j ∈ ids then some ((get d j).getD def_) else get d j := by
  intro ids
  induction ids with
  | nil => intro d hd; exact ⟨d, rfl, hd, by simp⟩
  | cons id ids ih =>
    intro d hd
    by_cases h : has d id = true
    · obtain ⟨d', e, ok, hg⟩ := ih d hd
      refine ⟨d', by simp [fill, h, e], ok, ?_⟩
      intro j
      rw [hg j]
      by_cases hj : j ∈ ids
      · simp [hj]
      · rw [if_neg hj]
        by_cases hji : j = id
        · subst hji
          rw [has_eq_isSome] at h
          obtain ⟨v, hv⟩ := Option.isSome_iff_exists.1 h
          simp [hv]
        · simp [hji, hj]
    · have h' : has d id = false := by simpa using h
      have hins : ins d id def_ = some (d ++ [(id, def_)]) := by simp [ins, h']
      obtain ⟨d', e, ok, hg⟩ := ih _ (ok_append (v := def_) hd h')
      refine ⟨d', by simp [fill, h, hins, e], ok, ?_⟩
      intro j
      have hid : get d id = none := by
        rw [has_eq_isSome] at h'; simpa using h'
      rw [hg j, get_append, get_single]
      by_cases hji : id = j
      · subst hji
        rw [hid]
        by_cases hj : id ∈ ids <;> simp [hj]
      · have : ¬ j = id := Ne.symm hji
        simp [hji, this]

/-- the geometry entities a field refers to -/
def entities (f : Field Geo α) : List Nat :=
  match f.geo, f.loc with
  | some g, .point => g.vertices
  | some g, .cell => g.cells
  | some g, .interface => g.interfaces
  | _, _ => []

theorem geometryIds_eq (f : Field Geo α) : geometryIds f = entities f := by
  unfold geometryIds entities
  cases f.geo <;> cases f.loc <;> rfl

/-- a geometry has distinct ids -/
def GeoOk (g : Geo) : Prop := g.vertices.Nodup ∧ g.cells.Nodup ∧ g.interfaces.Nodup

/-- a well-formed field -/
structure FieldOk (f : Field Geo α) : Prop where
  ids : Ok f.data
  geo : ∀ g, f.geo = some g → GeoOk g

theorem entities_nodup {f : Field Geo α} (h : FieldOk f) : (entities f).Nodup := by
  unfold entities
  cases hg : f.geo with
  | none => simp
  | some g =>
    obtain ⟨h1, h2, h3⟩ := h.geo g hg
    cases f.loc <;> simp [h1, h2, h3]

/-- a list without repetitions contained in another one that is not longer covers it -/
theorem subset_full : ∀ {l m : List Nat}, l.Nodup → (∀ x ∈ l, x ∈ m) → m.length ≤ l.length → ∀ x ∈ m, x ∈ l := by
  intro l
  induction l with
  | nil =>
    intro m _ _ hlen x hx
    have : m = [] := by simpa using hlen
    simp [this] at hx
  | cons a l ih =>
    intro m hl hs hlen x hx
    simp only [nodup_cons] at hl
    by_cases hxa : x = a
    · simp [hxa]
    · have ham : a ∈ m := hs a (by simp)
      have h1 := ih (m := m.erase a) hl.2 (by
        intro y hy
        have : y ≠ a := by rintro rfl; exact hl.1 hy
        exact (mem_erase_of_ne this).2 (hs y (by simp [hy]))) (by
        rw [length_erase_of_mem ham]; simp at hlen; omega) x ((mem_erase_of_ne hxa).2 hx)
      simp [h1]

theorem idsCoherent_iff {f : Field Geo α} (hg : f.geo ≠ none) (hl : f.loc ≠ .undefined) :
    idsCoherent f = true ↔ ∀ e ∈ f.data, e.1 ∈ entities f := by
  unfold idsCoherent entities
  cases h : f.geo with
  | none => exact absurd h hg
  | some g =>
    simp only
    by_cases he : f.data.isEmpty = true
    · rw [if_pos he]
      have : f.data = [] := by simpa using he
      simp [this]
    · rw [if_neg he]
      cases hloc : f.loc <;> simp_all [all_eq_true]

theorem sizeCoherent_iff {f : Field Geo α} (hg : f.geo ≠ none) (hl : f.loc ≠ .undefined) :
    sizeCoherent f = true ↔ f.data.length = (entities f).length := by
  unfold sizeCoherent entities
  cases h : f.geo with
  | none => exact absurd h hg
  | some g => cases hloc : f.loc <;> simp_all

/-- C25: completion of a coherent field succeeds, keeps the values present, and gives the field a value
on every geometry entity of its location and nowhere else; nothing else in the field changes. -/
theorem C25_complete {f : Field Geo α} (hf : FieldOk f) (hg : f.geo ≠ none) (hl : f.loc ≠ .undefined) (def_ : α)
    (hc : ∀ e ∈ f.data, e.1 ∈ entities f) :
    ∃ f', completeMissingData f def_ = some (f', true) ∧ f'.geo = f.geo ∧ f'.name = f.name ∧ f'.loc = f.loc ∧
      Ok f'.data ∧
      (∀ j ∈ entities f, get f'.data j = some ((get f.data j).getD def_)) ∧
      (∀ j, j ∉ entities f → get f'.data j = none) := by
  have h1 := (idsCoherent_iff hg hl).2 hc
  have houtside : ∀ j, j ∉ entities f → get f.data j = none := by
    intro j hj
    rw [get_none_iff]
    intro hm
    obtain ⟨e, he, rfl⟩ := mem_map.1 hm
    exact hj (hc e he)
  unfold completeMissingData
  rw [h1]
  by_cases hs : sizeCoherent f = true
  · rw [hs]
    refine ⟨f, by simp, rfl, rfl, rfl, hf.ids, ?_, houtside⟩
    intro j hj
    have hfull := subset_full (l := f.data.map Prod.fst) (m := entities f) hf.ids
      (by intro x hx; obtain ⟨e, he, rfl⟩ := mem_map.1 hx; exact hc e he)
      (by rw [length_map, (sizeCoherent_iff hg hl).1 hs]; exact Nat.le_refl _) j hj
    cases hgj : get f.data j with
    | none => exact absurd hfull ((get_none_iff _ _).1 hgj)
    | some v => rfl
  · have hs' : sizeCoherent f = false := by simpa using hs
    rw [hs', geometryIds_eq]
    obtain ⟨d', e, ok, hgd⟩ := fill_spec def_ (entities f) f.data hf.ids
    refine ⟨{ f with data := d' }, by simp [e], rfl, rfl, rfl, ok, ?_, ?_⟩
    · intro j hj; simp [hgd j, hj]
    · intro j hj; simp [hgd j, hj, houtside j hj]

/-- C25: a field with a foreign id, or without geometry, is refused and left alone. -/
theorem C25_refuse (f : Field Geo α) (def_ : α)
    (h : f.geo = none ∨ (f.loc ≠ .undefined ∧ ∃ e ∈ f.data, e.1 ∉ entities f)) :
    completeMissingData f def_ = some (f, false) := by
  have : idsCoherent f = false := by
    rcases h with h | ⟨hl, e, he, hne⟩
    · simp [idsCoherent, h]
    · cases hg : f.geo with
      | none => simp [idsCoherent, hg]
      | some g =>
        cases hi : idsCoherent f with
        | false => rfl
        | true => exact absurd ((idsCoherent_iff (by simp [hg]) hl).1 hi e he) hne
  simp [completeMissingData, this]

def demoGeo : Geo := ⟨[0, 1, 2, 5], [0, 1], []⟩
def demoField : Field Geo Int := ⟨some demoGeo, defaultName, .point, [(5, 50), (1, 10)]⟩

example : FieldOk demoField ∧ demoField.geo ≠ none ∧ demoField.loc ≠ .undefined ∧
    (∀ e ∈ demoField.data, e.1 ∈ entities demoField) := by
  refine ⟨⟨by unfold Ok; decide, ?_⟩, by decide, by decide, by decide⟩
  intro g hg
  have : g = demoGeo := by simp [demoField] at hg; exact hg.symm
  subst this
  unfold GeoOk
  decide

example : completeMissingData demoField 7 = some ({ demoField with data := [(5, 50), (1, 10), (0, 7), (2, 7)] }, true) := by
  decide

/-! ### C57: the coherence check -/

/-- C57 is false: an empty field without location passes the check documented to fail then. -/
theorem C57_ids_check_fails : ∃ f : Field Geo Int, f.loc = .undefined ∧ idsCoherent f = true :=
  ⟨⟨some demoGeo, defaultName, .undefined, []⟩, rfl, by decide⟩

/-- C57, partial (full statement: without the premise on empty fields): the check holds exactly when a
geometry is linked, a location is set and all ids belong to the geometry. -/
theorem C57_ids_check_partial (f : Field Geo α) (h : f.loc ≠ .undefined ∨ f.data ≠ []) :
    idsCoherent f = true ↔ f.geo ≠ none ∧ f.loc ≠ .undefined ∧ ∀ e ∈ f.data, e.1 ∈ entities f := by
  cases hg : f.geo with
  | none => simp [idsCoherent, hg]
  | some g =>
    by_cases hl : f.loc = .undefined
    · have hd : f.data ≠ [] := by
        rcases h with h | h
        · exact absurd hl h
        · exact h
      simp [idsCoherent, hg, hl, hd]
    · rw [idsCoherent_iff (by simp [hg]) hl]
      simp [hl]

example : demoField.loc ≠ .undefined ∨ demoField.data ≠ [] := by decide

/-- C57, sizes: the size check holds exactly when a geometry is linked, a location is set and there are as
many values as entities. -/
theorem C57_size_check (f : Field Geo α) :
    sizeCoherent f = true ↔ f.geo ≠ none ∧ f.loc ≠ .undefined ∧ f.data.length = (entities f).length := by
  cases hg : f.geo with
  | none => simp [sizeCoherent, hg]
  | some g =>
    by_cases hl : f.loc = .undefined
    · simp [sizeCoherent, hg, hl]
    · rw [sizeCoherent_iff (by simp [hg]) hl]
      simp [hl]

/-! ### C26 -/

theorem copyIf_spec (keep : Nat → Bool) : ∀ (d acc : Data α), Ok (acc ++ d) →
    copyIf keep d acc = some (acc ++ d.filter (fun e => keep e.1)) := by
  intro d
  induction d with
  | nil => intro acc _; simp [copyIf]
  | cons e d ih =>
    intro acc hok
    unfold copyIf
    have hok' : Ok (acc ++ d) := by
      unfold Ok at hok ⊢
      refine Sublist.nodup ?_ hok
      exact Sublist.map Prod.fst (Sublist.append_left (sublist_cons_self e d) acc)
    by_cases h : keep e.1 = true
    · rw [if_pos h]
      have hno : has acc e.1 = false := by
        cases hh : has acc e.1 with
        | false => rfl
        | true =>
          unfold Ok at hok
          rw [map_append, nodup_append] at hok
          exact absurd rfl (hok.2.2 e.1 ((has_iff _ _).1 hh) e.1 (by simp))
      simp only [ins, hno, Bool.false_eq_true, if_false, Option.bind_some]
      rw [ih _ (by simpa using hok), filter_cons_of_pos (by simpa using h)]
      simp
    · rw [if_neg h, ih _ hok', filter_cons_of_neg (by simpa using h)]

theorem get_filter (keep : Nat → Bool) (d : Data α) (j : Nat) :
    get (d.filter (fun e => keep e.1)) j = if keep j then get d j else none := by
  induction d with
  | nil => simp [get]
  | cons e d ih =>
    by_cases h : keep e.1 = true
    · rw [filter_cons_of_pos (by simpa using h), get_cons, get_cons, ih]
      by_cases hj : e.1 = j
      · subst hj; simp [h]
      · simp [hj]
    · rw [filter_cons_of_neg (by simpa using h), ih, get_cons]
      by_cases hj : e.1 = j
      · subst hj; simp [h]
      · simp [hj]

theorem copyIds_spec (d : Data α) : ∀ (ids : List Nat) (acc : Data α), ids.Nodup → Ok acc →
    (∀ id ∈ ids, has acc id = false) →
    ∃ r, copyIds d ids acc = some r ∧ Ok r ∧ ∀ j, get r j = (get acc j).or (if j ∈ ids then get d j else none) := by
  intro ids
  induction ids with
  | nil => intro acc _ hok _; exact ⟨acc, rfl, hok, by simp⟩
  | cons id ids ih =>
    intro acc hn hok hno
    simp only [nodup_cons] at hn
    cases hg : get d id with
    | none =>
      obtain ⟨r, e, ok, hr⟩ := ih acc hn.2 hok (fun x hx => hno x (by simp [hx]))
      refine ⟨r, by simp [copyIds, hg, e], ok, ?_⟩
      intro j
      rw [hr j]
      by_cases hj : j = id
      · subst hj; simp [hg, hn.1]
      · simp [hj]
    | some v =>
      have h0 := hno id (by simp)
      obtain ⟨r, e, ok, hr⟩ := ih (acc ++ [(id, v)]) hn.2 (ok_append hok h0) (by
        intro x hx
        have hxid : ¬ id = x := by rintro rfl; exact hn.1 hx
        rw [has_eq_isSome, get_append, get_single, if_neg hxid]
        have := hno x (by simp [hx])
        rw [has_eq_isSome] at this
        simpa using this)
      refine ⟨r, by simp [copyIds, hg, ins, h0, e], ok, ?_⟩
      intro j
      rw [hr j, get_append, get_single]
      by_cases hj : id = j
      · subst hj
        simp [hg, hn.1]
      · have : ¬ j = id := Ne.symm hj
        simp [hj, this]

/-- what the caller wants: exactly the entries that are in the list, untouched, in a field otherwise the
same -/
def KeepsExactly (f f' : Field Geo α) (list : List Nat) : Prop :=
  f'.geo = f.geo ∧ f'.name = f.name ∧ f'.loc = f.loc ∧ Ok f'.data ∧
  ∀ j, get f'.data j = if j ∈ list then get f.data j else none

/-- C26, partial (full statement: for every list): holds in keep-order mode for every list, and in the
other mode for lists without repetitions — in particular for the variant taking a set. -/
theorem C26_squeeze_partial {f : Field Geo α} (hf : Ok f.data) (list : List Nat) (keepOrder : Bool)
    (h : keepOrder = true ∨ list.Nodup) :
    ∃ f', squeezeOutExcept f list keepOrder = some f' ∧ KeepsExactly f f' list := by
  cases hk : keepOrder with
  | true =>
    have := copyIf_spec (fun id => list.contains id) f.data [] (by simpa using hf)
    refine ⟨⟨f.geo, f.name, f.loc, f.data.filter (fun e => list.contains e.1)⟩, by simp only [squeezeOutExcept, this, if_true]; rfl,
      rfl, rfl, rfl, ?_, ?_⟩
    · exact Sublist.nodup (Sublist.map _ filter_sublist) hf
    · intro j
      show get (f.data.filter (fun e => list.contains e.1)) j = _
      rw [get_filter (fun id => list.contains id)]
      simp
  | false =>
    have hn : list.Nodup := by
      rcases h with h | h
      · rw [hk] at h; cases h
      · exact h
    obtain ⟨r, e, ok, hr⟩ := copyIds_spec f.data list [] hn (by simp [Ok]) (by simp [has])
    refine ⟨⟨f.geo, f.name, f.loc, r⟩, by simp [squeezeOutExcept, e], rfl, rfl, rfl, ok, ?_⟩
    intro j
    have h1 := hr j
    have h2 : get ([] : Data α) j = none := rfl
    rw [h2] at h1
    simpa using h1

/-- keep-order mode also keeps the order of the survivors -/
theorem C26_order_kept {f : Field Geo α} (hf : Ok f.data) (list : List Nat) :
    squeezeOutExcept f list true = some ⟨f.geo, f.name, f.loc, f.data.filter (fun e => list.contains e.1)⟩ := by
  have := copyIf_spec (fun id => list.contains id) f.data [] (by simpa using hf)
  simp only [squeezeOutExcept, this, if_true]; rfl

/-- C26 is false: an id given twice in the list, in the default mode, makes the second insertion fail. -/
theorem C26_repeated_id_fails : squeezeOutExcept demoField [5, 5] false = none := by decide

example : squeezeOutExcept demoField [9, 5] false = some { demoField with data := [(5, 50)] } := by decide
example : squeezeOutExcept demoField [5, 9, 5, 1] true = some demoField := by decide

/-! ### C54: restricting a field to the geometry -/

/-- C54 is false: the copy loses the name of the field. -/
theorem C54_resize_name_fails : ∃ (f f' : Field Geo Int), resizeToCoherent f = some f' ∧ f'.name ≠ f.name :=
  ⟨{ demoField with name := [112] }, _, rfl, by decide⟩

/-- C54, partial (full statement: and the same name): the copy has the same geometry and location, and
exactly the entries whose id is an entity of the geometry. -/
theorem C54_resize_partial {f : Field Geo α} (hf : Ok f.data) :
    ∃ f', resizeToCoherent f = some f' ∧ f'.geo = f.geo ∧ f'.loc = f.loc ∧ Ok f'.data ∧
      ∀ j, get f'.data j = if j ∈ entities f then get f.data j else none := by
  have key : ∀ l : List Nat, ∃ d, copyIf (fun id => l.contains id) f.data [] = some d ∧ Ok d ∧
      ∀ j, get d j = if j ∈ l then get f.data j else none := by
    intro l
    refine ⟨_, copyIf_spec (fun id => l.contains id) f.data [] (by simpa using hf), ?_, ?_⟩
    · exact Sublist.nodup (Sublist.map _ (by rw [nil_append]; exact filter_sublist)) hf
    · intro j
      rw [nil_append, get_filter (fun id => l.contains id)]
      simp
  unfold resizeToCoherent entities
  cases hg : f.geo with
  | none => exact ⟨_, rfl, rfl, rfl, by simp [Ok, make], by intro j; simp [make, get]⟩
  | some g =>
    cases hl : f.loc with
    | undefined => exact ⟨_, rfl, rfl, rfl, by simp [Ok, make], by intro j; simp [make, get]⟩
    | point =>
      obtain ⟨d, e, ok, hd⟩ := key g.vertices
      exact ⟨_, by simp only [e]; rfl, rfl, rfl, ok, hd⟩
    | cell =>
      obtain ⟨d, e, ok, hd⟩ := key g.cells
      exact ⟨_, by simp only [e]; rfl, rfl, rfl, ok, hd⟩
    | interface =>
      obtain ⟨d, e, ok, hd⟩ := key g.interfaces
      exact ⟨_, by simp only [e]; rfl, rfl, rfl, ok, hd⟩

example : Ok demoField.data := by unfold Ok; decide

/-! ### C27 -/

theorem get_setAt (d : Data α) (id : Nat) (v : α) (j : Nat) :
    get (setAt d id v) j = if j = id then (get d id).map (fun _ => v) else get d j := by
  induction d with
  | nil => simp [get, setAt]
  | cons e d ih =>
    unfold setAt at ih ⊢
    rw [map_cons, get_cons, ih, get_cons, get_cons]
    by_cases h : e.1 = id
    · rw [if_pos h]
      by_cases hj : j = id
      · subst hj; simp [h]
      · have : ¬ id = j := Ne.symm hj
        have h2 : ¬ e.1 = j := by rw [h]; exact this
        simp [hj, this, h2]
    · rw [if_neg h]
      by_cases hj : j = id
      · subst hj; simp [h]
      · simp [hj]

theorem keys_setAt (d : Data α) (id : Nat) (v : α) : (setAt d id v).map Prod.fst = d.map Prod.fst := by
  unfold setAt
  rw [map_map]
  apply map_congr_left
  intro e _
  simp only [Function.comp]
  split
  · next h => exact h.symm
  · rfl

theorem getDataFrom_spec (strict : Bool) : ∀ (o d : Data α) (k : Nat), Ok o → Ok d →
    ∃ d', getDataFrom strict o d k = some (d', k + o.countP (fun e => has d e.1 || !strict)) ∧ Ok d' ∧
      ∀ j, get d' j = match get o j with
        | some v => if (get d j).isSome || !strict then some v else none
        | none => get d j := by
  intro o
  induction o with
  | nil => intro d k _ hd; exact ⟨d, by simp [getDataFrom], hd, by intro j; simp [get]⟩
  | cons e o ih =>
    intro d k ho hd
    unfold Ok at ho
    simp only [map_cons, nodup_cons] at ho
    have hcount : ∀ d2 : Data α, (∀ x, x ≠ e.1 → has d2 x = has d x) →
        o.countP (fun e => has d2 e.1 || !strict) = o.countP (fun e => has d e.1 || !strict) := by
      intro d2 h2
      apply countP_congr
      intro x hx
      have : x.1 ≠ e.1 := by
        intro hxe
        exact ho.1 (by rw [← hxe]; exact mem_map.2 ⟨x, hx, rfl⟩)
      rw [h2 x.1 this]
    have hoe : get o e.1 = none := (get_none_iff _ _).2 ho.1
    by_cases h : has d e.1 = true
    · have hd2 : Ok (setAt d e.1 e.2) := by unfold Ok; rw [keys_setAt]; exact hd
      obtain ⟨d', e1, ok, hg⟩ := ih (setAt d e.1 e.2) (k + 1) ho.2 hd2
      refine ⟨d', ?_, ok, ?_⟩
      · simp only [getDataFrom, h, if_true, e1]
        rw [hcount _ (by
          intro x hx
          rw [has_eq_isSome, has_eq_isSome, get_setAt, if_neg hx])]
        rw [countP_cons_of_pos (by simp [h])]
        congr 2; omega
      · intro j
        rw [hg j, get_cons, get_setAt]
        by_cases hj : e.1 = j
        · subst hj
          rw [has_eq_isSome] at h
          obtain ⟨v, hv⟩ := Option.isSome_iff_exists.1 h
          simp [hoe, hv]
        · have : ¬ j = e.1 := Ne.symm hj
          simp [hj, this]
    · have h' : has d e.1 = false := by simpa using h
      have hde : get d e.1 = none := by rw [has_eq_isSome] at h'; simpa using h'
      cases hs : strict with
      | true =>
        subst hs
        obtain ⟨d', e1, ok, hg⟩ := ih d k ho.2 hd
        refine ⟨d', ?_, ok, ?_⟩
        · simp only [getDataFrom, h', e1, Bool.false_eq_true, if_false, if_true]
          rw [countP_cons_of_neg (by simp [h'])]
        · intro j
          rw [hg j, get_cons]
          by_cases hj : e.1 = j
          · subst hj; simp [hoe, hde]
          · simp [hj]
      | false =>
        subst hs
        obtain ⟨d', e1, ok, hg⟩ := ih (d ++ [(e.1, e.2)]) (k + 1) ho.2 (ok_append hd h')
        refine ⟨d', ?_, ok, ?_⟩
        · simp only [getDataFrom, h', Bool.false_eq_true, if_false, ins, Option.bind_some, e1]
          rw [hcount _ (by
            intro x hx
            rw [has_eq_isSome, has_eq_isSome, get_append, get_single, if_neg (Ne.symm hx)]
            simp)]
          rw [countP_cons_of_pos (by simp)]
          congr 2; omega
        · intro j
          rw [hg j, get_cons, get_append, get_single]
          by_cases hj : e.1 = j
          · subst hj; simp [hoe, hde]
          · simp [hj]

/-- C27: values of common ids are taken from the other field; other ids are added in non-strict mode only;
everything else is unchanged; the returned number counts the entries of the other field that were used. -/
theorem C27_getDataFrom (d other : Data α) (hd : Ok d) (ho : Ok other) (strict : Bool) :
    ∃ d', getDataFrom strict other d 0 =
        some (d', other.countP (fun e => decide (e.1 ∈ d.map Prod.fst) || !strict)) ∧ Ok d' ∧
      (∀ j v, get other j = some v → get d j ≠ none → get d' j = some v) ∧
      (∀ j v, get other j = some v → get d j = none → get d' j = if strict then none else some v) ∧
      (∀ j, get other j = none → get d' j = get d j) := by
  obtain ⟨d', e, ok, hg⟩ := getDataFrom_spec strict other d 0 ho hd
  refine ⟨d', ?_, ok, ?_, ?_, ?_⟩
  · rw [e]
    congr 2
    rw [Nat.zero_add]
    apply countP_congr
    intro x _
    have : has d x.1 = decide (x.1 ∈ d.map Prod.fst) := by
      rw [Bool.eq_iff_iff, has_iff]; simp
    rw [this]
  · intro j v h1 h2
    rw [hg j, h1]
    obtain ⟨w, hw⟩ := Option.ne_none_iff_exists'.1 h2
    simp [hw]
  · intro j v h1 h2
    rw [hg j, h1]
    cases strict <;> simp [h2]
  · intro j h1
    rw [hg j, h1]

example : getDataFrom true [(5, 1), (9, 2)] demoField.data 0 = some ([(5, 1), (1, 10)], 1) := by decide
example : getDataFrom false [(5, 1), (9, 2)] demoField.data 0 = some ([(5, 1), (1, 10), (9, 2)], 2) := by decide

/-! ### C28 -/

/-- C28, partial (full statement: and the validity predicate is true exactly for the codes 0…3): setting the
location by an integer gives the documented location for 0…3 and undefined for all other integers. -/
theorem C28_set_location_partial (k : Int) :
    (k = 1 → setDataLocation k = .point) ∧ (k = 2 → setDataLocation k = .cell) ∧
    (k = 3 → setDataLocation k = .interface) ∧ (k < 1 ∨ 3 < k → setDataLocation k = .undefined) := by
  refine ⟨?_, ?_, ?_, ?_⟩
  · rintro rfl; decide
  · rintro rfl; decide
  · rintro rfl; decide
  · rintro (h | h)
    · have : max 0 k = 0 := by omega
      simp [setDataLocation, this, Loc.ofCode]
    · have h1 : max 0 k = k := by omega
      simp [setDataLocation, h1, h, Loc.ofCode]

/-- C28 is false for the validity predicate: every integer is declared valid. -/
theorem C28_validity_predicate_fails : ∀ v : Int, intIsValidLocation v = true := by
  intro v
  unfold intIsValidLocation
  by_cases h : v < 0
  · have : ¬ v > 3 := by omega
    simp [this]
  · simp [h]

/-! ### C55: initialisation and extraction -/

theorem insertAll_spec (v : α) : ∀ (ids : List Nat) (d : Data α), ids.Nodup → (∀ id ∈ ids, has d id = false) →
    insertAll v ids d = some (d ++ ids.map (fun id => (id, v))) := by
  intro ids
  induction ids with
  | nil => intro d _ _; simp [insertAll]
  | cons id ids ih =>
    intro d hn hno
    simp only [nodup_cons] at hn
    have h0 := hno id (by simp)
    simp only [insertAll, ins, h0, Bool.false_eq_true, if_false, Option.bind_some]
    rw [ih _ hn.2]
    · simp
    · intro x hx
      have hxid : ¬ id = x := by rintro rfl; exact hn.1 hx
      rw [has_eq_isSome, get_append, get_single, if_neg hxid]
      have := hno x (by simp [hx])
      rw [has_eq_isSome] at this
      simpa using this

theorem get_const (v : α) (ids : List Nat) (j : Nat) :
    get (ids.map (fun id => (id, v))) j = if j ∈ ids then some v else none := by
  induction ids with
  | nil => simp [get]
  | cons id ids ih =>
    rw [map_cons, get_cons, ih]
    by_cases h : id = j
    · simp [h]
    · have : ¬ j = id := Ne.symm h
      simp [h, this]

/-- C55: initialising with a location gives a field on that geometry and location holding the constant on
every entity and nothing else, whatever it contained; without location nothing changes. -/
theorem C55_initialize (f : Field Geo α) (g : Geo) (hg : GeoOk g) (l : Loc) (v : α) :
    ∃ f', initField f g l v = some f' ∧
      (l = .undefined → f' = f) ∧
      (l ≠ .undefined → f'.geo = some g ∧ f'.loc = l ∧ f'.name = defaultName ∧
        (∀ j, get f'.data j = if j ∈ entities f' then some v else none) ∧
        sizeCoherent f' = true ∧ idsCoherent f' = true) := by
  obtain ⟨h1, h2, h3⟩ := hg
  have aux : ∀ ids : List Nat, ids.Nodup → insertAll v ids ([] : Data α) = some (ids.map (fun id => (id, v))) := by
    intro ids hn
    rw [insertAll_spec v ids [] hn (by simp [has])]; simp
  cases l with
  | undefined => exact ⟨f, rfl, fun _ => rfl, fun h => absurd rfl h⟩
  | point =>
    refine ⟨_, by simp only [initField, aux _ h1]; rfl, (by intro h; cases h), fun _ => ⟨rfl, rfl, rfl, ?_, ?_, ?_⟩⟩
    · intro j; exact get_const v g.vertices j
    · simp [sizeCoherent]
    · simp [idsCoherent]
  | cell =>
    refine ⟨_, by simp only [initField, aux _ h2]; rfl, (by intro h; cases h), fun _ => ⟨rfl, rfl, rfl, ?_, ?_, ?_⟩⟩
    · intro j; exact get_const v g.cells j
    · simp [sizeCoherent]
    · simp [idsCoherent]
  | interface =>
    refine ⟨_, by simp only [initField, aux _ h3]; rfl, (by intro h; cases h), fun _ => ⟨rfl, rfl, rfl, ?_, ?_, ?_⟩⟩
    · intro j; exact get_const v g.interfaces j
    · simp [sizeCoherent]
    · simp [idsCoherent]

example : GeoOk demoGeo := by unfold GeoOk; decide

/-- C55, extraction: the vector of values lists, in the order of the geometry entities, the values of those
entities that have one; for a complete field its k-th element belongs to the k-th entity. -/
theorem C55_data_as_vector (f : Field Geo α) :
    dataAsVector f = (entities f).filterMap (get f.data) ∧
    ((∀ j ∈ entities f, get f.data j ≠ none) → (dataAsVector f).length = (entities f).length ∧
      ∀ k (hk : k < (entities f).length), (dataAsVector f)[k]? = get f.data (entities f)[k]) := by
  have h0 : dataAsVector f = (entities f).filterMap (get f.data) := by
    unfold dataAsVector
    rw [geometryIds_eq]
    unfold entities
    cases f.geo <;> simp
  refine ⟨h0, ?_⟩
  intro hall
  rw [h0]
  revert hall
  generalize entities f = l
  intro hall
  induction l with
  | nil => simp
  | cons a l ih =>
    obtain ⟨v, hv⟩ := Option.ne_none_iff_exists'.1 (hall a (by simp))
    obtain ⟨i1, i2⟩ := ih (fun j hj => hall j (by simp [hj]))
    rw [filterMap_cons_some hv]
    refine ⟨by simp [i1], ?_⟩
    intro k hk
    cases k with
    | zero => simp [hv]
    | succ k =>
      have hk' : k < l.length := by simpa using hk
      simpa using i2 k hk'

/-- C55: setting data from a vector numbers the values 0, 1, 2, … and keeps geometry, name and location. -/
theorem C55_set_data (f : Field Geo α) (vs : List α) :
    ∃ f', setData f vs = some f' ∧ f'.geo = f.geo ∧ f'.name = f.name ∧ f'.loc = f.loc ∧
      ∀ j, get f'.data j = vs[j]? := by
  have key : ∀ (vs : List α) (id : Nat) (d : Data α), (∀ j, has d j = true → j < id) →
      ∃ d', setData.go vs id d = some d' ∧ ∀ j, get d' j = if j < id then get d j else vs[j - id]? := by
    intro vs
    induction vs with
    | nil =>
      intro id d hb
      refine ⟨d, rfl, ?_⟩
      intro j
      by_cases h : j < id
      · simp [h]
      · rw [if_neg h, List.getElem?_nil]
        cases hg : get d j with
        | none => rfl
        | some v => exact absurd (hb j (by rw [has_eq_isSome, hg]; rfl)) h
    | cons v vs ih =>
      intro id d hb
      have h0 : has d id = false := by
        cases hh : has d id with
        | false => rfl
        | true => exact absurd (hb id hh) (by omega)
      obtain ⟨d', e, hd'⟩ := ih (id + 1) (d ++ [(id, v)]) (by
        intro j hj
        rw [has_eq_isSome, get_append, get_single] at hj
        by_cases hji : id = j
        · omega
        · rw [if_neg hji, Option.or_none, ← has_eq_isSome] at hj
          have := hb j hj; omega)
      refine ⟨d', by simp [setData.go, ins, h0, e], ?_⟩
      intro j
      rw [hd' j, get_append, get_single]
      have hid : get d id = none := by rw [has_eq_isSome] at h0; simpa using h0
      rcases Nat.lt_trichotomy j id with h | h | h
      · have : ¬ id = j := by omega
        rw [if_pos (by omega), if_pos h, if_neg this, Option.or_none]
      · subst h
        rw [if_pos (Nat.lt_succ_self _), if_neg (Nat.lt_irrefl _), hid]; simp
      · rw [if_neg (by omega), if_neg (by omega)]
        have : j - id = (j - (id + 1)) + 1 := by omega
        rw [this, List.getElem?_cons_succ]
  obtain ⟨d', e, hd'⟩ := key vs 0 [] (by simp [has])
  exact ⟨{ f with data := d' }, by simp [setData, e], rfl, rfl, rfl, by intro j; simpa using hd' j⟩

example : setData demoField [3, 4] = some { demoField with data := [(0, 3), (1, 4)] } := by decide

/-! ### C24 -/

/-- fields that can exist: 8-byte pointers, never the null pointers for a linked geometry, name and size
within `std::size_t`, ids within `long`, distinct ids, values of the value type -/
structure Sendable (t : Ty) (noGeo : GeoPtr) (f : Field GeoPtr t.D) : Prop where
  null : noGeo.1.length = 8 ∧ noGeo.2.length = 8
  ptr : ∀ p, f.geo = some p → p.1.length = 8 ∧ p.2.length = 8 ∧ p ≠ noGeo
  name : f.name.length < 2 ^ 64
  size : f.data.length < 2 ^ 64
  ids : ∀ e ∈ f.data, e.1 < 2 ^ 63
  nd : Ok f.data
  vals : ∀ e ∈ f.data, Wf t e.2

theorem readData_spec (t : Ty) (ht : NoNestedMap t) (ho : Overwrites t) (rest : List Byte) : ∀ (d acc : Data t.D) (val : t.D),
    Ok (acc ++ d) → (∀ e ∈ d, e.1 < 2 ^ 63) → (∀ e ∈ d, Wf t e.2) →
    readData t d.length val acc (d.flatMap (fun e => le 8 e.1 ++ write t e.2) ++ rest) = some (acc ++ d, rest) := by
  intro d
  induction d with
  | nil => intro acc val _ _ _; simp [readData]
  | cons e d ih =>
    intro acc val hok hid hv
    rw [flatMap_cons, append_assoc, append_assoc]
    simp only [length_cons, readData]
    have h1 := readRaw_append (le 8 e.1) (write t e.2 ++ (d.flatMap (fun e => le 8 e.1 ++ write t e.2) ++ rest))
    rw [length_le] at h1
    rw [h1]
    simp only
    rw [read_write t ht e.2 (hv e (by simp)) val (Or.inl ho)]
    simp only
    rw [unle_le 8 e.1 (by have := hid e (by simp); omega)]
    have hno : has acc e.1 = false := by
      cases hh : has acc e.1 with
      | false => rfl
      | true =>
        unfold Ok at hok
        rw [map_append, nodup_append] at hok
        exact absurd rfl (hok.2.2 e.1 ((has_iff _ _).1 hh) e.1 (by simp))
    simp only [ins, hno, Bool.false_eq_true, if_false, Option.bind_some]
    rw [ih _ _ (by simpa using hok) (fun x hx => hid x (by simp [hx])) (fun x hx => hv x (by simp [hx]))]
    simp

/-- C24: whatever the target contained, after reading it is the sent field: same geometry reference, name,
location and entries; exactly its bytes are consumed.  (Value types: every type that reading overwrites,
i.e. all but maps.) -/
theorem C24_field_transport (t : Ty) (ht : NoNestedMap t) (ho : Overwrites t) (noGeo : GeoPtr)
    (f target : Field GeoPtr t.D) (hf : Sendable t noGeo f) (rest : List Byte) :
    fieldRead t noGeo target (fieldWrite t noGeo f ++ rest) = some (f, rest) := by
  have hg : (f.geo.getD noGeo).1.length = 8 ∧ (f.geo.getD noGeo).2.length = 8 := by
    cases h : f.geo with
    | none => exact hf.null
    | some p => exact ⟨(hf.ptr p h).1, (hf.ptr p h).2.1⟩
  have hback : (if ((f.geo.getD noGeo).1, (f.geo.getD noGeo).2) = noGeo then none
      else some ((f.geo.getD noGeo).1, (f.geo.getD noGeo).2)) = f.geo := by
    cases h : f.geo with
    | none => simp
    | some p => simpa using (hf.ptr p h).2.2
  unfold fieldRead fieldWrite
  simp only [append_assoc]
  have h1 := readRaw_append (f.geo.getD noGeo).1 ((f.geo.getD noGeo).2 ++ (write .str f.name ++ (le 4 f.loc.code ++
    (le sizeBytes f.data.length ++ (f.data.flatMap (fun e => le 8 e.1 ++ write t e.2) ++ rest)))))
  rw [hg.1] at h1
  rw [h1]
  simp only
  have h2 := readRaw_append (f.geo.getD noGeo).2 (write .str f.name ++ (le 4 f.loc.code ++
    (le sizeBytes f.data.length ++ (f.data.flatMap (fun e => le 8 e.1 ++ write t e.2) ++ rest))))
  rw [hg.2] at h2
  rw [h2]
  simp only
  rw [read_write .str trivial f.name hf.name ([] : List Byte) (Or.inl trivial)]
  simp only
  have h4 := readRaw_append (le 4 f.loc.code) (le sizeBytes f.data.length ++ (f.data.flatMap (fun e => le 8 e.1 ++ write t e.2) ++ rest))
  rw [length_le] at h4
  rw [h4]
  simp only
  rw [readSize_le _ hf.size]
  simp only [clear]
  rw [readData_spec t ht ho rest f.data [] t.fresh (by simpa using hf.nd) hf.ids hf.vals]
  simp only [Option.map_some, hback, nil_append]
  rw [unle_le 4 f.loc.code (by cases f.loc <;> decide)]
  have : Loc.ofCode f.loc.code = f.loc := by cases f.loc <;> rfl
  rw [this]

/-- a field of doubles with two entries qualifies -/
example : Sendable (.scalar 8) (replicate 8 0, replicate 8 0)
    ⟨some (replicate 8 1, replicate 8 2), defaultName, .cell, [(4, replicate 8 3), (0, replicate 8 9)]⟩ := by
  refine ⟨by decide, ?_, by decide, by decide, ?_, by unfold Ok; decide, ?_⟩
  · intro p hp
    simp at hp; subst hp
    decide
  · intro e he
    rcases mem_cons.1 he with rfl | he
    · decide
    · rcases mem_cons.1 he with rfl | he
      · decide
      · cases he
  · intro e he
    rcases mem_cons.1 he with rfl | he
    · rfl
    · rcases mem_cons.1 he with rfl | he
      · rfl
      · cases he

end Verif.Field
