import Verif.Recon.Choose
import Verif.Recon.ExtractProps
/-
C147: which field, or which values, a selection block gives.
-/
namespace Verif.Recon
open List hiding get
open Verif.Field Verif.Mesh Verif.Xml

variable {P α : Type}

/-! ### Specification -/

/-- entity `j` of the target is close to the geometry `g`: a cell found close, a vertex of one, or an interface of them -/
def Close (w : World P) (t g : Nat) (tol : Rat) : Loc → Nat → Prop
  | .cell, j => j ∈ w.near g t tol
  | .point, j => ∃ id ∈ w.near g t tol, ∃ c, get (w.obj t).cells id = some c ∧ j ∈ vertexIds c
  | .interface, j => j ∈ w.intfOf t (w.near g t tol)
  | .undefined, _ => False

/-- the value that a field has for the entity `j` of the target: none unless all its ids belong to its geometry and `j` is close -/
def Offers (w : World P) (t : Nat) (tol : Rat) (f : Field Nat α) (j : Nat) (v : α) : Prop :=
  ∃ g, Sound w f g ∧ Close w t g tol f.loc j ∧ get f.data j = some v

open Classical in
/-- the values that the fields have for the entity `j` of the target, in the order of the fields -/
noncomputable def offered (w : World P) (t : Nat) (tol : Rat) (fs : List (Field Nat α)) (j : Nat) : List α :=
  fs.filterMap fun f => if h : ∃ v, Offers w t tol f j v then some h.choose else none

/-- the lists that the external searches give have no repetitions -/
def Tidy (w : World P) (t : Nat) (tol : Rat) : Prop :=
  ∀ g, (w.near g t tol).Nodup ∧ (w.intfOf t (w.near g t tol)).Nodup

/-- sum of values over their number: one value stands for itself -/
def meanOf (a : Arith α) : List α → Option α
  | [] => none
  | [v] => some v
  | v :: vs => some (a.div (vs.foldl a.add v) (vs.length + 1))

/-- the value given where the fields have the values of a list: their mean, or the first -/
def chosen (ov : Overlap α) (l : List α) : Option α :=
  match ov with
  | .first => l.head?
  | .mean a => meanOf a l

/-! ### Merging -/

def sumOf (a : Arith α) : List α → Option α
  | [] => none
  | v :: vs => some (vs.foldl a.add v)

theorem sumOf_snoc (a : Arith α) (l : List α) (v : α) :
    sumOf a (l ++ [v]) = some (match sumOf a l with | none => v | some u => a.add u v) := by
  cases l with
  | nil => rfl
  | cons b l => simp [sumOf, foldl_append]

/-- values and counters after the values `cs` -/
def Merged (ov : Overlap α) (acc : Data α × Data Nat) (cs : Nat → List α) : Prop :=
  Ok acc.1 ∧ Ok acc.2 ∧
  match ov with
  | .first => ∀ j, get acc.1 j = (cs j).head?
  | .mean a => ∀ j, get acc.1 j = sumOf a (cs j) ∧
      get acc.2 j = if 2 ≤ (cs j).length then some (cs j).length else none

theorem ok_snoc {β : Type} {d : Data β} (h : Ok d) {j : Nat} (v : β) (hj : get d j = none) : Ok (d ++ [(j, v)]) := by
  unfold Ok at *
  rw [map_append, nodup_append]
  refine ⟨h, by simp, ?_⟩
  intro a ha b hb hab
  simp only [map_cons, map_nil, mem_singleton] at hb
  subst hab hb
  have := (has_iff d _).2 ha
  rw [has_eq_isSome, hj] at this
  simp at this

theorem get_snoc {β : Type} (d : Data β) (i j : Nat) (v : β) :
    get (d ++ [(i, v)]) j = (get d j).or (if i = j then some v else none) := by
  rw [get_append, get_cons]
  rfl

theorem ok_setAt {β : Type} {d : Data β} (h : Ok d) (j : Nat) (v : β) : Ok (setAt d j v) := by
  unfold Ok; rw [keys_setAt]; exact h

theorem merge_one (ov : Overlap α) (acc : Data α × Data Nat) (cs : Nat → List α) (i : Nat) (v : α)
    (h : Merged ov acc cs) : Merged ov (mergeOne ov acc (i, v)) (fun j => if j = i then cs j ++ [v] else cs j) := by
  obtain ⟨h1, h2, h3⟩ := h
  cases ov with
  | first =>
    simp only at h3
    unfold mergeOne
    cases hg : get acc.1 i with
    | none =>
      refine ⟨ok_snoc h1 v hg, h2, fun j => ?_⟩
      simp only [get_snoc]
      by_cases hj : j = i
      · subst hj
        rw [hg]
        have := h3 j
        rw [hg] at this
        simp [head?_append, ← this]
      · rw [if_neg hj, if_neg (Ne.symm hj), h3]; simp
    | some u =>
      refine ⟨h1, h2, fun j => ?_⟩
      simp only [h3]
      by_cases hj : j = i
      · subst hj
        have := h3 j
        rw [hg] at this
        simp [head?_append, ← this]
      · rw [if_neg hj]
  | mean a =>
    simp only at h3
    unfold mergeOne
    cases hg : get acc.1 i with
    | none =>
      have hc : cs i = [] := by
        have := (h3 i).1
        rw [hg] at this
        cases hcs : cs i with
        | nil => rfl
        | cons b l => rw [hcs] at this; simp [sumOf] at this
      refine ⟨ok_snoc h1 v hg, h2, fun j => ?_⟩
      simp only [get_snoc]
      by_cases hj : j = i
      · subst hj
        have h4 := (h3 j).2
        rw [hc] at h4
        simp only [hg, if_true, hc, nil_append, h4]
        simp [sumOf]
      · rw [if_neg hj, if_neg (Ne.symm hj), (h3 j).1, (h3 j).2]; simp
    | some u =>
      have hc : 1 ≤ (cs i).length := by
        have := (h3 i).1
        rw [hg] at this
        cases hcs : cs i with
        | nil => rw [hcs] at this; simp [sumOf] at this
        | cons b l => simp
      have hs : sumOf a (cs i) = some u := by rw [← (h3 i).1, hg]
      have h4 := (h3 i).2
      simp only
      refine ⟨ok_setAt h1 _ _, ?_, fun j => ⟨?_, ?_⟩⟩
      · cases hn : get acc.2 i with
        | none => exact ok_snoc h2 _ hn
        | some n => exact ok_setAt h2 _ _
      · simp only [get_setAt]
        by_cases hj : j = i
        · subst hj
          rw [if_pos rfl, if_pos rfl, hg, sumOf_snoc, hs]; rfl
        · rw [if_neg hj, if_neg hj, (h3 j).1]
      · by_cases hl : 2 ≤ (cs i).length
        · rw [if_pos hl] at h4
          rw [h4]
          simp only [get_setAt]
          by_cases hj : j = i
          · subst hj
            rw [if_pos rfl, if_pos rfl, h4, length_append, if_pos (by simp; omega)]; rfl
          · rw [if_neg hj, if_neg hj, (h3 j).2]
        · rw [if_neg hl] at h4
          rw [h4]
          simp only [get_snoc]
          by_cases hj : j = i
          · subst hj
            rw [if_pos rfl, if_pos rfl, h4, length_append, if_pos (by simp; omega)]
            simp only [Option.none_or, length_cons, length_nil]
            congr 1; omega
          · rw [if_neg hj, if_neg (Ne.symm hj), (h3 j).2]; simp

theorem merge_all (ov : Overlap α) : ∀ (d : Data α) (acc : Data α × Data Nat) (cs : Nat → List α), Ok d → Merged ov acc cs →
    Merged ov (d.foldl (mergeOne ov) acc) (fun j => cs j ++ (get d j).toList) := by
  intro d
  induction d with
  | nil => intro acc cs _ h; simpa [Field.get] using h
  | cons e d ih =>
    intro acc cs hd h
    obtain ⟨i, v⟩ := e
    have hd' : i ∉ d.map Prod.fst ∧ Ok d := by simpa [Ok] using hd
    have := ih _ _ hd'.2 (merge_one ov acc cs i v h)
    rw [foldl_cons]
    refine cast (congrArg _ ?_) this
    funext j
    rw [get_cons]
    by_cases hj : j = i
    · subst hj
      rw [(get_none_iff d j).2 hd'.1]; simp
    · rw [if_neg hj, if_neg (Ne.symm hj)]

theorem divide_get (a : Arith α) : ∀ (l : Data Nat) (d : Data α), Ok l → ∀ j,
    get (l.foldl (divideOne a) d) j =
    match get l j with
    | none => get d j
    | some n => (get d j).map (fun v => a.div v n) := by
  intro l
  induction l with
  | nil => intro d _ j; rfl
  | cons e l ih =>
    intro d hl j
    obtain ⟨i, n⟩ := e
    have hl' : i ∉ l.map Prod.fst ∧ Ok l := by simpa [Ok] using hl
    rw [foldl_cons, ih _ hl'.2, get_cons]
    by_cases hj : i = j
    · subst hj
      rw [(get_none_iff l i).2 hl'.1, if_pos rfl]
      simp only
      unfold divideOne
      cases hg : get d i with
      | none => simp [hg]
      | some v => simp [get_setAt, hg]
    · rw [if_neg hj]
      have : get (divideOne a d (i, n)) j = get d j := by
        unfold divideOne
        cases get d i with
        | none => rfl
        | some v => simp only [get_setAt]; rw [if_neg (Ne.symm hj)]
      simp only [this]

theorem ok_divide (a : Arith α) : ∀ (l : Data Nat) (d : Data α), Ok d →
    Ok (l.foldl (divideOne a) d) := by
  intro l
  induction l with
  | nil => intro d h; exact h
  | cons e l ih =>
    intro d h
    rw [foldl_cons]
    apply ih
    unfold divideOne
    split
    · exact h
    · exact ok_setAt h _ _

theorem divided (ov : Overlap α) (acc : Data α × Data Nat) (cs : Nat → List α) (h : Merged ov acc cs) :
    Ok (divideAll ov acc) ∧ ∀ j, get (divideAll ov acc) j = chosen ov (cs j) := by
  obtain ⟨h1, h2, h3⟩ := h
  cases ov with
  | first => exact ⟨h1, h3⟩
  | mean a =>
    refine ⟨ok_divide a _ _ h1, fun j => ?_⟩
    simp only at h3
    unfold divideAll chosen
    simp only
    rw [divide_get a _ _ h2 j, (h3 j).1, (h3 j).2]
    rcases cs j with _ | ⟨b, _ | ⟨c, l⟩⟩ <;> simp [sumOf, meanOf]

/-! ### Extraction inside the block -/

theorem sound_of_coherent {w : World P} {f : Field Nat α} {g : Nat} (hg : f.geo = some g) (hl : f.loc ≠ .undefined)
    (h : idsCoherent (resolve w f) = true) : Sound w f g := by
  refine ⟨hg, hl, fun e he => ?_⟩
  unfold idsCoherent resolve at h
  simp only [hg, Option.map_some] at h
  rw [if_neg (by cases hd : f.data with
    | nil => rw [hd] at he; simp at he
    | cons _ _ => simp)] at h
  cases hl' : f.loc with
  | undefined => exact absurd hl' hl
  | _ =>
    rw [hl'] at h
    simp only [all_eq_true, contains_iff_mem, geoOf, cellIds] at h
    simpa [On] using h e he

theorem ids_close (w : World P) (t g : Nat) (ef : Ext α) (l : Loc) (hm : ef.mode = .mapping) (ht : (w.obj t).type ≠ 3)
    (hw : Tidy w t ef.tol) : (ef.ids w t g l).Nodup ∧ ∀ j, j ∈ ef.ids w t g l ↔ Close w t g ef.tol l j := by
  unfold Ext.ids
  rw [hm]
  cases l with
  | undefined => simp [Close]
  | point =>
    obtain ⟨h1, h2⟩ := C37_vertices (w.obj t) ht (w.near g t ef.tol)
    exact ⟨h2, h1⟩
  | cell => exact ⟨(hw g).1, fun j => Iff.rfl⟩
  | interface => exact ⟨(hw g).2, fun j => Iff.rfl⟩

/-- the values of one extraction are those offered by the field -/
theorem extract_offers (w : World P) (t : Nat) (ef : Ext α) (f : Field Nat α) (hg : ef.geo = some t) (hm : ef.mode = .mapping)
    (ht : (w.obj t).type ≠ 3) (hw : Tidy w t ef.tol) (hf : f.geo.isSome) (hl : f.loc ≠ .undefined) :
    ∃ r b, (ef.setField (some f)).extract w = some (r, b) ∧ r.geo = ef.geo ∧ r.mode = ef.mode ∧ r.tol = ef.tol ∧
      (b = true → Ok r.result.data ∧ ∀ j v, get r.result.data j = some v ↔ Offers w t ef.tol f j v) ∧
      (b = false → ∀ j v, ¬ Offers w t ef.tol f j v) := by
  obtain ⟨g, hgf⟩ := Option.isSome_iff_exists.1 hf
  by_cases hc : idsCoherent (resolve w f) = true
  · have hs := sound_of_coherent hgf hl hc
    obtain ⟨hn, hi⟩ := ids_close w t g ef f.loc hm ht hw
    obtain ⟨d, e, ok, hd⟩ := copyIds_spec f.data (ef.ids w t g f.loc) [] hn (by simp [Ok]) (by simp [has])
    have e' : copyIds f.data ((ef.setField (some f)).ids w t g f.loc) [] = some d := e
    refine ⟨{ ef.setField (some f) with result := { Field.clear ef.result with loc := f.loc, data := d, geo := some t } }, true,
      ?_, rfl, rfl, rfl, fun _ => ⟨ok, fun j v => ?_⟩, by simp⟩
    · have h1 : (ef.setField (some f)).geo = some t := hg
      have h2 : (ef.setField (some f)).field = f := rfl
      have h3 : (ef.setField (some f)).mode = .mapping := hm
      unfold Ext.extract
      simp only [h1, h2, hgf, hc, if_neg hl, e', h3]
      rfl
    · have := hd j
      simp only [Field.get, find?_nil, Option.map_none, Option.none_or] at this
      simp only [Field.get, this]
      constructor
      · intro h
        by_cases hj : j ∈ ef.ids w t g f.loc
        · rw [if_pos hj] at h
          exact ⟨g, hs, (hi j).1 hj, h⟩
        · rw [if_neg hj] at h; simp at h
      · rintro ⟨g', hs', hc', hv⟩
        have : g' = g := by have := hs'.1; rw [hgf] at this; simpa using this.symm
        subst this
        rw [if_pos ((hi j).2 hc')]; exact hv
  · refine ⟨ef.setField (some f), false, ?_, rfl, rfl, rfl, by simp, fun _ j v => ?_⟩
    · have h1 : (ef.setField (some f)).geo = some t := hg
      have h2 : (ef.setField (some f)).field = f := rfl
      unfold Ext.extract
      simp [h1, h2, hgf, hc]
    · rintro ⟨g', hs', -, -⟩
      exact hc (coherent_of_sound hs')

theorem offered_cons (w : World P) (t : Nat) (tol : Rat) (f : Field Nat α) (fs : List (Field Nat α)) (j : Nat) (o : Option α)
    (h : ∀ v, o = some v ↔ Offers w t tol f j v) : offered w t tol (f :: fs) j = o.toList ++ offered w t tol fs j := by
  unfold offered
  rw [filterMap_cons]
  by_cases hv : ∃ v, Offers w t tol f j v
  · have := (h _).2 hv.choose_spec
    simp only [dif_pos hv, this]
    rfl
  · have : o = none := by
      cases o with
      | none => rfl
      | some v => exact absurd ⟨v, (h v).1 rfl⟩ hv
    simp only [dif_neg hv, this]
    rfl

theorem map_fields (w : World P) (ov : Overlap α) (t : Nat) (tol : Rat) (ht : (w.obj t).type ≠ 3) (hw : Tidy w t tol) :
    ∀ (fs : List (Field Nat α)) (ef : Ext α) (acc : Data α × Data Nat) (cs : Nat → List α),
    ef.geo = some t → ef.mode = .mapping → ef.tol = tol → (∀ f ∈ fs, f.geo.isSome ∧ f.loc ≠ .undefined) → Merged ov acc cs →
    ∃ acc', mapFields w ov fs ef acc = some acc' ∧ Merged ov acc' (fun j => cs j ++ offered w t tol fs j) := by
  intro fs
  induction fs with
  | nil => intro ef acc cs _ _ _ _ h; exact ⟨acc, rfl, by simpa [offered] using h⟩
  | cons f fs ih =>
    intro ef acc cs h1 h2 h3 h4 h
    obtain ⟨hf, hl⟩ := h4 f (by simp)
    obtain ⟨r, b, e, e1, e2, e3, ht', hf'⟩ := extract_offers w t ef f h1 h2 ht (h3 ▸ hw) hf hl
    have hr : ∀ f' ∈ fs, f'.geo.isSome ∧ f'.loc ≠ .undefined := fun f' hm => h4 f' (by simp [hm])
    unfold mapFields
    rw [e]
    cases b with
    | true =>
      obtain ⟨ok, hv⟩ := ht' rfl
      rw [h3] at hv
      obtain ⟨acc', h5, h6⟩ := ih r _ _ (e1.trans h1) (e2.trans h2) (e3.trans h3) hr (merge_all ov _ _ _ ok h)
      refine ⟨acc', h5, cast (congrArg _ ?_) h6⟩
      funext j
      rw [offered_cons w t tol f fs j _ (hv j), append_assoc]
    | false =>
      have hv := hf' rfl
      rw [h3] at hv
      obtain ⟨acc', h5, h6⟩ := ih r _ _ (e1.trans h1) (e2.trans h2) (e3.trans h3) hr h
      refine ⟨acc', h5, cast (congrArg _ ?_) h6⟩
      funext j
      rw [offered_cons w t tol f fs j none (fun v => by simp [hv j v])]
      rfl

/-! ### C147 -/

/-- what the lists of fields of a block hold, see `C148_lists` -/
def Loaded (s : Sel α) : Prop := s.loc ≠ .undefined ∧ ∀ f ∈ s.fields, f.loc = s.loc ∧ f.geo.isSome

/-- C147, geometry or name: the result is a whole copy of the first field of the list that has the geometry (or the name) asked for;
when there is none, or no geometry was given, it is an empty field without geometry. -/
theorem C147_first (w : World P) (ov : Overlap α) (s : Sel α) (hm : s.mode = 0 ∨ s.mode = 1) :
    ∃ r, s.execute w ov = some r ∧ r = { s with result := r.result } ∧
      let Fits := fun f : Field Nat α => if s.mode = 0 then ∃ g, s.geo = some g ∧ f.geo = some g else f.name = enc s.name
      (∀ pre f post, s.fields = pre ++ f :: post → Fits f → (∀ f' ∈ pre, ¬ Fits f') → r.result = f) ∧
      ((∀ f ∈ s.fields, ¬ Fits f) → r.result.geo = none ∧ r.result.data = []) := by
  have key : ∀ (p : Field Nat α → Bool) (Fits : Field Nat α → Prop), (∀ f, p f = true ↔ Fits f) → ∀ fs : List (Field Nat α),
      (∀ pre f post, fs = pre ++ f :: post → Fits f → (∀ f' ∈ pre, ¬ Fits f') → fs.find? p = some f) ∧
      ((∀ f ∈ fs, ¬ Fits f) → fs.find? p = none) := by
    intro p Fits hp fs
    refine ⟨?_, ?_⟩
    · rintro pre f post rfl hf hpre
      rw [find?_append, find?_eq_none.2 (fun x hx => by rw [hp]; exact hpre x hx), find?_cons_of_pos ((hp f).2 hf)]
      rfl
    · intro h
      exact find?_eq_none.2 (fun x hx => by rw [hp]; exact h x hx)
  have clr : (Field.clear s.result).geo = none ∧ (Field.clear s.result).data = [] := ⟨rfl, rfl⟩
  obtain ⟨mode, name, tol, loc, geo, fields, result⟩ := s
  simp only at hm clr ⊢
  unfold Sel.execute Sel.select
  rcases hm with rfl | rfl
  · simp only [if_true]
    cases geo with
    | none => exact ⟨⟨0, name, tol, loc, none, fields, Field.clear result⟩, rfl, rfl, by simp, fun _ => clr⟩
    | some g =>
      obtain ⟨k1, k2⟩ := key (fun f => f.geo == some g) (fun f => ∃ g', some g = some g' ∧ f.geo = some g')
        (fun f => by simp) fields
      cases hf : fields.find? (fun f => f.geo == some g) with
      | none =>
        refine ⟨⟨0, name, tol, loc, some g, fields, Field.clear result⟩, by simp only [hf]; rfl, rfl, ?_, fun _ => clr⟩
        intro pre f post e h1 h2
        rw [k1 pre f post e h1 h2] at hf; simp at hf
      | some f0 =>
        refine ⟨⟨0, name, tol, loc, some g, fields, f0⟩, by simp only [hf]; rfl, rfl, ?_, ?_⟩
        · intro pre f post e h1 h2
          rw [k1 pre f post e h1 h2] at hf; simpa using hf.symm
        · intro h
          rw [k2 h] at hf; simp at hf
  · have h0 : ¬ ((1 : Int) = 0) := by decide
    simp only [if_true, if_neg h0]
    obtain ⟨k1, k2⟩ := key (fun f => f.name == enc name) (fun f => f.name = enc name) (fun f => by simp) fields
    cases hf : fields.find? (fun f => f.name == enc name) with
    | none =>
      refine ⟨⟨1, name, tol, loc, geo, fields, Field.clear result⟩, by simp only [hf]; rfl, rfl, ?_, fun _ => clr⟩
      intro pre f post e h1 h2
      rw [k1 pre f post e h1 h2] at hf; simp at hf
    | some f0 =>
      refine ⟨⟨1, name, tol, loc, geo, fields, f0⟩, by simp only [hf]; rfl, rfl, ?_, ?_⟩
      · intro pre f post e h1 h2
        rw [k1 pre f post e h1 h2] at hf; simpa using hf.symm
      · intro h
        rw [k2 h] at hf; simp at hf

theorem mapping (w : World P) (ov : Overlap α) (s : Sel α) (t : Nat) (hm : s.mode = 2) (hg : s.geo = some t)
    (ht : (w.obj t).type ≠ 3) (hs : Loaded s) (htol : 1 / 1000000000000 ≤ s.tol) (hw : Tidy w t s.tol) :
    ∃ r, s.execute w ov = some r ∧ r = { s with result := r.result } ∧ r.result.geo = some t ∧ r.result.loc = s.loc ∧
      r.result.name = defaultName ∧ Ok r.result.data ∧ ∀ j, get r.result.data j = chosen ov (offered w t s.tol s.fields j) := by
  have h0 : Merged ov (([], []) : Data α × Data Nat) (fun _ => []) := by
    refine ⟨by simp [Ok], by simp [Ok], ?_⟩
    cases ov <;> simp [Field.get, sumOf]
  have hmax : max (1 / 1000000000000) s.tol = s.tol := by
    rw [Rat.max_def, if_pos htol]
  obtain ⟨acc, e, h⟩ := map_fields w ov t s.tol ht hw s.fields
    (((({} : Ext α).setGeometry (some t)).setMode 3).setTolerance s.tol) ([], []) (fun _ => []) rfl rfl hmax
    (fun f hf => ⟨(hs.2 f hf).2, by rw [(hs.2 f hf).1]; exact hs.1⟩) h0
  obtain ⟨ok, hv⟩ := divided ov acc _ h
  refine ⟨{ s with result := { Field.clear s.result with geo := some t, loc := s.loc, data := divideAll ov acc } }, ?_, rfl, rfl,
    rfl, rfl, ok, ?_⟩
  · unfold Sel.execute Sel.select
    have n0 : ¬ ((2 : Int) = 0) := by decide
    have n1 : ¬ ((2 : Int) = 1) := by decide
    simp only [hm, if_neg n0, if_neg n1, if_true, hg, if_neg ht, e]
    rfl
  · intro j
    have := hv j
    rwa [nil_append] at this

/-- C147, mapping, long and string fields: where fields of the list have a value for an entity of the target that is close to their geometry,
the result has the one of the first of them in the list; elsewhere it has none.  The result belongs to the target. -/
theorem C147_mapping_first (w : World P) (s : Sel α) (t : Nat) (hm : s.mode = 2) (hg : s.geo = some t)
    (ht : (w.obj t).type ≠ 3) (hs : Loaded s) (htol : 1 / 1000000000000 ≤ s.tol) (hw : Tidy w t s.tol) :
    ∃ r, s.execute w .first = some r ∧ r.result.geo = some t ∧ r.result.loc = s.loc ∧ Ok r.result.data ∧
      (∀ j pre f post v, s.fields = pre ++ f :: post → Offers w t s.tol f j v → (∀ f' ∈ pre, ∀ v', ¬ Offers w t s.tol f' j v') →
        get r.result.data j = some v) ∧
      (∀ j, (∀ f ∈ s.fields, ∀ v, ¬ Offers w t s.tol f j v) → get r.result.data j = none) := by
  obtain ⟨r, h1, -, h3, h4, -, h5, h6⟩ := mapping w .first s t hm hg ht hs htol hw
  have hnone : ∀ (j : Nat) (fs : List (Field Nat α)), (∀ f ∈ fs, ∀ v, ¬ Offers w t s.tol f j v) →
      ∀ gs, offered w t s.tol (fs ++ gs) j = offered w t s.tol gs j := by
    intro j fs
    induction fs with
    | nil => intro _ gs; rfl
    | cons f fs ih =>
      intro h gs
      rw [cons_append, offered_cons w t s.tol f _ j none (fun v => by simp [h f (by simp) v]), ih (fun f' hf => h f' (by simp [hf]))]
      rfl
  refine ⟨r, h1, h3, h4, h5, ?_, ?_⟩
  · intro j pre f post v e hv hpre
    rw [h6, e, hnone j pre hpre, offered_cons w t s.tol f post j (some v)]
    · rfl
    · intro v'
      constructor
      · intro h; rw [← Option.some.inj h]; exact hv
      · rintro ⟨g, -, -, h⟩
        obtain ⟨g', -, -, h'⟩ := hv
        rw [← h', h]
  · intro j h
    have := hnone j s.fields h []
    rw [append_nil] at this
    rw [h6, this]
    rfl

/-- C147, mapping, scalar and vector fields: the same entities have a value, and it is the mean of all the values offered. -/
theorem C147_mapping_mean (w : World P) (a : Arith α) (s : Sel α) (t : Nat) (hm : s.mode = 2) (hg : s.geo = some t)
    (ht : (w.obj t).type ≠ 3) (hs : Loaded s) (htol : 1 / 1000000000000 ≤ s.tol) (hw : Tidy w t s.tol) :
    ∃ r, s.execute w (.mean a) = some r ∧ r.result.geo = some t ∧ r.result.loc = s.loc ∧ Ok r.result.data ∧
      ∀ j, get r.result.data j = meanOf a (offered w t s.tol s.fields j) := by
  obtain ⟨r, h1, -, h3, h4, -, h5, h6⟩ := mapping w (.mean a) s t hm hg ht hs htol hw
  exact ⟨r, h1, h3, h4, h5, h6⟩

/-- sum and division of rational numbers -/
def ratArith : Arith Rat := ⟨(· + ·), fun v n => v / n⟩

theorem meanOf_rat (l : List Rat) : meanOf ratArith l = if l = [] then none else some (l.sum / l.length) := by
  have hf : ∀ (l : List Rat) (v : Rat), l.foldl (· + ·) v = v + l.sum := by
    intro l
    induction l with
    | nil => intro v; simp [Rat.add_zero]
    | cons b l ih => intro v; rw [foldl_cons, ih, sum_cons, Rat.add_assoc]
  rcases l with _ | ⟨b, _ | ⟨c, l⟩⟩
  · rfl
  · have h1 : ((1 : Nat) : Rat) = 1 := rfl
    have h2 : (1 : Rat)⁻¹ = 1 := by decide +kernel
    simp [meanOf, Rat.add_zero, Rat.div_def, h2, Rat.mul_one]
  · simp only [meanOf, ratArith, reduceCtorEq, if_false, sum_cons, length_cons, Option.some.injEq]
    rw [hf, sum_cons]

/-- C147, mapping, numbers: sum of the values offered over how many they are, with exact arithmetic. -/
theorem C147_mapping_scalar (w : World P) (s : Sel Rat) (t : Nat) (hm : s.mode = 2) (hg : s.geo = some t)
    (ht : (w.obj t).type ≠ 3) (hs : Loaded s) (htol : 1 / 1000000000000 ≤ s.tol) (hw : Tidy w t s.tol) :
    ∃ r, s.execute w (.mean ratArith) = some r ∧ ∀ j, get r.result.data j =
      if offered w t s.tol s.fields j = [] then none
      else some ((offered w t s.tol s.fields j).sum / (offered w t s.tol s.fields j).length) := by
  obtain ⟨r, h1, -, -, -, h6⟩ := C147_mapping_mean w ratArith s t hm hg ht hs htol hw
  exact ⟨r, h1, fun j => by rw [h6, meanOf_rat]⟩

/-- C147, refused: mapping without a target or on a point cloud, and a mode outside the enumeration, give an empty field that has no geometry,
whatever the previous runs left; nothing else of the block changes. -/
theorem C147_refused (w : World P) (ov : Overlap α) (s : Sel α)
    (h : (s.mode = 2 ∧ (s.geo = none ∨ ∃ t, s.geo = some t ∧ (w.obj t).type = 3)) ∨ (s.mode ≠ 0 ∧ s.mode ≠ 1 ∧ s.mode ≠ 2)) :
    ∃ r, s.execute w ov = some r ∧ r = { s with result := r.result } ∧ r.result.geo = none ∧ r.result.data = [] := by
  refine ⟨{ s with result := Field.clear s.result }, ?_, rfl, rfl, rfl⟩
  unfold Sel.execute Sel.select
  rcases h with ⟨hm, hg⟩ | ⟨h0, h1, h2⟩
  · have n0 : ¬ ((2 : Int) = 0) := by decide
    have n1 : ¬ ((2 : Int) = 1) := by decide
    rcases hg with hg | ⟨t, hg, ht⟩
    · simp [hm, hg]
    · simp [hm, hg, ht]
  · simp [h0, h1, h2]

theorem select_result (w : World P) (ov : Overlap α) (s : Sel α) (f : Field Nat α) :
    Sel.select w ov { s with result := f } = s.select w ov := rfl

theorem select_keeps (w : World P) (ov : Overlap α) (s : Sel α) (r : Sel α × Bool) (h : s.select w ov = some r) :
    ∃ f, r.1 = { s with result := f } := by
  unfold Sel.select at h
  simp only at h
  repeat' split at h
  all_goals first
    | (obtain rfl := Option.some.inj h; exact ⟨_, rfl⟩)
    | (obtain ⟨acc, -, rfl⟩ := Option.map_eq_some_iff.1 h; exact ⟨_, rfl⟩)

/-- C147: nothing is left over from a run: a second one, in any mode and with any fields, gives the same block. -/
theorem C147_again (w : World P) (ov : Overlap α) (s r : Sel α) (h : s.execute w ov = some r) : r.execute w ov = some r := by
  unfold Sel.execute at *
  obtain ⟨q, hq, rfl⟩ := Option.map_eq_some_iff.1 h
  obtain ⟨f, hf⟩ := select_keeps w ov s q hq
  rw [hf, select_result, hq, Option.map_some, hf]

/-! concrete cases -/

/-- cells 1 and 5 of the target 1 are close to the other geometries -/
def nearWorld : World Nat := { world with near := fun _ _ _ => [1, 5] }

def rCells : Field Nat Rat := { (make (some 0) .cell : Field Nat Rat) with data := [(0, 10), (1, 11)] }
def rCells' : Field Nat Rat := { (make (some 1) .cell : Field Nat Rat) with name := [99], data := [(1, 21), (5, 30)] }

def picker : Sel Rat := { mode := 2, loc := .cell, geo := some 1, fields := [rCells, rCells'] }

theorem loaded_picker : Loaded picker := by
  refine ⟨by decide, fun f hf => ?_⟩
  simp only [picker, mem_cons, not_mem_nil, or_false] at hf
  rcases hf with rfl | rfl <;> exact ⟨rfl, rfl⟩

theorem tidy_near (t : Nat) (tol : Rat) : Tidy nearWorld t tol := by
  intro g
  exact ⟨by show [1, 5].Nodup; decide, by show [6].Nodup; decide⟩

theorem sound_rCells : Sound nearWorld rCells 0 := by
  refine ⟨rfl, by decide, ?_⟩
  intro e he
  simp only [rCells, mem_cons, not_mem_nil, or_false] at he
  rcases he with rfl | rfl
  · exact ⟨⟨.triangle, [0, 1, 2], 1, true⟩, by decide⟩
  · exact ⟨⟨.triangle, [1, 2, 3], 2, true⟩, by decide⟩

example : picker.mode = 2 ∧ picker.geo = some 1 ∧ (nearWorld.obj 1).type ≠ 3 ∧ Loaded picker ∧ 1 / 1000000000000 ≤ picker.tol ∧
    Tidy nearWorld 1 picker.tol ∧ Offers nearWorld 1 picker.tol rCells 1 11 ∧
    (picker.execute nearWorld (.mean ratArith)).map (·.result.data) = some [(1, 16), (5, 30)] ∧
    (picker.execute nearWorld .first).map (·.result.data) = some [(1, 11), (5, 30)] :=
  ⟨rfl, rfl, by decide, loaded_picker, Rat.le_refl, tidy_near _ _, ⟨0, sound_rCells, by show 1 ∈ [1, 5]; decide, rfl⟩, by decide +kernel,
    by decide +kernel⟩

example : (({ picker with mode := 1, name := ['c'] } : Sel Rat).execute nearWorld .first).map (·.result.data) = some [(1, 21), (5, 30)] ∧
    (({ picker with mode := 0, geo := some 0 } : Sel Rat).execute nearWorld .first).map (·.result.data) = some [(0, 10), (1, 11)] ∧
    (({ picker with mode := 1, name := ['z'] } : Sel Rat).execute nearWorld .first).map (·.result.data) = some [] :=
  ⟨by decide +kernel, by decide +kernel, by decide +kernel⟩

example : ({ picker with geo := some 2 } : Sel Rat).mode = 2 ∧ (nearWorld.obj 2).type = 3 := ⟨rfl, by decide⟩

/-- C147: the manual says that mapping takes the first value found; for scalar fields it does not. -/
theorem C147_mapping_first_fails : ∃ (w : World Nat) (s r : Sel Rat) (f : Field Nat Rat),
    s.mode = 2 ∧ s.geo = some 1 ∧ (w.obj 1).type ≠ 3 ∧ s.fields.head? = some f ∧ Offers w 1 s.tol f 1 11 ∧
    s.execute w (.mean ratArith) = some r ∧ get r.result.data 1 ≠ some 11 :=
  ⟨nearWorld, picker, _, rCells, rfl, rfl, by decide, rfl, ⟨0, sound_rCells, by show 1 ∈ [1, 5]; decide, rfl⟩, rfl, by decide +kernel⟩

/-- C147: the manual says that after a selection by geometry the name of the block is the one of the field chosen, and that the result of a
mapping has the name of the block; neither holds. -/
theorem C147_name_fails :
    (∃ (w : World Nat) (s r : Sel Rat), s.mode = 0 ∧ s.execute w .first = some r ∧ r.result.data ≠ [] ∧ enc r.name ≠ r.result.name) ∧
    (∃ (w : World Nat) (s r : Sel Rat), s.mode = 2 ∧ s.execute w .first = some r ∧ r.result.data ≠ [] ∧ enc r.name ≠ r.result.name) :=
  ⟨⟨nearWorld, { picker with mode := 0 }, _, rfl, rfl, by decide +kernel, by decide +kernel⟩,
    ⟨nearWorld, { picker with name := ['c'] }, _, rfl, rfl, by decide +kernel, by decide +kernel⟩⟩

end Verif.Recon
