import Verif.Manip.BendProps
import Verif.Mesh.SyncProps
/-
C84 (Apply), C85 (annotations), C86 (copies), C87 (ApplyFilter).
-/
namespace Verif.Manip
open Verif.Field Verif.Mesh Verif.Shape
open List hiding get

noncomputable section
open scoped Classical

/-- a mesh whose derived structures can be brought up to date -/
structure Updatable (o : Obj V3) : Prop where
  tree : TreeOk o
  whole : complete o = true

/-- specification: the weight given by the filter of Apply: 1 if there is no filter, its value where it has one, else 0 -/
def applyWeight (f : Field Nat ℝ) (id : Nat) : ℝ := if f.data = [] then 1 else (get f.data id).getD 0

theorem filterLoop_spec (filter : Data ℝ) (wt : Nat → ℝ) (v : Nat → V3) : ∀ (ids : List Nat) (d : Data V3), ids.Nodup →
    (∀ id ∈ ids, get filter id = some (wt id)) → (∀ id ∈ ids, get d id = some (v id)) →
    ∃ d', filterLoop filter ids d = some d' ∧ d'.map Prod.fst = d.map Prod.fst ∧
      ∀ j, get d' j = if j ∈ ids then some (V3.scale (wt j) (v j)) else get d j
  | [], d, _, _, _ => ⟨d, rfl, rfl, by simp⟩
  | id :: ids, d, hn, hf, hd => by
    rw [nodup_cons] at hn
    have hd' : ∀ i ∈ ids, get (setAt d id (V3.scale (wt id) (v id))) i = some (v i) := by
      intro i hi
      have hne : i ≠ id := fun e => hn.1 (e ▸ hi)
      rw [get_setAt, if_neg hne]
      exact hd i (by simp [hi])
    obtain ⟨d', h1, h2, h3⟩ := filterLoop_spec filter wt v ids _ hn.2 (fun i hi => hf i (by simp [hi])) hd'
    refine ⟨d', ?_, by rw [h2, keys_setAt], ?_⟩
    · rw [filterLoop, hf id (by simp), hd id (by simp)]
      exact h1
    · intro j
      rw [h3 j, get_setAt]
      by_cases hj : j = id
      · subst hj
        simp [hn.1, hd j (by simp)]
      · simp [hj]

theorem normalLoop_spec (scalar : Data ℝ) (nrm : Nat → Option V3) (s : Nat → ℝ) (n : Nat → V3) :
    ∀ (ids : List Nat) (acc : Data V3), (acc.map Prod.fst ++ ids).Nodup →
    (∀ id ∈ ids, get scalar id = some (s id)) → (∀ id ∈ ids, nrm id = some (n id)) →
    normalLoop scalar nrm ids acc = some (acc ++ ids.map (fun id => (id, V3.scale (s id) (n id))))
  | [], acc, _, _, _ => by simp [normalLoop]
  | id :: ids, acc, h, hs, hn => by
    have hna : has acc id = false := by
      cases hh : has acc id with
      | false => rfl
      | true =>
        rw [has_iff] at hh
        rw [nodup_append] at h
        exact absurd rfl (h.2.2 id hh id (by simp))
    rw [normalLoop, hs id (by simp), hn id (by simp)]
    simp only [ins, hna, Bool.false_eq_true, if_false, Option.bind_some]
    rw [normalLoop_spec scalar nrm s n ids _ (by simpa using h) (fun i hi => hs i (by simp [hi]))
      (fun i hi => hn i (by simp [hi]))]
    simp

theorem get_ids_map (ids : List Nat) (F : Nat → V3) (j : Nat) :
    get (ids.map (fun i => (i, F i))) j = if j ∈ ids then some (F j) else none := by
  induction ids with
  | nil => rfl
  | cons a l ih =>
    rw [map_cons, get_cons, ih]
    by_cases h : a = j
    · subst h; simp
    · have h' : ¬ j = a := fun e => h e.symm
      simp [h, h']

/-- meshes that differ in the coordinates only -/
structure Moved (o o' : Obj V3) : Prop where
  keys : o'.verts.map Prod.fst = o.verts.map Prod.fst
  cells : o'.cells = o.cells
  type : o'.type = o.type
  tree : o'.tree = o.tree
  skd : o'.skd.st = .notSupported ↔ o.skd.st = .notSupported

theorem moved_modify (o : Obj V3) (p : V3) (id : Nat) : Moved o (modifyVertex o p id).1 := by
  unfold modifyVertex
  split
  · exact ⟨by rw [keys_setAt], rfl, rfl, rfl, cap_notSupported _⟩
  · exact ⟨rfl, rfl, rfl, rfl, Iff.rfl⟩

theorem moveLoop_spec (factor : ℝ) (input : Data V3) (v : Nat → V3) : ∀ (ids : List Nat) (s : Data V3 × Obj V3),
    ids.Nodup → (∀ id ∈ ids, get input id = some (v id)) → (∀ id ∈ ids, ∃ p, get s.2.verts id = some p) →
    ∃ s', moveLoop factor input ids s = some s' ∧ s'.1.map Prod.fst = s.1.map Prod.fst ∧ Moved s.2 s'.2 ∧
      (∀ j, get s'.1 j = if j ∈ ids then (get s.1 j).map (fun _ => V3.scale factor (v j)) else get s.1 j) ∧
      (∀ j, get s'.2.verts j = if j ∈ ids then (get s.2.verts j).map (· + V3.scale factor (v j)) else get s.2.verts j)
  | [], s, _, _, _ => ⟨s, rfl, rfl, ⟨rfl, rfl, rfl, rfl, Iff.rfl⟩, by simp, by simp⟩
  | id :: ids, s, hn, hi, hs => by
    rw [nodup_cons] at hn
    obtain ⟨p, hp⟩ := hs id (by simp)
    have hh : has s.2.verts id = true := by rw [has_eq_isSome, hp]; rfl
    have hv : (modifyVertex s.2 (p + V3.scale factor (v id)) id).1.verts =
        setAt s.2.verts id (p + V3.scale factor (v id)) := by
      simp [modifyVertex, hh]
    have hm := moved_modify s.2 (p + V3.scale factor (v id)) id
    obtain ⟨s', h1, h2, h3, h4, h5⟩ := moveLoop_spec factor input v ids
      (setAt s.1 id (V3.scale factor (v id)), (modifyVertex s.2 (p + V3.scale factor (v id)) id).1) hn.2
      (fun i h => hi i (by simp [h])) (by
        intro i h
        have hne : i ≠ id := fun e => hn.1 (e ▸ h)
        obtain ⟨q, hq⟩ := hs i (by simp [h])
        exact ⟨q, by rw [hv, get_setAt, if_neg hne]; exact hq⟩)
    refine ⟨s', ?_, by rw [h2, keys_setAt], ⟨by rw [h3.keys, hm.keys], by rw [h3.cells, hm.cells],
      by rw [h3.type, hm.type], by rw [h3.tree, hm.tree], h3.skd.trans hm.skd⟩, ?_, ?_⟩
    · rw [moveLoop, hi id (by simp), hp]
      exact h1
    · intro j
      rw [h4 j]
      simp only
      rw [get_setAt]
      by_cases hj : j = id
      · subst hj; simp [hn.1]
      · simp [hj]
    · intro j
      rw [h5 j]
      simp only
      rw [hv, get_setAt]
      by_cases hj : j = id
      · subst hj; simp [hn.1, hp]
      · simp [hj]

theorem updatable_moved {o o' : Obj V3} (h : Updatable o) (m : Moved o o') : Updatable o' := by
  refine ⟨treeOk_of h.tree m.type m.tree m.skd, ?_⟩
  have := h.whole
  unfold complete at this ⊢
  rw [m.cells]
  rw [all_eq_true] at this ⊢
  intro c hc
  have := this c hc
  rw [all_eq_true] at this ⊢
  intro v hv
  have := this v hv
  rw [has_iff] at this ⊢
  rw [m.keys]
  exact this

theorem updatable_update {o o' : Obj V3} (h : Updatable o) (hu : update o = some o') : Updatable o' := by
  have hm := update_mesh hu
  refine ⟨treeOk_step h.tree (.update hu), ?_⟩
  have := h.whole
  unfold complete at this ⊢
  rw [hm.cells, hm.verts]
  exact this

/-- `execute` once the input is checked -/
theorem execute_of_input {w : World} (hw : WorldOk w) {nrm : Nat → Nat → Option V3} {a a1 : Apply} {g : Nat}
    (hg : a.geom = some g) (hs : Updatable (w g)) (hc : a.checkInput w nrm g = some a1) (v : Nat → V3)
    (hin : ∀ id p, get (w g).verts id = some p → get a1.input.data id = some (v id))
    (hout : ∀ id, get (w g).verts id = none → get a1.input.data id = none) :
    ∃ (a2 : Apply) (o : Obj V3) (w' : World), a2 = { a1 with output := a2.output } ∧ a2.output.geo = a1.input.geo ∧ a2.output.loc = a1.input.loc ∧
      a.execute w nrm = some (a2.annotate g o, w') ∧
      o.cells = (w g).cells ∧ o.type = (w g).type ∧
      (∀ id p, get (w g).verts id = some p → get a2.output.data id = some (V3.scale a1.factor (v id))) ∧
      (∀ id, get (w g).verts id = none → get a2.output.data id = none) ∧
      a2.output.data.map Prod.fst = a1.input.data.map Prod.fst ∧
      (∀ id p, get (w g).verts id = some p → get (w' g).verts id = some (p + V3.scale a1.factor (v id))) ∧
      (w' g).verts.map Prod.fst = (w g).verts.map Prod.fst ∧ (w' g).cells = (w g).cells ∧
      (w' g).type = (w g).type ∧ (∀ k, k ≠ g → w' k = w k) ∧ Updatable (w' g) := by
  have hmem : ∀ id, id ∈ (w g).verts.map Prod.fst ↔ ∃ p, get (w g).verts id = some p := fun _ => mem_ids
  obtain ⟨s', h1, h2, h3, h4, h5⟩ := moveLoop_spec a1.factor a1.input.data v ((w g).verts.map Prod.fst)
    (a1.input.data, w g) (hw.verts g) (by
      intro id hid
      obtain ⟨p, hp⟩ := mem_ids.1 hid
      exact hin id p hp) (by intro id hid; exact mem_ids.1 hid)
  simp only at h2 h3 h4 h5
  obtain ⟨o', ho⟩ := update_succeeds (updatable_moved hs h3).tree (updatable_moved hs h3).whole
  have hm := update_mesh ho
  refine ⟨{ a1 with output := { a1.input with data := s'.1 } }, s'.2, fun h => if h = g then o' else w h, rfl, rfl, rfl, ?_,
    h3.cells, h3.type, ?_, ?_, h2, ?_, ?_, ?_, ?_, ?_, ?_⟩
  · unfold Apply.execute
    rw [hg]
    simp only [hc, Option.bind_some, h1, ho, Option.map_some]
  · intro id p hp
    simp only
    rw [h4, if_pos ((hmem id).2 ⟨p, hp⟩), hin id p hp]; rfl
  · intro id hn
    simp only
    rw [h4, if_neg ((get_none_iff _ _).1 hn)]
    exact hout id hn
  · intro id p hp
    simp only [if_true]
    rw [hm.verts, h5, if_pos ((hmem id).2 ⟨p, hp⟩), hp]; rfl
  · simp only [if_true]; rw [hm.verts, h3.keys]
  · simp only [if_true]; rw [hm.cells, h3.cells]
  · simp only [if_true]; rw [hm.type, h3.type]
  · intro k hk; simp [hk]
  · simp only [if_true]; exact updatable_update (updatable_moved hs h3) ho

/-- the filter part of `checkInput` when the input is already complete -/
theorem checkFilter_vec {w : World} (hw : WorldOk w) {a : Apply} {g : Nat} (v : Nat → V3)
    (hf : Ok a.filter.data)
    (hfil : a.filter.data = [] ∨ (a.filter.loc = .point ∧ (w g).type = 1 ∧
      ∀ e ∈ a.filter.data, ∃ p, get (w g).verts e.1 = some p))
    (hin : ∀ id p, get (w g).verts id = some p → get a.input.data id = some (v id))
    (hout : ∀ id, get (w g).verts id = none → get a.input.data id = none) :
    ∃ a1 : Apply, a.checkFilter w g true = some (a1, true) ∧
      a1 = { a with input := a1.input, filter := a1.filter } ∧ a1.input.geo = a.input.geo ∧ a1.input.loc = a.input.loc ∧
      a1.input.data.map Prod.fst = a.input.data.map Prod.fst ∧
      (∀ id p, get (w g).verts id = some p →
        get a1.input.data id = some (V3.scale (applyWeight a.filter id) (v id))) ∧
      (∀ id, get (w g).verts id = none → get a1.input.data id = none) ∧
      Ok a1.filter.data ∧
      (a.filter.data = [] → a1.filter = a.filter) ∧
      (a.filter.data ≠ [] → a1.filter.loc = .point ∧ a1.filter.geo = some g ∧
        (∀ id p, get (w g).verts id = some p → get a1.filter.data id = some (applyWeight a.filter id)) ∧
        (∀ id, get (w g).verts id = none → get a1.filter.data id = none)) := by
  unfold Apply.checkFilter
  by_cases he : a.filter.data = []
  · refine ⟨a, by simp [he], rfl, rfl, rfl, rfl, ?_, hout, hf, fun _ => rfl, fun h => absurd he h⟩
    intro id p hp
    rw [hin id p hp, applyWeight, if_pos he, scale_one]
  · have hlen : ¬ a.filter.data.length = 0 := fun h => he (length_eq_zero_iff.1 h)
    obtain ⟨hl, ht, hids⟩ := hfil.resolve_left he
    obtain ⟨f', c1, c2, c3, -, c5, c6, c7⟩ := completeIn_ok hw (f := { a.filter with geo := some g }) hf (0 : ℝ) hl rfl hids
    obtain ⟨d', l1, l2, l3⟩ := filterLoop_spec f'.data (applyWeight a.filter) v ((w g).verts.map Prod.fst) a.input.data
      (hw.verts g) (by
        intro id hid
        obtain ⟨p, hp⟩ := mem_ids.1 hid
        rw [c6 id p hp, applyWeight, if_neg he]) (by
        intro id hid
        obtain ⟨p, hp⟩ := mem_ids.1 hid
        exact hin id p hp)
    rw [if_neg hlen]
    simp only [hl, ht, true_and, if_true] at c1 ⊢
    rw [c1]
    simp only [l1, Option.map_some]
    refine ⟨_, rfl, rfl, rfl, rfl, l2, ?_, ?_, c5, fun h => absurd h he, fun _ => ⟨c3, c2, ?_, c7⟩⟩
    · intro id p hp
      simp only
      rw [l3, if_pos (mem_ids.2 ⟨p, hp⟩)]
    · intro id hn
      simp only
      rw [l3, if_neg ((get_none_iff _ _).1 hn)]
      exact hout id hn
    · intro id p hp
      simp only
      rw [c6 id p hp, applyWeight, if_neg he]

/-- specification: every vertex of the geometry moves by its displacement, ids and connectivity stay, other geometries
are not touched -/
structure Displaced (w w' : World) (g : Nat) (D : Nat → V3) : Prop where
  moves : ∀ id p, get (w g).verts id = some p → get (w' g).verts id = some (p + D id)
  ids : (w' g).verts.map Prod.fst = (w g).verts.map Prod.fst
  cells : (w' g).cells = (w g).cells
  type : (w' g).type = (w g).type
  others : ∀ k, k ≠ g → w' k = w k

/-- specification: a field holds a vector for every vertex of the geometry and for nothing else -/
def Holds (w : World) (g : Nat) (d : Data V3) (D : Nat → V3) : Prop :=
  ∀ id, get d id = (get (w g).verts id).map (fun _ => D id)

/-- specification: a filter that Apply accepts -/
def GoodFilter (w : World) (g : Nat) (f : Field Nat ℝ) : Prop :=
  f.data = [] ∨ (f.loc = .point ∧ (w g).type = 1 ∧ ∀ e ∈ f.data, ∃ p, get (w g).verts e.1 = some p)

theorem worldOk_displaced {w w' : World} {g : Nat} {D : Nat → V3} (hw : WorldOk w) (h : Displaced w w' g D) :
    WorldOk w' := by
  constructor
  · intro k
    by_cases hk : k = g
    · subst hk
      have := hw.verts k
      unfold Ok at this ⊢
      rw [h.ids]; exact this
    · rw [h.others k hk]; exact hw.verts k
  · intro k
    by_cases hk : k = g
    · subst hk; rw [h.cells]; exact hw.cells k
    · rw [h.others k hk]; exact hw.cells k

theorem annotate_fields (a : Apply) (g : Nat) (o : Obj V3) :
    (a.annotate g o).geom = a.geom ∧ (a.annotate g o).input = a.input ∧ (a.annotate g o).scalar = a.scalar ∧
    (a.annotate g o).filter = a.filter ∧ (a.annotate g o).factor = a.factor ∧ (a.annotate g o).output = a.output := by
  unfold Apply.annotate
  split <;> exact ⟨rfl, rfl, rfl, rfl, rfl, rfl⟩

theorem get_filter_map {α : Type} (q : Nat × α → Bool) : ∀ (d : Data α), Ok d → ∀ j,
    get ((d.filter q).map (fun e => (e.1, e.1))) j =
      match get d j with
      | some v => if q (j, v) then some j else none
      | none => none
  | [], _, _ => rfl
  | e :: d, h, j => by
    have hd : Ok d := by unfold Ok at h ⊢; rw [map_cons, nodup_cons] at h; exact h.2
    have hne : e.1 ∉ d.map Prod.fst := by unfold Ok at h; rw [map_cons, nodup_cons] at h; exact h.1
    rw [filter_cons, get_cons]
    by_cases hj : e.1 = j
    · have hn : get d j = none := (get_none_iff _ _).2 (hj ▸ hne)
      have ih := get_filter_map q d hd j
      rw [hn] at ih
      simp only [hj, if_true]
      obtain ⟨k, v⟩ := e
      simp only at hj
      subst hj
      by_cases hq : q (k, v) = true
      · simp [hq, get_cons]
      · simp only [hq, if_false, Bool.false_eq_true]
        exact ih
    · rw [if_neg hj]
      split
      · rw [map_cons, get_cons, if_neg hj]
        exact get_filter_map q d hd j
      · exact get_filter_map q d hd j

/-- specification of the annotations: the vertices whose displacement is not shorter than the threshold, and the cells
that have such a vertex -/
structure Annotated (w : World) (g : Nat) (a a' : Apply) (D : Nat → V3) : Prop where
  vgeo : a'.vertAnn.geo = some g
  vloc : a'.vertAnn.loc = .point
  vname : a'.vertAnn.name = a.vertLabel
  verts : ∀ id, get a'.vertAnn.data id =
    if (∃ p, get (w g).verts id = some p) ∧ a.thres ≤ norm2 (D id) then some id else none
  cgeo : a'.cellAnn.geo = some g
  cloc : a'.cellAnn.loc = .cell
  cname : a'.cellAnn.name = a.cellLabel
  cells : ∀ id, get a'.cellAnn.data id =
    if (w g).type ≠ 3 ∧ ∃ c, get (w g).cells id = some c ∧ ∃ v ∈ vertexIds c, (∃ p, get (w g).verts v = some p) ∧
      a.thres ≤ norm2 (D v) then some id else none

theorem get_diag (l : List Nat) (j : Nat) : get (l.map (fun c => (c, c))) j = if j ∈ l then some j else none := by
  induction l with
  | nil => rfl
  | cons a l ih =>
    rw [map_cons, get_cons, ih]
    by_cases h : a = j
    · subst h; simp
    · have h' : ¬ j = a := fun e => h e.symm
      simp [h, h']

theorem annotate_spec {w : World} {g : Nat} {a : Apply} {o : Obj V3} {D : Nat → V3} (hc : o.cells = (w g).cells)
    (ht : o.type = (w g).type) (hok : Ok (w g).cells) (hout : Ok a.output.data) (hD : Holds w g a.output.data D)
    (han : a.annotation = true) : Annotated w g a (a.annotate g o) D := by
  have hv : ∀ id, get ((a.output.data.filter (fun e => ¬ norm2 e.2 < a.thres)).map (fun e => (e.1, e.1))) id =
      if (∃ p, get (w g).verts id = some p) ∧ a.thres ≤ norm2 (D id) then some id else none := by
    intro id
    rw [get_filter_map _ _ hout, hD id]
    cases hp : get (w g).verts id with
    | none => simp
    | some p => simp
  unfold Apply.annotate
  rw [if_pos han]
  refine ⟨rfl, rfl, rfl, hv, rfl, rfl, rfl, ?_⟩
  intro id
  simp only
  rw [get_diag]
  have hmem : ∀ v, v ∈ ((a.output.data.filter (fun e => ¬ norm2 e.2 < a.thres)).map (fun e => (e.1, e.1))).map Prod.fst ↔
      (∃ p, get (w g).verts v = some p) ∧ a.thres ≤ norm2 (D v) := by
    intro v
    rw [mem_ids, hv v]
    split <;> simp_all
  by_cases h3 : (w g).type = 3
  · have : cellFromVertices o
        (((a.output.data.filter (fun e => ¬ norm2 e.2 < a.thres)).map (fun e => (e.1, e.1))).map Prod.fst) false = [] := by
      unfold cellFromVertices; rw [if_pos (by rw [ht]; exact h3)]
    rw [this]
    simp [h3]
  · have := (C37_cells o (by rw [ht]; exact h3) (by rw [hc]; exact hok)
      (((a.output.data.filter (fun e => ¬ norm2 e.2 < a.thres)).map (fun e => (e.1, e.1))).map Prod.fst)).2.1 id
    simp only [hmem, hc] at this
    simp only [this, h3, ne_eq, not_false_eq_true, true_and]

/-- everything `execute` does once the input is checked -/
theorem execute_core {w : World} (hw : WorldOk w) {nrm : Nat → Nat → Option V3} {a a1 : Apply} {g : Nat}
    (hg : a.geom = some g) (hs : Updatable (w g)) (hc : a.checkInput w nrm g = some a1) 
    (ha : a1 = { a with input := a1.input, scalar := a1.scalar, filter := a1.filter }) (v : Nat → V3) (hin : Holds w g a1.input.data v) (hok : Ok a1.input.data) :
    ∃ a' w', a.execute w nrm = some (a', w') ∧ Displaced w w' g (fun id => V3.scale a.factor (v id)) ∧
      Holds w g a'.output.data (fun id => V3.scale a.factor (v id)) ∧ a'.output.geo = a1.input.geo ∧
      a'.output.loc = a1.input.loc ∧ a'.geom = a1.geom ∧ a'.input = a1.input ∧ a'.scalar = a1.scalar ∧
      a'.filter = a1.filter ∧ a'.factor = a1.factor ∧ Updatable (w' g) ∧
      (a.annotation = true → Annotated w g a a' (fun id => V3.scale a.factor (v id))) := by
  have hin1 : ∀ id p, get (w g).verts id = some p → get a1.input.data id = some (v id) := by
    intro id p hp; rw [hin id, hp]; rfl
  have hin2 : ∀ id, get (w g).verts id = none → get a1.input.data id = none := by
    intro id hp; rw [hin id, hp]; rfl
  obtain ⟨a2, o, w', e1, e2, e3, e4, e5, e6, e7, e8, e9, e10, e11, e12, e13, e14, e15⟩ :=
    execute_of_input hw hg hs hc v hin1 hin2
  have hfa : a1.factor = a.factor := by rw [ha]
  rw [hfa] at e7 e10
  have hfld : a2.geom = a1.geom ∧ a2.input = a1.input ∧ a2.scalar = a1.scalar ∧ a2.filter = a1.filter ∧
      a2.factor = a1.factor ∧ a2.annotation = a.annotation ∧ a2.thres = a.thres ∧ a2.vertLabel = a.vertLabel ∧
      a2.cellLabel = a.cellLabel := by
    rw [e1, ha]; exact ⟨rfl, rfl, rfl, rfl, rfl, rfl, rfl, rfl, rfl⟩
  have hH : Holds w g a2.output.data (fun id => V3.scale a.factor (v id)) := by
    intro id
    cases hp : get (w g).verts id with
    | none => rw [e8 id hp]; rfl
    | some p => rw [e7 id p hp]; rfl
  have han := annotate_fields a2 g o
  refine ⟨a2.annotate g o, w', e4, ⟨e10, e11, e12, e13, e14⟩, by rw [han.2.2.2.2.2]; exact hH,
    by rw [han.2.2.2.2.2]; exact e2, by rw [han.2.2.2.2.2]; exact e3, by rw [han.1]; exact hfld.1,
    by rw [han.2.1]; exact hfld.2.1, by rw [han.2.2.1]; exact hfld.2.2.1, by rw [han.2.2.2.1]; exact hfld.2.2.2.1,
    by rw [han.2.2.2.2.1]; exact hfld.2.2.2.2.1, ?_, ?_⟩
  · exact e15
  · intro h
    have := annotate_spec e5 e6 (hw.cells g) (by unfold Ok; rw [e9]; exact hok) hH (by rw [hfld.2.2.2.2.2.1]; exact h)
    obtain ⟨-, -, -, -, -, -, q1, q2, q3⟩ := hfld
    obtain ⟨r1, r2, r3, r4, r5, r6, r7, r8⟩ := this
    rw [q2] at r3
    rw [q3] at r7
    rw [q1] at r4 r8
    exact ⟨r1, r2, r3, r4, r5, r6, r7, r8⟩

end
end Verif.Manip
