import Verif.Mesh.SyncProps
import Verif.Mesh.Graph
/-
C40: removal of degenerate elements.
-/
namespace Verif.Mesh
open Verif.Field
open List hiding get

variable {P : Type} [DecidableEq P]

/-! Specification -/

/-- positions of the vertices of a cell -/
def positions (d : Data P) (c : Cell) : List P := (vertexIds c).filterMap (fun v => get d v)

/-- distinct positions of a list, in its order -/
structure Shrunk (ps qs : List P) : Prop where
  sub : qs.Sublist ps
  nodup : qs.Nodup
  all : ∀ p ∈ ps, p ∈ qs

/-- without coincident vertices nothing changes -/
theorem Shrunk.eq_of_nodup {ps qs : List P} (h : Shrunk ps qs) (hn : ps.Nodup) : qs = ps := by
  refine h.sub.eq_of_length_le ?_
  exact hn.length_le_of_subset h.all

/-- what must be at an id of a cell afterwards -/
def Degraded (d : Data P) (type : Nat) (c : Cell) (r : Option Cell) : Prop :=
  ∃ qs, Shrunk (positions d c) qs ∧
    match canon type qs.length with
    | none => r = none
    | some e => ∃ c', r = some c' ∧ c'.elem = e ∧ c'.pid = c.pid ∧ positions d c' = qs

/-! The loop over the cells -/

/-- element type the code gives to the kept vertices -/
def newType (o : Obj P) (c : Cell) : Elem :=
  desume o.type (((keptOf o.verts (vertexIds c) []).map Prod.fst).map Int.ofNat)

/-- new cell, if any -/
def newCell (o : Obj P) (c : Nat × Cell) : Option (Nat × Cell) :=
  if newType o c.2 ≠ c.2.elem ∧ newType o c.2 ≠ .undefined then
    some (c.1, ⟨newType o c.2, (keptOf o.verts (vertexIds c.2) []).map Prod.fst, c.2.pid, true⟩)
  else none

theorem degrFold (o : Obj P) : ∀ (cs : List (Nat × Cell)) (s : Degr), s.fill = none → SamePos o.verts s.vmap →
    (∀ c ∈ cs, ∀ v ∈ vertexIds c.2, has o.verts v = true) →
    ∃ s', cs.foldlM (degrStep o) s = some s' ∧ SamePos o.verts s'.vmap ∧
      s'.del = s.del ++ (cs.filter (fun c => newType o c.2 != c.2.elem)).map Prod.fst ∧
      s'.ins = s.ins ++ cs.filterMap (newCell o) := by
  intro cs
  induction cs with
  | nil => intro s _ hs _; exact ⟨s, rfl, hs, by simp, by simp⟩
  | cons c cs ih =>
    intro s hf hs hv
    obtain ⟨k, m, hu⟩ := uniq_none o (vertexIds c.2) [] s.vmap (hv c (by simp))
    have hl : Located o.verts ([] : List (Nat × P)) := by intro e he; cases he
    obtain ⟨h1, h2, _, _, _⟩ := uniq_some o _ [] _ _ hu hl
    dsimp only at h1 h2
    rw [foldlM_cons]
    have hstep : degrStep o s c = some
        (if newType o c.2 ≠ c.2.elem then
          { del := s.del ++ [c.1]
            ins := if newType o c.2 ≠ .undefined then
                s.ins ++ [(c.1, ⟨newType o c.2, (keptOf o.verts (vertexIds c.2) []).map Prod.fst, c.2.pid, true⟩)]
              else s.ins
            vmap := m, fill := none }
        else { s with vmap := m, fill := none }) := by
      unfold degrStep
      rw [hf, hu]
      simp only [h1, newType]
      split
      · next hh => exact (congrArg some (if_pos hh)).symm
      · next hh => exact (congrArg some (if_neg hh)).symm
    rw [hstep]
    simp only [Option.bind_eq_bind, Option.bind_some]
    by_cases hc : newType o c.2 = c.2.elem
    · rw [if_neg (by simpa using hc)]
      obtain ⟨s', e1, e2, e3, e4⟩ := ih { s with vmap := m, fill := none } rfl (h2 hs)
        (fun c h => hv c (by simp [h]))
      refine ⟨s', e1, e2, ?_, ?_⟩
      · rw [e3, filter_cons_of_neg (by simp [hc])]
      · have : newCell o c = none := by unfold newCell; rw [if_neg (by simp [hc])]
        rw [e4, filterMap_cons_none this]
    · rw [if_pos (by simpa using hc)]
      obtain ⟨s', e1, e2, e3, e4⟩ := ih { del := s.del ++ [c.1]
                                          ins := if newType o c.2 ≠ .undefined then
                                              s.ins ++ [(c.1, ⟨newType o c.2, (keptOf o.verts (vertexIds c.2) []).map Prod.fst, c.2.pid, true⟩)]
                                            else s.ins
                                          vmap := m, fill := none } rfl (h2 hs) (fun c h => hv c (by simp [h]))
      refine ⟨s', e1, e2, ?_, ?_⟩
      · rw [e3, filter_cons_of_pos (by simpa using hc)]; simp
      · rw [e4]
        by_cases hu : newType o c.2 = .undefined
        · have : newCell o c = none := by unfold newCell; rw [if_neg (by simp [hu])]
          rw [filterMap_cons_none this]; simp [hu]
        · have : newCell o c = some (c.1, ⟨newType o c.2, (keptOf o.verts (vertexIds c.2) []).map Prod.fst, c.2.pid, true⟩) := by
            unfold newCell; rw [if_pos ⟨hc, hu⟩]
          rw [filterMap_cons_some this]; simp [hu]

theorem addAll_cells : ∀ (l : List (Nat × Cell)) (o : Obj P), (l.map Prod.fst).Nodup →
    (∀ c ∈ l, has o.cells c.1 = false) →
    (l.foldl (fun o c => (addCell o 0 c.2 (some c.1)).1) o).cells =
      o.cells ++ l.map (fun c => (c.1, ⟨c.2.elem, c.2.conn, toInt32 c.2.pid, true⟩)) := by
  intro l
  induction l with
  | nil => intro o _ _; simp
  | cons c l ih =>
    intro o hn hf
    have h0 := hf c (by simp)
    rw [map_cons, nodup_cons] at hn
    have e : (addCell o 0 c.2 (some c.1)).1 = putCell o c.2.elem c.2.conn c.2.pid c.1 := by
      unfold addCell; rw [if_neg (by simp [h0])]; rfl
    rw [foldl_cons, e, ih _ hn.2]
    · rw [putCell_cells h0]; simp
    · intro x hx
      rw [putCell_cells h0]
      have h1 := hf x (by simp [hx])
      have : x.1 ≠ c.1 := fun h => hn.1 (h ▸ mem_map_of_mem hx)
      have h2 : ¬ has (o.cells ++ [(c.1, (⟨c.2.elem, c.2.conn, toInt32 c.2.pid, true⟩ : Cell))]) x.1 = true := by
        rw [has_iff, map_append, mem_append]
        rintro (h | h)
        · rw [← has_iff, h1] at h; cases h
        · simp at h; exact this h
      simpa using h2

theorem renumId_pos {d : Data P} {m : List (Nat × Nat)} (hs : SamePos d m) (v : Nat) : get d (renumId m v) = get d v := by
  unfold renumId
  cases h : m.find? (fun e => e.1 == v) with
  | none => rfl
  | some e =>
    have he := find?_some h
    simp only [beq_iff_eq] at he
    obtain ⟨p, h1, h2⟩ := hs e (mem_of_find?_eq_some h)
    rw [he] at h1
    simp only [Option.map_some, Option.getD_some]
    rw [h1, h2]

theorem vertexIds_plain {c : Cell} (h1 : c.elem ≠ .polygon) (h2 : c.elem ≠ .polyhedron) : vertexIds c = c.conn := by
  unfold vertexIds
  cases he : c.elem <;> simp_all

theorem vertexIds_renumber {m : List (Nat × Nat)} {c : Cell} (h1 : c.elem ≠ .polygon) (h2 : c.elem ≠ .polyhedron) :
    vertexIds (renumber m c) = (vertexIds c).map (renumId m) := by
  have hr : (renumber m c).conn = c.conn.map (renumId m) := by
    unfold renumber
    cases he : c.elem <;> simp_all
  rw [vertexIds_plain (c := renumber m c) h1 h2, hr, vertexIds_plain h1 h2]

/-- renumbering keeps the positions of cells that are no polygons or polyhedra -/
theorem renumber_pos {d : Data P} {m : List (Nat × Nat)} (hs : SamePos d m) {c : Cell} (h1 : c.elem ≠ .polygon)
    (h2 : c.elem ≠ .polyhedron) : positions d (renumber m c) = positions d c := by
  unfold positions
  rw [vertexIds_renumber h1 h2, filterMap_map]
  congr 1
  funext v
  exact renumId_pos hs v

theorem get_filterMap_new (o : Obj P) (f : Nat × Cell → Option (Nat × Cell)) (hf : ∀ c e, f c = some e → e.1 = c.1) :
    ∀ (cs : Data Cell), Ok cs → ∀ id, get (cs.filterMap f) id = (get cs id).bind (fun c => (f (id, c)).map Prod.snd) := by
  intro cs
  induction cs with
  | nil => intro _ id; rfl
  | cons c cs ih =>
    intro hok id
    unfold Ok at hok
    rw [map_cons, nodup_cons] at hok
    have hr : get (cs.filterMap f) c.1 = none := by
      rw [ih hok.2, (get_none_iff cs c.1).2 hok.1]; rfl
    rw [get_cons]
    by_cases h : c.1 = id
    · subst h
      rw [if_pos rfl]
      cases he : f c with
      | none =>
        rw [filterMap_cons_none he, hr]
        simp [he]
      | some e =>
        rw [filterMap_cons_some he, get_cons, if_pos (hf c e he)]
        simp [he]
    · rw [if_neg h, ← ih hok.2]
      cases he : f c with
      | none => rw [filterMap_cons_none he]
      | some e => rw [filterMap_cons_some he, get_cons, if_neg (by rw [hf c e he]; exact h)]

theorem get_mapv {α β : Type} (f : α → β) : ∀ (d : Data α) (id : Nat), get (d.map (fun c => (c.1, f c.2))) id = (get d id).map f := by
  intro d
  induction d with
  | nil => intro id; rfl
  | cons c d ih =>
    intro id
    rw [map_cons, get_cons, get_cons]
    split
    · rfl
    · exact ih id

theorem positions_kept {d : Data P} {c : Cell} (hv : ∀ v ∈ vertexIds c, has d v = true) :
    Shrunk (positions d c) ((keptOf d (vertexIds c) []).map Prod.snd) ∧
    ((keptOf d (vertexIds c) []).map Prod.fst).filterMap (fun v => get d v) = (keptOf d (vertexIds c) []).map Prod.snd := by
  obtain ⟨h1, h2, ⟨l, h3, h4⟩, h5⟩ := keptOf_spec d (vertexIds c) [] hv (by intro e he; cases he) (by simp)
  rw [nil_append] at h3
  have hfm : ∀ k : List (Nat × P), Located d k → (k.map Prod.fst).filterMap (fun v => get d v) = k.map Prod.snd := by
    intro k
    induction k with
    | nil => intro _; rfl
    | cons e k ih =>
      intro hl
      rw [map_cons, filterMap_cons_some (hl e (by simp)), ih (fun e h => hl e (by simp [h]))]; rfl
  refine ⟨⟨?_, h2, ?_⟩, hfm _ h1⟩
  · rw [← hfm _ h1]
    unfold positions
    rw [h3] at *
    exact h4.filterMap _
  · intro p hp
    obtain ⟨v, hv', hg⟩ := mem_filterMap.1 hp
    exact h5 v hv' p hg

/-- positions are found for every vertex -/
theorem length_positions {d : Data P} {c : Cell} (hv : ∀ v ∈ vertexIds c, has d v = true) :
    (positions d c).length = (vertexIds c).length := by
  unfold positions
  generalize vertexIds c = l at hv
  induction l with
  | nil => rfl
  | cons a l ih =>
    have h := hv a (by simp)
    rw [has_eq_isSome, Option.isSome_iff_exists] at h
    obtain ⟨p, hp⟩ := h
    rw [filterMap_cons_some hp, length_cons, length_cons, ih (fun v h => hv v (by simp [h]))]

theorem newType_canon {o : Obj P} {c : Cell} (hc : Canon o.type c) (hv : ∀ v ∈ vertexIds c, has o.verts v = true) :
    newType o c = (canon o.type ((keptOf o.verts (vertexIds c) []).map Prod.snd).length).getD .undefined := by
  obtain ⟨hs, _⟩ := positions_kept hv
  have hle := hs.sub.length_le
  rw [length_positions hv, canon_vertexIds hc, length_map] at hle
  obtain ⟨_, _, _, h8, h41⟩ := canon_some hc
  unfold newType
  rw [canon_vertexIds hc]
  rw [desume_canon (by simp only [length_map]; omega) (by intro h; have := h41 h; simp only [length_map]; omega)]
  simp only [length_map]

theorem degradeBody_spec {o : Obj P} (hok : Ok o.cells) (hcm : complete o = true)
    (hcan : ∀ c ∈ o.cells, Canon o.type c.2) (hpid : ∀ c ∈ o.cells, toInt32 c.2.pid = c.2.pid) :
    ∃ o', degradeBody o false = some o' ∧ o'.verts = o.verts ∧ Ok o'.cells ∧
      (∀ id, get o.cells id = none → get o'.cells id = none) ∧
      (∀ id c, get o.cells id = some c → Degraded o.verts o.type c (get o'.cells id)) ∧
      (∀ c ∈ o'.cells, c.2.elem ≠ .polygon ∧ c.2.elem ≠ .polyhedron ∧ ∀ v ∈ vertexIds c.2, has o.verts v = true) := by
  have hv : ∀ c ∈ o.cells, ∀ v ∈ vertexIds c.2, has o.verts v = true := by
    intro c hc v hvc
    unfold complete at hcm
    rw [all_eq_true] at hcm
    exact all_eq_true.1 (hcm c hc) v hvc
  obtain ⟨s, hs, hsp, hdel, hins⟩ := degrFold o o.cells ⟨[], [], [], none⟩ rfl (by intro e he; cases he) hv
  dsimp only at hdel hins
  rw [nil_append] at hdel hins
  have hdm : ∀ c ∈ o.cells, (s.del.contains c.1 = true ↔ newType o c.2 ≠ c.2.elem) := by
    intro c hc
    rw [hdel, contains_iff_mem, mem_map]
    constructor
    · rintro ⟨c', hc', he⟩
      rw [mem_filter] at hc'
      have : c' = c := by
        obtain ⟨i, x⟩ := c'; obtain ⟨j, y⟩ := c
        simp only at he; subst he
        have a := get_of_mem hok hc'.1
        have b := get_of_mem hok hc
        rw [a] at b; cases b; rfl
      subst this
      simpa using hc'.2
    · intro h; exact ⟨c, mem_filter.2 ⟨hc, by simpa using h⟩, rfl⟩
  have hnew : ∀ c e, newCell o c = some e → e.1 = c.1 := by
    intro c e h
    unfold newCell at h
    split at h
    · injection h with h; subst h; rfl
    · cases h
  have hk : ∀ id, get (o.cells.filter (fun c => ! s.del.contains c.1)) id =
      if s.del.contains id then none else get o.cells id := by
    intro id
    rw [get_filter (fun i => ! s.del.contains i)]
    cases s.del.contains id <;> simp
  have hnid : (s.ins.map Prod.fst).Nodup := by
    rw [hins]
    have hsub : ((o.cells.filterMap (newCell o)).map Prod.fst).Sublist (o.cells.map Prod.fst) := by
      generalize o.cells = cs
      induction cs with
      | nil => simp
      | cons c cs ih =>
        cases he : newCell o c with
        | none => rw [filterMap_cons_none he]; exact ih.cons _
        | some e =>
          rw [filterMap_cons_some he, map_cons, map_cons, hnew c e he]
          exact ih.cons_cons _
    exact hsub.nodup hok
  have hfree : ∀ c ∈ s.ins, has (o.cells.filter (fun c => ! s.del.contains c.1)) c.1 = false := by
    intro e he
    rw [hins, mem_filterMap] at he
    obtain ⟨c, hc, hce⟩ := he
    have h1 := hnew c e hce
    have : newType o c.2 ≠ c.2.elem := by
      unfold newCell at hce
      split at hce
      · next h => exact h.1
      · cases hce
    rw [has_eq_isSome, hk, h1, (hdm c hc).2 this]; rfl
  let o1 : Obj P := { o with cells := o.cells.filter (fun c => ! s.del.contains c.1) }
  let o2 := s.ins.foldl (fun o c => (addCell o 0 c.2 (some c.1)).1) o1
  have ho2 : o2.cells = o1.cells ++ s.ins.map (fun c => (c.1, ⟨c.2.elem, c.2.conn, toInt32 c.2.pid, true⟩)) :=
    addAll_cells s.ins o1 hnid hfree
  have ho2v : o2.verts = o.verts := (bbox_addAll s.ins o1).1
  let o3 := if s.vmap = [] then o2 else { o2 with cells := o2.cells.map (fun c => (c.1, renumber s.vmap c.2)) }
  have ho3v : o3.verts = o.verts := by
    show (if s.vmap = [] then o2 else _).verts = _
    split
    · exact ho2v
    · exact ho2v
  -- content of o2 at an id
  have hg2 : ∀ id, get o2.cells id = match get o.cells id with
      | none => none
      | some c => if newType o c = c.elem then some c
        else if newType o c = .undefined then none
        else some ⟨newType o c, (keptOf o.verts (vertexIds c) []).map Prod.fst, c.pid, true⟩ := by
    intro id
    rw [ho2, get_append]
    have e1 : get o1.cells id = if s.del.contains id then none else get o.cells id := hk id
    have e2 : get (s.ins.map (fun c => (c.1, (⟨c.2.elem, c.2.conn, toInt32 c.2.pid, true⟩ : Cell)))) id =
        ((get o.cells id).bind (fun c => (newCell o (id, c)).map Prod.snd)).map
          (fun c => ⟨c.elem, c.conn, toInt32 c.pid, true⟩) := by
      rw [get_mapv (fun c : Cell => (⟨c.elem, c.conn, toInt32 c.pid, true⟩ : Cell)), hins,
        get_filterMap_new o (newCell o) hnew _ hok]
    rw [e1, e2]
    cases hg : get o.cells id with
    | none => simp
    | some c =>
      have hm := get_some_mem hg
      have hd := hdm _ hm
      dsimp only at hd ⊢
      by_cases ht : newType o c = c.elem
      · have : s.del.contains id = false := by
          cases h : s.del.contains id with
          | false => rfl
          | true => exact absurd ht (hd.1 h)
        rw [this, if_pos ht]
        simp
      · rw [hd.2 ht, if_neg ht]
        by_cases hu : newType o c = .undefined
        · have : newCell o (id, c) = none := by unfold newCell; rw [if_neg (by simp [hu])]
          rw [if_pos hu]; simp [this]
        · have : newCell o (id, c) = some (id, ⟨newType o c, (keptOf o.verts (vertexIds c) []).map Prod.fst, c.pid, true⟩) := by
            unfold newCell; rw [if_pos ⟨ht, hu⟩]
          rw [if_neg hu]
          simp [this, hpid _ hm]
  -- properties of the content of o2
  have hgood : ∀ id c2, get o2.cells id = some c2 → ∃ c, get o.cells id = some c ∧ c2.elem ≠ .polygon ∧
      c2.elem ≠ .polyhedron ∧ c2.pid = c.pid ∧
      canon o.type ((keptOf o.verts (vertexIds c) []).map Prod.snd).length = some c2.elem ∧
      positions o.verts c2 = (keptOf o.verts (vertexIds c) []).map Prod.snd ∧
      (∀ v ∈ vertexIds c2, has o.verts v = true) := by
    intro id c2 h
    rw [hg2] at h
    cases hg : get o.cells id with
    | none => rw [hg] at h; cases h
    | some c =>
      rw [hg] at h
      dsimp only at h
      have hm := get_some_mem hg
      have hcc := hcan _ hm
      have hvc := hv _ hm
      dsimp only at hcc hvc
      have hnt := newType_canon hcc hvc
      obtain ⟨hsh, hpk⟩ := positions_kept hvc
      by_cases ht : newType o c = c.elem
      · rw [if_pos ht] at h
        injection h with h; subst h
        obtain ⟨a1, a2, a3, _, _⟩ := canon_some hcc
        have hcn : canon o.type ((keptOf o.verts (vertexIds c) []).map Prod.snd).length = some c.elem := by
          rw [ht] at hnt
          cases hq : canon o.type ((keptOf o.verts (vertexIds c) []).map Prod.snd).length with
          | none => rw [hq] at hnt; exact absurd hnt a1
          | some e => rw [hq] at hnt; simp at hnt; rw [hnt]
        refine ⟨c, rfl, a2, a3, rfl, hcn, ?_, hvc⟩
        have hlen := canon_inj hcn hcc
        refine (hsh.sub.eq_of_length ?_).symm
        rw [hlen, length_positions hvc, canon_vertexIds hcc]
      · rw [if_neg ht] at h
        by_cases hu : newType o c = .undefined
        · rw [if_pos hu] at h; cases h
        · rw [if_neg hu] at h
          injection h with h
          have hcn : canon o.type ((keptOf o.verts (vertexIds c) []).map Prod.snd).length = some (newType o c) := by
            cases hq : canon o.type ((keptOf o.verts (vertexIds c) []).map Prod.snd).length with
            | none => rw [hq] at hnt; exact absurd hnt hu
            | some e => rw [hq] at hnt; simp at hnt; rw [hnt]
          obtain ⟨a1, a2, a3, _, _⟩ := canon_some hcn
          have hvi : vertexIds c2 = (keptOf o.verts (vertexIds c) []).map Prod.fst := by
            have : Canon o.type c2 := by
              subst h
              unfold Canon
              simp only [length_map] at hcn ⊢
              exact hcn
            rw [canon_vertexIds this, ← h]
          refine ⟨c, rfl, ?_, ?_, ?_, ?_, ?_, ?_⟩
          · rw [← h]; exact a2
          · rw [← h]; exact a3
          · rw [← h]
          · rw [← h]; exact hcn
          · unfold positions; rw [hvi]; exact hpk
          · intro v hvv
            rw [hvi] at hvv
            obtain ⟨_, _, ⟨l, h3, h4⟩, _⟩ := keptOf_spec o.verts (vertexIds c) [] hvc (by intro e he; cases he) (by simp)
            rw [nil_append] at h3
            rw [h3] at hvv
            exact hvc v (h4.subset hvv)
  have hg3 : ∀ id, get o3.cells id = (get o2.cells id).map (fun c => if s.vmap = [] then c else renumber s.vmap c) := by
    intro id
    show get (if s.vmap = [] then o2 else { o2 with cells := o2.cells.map (fun c => (c.1, renumber s.vmap c.2)) }).cells id = _
    by_cases hvm : s.vmap = []
    · rw [if_pos hvm]; simp [hvm]
    · rw [if_neg hvm]; simp only [hvm, if_false]; rw [get_mapv (renumber s.vmap)]
  have hok2 : Ok o2.cells := by
    unfold Ok
    rw [ho2, map_append, nodup_append]
    refine ⟨(filter_sublist.map Prod.fst).nodup hok, by simpa [map_map, Function.comp_def] using hnid, ?_⟩
    rintro a ha b hb rfl
    simp only [map_map, mem_map, Function.comp_apply] at hb
    obtain ⟨e, he, rfl⟩ := hb
    have := hfree e he
    rw [(has_iff _ _).2 ha] at this; cases this
  have hok3 : Ok o3.cells := by
    show Ok (if s.vmap = [] then o2 else { o2 with cells := o2.cells.map (fun c => (c.1, renumber s.vmap c.2)) }).cells
    split
    · exact hok2
    · unfold Ok at hok2 ⊢; simpa [map_map, Function.comp_def] using hok2
  have hbody : degradeBody o false = some (if s.del = [] then o3 else unsyncTri o3) := by
    unfold degradeBody
    have : (if false = true then some ([] : List Nat) else none) = none := rfl
    rw [this, hs]; rfl
  have hcells : (if s.del = [] then o3 else unsyncTri o3).cells = o3.cells := by split <;> rfl
  have hverts : (if s.del = [] then o3 else unsyncTri o3).verts = o3.verts := by split <;> rfl
  refine ⟨_, hbody, hverts.trans ho3v, hcells ▸ hok3, ?_, ?_, ?_⟩
  · intro id hn
    rw [hcells, hg3, hg2, hn]; rfl
  · intro id c hg
    rw [hcells, hg3]
    have hm := get_some_mem hg
    obtain ⟨hsh, _⟩ := positions_kept (hv _ hm)
    refine ⟨_, hsh, ?_⟩
    cases hg2' : get o2.cells id with
    | none =>
      have : canon o.type ((keptOf o.verts (vertexIds c) []).map Prod.snd).length = none := by
        rw [hg2, hg] at hg2'
        dsimp only at hg2'
        have hnt := newType_canon (hcan _ hm) (hv _ hm)
        dsimp only at hnt
        split at hg2'
        · cases hg2'
        · split at hg2'
          · next hu =>
            cases hq : canon o.type ((keptOf o.verts (vertexIds c) []).map Prod.snd).length with
            | none => rfl
            | some e =>
              rw [hq] at hnt
              exact absurd (hnt.symm.trans hu) (canon_some hq).1
          · cases hg2'
      rw [this]; rfl
    | some c2 =>
      obtain ⟨c', hc', a2, a3, a4, a5, a6, a7⟩ := hgood id c2 hg2'
      rw [hg] at hc'; cases hc'
      rw [a5]
      refine ⟨_, rfl, ?_, ?_, ?_⟩
      · split <;> rfl
      · split <;> exact a4
      · split
        · exact a6
        · rw [renumber_pos hsp a2 a3]; exact a6
  · intro c hc
    rw [hcells] at hc
    have hgc := get_of_mem hok3 hc
    rw [hg3, Option.map_eq_some_iff] at hgc
    obtain ⟨c2, hc2, he⟩ := hgc
    obtain ⟨c', hc', a2, a3, a4, a5, a6, a7⟩ := hgood c.1 c2 hc2
    rw [← he]
    split
    · exact ⟨a2, a3, a7⟩
    · refine ⟨a2, a3, fun v hvv => ?_⟩
      rw [vertexIds_renumber a2 a3] at hvv
      obtain ⟨w, hw, rfl⟩ := mem_map.1 hvv
      rw [has_eq_isSome, renumId_pos hsp, ← has_eq_isSome]
      exact a7 w hw

/-- C40, meshes of triangles, quadrilaterals, tetrahedra, pyramids, wedges, hexahedra, vertices or lines, no list of
collapsed vertices asked for: the call succeeds; vertices stay; no cell appears at a new id; each cell is replaced, at
the same id and with the same PID, by the element of its mesh type on its distinct positions, or deleted if there is
no such element.  Missing: polygons, pixels, voxels (see the failures), edges of the new element, shared vertices. -/
theorem C40_degrade_partial {o : Obj P} (ht : TreeOk o) (hok : Ok o.cells) (hcm : complete o = true)
    (hcan : ∀ c ∈ o.cells, Canon o.type c.2) (hpid : ∀ c ∈ o.cells, toInt32 c.2.pid = c.2.pid) :
    ∃ o', degrade o false = some o' ∧ o'.verts = o.verts ∧ Ok o'.cells ∧
      (∀ id, get o.cells id = none → get o'.cells id = none) ∧
      (∀ id c, get o.cells id = some c → Degraded o.verts o.type c (get o'.cells id)) := by
  obtain ⟨o1, h1, hv, hok', hn, hd, hc⟩ := degradeBody_spec hok hcm hcan hpid
  have hst := st_degradeBody false h1
  have ht1 : TreeOk o1 := treeOk_of ht hst.type hst.tree hst.skd
  have hcm1 : complete o1 = true := by
    unfold complete
    rw [all_eq_true]
    intro c hcc
    rw [all_eq_true]
    intro v hvv
    rw [hv]
    exact (hc c hcc).2.2 v hvv
  obtain ⟨o2, h2⟩ := update_succeeds ht1 hcm1
  have hm := update_mesh h2
  refine ⟨o2, ?_, by rw [hm.verts, hv], by rw [hm.cells]; exact hok', ?_, ?_⟩
  · unfold degrade; rw [h1]; exact h2
  · intro id; rw [hm.cells]; exact hn id
  · intro id; rw [hm.cells]; exact hd id

/-- C40: of such a mesh, a cell without coincident vertices keeps element, PID and positions. -/
theorem C40_valid_kept_partial {o o' : Obj P} (ht : TreeOk o) (hok : Ok o.cells) (hcm : complete o = true)
    (hcan : ∀ c ∈ o.cells, Canon o.type c.2) (hpid : ∀ c ∈ o.cells, toInt32 c.2.pid = c.2.pid)
    (hd : degrade o false = some o') {id : Nat} {c : Cell} (hg : get o.cells id = some c)
    (hn : (positions o.verts c).Nodup) :
    ∃ c', get o'.cells id = some c' ∧ c'.elem = c.elem ∧ c'.pid = c.pid ∧
      positions o'.verts c' = positions o.verts c := by
  obtain ⟨o2, h1, h2, _, _, h5⟩ := C40_degrade_partial ht hok hcm hcan hpid
  rw [hd] at h1; injection h1 with h1; subst h1
  obtain ⟨qs, hq, hr⟩ := h5 id c hg
  have hm := get_some_mem hg
  have hcc : Canon o.type c := hcan _ hm
  have hvc : ∀ v ∈ vertexIds c, has o.verts v = true := by
    unfold complete at hcm
    rw [all_eq_true] at hcm
    intro v hv
    exact all_eq_true.1 (hcm _ hm) v hv
  have he := hq.eq_of_nodup hn
  have hl : qs.length = c.conn.length := by rw [he, length_positions hvc, canon_vertexIds hcc]
  unfold Canon at hcc
  rw [hl, hcc] at hr
  obtain ⟨c', a, b, d, e⟩ := hr
  exact ⟨c', a, b, d, by rw [h2, e, he]⟩

/-- C40: if no cell of such a mesh has coincident vertices, the cells are left exactly as they are. -/
theorem C40_valid_mesh_untouched {o o' : Obj P} (hcm : complete o = true)
    (hcan : ∀ c ∈ o.cells, Canon o.type c.2) (hn : ∀ c ∈ o.cells, (positions o.verts c.2).Nodup) (fill : Bool)
    (hd : degrade o fill = some o') : o'.cells = o.cells ∧ o'.verts = o.verts ∧ o'.pids = o.pids := by
  have hv : ∀ c ∈ o.cells, ∀ v ∈ vertexIds c.2, has o.verts v = true := by
    intro c hc v hvc
    unfold complete at hcm
    rw [all_eq_true] at hcm
    exact all_eq_true.1 (hcm c hc) v hvc
  have hstep : ∀ c ∈ o.cells, ∀ s s' : Degr, s.vmap = [] → s.del = [] → s.ins = [] → degrStep o s c = some s' →
      s'.vmap = [] ∧ s'.del = [] ∧ s'.ins = [] := by
    intro c hc s s' h1 h2 h3 he
    unfold degrStep at he
    split at he
    · cases he
    · next kept vmap fl hu =>
      have hl : Located o.verts ([] : List (Nat × P)) := by intro e he; cases he
      obtain ⟨k1, _, _, k4, k5⟩ := uniq_some o _ [] _ _ hu hl
      dsimp only at k1 k4 k5 he
      obtain ⟨hsh, _⟩ := positions_kept (hv c hc)
      have hlen : kept.length = (vertexIds c.2).length := by
        have := congrArg length (hsh.eq_of_nodup (hn c hc))
        rw [length_map, length_positions (hv c hc)] at this
        rw [k1]; exact this
      have hvm : vmap = s.vmap := k5 (by simpa using hlen)
      have hcc := hcan c hc
      obtain ⟨_, _, _, h8, h41⟩ := canon_some hcc
      have ht : desume o.type ((kept.map Prod.fst).map Int.ofNat) = c.2.elem := by
        rw [canon_vertexIds hcc] at hlen
        rw [desume_canon (by simp only [length_map]; omega) (by intro h; have := h41 h; simp only [length_map]; omega)]
        simp only [length_map, hlen]
        unfold Canon at hcc
        rw [hcc]; rfl
      rw [if_neg (by simpa using ht)] at he
      injection he with he; subst he
      exact ⟨hvm.trans h1, h2, h3⟩
  have hfold : ∀ (cs : List (Nat × Cell)) (s s' : Degr), (∀ c ∈ cs, c ∈ o.cells) → s.vmap = [] → s.del = [] → s.ins = [] →
      cs.foldlM (degrStep o) s = some s' → s'.vmap = [] ∧ s'.del = [] ∧ s'.ins = [] := by
    intro cs
    induction cs with
    | nil => intro s s' _ h1 h2 h3 he; injection he with he; subst he; exact ⟨h1, h2, h3⟩
    | cons c cs ih =>
      intro s s' hs h1 h2 h3 he
      rw [foldlM_cons] at he
      simp only [Option.bind_eq_bind, Option.bind_eq_some_iff] at he
      obtain ⟨s1, e1, e2⟩ := he
      obtain ⟨g1, g2, g3⟩ := hstep c (hs c (by simp)) s s1 h1 h2 h3 e1
      exact ih s1 s' (fun c h => hs c (by simp [h])) g1 g2 g3 e2
  unfold degrade at hd
  rw [Option.bind_eq_some_iff] at hd
  obtain ⟨o1, hb, hu⟩ := hd
  unfold degradeBody at hb
  rw [Option.map_eq_some_iff] at hb
  obtain ⟨s, hs, he⟩ := hb
  obtain ⟨g1, g2, g3⟩ := hfold o.cells _ s (fun _ h => h) rfl rfl rfl hs
  have hf : o.cells.filter (fun c => ! s.del.contains c.1) = o.cells := by rw [g2]; simp
  simp only [g1, g3, hf, foldl_nil, if_true] at he
  rw [if_pos g2] at he
  have hm := update_mesh hu
  subst he
  exact ⟨hm.cells, hm.verts, hm.pids⟩

/-- a quadrilateral with two coincident corners, a valid triangle, and a quadrilateral with three coincident corners -/
def demoDegr : Obj Int :=
  { demo with
    verts := [(0, 10), (1, 20), (2, 30), (3, 30), (4, 40), (5, 30)]
    cells := [(8, ⟨.quad, [0, 1, 2, 3], 5, true⟩), (3, ⟨.triangle, [1, 2, 4], 6, true⟩),
      (4, ⟨.quad, [2, 3, 5, 4], 6, true⟩)] }

example : TreeOk demoDegr ∧ Ok demoDegr.cells ∧ complete demoDegr = true ∧
    (∀ c ∈ demoDegr.cells, Canon demoDegr.type c.2) ∧ (∀ c ∈ demoDegr.cells, toInt32 c.2.pid = c.2.pid) ∧
    (degrade demoDegr false).map (·.cells) =
      some [(3, ⟨.triangle, [1, 2, 4], 6, true⟩), (8, ⟨.triangle, [0, 1, 2], 5, true⟩)] := by
  refine ⟨⟨by decide, by decide⟩, by unfold Ok; decide, by decide, ?_, by decide, by decide⟩
  unfold Canon; decide

example : complete demo = true ∧ (∀ c ∈ demo.cells, Canon demo.type c.2) ∧
    (∀ c ∈ demo.cells, (positions demo.verts c.2).Nodup) ∧ ∃ o', degrade demo true = some o' := by
  refine ⟨by decide, by unfold Canon; decide, by decide, ?_⟩
  rw [← Option.isSome_iff_exists]; decide

/-! ### What C40 does not hold for -/

/-- a valid pentagon is deleted -/
theorem C40_polygon_fails : ∃ o : Obj Int, (∀ c ∈ o.cells, (positions o.verts c.2).Nodup) ∧ complete o = true ∧
    o.cells.length = 1 ∧ (degrade o false).map (·.cells) = some [] :=
  ⟨{ demo with
      verts := [(0, 0), (1, 1), (2, 2), (3, 3), (5, 5)], cells := [(0, ⟨.polygon, [5, 0, 1, 2, 3, 5], 0, true⟩)] },
    by decide, by decide, by decide, by decide⟩

/-- a valid pixel becomes a quadrilateral on the same vertices in the same order, whose sides are not those of the
pixel -/
theorem C40_pixel_fails : ∃ (o : Obj Int) (c c' : Cell), o.cells = [(0, c)] ∧ (positions o.verts c).Nodup ∧
    complete o = true ∧ (degrade o false).map (·.cells) = some [(0, c')] ∧ c'.elem ≠ c.elem ∧
    ∃ e ∈ edgesOf c', e ∉ edgesOf c ∧ (e.2, e.1) ∉ edgesOf c :=
  ⟨{ demo with
      verts := [(0, 0), (1, 1), (2, 2), (3, 3)], cells := [(0, ⟨.pixel, [0, 1, 2, 3], 0, true⟩)] },
    ⟨.pixel, [0, 1, 2, 3], 0, true⟩, ⟨.quad, [0, 1, 2, 3], 0, true⟩, by decide, by decide, by decide, by decide,
    by decide, (1, 2), by decide, by decide⟩

/-- likewise a valid voxel becomes a hexahedron -/
theorem C40_voxel_fails : ∃ (o : Obj Int) (c c' : Cell), o.cells = [(0, c)] ∧ (positions o.verts c).Nodup ∧
    complete o = true ∧ (degrade o false).map (·.cells) = some [(0, c')] ∧ c'.elem ≠ c.elem ∧
    ∃ e ∈ edgesOf c', e ∉ edgesOf c ∧ (e.2, e.1) ∉ edgesOf c :=
  ⟨{ demo with
      type := 2
      verts := [(0, 0), (1, 1), (2, 2), (3, 3), (4, 4), (5, 5), (6, 6), (7, 7)]
      cells := [(0, ⟨.voxel, [0, 1, 2, 3, 4, 5, 6, 7], 0, true⟩)] },
    ⟨.voxel, [0, 1, 2, 3, 4, 5, 6, 7], 0, true⟩, ⟨.hexahedron, [0, 1, 2, 3, 4, 5, 6, 7], 0, true⟩, by decide, by decide,
    by decide, by decide, by decide, (1, 2), by decide, by decide⟩

/-- a hexahedron with two collapsed vertical edges becomes a wedge with an edge that joins positions no edge of the
hexahedron joins (the vertices are kept in the order of the hexahedron) -/
theorem C40_hexahedron_fails : ∃ (o : Obj Int) (c c' : Cell), o.cells = [(0, c)] ∧ complete o = true ∧
    (degrade o false).map (·.cells) = some [(0, c')] ∧ c'.elem = .wedge ∧
    ∃ e ∈ edgesOf c', ∀ f ∈ edgesOf c, ¬ (get o.verts f.1 = get o.verts e.1 ∧ get o.verts f.2 = get o.verts e.2) ∧
      ¬ (get o.verts f.2 = get o.verts e.1 ∧ get o.verts f.1 = get o.verts e.2) :=
  ⟨{ demo with
      type := 2
      verts := [(0, 0), (1, 1), (2, 2), (3, 3), (4, 0), (5, 1), (6, 6), (7, 7)]
      cells := [(0, ⟨.hexahedron, [0, 1, 2, 3, 4, 5, 6, 7], 0, true⟩)] },
    ⟨.hexahedron, [0, 1, 2, 3, 4, 5, 6, 7], 0, true⟩, ⟨.wedge, [0, 1, 2, 3, 6, 7], 0, true⟩, by decide, by decide,
    by decide, by decide, (2, 0), by decide, by decide⟩

/-- two quadrilaterals that meet at a collapsed side, and a third that shares a side with the second: afterwards each
uses the vertex the other one dropped, and a vertex dropped is still in use -/
theorem C40_shared_fails : ∃ (o : Obj Int), complete o = true ∧
    (degrade o false).map (·.cells) = some [(2, ⟨.triangle, [2, 4, 6], 0, true⟩), (0, ⟨.triangle, [0, 1, 3], 0, true⟩),
      (1, ⟨.triangle, [2, 4, 5], 0, true⟩)] ∧
    o.cells = [(0, ⟨.quad, [0, 1, 2, 3], 0, true⟩), (1, ⟨.quad, [3, 2, 4, 5], 0, true⟩),
      (2, ⟨.triangle, [3, 4, 6], 0, true⟩)] ∧ get o.verts 2 = get o.verts 3 :=
  ⟨{ demo with
      verts := [(0, 0), (1, 1), (2, 2), (3, 2), (4, 4), (5, 5), (6, 6)]
      cells := [(0, ⟨.quad, [0, 1, 2, 3], 0, true⟩), (1, ⟨.quad, [3, 2, 4, 5], 0, true⟩),
        (2, ⟨.triangle, [3, 4, 6], 0, true⟩)] }, by decide, by decide, by decide, by decide⟩

/-- when the collapsed vertices are asked for, two cells that drop the same vertex make the call throw -/
theorem C40_collapsed_list_fails : ∃ o : Obj Int, complete o = true ∧ (∀ c ∈ o.cells, Canon o.type c.2) ∧
    degrade o true = none ∧ (degrade o false).isSome = true := by
  refine ⟨{ demo with
      verts := [(0, 0), (1, 1), (2, 2), (3, 2), (4, 4), (5, 5)]
      cells := [(0, ⟨.quad, [0, 1, 2, 3], 0, true⟩), (1, ⟨.quad, [2, 3, 4, 5], 0, true⟩)] }, by decide, ?_, by decide,
    by decide⟩
  unfold Canon; decide

end Verif.Mesh
