import Verif.Mesh.EditProps
/-
C36 (consecutive numbering), C37 (cell/vertex lists), C58 (interface lists), C59 (inverse connectivity),
C46 (displacement fields).
-/
namespace Verif.Mesh
open Verif.Field
open List hiding get

variable {P : Type}

theorem get_mapSet {α : Type} (m : Data α) (k : Nat) (v : α) (j : Nat) :
    get (mapSet m k v) j = if j = k then some v else get m j := by
  unfold mapSet
  split
  · next h =>
    rw [get_setAt]
    by_cases hj : j = k
    · subst hj
      rw [has_eq_isSome] at h
      rw [if_pos rfl]
      cases hg : get m j with
      | none => rw [hg] at h; simp at h
      | some x => simp [hg]
    · simp [hj]
  · next h =>
    rw [get_append, get_single]
    by_cases hj : j = k
    · subst hj
      rw [get_none_of_has (by simpa using h)]
      simp
    · rw [if_neg (Ne.symm hj), if_neg hj, Option.or_none]

/-! ### C36 -/

theorem inv_fold : ∀ (l : List Nat) (acc : Data Nat) (n : Nat), l.Nodup → (∀ x ∈ l, get acc x = none) → ∀ id,
    get (l.foldl (fun (s : Data Nat × Nat) v => (mapSet s.1 v s.2, s.2 + 1)) (acc, n)).1 id =
      if id ∈ l then some (n + l.idxOf id) else get acc id := by
  intro l
  induction l with
  | nil => intro acc n _ _ id; simp
  | cons a l ih =>
    intro acc n hn hf id
    rw [nodup_cons] at hn
    rw [foldl_cons, ih _ _ hn.2]
    · by_cases h1 : id ∈ l
      · have : ¬ a = id := by rintro rfl; exact hn.1 h1
        rw [if_pos h1, if_pos (by simp [h1]), idxOf_cons, beq_eq_false_iff_ne.2 this]
        simp only [cond_false, Option.some.injEq]; omega
      · rw [if_neg h1, get_mapSet]
        by_cases h2 : id = a
        · subst h2; simp
        · rw [if_neg h2, if_neg (by simp [h1, h2])]
    · intro x hx
      rw [get_mapSet, if_neg (by rintro rfl; exact hn.1 hx)]
      exact hf x (by simp [hx])

theorem get_mapDataInv (o : Obj P) (hok : Ok o.verts) (id : Nat) :
    get (mapDataInv o) id = if has o.verts id then some ((o.verts.map Prod.fst).idxOf id) else none := by
  have h := inv_fold (o.verts.map Prod.fst) [] 0 hok (by intro x _; rfl) id
  rw [foldl_map] at h
  unfold mapDataInv
  rw [h]
  by_cases hh : has o.verts id = true
  · rw [if_pos ((has_iff ..).1 hh), if_pos hh]; simp
  · rw [if_neg (fun h' => hh ((has_iff ..).2 h')), if_neg hh]; rfl

theorem fwd_fold (f : Nat → Option Nat) : ∀ (l : List Nat) (acc : Data Nat), l.Nodup →
    (∀ a ∈ l, ∀ b ∈ l, ∀ k, f a = some k → f b = some k → a = b) → ∀ k id,
    get (l.foldl (fun m v => match f v with
      | some k => mapSet m k v
      | none => m) acc) k = some id ↔
      (id ∈ l ∧ f id = some k) ∨ ((∀ v ∈ l, f v ≠ some k) ∧ get acc k = some id) := by
  intro l
  induction l with
  | nil => intro acc _ _ k id; simp
  | cons a l ih =>
    intro acc hn hinj k id
    rw [nodup_cons] at hn
    rw [foldl_cons, ih _ hn.2 (fun x hx y hy => hinj x (by simp [hx]) y (by simp [hy]))]
    cases hfa : f a with
    | none =>
      simp only
      constructor
      · rintro (⟨h1, h2⟩ | ⟨h1, h2⟩)
        · exact Or.inl ⟨by simp [h1], h2⟩
        · refine Or.inr ⟨?_, h2⟩
          intro v hv
          rcases mem_cons.1 hv with rfl | hv
          · rw [hfa]; simp
          · exact h1 v hv
      · rintro (⟨h1, h2⟩ | ⟨h1, h2⟩)
        · rcases mem_cons.1 h1 with rfl | h1
          · rw [hfa] at h2; cases h2
          · exact Or.inl ⟨h1, h2⟩
        · exact Or.inr ⟨fun v hv => h1 v (by simp [hv]), h2⟩
    | some k' =>
      simp only
      rw [get_mapSet]
      constructor
      · rintro (⟨h1, h2⟩ | ⟨h1, h2⟩)
        · exact Or.inl ⟨by simp [h1], h2⟩
        · by_cases hk : k = k'
          · subst hk
            simp only [if_true, Option.some.injEq] at h2
            subst h2
            exact Or.inl ⟨by simp, hfa⟩
          · rw [if_neg hk] at h2
            refine Or.inr ⟨?_, h2⟩
            intro v hv
            rcases mem_cons.1 hv with rfl | hv
            · rw [hfa]; simp only [ne_eq, Option.some.injEq]; exact fun h => hk h.symm
            · exact h1 v hv
      · rintro (⟨h1, h2⟩ | ⟨h1, h2⟩)
        · rcases mem_cons.1 h1 with rfl | h1
          · rw [hfa] at h2
            injection h2 with h2
            subst h2
            refine Or.inr ⟨?_, by simp⟩
            intro v hv hfv
            have := hinj v (by simp [hv]) id (by simp) _ hfv hfa
            subst this
            exact hn.1 hv
          · exact Or.inl ⟨h1, h2⟩
        · refine Or.inr ⟨fun v hv => h1 v (by simp [hv]), ?_⟩
          rw [if_neg]
          · exact h2
          · rintro rfl
            exact h1 a (by simp) hfa

theorem idxOf_inj {l : List Nat} {a b : Nat} (ha : a ∈ l) (hb : b ∈ l) (h : l.idxOf a = l.idxOf b) : a = b := by
  have h1 := getElem_idxOf (idxOf_lt_length_of_mem ha)
  have h2 := getElem_idxOf (idxOf_lt_length_of_mem hb)
  rw [← h1, ← h2]
  congr 1

/-- the documented meaning: two maps inverse of each other between the ids in `ids` and `0 … n-1` -/
def InverseMaps (inv fwd : Data Nat) (ids : List Nat) : Prop :=
  (∀ id k, get inv id = some k ↔ get fwd k = some id) ∧
  (∀ id, (get inv id).isSome ↔ id ∈ ids) ∧
  (∀ k, (get fwd k).isSome ↔ k < ids.length)

/-- C36, vertices: the two maps are mutually inverse bijections between the vertex ids and `0 … n-1`. -/
theorem C36_vertices (o : Obj P) (hok : Ok o.verts) :
    InverseMaps (mapDataInv o) (mapData o) (o.verts.map Prod.fst) := by
  have hinv := get_mapDataInv o hok
  have hfwd : ∀ k id, get (mapData o) k = some id ↔ (id ∈ o.verts.map Prod.fst ∧ get (mapDataInv o) id = some k) := by
    intro k id
    have h := fwd_fold (get (mapDataInv o)) (o.verts.map Prod.fst) [] hok (by
      intro a ha b hb k h1 h2
      rw [hinv, if_pos ((has_iff ..).2 ha)] at h1
      rw [hinv, if_pos ((has_iff ..).2 hb)] at h2
      apply idxOf_inj ha hb
      rw [← h2] at h1
      injection h1) k id
    rw [foldl_map] at h
    refine Iff.trans h ?_
    constructor
    · rintro (h | ⟨_, h⟩)
      · exact h
      · cases h
    · exact Or.inl
  have hdom : ∀ id, (get (mapDataInv o) id).isSome ↔ id ∈ o.verts.map Prod.fst := by
    intro id
    rw [hinv, ← has_iff]
    by_cases h : has o.verts id = true <;> simp [h]
  refine ⟨?_, hdom, ?_⟩
  · intro id k
    rw [hfwd]
    constructor
    · intro h
      exact ⟨(hdom id).1 (by rw [h]; rfl), h⟩
    · exact And.right
  · intro k
    constructor
    · intro h
      obtain ⟨id, hid⟩ := Option.isSome_iff_exists.1 h
      obtain ⟨h1, h2⟩ := (hfwd k id).1 hid
      rw [hinv, if_pos ((has_iff ..).2 h1)] at h2
      injection h2 with h2
      rw [← h2]
      exact idxOf_lt_length_of_mem h1
    · intro h
      have h1 : (o.verts.map Prod.fst)[k] ∈ o.verts.map Prod.fst := getElem_mem h
      have h2 : get (mapDataInv o) (o.verts.map Prod.fst)[k] = some k := by
        rw [hinv, if_pos ((has_iff ..).2 h1)]
        congr 1
        exact hok.idxOf_getElem k h
      rw [(hfwd k _).2 ⟨h1, h2⟩]; rfl

example : Ok demo.verts ∧ mapDataInv demo = [(0, 0), (1, 1), (2, 2), (7, 3)] ∧
    mapData demo = [(0, 0), (1, 1), (2, 2), (3, 7)] := by
  refine ⟨by unfold Ok; decide, by decide, by decide⟩

theorem get_zipIdx : ∀ (l : List Nat) (n id : Nat),
    get (l.zipIdx n) id = if id ∈ l then some (n + l.idxOf id) else none := by
  intro l
  induction l with
  | nil => intro n id; simp [Verif.Field.get]
  | cons a l ih =>
    intro n id
    rw [zipIdx_cons, get_cons, ih]
    by_cases h : a = id
    · subst h; simp
    · have h' : ¬ id = a := Ne.symm h
      rw [if_neg h, idxOf_cons, beq_eq_false_iff_ne.2 h]
      simp only [mem_cons, h', false_or, cond_false]
      split
      · simp only [Option.some.injEq]; omega
      · rfl

/-- the stored numbering covers exactly the present cells (in any order): it is up to date -/
def Numbered (o : Obj P) : Prop := ∃ l, o.info.val = some l ∧ l.Perm (cellIds o)

theorem get_consecutive (o : Obj P) {l : List Nat} (h : o.info.val = some l) (id : Nat) :
    get (consecutive o) id = if id ∈ l then some (l.idxOf id) else none := by
  unfold consecutive
  rw [h, Option.getD_some, get_zipIdx]; simp

/-- C36, cells, with ghosts: when the numbering is up to date, the two maps are mutually inverse bijections
between the cell ids and `0 … n-1`. -/
theorem C36_cells (o : Obj P) (hok : Ok o.cells) (hn : Numbered o) :
    ∃ fwd inv, mapCell o true = some fwd ∧ mapCellInv o true = some inv ∧ InverseMaps inv fwd (cellIds o) := by
  obtain ⟨l, hl, hp⟩ := hn
  have hcons := get_consecutive o hl
  have hln : l.Nodup := hp.nodup_iff.2 hok
  have hmem : ∀ x, x ∈ l ↔ x ∈ cellIds o := fun x => hp.mem_iff
  -- the monadic loop never fails
  have hloop : ∀ (cs : Data Cell) (acc : Data Nat), (∀ c ∈ cs, c ∈ o.cells) →
      cs.foldlM (fun m c =>
        if true = false ∧ c.2.interior = false then some m
        else (get (consecutive o) c.1).map (fun i => mapSet m i c.1)) acc =
      some ((cs.map Prod.fst).foldl (fun m v => match get (consecutive o) v with
        | some k => mapSet m k v
        | none => m) acc) := by
    intro cs
    induction cs with
    | nil => intro acc _; rfl
    | cons c cs ih =>
      intro acc hc
      rw [foldlM_cons, if_neg (by simp)]
      have h1 : c.1 ∈ l := (hmem _).2 (mem_map_of_mem (hc c (by simp)))
      have h2 : get (consecutive o) c.1 = some (l.idxOf c.1) := by rw [hcons, if_pos h1]
      rw [map_cons, foldl_cons, h2]
      simp only [Option.map_some]
      exact ih _ (fun x hx => hc x (by simp [hx]))
  refine ⟨_, _, hloop o.cells [] (fun c hc => hc), rfl, ?_⟩
  have hfwd := fwd_fold (get (consecutive o)) (o.cells.map Prod.fst) [] hok (by
    intro a ha b hb k h1 h2
    have ha' := (hmem a).2 ha
    have hb' := (hmem b).2 hb
    rw [hcons, if_pos ha'] at h1
    rw [hcons, if_pos hb'] at h2
    apply idxOf_inj ha' hb'
    rw [← h2] at h1
    injection h1)
  refine ⟨?_, ?_, ?_⟩
  · intro id k
    rw [hfwd]
    constructor
    · intro h
      left
      refine ⟨?_, h⟩
      rw [hcons] at h
      split at h
      · next hid => exact (hmem id).1 hid
      · cases h
    · rintro (h | ⟨_, h⟩)
      · exact h.2
      · cases h
  · intro id
    rw [hcons, ← hmem]
    split <;> simp_all
  · intro k
    have hlen : (cellIds o).length = l.length := hp.length_eq.symm
    rw [hlen]
    constructor
    · intro h
      obtain ⟨id, hid⟩ := Option.isSome_iff_exists.1 h
      rcases (hfwd k id).1 hid with ⟨h1, h2⟩ | ⟨_, h2⟩
      · rw [hcons, if_pos ((hmem id).2 h1)] at h2
        injection h2 with h2
        rw [← h2]
        exact idxOf_lt_length_of_mem ((hmem id).2 h1)
      · cases h2
    · intro h
      have h1 : l[k] ∈ l := getElem_mem h
      have h2 : get (consecutive o) l[k] = some k := by
        rw [hcons, if_pos h1]
        congr 1
        exact hln.idxOf_getElem k h
      have := (hfwd k l[k]).2 (Or.inl ⟨(hmem _).1 h1, h2⟩)
      rw [this]; rfl

example : Ok demo.cells ∧ Numbered demo ∧ mapCell demo true = some [(0, 4), (1, 9)] ∧
    mapCellInv demo true = some [(4, 0), (9, 1)] := by
  refine ⟨by unfold Ok; decide, ⟨[4, 9], rfl, Perm.refl _⟩, by decide, by decide⟩

/-- C36 is false for `getMapCellInv(false)`: the consecutive index is used as the id of a cell, which need not
exist. -/
theorem C36_without_ghosts_fails : Ok demo.cells ∧ Numbered demo ∧ (∀ c ∈ demo.cells, c.2.interior = true) ∧
    (mapCell demo false).isSome ∧ mapCellInv demo false = none := by
  refine ⟨by unfold Ok; decide, ⟨[4, 9], rfl, Perm.refl _⟩, by decide, by decide, by decide⟩

/-- two ghosts and an interior cell, with ids a permutation of the indices: no crash, but the wrong cells are
dropped -/
def demoGhost : Obj Int :=
  { demo with
    cells := [(1, ⟨.triangle, [0, 1, 2], 1, true⟩), (0, ⟨.triangle, [1, 2, 7], 1, false⟩)]
    info := ⟨.sync, some [1, 0]⟩ }

/-- C36 is false for `getMapCellInv(false)` also when it does not crash: here it keeps the ghost and drops the
interior cell. -/
theorem C36_wrong_ghosts_fails : Ok demoGhost.cells ∧ Numbered demoGhost ∧
    mapCell demoGhost false = some [(0, 1)] ∧ mapCellInv demoGhost false = some [(0, 1)] := by
  refine ⟨by unfold Ok; decide, ⟨[1, 0], rfl, Perm.refl _⟩, by decide, by decide⟩

/-! ### C37 -/

theorem scan_strict (l vs : List Nat) (b : Bool) :
    scan l true vs b = true ↔ (vs = [] → b = true) ∧ ∀ v ∈ vs, v ∈ l := by
  induction vs generalizing b with
  | nil => simp [scan]
  | cons v vs ih =>
    simp only [scan]
    by_cases h : v ∈ l
    · rw [if_neg (by simp [h]), if_neg (by simp), ih]
      simp [h]
    · rw [if_pos (by simp [h])]
      simp [h]

theorem scan_loose (l vs : List Nat) (b : Bool) (hb : b = false) :
    scan l false vs b = true ↔ ∃ v ∈ vs, v ∈ l := by
  induction vs generalizing b with
  | nil => simp [scan, hb]
  | cons v vs ih =>
    simp only [scan]
    by_cases h : v ∈ l
    · rw [if_neg (by simp), if_pos (by simp [h])]
      simp [h]
    · rw [if_neg (by simp), if_neg (by simp [h]), ih _ (by simp [h])]
      simp [h]

/-- C37: exactly the vertices of the listed (existing) cells, each once. -/
theorem C37_vertices (o : Obj P) (ht : o.type ≠ 3) (l : List Nat) :
    (∀ v, v ∈ vertexFromCells o l ↔ ∃ id ∈ l, ∃ c, get o.cells id = some c ∧ v ∈ vertexIds c) ∧
    (vertexFromCells o l).Nodup := by
  unfold vertexFromCells
  rw [if_neg ht]
  have h : ∀ (l : List Nat) (s : List Nat), s.Nodup →
      (∀ v, v ∈ l.foldl (fun s id => match get o.cells id with
        | some c => (vertexIds c).foldl insSet s
        | none => s) s ↔ v ∈ s ∨ ∃ id ∈ l, ∃ c, get o.cells id = some c ∧ v ∈ vertexIds c) ∧
      (l.foldl (fun s id => match get o.cells id with
        | some c => (vertexIds c).foldl insSet s
        | none => s) s).Nodup := by
    intro l
    induction l with
    | nil => intro s hs; exact ⟨by simp, hs⟩
    | cons id l ih =>
      intro s hs
      rw [foldl_cons]
      cases hg : get o.cells id with
      | none =>
        obtain ⟨i1, i2⟩ := ih s hs
        refine ⟨?_, i2⟩
        intro v
        simp only
        rw [i1]
        simp [hg]
      | some c =>
        obtain ⟨i1, i2⟩ := ih ((vertexIds c).foldl insSet s) (nodup_foldl_insSet _ hs)
        refine ⟨?_, i2⟩
        intro v
        simp only
        rw [i1, mem_foldl_insSet]
        simp [hg, or_assoc]
  obtain ⟨h1, h2⟩ := h l [] (by simp)
  exact ⟨fun v => Iff.trans (h1 v) (by simp), h2⟩

theorem fold_insIf {α : Type} (q : α → Bool) (key : α → Nat) : ∀ (l : List α) (s : List Nat), s.Nodup →
    (∀ x, x ∈ l.foldl (fun s c => if q c then insSet s (key c) else s) s ↔ x ∈ s ∨ ∃ c ∈ l, q c = true ∧ key c = x) ∧
    (l.foldl (fun s c => if q c then insSet s (key c) else s) s).Nodup := by
  intro l
  induction l with
  | nil => intro s hs; exact ⟨by simp, hs⟩
  | cons c l ih =>
    intro s hs
    rw [foldl_cons]
    by_cases hq : q c = true
    · rw [if_pos hq]
      obtain ⟨i1, i2⟩ := ih _ (nodup_insSet hs (key c))
      refine ⟨?_, i2⟩
      intro x
      rw [i1, mem_insSet]
      simp only [mem_cons, exists_eq_or_imp, hq, true_and, or_assoc, @eq_comm _ x]
    · rw [if_neg hq]
      obtain ⟨i1, i2⟩ := ih s hs
      refine ⟨?_, i2⟩
      intro x
      rw [i1]
      simp [hq]

/-- C37: strict: exactly the cells (with at least one vertex) all of whose vertices are listed; not strict: exactly
the cells with at least one listed vertex; each once. -/
theorem C37_cells (o : Obj P) (ht : o.type ≠ 3) (hok : Ok o.cells) (l : List Nat) :
    (∀ id, id ∈ cellFromVertices o l true ↔
      ∃ c, get o.cells id = some c ∧ vertexIds c ≠ [] ∧ ∀ v ∈ vertexIds c, v ∈ l) ∧
    (∀ id, id ∈ cellFromVertices o l false ↔ ∃ c, get o.cells id = some c ∧ ∃ v ∈ vertexIds c, v ∈ l) ∧
    (∀ strict, (cellFromVertices o l strict).Nodup) := by
  unfold cellFromVertices
  simp only [if_neg ht]
  have hmem : ∀ id c, (id, c) ∈ o.cells ↔ get o.cells id = some c :=
    fun id c => ⟨fun h => get_of_mem hok h, get_some_mem⟩
  refine ⟨?_, ?_, ?_⟩
  · intro id
    rw [(fold_insIf (fun c : Nat × Cell => scan l true (vertexIds c.2) false) Prod.fst o.cells [] (by simp)).1]
    constructor
    · rintro (h | ⟨c, hc, hq, rfl⟩)
      · cases h
      · rw [scan_strict] at hq
        exact ⟨c.2, (hmem _ _).1 hc, fun h => by simpa using hq.1 h, hq.2⟩
    · rintro ⟨c, hc, h1, h2⟩
      refine Or.inr ⟨(id, c), (hmem _ _).2 hc, ?_, rfl⟩
      rw [scan_strict]
      exact ⟨fun h => absurd h h1, h2⟩
  · intro id
    rw [(fold_insIf (fun c : Nat × Cell => scan l false (vertexIds c.2) false) Prod.fst o.cells [] (by simp)).1]
    constructor
    · rintro (h | ⟨c, hc, hq, rfl⟩)
      · cases h
      · rw [scan_loose _ _ _ rfl] at hq
        exact ⟨c.2, (hmem _ _).1 hc, hq⟩
    · rintro ⟨c, hc, h1⟩
      refine Or.inr ⟨(id, c), (hmem _ _).2 hc, ?_, rfl⟩
      rw [scan_loose _ _ _ rfl]
      exact h1
  · intro strict
    exact (fold_insIf (fun c : Nat × Cell => scan l strict (vertexIds c.2) false) Prod.fst o.cells [] (by simp)).2

/-- C37: converting cells to vertices and back never loses a listed cell. -/
theorem C37_roundtrip (o : Obj P) (ht : o.type ≠ 3) (hok : Ok o.cells) (l : List Nat) (id : Nat) (hid : id ∈ l)
    (c : Cell) (hc : get o.cells id = some c) (hne : vertexIds c ≠ []) :
    id ∈ cellFromVertices o (vertexFromCells o l) true := by
  rw [(C37_cells o ht hok _).1]
  refine ⟨c, hc, hne, ?_⟩
  intro v hv
  rw [(C37_vertices o ht l).1]
  exact ⟨id, hid, c, hc, hv⟩

example : demo.type ≠ 3 ∧ Ok demo.cells ∧ vertexFromCells demo [4, 77, 4] = [0, 1, 2] ∧
    cellFromVertices demo [0, 1, 2] true = [4] ∧ cellFromVertices demo [7] false = [9] := by
  refine ⟨by decide, by unfold Ok; decide, by decide, by decide, by decide⟩

/-! ### C58 -/

/-- C58: without `all`, exactly the interfaces whose cells (owner, and neighbour unless on the border) are all
listed; with `all`, exactly the interfaces of the listed existing cells; each once. -/
theorem C58_from_cells (o : Obj P) (ht : o.type ≠ 3) (ints : Data Intf) (hi : Ok ints) (of : Nat → List Nat)
    (l : List Nat) :
    (∀ id, id ∈ intfFromCells o ints of l false ↔
      ∃ e, get ints id = some e ∧ e.owner ∈ l ∧ ∀ n, e.neigh = some n → n ∈ l) ∧
    (∀ id, id ∈ intfFromCells o ints of l true ↔ ∃ c ∈ l, has o.cells c = true ∧ id ∈ of c) ∧
    (∀ all, (intfFromCells o ints of l all).Nodup) := by
  unfold intfFromCells
  simp only [if_neg ht, if_true, Bool.false_eq_true, if_false]
  have hfold := fold_insIf (fun e : Nat × Intf =>
    decide (e.2.owner ∈ l) && e.2.neigh.all (fun n => decide (n ∈ l))) Prod.fst ints [] (by simp)
  have hsame : ∀ (s : List Nat), ints.foldl (fun s e =>
      if e.2.owner ∈ l ∧ e.2.neigh.all (fun n => decide (n ∈ l)) = true then insSet s e.1 else s) s =
      ints.foldl (fun s e => if (decide (e.2.owner ∈ l) && e.2.neigh.all (fun n => decide (n ∈ l))) then
        insSet s e.1 else s) s := by
    intro s; congr 1; funext s e
    simp only [Bool.and_eq_true, decide_eq_true_eq]
  rw [← hsame] at hfold
  have hall : ∀ (l : List Nat) (s : List Nat), s.Nodup →
      (∀ x, x ∈ l.foldl (fun s id => if has o.cells id then (of id).foldl insSet s else s) s ↔
        x ∈ s ∨ ∃ c ∈ l, has o.cells c = true ∧ x ∈ of c) ∧
      (l.foldl (fun s id => if has o.cells id then (of id).foldl insSet s else s) s).Nodup := by
    intro l
    induction l with
    | nil => intro s hs; exact ⟨by simp, hs⟩
    | cons c l ih =>
      intro s hs
      rw [foldl_cons]
      by_cases hc : has o.cells c = true
      · rw [if_pos hc]
        obtain ⟨i1, i2⟩ := ih _ (nodup_foldl_insSet (of c) hs)
        refine ⟨?_, i2⟩
        intro x
        rw [i1, mem_foldl_insSet]
        simp [hc, or_assoc]
      · rw [if_neg hc]
        obtain ⟨i1, i2⟩ := ih s hs
        refine ⟨?_, i2⟩
        intro x
        rw [i1]; simp [hc]
  refine ⟨?_, ?_, ?_⟩
  · intro id
    rw [hfold.1]
    constructor
    · rintro (h | ⟨e, he, hq, rfl⟩)
      · cases h
      · simp only [Bool.and_eq_true, decide_eq_true_eq] at hq
        refine ⟨e.2, get_of_mem hi he, hq.1, ?_⟩
        intro n hn
        have := hq.2
        rw [hn] at this
        simpa using this
    · rintro ⟨e, he, h1, h2⟩
      refine Or.inr ⟨(id, e), get_some_mem he, ?_, rfl⟩
      simp only [Bool.and_eq_true, decide_eq_true_eq]
      refine ⟨h1, ?_⟩
      cases hn : e.neigh with
      | none => rfl
      | some n => simpa using h2 n hn
  · intro id
    have := (hall l [] (by simp)).1 id
    simpa using this
  · intro all
    cases all with
    | false => simpa using hfold.2
    | true => simpa using (hall l [] (by simp)).2

/-- C58: the interfaces (only the border ones if asked) all of whose / at least one of whose vertices are listed;
each once. -/
theorem C58_from_vertices (o : Obj P) (ht : o.type ≠ 3) (ints : Data Intf) (hi : Ok ints) (l : List Nat)
    (border : Bool) :
    (∀ id, id ∈ intfFromVertices o ints l true border ↔
      ∃ e, get ints id = some e ∧ (border = true → e.neigh = none) ∧ e.verts ≠ [] ∧ ∀ v ∈ e.verts, v ∈ l) ∧
    (∀ id, id ∈ intfFromVertices o ints l false border ↔
      ∃ e, get ints id = some e ∧ (border = true → e.neigh = none) ∧ ∃ v ∈ e.verts, v ∈ l) ∧
    (∀ strict, (intfFromVertices o ints l strict border).Nodup) := by
  have hsame : ∀ strict, intfFromVertices o ints l strict border =
      ints.foldl (fun s e => if (!(border && e.2.neigh.isSome) && scan l strict e.2.verts false) then
        insSet s e.1 else s) [] := by
    intro strict
    unfold intfFromVertices
    rw [if_neg ht]
    congr 1; funext s e
    cases border <;> cases e.2.neigh <;> simp
  have hfold := fun strict => fold_insIf (fun e : Nat × Intf =>
    !(border && e.2.neigh.isSome) && scan l strict e.2.verts false) Prod.fst ints [] (by simp)
  have hb : ∀ e : Intf, (!(border && e.neigh.isSome)) = true ↔ (border = true → e.neigh = none) := by
    intro e
    cases border <;> cases e.neigh <;> simp
  refine ⟨?_, ?_, ?_⟩
  · intro id
    rw [hsame, (hfold true).1]
    constructor
    · rintro (h | ⟨e, he, hq, rfl⟩)
      · cases h
      · rw [Bool.and_eq_true, hb, scan_strict] at hq
        exact ⟨e.2, get_of_mem hi he, hq.1, fun h => by simpa using hq.2.1 h, hq.2.2⟩
    · rintro ⟨e, he, h1, h2, h3⟩
      refine Or.inr ⟨(id, e), get_some_mem he, ?_, rfl⟩
      rw [Bool.and_eq_true, hb, scan_strict]
      exact ⟨h1, fun h => absurd h h2, h3⟩
  · intro id
    rw [hsame, (hfold false).1]
    constructor
    · rintro (h | ⟨e, he, hq, rfl⟩)
      · cases h
      · rw [Bool.and_eq_true, hb, scan_loose _ _ _ rfl] at hq
        exact ⟨e.2, get_of_mem hi he, hq.1, hq.2⟩
    · rintro ⟨e, he, h1, h2⟩
      refine Or.inr ⟨(id, e), get_some_mem he, ?_, rfl⟩
      rw [Bool.and_eq_true, hb, scan_loose _ _ _ rfl]
      exact ⟨h1, h2⟩
  · intro strict
    rw [hsame]
    exact (hfold strict).2

/-- two triangles sharing the interface 1 -/
def demoInts : Data Intf := [(0, ⟨4, none, [0, 1]⟩), (1, ⟨4, some 9, [1, 2]⟩), (2, ⟨9, none, [2, 7]⟩)]

example : Ok demoInts ∧ intfFromCells demo demoInts (fun _ => [0, 1]) [4] false = [0] ∧
    intfFromCells demo demoInts (fun _ => [0, 1]) [4] true = [0, 1] ∧
    intfFromVertices demo demoInts [1, 2] true false = [1] ∧
    intfFromVertices demo demoInts [1, 2] false true = [0, 2] := by
  refine ⟨by unfold Ok; decide, by decide, by decide, by decide, by decide⟩

/-! ### C59 -/

/-- C59: the inverse connectivity names, for exactly the vertices used by some cell, a cell that has the vertex. -/
theorem C59_inverse (o : Obj P) (hok : Ok o.cells) :
    (∀ v id, get (inverseConn o) v = some id → ∃ c, get o.cells id = some c ∧ v ∈ vertexIds c) ∧
    (∀ v, (get (inverseConn o) v).isSome ↔ ∃ id c, get o.cells id = some c ∧ v ∈ vertexIds c) := by
  have hv : ∀ (vs : List Nat) (id : Nat) (m : Data Nat) (v : Nat),
      get (vs.foldl (fun m v => mapSet m v id) m) v = if v ∈ vs then some id else get m v := by
    intro vs id
    induction vs with
    | nil => intro m v; simp
    | cons w vs ih =>
      intro m v
      rw [foldl_cons, ih, get_mapSet]
      by_cases h1 : v ∈ vs
      · simp [h1]
      · by_cases h2 : v = w
        · simp [h2]
        · simp [h1, h2]
  have hc : ∀ (cs : Data Cell) (m : Data Nat) (v : Nat),
      (∃ c ∈ cs, v ∈ vertexIds c.2 ∧
        get (cs.foldl (fun m c => (vertexIds c.2).foldl (fun m v => mapSet m v c.1) m) m) v = some c.1) ∨
      ((∀ c ∈ cs, v ∉ vertexIds c.2) ∧
        get (cs.foldl (fun m c => (vertexIds c.2).foldl (fun m v => mapSet m v c.1) m) m) v = get m v) := by
    intro cs
    induction cs with
    | nil => intro m v; right; simp
    | cons c cs ih =>
      intro m v
      rw [foldl_cons]
      rcases ih ((vertexIds c.2).foldl (fun m v => mapSet m v c.1) m) v with ⟨d, hd, h1, h2⟩ | ⟨h1, h2⟩
      · exact Or.inl ⟨d, by simp [hd], h1, h2⟩
      · rw [hv] at h2
        by_cases hvc : v ∈ vertexIds c.2
        · rw [if_pos hvc] at h2
          exact Or.inl ⟨c, by simp, hvc, h2⟩
        · rw [if_neg hvc] at h2
          refine Or.inr ⟨?_, h2⟩
          intro d hd
          rcases mem_cons.1 hd with rfl | hd
          · exact hvc
          · exact h1 d hd
  constructor
  · intro v id h
    rcases hc o.cells [] v with ⟨c, hm, h1, h2⟩ | ⟨_, h2⟩
    · have : some c.1 = some id := by rw [← h2]; exact h
      injection this with this
      subst this
      exact ⟨c.2, get_of_mem hok hm, h1⟩
    · have : get (inverseConn o) v = none := h2
      rw [this] at h; cases h
  · intro v
    rcases hc o.cells [] v with ⟨c, hm, h1, h2⟩ | ⟨h1, h2⟩
    · have h3 : get (inverseConn o) v = some c.1 := h2
      rw [h3]
      exact ⟨fun _ => ⟨c.1, c.2, get_of_mem hok hm, h1⟩, fun _ => rfl⟩
    · have h3 : get (inverseConn o) v = none := h2
      rw [h3]
      refine ⟨fun h => (by cases h), ?_⟩
      rintro ⟨id, c, hg, hvc⟩
      exact absurd hvc (h1 (id, c) (get_some_mem hg))

example : Ok demo.cells ∧ inverseConn demo = [(0, 9), (1, 9), (2, 9), (7, 9)] :=
  ⟨by unfold Ok; decide, by decide⟩

/-! ### C46 -/

/-- same vertices, cells, type and PIDs -/
structure SameMesh (o o' : Obj P) : Prop where
  verts : o'.verts = o.verts
  cells : o'.cells = o.cells
  type : o'.type = o.type
  pids : o'.pids = o.pids
  names : o'.names = o.names
  tree : o'.tree = o.tree

theorem SameMesh.refl (o : Obj P) : SameMesh o o := ⟨rfl, rfl, rfl, rfl, rfl, rfl⟩

theorem SameMesh.trans {o o' o'' : Obj P} (h : SameMesh o o') (h' : SameMesh o' o'') : SameMesh o o'' :=
  ⟨h'.verts.trans h.verts, h'.cells.trans h.cells, h'.type.trans h.type, h'.pids.trans h.pids,
    h'.names.trans h.names, h'.tree.trans h.tree⟩

theorem same_updateAdj (o : Obj P) : SameMesh o (updateAdj o) := by
  unfold updateAdj; split <;> exact ⟨rfl, rfl, rfl, rfl, rfl, rfl⟩

theorem same_updateInt (o : Obj P) : SameMesh o (updateInt o) := by
  have h1 : SameMesh o (if o.adj.st ≠ .sync then updateAdj o else o) := by
    split
    · exact same_updateAdj o
    · exact SameMesh.refl o
  refine h1.trans ?_
  unfold updateInt
  simp only
  generalize (if o.adj.st ≠ .sync then updateAdj o else o) = o1
  cases o1.int.st <;> exact ⟨rfl, rfl, rfl, rfl, rfl, rfl⟩

theorem same_buildSkd {o o' : Obj P} (h : buildSkd o = some o') : SameMesh o o' := by
  unfold buildSkd at h
  split at h
  · injection h with h; subst h; exact SameMesh.refl o
  · split at h
    · injection h with h; subst h; exact SameMesh.refl o
    · split at h
      · cases h
      · split at h
        · cases h
        · injection h with h; subst h; exact ⟨rfl, rfl, rfl, rfl, rfl, rfl⟩

theorem same_buildKd (o : Obj P) : SameMesh o (buildKd o) := by
  unfold buildKd; split
  · exact SameMesh.refl o
  · split <;> exact ⟨rfl, rfl, rfl, rfl, rfl, rfl⟩

theorem same_buildPC (o : Obj P) : SameMesh o (buildPC o) := by
  unfold buildPC cleanPC; simp only; split
  · exact ⟨rfl, rfl, rfl, rfl, rfl, rfl⟩
  · split <;> exact ⟨rfl, rfl, rfl, rfl, rfl, rfl⟩

theorem same_stepAdj (o : Obj P) : SameMesh o (stepAdj o) := by
  unfold stepAdj; split
  · exact same_updateAdj o
  · exact SameMesh.refl o

theorem same_stepInt (o : Obj P) : SameMesh o (stepInt o) := by
  unfold stepInt; split
  · exact same_updateInt o
  · exact SameMesh.refl o

theorem same_stepSkd {o o' : Obj P} (h : stepSkd o = some o') : SameMesh o o' := by
  unfold stepSkd at h; split at h
  · exact same_buildSkd h
  · injection h with h; subst h; exact SameMesh.refl o

theorem same_stepKd (o : Obj P) : SameMesh o (stepKd o) := by
  unfold stepKd; split
  · exact same_buildKd o
  · exact SameMesh.refl o

theorem same_stepInfo (o : Obj P) : SameMesh o (stepInfo o) := by
  unfold stepInfo; split <;> exact ⟨rfl, rfl, rfl, rfl, rfl, rfl⟩

theorem same_stepBBox (o : Obj P) : SameMesh o (stepBBox o) := by
  unfold stepBBox; split <;> exact ⟨rfl, rfl, rfl, rfl, rfl, rfl⟩

theorem same_stepPC (o : Obj P) : SameMesh o (stepPC o) := by
  unfold stepPC; split
  · exact same_buildPC o
  · exact SameMesh.refl o

/-- `update` changes neither vertices nor cells nor PIDs -/
theorem update_mesh {o o' : Obj P} (h : update o = some o') : SameMesh o o' := by
  unfold update at h
  simp only [Option.map_eq_some_iff] at h
  obtain ⟨o1, h1, rfl⟩ := h
  exact ((same_stepAdj o).trans (same_stepInt _)).trans ((same_stepSkd h1).trans
    ((same_stepKd o1).trans ((same_stepInfo _).trans ((same_stepBBox _).trans (same_stepPC _)))))

/-- the displacement of a vertex -/
def moved [Add P] (disp : Data P) (j : Nat) (p : P) : P :=
  match get disp j with
  | some d => p + d
  | none => p

theorem applyLoop_spec [Add P] (disp : Data P) : ∀ (ids : List Nat) (o : Obj P), ids.Nodup →
    (∀ j, get (applyLoop disp ids o).verts j =
      if j ∈ ids then (get o.verts j).map (moved disp j) else get o.verts j) ∧
    (applyLoop disp ids o).verts.map Prod.fst = o.verts.map Prod.fst ∧
    (applyLoop disp ids o).cells = o.cells := by
  intro ids
  induction ids with
  | nil => intro o _; exact ⟨by simp [applyLoop], rfl, rfl⟩
  | cons id ids ih =>
    intro o hn
    rw [nodup_cons] at hn
    rw [applyLoop]
    cases hg : get o.verts id with
    | none =>
      simp only
      obtain ⟨i1, i2, i3⟩ := ih o hn.2
      refine ⟨?_, i2, i3⟩
      intro j
      rw [i1]
      by_cases h1 : j = id
      · subst h1; simp [hg, hn.1]
      · simp [h1]
    | some p =>
      simp only
      have hh : has o.verts id = true := by rw [has_eq_isSome, hg]; rfl
      have hmod : ∀ q, (modifyVertex o q id).1.verts = setAt o.verts id q ∧
          (modifyVertex o q id).1.cells = o.cells := by
        intro q; simp [modifyVertex, hh]
      obtain ⟨i1, i2, i3⟩ := ih (modifyVertex o (moved disp id p) id).1 hn.2
      change (∀ j, get (applyLoop disp ids (modifyVertex o (moved disp id p) id).1).verts j = _) ∧
        (applyLoop disp ids (modifyVertex o (moved disp id p) id).1).verts.map Prod.fst = _ ∧
        (applyLoop disp ids (modifyVertex o (moved disp id p) id).1).cells = _
      refine ⟨?_, ?_, ?_⟩
      · intro j
        rw [i1, (hmod _).1, get_setAt]
        by_cases h1 : j = id
        · subst h1; simp [hg, hn.1]
        · have : ¬ id = j := Ne.symm h1
          simp [h1]
      · rw [i2, (hmod _).1, keys_setAt]
      · rw [i3, (hmod _).2]

/-- C46: applying a displacement field adds to each vertex its displacement if present and leaves all other
vertices where they are; ids, cells and PIDs do not change. -/
theorem C46_apply [Add P] (disp : Data P) (o o' : Obj P) (hok : Ok o.verts) (h : applyDisp disp o = some o') :
    (∀ j p, get o.verts j = some p →
      get o'.verts j = some (match get disp j with | some d => p + d | none => p)) ∧
    o'.verts.map Prod.fst = o.verts.map Prod.fst ∧ o'.cells = o.cells := by
  unfold applyDisp at h
  have hs := update_mesh h
  have h1 := hs.verts
  have h2 := hs.cells
  obtain ⟨i1, i2, i3⟩ := applyLoop_spec disp (o.verts.map Prod.fst) o hok
  refine ⟨?_, by rw [h1, i2], by rw [h2, i3]⟩
  intro j p hj
  have : j ∈ o.verts.map Prod.fst := by
    rw [← has_iff, has_eq_isSome, hj]; rfl
  rw [h1, i1, if_pos this, hj]
  rfl

/-- C46: applying the field twice adds the displacements twice. -/
theorem C46_apply_twice [Add P] (disp : Data P) (o o1 o2 : Obj P) (hok : Ok o.verts)
    (h1 : applyDisp disp o = some o1) (h2 : applyDisp disp o1 = some o2) (j : Nat) (p d : P)
    (hj : get o.verts j = some p) (hd : get disp j = some d) : get o2.verts j = some (p + d + d) := by
  have a := C46_apply disp o o1 hok h1
  have b := C46_apply disp o1 o2 (by unfold Ok; rw [a.2.1]; exact hok) h2
  have := b.1 j _ (a.1 j p hj)
  rw [hd] at this
  exact this

example : Ok demo.verts ∧ (applyDisp [(7, 1), (55, 3), (1, 5)] demo).map (·.verts) =
    some [(0, 10), (1, 25), (2, 30), (7, 71)] := by
  refine ⟨by unfold Ok; decide, by decide⟩

end Verif.Mesh
