import Verif.Tree.Band

/-!
C138: cells and vertices close to a surface.
-/

namespace Verif.Tree
open Verif.Shape
noncomputable section
open scoped Classical

/-! ### Specification -/

/-- within the threshold, and connected to a seed by neighbours within the threshold -/
inductive Reach (near : Nat → Prop) (nbrs : Nat → List Nat) (seeds : List Nat) : Nat → Prop
  | seed {c : Nat} : c ∈ seeds → near c → Reach near nbrs seeds c
  | step {c n : Nat} : Reach near nbrs seeds c → n ∈ nbrs c → near n → Reach near nbrs seeds n

/-- a result: ids once each, with their distances -/
def IsBand (f : Nat → ℝ) (P : Nat → Prop) (res : List (Nat × ℝ)) : Prop :=
  (res.map Prod.fst).Nodup ∧ ∀ c d, (c, d) ∈ res ↔ P c ∧ d = f c

/-! ### Invariant -/

theorem seedsIn_spec {f : Nat → ℝ} {m : ℝ} : ∀ (l : List Nat) (acc : List (Nat × ℝ)),
    (∀ c ∈ l, c ∉ acc.map Prod.fst) → l.Nodup →
    seedsIn f m l acc = some (acc ++ (l.filter fun c => f c < m).map fun c => (c, f c))
  | [], acc, _, _ => by simp [seedsIn]
  | c :: l, acc, hn, hl => by
    rw [List.nodup_cons] at hl
    unfold seedsIn
    by_cases h : f c < m
    · rw [if_pos h, if_neg (hn c (by simp)), seedsIn_spec l (acc ++ [(c, f c)]) ?_ hl.2]
      · simp [h]
      · intro c' hc' hm
        simp only [List.map_append, List.map_cons, List.map_nil, List.mem_append, List.mem_singleton] at hm
        rcases hm with hm | rfl
        · exact hn c' (List.mem_cons_of_mem _ hc') hm
        · exact hl.1 hc'
    · rw [if_neg h, seedsIn_spec l acc (fun c' hc' => hn c' (List.mem_cons_of_mem _ hc')) hl.2]
      simp [h]

theorem visit_spec : ∀ (l : List Nat) (st : List Nat × List Nat), st.1.Nodup → st.2.Nodup → (∀ x ∈ st.2, x ∈ st.1) →
    (visit l st).1.Nodup ∧ (visit l st).2.Nodup ∧ (∀ x ∈ (visit l st).2, x ∈ (visit l st).1) ∧
      (∀ x, x ∈ (visit l st).1 ↔ x ∈ st.1 ∨ x ∈ l) ∧
      (∀ x, x ∈ (visit l st).2 ↔ x ∈ st.2 ∨ (x ∈ l ∧ x ∉ st.1)) ∧
      (visit l st).1.length + st.2.length = st.1.length + (visit l st).2.length
  | [], st, h1, h2, h3 => by
    exact ⟨h1, h2, h3, by simp [visit], by simp [visit], by simp [visit]⟩
  | n :: l, st, h1, h2, h3 => by
    unfold visit
    by_cases h : n ∈ st.1
    · rw [if_pos h]
      obtain ⟨a, b, c, d, e, g⟩ := visit_spec l st h1 h2 h3
      refine ⟨a, b, c, fun x => ?_, fun x => ?_, g⟩
      · rw [d, List.mem_cons]
        constructor
        · rintro (h | h) <;> simp [h]
        · rintro (h | rfl | h') <;> simp_all
      · rw [e, List.mem_cons]
        constructor
        · rintro (h | ⟨h, h'⟩) <;> simp_all
        · rintro (h | ⟨rfl | h, h'⟩) <;> simp_all
    · rw [if_neg h]
      have hn2 : n ∉ st.2 := fun hx => h (h3 n hx)
      obtain ⟨a, b, c, d, e, g⟩ := visit_spec l (st.1 ++ [n], st.2 ++ [n])
        (by rw [List.nodup_append]; simp [h1]; intro x hx hxn; subst hxn; exact h hx)
        (by rw [List.nodup_append]; simp [h2]; intro x hx hxn; subst hxn; exact hn2 hx)
        (by intro x hx; simp at hx ⊢; rcases hx with hx | hx; exact Or.inl (h3 x hx); exact Or.inr hx)
      refine ⟨a, b, c, fun x => ?_, fun x => ?_, ?_⟩
      · rw [d]; simp only [List.mem_append, List.mem_singleton, List.mem_cons]; tauto
      · rw [e]; simp only [List.mem_append, List.mem_cons, List.not_mem_nil, or_false]
        constructor
        · rintro ((h | rfl) | ⟨h, h'⟩)
          · exact Or.inl h
          · exact Or.inr ⟨Or.inl rfl, by assumption⟩
          · exact Or.inr ⟨Or.inr h, fun hx => h' (Or.inl hx)⟩
        · rintro (h | ⟨rfl | h, h'⟩)
          · exact Or.inl (Or.inl h)
          · exact Or.inl (Or.inr rfl)
          · by_cases hx : x = n
            · exact Or.inl (Or.inr hx)
            · exact Or.inr ⟨h, fun hy => hy.elim h' hx⟩
      · simp only [List.length_append, List.length_singleton] at g; omega

/-- what holds at any time: `todo` are the cells still to look at in this pass, `next` those of the next pass -/
structure Inv (f : Nat → ℝ) (m : ℝ) (nbrs : Nat → List Nat) (items seeds : List Nat) (res : List (Nat × ℝ)) (visited todo next : List Nat) :
    Prop where
  ids : (res.map Prod.fst).Nodup
  ok : ∀ e ∈ res, Reach (fun c => f c < m) nbrs seeds e.1 ∧ e.2 = f e.1
  nodup : (todo ++ next).Nodup
  new : ∀ c ∈ todo ++ next, c ∉ res.map Prod.fst
  seen : ∀ c ∈ todo ++ next, c ∈ visited
  from' : ∀ c ∈ todo ++ next, ∃ e ∈ res, c ∈ nbrs e.1
  all : ∀ v ∈ visited, v ∈ res.map Prod.fst ∨ v ∈ todo ++ next ∨ ¬ f v < m
  closed : ∀ e ∈ res, ∀ n ∈ nbrs e.1, n ∈ visited
  start : ∀ c ∈ seeds, f c < m → c ∈ res.map Prod.fst
  vnodup : visited.Nodup
  inside : ∀ v ∈ visited, v ∈ items
  resin : ∀ e ∈ res, e.1 ∈ visited

theorem bandPass_spec {f : Nat → ℝ} {m : ℝ} {nbrs : Nat → List Nat} {items seeds : List Nat}
    (hnb : ∀ c ∈ items, ∀ n ∈ nbrs c, n ∈ items) : ∀ (todo : List Nat) (res : List (Nat × ℝ)) (visited next : List Nat),
    Inv f m nbrs items seeds res visited todo next →
    ∃ res' visited' next', bandPass f m nbrs todo res (visited, next) = some (res', visited', next') ∧
      Inv f m nbrs items seeds res' visited' [] next' ∧ visited'.length + next.length = visited.length + next'.length
  | [], res, visited, next, h => ⟨res, visited, next, rfl, h, rfl⟩
  | c :: l, res, visited, next, h => by
    unfold bandPass
    have hcv : c ∈ visited := h.seen c (by simp)
    by_cases hc : f c < m
    · rw [if_pos hc, if_neg (h.new c (by simp))]
      have hnext : next.Nodup := (List.nodup_append.1 h.nodup).2.1
      obtain ⟨a, b, s, d, e, g⟩ := visit_spec (nbrs c) (visited, next) h.vnodup hnext
        (fun x hx => h.seen x (List.mem_append_right _ hx))
      simp only at d e g
      have hnd := h.nodup
      have hcres := h.new c (by simp)
      have inv : Inv f m nbrs items seeds (res ++ [(c, f c)]) (visit (nbrs c) (visited, next)).1 l (visit (nbrs c) (visited, next)).2 := by
        have hreach : Reach (fun c => f c < m) nbrs seeds c := by
          obtain ⟨e', he', hn⟩ := h.from' c (by simp)
          exact .step (h.ok e' he').1 hn hc
        have sub : ∀ x ∈ l ++ (visit (nbrs c) (visited, next)).2, x ∈ l ++ next ∨ (x ∈ nbrs c ∧ x ∉ visited) := by
          intro x hx
          rcases List.mem_append.1 hx with hx | hx
          · exact Or.inl (List.mem_append_left _ hx)
          · rcases (e x).1 hx with hx | hx
            · exact Or.inl (List.mem_append_right _ hx)
            · exact Or.inr hx
        refine ⟨?_, ?_, ?_, ?_, ?_, ?_, ?_, ?_, ?_, a, ?_, ?_⟩
        · rw [List.map_append, List.nodup_append]
          refine ⟨h.ids, by simp, ?_⟩
          intro x hx y hy hxy
          simp at hy; subst hy; subst hxy; exact hcres hx
        · intro e' he'
          rcases List.mem_append.1 he' with he' | he'
          · exact h.ok e' he'
          · simp at he'; subst he'; exact ⟨hreach, rfl⟩
        · rw [List.nodup_append]
          simp only [List.cons_append, List.nodup_cons, List.nodup_append] at hnd
          refine ⟨hnd.2.1, b, ?_⟩
          intro x hx y hy hxy
          subst hxy
          rcases (e x).1 hy with hy | hy
          · exact hnd.2.2.2 x hx x hy rfl
          · exact hy.2 (h.seen x (by simp [hx]))
        · intro x hx hm
          simp only [List.map_append, List.map_cons, List.map_nil, List.mem_append, List.mem_singleton] at hm
          rcases sub x hx with hx' | ⟨hx', hv⟩
          · rcases hm with hm | rfl
            · exact h.new x (by simp only [List.cons_append]; exact List.mem_cons_of_mem _ hx') hm
            · simp only [List.cons_append, List.nodup_cons] at hnd
              exact hnd.1 hx'
          · rcases hm with hm | rfl
            · obtain ⟨e', he', rfl⟩ := List.mem_map.1 hm
              exact hv (h.resin e' he')
            · exact hv hcv
        · intro x hx
          rcases sub x hx with hx' | ⟨hx', hv⟩
          · exact (d x).2 (Or.inl (h.seen x (by simp only [List.cons_append]; exact List.mem_cons_of_mem _ hx')))
          · exact (d x).2 (Or.inr hx')
        · intro x hx
          rcases sub x hx with hx' | ⟨hx', hv⟩
          · obtain ⟨e', he', hn⟩ := h.from' x (by simp only [List.cons_append]; exact List.mem_cons_of_mem _ hx')
            exact ⟨e', List.mem_append_left _ he', hn⟩
          · exact ⟨(c, f c), by simp, hx'⟩
        · intro v hv
          rcases (d v).1 hv with hv' | hv'
          · rcases h.all v hv' with h1 | h1 | h1
            · left; rw [List.map_append]; exact List.mem_append_left _ h1
            · simp only [List.cons_append, List.mem_cons, List.mem_append] at h1
              rcases h1 with rfl | h1 | h1
              · left; simp
              · right; left; exact List.mem_append_left _ h1
              · right; left; exact List.mem_append_right _ ((e v).2 (Or.inl h1))
            · exact Or.inr (Or.inr h1)
          · by_cases hvv : v ∈ visited
            · rcases h.all v hvv with h1 | h1 | h1
              · left; rw [List.map_append]; exact List.mem_append_left _ h1
              · simp only [List.cons_append, List.mem_cons, List.mem_append] at h1
                rcases h1 with rfl | h1 | h1
                · left; simp
                · right; left; exact List.mem_append_left _ h1
                · right; left; exact List.mem_append_right _ ((e v).2 (Or.inl h1))
              · exact Or.inr (Or.inr h1)
            · right; left; exact List.mem_append_right _ ((e v).2 (Or.inr ⟨hv', hvv⟩))
        · intro e' he' n hn
          rcases List.mem_append.1 he' with he' | he'
          · exact (d n).2 (Or.inl (h.closed e' he' n hn))
          · simp at he'; subst he'; exact (d n).2 (Or.inr hn)
        · intro x hx hm
          rw [List.map_append]; exact List.mem_append_left _ (h.start x hx hm)
        · intro v hv
          rcases (d v).1 hv with hv | hv
          · exact h.inside v hv
          · exact hnb c (h.inside c hcv) v hv
        · intro e' he'
          rcases List.mem_append.1 he' with he' | he'
          · exact (d _).2 (Or.inl (h.resin e' he'))
          · simp at he'; subst he'; exact (d _).2 (Or.inl hcv)
      obtain ⟨res', visited', next', h1, h2, h3⟩ := bandPass_spec hnb l _ _ _ inv
      refine ⟨res', visited', next', h1, h2, by omega⟩
    · rw [if_neg hc]
      refine bandPass_spec hnb l res visited next ?_
      have hnd := h.nodup
      simp only [List.cons_append, List.nodup_cons] at hnd
      have up : ∀ x ∈ l ++ next, x ∈ c :: l ++ next := fun x hx => by
        simp only [List.cons_append]; exact List.mem_cons_of_mem _ hx
      refine ⟨h.ids, h.ok, hnd.2, fun x hx => h.new x (up x hx), fun x hx => h.seen x (up x hx), fun x hx => h.from' x (up x hx), ?_,
        h.closed, h.start, h.vnodup, h.inside, h.resin⟩
      intro v hv
      rcases h.all v hv with h1 | h1 | h1
      · exact Or.inl h1
      · simp only [List.cons_append, List.mem_cons] at h1
        rcases h1 with rfl | h1
        · exact Or.inr (Or.inr hc)
        · exact Or.inr (Or.inl h1)
      · exact Or.inr (Or.inr h1)

theorem bandLoop_spec {f : Nat → ℝ} {m : ℝ} {nbrs : Nat → List Nat} {items seeds : List Nat}
    (hnb : ∀ c ∈ items, ∀ n ∈ nbrs c, n ∈ items) : ∀ (fuel : Nat) (stack : List Nat) (res : List (Nat × ℝ)) (visited : List Nat),
    Inv f m nbrs items seeds res visited stack [] → items.length < fuel + (visited.length - stack.length) →
    ∃ res', bandLoop f m nbrs fuel stack res visited = some res' ∧ IsBand f (Reach (fun c => f c < m) nbrs seeds) res'
  | 0, stack, res, visited, h, hf => by
    have : visited.length ≤ items.length := (List.subperm_of_subset h.vnodup h.inside).length_le
    omega
  | fuel + 1, stack, res, visited, h, hf => by
    unfold bandLoop
    by_cases hs : stack = []
    · subst hs
      refine ⟨res, by simp, h.ids, ?_⟩
      have hall : ∀ c, Reach (fun c => f c < m) nbrs seeds c → c ∈ res.map Prod.fst := by
        intro c hc
        induction hc with
        | seed hc hm => exact h.start _ hc hm
        | step _ hn hm ih =>
          obtain ⟨e, he, rfl⟩ := List.mem_map.1 ih
          rcases h.all _ (h.closed e he _ hn) with h1 | h1 | h1
          · exact h1
          · simp at h1
          · exact absurd hm h1
      intro c d
      constructor
      · intro hcd; exact h.ok _ hcd
      · rintro ⟨hc, rfl⟩
        obtain ⟨e, he, rfl⟩ := List.mem_map.1 (hall c hc)
        rw [← (h.ok e he).2]; exact he
    · rw [if_neg hs]
      obtain ⟨res', visited', next', h1, h2, h3⟩ := bandPass_spec hnb stack res visited [] h
      rw [h1]
      simp only
      refine bandLoop_spec hnb fuel next' res' visited' ⟨h2.ids, h2.ok, by simpa using h2.nodup, by simpa using h2.new, by simpa using h2.seen,
        by simpa using h2.from', by simpa using h2.all, h2.closed, h2.start, h2.vnodup, h2.inside, h2.resin⟩ ?_
      have : 0 < stack.length := List.length_pos_iff.2 hs
      have : stack.length ≤ visited.length := by
        have hn := h.nodup
        rw [List.append_nil] at hn
        exact (List.subperm_of_subset hn (fun x hx => h.seen x (by simpa using hx))).length_le
      simp only [List.length_nil] at h3
      omega

theorem band_spec {f : Nat → ℝ} {m : ℝ} {nbrs : Nat → List Nat} {items seeds : List Nat}
    (hnb : ∀ c ∈ items, ∀ n ∈ nbrs c, n ∈ items) (hs : ∀ c ∈ seeds, c ∈ items) (hn : seeds.Nodup) :
    ∃ res, band (items.length + 1) f m nbrs seeds = some res ∧ IsBand f (Reach (fun c => f c < m) nbrs seeds) res := by
  unfold band
  rw [seedsIn_spec seeds [] (by simp) hn]
  simp only [List.nil_append]
  set res : List (Nat × ℝ) := (seeds.filter fun c => f c < m).map fun c => (c, f c) with hres
  have hids : res.map Prod.fst = seeds.filter fun c => f c < m := by
    rw [hres, List.map_map]
    exact List.map_id' _
  have hmem : ∀ x, x ∈ firstStack nbrs res ↔ (∃ e ∈ res, x ∈ nbrs e.1) ∧ x ∉ res.map Prod.fst := by
    intro x
    simp only [firstStack, List.mem_dedup, List.mem_filter, List.mem_flatMap, decide_eq_true_eq]
  have hin : ∀ e ∈ res, e.1 ∈ seeds ∧ f e.1 < m ∧ e.2 = f e.1 := by
    intro e he
    obtain ⟨c, hc, rfl⟩ := List.mem_map.1 he
    rw [List.mem_filter] at hc
    exact ⟨hc.1, by simpa using hc.2, rfl⟩
  have hidn : (res.map Prod.fst).Nodup := by rw [hids]; exact hn.filter _
  refine bandLoop_spec (items := items) (seeds := seeds) hnb _ _ _ _ ⟨hidn, ?_, ?_, ?_, ?_, ?_, ?_, ?_, ?_, ?_, ?_, ?_⟩ ?_
  · intro e he
    exact ⟨.seed (hin e he).1 (hin e he).2.1, (hin e he).2.2⟩
  · rw [List.append_nil]; exact List.nodup_dedup _
  · intro c hc
    rw [List.append_nil] at hc
    exact ((hmem c).1 hc).2
  · intro c hc
    rw [List.append_nil] at hc
    exact List.mem_append_left _ hc
  · intro c hc
    rw [List.append_nil] at hc
    exact ((hmem c).1 hc).1
  · intro v hv
    rcases List.mem_append.1 hv with hv | hv
    · exact Or.inr (Or.inl (by rwa [List.append_nil]))
    · exact Or.inl hv
  · intro e he n hn
    by_cases h : n ∈ res.map Prod.fst
    · exact List.mem_append_right _ h
    · exact List.mem_append_left _ ((hmem n).2 ⟨⟨e, he, hn⟩, h⟩)
  · intro c hc hm
    rw [hids, List.mem_filter]; exact ⟨hc, by simpa using hm⟩
  · rw [List.nodup_append]
    refine ⟨List.nodup_dedup _, hidn, ?_⟩
    intro x hx y hy hxy
    subst hxy
    exact ((hmem x).1 hx).2 hy
  · intro v hv
    rcases List.mem_append.1 hv with hv | hv
    · obtain ⟨⟨e, he, hn⟩, -⟩ := (hmem v).1 hv
      exact hnb _ (hs _ (hin e he).1) _ hn
    · obtain ⟨e, he, rfl⟩ := List.mem_map.1 hv
      exact hs _ (hin e he).1
  · intro e he
    exact List.mem_append_right _ (List.mem_map_of_mem he)
  · rw [List.length_append]; omega

/-! ### Theorems -/

/-- **C138** with seeds, the cells found are those connected to a seed within the threshold by neighbours within the threshold, each once
and with its distance; the search ends. -/
theorem C138_seeds {i : BandIn} {m : ℝ} {seeds : List Nat} (hs : i.surfType = 1) (hm : i.meshType ≠ 3)
    (hnb : ∀ c ∈ i.cells, ∀ n ∈ i.cellNbrs c, n ∈ i.cells) (hn : seeds.Nodup) :
    ∃ res, cellsBand (i.cells.length + 1) i m (some seeds) = some res ∧
      IsBand i.cellDist (Reach (fun c => i.cellDist c < m) i.cellNbrs (seeds.filter fun c => c ∈ i.cells)) res := by
  unfold cellsBand
  rw [if_neg (by simp [hs]), if_neg hm]
  exact band_spec hnb (by intro c hc; simpa using (List.mem_filter.1 hc).2) (hn.filter _)

/-- **C138** the same for vertices -/
theorem C138_vertex_seeds {i : BandIn} {m : ℝ} {seeds : List Nat} (hs : i.surfType = 1)
    (hnb : ∀ c ∈ i.verts, ∀ n ∈ i.vertNbrs c, n ∈ i.verts) (hn : seeds.Nodup) :
    ∃ res, vertsBand (i.verts.length + 1) i m (some seeds) = some res ∧
      IsBand i.vertDist (Reach (fun c => i.vertDist c < m) i.vertNbrs (seeds.filter fun c => c ∈ i.verts)) res := by
  unfold vertsBand
  rw [if_neg (by simp [hs])]
  exact band_spec hnb (by intro c hc; simpa using (List.mem_filter.1 hc).2) (hn.filter _)

/-- the trees hold the surface and the mesh: every cell of the mesh, and only those, is in a leaf, whose box holds its centre; a distance
from the surface is that of a point in the box of a leaf -/
structure TreesHold (i : BandIn) (centre : Nat → V3) (m : ℝ) : Prop where
  root : i.meshTree ≠ .nil
  nested : i.meshTree.Nested
  leaf : ∀ c ∈ i.cells, ∃ x ∈ i.meshTree.leafList, c ∈ x.2 ∧ x.1.Has (centre c)
  only : ∀ x ∈ i.meshTree.leafList, ∀ c ∈ x.2, c ∈ i.cells
  foot : ∀ c ∈ i.cells, i.cellDist c < m → ∃ s ∈ i.surfTree.leafList, ∃ q, s.1.Has q ∧ norm2 (q - centre c) ≤ m

/-- **C138** without seeds all cells within the threshold are found, each once and with its distance, and no others. -/
theorem C138_all {i : BandIn} {centre : Nat → V3} {m : ℝ} (hs : i.surfType = 1) (hm : i.meshType ≠ 3)
    (hnb : ∀ c ∈ i.cells, ∀ n ∈ i.cellNbrs c, n ∈ i.cells) (ht : TreesHold i centre m) :
    ∃ res, cellsBand (i.cells.length + 1) i m none = some res ∧ IsBand i.cellDist (fun c => c ∈ i.cells ∧ i.cellDist c < m) res := by
  obtain ⟨l, h1, h2, h3⟩ := C133_leaves i.surfTree i.meshTree m ht.root ht.nested
  have hl : ∀ c ∈ l, c ∈ i.cells := by
    intro c hc
    obtain ⟨s, hs, x, hx, -, hcx⟩ := (h3 c).1 hc
    exact ht.only x hx c hcx
  obtain ⟨res, hr, hb1, hb2⟩ := band_spec (f := i.cellDist) (m := m) hnb hl h2
  refine ⟨res, ?_, hb1, ?_⟩
  · unfold cellsBand
    rw [if_neg (by simp [hs]), if_neg hm, h1]
    exact hr
  · intro c d
    rw [hb2]
    refine and_congr_left fun hdc => ⟨?_, ?_⟩
    all_goals clear hdc
    · intro h
      refine ⟨?_, ?_⟩
      · induction h with
        | seed hc _ => exact hl _ hc
        | step _ hn _ ih => exact hnb _ ih _ hn
      · cases h with
        | seed _ h => exact h
        | step _ _ h => exact h
    · rintro ⟨hc, hd⟩
      obtain ⟨x, hx, hcx, hbx⟩ := ht.leaf c hc
      obtain ⟨s, hs', q, hq, hqd⟩ := ht.foot c hc hd
      obtain ⟨l', hl', hcl⟩ := C133_complete_partial i.surfTree i.meshTree m ht.root ht.nested hs' hx hcx hq hbx hqd
      rw [h1] at hl'
      obtain rfl := Option.some_inj.1 hl'
      exact .seed hcl hd

/-- **C138, violated** without seeds no vertex is ever found, whatever their distances. -/
theorem C138_vertices_fails {i : BandIn} {m : ℝ} {res : List (Nat × ℝ)} {fuel : Nat} (h : vertsBand (fuel + 1) i m none = some res) : res = [] := by
  have hb : band (fuel + 1) i.vertDist m i.vertNbrs [] = some [] := by simp [band, seedsIn, bandLoop, firstStack]
  unfold vertsBand at h
  split at h
  · simpa using h.symm
  · simp only at h
    split at h
    · split at h
      · cases h
      · rw [hb] at h; simpa using h.symm
    · rw [hb] at h; simpa using h.symm

/-- **C138, violated** when the adjacencies of the mesh are not stored only seeds are found: those of the surface are updated instead. -/
theorem C138_adjacencies_fails {i : BandIn} {m : ℝ} {seeds : List Nat} (hs : i.surfType = 1) (hm : i.meshType ≠ 3)
    (hadj : ∀ c, i.cellNbrs c = []) (hn : seeds.Nodup) :
    ∃ res, cellsBand (i.cells.length + 1) i m (some seeds) = some res ∧ ∀ e ∈ res, e.1 ∈ seeds := by
  obtain ⟨res, h1, -, h2⟩ := C138_seeds (m := m) hs hm (by simp [hadj]) hn
  refine ⟨res, h1, ?_⟩
  intro e he
  obtain ⟨h, -⟩ := (h2 e.1 e.2).1 he
  cases h with
  | seed hc _ => exact (List.mem_filter.1 hc).1
  | step _ hn _ => rw [hadj] at hn; cases hn

/-- nothing is found for what is not a surface, and in a cloud of points -/
theorem C138_none (fuel : Nat) (i : BandIn) (m : ℝ) (seeds : Option (List Nat)) (h : i.surfType ≠ 1 ∨ i.meshType = 3) :
    cellsBand fuel i m seeds = some [] := by
  unfold cellsBand
  rcases h with h | h
  · rw [if_pos h]
  · simp [h]

/-! ### A case -/

/-- three cells in a row at distances 1, 2, 3 from a surface -/
def demoBand : BandIn where
  surfType := 1
  meshType := 2
  cells := [0, 1, 2]
  verts := [0, 1, 2]
  cellNbrs c := [c - 1, min 2 (c + 1)]
  vertNbrs c := [c - 1, min 2 (c + 1)]
  cellDist c := c + 1
  vertDist c := c + 1
  surfTree := .node ⟨⟨0, 0, 0⟩, ⟨0, 1, 1⟩⟩ [0] .nil .nil
  meshTree := .node ⟨⟨1, 0, 0⟩, ⟨3, 0, 0⟩⟩ [0, 1, 2] .nil .nil

theorem demoBand_holds : TreesHold demoBand (fun c => ⟨c + 1, 0, 0⟩) (5 / 2) := by
  refine ⟨by simp [demoBand], by simp [demoBand, Skd.Nested, Skd.leafList], ?_, ?_, ?_⟩
  · intro c hc
    refine ⟨(⟨⟨1, 0, 0⟩, ⟨3, 0, 0⟩⟩, [0, 1, 2]), by simp [demoBand, Skd.leafList, Skd.kids], hc, ?_⟩
    simp only [demoBand, List.mem_cons, List.not_mem_nil, or_false] at hc
    rcases hc with rfl | rfl | rfl <;> norm_num [Box.Has]
  · simp [demoBand, Skd.leafList, Skd.kids]
  · intro c hc hd
    refine ⟨(⟨⟨0, 0, 0⟩, ⟨0, 1, 1⟩⟩, [0]), by simp [demoBand, Skd.leafList, Skd.kids], ⟨0, 0, 0⟩, by norm_num [Box.Has], ?_⟩
    have e : (⟨0, 0, 0⟩ : V3) - ⟨c + 1, 0, 0⟩ = ⟨-(c + 1), 0, 0⟩ := by ext <;> norm_num
    rw [e, norm2_x, abs_neg, abs_of_nonneg (by positivity)]
    exact le_of_lt hd

example : ∃ res, cellsBand 4 demoBand (5 / 2) none = some res ∧ (0, 1) ∈ res ∧ (1, 2) ∈ res ∧ ∀ d, (2, d) ∉ res := by
  obtain ⟨res, h1, -, h2⟩ := C138_all (i := demoBand) rfl (by decide) (by simp [demoBand]) demoBand_holds
  refine ⟨res, h1, ?_, ?_, ?_⟩
  · rw [h2]; norm_num [demoBand]
  · rw [h2]; norm_num [demoBand]
  · intro d; rw [h2]; norm_num [demoBand]

/-- vertex 0 is within the threshold, and not found -/
example : demoBand.vertDist 0 < 5 / 2 ∧ vertsBand 4 demoBand (5 / 2) none = some [] := by
  refine ⟨by norm_num [demoBand], ?_⟩
  obtain ⟨l, h, -⟩ := C133_leaves demoBand.surfTree demoBand.meshTree (5 / 2) demoBand_holds.root demoBand_holds.nested
  simp [vertsBand, h, band, seedsIn, bandLoop, firstStack, demoBand] at h ⊢

end
end Verif.Tree
