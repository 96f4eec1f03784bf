import Verif.Main.Workflow
import Verif.Chain.Props
import Mathlib.Data.List.Induction
/-!
# C210, C211, C212: the blocks of a dictionary and their execution
-/
namespace Verif.Main

open Verif.Xml (Text trim)
open Verif.Chain
open List

/-! ## C210 -/

theorem put_find (id : Text) (b : Sect) (m : List (Text × Sect)) (k : Text) :
    (put id b m).find? (·.1 == k) = if id = k then some (id, b) else m.find? (·.1 == k) := by
  induction m with
  | nil => by_cases h : id = k <;> simp [put, h]
  | cons e m ih =>
    rw [put]
    by_cases he : e.1 = id
    · rw [if_pos he]
      by_cases h : id = k
      · simp [h]
      · simp [h, he]
    · rw [if_neg he, find?_cons, find?_cons, ih]
      by_cases hk : e.1 = k
      · have : id ≠ k := fun h => he (hk.trans h.symm)
        simp [hk, this]
      · have hk' : (e.1 == k) = false := by simpa using hk
        rw [hk']

theorem put_keys (id : Text) (b : Sect) (m : List (Text × Sect)) :
    (put id b m).map Prod.fst = if id ∈ m.map Prod.fst then m.map Prod.fst else m.map Prod.fst ++ [id] := by
  induction m with
  | nil => simp [put]
  | cons e m ih =>
    rw [put]
    by_cases he : e.1 = id
    · simp [he]
    · rw [if_neg he, map_cons, ih]
      have he' : ¬ id = e.1 := fun h => he h.symm
      by_cases hm : id ∈ m.map Prod.fst
      · rw [if_pos hm, if_pos (by simp only [map_cons, mem_cons]; exact .inr hm)]; rfl
      · rw [if_neg hm, if_neg (by simp only [map_cons, mem_cons]; exact fun h => h.elim he' hm)]; rfl

/-- The sections which declare a block of a name. -/
def declares (known : Text → Bool) (id : Text) (s : Sect) : Bool := known (trim s.cls) && trim s.name == id

theorem readBlocks_concat (known : Text → Bool) (secs : List Sect) (s : Sect) :
    readBlocks known (secs ++ [s]) =
      if known (trim s.cls) then put (trim s.name) s (readBlocks known secs) else readBlocks known secs := by
  rw [readBlocks, foldl_append]; rfl

/-- **C210.**  The blocks of the dictionary: under a name there is the block of the last of the sections with this
name and a registered class; there is one block for a name, and none for other names. -/
theorem C210_blocks (known : Text → Bool) (secs : List Sect) :
    ((readBlocks known secs).map Prod.fst).Nodup ∧
    ∀ id, (readBlocks known secs).find? (·.1 == id) =
      (secs.filter (declares known id)).getLast?.map fun s => (id, s) := by
  induction secs using reverseRecOn with
  | nil => exact ⟨by simp [readBlocks], fun id => by simp [readBlocks]⟩
  | append_singleton secs s ih =>
    obtain ⟨h1, h2⟩ := ih
    rw [readBlocks_concat]
    by_cases hk : known (trim s.cls) = true
    · rw [if_pos hk]
      refine ⟨?_, fun id => ?_⟩
      · rw [put_keys]
        split
        · exact h1
        · next hn => exact nodup_append.2 ⟨h1, by simp, fun a ha b hb => by
            rw [mem_singleton.1 hb]; rintro rfl; exact hn ha⟩
      · rw [put_find, h2, filter_append]
        by_cases hid : trim s.name = id
        · rw [if_pos hid]
          simp [declares, hk, hid]
        · rw [if_neg hid]
          simp [declares, hid]
    · rw [if_neg hk]
      refine ⟨h1, fun id => ?_⟩
      rw [h2, filter_append]
      simp [declares, hk]

/-- A dictionary with a class which is not registered. -/
def someSections : List Sect :=
  [⟨"box".toList, " mimmo.FFDLattice ".toList⟩, ⟨"other".toList, "mimmo.Unknown".toList⟩]

example : readBlocks (· == "mimmo.FFDLattice".toList) someSections =
    [("box".toList, ⟨"box".toList, " mimmo.FFDLattice ".toList⟩)] := by decide

/-- **C210, second half.**  With distinct names every section of a registered class gives a block, and the blocks are
in the order of the sections.  Sections with the same name are missing. -/
theorem C210_all_partial (known : Text → Bool) (secs : List Sect)
    (hd : (secs.map fun s => trim s.name).Nodup) :
    readBlocks known secs = (secs.filter fun s => known (trim s.cls)).map fun s => (trim s.name, s) := by
  induction secs using reverseRecOn with
  | nil => rfl
  | append_singleton secs s ih =>
    rw [map_append, nodup_append] at hd
    have ih := ih hd.1
    rw [readBlocks_concat, filter_append, map_append, ih]
    by_cases hk : known (trim s.cls) = true
    · rw [if_pos hk]
      have hput : ∀ (l : List Sect), (∀ x ∈ l, trim x.name ≠ trim s.name) →
          put (trim s.name) s (l.map fun s => (trim s.name, s)) =
            (l.map fun s => (trim s.name, s)) ++ [(trim s.name, s)] := by
        intro l
        induction l with
        | nil => intro _; rfl
        | cons x l ihl =>
          intro h
          rw [map_cons, put, if_neg (h x (by simp)), ihl fun y hy => h y (mem_cons_of_mem _ hy)]
          rfl
      rw [hput]
      · simp [hk]
      · intro x hx
        exact hd.2.2 _ (mem_map.2 ⟨x, (mem_filter.1 hx).1, rfl⟩) _ (by simp)
    · rw [if_neg hk]
      simp [hk]

example : (someSections.map fun s => trim s.name).Nodup := by decide

/-- **C210, violated.**  Of two sections with the same name the first is lost, though the dictionary may hold
both. -/
theorem C210_twice_fails : readBlocks (fun _ => true)
    [⟨"box".toList, "A".toList⟩, ⟨"box".toList, "B".toList⟩] = [("box".toList, ⟨"box".toList, "B".toList⟩)] := by
  decide

/-! ## C211 -/

/-- The blocks of the chains, in the order of the chains. -/
def blocks (m : List (Nat × Chain)) : List Obj := m.flatMap fun e => e.2.objs

theorem blocks_cons (e : Nat × Chain) (m : List (Nat × Chain)) : blocks (e :: m) = e.2.objs ++ blocks m := by
  rw [blocks, flatMap_cons]; rfl

/-- A chain of a priority. -/
structure Good (g : Graph) (prio : Obj → Nat) (e : Nat × Chain) : Prop where
  ok : e.2.Ok
  ord : Ordered g e.2.objs
  prio : ∀ o ∈ e.2.objs, prio o = e.1

theorem empty_ok : empty.Ok := ⟨rfl, by simp [empty], by simp [empty], by simp [empty]⟩

theorem ok_objs {ch : Chain} (h : ch.Ok) : ch.objs = ch.entries.map Prod.fst := by
  rw [Chain.entries, map_fst_zip]; rw [h.len]; exact Nat.le_refl _

theorem add_good {g : Graph} (wf : WellFormed g) (ac : Acyclic g) {prio : Obj → Nat} {e : Nat × Chain}
    (hg : Good g prio e) (o : Obj) (hp : prio o = e.1) (hn : o ∉ e.2.objs) :
    ∃ N ch, (∀ n, N ≤ n → ∃ i, addObject g n e.2 o (-1) = some (ch, i)) ∧ Good g prio (e.1, ch) ∧
      ch.objs.Perm (o :: e.2.objs) := by
  obtain ⟨N, ch, i, h1, _, h3, h4, h5⟩ := C01_addObject_keeps_order wf ac e.2 o (-1) hg.ok hn hg.ord
  have hperm : ch.objs.Perm (o :: e.2.objs) := by
    rw [ok_objs h3, ok_objs hg.ok]
    exact (h5.map Prod.fst)
  refine ⟨N, ch, fun n hn => ⟨i, h1 n hn⟩, ⟨h3, h4, fun x hx => ?_⟩, hperm⟩
  rcases mem_cons.1 (hperm.mem_iff.1 hx) with rfl | hx
  · exact hp
  · exact hg.prio x hx

theorem good_empty (g : Graph) (prio : Obj → Nat) (p : Nat) : Good g prio (p, empty) :=
  ⟨empty_ok, by intro i j a b h; simp [empty] at h, by simp [empty]⟩

theorem addAt_good {g : Graph} (wf : WellFormed g) (ac : Acyclic g) {prio : Obj → Nat} (o : Obj) :
    ∀ (m : List (Nat × Chain)), (∀ e ∈ m, Good g prio e) → m.Pairwise (fun a b => a.1 < b.1) → o ∉ blocks m →
      ∃ N m', (∀ n, N ≤ n → addAt g n (prio o) o m = some m') ∧ (∀ e ∈ m', Good g prio e) ∧
        m'.Pairwise (fun a b => a.1 < b.1) ∧ (∀ e ∈ m', e.1 = prio o ∨ ∃ e' ∈ m, e'.1 = e.1) ∧
        (blocks m').Perm (o :: blocks m) := by
  intro m
  induction m with
  | nil =>
    intro _ _ _
    obtain ⟨N, ch, h1, h2, h3⟩ := add_good wf ac (good_empty g prio (prio o)) o rfl (by simp [empty])
    refine ⟨N, [(prio o, ch)], fun n hn => ?_, by simpa using h2, by simp, by simp, ?_⟩
    · obtain ⟨i, hi⟩ := h1 n hn
      rw [addAt, hi]; rfl
    · simpa [blocks, empty] using h3
  | cons e m ih =>
    intro hg hs hn
    obtain ⟨hs1, hs2⟩ := pairwise_cons.1 hs
    rw [blocks_cons, mem_append] at hn
    by_cases h1 : prio o = e.1
    · obtain ⟨N, ch, ha, hb, hc⟩ := add_good wf ac (hg e (by simp)) o h1 fun h => hn (.inl h)
      refine ⟨N, (e.1, ch) :: m, fun n hn => ?_, ?_, ?_, ?_, ?_⟩
      · obtain ⟨i, hi⟩ := ha n hn
        rw [addAt, if_pos h1, hi]; rfl
      · intro x hx
        rcases mem_cons.1 hx with rfl | hx
        · exact hb
        · exact hg x (mem_cons_of_mem _ hx)
      · exact pairwise_cons.2 ⟨hs1, hs2⟩
      · intro x hx
        rcases mem_cons.1 hx with rfl | hx
        · exact .inl h1.symm
        · exact .inr ⟨x, mem_cons_of_mem _ hx, rfl⟩
      · rw [blocks_cons, blocks_cons]
        exact hc.append_right _
    · by_cases h2 : prio o < e.1
      · obtain ⟨N, ch, ha, hb, hc⟩ := add_good wf ac (good_empty g prio (prio o)) o rfl (by simp [empty])
        refine ⟨N, (prio o, ch) :: e :: m, fun n hn => ?_, ?_, ?_, ?_, ?_⟩
        · obtain ⟨i, hi⟩ := ha n hn
          rw [addAt, if_neg h1, if_pos h2, hi]; rfl
        · intro x hx
          rcases mem_cons.1 hx with rfl | hx
          · exact hb
          · exact hg x hx
        · refine pairwise_cons.2 ⟨fun x hx => ?_, hs⟩
          rcases mem_cons.1 hx with rfl | hx
          · exact h2
          · exact Nat.lt_trans h2 (hs1 x hx)
        · intro x hx
          rcases mem_cons.1 hx with rfl | hx
          · exact .inl rfl
          · exact .inr ⟨x, hx, rfl⟩
        · rw [blocks_cons]
          exact hc.append_right _
      · obtain ⟨N, m', ha, hb, hc, hd, he⟩ := ih (fun x hx => hg x (mem_cons_of_mem _ hx)) hs2 fun h => hn (.inr h)
        refine ⟨N, e :: m', fun n hn => ?_, ?_, ?_, ?_, ?_⟩
        · rw [addAt, if_neg h1, if_neg h2, ha n hn]; rfl
        · intro x hx
          rcases mem_cons.1 hx with rfl | hx
          · exact hg _ (by simp)
          · exact hb x hx
        · refine pairwise_cons.2 ⟨fun x hx => ?_, hc⟩
          rcases hd x hx with h | ⟨y, hy, h⟩
          · rw [h]; omega
          · rw [← h]; exact hs1 y hy
        · intro x hx
          rcases mem_cons.1 hx with rfl | hx
          · exact .inr ⟨x, by simp, rfl⟩
          · rcases hd x hx with h | ⟨y, hy, h⟩
            · exact .inl h
            · exact .inr ⟨y, mem_cons_of_mem _ hy, h⟩
        · rw [blocks_cons, blocks_cons]
          exact (he.append_left _).trans perm_middle

theorem build_good {g : Graph} (wf : WellFormed g) (ac : Acyclic g) {prio : Obj → Nat} :
    ∀ (visit : List Obj) (m : List (Nat × Chain)), (∀ e ∈ m, Good g prio e) → m.Pairwise (fun a b => a.1 < b.1) →
      visit.Nodup → (∀ o ∈ visit, o ∉ blocks m) →
      ∃ N m', (∀ n, N ≤ n → visit.foldlM (fun m o => addAt g n (prio o) o m) m = some m') ∧
        (∀ e ∈ m', Good g prio e) ∧ m'.Pairwise (fun a b => a.1 < b.1) ∧ (blocks m').Perm (visit ++ blocks m) := by
  intro visit
  induction visit with
  | nil => intro m hg hs _ _; exact ⟨0, m, fun _ _ => rfl, hg, hs, .refl _⟩
  | cons o visit ih =>
    intro m hg hs hnd hn
    obtain ⟨hnd1, hnd2⟩ := nodup_cons.1 hnd
    obtain ⟨N, m1, h1, h2, h3, _, h5⟩ := addAt_good wf ac (prio := prio) o m hg hs (hn o (by simp))
    obtain ⟨N', m', k1, k2, k3, k4⟩ := ih m1 h2 h3 hnd2 fun x hx hx' => by
      rcases mem_cons.1 (h5.mem_iff.1 hx') with rfl | hx'
      · exact hnd1 hx
      · exact hn x (mem_cons_of_mem _ hx) hx'
    refine ⟨max N N', m', fun n hle => ?_, k2, k3, ?_⟩
    · rw [foldlM_cons, h1 n (by omega)]
      exact k1 n (by omega)
    · refine k4.trans (((h5.append_left visit)).trans ?_)
      exact perm_middle

theorem runBlocks_append (fails : Obj → Bool) (a b : List Obj) : runBlocks fails (a ++ b) =
    match runBlocks fails a with
    | (t, .ok) => (t ++ (runBlocks fails b).1, (runBlocks fails b).2)
    | (t, r) => (t, r) := by
  induction a with
  | nil => rfl
  | cons o a ih =>
    rw [cons_append, runBlocks, runBlocks]
    by_cases hf : fails o = true
    · rw [if_pos hf, if_pos hf]
    · rw [if_neg hf, if_neg hf, ih]
      rcases h : runBlocks fails a with ⟨t, r⟩
      cases r <;> rfl

theorem runChains_blocks {g : Graph} (fails : Obj → Bool) :
    ∀ m : List (Nat × Chain), (∀ e ∈ m, Ordered g e.2.objs) →
      runChains g fails m = runBlocks fails (blocks m) := by
  intro m
  induction m with
  | nil => intro _; rfl
  | cons e m ih =>
    intro h
    have he : exec g fails e.2 = runBlocks fails e.2.objs := by
      rw [exec, (checkLoops_iff g e.2.objs).2 (h e (by simp))]; rfl
    rw [runChains, blocks_cons, runBlocks_append, ih fun x hx => h x (mem_cons_of_mem _ hx), he]
    split
    · rfl
    · next hl =>
      have : e.2.objs = [] := by
        cases hq : e.2.objs with
        | nil => rfl
        | cons a l => rw [hq] at hl; simp at hl
      rw [this]; rfl

/-- The order of the executions of a workflow: by priority, and suppliers before receivers unless the priorities say
otherwise. -/
structure Scheduled (g : Graph) (prio : Obj → Nat) (l : List Obj) : Prop where
  asc : ∀ (i j : Nat) (a b : Obj), l[i]? = some a → l[j]? = some b → prio a < prio b → i < j
  order : ∀ (i j : Nat) (a b : Obj), l[i]? = some a → l[j]? = some b → Supplies g a b → prio a ≤ prio b → i < j

theorem scheduled_of {g : Graph} (ac : Acyclic g) {prio : Obj → Nat} {l : List Obj}
    (h1 : l.Pairwise fun x y => prio x ≤ prio y) (h2 : l.Pairwise fun x y => prio x = prio y → ¬ Supplies g y x) :
    Scheduled g prio l := by
  have hp : ∀ (i j : Nat) (a b : Obj), l[i]? = some a → l[j]? = some b → prio a < prio b → i < j := by
    intro i j a b hi hj hab
    obtain ⟨hi', rfl⟩ := List.getElem?_eq_some_iff.1 hi
    obtain ⟨hj', rfl⟩ := List.getElem?_eq_some_iff.1 hj
    rcases Nat.lt_trichotomy i j with h | h | h
    · exact h
    · subst h; omega
    · have := pairwise_iff_getElem.1 h1 j i hj' hi' h
      omega
  refine ⟨hp, ?_⟩
  intro i j a b hi hj hs hab
  rcases Nat.lt_or_ge (prio a) (prio b) with hlt | hge
  · exact hp i j a b hi hj hlt
  · obtain ⟨hi', rfl⟩ := List.getElem?_eq_some_iff.1 hi
    obtain ⟨hj', rfl⟩ := List.getElem?_eq_some_iff.1 hj
    rcases Nat.lt_trichotomy i j with h | h | h
    · exact h
    · subst h; exact (ac _ (.single hs)).elim
    · exact (pairwise_iff_getElem.1 h2 j i hj' hi' h (by omega) hs).elim

theorem blocks_scheduled {g : Graph} (ac : Acyclic g) {prio : Obj → Nat} {m : List (Nat × Chain)}
    (hg : ∀ e ∈ m, Good g prio e) (hs : m.Pairwise fun a b => a.1 < b.1) : Scheduled g prio (blocks m) := by
  apply scheduled_of ac
  · rw [blocks, pairwise_flatMap]
    refine ⟨fun e he => ?_, ?_⟩
    · refine pairwise_of_forall_mem_list ?_
      intro x hx y hy
      rw [(hg e he).prio x hx, (hg e he).prio y hy]
      exact Nat.le_refl _
    · refine hs.imp_of_mem ?_
      intro a b ha hb hab x hx y hy
      rw [(hg a ha).prio x hx, (hg b hb).prio y hy]
      omega
  · rw [blocks, pairwise_flatMap]
    refine ⟨fun e he => ?_, ?_⟩
    · have h := (ordered_of_acyclic ac _).1 (hg e he).ord
      exact Pairwise.imp (S := fun x y => prio x = prio y → ¬ Supplies g y x) (fun h _ => h) h
    · refine hs.imp_of_mem ?_
      intro a b ha hb hab x hx y hy heq
      rw [(hg a ha).prio x hx, (hg b hb).prio y hy] at heq
      omega

/-- **C211.**  A wired network without cycles, in whatever order the blocks of the dictionary are visited: there is an
order of all the blocks, each once, which follows the priorities and, where these allow it, has the suppliers before
the receivers; the execution runs the blocks in this order, up to the first one which fails, and no cycle is
reported.  Connections from a lower to a higher priority are missing. -/
theorem C211_schedule_partial {g : Graph} (wf : WellFormed g) (ac : Acyclic g) (prio : Obj → Nat)
    (fails : Obj → Bool) (visit : List Obj) (hnd : visit.Nodup) :
    ∃ N all trace rest result, (∀ n, N ≤ n → workflow g n fails prio visit = some (trace, result)) ∧
      all.Perm visit ∧ Scheduled g prio all ∧ all = trace ++ rest ∧ (∀ o ∈ trace, fails o = false) ∧
      (result = .ok ∧ rest = [] ∨ ∃ o rest', rest = o :: rest' ∧ fails o = true ∧ result = .blockError o) := by
  obtain ⟨N, m, h1, h2, h3, h4⟩ := build_good wf ac (prio := prio) visit [] (by simp) (by simp) hnd
    (by simp [blocks])
  obtain ⟨rest, r1, r2, r3⟩ := runBlocks_spec fails (blocks m)
  refine ⟨N, blocks m, (runBlocks fails (blocks m)).1, rest, (runBlocks fails (blocks m)).2, fun n hn => ?_,
    by simpa [blocks] using h4, blocks_scheduled ac h2 h3, r1, r2, r3⟩
  rw [workflow, h1 n hn, Option.map_some, runChains_blocks fails m fun e he => (h2 e he).ord]

/-- **C211.**  When no block supplies a block of a higher priority, a workflow in which nothing fails executes every
block once, the suppliers before the receivers. -/
theorem C211_all_partial {g : Graph} (wf : WellFormed g) (ac : Acyclic g) (prio : Obj → Nat)
    (hm : ∀ a b, Supplies g a b → prio a ≤ prio b) (fails : Obj → Bool) (visit : List Obj) (hnd : visit.Nodup)
    (hf : ∀ o ∈ visit, fails o = false) :
    ∃ N trace, (∀ n, N ≤ n → workflow g n fails prio visit = some (trace, .ok)) ∧ trace.Perm visit ∧
      Ordered g trace := by
  obtain ⟨N, all, trace, rest, result, h1, h2, h3, h4, _, h6⟩ := C211_schedule_partial wf ac prio fails visit hnd
  rcases h6 with ⟨rfl, rfl⟩ | ⟨o, rest', rfl, ho, _⟩
  · rw [append_nil] at h4
    subst h4
    exact ⟨N, all, h1, h2, fun i j a b hi hj hs => h3.order i j a b hi hj hs (hm a b hs)⟩
  · have : o ∈ visit := h2.mem_iff.1 (by rw [h4]; simp)
    rw [hf o this] at ho
    cases ho

/-- priorities which follow the connections of `demo` -/
example : (∀ a b, Supplies demo a b → (a / 3) ≤ (b / 3)) ∧ [4, 0, 3, 1, 2, 5].Nodup := by
  refine ⟨?_, by decide⟩
  intro a b hs
  simp only [Supplies, demo, ofEdges, mem_map, mem_filter, beq_iff_eq] at hs
  obtain ⟨e, ⟨h1, rfl⟩, rfl⟩ := hs
  revert h1
  simp only [mem_cons, not_mem_nil, or_false]
  rintro (rfl | rfl | rfl | rfl | rfl) <;> decide

example : workflow demo 10 (fun _ => false) (fun o => o / 3) [4, 0, 3, 1, 2, 5] =
    some ([0, 1, 2, 3, 4, 5], .ok) := by decide

/-- **C211, violated.**  A block which supplies one of a higher priority is executed after it, and nothing is
reported. -/
theorem C211_inversion_fails : ∃ (g : Graph) (prio : Obj → Nat), WellFormed g ∧ Acyclic g ∧ Supplies g 0 1 ∧
    workflow g 5 (fun _ => false) prio [0, 1] = some ([1, 0], .ok) :=
  ⟨ofEdges [(0, 1)], fun o => 1 - o, ofEdges_wf _ (by decide), ofEdges_acyclic _ (by decide),
    by unfold Supplies; decide, by decide⟩

/-! ## C212 -/

/-- What holds of the chains on any network. -/
structure Weakly (prio : Obj → Nat) (e : Nat × Chain) : Prop where
  weak : e.2.Weak
  prio : ∀ o ∈ e.2.objs, prio o = e.1

theorem weak_objs {ch : Chain} (h : ch.Weak) : ch.objs = ch.entries.map Prod.fst := by
  rw [Chain.entries, map_fst_zip]; rw [h.len]; exact Nat.le_refl _

theorem add_weakly {g : Graph} (hnd : ∀ a, (g.parents a).Nodup) {prio : Obj → Nat} {e : Nat × Chain}
    (hw : Weakly prio e) (o : Obj) (hp : prio o = e.1) {n : Nat} {r : Chain × Int}
    (h : addObject g n e.2 o (-1) = some r) :
    Weakly prio (e.1, r.1) ∧ ∃ lost, (o :: e.2.objs).Perm (r.1.objs ++ lost) := by
  obtain ⟨h1, _, lost, h3⟩ := add_general hnd n e.2 o (-1) r.1 r.2 hw.weak h
  have hperm : (o :: e.2.objs).Perm (r.1.objs ++ lost.map Prod.fst) := by
    rw [weak_objs h1, weak_objs hw.weak, ← map_append]
    exact h3.map Prod.fst
  refine ⟨⟨h1, fun x hx => ?_⟩, _, hperm⟩
  rcases mem_cons.1 (hperm.mem_iff.2 (mem_append_left _ hx)) with rfl | hx
  · exact hp
  · exact hw.prio x hx

theorem weakly_empty (prio : Obj → Nat) (p : Nat) : Weakly prio (p, empty) :=
  ⟨⟨rfl, by simp [empty], by simp [empty]⟩, by simp [empty]⟩

theorem addAt_weakly {g : Graph} (hnd : ∀ a, (g.parents a).Nodup) {prio : Obj → Nat} (o : Obj) (n : Nat) :
    ∀ (m m' : List (Nat × Chain)), (∀ e ∈ m, Weakly prio e) → m.Pairwise (fun a b => a.1 < b.1) →
      addAt g n (prio o) o m = some m' → (∀ e ∈ m', Weakly prio e) ∧
        m'.Pairwise (fun a b => a.1 < b.1) ∧ (∀ e ∈ m', e.1 = prio o ∨ ∃ e' ∈ m, e'.1 = e.1) ∧
        ∃ lost, (o :: blocks m).Perm (blocks m' ++ lost) := by
  intro m
  induction m with
  | nil =>
    intro m' _ _ h
    rw [addAt, Option.map_eq_some_iff] at h
    obtain ⟨r, hr, rfl⟩ := h
    obtain ⟨h1, lost, h2⟩ := add_weakly hnd (weakly_empty prio (prio o)) o rfl hr
    exact ⟨by simpa using h1, by simp, by simp, lost, by simpa [blocks, empty] using h2⟩
  | cons e m ih =>
    intro m' hg hs h
    obtain ⟨hs1, hs2⟩ := pairwise_cons.1 hs
    rw [addAt] at h
    by_cases h1 : prio o = e.1
    · rw [if_pos h1, Option.map_eq_some_iff] at h
      obtain ⟨r, hr, rfl⟩ := h
      obtain ⟨hb, lost, hc⟩ := add_weakly hnd (hg e (by simp)) o h1 hr
      refine ⟨?_, ?_, ?_, lost, ?_⟩
      · intro x hx
        rcases mem_cons.1 hx with rfl | hx
        · exact hb
        · exact hg x (mem_cons_of_mem _ hx)
      · exact pairwise_cons.2 ⟨hs1, hs2⟩
      · intro x hx
        rcases mem_cons.1 hx with rfl | hx
        · exact .inl h1.symm
        · exact .inr ⟨x, mem_cons_of_mem _ hx, rfl⟩
      · rw [blocks_cons, blocks_cons]
        refine (hc.append_right (blocks m)).trans ?_
        rw [append_assoc, append_assoc]
        exact perm_append_comm.append_left _
    · rw [if_neg h1] at h
      by_cases h2 : prio o < e.1
      · rw [if_pos h2, Option.map_eq_some_iff] at h
        obtain ⟨r, hr, rfl⟩ := h
        obtain ⟨hb, lost, hc⟩ := add_weakly hnd (weakly_empty prio (prio o)) o rfl hr
        refine ⟨?_, ?_, ?_, lost, ?_⟩
        · intro x hx
          rcases mem_cons.1 hx with rfl | hx
          · exact hb
          · exact hg x hx
        · refine pairwise_cons.2 ⟨fun x hx => ?_, hs⟩
          rcases mem_cons.1 hx with rfl | hx
          · exact h2
          · exact Nat.lt_trans h2 (hs1 x hx)
        · intro x hx
          rcases mem_cons.1 hx with rfl | hx
          · exact .inl rfl
          · exact .inr ⟨x, hx, rfl⟩
        · rw [blocks_cons (prio o, r.1)]
          refine (hc.append_right (blocks (e :: m))).trans ?_
          rw [append_assoc, append_assoc]
          exact perm_append_comm.append_left _
      · rw [if_neg h2, Option.map_eq_some_iff] at h
        obtain ⟨m1, hm1, rfl⟩ := h
        obtain ⟨hb, hc, hd, lost, he⟩ := ih m1 (fun x hx => hg x (mem_cons_of_mem _ hx)) hs2 hm1
        refine ⟨?_, ?_, ?_, lost, ?_⟩
        · intro x hx
          rcases mem_cons.1 hx with rfl | hx
          · exact hg _ (by simp)
          · exact hb x hx
        · refine pairwise_cons.2 ⟨fun x hx => ?_, hc⟩
          rcases hd x hx with h | ⟨y, hy, h⟩
          · rw [h]; omega
          · rw [← h]; exact hs1 y hy
        · intro x hx
          rcases mem_cons.1 hx with rfl | hx
          · exact .inr ⟨x, by simp, rfl⟩
          · rcases hd x hx with h | ⟨y, hy, h⟩
            · exact .inl h
            · exact .inr ⟨y, mem_cons_of_mem _ hy, h⟩
        · rw [blocks_cons, blocks_cons, append_assoc]
          exact perm_middle.symm.trans (he.append_left _)

theorem build_weakly {g : Graph} (hnd : ∀ a, (g.parents a).Nodup) {prio : Obj → Nat} (n : Nat) :
    ∀ (visit : List Obj) (m m' : List (Nat × Chain)), (∀ e ∈ m, Weakly prio e) →
      m.Pairwise (fun a b => a.1 < b.1) →
      visit.foldlM (fun m o => addAt g n (prio o) o m) m = some m' →
      (∀ e ∈ m', Weakly prio e) ∧ m'.Pairwise (fun a b => a.1 < b.1) ∧
        ∃ lost, (visit ++ blocks m).Perm (blocks m' ++ lost) := by
  intro visit
  induction visit with
  | nil =>
    intro m m' hg hs h
    cases h
    exact ⟨hg, hs, [], by simp⟩
  | cons o visit ih =>
    intro m m' hg hs h
    rw [foldlM_cons] at h
    cases hm1 : addAt g n (prio o) o m with
    | none => rw [hm1] at h; cases h
    | some m1 =>
      rw [hm1] at h
      obtain ⟨h2, h3, _, l1, h5⟩ := addAt_weakly hnd o n m m1 hg hs hm1
      obtain ⟨k2, k3, l2, k4⟩ := ih m1 m' h2 h3 h
      refine ⟨k2, k3, l2 ++ l1, ?_⟩
      have e1 : (o :: visit ++ blocks m).Perm (visit ++ (blocks m1 ++ l1)) :=
        perm_middle.symm.trans (h5.append_left visit)
      rw [← append_assoc] at e1 ⊢
      exact e1.trans (k4.append_right l1)

theorem runChains_ok {g : Graph} {fails : Obj → Bool} :
    ∀ (m : List (Nat × Chain)) (t : List Obj), runChains g fails m = (t, .ok) →
      t = blocks m ∧ ∀ e ∈ m, Ordered g e.2.objs := by
  intro m
  induction m with
  | nil => intro t h; cases h; exact ⟨rfl, by simp⟩
  | cons e m ih =>
    intro t h
    rw [runChains] at h
    split at h
    · rcases hx : exec g fails e.2 with ⟨t1, r1⟩
      rw [hx] at h
      cases r1 with
      | ok =>
        have hok := C02_exec_ok_trace g fails e.2 (by rw [hx])
        rw [hx] at hok
        rcases hr : runChains g fails m with ⟨t2, r2⟩
        rw [hr] at h
        have h' := Prod.mk.inj h
        obtain ⟨k1, k2⟩ := ih t2 (by rw [hr]; exact Prod.ext rfl h'.2)
        refine ⟨?_, ?_⟩
        · have hk : t1 = e.2.objs := hok.1
          rw [blocks_cons, ← h'.1, k1, hk]
        · intro x hx'
          rcases mem_cons.1 hx' with rfl | hx'
          · exact hok.1 ▸ hok.2
          · exact k2 x hx'
      | loopError => cases h
      | blockError o => cases h
    · next hl =>
      have he : e.2.objs = [] := by
        cases hq : e.2.objs with
        | nil => rfl
        | cons a l => rw [hq] at hl; simp at hl
      obtain ⟨k1, k2⟩ := ih t h
      refine ⟨by rw [blocks_cons, he]; exact k1, ?_⟩
      intro x hx'
      rcases mem_cons.1 hx' with rfl | hx'
      · rw [he]; intro i j a b hi; simp at hi
      · exact k2 x hx'

theorem blocks_filter {prio : Obj → Nat} (p : Nat) :
    ∀ m : List (Nat × Chain), (∀ e ∈ m, Weakly prio e) → m.Pairwise (fun a b => a.1 < b.1) →
      (blocks m).filter (fun o => prio o == p) = [] ∨
      ∃ e ∈ m, (blocks m).filter (fun o => prio o == p) = e.2.objs := by
  intro m
  induction m with
  | nil => intro _ _; exact .inl rfl
  | cons e m ih =>
    intro hg hs
    obtain ⟨hs1, hs2⟩ := pairwise_cons.1 hs
    rw [blocks_cons, filter_append]
    by_cases hp : e.1 = p
    · right
      refine ⟨e, by simp, ?_⟩
      have h1 : e.2.objs.filter (fun o => prio o == p) = e.2.objs :=
        filter_eq_self.2 fun o ho => by rw [(hg e (by simp)).prio o ho]; simpa using hp
      have h2 : (blocks m).filter (fun o => prio o == p) = [] := by
        rw [filter_eq_nil_iff]
        intro o ho
        obtain ⟨x, hx, hxo⟩ := mem_flatMap.1 ho
        have := hs1 x hx
        rw [(hg x (mem_cons_of_mem _ hx)).prio o hxo]
        simp only [beq_iff_eq]
        omega
      rw [h1, h2, append_nil]
    · have h1 : e.2.objs.filter (fun o => prio o == p) = [] := by
        rw [filter_eq_nil_iff]
        intro o ho
        rw [(hg e (by simp)).prio o ho]
        simpa using hp
      rw [h1, nil_append]
      rcases ih (fun x hx => hg x (mem_cons_of_mem _ hx)) hs2 with h | ⟨x, hx, h⟩
      · exact .inl h
      · exact .inr ⟨x, mem_cons_of_mem _ hx, h⟩

/-- **C212.**  Whatever the network, an execution which ends without an error ran blocks of the dictionary, each at
most once, and among the blocks it ran of one priority there is no cycle.  Cycles across priorities, and those of
which a block was left out, are missing. -/
theorem C212_priority_partial {g : Graph} (hp : ∀ a, (g.parents a).Nodup) (prio : Obj → Nat) (fails : Obj → Bool)
    (visit : List Obj) (hnd : visit.Nodup) (n : Nat) (trace : List Obj)
    (h : workflow g n fails prio visit = some (trace, .ok)) :
    trace.Nodup ∧ (∀ o ∈ trace, o ∈ visit) ∧ ∀ p, ¬ HasCycle g (trace.filter fun o => prio o == p) := by
  rw [workflow, Option.map_eq_some_iff] at h
  obtain ⟨m, hm, hr⟩ := h
  obtain ⟨h1, h2, lost, h3⟩ := build_weakly hp n visit [] m (by simp) (by simp) hm
  obtain ⟨rfl, h5⟩ := runChains_ok m trace hr
  have h3 : visit.Perm (blocks m ++ lost) := by simpa [blocks] using h3
  refine ⟨(nodup_append.1 (h3.nodup_iff.1 hnd)).1, fun o ho => h3.mem_iff.2 (mem_append_left _ ho), fun p hc => ?_⟩
  rcases blocks_filter p m h1 h2 with he | ⟨e, he, heq⟩
  · rw [he] at hc
    obtain ⟨a, ha⟩ := hc
    cases ha with
    | single h => exact not_mem_nil h.1
    | tail _ h => exact not_mem_nil h.1
  · rw [heq] at hc
    exact cycle_not_ordered hc (h5 e he)

/-- a cycle of two priorities with a block supplied by both -/
example : (∀ a, ((ofEdges [(0, 1), (1, 0), (0, 2), (1, 2)]).parents a).Nodup) ∧
    workflow (ofEdges [(0, 1), (1, 0), (0, 2), (1, 2)]) 5 (fun _ => false) (fun o => o % 2) [2, 0, 1] =
      some ([0, 2, 1], .ok) :=
  ⟨(ofEdges_wf _ (by decide)).nodupP, by decide⟩

/-- **C212, violated.**  Two blocks of different priorities which supply each other are executed as if nothing was. -/
theorem C212_across_fails : ∃ (g : Graph) (prio : Obj → Nat), WellFormed g ∧ HasCycle g [0, 1] ∧
    workflow g 5 (fun _ => false) prio [0, 1] = some ([0, 1], .ok) := by
  refine ⟨ofEdges [(0, 1), (1, 0)], id, ofEdges_wf _ (by decide), ⟨0, ?_⟩, by decide⟩
  exact (Relation.TransGen.single (b := 1) (by unfold Supplies; decide)).tail (by unfold Supplies; decide)

/-- **C212, violated.**  Two blocks of the same priority which supply each other: the second is left out, and the
execution ends without an error. -/
theorem C212_dropped_fails : ∃ g : Graph, WellFormed g ∧ HasCycle g [0, 1] ∧
    workflow g 5 (fun _ => false) (fun _ => 0) [0, 1] = some ([0], .ok) := by
  refine ⟨ofEdges [(0, 1), (1, 0)], ofEdges_wf _ (by decide), ⟨0, ?_⟩, by decide⟩
  exact (Relation.TransGen.single (b := 1) (by unfold Supplies; decide)).tail (by unfold Supplies; decide)

end Verif.Main
