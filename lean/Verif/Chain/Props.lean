import Verif.Chain.ExecLemmas
/-
Property theorems about chains (C01-C08, C47-C49).
-/
namespace Verif.Chain

open List

/-! ### Concrete networks used in the examples -/

/-- network given by a list of connections (supplier, receiver) -/
def ofEdges (es : List (Obj × Obj)) : Graph where
  parents b := (es.filter (fun e => e.2 == b)).map Prod.fst
  children a := (es.filter (fun e => e.1 == a)).map Prod.snd

theorem ofEdges_wf (es : List (Obj × Obj)) (h : es.Nodup) : WellFormed (ofEdges es) := by
  refine ⟨?_, ?_⟩
  · intro a b
    simp only [ofEdges, mem_map, mem_filter, beq_iff_eq]
    constructor
    · rintro ⟨e, ⟨h1, h2⟩, h3⟩; exact ⟨e, ⟨h1, h3⟩, h2⟩
    · rintro ⟨e, ⟨h1, h2⟩, h3⟩; exact ⟨e, ⟨h1, h3⟩, h2⟩
  · intro a
    simp only [ofEdges, Nodup, pairwise_map]
    refine Pairwise.imp_of_mem ?_ (h.sublist filter_sublist)
    intro x y hx hy hne he
    simp only [mem_filter, beq_iff_eq] at hx hy
    exact hne (Prod.ext he (by rw [hx.2, hy.2]))

theorem acyclic_of_rank (g : Graph) (r : Obj → Nat) (h : ∀ a b, Supplies g a b → r a < r b) :
    Acyclic g := by
  intro a ha
  have : ∀ b, Relation.TransGen (Supplies g) a b → r a < r b := by
    intro b hb
    induction hb with
    | single h' => exact h _ _ h'
    | tail _ h' ih => exact Nat.lt_trans ih (h _ _ h')
  exact Nat.lt_irrefl _ (this a ha)

theorem ofEdges_acyclic (es : List (Obj × Obj)) (h : ∀ e ∈ es, e.1 < e.2) : Acyclic (ofEdges es) := by
  refine acyclic_of_rank _ id ?_
  intro a b hs
  simp only [Supplies, ofEdges, mem_map, mem_filter, beq_iff_eq] at hs
  obtain ⟨e, ⟨h1, rfl⟩, rfl⟩ := hs
  exact h e h1

/-- A network with two suppliers (1, 2) of block 3, itself supplying 4 and 5; 0 supplies 2. -/
def demo : Graph := ofEdges [(1, 3), (2, 3), (3, 4), (3, 5), (0, 2)]
theorem demo_wf : WellFormed demo := ofEdges_wf _ (by decide)
theorem demo_acyclic : Acyclic demo := ofEdges_acyclic _ (by decide)

/-- a chain over `demo` that needs rearrangement when block 3 is inserted: 0 and 2 after 4 -/
def demoChain : Chain := { empty with objs := [4, 1, 0, 2], ids := [0, 1, 2, 3], counter := 4 }
theorem demoChain_ok : demoChain.Ok := by
  constructor <;> simp [demoChain, empty] <;> decide

/-! ### C01 -/

/-- C01: on an acyclic network, inserting a block that is not yet in an ordered chain terminates (for
every large enough fuel, with one and the same result), is not refused, and yields an ordered chain
with exactly the old (block, id) entries plus the new one. -/
theorem C01_addObject_keeps_order {g : Graph} (wf : WellFormed g) (ac : Acyclic g) (ch : Chain)
    (obj : Obj) (id_ : Int) (hok : ch.Ok) (hnew : obj ∉ ch.objs) (hord : Ordered g ch.objs) :
    ∃ N ch' i, (∀ n, N ≤ n → addObject g n ch obj id_ = some (ch', i)) ∧ i ≠ -1 ∧ ch'.Ok ∧
      Ordered g ch'.objs ∧
      ch'.entries ~ (obj, if id_ < 0 then ch.counter else id_) :: ch.entries := by
  obtain ⟨ch', i, h1, h2, h3⟩ := add_enough wf ac ch obj id_ hok hnew _ (Nat.le_refl _)
  refine ⟨enough g ch obj, ch', i, ?_, by omega, h3.ok, ?_, h3.perm⟩
  · intro n hn
    exact addObject_mono_le g hn _ _ _ _ h1
  · rw [ordered_of_acyclic ac] at hord ⊢
    exact h3.ord hord

/-- the premises of C01 hold for a chain that needs rearrangement … -/
example : WellFormed demo ∧ Acyclic demo ∧ demoChain.Ok ∧ 3 ∉ demoChain.objs ∧
    Ordered demo demoChain.objs :=
  ⟨demo_wf, demo_acyclic, demoChain_ok, by decide,
    (ordered_of_acyclic demo_acyclic _).2 (by unfold OrdP Supplies; decide)⟩
/-- … and this is what the insertion does there. -/
example : addObject demo 10 demoChain 3 (-1) =
    some ({ demoChain with objs := [1, 0, 2, 3, 4], ids := [1, 2, 3, 4, 0], counter := 5 }, 1) := by
  decide

/-! ### C02 -/

/-- C02: an execution either stops with the loop error before running anything, or runs a prefix of
the chain in chain order, which is a dependency order of all blocks; the prefix is everything unless
some block fails, in which case the first failing block is the one right after the prefix. -/
theorem C02_exec_order (g : Graph) (fails : Obj → Bool) (ch : Chain) :
    ((exec g fails ch).2 = .loopError ∧ (exec g fails ch).1 = [] ∧ ¬ Ordered g ch.objs) ∨
    (Ordered g ch.objs ∧ ∃ rest, ch.objs = (exec g fails ch).1 ++ rest ∧
      (∀ o ∈ (exec g fails ch).1, fails o = false) ∧
      ((exec g fails ch).2 = .ok ∧ rest = [] ∨
        ∃ o rest', rest = o :: rest' ∧ fails o = true ∧ (exec g fails ch).2 = .blockError o)) := by
  unfold exec
  by_cases hl : checkLoopsFrom g ch.objs 0 ch.objs = true
  · left
    rw [if_pos hl]
    refine ⟨rfl, rfl, ?_⟩
    intro ho
    rw [(checkLoops_iff g ch.objs).2 ho] at hl
    exact absurd hl (by simp)
  · right
    rw [if_neg hl]
    exact ⟨(checkLoops_iff g ch.objs).1 (by simpa using hl), runBlocks_spec fails ch.objs⟩

/-- C02, consequence in terms of the trace: when an execution succeeds, every block of the chain has
run exactly as often as it occurs in the chain and each supplier ran before its receiver. -/
theorem C02_exec_ok_trace (g : Graph) (fails : Obj → Bool) (ch : Chain)
    (h : (exec g fails ch).2 = .ok) :
    (exec g fails ch).1 = ch.objs ∧ Ordered g (exec g fails ch).1 := by
  rcases C02_exec_order g fails ch with ⟨h1, _⟩ | ⟨ho, rest, h1, _, h3⟩
  · rw [h] at h1; cases h1
  · rcases h3 with ⟨_, hr⟩ | ⟨o, r', _, _, h5⟩
    · subst hr
      rw [append_nil] at h1
      rw [← h1]
      exact ⟨rfl, ho⟩
    · rw [h] at h5; cases h5

example : (exec demo (fun _ => false) { demoChain with objs := [1, 0, 2, 3, 4] }) =
    ([1, 0, 2, 3, 4], .ok) := by decide
example : (exec demo (fun o => o == 3) { demoChain with objs := [1, 0, 2, 3, 4] }) =
    ([1, 0, 2], .blockError 3) := by decide

/-! ### C03 -/

/-- C03: a dependency cycle of any length among the blocks of a chain (in any order) makes the
execution stop with the loop error before any block runs. -/
theorem C03_loop_detected (g : Graph) (fails : Obj → Bool) (ch : Chain) (h : HasCycle g ch.objs) :
    exec g fails ch = ([], .loopError) := by
  unfold exec
  have hno := cycle_not_ordered h
  have : checkLoopsFrom g ch.objs 0 ch.objs = true := by
    cases hc : checkLoopsFrom g ch.objs 0 ch.objs with
    | true => rfl
    | false => exact absurd ((checkLoops_iff g ch.objs).1 hc) hno
  rw [if_pos this]

/-- a cycle of three blocks in a chain with other blocks in between -/
example : HasCycle (ofEdges [(0, 1), (1, 2), (2, 0), (0, 5)]) [5, 0, 7, 2, 1] := by
  refine ⟨0, ?_⟩
  have s : ∀ x y, (x ∈ [5, 0, 7, 2, 1] ∧ y ∈ [5, 0, 7, 2, 1] ∧
      Supplies (ofEdges [(0, 1), (1, 2), (2, 0), (0, 5)]) x y) → Relation.TransGen (fun x y =>
      x ∈ [5, 0, 7, 2, 1] ∧ y ∈ [5, 0, 7, 2, 1] ∧
      Supplies (ofEdges [(0, 1), (1, 2), (2, 0), (0, 5)]) x y) x y := fun x y h => .single h
  refine ((s 0 1 ?_).tail (c := 2) ?_).tail (c := 0) ?_ <;> (unfold Supplies; decide)

/-- the loop error is raised exactly when the chain is not in dependency order (for every network,
cyclic or not) -/
theorem C03_loop_iff_unordered (g : Graph) (fails : Obj → Bool) (ch : Chain) :
    (exec g fails ch).2 = .loopError ↔ ¬ Ordered g ch.objs := by
  constructor
  · intro h
    rcases C02_exec_order g fails ch with ⟨_, _, h3⟩ | ⟨_, rest, _, _, h3⟩
    · exact h3
    · rcases h3 with ⟨h4, _⟩ | ⟨_, _, _, _, h4⟩ <;> (rw [h] at h4; cases h4)
  · intro h
    rcases C02_exec_order g fails ch with ⟨h1, _⟩ | ⟨ho, _⟩
    · exact h1
    · exact absurd ho h

/-! ### C04 -/

/-- C04: with an acyclic network wired beforehand, a chain obtained by any history of insertions (in
any order), deletions and clears never raises the loop error; if no block fails, it runs completely;
and any further new block can be inserted. -/
theorem C04_built_chain_executes {g : Graph} (wf : WellFormed g) (ac : Acyclic g) {ch : Chain}
    (hb : Built g ch) (fails : Obj → Bool) :
    (exec g fails ch).2 ≠ .loopError ∧
    ((∀ o ∈ ch.objs, fails o = false) → exec g fails ch = (ch.objs, .ok)) ∧
    (∀ obj id_, obj ∉ ch.objs → ∃ n ch' i, addObject g n ch obj id_ = some (ch', i) ∧ i ≠ -1) := by
  obtain ⟨hok, hord⟩ := built_inv wf ac hb
  have hord' : Ordered g ch.objs := (ordered_of_acyclic ac _).2 hord
  have hne : (exec g fails ch).2 ≠ .loopError := by
    intro h
    exact (C03_loop_iff_unordered g fails ch).1 h hord'
  refine ⟨hne, ?_, ?_⟩
  · intro hf
    rcases C02_exec_order g fails ch with ⟨h1, _⟩ | ⟨_, rest, h1, _, h3⟩
    · exact absurd h1 hne
    · rcases h3 with ⟨h4, h5⟩ | ⟨o, r', h4, h5, _⟩
      · subst h5
        rw [append_nil] at h1
        exact Prod.ext h1.symm h4
      · have : o ∈ ch.objs := by rw [h1, h4]; simp
        rw [hf o this] at h5
        exact absurd h5 (by simp)
  · intro obj id_ hnew
    obtain ⟨ch', i, h1, h2, _⟩ := add_enough wf ac ch obj id_ hok hnew _ (Nat.le_refl _)
    exact ⟨_, ch', i, h1, by omega⟩

/-- a history over `demo` that inserts receivers before suppliers, deletes one and re-inserts it -/
example : Built demo { empty with objs := [1, 0, 2, 3, 4], ids := [1, 2, 5, 4, 0], counter := 6 } := by
  have h4 : Built demo _ := .add (n := 10) (obj := 4) (id_ := -1) (ch' := { empty with objs := [4], ids := [0], counter := 1 }) (i := 0) .empty (by decide) (by decide)
  have h1 : Built demo _ := .add (n := 10) (obj := 1) (id_ := -1) (ch' := { empty with objs := [4, 1], ids := [0, 1], counter := 2 }) (i := 1) h4 (by decide) (by decide)
  have h0 : Built demo _ := .add (n := 10) (obj := 0) (id_ := -1) (ch' := { empty with objs := [4, 1, 0], ids := [0, 1, 2], counter := 3 }) (i := 2) h1 (by decide) (by decide)
  have h2 : Built demo _ := .add (n := 10) (obj := 2) (id_ := -1) (ch' := demoChain) (i := 3) h0 (by decide) (by decide)
  have h3 : Built demo _ := .add (n := 10) (obj := 3) (id_ := -1) (ch' := { demoChain with objs := [1, 0, 2, 3, 4], ids := [1, 2, 3, 4, 0], counter := 5 }) (i := 1) h2 (by decide) (by decide)
  have hd : Built demo _ := .delete 3 h3
  exact .add (n := 10) (obj := 2) (id_ := -1) (i := 2) hd (by decide) (by decide)

/-- The pins must be in place before the blocks are inserted: inserting first and wiring later can
raise the loop error on an acyclic network. -/
theorem C04_late_wiring_fails : ∃ (g₀ g : Graph) (ch : Chain), WellFormed g ∧ Acyclic g ∧
    Built g₀ ch ∧ (exec g (fun _ => false) ch).2 = .loopError := by
  refine ⟨ofEdges [], ofEdges [(1, 2)], { empty with objs := [2, 1], ids := [0, 1], counter := 2 },
    ofEdges_wf _ (by decide), ofEdges_acyclic _ (by decide), ?_, by decide⟩
  have h1 : Built (ofEdges []) _ := .add (n := 3) (obj := 2) (id_ := -1) (ch' := { empty with objs := [2], ids := [0], counter := 1 }) (i := 0) .empty (by decide) (by decide)
  exact .add (n := 3) (obj := 1) (id_ := -1) (i := 1) h1 (by decide) (by decide)

/-! ### C05 -/

/-- three blocks in a ring -/
def ring : Graph := ofEdges [(0, 1), (1, 2), (2, 0)]

theorem ring_diverges : ∀ (n : Nat) (a b : Int) (cn : Int) (pd : Bool) (od : String) (id_ : Int),
    0 ≤ a → 0 ≤ b → 0 ≤ cn →
    addObject ring n ⟨[0, 1], [a, b], cn, pd, od⟩ 2 id_ = none ∧
    addObject ring n ⟨[2, 0], [a, b], cn, pd, od⟩ 1 id_ = none ∧
    addObject ring n ⟨[1, 2], [a, b], cn, pd, od⟩ 0 id_ = none := by
  intro n
  induction n with
  | zero => intros; simp [addObject]
  | succ n ih =>
    intro a b cn pd od id_ ha hb hcn
    have hb' : ¬ b < 0 := by omega
    cases n with
    | zero =>
      refine ⟨?_, ?_, ?_⟩ <;> (rw [addObject_succ]; rfl)
    | succ n =>
      have hp := pick_nonneg (⟨[0, 1], [a, b], cn, pd, od⟩ : Chain) id_ hcn
      have hpk : ∀ o i, pick (⟨o, i, cn, pd, od⟩ : Chain) id_ = (if id_ < 0 then cn else id_) := by
        intro o i; rfl
      have hp' : 0 ≤ (if id_ < 0 then cn else id_) := by split <;> omega
      have hbm : ∀ o i, bump (⟨o, i, cn, pd, od⟩ : Chain) id_ =
          ⟨o, i, if id_ < 0 then cn + 1 else cn, pd, od⟩ := by
        intro o i; unfold bump; split <;> rfl
      have hcn' : 0 ≤ (if id_ < 0 then cn + 1 else cn) := by split <;> omega
      generalize hI : (if id_ < 0 then cn else id_) = I at *
      generalize hC : (if id_ < 0 then cn + 1 else cn) = C at *
      have hI' : ¬ I < 0 := by omega
      have key := ih I a C pd od b hp' ha hcn'
      refine ⟨?_, ?_, ?_⟩
      · have e1 : addObject ring (n + 1) ⟨[0], [a], C, pd, od⟩ 2 I =
            some (⟨[2, 0], [I, a], C, pd, od⟩, 0) := by
          rw [addObject_succ]; simp only [bump, pick, if_neg hI']; rfl
        rw [addObject_succ, hpk, hbm]
        show (match addObject ring (n + 1) ⟨[0], [a], C, pd, od⟩ 2 I with
          | none => none
          | some (ch2, idx) => match [((1 : Obj), b)].foldlM (fun c x => (addObject ring (n + 1) c x.1 x.2).map Prod.fst) ch2 with
            | none => none
            | some ch3 => some (ch3, idx + 1)) = none
        rw [e1]
        simp [key.2.1]
      · have e1 : addObject ring (n + 1) ⟨[2], [a], C, pd, od⟩ 1 I =
            some (⟨[1, 2], [I, a], C, pd, od⟩, 0) := by
          rw [addObject_succ]; simp only [bump, pick, if_neg hI']; rfl
        rw [addObject_succ, hpk, hbm]
        show (match addObject ring (n + 1) ⟨[2], [a], C, pd, od⟩ 1 I with
          | none => none
          | some (ch2, idx) => match [((0 : Obj), b)].foldlM (fun c x => (addObject ring (n + 1) c x.1 x.2).map Prod.fst) ch2 with
            | none => none
            | some ch3 => some (ch3, idx + 1)) = none
        rw [e1]
        simp [key.2.2]
      · have e1 : addObject ring (n + 1) ⟨[1], [a], C, pd, od⟩ 0 I =
            some (⟨[0, 1], [I, a], C, pd, od⟩, 0) := by
          rw [addObject_succ]; simp only [bump, pick, if_neg hI']; rfl
        rw [addObject_succ, hpk, hbm]
        show (match addObject ring (n + 1) ⟨[1], [a], C, pd, od⟩ 0 I with
          | none => none
          | some (ch2, idx) => match [((2 : Obj), b)].foldlM (fun c x => (addObject ring (n + 1) c x.1 x.2).map Prod.fst) ch2 with
            | none => none
            | some ch3 => some (ch3, idx + 1)) = none
        rw [e1]
        simp [key.1]

/-- C05 is false: with three blocks wired in a ring, two of them already in the chain (inserted
normally), inserting the third never returns — no recursion depth suffices. -/
theorem C05_addObject_terminates_fails : ∃ (g : Graph) (ch : Chain) (obj : Obj),
    WellFormed g ∧ Built g ch ∧ obj ∉ ch.objs ∧ ∀ n, addObject g n ch obj (-1) = none := by
  refine ⟨ring, ⟨[0, 1], [0, 1], 2, false, "."⟩, 2, ofEdges_wf _ (by decide), ?_, by decide, ?_⟩
  · have h1 : Built ring _ := .add (n := 3) (obj := 0) (id_ := -1) (ch' := { empty with objs := [0], ids := [0], counter := 1 }) (i := 0) .empty (by decide) (by decide)
    exact .add (n := 3) (obj := 1) (id_ := -1) (i := 1) h1 (by decide) (by decide)
  · intro n
    exact (ring_diverges n 0 1 2 false "." (-1) (by omega) (by omega) (by omega)).1

/-- C05, partial (full statement: the same for every network): on an acyclic network inserting a new
block terminates whatever the order of the chain. -/
theorem C05_addObject_terminates_partial {g : Graph} (wf : WellFormed g) (ac : Acyclic g) (ch : Chain)
    (obj : Obj) (id_ : Int) (hok : ch.Ok) (hnew : obj ∉ ch.objs) :
    ∃ N ch' i, ∀ n, N ≤ n → addObject g n ch obj id_ = some (ch', i) := by
  obtain ⟨ch', i, h1, _, _⟩ := add_enough wf ac ch obj id_ hok hnew _ (Nat.le_refl _)
  exact ⟨_, ch', i, fun n hn => addObject_mono_le g hn _ _ _ _ h1⟩

/-- premises of the partial theorem on a chain that is not even ordered -/
example : ({ demoChain with objs := [2, 4, 0, 1] } : Chain).Ok ∧ ¬ Ordered demo [2, 4, 0, 1] := by
  refine ⟨by constructor <;> simp [demoChain, empty] <;> decide, ?_⟩
  intro h
  have := h 2 0 0 2 (by decide) (by decide) (by unfold Supplies; decide)
  omega

/-! ### C06 -/

/-- C06: on any network (cyclic or not, whatever is refused or dropped), when the chain chooses the
ids, the ids in the chain are distinct, and no id is ever handed out twice before `clear`. -/
theorem C06_ids_unique {g : Graph} (hnd : ∀ a, (g.parents a).Nodup) {ch : Chain} {used : List Int}
    (h : BuiltAuto g ch used) :
    ch.objs.length = ch.ids.length ∧ ch.ids.Nodup ∧ used.Nodup ∧ (∀ i ∈ ch.ids, i ∈ used) := by
  suffices ch.Weak ∧ ch.ids.Nodup ∧ used.Nodup ∧ (∀ i ∈ ch.ids, i ∈ used) ∧ (∀ i ∈ used, i < ch.counter) by
    exact ⟨this.1.len, this.2.1, this.2.2.1, this.2.2.2.1⟩
  have idsOf : ∀ c : Chain, c.Weak → c.ids = c.entries.map Prod.snd := by
    intro c hc
    unfold Chain.entries
    rw [map_snd_zip]; rw [hc.len]; exact Nat.le_refl _
  have objsOf : ∀ c : Chain, c.Weak → c.objs = c.entries.map Prod.fst := by
    intro c hc
    unfold Chain.entries
    rw [map_fst_zip]; rw [hc.len]; exact Nat.le_refl _
  -- common part of the two insertion cases
  have main : ∀ (c c' : Chain) (us : List Int) (n : Nat) (o : Obj) (id_ i : Int),
      c.Weak → c.ids.Nodup → (∀ i ∈ c.ids, i ∈ us) → (∀ i ∈ us, i < c.counter) → id_ < 0 →
      addObject g n c o id_ = some (c', i) →
      c'.Weak ∧ c'.ids.Nodup ∧ c'.counter = c.counter + 1 ∧
      ∃ lost, (o, c.counter) :: c.entries ~ c'.entries ++ lost := by
    intro c c' us n o id_ i hw hn hu hc hneg hadd
    obtain ⟨w, hcn, lost, hp⟩ := add_general hnd n c o id_ c' i hw hadd
    have hpk : pick c id_ = c.counter := by unfold pick; rw [if_pos hneg]
    rw [hpk] at hp
    refine ⟨w, ?_, by rw [hcn]; unfold bump; rw [if_pos hneg], lost, hp⟩
    have hp' := hp.map Prod.snd
    rw [map_cons, map_append, ← idsOf c hw, ← idsOf c' w] at hp'
    have : (c.counter :: c.ids).Nodup := by
      rw [nodup_cons]
      refine ⟨?_, hn⟩
      intro hm
      have := hc _ (hu _ hm)
      omega
    exact (nodup_append.1 (hp'.nodup_iff.1 this)).1
  induction h with
  | empty => exact ⟨⟨rfl, by simp [empty], by simp [empty]⟩, by simp [empty], by simp, by simp [empty], by simp⟩
  | add hb hnew hneg hadd hmem ih =>
    rename_i c c' us n o id_ i id
    obtain ⟨hw, h1, h2, h3, h4⟩ := ih
    obtain ⟨w, nd, hcn, lost, hp⟩ := main c c' us n o id_ i hw h1 h3 h4 hneg hadd
    have hid : id = c.counter := by
      have hm := hp.mem_iff.2 (mem_append_left lost hmem)
      rcases mem_cons.1 hm with h | h
      · exact (Prod.mk.inj h).2
      · exfalso
        apply hnew
        rw [objsOf c hw]
        exact mem_map.2 ⟨_, h, rfl⟩
    refine ⟨w, nd, ?_, ?_, ?_⟩
    · rw [nodup_cons]
      refine ⟨?_, h2⟩
      intro hm
      have := h4 _ hm
      omega
    · intro j hj
      rw [idsOf c' w, mem_map] at hj
      obtain ⟨e, he, rfl⟩ := hj
      have hm := hp.mem_iff.2 (mem_append_left lost he)
      rcases mem_cons.1 hm with h | h
      · rw [h, hid]; simp
      · refine mem_cons_of_mem _ (h3 _ ?_)
        rw [idsOf c hw]
        exact mem_map.2 ⟨_, h, rfl⟩
    · intro j hj
      rcases mem_cons.1 hj with rfl | hj
      · omega
      · have := h4 j hj; omega
  | refused hb hnew hneg hadd hmem ih =>
    rename_i c c' us n o id_ i
    obtain ⟨hw, h1, h2, h3, h4⟩ := ih
    obtain ⟨w, nd, hcn, lost, hp⟩ := main c c' us n o id_ i hw h1 h3 h4 hneg hadd
    refine ⟨w, nd, h2, ?_, ?_⟩
    · intro j hj
      rw [idsOf c' w, mem_map] at hj
      obtain ⟨e, he, rfl⟩ := hj
      have hm := hp.mem_iff.2 (mem_append_left lost he)
      rcases mem_cons.1 hm with h | h
      · exfalso
        apply hmem
        rw [objsOf c' w]
        exact mem_map.2 ⟨e, he, by rw [h]⟩
      · refine h3 _ ?_
        rw [idsOf c hw]
        exact mem_map.2 ⟨_, h, rfl⟩
    · intro j hj
      have := h4 j hj; omega
  | delete idobj hb ih =>
    rename_i c us
    obtain ⟨hw, h1, h2, h3, h4⟩ := ih
    unfold deleteObject
    split
    · next hm =>
      have hk : c.ids.idxOf idobj < c.ids.length := List.idxOf_lt_length_iff.2 hm
      have hk' : c.ids.idxOf idobj < c.objs.length := by rw [hw.len]; exact hk
      refine ⟨⟨by simp [length_eraseIdx, hk, hk', hw.len],
        fun i hi => hw.ids_nonneg i (mem_of_mem_eraseIdx hi), hw.counter_nonneg⟩,
        h1.sublist (eraseIdx_sublist _ _), h2, fun i hi => h3 i (mem_of_mem_eraseIdx hi), h4⟩
    · exact ⟨hw, h1, h2, h3, h4⟩
  | clear _ _ => exact ⟨⟨rfl, by simp [clear], by simp [clear]⟩, by simp [clear], by simp, by simp [clear], by simp⟩

/-- a history with rearrangement: ids stay with their blocks -/
example : BuiltAuto (ofEdges [(2, 0), (0, 1)])
    { empty with objs := [2, 0, 1], ids := [1, 2, 0], counter := 3 } [2, 1, 0] := by
  have h1 : BuiltAuto (ofEdges [(2, 0), (0, 1)]) _ _ := .add (n := 5) (obj := 1) (id_ := -1) (id := 0) (ch' := { empty with objs := [1], ids := [0], counter := 1 }) (i := 0) .empty (by decide) (by decide) (by decide) (by decide)
  have h2 : BuiltAuto (ofEdges [(2, 0), (0, 1)]) _ _ := .add (n := 5) (obj := 2) (id_ := -1) (id := 1) (ch' := { empty with objs := [1, 2], ids := [0, 1], counter := 2 }) (i := 1) h1 (by decide) (by decide) (by decide) (by decide)
  exact .add (n := 5) (obj := 0) (id_ := -1) (id := 2) (i := 1) h2 (by decide) (by decide) (by decide) (by decide)

/-- C06, stability: on an acyclic network an insertion (with any requested id) does not change the id
of any block already in the chain. -/
theorem C06_ids_stable {g : Graph} (wf : WellFormed g) (ac : Acyclic g) {n : Nat} {ch ch' : Chain}
    {obj : Obj} {id_ i : Int} (hok : ch.Ok) (hnew : obj ∉ ch.objs)
    (h : addObject g n ch obj id_ = some (ch', i)) (o : Obj) (k : Int) (ho : o ≠ obj) :
    (o, k) ∈ ch'.entries ↔ (o, k) ∈ ch.entries := by
  obtain ⟨_, hA⟩ := add_any wf ac hok hnew h
  rw [hA.perm.mem_iff, mem_cons]
  constructor
  · rintro (h | h)
    · exact absurd (Prod.mk.inj h).1 ho
    · exact h
  · exact Or.inr

/-! ### C07 -/

/-- C07: deleting an absent id changes nothing and reports `false`; deleting a present id removes
exactly the first entry with that id and reports whether the removed block was linked to anything. -/
theorem C07_delete (g : Graph) (wf : WellFormed g) (ch : Chain) (hlen : ch.objs.length = ch.ids.length)
    (idobj : Int) :
    (idobj ∉ ch.ids → deleteObject g ch idobj = (ch, false)) ∧
    (idobj ∈ ch.ids → ∃ pre o post, ch.entries = pre ++ (o, idobj) :: post ∧
      idobj ∉ pre.map Prod.snd ∧
      (deleteObject g ch idobj).1.entries = pre ++ post ∧
      (deleteObject g ch idobj).1.objs.length = (deleteObject g ch idobj).1.ids.length ∧
      ((deleteObject g ch idobj).2 = true ↔ ∃ x, Supplies g x o ∨ Supplies g o x)) := by
  refine ⟨fun h => by simp [deleteObject, h], ?_⟩
  intro hm
  have hk : ch.ids.idxOf idobj < ch.ids.length := List.idxOf_lt_length_iff.2 hm
  have hk' : ch.ids.idxOf idobj < ch.objs.length := by rw [hlen]; exact hk
  generalize hkd : ch.ids.idxOf idobj = k at *
  have hz : k < ch.entries.length := by unfold Chain.entries; rw [length_zip]; omega
  have hzk : ch.entries[k] = (ch.objs[k], idobj) := by
    have hz' : k < (ch.objs.zip ch.ids).length := hz
    have : (ch.objs.zip ch.ids)[k] = (ch.objs[k], idobj) := by
      rw [getElem_zip]
      congr 1
      subst hkd
      exact getElem_idxOf hk
    exact this
  refine ⟨ch.entries.take k, ch.objs[k], ch.entries.drop (k + 1), ?_, ?_, ?_, ?_, ?_⟩
  · rw [← hzk, getElem_cons_drop, take_append_drop]
  · intro hmem
    have : idobj ∈ ch.ids.take k := by
      have : (ch.entries.take k).map Prod.snd = ch.ids.take k := by
        rw [map_take]
        unfold Chain.entries
        rw [map_snd_zip]; omega
      rwa [this] at hmem
    obtain ⟨j, hj, hjk⟩ := mem_take_iff_getElem.1 this
    have hjk' : ch.ids.idxOf idobj ≤ j := by
      rcases Nat.lt_or_ge j (ch.ids.idxOf idobj) with h | h
      · have := not_of_lt_findIdx (p := (· == idobj)) (xs := ch.ids) (i := j) h
        simp at this
        exact absurd hjk this
      · exact h
    omega
  · simp only [deleteObject, hm, if_true, hkd, Chain.entries, zip_eraseIdx _ _ _ hlen]
    rw [eraseIdx_eq_take_drop_succ]
  · simp [deleteObject, hm, hkd, length_eraseIdx, hk, hk', hlen]
  · simp only [deleteObject, hm, if_true, hkd, getD_eq_getElem?_getD, List.getElem?_eq_getElem hk',
      Option.getD_some, decide_eq_true_eq]
    constructor
    · rintro (h | h)
      · obtain ⟨x, hx⟩ := exists_mem_of_ne_nil _ h
        exact ⟨x, Or.inl ((wf.sym _ _).2 hx)⟩
      · obtain ⟨x, hx⟩ := exists_mem_of_length_pos (Nat.pos_of_ne_zero h)
        exact ⟨x, Or.inr hx⟩
    · rintro ⟨x, h | h⟩
      · left
        intro he
        have := (wf.sym _ _).1 h
        rw [he] at this
        simp at this
      · right
        have := length_pos_of_mem h
        omega

/-- C07: when the ids are distinct, after deletion of an id executing that id runs nothing, and every
other id still runs the same block. -/
theorem C07_exec_after_delete (g : Graph) (ch : Chain) (hlen : ch.objs.length = ch.ids.length)
    (hnd : ch.ids.Nodup) (idobj : Int) :
    execOne (deleteObject g ch idobj).1 idobj = none ∧
    ∀ o k, k ≠ idobj → ((o, k) ∈ (deleteObject g ch idobj).1.entries ↔ (o, k) ∈ ch.entries) := by
  by_cases hm : idobj ∈ ch.ids
  · have hk : ch.ids.idxOf idobj < ch.ids.length := List.idxOf_lt_length_iff.2 hm
    have hk' : ch.ids.idxOf idobj < ch.objs.length := by rw [hlen]; exact hk
    refine ⟨?_, ?_⟩
    · have hno : idobj ∉ ch.ids.eraseIdx (ch.ids.idxOf idobj) := by
        rw [← erase_eq_eraseIdx_of_idxOf rfl]
        exact hnd.not_mem_erase
      simp only [execOne, deleteObject, hm, if_true]
      rw [if_neg]
      rw [idxOf_eq_length hno]
      simp only [length_eraseIdx, hk, hk', if_true, hlen]
      omega
    · intro o k hne
      simp only [deleteObject, hm, if_true, Chain.entries, zip_eraseIdx _ _ _ hlen]
      have hz : ch.ids.idxOf idobj < (ch.objs.zip ch.ids).length := by rw [length_zip]; omega
      have hp := perm_cons_eraseIdx (ch.objs.zip ch.ids) (ch.ids.idxOf idobj) hz
      rw [hp.mem_iff, mem_cons]
      constructor
      · exact Or.inr
      · rintro (h | h)
        · exfalso
          rw [getElem_zip, getElem_idxOf] at h
          exact hne (Prod.mk.inj h).2
        · exact h
  · have : (deleteObject g ch idobj).1 = ch := by simp [deleteObject, hm]
    rw [this]
    refine ⟨?_, fun _ _ _ => Iff.rfl⟩
    simp only [execOne]
    rw [if_neg]
    rw [idxOf_eq_length hm]
    omega

example : demoChain.objs.length = demoChain.ids.length ∧ demoChain.ids.Nodup ∧
    deleteObject demo demoChain 2 =
      ({ demoChain with objs := [4, 1, 2], ids := [0, 1, 3] }, true) := by decide

/-! ### C08 -/

/-- C08: cloning a chain that is in dependency order reproduces its blocks, ids, order and options
(only the id counter differs, see C49). -/
theorem C08_clone {g : Graph} (ch : Chain) (hok : ch.Ok) (hord : Ordered g ch.objs) (n : Nat) :
    clone g (n + 1) ch = some { ch with counter := 0 } := by
  unfold clone
  have hl := hok.len
  have h := clone_aux (g := g) n (ch.objs.zip ch.ids)
    ({ empty with outDeb := ch.outDeb, plotDeb := ch.plotDeb } : Chain) rfl
    (by
      intro x hx
      exact hok.ids_nonneg _ (of_mem_zip (a := x.1) (b := x.2) hx).2)
    (by
      simp only [empty, nil_append]
      rw [map_fst_zip (by omega)]
      exact hord)
  rw [h]
  simp only [empty, nil_append]
  rw [map_fst_zip (by omega), map_snd_zip (by omega)]

example : demoChain.Ok ∧ Ordered demo demoChain.objs :=
  ⟨demoChain_ok, (ordered_of_acyclic demo_acyclic _).2 (by unfold OrdP Supplies; decide)⟩

/-! ### C47 -/

/-- C47 is false: inserting a block can silently drop a block that was already in the chain; the
chain, whose network has a loop, then even executes without the loop error.  Network: 2 supplies 0,
and 2 and 1 supply each other; chain [0, 1], insert 2. -/
theorem C47_addObject_keeps_blocks_fails : ∃ (g : Graph) (ch ch' : Chain) (obj : Obj) (n : Nat) (i : Int),
    WellFormed g ∧ Built g ch ∧ obj ∉ ch.objs ∧ addObject g n ch obj (-1) = some (ch', i) ∧
    i ≠ -1 ∧ 1 ∈ ch.objs ∧ 1 ∉ ch'.objs ∧ (exec g (fun _ => false) ch').2 = .ok := by
  refine ⟨ofEdges [(2, 0), (2, 1), (1, 2)], ⟨[0, 1], [0, 1], 2, false, "."⟩,
    ⟨[2, 0], [2, 0], 3, false, "."⟩, 2, 5, 1, ofEdges_wf _ (by decide), ?_,
    by decide, by decide, by decide, by decide, by decide, by decide⟩
  have h1 : Built (ofEdges [(2, 0), (2, 1), (1, 2)]) _ := .add (n := 3) (obj := 0) (id_ := -1) (ch' := { empty with objs := [0], ids := [0], counter := 1 }) (i := 0) .empty (by decide) (by decide)
  exact .add (n := 3) (obj := 1) (id_ := -1) (i := 1) h1 (by decide) (by decide)

/-- C47, partial (full statement: the same without acyclicity): on an acyclic network no block is
lost, whatever the order of the chain. -/
theorem C47_addObject_keeps_blocks_partial {g : Graph} (wf : WellFormed g) (ac : Acyclic g) {n : Nat}
    {ch ch' : Chain} {obj : Obj} {id_ i : Int} (hok : ch.Ok) (hnew : obj ∉ ch.objs)
    (h : addObject g n ch obj id_ = some (ch', i)) (o : Obj) :
    o ∈ ch'.objs ↔ o = obj ∨ o ∈ ch.objs :=
  added_mem hok (add_any wf ac hok hnew h).2 o

/-- C47, on every network: an insertion never invents or duplicates entries — the new chain holds a
sub-multiset of the old entries plus the new one. -/
theorem C47_addObject_invents_nothing {g : Graph} (hnd : ∀ a, (g.parents a).Nodup) {n : Nat}
    {ch ch' : Chain} {obj : Obj} {id_ i : Int} (hok : ch.Ok)
    (h : addObject g n ch obj id_ = some (ch', i)) :
    ∃ lost, (obj, if id_ < 0 then ch.counter else id_) :: ch.entries ~ ch'.entries ++ lost :=
  (add_general hnd n ch obj id_ ch' i ⟨hok.len, hok.ids_nonneg, hok.counter_nonneg⟩ h).2.2

example : ∃ ch' i, addObject demo 10 demoChain 3 (-1) = some (ch', i) := ⟨_, _, rfl⟩

/-! ### C48 -/

/-- C48 is false: the index returned by `addObject` need not be the position of the block (two
suppliers moved in front of it: returned 1, actual position 2). -/
theorem C48_returned_index_fails : ∃ (g : Graph) (ch ch' : Chain) (obj : Obj) (n : Nat) (i : Nat),
    WellFormed g ∧ Acyclic g ∧ Built g ch ∧ obj ∉ ch.objs ∧
    addObject g n ch obj (-1) = some (ch', (i : Int)) ∧ ch'.objs[i]? ≠ some obj := by
  refine ⟨ofEdges [(0, 2), (1, 2), (2, 3)], ⟨[3, 0, 1], [0, 1, 2], 3, false, "."⟩,
    ⟨[0, 1, 2, 3], [1, 2, 3, 0], 4, false, "."⟩, 2, 5, 1, ofEdges_wf _ (by decide),
    ofEdges_acyclic _ (by decide), ?_, by decide, by decide, by decide⟩
  have h1 : Built (ofEdges [(0, 2), (1, 2), (2, 3)]) _ := .add (n := 3) (obj := 3) (id_ := -1) (ch' := { empty with objs := [3], ids := [0], counter := 1 }) (i := 0) .empty (by decide) (by decide)
  have h2 : Built (ofEdges [(0, 2), (1, 2), (2, 3)]) _ := .add (n := 3) (obj := 0) (id_ := -1) (ch' := { empty with objs := [3, 0], ids := [0, 1], counter := 2 }) (i := 1) h1 (by decide) (by decide)
  exact .add (n := 3) (obj := 1) (id_ := -1) (i := 2) h2 (by decide) (by decide)

/-- C48, partial (full statement: without `hpre`): if every supplier of the new block that is in the
chain precedes every receiver of it that is in the chain (no rearrangement is needed), the returned
index is the position of the block, and all other blocks keep their relative order. -/
theorem C48_returned_index_partial {g : Graph} (wf : WellFormed g) (ac : Acyclic g)
    {n : Nat} {ch ch' : Chain} {obj : Obj} {id_ i : Int} (hok : ch.Ok) (hnew : obj ∉ ch.objs)
    (hpre : ∀ p c, Supplies g p obj → Supplies g obj c → p ∈ ch.objs → c ∈ ch.objs →
      ch.objs.idxOf p < ch.objs.idxOf c)
    (h : addObject g n ch obj id_ = some (ch', i)) :
    ∃ k : Nat, i = (k : Int) ∧ ch'.objs[k]? = some obj ∧ ch'.objs.eraseIdx k = ch.objs := by
  have hdir : ∀ p ∈ g.parents obj, p ∈ ch.objs → ch.objs.idxOf p < childIdx ch.objs (g.children obj) := by
    intro p hp hpo
    rcases childIdx_cases ch.objs (g.children obj) with hc | ⟨c, hc, hco, hce⟩
    · rw [hc]; exact idxOf_lt_iff_mem.2 hpo
    · rw [hce]; exact hpre p c ((wf.sym _ _).2 hp) hc hpo hco
  have hle := childIdx_le_length ch.objs (g.children obj)
  obtain ⟨m, rfl⟩ : ∃ m, n = m + 1 := by
    cases n with
    | zero => simp [addObject] at h
    | succ m => exact ⟨m, rfl⟩
  have hno := no_clash wf ac ch.objs obj
  have hno2 : (g.parents obj).any (fun p => decide (parentIdx ch.objs p >
        (childIdx ch.objs (g.children obj) : Int))) = false := by
    rw [any_eq_false]
    intro p hp
    simp only [decide_eq_true_eq]
    by_cases hm : p ∈ ch.objs
    · rw [parentIdx_of_mem hm]
      have := hdir p hp hm
      omega
    · rw [parentIdx_of_not_mem hm]; omega
  rw [addObject_succ, hno, hno2] at h
  by_cases he : ch.objs = []
  · rw [if_pos he] at h
    simp only [Option.some.injEq, Prod.mk.injEq] at h
    obtain ⟨rfl, rfl⟩ := h
    exact ⟨0, rfl, by simp, by simp [he]⟩
  · simp only [if_neg he, Bool.false_eq_true, if_false, Option.some.injEq, Prod.mk.injEq] at h
    obtain ⟨rfl, rfl⟩ := h
    refine ⟨childIdx ch.objs (g.children obj), rfl, ?_, ?_⟩
    · simp only [insertAt]
      rw [getElem?_append_right (by simp; omega)]
      simp [Nat.min_eq_left hle]
    · simp only [insertAt]
      rw [eraseIdx_append_of_length_le (by simp; omega)]
      simp [Nat.min_eq_left hle]

/-- premises of the partial theorem: block 3 between its suppliers 1, 2 and its receiver 4 -/
example : ∀ p c, Supplies demo p 3 → Supplies demo 3 c → p ∈ [1, 2, 4] → c ∈ [1, 2, 4] →
    ([1, 2, 4] : List Obj).idxOf p < ([1, 2, 4] : List Obj).idxOf c := by
  have key : ∀ p ∈ ([1, 2, 4] : List Obj), ∀ c ∈ ([1, 2, 4] : List Obj), Supplies demo p 3 → Supplies demo 3 c →
    ([1, 2, 4] : List Obj).idxOf p < ([1, 2, 4] : List Obj).idxOf c := by unfold Supplies; decide
  intro p c h1 h2 h3 h4
  exact key p h3 c h4 h1 h2

/-! ### C49 -/

/-- C49 is false: after cloning, a block inserted with an automatic id gets an id already used in the
clone, so `exec(id)`/`deleteObject(id)` address the wrong block. -/
theorem C49_ids_after_clone_fails : ∃ (g : Graph) (ch cl ch' : Chain) (i : Int),
    WellFormed g ∧ Built g ch ∧ clone g 3 ch = some cl ∧
    addObject g 3 cl 1 (-1) = some (ch', i) ∧ ¬ ch'.ids.Nodup := by
  refine ⟨ofEdges [], ⟨[0], [0], 1, false, "."⟩, ⟨[0], [0], 0, false, "."⟩,
    ⟨[0, 1], [0, 0], 1, false, "."⟩, 1, ofEdges_wf _ (by decide), ?_, by decide, by decide, by decide⟩
  exact .add (n := 3) (obj := 0) (id_ := -1) (i := 0) .empty (by decide) (by decide)

/-- C49, partial: the same happens without cloning when explicit ids are requested; ids stay unique if
every requested id is fresh and not below the counter … here for one insertion: requesting an id that
is not in the chain keeps the ids distinct. -/
theorem C49_fresh_id_partial {g : Graph} (hnd : ∀ a, (g.parents a).Nodup) {n : Nat}
    {ch ch' : Chain} {obj : Obj} {id_ i : Int} (hok : ch.Ok) (hids : ch.ids.Nodup)
    (hfresh : (if id_ < 0 then ch.counter else id_) ∉ ch.ids)
    (h : addObject g n ch obj id_ = some (ch', i)) : ch'.ids.Nodup := by
  obtain ⟨w, _, lost, hp⟩ := add_general hnd n ch obj id_ ch' i
    ⟨hok.len, hok.ids_nonneg, hok.counter_nonneg⟩ h
  have hp' := hp.map Prod.snd
  rw [map_cons, map_append, ← ids_eq_map hok] at hp'
  have e : ch'.entries.map Prod.snd = ch'.ids := by
    unfold Chain.entries
    rw [map_snd_zip]; rw [w.len]; exact Nat.le_refl _
  rw [e] at hp'
  exact (nodup_append.1 (hp'.nodup_iff.1 (nodup_cons.2 ⟨hfresh, hids⟩))).1

example : (if (7 : Int) < 0 then demoChain.counter else 7) ∉ demoChain.ids := by decide

end Verif.Chain
