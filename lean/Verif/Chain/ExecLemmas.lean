import Verif.Chain.AddLemmas
/-
Lemmas about loop detection, execution, deletion and cloning.
-/
namespace Verif.Chain

open List

theorem checkLoopsFrom_false (g : Graph) (objs : List Obj) : ∀ (os : List Obj) (k : Nat),
    checkLoopsFrom g objs k os = false ↔
      ∀ (i : Nat) (a c : Obj), os[i]? = some a → c ∈ g.children a → k + i < objs.idxOf c := by
  intro os
  induction os with
  | nil => intro k; simp [checkLoopsFrom]
  | cons o os ih =>
    intro k
    simp only [checkLoopsFrom, Bool.or_eq_false_iff, ih, loopAt, any_eq_false, decide_eq_true_eq]
    constructor
    · rintro ⟨h1, h2⟩ i a c hi hc
      cases i with
      | zero =>
        simp only [getElem?_cons_zero, Option.some.injEq] at hi
        subst hi
        have := h1 c hc
        omega
      | succ i =>
        have := h2 i a c (by simpa using hi) hc
        omega
    · intro h
      refine ⟨?_, ?_⟩
      · intro c hc
        have := h 0 o c (by simp) hc
        omega
      · intro i a c hi hc
        have := h (i + 1) a c (by simpa using hi) hc
        omega

theorem checkLoops_iff (g : Graph) (objs : List Obj) :
    checkLoopsFrom g objs 0 objs = false ↔ Ordered g objs := by
  rw [checkLoopsFrom_false]
  constructor
  · intro h i j a b hi hj hs
    have h1 := h i a b hi hs
    have hj' : objs.idxOf b ≤ j := by
      obtain ⟨hlt, rfl⟩ := List.getElem?_eq_some_iff.1 hj
      have hm : objs[j] ∈ objs.take (j + 1) := by
        rw [mem_take_iff_getElem]
        exact ⟨j, by omega, rfl⟩
      have := (mem_take_iff_idxOf (by omega)).1 hm
      omega
    omega
  · intro h i a c hi hc
    rw [Nat.zero_add]
    have hil : i < objs.length := (List.getElem?_eq_some_iff.1 hi).1
    by_cases hm : c ∈ objs
    · have hlt := idxOf_lt_iff_mem.2 hm
      exact h i (objs.idxOf c) a c hi (by rw [List.getElem?_eq_getElem hlt, getElem_idxOf]) hc
    · rw [idxOf_eq_length hm]; exact hil

theorem cycle_not_ordered {g : Graph} {l : List Obj} (hc : HasCycle g l) : ¬ Ordered g l := by
  intro ho
  obtain ⟨a, ha⟩ := hc
  have key : ∀ b, Relation.TransGen (fun x y => x ∈ l ∧ y ∈ l ∧ Supplies g x y) a b →
      l.idxOf a < l.idxOf b := by
    have step : ∀ x y, x ∈ l ∧ y ∈ l ∧ Supplies g x y → l.idxOf x < l.idxOf y := by
      rintro x y ⟨hx, hy, hs⟩
      have hx' := idxOf_lt_iff_mem.2 hx
      have hy' := idxOf_lt_iff_mem.2 hy
      exact ho _ _ x y (by rw [List.getElem?_eq_getElem hx', getElem_idxOf])
        (by rw [List.getElem?_eq_getElem hy', getElem_idxOf]) hs
    intro b hb
    induction hb with
    | single h => exact step _ _ h
    | tail _ h ih => exact Nat.lt_trans ih (step _ _ h)
  exact Nat.lt_irrefl _ (key a ha)

theorem runBlocks_spec (fails : Obj → Bool) : ∀ os : List Obj,
    ∃ rest, os = (runBlocks fails os).1 ++ rest ∧
      (∀ o ∈ (runBlocks fails os).1, fails o = false) ∧
      ((runBlocks fails os).2 = .ok ∧ rest = [] ∨
        ∃ o rest', rest = o :: rest' ∧ fails o = true ∧ (runBlocks fails os).2 = .blockError o) := by
  intro os
  induction os with
  | nil => exact ⟨[], by simp [runBlocks]⟩
  | cons o os ih =>
    by_cases hf : fails o = true
    · exact ⟨o :: os, by simp [runBlocks, hf], by simp [runBlocks, hf],
        Or.inr ⟨o, os, rfl, hf, by simp [runBlocks, hf]⟩⟩
    · obtain ⟨rest, h1, h2, h3⟩ := ih
      refine ⟨rest, ?_, ?_, ?_⟩
      · simp only [runBlocks, hf, cons_append]
        simpa using h1
      · simp only [runBlocks, hf]
        intro x hx
        simp only [Bool.false_eq_true, if_false, mem_cons] at hx
        rcases hx with rfl | hx
        · simpa using hf
        · exact h2 x hx
      · simpa [runBlocks, hf] using h3

theorem runBlocks_ne_loop (fails : Obj → Bool) : ∀ os, (runBlocks fails os).2 ≠ .loopError := by
  intro os
  induction os with
  | nil => simp [runBlocks]
  | cons o os ih =>
    by_cases hf : fails o = true
    · simp [runBlocks, hf]
    · simpa [runBlocks, hf] using ih

theorem ok_delete {g : Graph} {ch : Chain} (h : ch.Ok) (idobj : Int) :
    (deleteObject g ch idobj).1.Ok ∧ (deleteObject g ch idobj).1.objs.Sublist ch.objs := by
  unfold deleteObject
  split
  · next hm =>
    have hk : ch.ids.idxOf idobj < ch.ids.length := List.idxOf_lt_length_iff.2 hm
    have hk' : ch.ids.idxOf idobj < ch.objs.length := by rw [h.len]; exact hk
    refine ⟨⟨?_, ?_, ?_, h.counter_nonneg⟩, eraseIdx_sublist _ _⟩
    · simp [length_eraseIdx, hk, hk', h.len]
    · exact h.nodup.sublist (eraseIdx_sublist _ _)
    · intro i hi; exact h.ids_nonneg i (mem_of_mem_eraseIdx hi)
  · exact ⟨h, List.Sublist.refl _⟩

theorem empty_ok : empty.Ok :=
  ⟨rfl, by simp [empty], by simp [empty], by simp [empty]⟩

theorem clear_ok {ch : Chain} : (clear ch).Ok :=
  ⟨rfl, by simp [clear], by simp [clear], by simp [clear]⟩

theorem built_inv {g : Graph} (wf : WellFormed g) (ac : Acyclic g) {ch : Chain} (h : Built g ch) :
    ch.Ok ∧ OrdP g ch.objs := by
  induction h with
  | empty => exact ⟨empty_ok, by simp [OrdP, empty]⟩
  | add _ hnew hadd ih =>
    obtain ⟨_, hA⟩ := add_any wf ac ih.1 hnew hadd
    exact ⟨hA.ok, hA.ord ih.2⟩
  | delete i _ ih =>
    obtain ⟨h1, h2⟩ := ok_delete (g := g) ih.1 i
    exact ⟨h1, ih.2.sublist h2⟩
  | clear _ _ => exact ⟨clear_ok, by simp [OrdP, clear]⟩

/-! ### Insertion on arbitrary networks: nothing is invented -/

theorem removeLate_general (ps : List Obj) : ∀ (ch : Chain), ch.objs.length = ch.ids.length →
    (∀ i ∈ ch.ids, 0 ≤ i) → ps.Nodup → (∀ p ∈ ps, p ∈ ch.objs) →
    let r := removeLate ch ps
    r.1.objs.length = r.1.ids.length ∧ (∀ i ∈ r.1.ids, 0 ≤ i) ∧ r.1.counter = ch.counter ∧
    ch.entries ~ r.2 ++ r.1.entries ∧ (∀ x ∈ r.2, 0 ≤ x.2) := by
  induction ps with
  | nil =>
    intro ch hl hi _ _
    exact ⟨hl, hi, rfl, by simp [removeLate], by simp [removeLate]⟩
  | cons p ps ih =>
    intro ch hl hi hnd hmem
    have hp : p ∈ ch.objs := hmem p (by simp)
    have hk : ch.objs.idxOf p < ch.objs.length := idxOf_lt_iff_mem.2 hp
    have hk' : ch.objs.idxOf p < ch.ids.length := by rw [← hl]; exact hk
    have herase : ch.objs.eraseIdx (ch.objs.idxOf p) = ch.objs.erase p := by
      rw [erase_eq_eraseIdx_of_idxOf rfl]
    have hnd' := nodup_cons.1 hnd
    obtain ⟨h1, h2, h3, h4, h5⟩ := ih
      ({ ch with objs := ch.objs.eraseIdx (ch.objs.idxOf p),
                 ids := ch.ids.eraseIdx (ch.objs.idxOf p) } : Chain)
      (by simp [length_eraseIdx, hk, hk', hl])
      (by intro i h; exact hi i (mem_of_mem_eraseIdx h)) hnd'.2 (by
      intro q hq
      simp only [herase]
      exact (mem_erase_of_ne (by rintro rfl; exact hnd'.1 hq)).2 (hmem q (by simp [hq])))
    simp only [removeLate]
    refine ⟨h1, h2, h3, ?_, ?_⟩
    · have he : ch.entries ~ (p, ch.ids.getD (ch.objs.idxOf p) (-1)) ::
          ({ ch with objs := ch.objs.eraseIdx (ch.objs.idxOf p),
                     ids := ch.ids.eraseIdx (ch.objs.idxOf p) } : Chain).entries := by
        unfold Chain.entries
        rw [zip_eraseIdx _ _ _ hl]
        have hlt : ch.objs.idxOf p < (ch.objs.zip ch.ids).length := by rw [length_zip]; omega
        have h := perm_cons_eraseIdx (ch.objs.zip ch.ids) (ch.objs.idxOf p) hlt
        have hz : (ch.objs.zip ch.ids)[ch.objs.idxOf p] = (p, ch.ids.getD (ch.objs.idxOf p) (-1)) := by
          rw [getElem_zip, getElem_idxOf, getD_eq_getElem?_getD, List.getElem?_eq_getElem hk']
          rfl
        rwa [hz] at h
      refine he.trans ?_
      simp only [cons_append]
      exact h4.cons _
    · intro x hx
      rcases mem_cons.1 hx with rfl | hx
      · simp only [getD_eq_getElem?_getD, List.getElem?_eq_getElem hk', Option.getD_some]
        exact hi _ (getElem_mem _)
      · exact h5 x hx

/-- weak consistency (blocks may repeat) -/
structure Chain.Weak (ch : Chain) : Prop where
  len : ch.objs.length = ch.ids.length
  ids_nonneg : ∀ i ∈ ch.ids, 0 ≤ i
  counter_nonneg : 0 ≤ ch.counter

theorem readd_general {g : Graph} (n : Nat)
    (hadd : ∀ ch obj id_ ch' i, ch.Weak → addObject g n ch obj id_ = some (ch', i) →
      ch'.Weak ∧ ch'.counter = (bump ch id_).counter ∧
        ∃ lost, (obj, pick ch id_) :: ch.entries ~ ch'.entries ++ lost) :
    ∀ (xs : List (Obj × Int)) (ch ch' : Chain), ch.Weak → (∀ x ∈ xs, 0 ≤ x.2) →
      xs.foldlM (fun c x => (addObject g n c x.1 x.2).map Prod.fst) ch = some ch' →
        ch'.Weak ∧ ch'.counter = ch.counter ∧ ∃ lost, xs ++ ch.entries ~ ch'.entries ++ lost := by
  intro xs
  induction xs with
  | nil =>
    intro ch ch' hw _ h
    simp only [foldlM_nil, Option.pure_def, Option.some.injEq] at h
    subst h
    exact ⟨hw, rfl, [], by simp⟩
  | cons x xs ih =>
    intro ch ch' hw hx h
    rw [foldlM_cons] at h
    cases ha : addObject g n ch x.1 x.2 with
    | none => rw [ha] at h; simp at h
    | some p =>
      obtain ⟨c1, i⟩ := p
      rw [ha] at h
      obtain ⟨w1, cn1, l1, p1⟩ := hadd _ _ _ _ _ hw ha
      have hpos : 0 ≤ x.2 := hx x (by simp)
      obtain ⟨w2, cn2, l2, p2⟩ := ih c1 ch' w1 (fun y hy => hx y (by simp [hy])) h
      refine ⟨w2, by rw [cn2, cn1, bump_of_nonneg _ _ hpos], l2 ++ l1, ?_⟩
      rw [pick_of_nonneg _ _ hpos] at p1
      have e1 : x :: xs ++ ch.entries ~ xs ++ (x :: ch.entries) := by
        simpa using (perm_middle (a := x) (l₁ := xs) (l₂ := ch.entries)).symm
      refine e1.trans ?_
      refine (Perm.append_left xs p1).trans ?_
      rw [← append_assoc, ← append_assoc]
      exact Perm.append_right l1 p2

theorem add_general {g : Graph} (hnd : ∀ a, (g.parents a).Nodup) :
    ∀ (n : Nat) (ch : Chain) (obj : Obj) (id_ : Int) (ch' : Chain) (i : Int), ch.Weak →
      addObject g n ch obj id_ = some (ch', i) →
      ch'.Weak ∧ ch'.counter = (bump ch id_).counter ∧
        ∃ lost, (obj, pick ch id_) :: ch.entries ~ ch'.entries ++ lost := by
  intro n
  induction n with
  | zero => intro ch obj id_ ch' i _ h; simp [addObject] at h
  | succ n ih =>
    intro ch obj id_ ch' i hw h
    have hbc := bump_counter_nonneg ch id_ hw.counter_nonneg
    have hpk := pick_nonneg ch id_ hw.counter_nonneg
    rw [addObject_succ] at h
    split at h
    · next he =>
      simp only [Option.some.injEq, Prod.mk.injEq] at h
      obtain ⟨rfl, _⟩ := h
      refine ⟨⟨rfl, ?_, hbc⟩, rfl, [], ?_⟩
      · intro j hj; simp only [mem_singleton] at hj; omega
      · simp [Chain.entries, he]
    · split at h
      · simp only [Option.some.injEq, Prod.mk.injEq] at h
        obtain ⟨rfl, _⟩ := h
        refine ⟨⟨by simpa using hw.len, by simpa using hw.ids_nonneg, hbc⟩, rfl,
          [(obj, pick ch id_)], ?_⟩
        have : (bump ch id_).entries = ch.entries := by simp [Chain.entries]
        rw [this]
        exact (perm_append_singleton _ _).symm
      · split at h
        · generalize hlate : (g.parents obj).filter (fun p => decide (parentIdx ch.objs p >
            (childIdx ch.objs (g.children obj) : Int))) = late at h
          have hlmem : ∀ p ∈ late, p ∈ ch.objs := by
            intro p hp
            rw [← hlate, mem_filter] at hp
            apply Classical.byContradiction
            intro hno
            have := hp.2
            rw [parentIdx_of_not_mem hno] at this
            simp only [decide_eq_true_eq] at this
            omega
          have hlnd : late.Nodup := by
            rw [← hlate]; exact (hnd obj).sublist filter_sublist
          obtain ⟨r1, r2, r3, r4, r5⟩ := removeLate_general late (bump ch id_)
            (by simpa using hw.len) (by simpa using hw.ids_nonneg) hlnd (by simpa using hlmem)
          generalize removeLate (bump ch id_) late = r at *
          have hwr : r.1.Weak := ⟨r1, r2, by rw [r3]; exact hbc⟩
          cases ha : addObject g n r.1 obj (pick ch id_) with
          | none => rw [ha] at h; simp at h
          | some p =>
            obtain ⟨ch2, idx⟩ := p
            rw [ha] at h
            simp only at h
            obtain ⟨w2, c2, l2, p2⟩ := ih _ _ _ _ _ hwr ha
            cases hf : r.2.foldlM (fun c x => (addObject g n c x.1 x.2).map Prod.fst) ch2 with
            | none => rw [hf] at h; simp at h
            | some ch3 =>
              rw [hf] at h
              simp only [Option.some.injEq, Prod.mk.injEq] at h
              obtain ⟨rfl, _⟩ := h
              obtain ⟨w3, c3, l3, p3⟩ := readd_general n ih r.2 ch2 ch3 w2 r5 hf
              refine ⟨w3, by rw [c3, c2, bump_of_nonneg _ _ hpk, r3], l3 ++ l2, ?_⟩
              rw [pick_of_nonneg _ _ hpk] at p2
              have hent : (bump ch id_).entries = ch.entries := by simp [Chain.entries]
              rw [hent] at r4
              refine (r4.cons _).trans ?_
              refine (perm_middle (a := (obj, pick ch id_)) (l₁ := r.2)).symm.trans ?_
              refine (Perm.append_left r.2 p2).trans ?_
              rw [← append_assoc, ← append_assoc]
              exact Perm.append_right l2 p3
        · simp only [Option.some.injEq, Prod.mk.injEq] at h
          obtain ⟨rfl, _⟩ := h
          refine ⟨⟨by simp [length_insertAt, hw.len], ?_, hbc⟩, rfl, [], ?_⟩
          · intro j hj
            have hj' : j ∈ pick ch id_ :: ch.ids := (insertAt_perm _ _ _).mem_iff.1 hj
            rcases mem_cons.1 hj' with rfl | hj'
            · exact hpk
            · exact hw.ids_nonneg j hj'
          · unfold Chain.entries
            simp only [zip_insertAt _ _ _ _ _ hw.len, append_nil]
            exact (insertAt_perm _ _ _).symm

/-! ### Cloning an ordered chain -/

/-- insertion of a block none of whose children are present appends at the end -/
theorem add_append {g : Graph} (n : Nat) (ch : Chain) (obj : Obj) (id_ : Int) (hid : 0 ≤ id_)
    (hlen : ch.objs.length = ch.ids.length)
    (hc : ∀ c ∈ g.children obj, c ∉ ch.objs) :
    addObject g (n + 1) ch obj id_ =
      some ({ ch with objs := ch.objs ++ [obj], ids := ch.ids ++ [id_] }, (ch.objs.length : Int)) := by
  rw [addObject_succ, bump_of_nonneg _ _ hid, pick_of_nonneg _ _ hid]
  by_cases he : ch.objs = []
  · have hi : ch.ids = [] := by
      rw [he] at hlen
      exact eq_nil_of_length_eq_zero (by simpa using hlen.symm)
    simp [he, hi]
  · have hci : childIdx ch.objs (g.children obj) = ch.objs.length := by
      rcases childIdx_cases ch.objs (g.children obj) with h | ⟨c, h1, h2, _⟩
      · exact h
      · exact absurd h2 (hc c h1)
    have hlt : ∀ p, parentIdx ch.objs p < (ch.objs.length : Int) := by
      intro p
      by_cases hm : p ∈ ch.objs
      · rw [parentIdx_of_mem hm]
        have := idxOf_lt_iff_mem.2 hm
        omega
      · rw [parentIdx_of_not_mem hm]; omega
    rw [if_neg he, hci]
    have h1 : (g.parents obj).any (fun p => parentIdx ch.objs p == (ch.objs.length : Int)) = false := by
      rw [any_eq_false]
      intro p _
      have := hlt p
      simp only [beq_iff_eq]
      omega
    have h2 : (g.parents obj).any (fun p => decide (parentIdx ch.objs p > (ch.objs.length : Int))) = false := by
      rw [any_eq_false]
      intro p _
      have := hlt p
      simp only [decide_eq_true_eq]
      omega
    rw [h1, h2]
    have e2 : insertAt ch.ids ch.objs.length id_ = ch.ids ++ [id_] := by
      rw [hlen]; simp [insertAt]
    simp [insertAt, e2]
    simp [hlen]

theorem clone_aux {g : Graph} (n : Nat) : ∀ (rest : List (Obj × Int)) (ch : Chain),
    ch.objs.length = ch.ids.length → (∀ x ∈ rest, 0 ≤ x.2) →
    Ordered g (ch.objs ++ rest.map Prod.fst) →
    rest.foldlM (fun c x => (addObject g (n + 1) c x.1 x.2).map Prod.fst) ch =
      some { ch with objs := ch.objs ++ rest.map Prod.fst, ids := ch.ids ++ rest.map Prod.snd } := by
  intro rest
  induction rest with
  | nil => intro ch _ _ _; simp
  | cons x rest ih =>
    intro ch hl hi ho
    rw [foldlM_cons, add_append n ch x.1 x.2 (hi x (by simp)) hl]
    · simp only [Option.map_some]
      rw [Option.bind_eq_bind, Option.bind_some, ih]
      · simp
      · simp [hl]
      · intro y hy; exact hi y (by simp [hy])
      · simpa using ho
    · intro c hc hmem
      obtain ⟨j, hj⟩ := mem_iff_getElem?.1 hmem
      have hjl := (List.getElem?_eq_some_iff.1 hj).1
      have := ho ch.objs.length j x.1 c (by simp) (by rw [getElem?_append_left hjl]; exact hj) hc
      omega

end Verif.Chain
