import Verif.Obj.Write
import Mathlib.Data.List.Perm.Basic
/-!
# The keys of materials and groups, and the order of the cells
-/
namespace Verif.Obj

/-- What is kept by the loop which gives the keys. -/
structure Keys (s : List (String × Nat) × Nat) : Prop where
  names : (s.1.map Prod.fst).Nodup
  keys : (s.1.map Prod.snd).Nodup
  zero : ∀ e ∈ s.1, (e.1 = "" ↔ e.2 = 0)
  lt : ∀ e ∈ s.1, e.2 < s.2
  pos : 1 ≤ s.2
  le : s.2 ≤ s.1.length + 1

theorem Keys.step {s : List (String × Nat) × Nat} (h : Keys s) (x : String) : Keys (syncStep s x) := by
  unfold syncStep
  split
  · exact h
  · rename_i hc
    have hc : x ∉ s.1.map Prod.fst := by simpa using hc
    split
    · rename_i hx
      subst hx
      refine ⟨?_, ?_, ?_, ?_, h.pos, by simpa using Nat.le_succ_of_le h.le⟩
      · rw [List.map_append]
        exact List.nodup_append.2 ⟨h.names, by simp, by
          intro a ha b hb
          simp only [List.map_cons, List.map_nil, List.mem_singleton] at hb
          subst hb; rintro rfl; exact hc ha⟩
      · rw [List.map_append]
        refine List.nodup_append.2 ⟨h.keys, by simp, ?_⟩
        intro a ha b hb
        simp only [List.map_cons, List.map_nil, List.mem_singleton] at hb
        subst hb
        rintro rfl
        obtain ⟨e, he, h0⟩ := List.mem_map.1 ha
        exact hc (List.mem_map.2 ⟨e, he, (h.zero e he).2 h0⟩)
      · intro e he
        rcases List.mem_append.1 he with he | he
        · exact h.zero e he
        · simp only [List.mem_singleton] at he; subst he; simp
      · intro e he
        rcases List.mem_append.1 he with he | he
        · exact h.lt e he
        · simp only [List.mem_singleton] at he; subst he; exact h.pos
    · rename_i hx
      refine ⟨?_, ?_, ?_, ?_, by simp, by simpa using h.le⟩
      · rw [List.map_append]
        exact List.nodup_append.2 ⟨h.names, by simp, by
          intro a ha b hb
          simp only [List.map_cons, List.map_nil, List.mem_singleton] at hb
          subst hb; rintro rfl; exact hc ha⟩
      · rw [List.map_append]
        refine List.nodup_append.2 ⟨h.keys, by simp, ?_⟩
        intro a ha b hb
        simp only [List.map_cons, List.map_nil, List.mem_singleton] at hb
        subst hb
        rintro rfl
        obtain ⟨e, he, h0⟩ := List.mem_map.1 ha
        have := h.lt e he
        omega
      · intro e he
        rcases List.mem_append.1 he with he | he
        · exact h.zero e he
        · simp only [List.mem_singleton] at he
          subst he
          have := h.pos
          simp only [hx, false_iff]
          omega
      · intro e he
        rcases List.mem_append.1 he with he | he
        · have := h.lt e he; simp only; omega
        · simp only [List.mem_singleton] at he; subst he; simp

theorem keys_fold (xs : List String) : ∀ s, Keys s → Keys (xs.foldl syncStep s) := by
  induction xs with
  | nil => intro s h; exact h
  | cons x xs ih => intro s h; exact ih _ (h.step x)

theorem keys_mono (xs : List String) : ∀ (s : List (String × Nat) × Nat) e, e ∈ s.1 →
    e ∈ (xs.foldl syncStep s).1 := by
  induction xs with
  | nil => intro s e h; exact h
  | cons x xs ih =>
    intro s e h
    apply ih
    unfold syncStep
    split
    · exact h
    · split <;> simp [h]

theorem keys_mem (xs : List String) : ∀ (s : List (String × Nat) × Nat) x, x ∈ xs →
    ∃ k, (x, k) ∈ (xs.foldl syncStep s).1 := by
  induction xs with
  | nil => intro s x h; simp at h
  | cons y xs ih =>
    intro s x h
    rcases List.mem_cons.1 h with rfl | h
    · have : ∃ k, (x, k) ∈ (syncStep s x).1 := by
        unfold syncStep
        split
        · rename_i hc
          have hc : x ∈ s.1.map Prod.fst := by simpa using hc
          obtain ⟨e, he, rfl⟩ := List.mem_map.1 hc
          exact ⟨e.2, he⟩
        · split
          · exact ⟨0, by simp⟩
          · exact ⟨s.2, by simp⟩
      obtain ⟨k, hk⟩ := this
      exact ⟨k, keys_mono xs _ _ hk⟩
    · exact ih _ x h

/-- No other names get a key. -/
theorem keys_only (xs : List String) : ∀ (s : List (String × Nat) × Nat) e, e ∈ (xs.foldl syncStep s).1 →
    e ∈ s.1 ∨ e.1 ∈ xs := by
  induction xs with
  | nil => intro s e h; exact Or.inl h
  | cons y xs ih =>
    intro s e h
    rcases ih _ e h with h | h
    · unfold syncStep at h
      split at h
      · exact Or.inl h
      · split at h
        · rcases List.mem_append.1 h with h | h
          · exact Or.inl h
          · simp only [List.mem_singleton] at h; subst h; exact Or.inr (by simp)
        · rcases List.mem_append.1 h with h | h
          · exact Or.inl h
          · simp only [List.mem_singleton] at h; subst h; exact Or.inr (by simp)
    · exact Or.inr (by simp [h])

theorem syncKeys_keys (xs : List String) : Keys (xs.foldl syncStep ([], 1)) :=
  keys_fold xs _ ⟨by simp, by simp, by simp, by simp, by simp, by simp⟩

theorem lookup_of_mem {ks : List (String × Nat)} (h : (ks.map Prod.fst).Nodup) {x : String} {k : Nat}
    (hm : (x, k) ∈ ks) : ks.lookup x = some k := by
  induction ks with
  | nil => simp at hm
  | cons e ks ih =>
    obtain ⟨y, l⟩ := e
    rw [List.map_cons, List.nodup_cons] at h
    rcases List.mem_cons.1 hm with he | hm
    · simp only [Prod.mk.injEq] at he
      obtain ⟨rfl, rfl⟩ := he
      simp
    · have hne : x ≠ y := by
        rintro rfl
        apply h.1
        exact List.mem_map.2 ⟨(x, k), by assumption, rfl⟩
      have hb : (x == y) = false := by simpa using hne
      rw [List.lookup_cons, hb]
      exact ih h.2 hm

theorem mem_of_lookup {ks : List (String × Nat)} {x : String} {k : Nat} (h : ks.lookup x = some k) :
    (x, k) ∈ ks := by
  induction ks with
  | nil => simp at h
  | cons e ks ih =>
    obtain ⟨y, l⟩ := e
    rw [List.lookup_cons] at h
    by_cases hc : (x == y) = true
    · simp only [hc, Option.some.injEq] at h
      have : x = y := by simpa using hc
      subst this; subst h; simp
    · simp only [hc] at h
      exact List.mem_cons_of_mem _ (ih h)

/-! ## C195: the lists of materials and groups -/

/-- Every name used by a cell has a key and no other name has one; two names never share a key; key zero is
the empty name; the inverse list gives back the name of a key. -/
theorem C195_keys (xs : List String) :
    (∀ x, (∃ k, (syncKeys xs).lookup x = some k) ↔ x ∈ xs) ∧
    (∀ x y k, (syncKeys xs).lookup x = some k → (syncKeys xs).lookup y = some k → x = y) ∧
    (∀ x k, (syncKeys xs).lookup x = some k → (k = 0 ↔ x = "")) ∧
    (∀ x k, (syncKeys xs).lookup x = some k → unkey (syncKeys xs) k = some x) ∧
    (∀ x k, (syncKeys xs).lookup x = some k → k ≤ (syncKeys xs).length) := by
  have H := syncKeys_keys xs
  have inj : ∀ x y k, (x, k) ∈ syncKeys xs → (y, k) ∈ syncKeys xs → x = y := by
    intro x y k hx hy
    obtain ⟨i, hi, e1⟩ := List.getElem_of_mem hx
    obtain ⟨j, hj, e2⟩ := List.getElem_of_mem hy
    have hij : i = j := by
      have hn : ((syncKeys xs).map Prod.snd).Nodup := H.keys
      have hp := List.pairwise_iff_getElem.1 hn
      rcases Nat.lt_trichotomy i j with hlt | heq | hlt
      · exact absurd hlt (fun hlt => hp i j (by simpa using hi) (by simpa using hj) hlt (by simp [e1, e2]))
      · exact heq
      · exact absurd hlt (fun hlt => hp j i (by simpa using hj) (by simpa using hi) hlt (by simp [e1, e2]))
    subst hij
    rw [e1] at e2
    exact congrArg Prod.fst e2
  refine ⟨?_, ?_, ?_, ?_, ?_⟩
  · intro x
    constructor
    · rintro ⟨k, hk⟩
      rcases keys_only xs _ _ (mem_of_lookup hk) with h | h
      · simp at h
      · exact h
    · intro hx
      obtain ⟨k, hk⟩ := keys_mem xs ([], 1) x hx
      exact ⟨k, lookup_of_mem H.names hk⟩
  · intro x y k hx hy
    exact inj x y k (mem_of_lookup hx) (mem_of_lookup hy)
  · intro x k hx
    exact (H.zero _ (mem_of_lookup hx)).symm
  · intro x k hx
    have hm := mem_of_lookup hx
    unfold unkey
    cases hf : (syncKeys xs).find? (fun e => e.2 == k) with
    | none =>
      have := List.find?_eq_none.1 hf _ hm
      simp at this
    | some e =>
      have h1 := List.mem_of_find?_eq_some hf
      have h2 := List.find?_some hf
      obtain ⟨y, l⟩ := e
      have : l = k := by simpa using h2
      subst this
      simp [inj y x l h1 hm]
  · intro x k hx
    have h1 := H.lt _ (mem_of_lookup hx)
    have h2 := H.le
    have : (syncKeys xs).length = (xs.foldl syncStep ([], 1)).1.length := rfl
    simp only at h1
    omega

example : syncKeys ["steel", "", "wood", "steel"] = [("steel", 1), ("", 0), ("wood", 2)] := by decide

/-- The cells by key. -/
theorem by_key {β : Type} (f : β → Nat) (cs : List β) (n : Nat) :
    ((List.range n).flatMap fun g => cs.filter fun c => f c == g).Perm (cs.filter fun c => decide (f c < n)) := by
  induction n with
  | zero => simp
  | succ n ih =>
    rw [List.range_succ, List.flatMap_append]
    refine (List.Perm.append_right _ ih).trans ?_
    have h := List.filter_append_perm (fun c => decide (f c < n)) (cs.filter fun c => decide (f c < n + 1))
    refine List.Perm.trans ?_ h
    rw [List.filter_filter, List.filter_filter]
    simp only [List.flatMap_cons, List.flatMap_nil, List.append_nil]
    apply List.Perm.of_eq
    congr 1
    · apply List.filter_congr
      intro c _
      by_cases h1 : f c < n <;> simp [h1]; omega
    · apply List.filter_congr
      intro c _
      rw [Bool.eq_iff_iff]
      simp only [beq_iff_eq, Bool.and_eq_true, Bool.not_eq_true', decide_eq_false_iff_not, decide_eq_true_eq]
      omega

theorem by_key_all {β : Type} (f : β → Nat) (cs : List β) (n : Nat) (h : ∀ c ∈ cs, f c < n) :
    ((List.range n).flatMap fun g => cs.filter fun c => f c == g).Perm cs := by
  refine (by_key f cs n).trans (List.Perm.of_eq ?_)
  rw [List.filter_eq_self]
  intro c hc
  simpa using h c hc

/-- Grouping the cells of a part keeps every cell once. -/
theorem C195_regroup {α : Type} (M : Mesh α) (cs : List WCell) (h : ∀ c ∈ cs, c ∈ M.cells) :
    (regroup M cs).Perm cs := by
  have hg : ∀ c ∈ cs, keyOf (grpKeys M) c.grp < (grpKeys M).length + 1 := by
    intro c hc
    obtain ⟨k, hk⟩ := ((C195_keys (M.cells.map WCell.grp)).1 c.grp).2 (List.mem_map.2 ⟨c, h c hc, rfl⟩)
    have := (C195_keys (M.cells.map WCell.grp)).2.2.2.2 _ _ hk
    have e : keyOf (grpKeys M) c.grp = k := by rw [keyOf, grpKeys, hk]; rfl
    rw [e]; exact Nat.lt_succ_of_le this
  have hm : ∀ c ∈ cs, keyOf (matKeys M) c.mat < (matKeys M).length + 1 := by
    intro c hc
    obtain ⟨k, hk⟩ := ((C195_keys (M.cells.map WCell.mat)).1 c.mat).2 (List.mem_map.2 ⟨c, h c hc, rfl⟩)
    have := (C195_keys (M.cells.map WCell.mat)).2.2.2.2 _ _ hk
    have e : keyOf (matKeys M) c.mat = k := by rw [keyOf, matKeys, hk]; rfl
    rw [e]; exact Nat.lt_succ_of_le this
  unfold regroup
  refine List.Perm.trans ?_ (by_key_all (fun c => keyOf (grpKeys M) c.grp) cs _ hg)
  apply List.Perm.flatMap_left
  intro g _
  refine List.Perm.trans (List.Perm.of_eq ?_)
    (by_key_all (fun c => keyOf (matKeys M) c.mat) (cs.filter fun c => keyOf (grpKeys M) c.grp == g)
      ((matKeys M).length + 1) ?_)
  · congr 1
    funext m
    rw [List.filter_filter]
    apply List.filter_congr
    intro c _
    rw [Bool.and_comm]
  · intro c hc
    exact hm c (List.mem_filter.1 hc).1

end Verif.Obj
