import Verif.SharedPtr.Spec
namespace Verif.SharedPtr
open List

/-- the variable uses counter `c` -/
def uses (c : Nat) : Option Owner → Bool
  | none => false
  | some o => o.cnt == some c

/-- Invariant, with a ghost pairing of adopted objects and their counters. -/
structure Inv (p : Nat → Option Nat) (s : St) : Prop where
  inj : ∀ a a' c, p a = some c → p a' = some c → a = a'
  own : ∀ v o, s.own v = some o → o = Owner.empty ∨
    ∃ a c, o = ⟨some a, some c⟩ ∧ p a = some c ∧ s.cnts c ≠ none
  msg : ∀ o ∈ s.msgs, o = Owner.empty ∨ ∃ a c, o = ⟨some a, some c⟩ ∧ p a = some c
  cnt : ∀ c n, s.cnts c = some n → n = s.slots.countP (uses c) ∧ 0 < n ∧ c < s.nextC
  alive : ∀ a c, p a = some c → (s.live a = true ↔ s.cnts c ≠ none) ∧ c < s.nextC ∧ a < s.nextA
  nd : s.deleted.Nodup
  del : ∀ a, (a ∈ s.deleted → a < s.nextA) ∧ (s.live a = true → a < s.nextA) ∧
    (a < s.nextA → (s.live a = true ↔ a ∉ s.deleted))

theorem own_setOwn (s : St) (v w : Nat) (o : Option Owner) (hv : v < s.slots.length) :
    (s.setOwn v o).own w = if w = v then o else s.own w := by
  unfold St.own St.setOwn
  simp only [getElem?_set]
  by_cases h : v = w
  · subst h; simp [hv]
  · rw [if_neg h, if_neg (Ne.symm h)]

theorem lt_of_built {s : St} {v : Nat} {o : Owner} (h : s.own v = some o) : v < s.slots.length := by
  unfold St.own at h
  by_cases hv : v < s.slots.length
  · exact hv
  · rw [getElem?_eq_none (by omega)] at h; simp at h

theorem getElem_of_own {s : St} {v : Nat} (hv : v < s.slots.length) : s.slots[v] = s.own v := by
  unfold St.own
  rw [getElem?_eq_getElem hv]; rfl

/-- counting after an update -/
theorem count_set (s : St) (v c : Nat) (o : Option Owner) (hv : v < s.slots.length) :
    (s.setOwn v o).slots.countP (uses c) + (if uses c (s.own v) then 1 else 0) =
      s.slots.countP (uses c) + (if uses c o then 1 else 0) := by
  unfold St.setOwn
  simp only
  rw [countP_set hv, getElem_of_own hv]
  have : (if uses c (s.own v) then 1 else 0) ≤ s.slots.countP (uses c) := by
    by_cases h : uses c (s.own v) = true
    · rw [if_pos h]
      apply countP_pos_iff.2
      exact ⟨s.slots[v], getElem_mem hv, by rw [getElem_of_own hv]; exact h⟩
    · rw [if_neg h]; omega
  omega

theorem count_pos {s : St} {c : Nat} : 0 < s.slots.countP (uses c) ↔ ∃ v o, s.own v = some o ∧ o.cnt = some c := by
  rw [countP_pos_iff]
  constructor
  · rintro ⟨x, hx, hu⟩
    obtain ⟨v, hv, rfl⟩ := getElem_of_mem hx
    rw [getElem_of_own hv] at hu
    cases h : s.own v with
    | none => rw [h] at hu; simp [uses] at hu
    | some o => rw [h] at hu; exact ⟨v, o, h, by simpa [uses] using hu⟩
  · rintro ⟨v, o, h, ho⟩
    have hv := lt_of_built h
    exact ⟨s.slots[v], getElem_mem hv, by rw [getElem_of_own hv, h]; simp [uses, ho]⟩

/-- an owner is what the pairing says -/
theorem Inv.refers {p s} (h : Inv p s) {v a : Nat} (hr : Refers s v a) :
    ∃ c, s.own v = some ⟨some a, some c⟩ ∧ p a = some c ∧ s.cnts c ≠ none := by
  obtain ⟨o, ho, ha⟩ := hr
  rcases h.own v o ho with rfl | ⟨a', c, rfl, hp, hc⟩
  · simp [Owner.empty] at ha
  · simp at ha; subst ha; exact ⟨c, ho, hp, hc⟩

/-- an adopted object is alive exactly when somebody owns it -/
theorem Inv.live_iff {p s} (h : Inv p s) {a c : Nat} (hp : p a = some c) :
    s.live a = true ↔ ∃ v, Refers s v a := by
  rw [(h.alive a c hp).1]
  constructor
  · intro hc
    cases hn : s.cnts c with
    | none => exact absurd hn hc
    | some n =>
      obtain ⟨h1, h2, _⟩ := h.cnt c n hn
      rw [h1] at h2
      obtain ⟨v, o, ho, hoc⟩ := count_pos.1 h2
      rcases h.own v o ho with rfl | ⟨a', c', rfl, hp', _⟩
      · simp [Owner.empty] at hoc
      · simp at hoc; subst hoc
        have := h.inj _ _ _ hp hp'
        subst this
        exact ⟨v, _, ho, rfl⟩
  · rintro ⟨v, hr⟩
    obtain ⟨c', _, hp', hc'⟩ := h.refers hr
    rw [hp] at hp'; simp at hp'; subst hp'; exact hc'

/-- number of owners through the counter -/
theorem Inv.owners_eq {p s} (h : Inv p s) {a c : Nat} (hp : p a = some c) :
    owners s a = s.slots.countP (uses c) := by
  unfold owners
  apply countP_congr
  intro x hx
  obtain ⟨v, hv, rfl⟩ := getElem_of_mem hx
  rw [getElem_of_own hv]
  cases ho : s.own v with
  | none => simp [uses]
  | some o =>
    rcases h.own v o ho with rfl | ⟨a', c', rfl, hp', _⟩
    · simp [uses, Owner.empty]
    · simp only [uses, beq_iff_eq, Option.some.injEq]
      constructor
      · intro e; subst e; rw [hp] at hp'; simpa using hp'.symm
      · intro e; subst e; exact h.inj _ _ _ hp' hp

theorem inv_init (n : Nat) : Inv (fun _ => none) (St.init n) := by
  constructor
  · intro a a' c h; cases h
  · intro v o h
    unfold St.own St.init at h
    simp only [getElem?_replicate] at h
    split at h <;> simp at h
  · intro o ho; simp [St.init] at ho
  · intro c n h; simp [St.init] at h
  · intro a c h; cases h
  · simp [St.init]
  · intro a; simp [St.init]

/-- what one primitive or one step does, apart from the invariant -/
structure Eff (p p' : Nat → Option Nat) (s s' : St) : Prop where
  inv : Inv p' s'
  mono : ∀ a c, p a = some c → p' a = some c
  del : ∀ a, a ∈ s'.deleted → a ∈ s.deleted ∨ ∃ v, Refers s v a
  delMono : ∀ a, a ∈ s.deleted → a ∈ s'.deleted

/-- changing slots so that no use count changes -/
theorem Inv.reslot {p s} (h : Inv p s) (sl : List (Option Owner))
    (hc : ∀ c, sl.countP (uses c) = s.slots.countP (uses c))
    (ho : ∀ v o, { s with slots := sl }.own v = some o → o = Owner.empty ∨ ∃ w, s.own w = some o) :
    Inv p { s with slots := sl } := by
  refine ⟨h.inj, ?_, h.msg, ?_, h.alive, h.nd, h.del⟩
  · intro v o hv
    rcases ho v o hv with rfl | ⟨w, hw⟩
    · exact Or.inl rfl
    · exact h.own w o hw
  · intro c n hcn
    rw [show ({ s with slots := sl } : St).slots.countP (uses c) = _ from hc c]
    exact h.cnt c n hcn

/-- releasing: `_decrement` -/
theorem decrement_eff {p s} (h : Inv p s) {v : Nat} {o : Owner} (hv : s.own v = some o) :
    ∃ s', decrement s v = some s' ∧ Eff p p s s' ∧ s'.slots = s.slots.set v (some Owner.empty) ∧
      s'.nextA = s.nextA ∧ s'.nextC = s.nextC ∧ s'.msgs = s.msgs ∧
      (∀ a, (∃ w, w ≠ v ∧ Refers s w a) → s'.live a = s.live a) ∧
      (∀ a, (∀ w, ¬ Refers s w a) → s'.live a = s.live a) := by
  have hlt := lt_of_built hv
  rcases h.own v o hv with rfl | ⟨a, c, rfl, hp, hcn⟩
  · refine ⟨s.setOwn v (some Owner.empty), by simp [decrement, hv, Owner.empty], ?_, rfl, rfl, rfl, rfl,
      fun _ _ => rfl, fun _ _ => rfl⟩
    refine ⟨?_, fun _ _ h => h, fun a h => Or.inl h, fun _ h => h⟩
    apply h.reslot
    · intro c
      have := count_set s v c (some Owner.empty) hlt
      rw [hv] at this
      unfold St.setOwn at this
      simpa using this
    · intro w o' hw
      have := own_setOwn s v w (some Owner.empty) hlt
      unfold St.setOwn at this
      rw [this] at hw
      split at hw
      · simp at hw; exact Or.inl hw.symm
      · exact Or.inr ⟨w, hw⟩
  · cases hn : s.cnts c with
    | none => exact absurd hn hcn
    | some n =>
      obtain ⟨hcount, hpos, hclt⟩ := h.cnt c n hn
      have hlive := (h.alive a c hp).1.2 hcn
      have hset : ∀ c', (s.slots.set v (some Owner.empty)).countP (uses c') + (if c' = c then 1 else 0) =
          s.slots.countP (uses c') := by
        intro c'
        have := count_set s v c' (some Owner.empty) hlt
        rw [hv, show uses c' (some Owner.empty) = false from rfl,
          show uses c' (some ⟨some a, some c⟩) = (some c == some c') from rfl] at this
        unfold St.setOwn at this
        simp only [beq_iff_eq, Option.some.injEq] at this
        by_cases e : c' = c
        · subst e; simp at this ⊢; omega
        · have e' : ¬ c = c' := Ne.symm e
          simp [e, e'] at this ⊢; omega
      have hown : ∀ w o' (t : St), t.slots = s.slots.set v (some Owner.empty) → t.own w = some o' →
          (w = v ∧ o' = Owner.empty) ∨ (w ≠ v ∧ s.own w = some o') := by
        intro w o' t ht hw
        have := own_setOwn s v w (some Owner.empty) hlt
        unfold St.own at hw
        rw [ht] at hw
        have hw' : (s.setOwn v (some Owner.empty)).own w = some o' := hw
        rw [this] at hw'
        by_cases e : w = v
        · rw [if_pos e] at hw'; simp at hw'; exact Or.inl ⟨e, hw'.symm⟩
        · rw [if_neg e] at hw'; exact Or.inr ⟨e, hw'⟩
      by_cases h1 : n = 1
      · -- last owner
        subst h1
        have hother : ∀ w, w ≠ v → ¬ Refers s w a := by
          intro w hw hr
          obtain ⟨c', ho, hp', _⟩ := h.refers hr
          rw [hp] at hp'; simp at hp'; subst hp'
          have h0 := hset c
          simp only [if_true] at h0
          have : (s.slots.set v (some Owner.empty)).countP (uses c) = 0 := by omega
          have hpos2 : 0 < (s.setOwn v (some Owner.empty)).slots.countP (uses c) := by
            rw [count_pos]
            exact ⟨w, _, by rw [own_setOwn _ _ _ _ hlt, if_neg hw]; exact ho, rfl⟩
          unfold St.setOwn at hpos2
          simp only at hpos2
          omega
        refine ⟨St.setOwn { s with live := upd s.live a false, deleted := a :: s.deleted, cnts := upd s.cnts c none }
            v (some Owner.empty), ?_, ?_, rfl, rfl, rfl, rfl, ?_, ?_⟩
        · simp [decrement, hv, hn, deleteObj, hlive]
        · refine ⟨⟨h.inj, ?_, h.msg, ?_, ?_, ?_, ?_⟩, fun _ _ h => h, ?_, ?_⟩
          · intro w o' hw
            rcases hown w o' _ rfl hw with ⟨_, e⟩ | ⟨hne, ho⟩
            · exact Or.inl e
            · rcases h.own w o' ho with e | ⟨a', c', rfl, hp', hc'⟩
              · exact Or.inl e
              · right
                refine ⟨a', c', rfl, hp', ?_⟩
                have : c' ≠ c := by
                  rintro rfl
                  have := h.inj _ _ _ hp hp'
                  subst this
                  exact hother w hne ⟨_, ho, rfl⟩
                simp [St.setOwn, upd, this, hc']
          · intro c' n' hn'
            simp only [St.setOwn, upd] at hn' ⊢
            by_cases e : c' = c
            · simp [e] at hn'
            · rw [if_neg e] at hn'
              obtain ⟨h1, h2, h3⟩ := h.cnt c' n' hn'
              have := hset c'
              rw [if_neg e] at this
              exact ⟨by omega, h2, h3⟩
          · intro a' c' hp'
            obtain ⟨h1, h2, h3⟩ := h.alive a' c' hp'
            refine ⟨?_, h2, h3⟩
            simp only [St.setOwn, upd]
            by_cases e : a' = a
            · subst e
              rw [hp] at hp'; simp at hp'; subst hp'
              simp
            · have : c' ≠ c := by
                rintro rfl
                exact e (h.inj _ _ _ hp' hp)
              rw [if_neg e, if_neg this]; exact h1
          · simp only [St.setOwn, nodup_cons]
            exact ⟨((h.del a).2.2 (h.alive a c hp).2.2).1 hlive, h.nd⟩
          · intro a'
            simp only [St.setOwn, upd, mem_cons]
            obtain ⟨d1, d2, d3⟩ := h.del a'
            by_cases e : a' = a
            · subst e
              refine ⟨fun _ => (h.alive a' c hp).2.2, ?_, ?_⟩
              · simp
              · simp
            · rw [if_neg e]
              refine ⟨?_, d2, ?_⟩
              · rintro (h | h)
                · exact absurd h e
                · exact d1 h
              · intro hl
                simp [e, d3 hl]
          · intro a' ha'
            simp only [St.setOwn, mem_cons] at ha'
            rcases ha' with rfl | ha'
            · exact Or.inr ⟨v, _, hv, rfl⟩
            · exact Or.inl ha'
          · intro a' ha'
            simp [St.setOwn, ha']
        · rintro a' ⟨w, hw, hr⟩
          have : a' ≠ a := by rintro rfl; exact hother w hw hr
          simp [St.setOwn, upd, this]
        · intro a' hno
          have : a' ≠ a := by rintro rfl; exact hno v ⟨_, hv, rfl⟩
          simp [St.setOwn, upd, this]
      · refine ⟨St.setOwn { s with cnts := upd s.cnts c (some (n - 1)) } v (some Owner.empty), ?_, ?_, rfl, rfl, rfl, rfl,
          fun _ _ => rfl, fun _ _ => rfl⟩
        · simp only [decrement, hv, hn]
          rw [if_neg (by omega : ¬ n = 0), if_neg (by omega)]
        · refine ⟨⟨h.inj, ?_, h.msg, ?_, ?_, h.nd, h.del⟩, fun _ _ h => h, fun a h => Or.inl h, fun _ h => h⟩
          · intro w o' hw
            rcases hown w o' _ rfl hw with ⟨_, e⟩ | ⟨_, ho⟩
            · exact Or.inl e
            · rcases h.own w o' ho with e | ⟨a', c', rfl, hp', hc'⟩
              · exact Or.inl e
              · right
                refine ⟨a', c', rfl, hp', ?_⟩
                simp only [St.setOwn, upd]
                split
                · simp
                · exact hc'
          · intro c' n' hn'
            simp only [St.setOwn, upd] at hn' ⊢
            have := hset c'
            by_cases e : c' = c
            · subst e
              simp at hn' this
              omega
            · rw [if_neg e] at hn' this
              obtain ⟨h1, h2, h3⟩ := h.cnt c' n' hn'
              exact ⟨by omega, h2, h3⟩
          · intro a' c' hp'
            obtain ⟨h1, h2, h3⟩ := h.alive a' c' hp'
            refine ⟨?_, h2, h3⟩
            simp only [St.setOwn, upd]
            by_cases e : c' = c
            · subst e
              rw [h1]; simp [hn]
            · rw [if_neg e]; exact h1

/-- a variable holding nothing -/
def Vacant (s : St) (v : Nat) : Prop := v < s.slots.length ∧ (s.own v = none ∨ s.own v = some Owner.empty)

/-- a vacant variable becomes a further owner of a paired object -/
theorem share_eff {p s} (h : Inv p s) {v a c : Nat} (hv : Vacant s v) (hp : p a = some c) {n : Nat}
    (hn : s.cnts c = some n) :
    Eff p p s (St.setOwn { s with cnts := upd s.cnts c (some (n + 1)) } v (some ⟨some a, some c⟩)) := by
  have huses : ∀ c', uses c' (s.own v) = false := by
    intro c'; rcases hv.2 with e | e <;> rw [e] <;> simp [uses, Owner.empty]
  have hset : ∀ c', (s.slots.set v (some ⟨some a, some c⟩)).countP (uses c') =
      s.slots.countP (uses c') + (if c' = c then 1 else 0) := by
    intro c'
    have := count_set s v c' (some ⟨some a, some c⟩) hv.1
    rw [huses c'] at this
    unfold St.setOwn at this
    by_cases e : c' = c
    · subst e; simpa [uses] using this
    · have e' : ¬ c = c' := Ne.symm e
      simpa [uses, e, e'] using this
  refine ⟨⟨h.inj, ?_, h.msg, ?_, ?_, h.nd, h.del⟩, fun _ _ h => h, fun a h => Or.inl h, fun _ h => h⟩
  · intro w o' hw
    replace hw := (own_setOwn s v w _ hv.1).symm.trans hw
    by_cases e : w = v
    · rw [if_pos e] at hw; simp at hw; subst hw
      exact Or.inr ⟨a, c, rfl, hp, by simp [St.setOwn, upd]⟩
    · rw [if_neg e] at hw
      rcases h.own w o' hw with e | ⟨a', c', rfl, hp', hc'⟩
      · exact Or.inl e
      · refine Or.inr ⟨a', c', rfl, hp', ?_⟩
        simp only [St.setOwn, upd]
        split
        · simp
        · exact hc'
  · intro c' n' hn'
    simp only [St.setOwn, upd] at hn' ⊢
    have := hset c'
    by_cases e : c' = c
    · subst e
      simp at hn' this
      obtain ⟨h1, h2, h3⟩ := h.cnt c' n hn
      omega
    · rw [if_neg e] at hn' this
      obtain ⟨h1, h2, h3⟩ := h.cnt c' n' hn'
      exact ⟨by omega, h2, h3⟩
  · intro a' c' hp'
    obtain ⟨h1, h2, h3⟩ := h.alive a' c' hp'
    refine ⟨?_, h2, h3⟩
    simp only [St.setOwn, upd]
    by_cases e : c' = c
    · subst e
      rw [h1]; simp [hn]
    · rw [if_neg e]; exact h1

/-- a vacant variable adopts an unowned live object -/
theorem adopt_eff {p s} (h : Inv p s) {v a : Nat} (hv : Vacant s v) (hl : s.live a = true)
    (hno : ∀ w, ¬ Refers s w a) :
    ∃ p', Eff p p' s (St.setOwn { s with cnts := upd s.cnts s.nextC (some 1), nextC := s.nextC + 1 } v
      (some ⟨some a, some s.nextC⟩)) := by
  have hpa : p a = none := by
    cases e : p a with
    | none => rfl
    | some c =>
      obtain ⟨w, hw⟩ := (h.live_iff e).1 hl
      exact absurd hw (hno w)
  have huses : ∀ c', uses c' (s.own v) = false := by
    intro c'; rcases hv.2 with e | e <;> rw [e] <;> simp [uses, Owner.empty]
  have hset : ∀ c', (s.slots.set v (some ⟨some a, some s.nextC⟩)).countP (uses c') =
      s.slots.countP (uses c') + (if c' = s.nextC then 1 else 0) := by
    intro c'
    have := count_set s v c' (some ⟨some a, some s.nextC⟩) hv.1
    rw [huses c'] at this
    unfold St.setOwn at this
    by_cases e : c' = s.nextC
    · subst e; simpa [uses] using this
    · have e' : ¬ s.nextC = c' := Ne.symm e
      simpa [uses, e, e'] using this
  have hfresh : s.cnts s.nextC = none := by
    cases e : s.cnts s.nextC with
    | none => rfl
    | some n => have := (h.cnt _ _ e).2.2; omega
  have hzero : s.slots.countP (uses s.nextC) = 0 := by
    have : ¬ 0 < s.slots.countP (uses s.nextC) := by
      rw [count_pos]
      rintro ⟨w, o, ho, hc⟩
      rcases h.own w o ho with rfl | ⟨a', c', rfl, hp', hc'⟩
      · simp [Owner.empty] at hc
      · simp at hc; subst hc; exact hc' hfresh
    omega
  refine ⟨upd p a (some s.nextC), ⟨?_, ?_, ?_, ?_, ?_, h.nd, h.del⟩, ?_, fun a h => Or.inl h, fun _ h => h⟩
  · intro a1 a2 c h1 h2
    simp only [upd] at h1 h2
    split at h1 <;> split at h2
    · next e1 e2 => rw [e1, e2]
    · next e1 e2 =>
      simp at h1; subst h1
      have := (h.alive _ _ h2).2.1; omega
    · next e1 e2 =>
      simp at h2; subst h2
      have := (h.alive _ _ h1).2.1; omega
    · exact h.inj _ _ _ h1 h2
  · intro w o' hw
    replace hw := (own_setOwn s v w _ hv.1).symm.trans hw
    by_cases e : w = v
    · rw [if_pos e] at hw; simp at hw; subst hw
      exact Or.inr ⟨a, s.nextC, rfl, by simp [upd], by simp [St.setOwn, upd]⟩
    · rw [if_neg e] at hw
      rcases h.own w o' hw with e | ⟨a', c', rfl, hp', hc'⟩
      · exact Or.inl e
      · refine Or.inr ⟨a', c', rfl, ?_, ?_⟩
        · have : a' ≠ a := by rintro rfl; rw [hpa] at hp'; cases hp'
          simp [upd, this, hp']
        · simp only [St.setOwn, upd]
          split
          · simp
          · exact hc'
  · intro o ho
    rcases h.msg o ho with e | ⟨a', c', rfl, hp'⟩
    · exact Or.inl e
    · refine Or.inr ⟨a', c', rfl, ?_⟩
      have : a' ≠ a := by rintro rfl; rw [hpa] at hp'; cases hp'
      simp [upd, this, hp']
  · intro c' n' hn'
    simp only [St.setOwn, upd] at hn' ⊢
    have := hset c'
    by_cases e : c' = s.nextC
    · subst e
      simp at hn' this
      omega
    · rw [if_neg e] at hn' this
      obtain ⟨h1, h2, h3⟩ := h.cnt c' n' hn'
      exact ⟨by omega, h2, by omega⟩
  · intro a' c' hp'
    simp only [upd] at hp'
    simp only [St.setOwn, upd]
    by_cases e : a' = a
    · subst e
      rw [if_pos rfl] at hp'
      simp at hp'; subst hp'
      exact ⟨by simp [hl], by omega, (h.del a').2.1 hl⟩
    · rw [if_neg e] at hp'
      obtain ⟨h1, h2, h3⟩ := h.alive a' c' hp'
      rw [if_neg (by omega)]
      exact ⟨h1, by omega, h3⟩
  · intro a' c' hp'
    have : a' ≠ a := by rintro rfl; rw [hpa] at hp'; cases hp'
    simp [upd, this, hp']

theorem Eff.trans {p p' p'' s s' s''} (h : Eff p p' s s') (h' : Eff p' p'' s' s'')
    (hr : ∀ v a, Refers s' v a → ∃ w, Refers s w a) : Eff p p'' s s'' := by
  refine ⟨h'.inv, fun a c e => h'.mono a c (h.mono a c e), ?_, fun a e => h'.delMono a (h.delMono a e)⟩
  intro a ha
  rcases h'.del a ha with h1 | ⟨v, h1⟩
  · exact h.del a h1
  · exact Or.inr (hr v a h1)

/-- replacing an owner by nothing, in a state with the same memory -/
theorem eff_reslot {p s} (h : Inv p s) (sl : List (Option Owner))
    (hc : ∀ c, sl.countP (uses c) = s.slots.countP (uses c))
    (ho : ∀ v o, { s with slots := sl }.own v = some o → o = Owner.empty ∨ ∃ w, s.own w = some o) :
    Eff p p s { s with slots := sl } :=
  ⟨h.reslot sl hc ho, fun _ _ h => h, fun _ h => Or.inl h, fun _ h => h⟩

/-- `_reset` on a constructed variable -/
theorem vacant_after {s s' : St} {v : Nat} {o : Owner} (hv : s.own v = some o)
    (hs : s'.slots = s.slots.set v (some Owner.empty)) : Vacant s' v := by
  have hlt := lt_of_built hv
  refine ⟨by rw [hs]; simpa using hlt, Or.inr ?_⟩
  have := own_setOwn s v v (some Owner.empty) hlt
  unfold St.own
  rw [hs]
  simpa [St.own, St.setOwn] using this

theorem own_after {s s' : St} {v : Nat} {o : Owner} (hv : s.own v = some o)
    (hs : s'.slots = s.slots.set v (some Owner.empty)) (w : Nat) :
    s'.own w = if w = v then some Owner.empty else s.own w := by
  rw [← own_setOwn s v w (some Owner.empty) (lt_of_built hv)]
  unfold St.own St.setOwn
  rw [hs]

theorem refers_after {s s' : St} {v : Nat} {o : Owner} (hv : s.own v = some o)
    (hs : s'.slots = s.slots.set v (some Owner.empty)) {w a : Nat} :
    Refers s' w a ↔ w ≠ v ∧ Refers s w a := by
  unfold Refers
  rw [own_after hv hs]
  by_cases e : w = v
  · simp [e, Owner.empty]
  · simp [e]

/-- making a vacant variable an empty owner or a destroyed variable -/
theorem clear_eff {p s} (h : Inv p s) {v : Nat} (hv : Vacant s v) (x : Option Owner)
    (hx : x = none ∨ x = some Owner.empty) : Eff p p s (s.setOwn v x) := by
  apply eff_reslot h
  · intro c
    have := count_set s v c x hv.1
    have h1 : uses c (s.own v) = false := by rcases hv.2 with e | e <;> rw [e] <;> simp [uses, Owner.empty]
    have h2 : uses c x = false := by rcases hx with e | e <;> rw [e] <;> simp [uses, Owner.empty]
    rw [h1, h2] at this
    simpa [St.setOwn] using this
  · intro w o hw
    have := own_setOwn s v w x hv.1
    unfold St.setOwn at this
    rw [this] at hw
    by_cases e : w = v
    · rw [if_pos e] at hw
      rcases hx with e' | e' <;> rw [e'] at hw
      · cases hw
      · simp at hw; exact Or.inl hw.symm
    · rw [if_neg e] at hw; exact Or.inr ⟨w, hw⟩

/-- moving the content of `w` into the vacant `v` -/
theorem move_eff {p s} (h : Inv p s) {v w : Nat} {o : Owner} (hv : Vacant s v) (hw : s.own w = some o)
    (hne : v ≠ w) : Eff p p s ((s.setOwn v (some o)).setOwn w (some Owner.empty)) := by
  have hwl := lt_of_built hw
  have hwl' : w < (s.setOwn v (some o)).slots.length := by simpa [St.setOwn] using hwl
  have hww : (s.setOwn v (some o)).own w = some o := by
    rw [own_setOwn _ _ _ _ hv.1, if_neg (Ne.symm hne)]; exact hw
  apply eff_reslot h
  · intro c
    have h1 := count_set s v c (some o) hv.1
    have h2 := count_set (s.setOwn v (some o)) w c (some Owner.empty) hwl'
    have h3 : uses c (s.own v) = false := by rcases hv.2 with e | e <;> rw [e] <;> simp [uses, Owner.empty]
    have h4 : uses c (some Owner.empty) = false := by simp [uses, Owner.empty]
    rw [h3] at h1
    rw [hww, h4] at h2
    simp only [St.setOwn] at h1 h2 ⊢
    simp at h1 h2
    omega
  · intro x o' hx
    have := own_setOwn (s.setOwn v (some o)) w x (some Owner.empty) hwl'
    replace hx := this.symm.trans hx
    by_cases e : x = w
    · rw [if_pos e] at hx; simp at hx; exact Or.inl hx.symm
    · rw [if_neg e, own_setOwn _ _ _ _ hv.1] at hx
      by_cases e' : x = v
      · rw [if_pos e'] at hx; simp at hx; subst hx; exact Or.inr ⟨w, hw⟩
      · rw [if_neg e'] at hx; exact Or.inr ⟨x, hx⟩

theorem swap_eff {p s} (h : Inv p s) {v w : Nat} {o o' : Owner} (hv : s.own v = some o) (hw : s.own w = some o') :
    Eff p p s ((s.setOwn v (some o')).setOwn w (some o)) := by
  have hvl := lt_of_built hv
  have hwl := lt_of_built hw
  have hwl' : w < (s.setOwn v (some o')).slots.length := by simpa [St.setOwn] using hwl
  apply eff_reslot h
  · intro c
    have h1 := count_set s v c (some o') hvl
    have h2 := count_set (s.setOwn v (some o')) w c (some o) hwl'
    rw [hv] at h1
    rw [own_setOwn _ _ _ _ hvl] at h2
    simp only [St.setOwn] at h1 h2 ⊢
    by_cases e : w = v
    · rw [if_pos e] at h2
      omega
    · rw [if_neg e, hw] at h2
      omega
  · intro x y hx
    have := own_setOwn (s.setOwn v (some o')) w x (some o) hwl'
    replace hx := this.symm.trans hx
    by_cases e : x = w
    · rw [if_pos e] at hx; simp at hx; subst hx; exact Or.inr ⟨v, hv⟩
    · rw [if_neg e, own_setOwn _ _ _ _ hvl] at hx
      by_cases e' : x = v
      · rw [if_pos e'] at hx; simp at hx; subst hx; exact Or.inr ⟨w, hw⟩
      · rw [if_neg e'] at hx; exact Or.inr ⟨x, hx⟩

theorem share_of_owner {p s} (h : Inv p s) {v : Nat} (hv : Vacant s v) {o : Owner}
    (ho : o = Owner.empty ∨ ∃ a c, o = ⟨some a, some c⟩ ∧ p a = some c ∧ s.cnts c ≠ none) :
    ∃ s', shareFrom s v o = some s' ∧ Eff p p s s' := by
  rcases ho with rfl | ⟨a, c, rfl, hp, hc⟩
  · exact ⟨_, rfl, clear_eff h hv _ (Or.inr rfl)⟩
  · cases hn : s.cnts c with
    | none => exact absurd hn hc
    | some n => exact ⟨_, by simp [shareFrom, hn], share_eff h hv hp hn⟩

/-- every legal step succeeds and keeps the invariant -/
theorem step_eff {p s} (h : Inv p s) (op : Op) (hl : Legal s op) :
    ∃ s' p', step s op = some s' ∧ Eff p p' s s' := by
  have vac_free : ∀ {v}, Free s v → Vacant s v := fun hv => ⟨hv.1, Or.inl hv.2⟩
  cases op with
  | alloc =>
    refine ⟨_, p, rfl, ⟨h.inj, h.own, h.msg, h.cnt, ?_, h.nd, ?_⟩, fun _ _ h => h, fun _ h => Or.inl h, fun _ h => h⟩
    · intro a c hp
      obtain ⟨h1, h2, h3⟩ := h.alive a c hp
      simp only [upd]
      rw [if_neg (by omega)]
      exact ⟨h1, h2, by omega⟩
    · intro a
      obtain ⟨d1, d2, d3⟩ := h.del a
      simp only [upd]
      by_cases e : a = s.nextA
      · subst e
        refine ⟨fun h => by have := d1 h; omega, fun _ => by omega, fun _ => ?_⟩
        simp
        intro hm; have := d1 hm; omega
      · rw [if_neg e]
        refine ⟨fun h => by have := d1 h; omega, fun h => by have := d2 h; omega, fun hlt => d3 (by omega)⟩
  | newEmpty v => exact ⟨_, p, rfl, clear_eff h (vac_free hl) _ (Or.inr rfl)⟩
  | newRaw v raw =>
    cases raw with
    | none => exact ⟨_, p, rfl, clear_eff h (vac_free hl.1) _ (Or.inr rfl)⟩
    | some a =>
      obtain ⟨p', hp'⟩ := adopt_eff h (vac_free hl.1) hl.2.1 hl.2.2
      exact ⟨_, p', rfl, hp'⟩
  | copy v w =>
    obtain ⟨hv, hw⟩ := hl
    cases ho : s.own w with
    | none => exact absurd ho hw
    | some o =>
      obtain ⟨s', h1, h2⟩ := share_of_owner h (vac_free hv) (h.own w o ho)
      exact ⟨s', p, by simp [step, ho, h1], h2⟩
  | move v w =>
    obtain ⟨hv, hw⟩ := hl
    cases ho : s.own w with
    | none => exact absurd ho hw
    | some o =>
      have hne : v ≠ w := by rintro rfl; rw [hv.2] at ho; cases ho
      exact ⟨_, p, by simp only [step, ho], move_eff h (vac_free hv) ho hne⟩
  | assign v w =>
    obtain ⟨hv, hw⟩ := hl
    by_cases e : v = w
    · exact ⟨s, p, by simp [step, e], h, fun _ _ h => h, fun _ h => Or.inl h, fun _ h => h⟩
    · cases ho : s.own w with
      | none => exact absurd ho hw
      | some o =>
        cases hov : s.own v with
        | none => exact absurd hov hv
        | some ov =>
          obtain ⟨s1, e1, f1, hs, _, _, _, _⟩ := decrement_eff h hov
          have ho1 : s1.own w = some o := by rw [own_after hov hs, if_neg (Ne.symm e)]; exact ho
          obtain ⟨s2, e2, f2⟩ := share_of_owner f1.inv (vacant_after hov hs) (f1.inv.own w o ho1)
          refine ⟨s2, p, by simp [step, e, ho, e1, e2], f1.trans f2 ?_⟩
          intro x a hx
          exact ⟨x, ((refers_after hov hs).1 hx).2⟩
  | moveAssign v w =>
    obtain ⟨hv, hw⟩ := hl
    by_cases e : v = w
    · exact ⟨s, p, by simp [step, e], h, fun _ _ h => h, fun _ h => Or.inl h, fun _ h => h⟩
    · cases ho : s.own w with
      | none => exact absurd ho hw
      | some o =>
        cases hov : s.own v with
        | none => exact absurd hov hv
        | some ov =>
          obtain ⟨s1, e1, f1, hs, _, _, _, _⟩ := decrement_eff h hov
          have ho1 : s1.own w = some o := by rw [own_after hov hs, if_neg (Ne.symm e)]; exact ho
          have f2 := move_eff f1.inv (vacant_after hov hs) ho1 e
          refine ⟨_, p, by simp only [step, if_neg e, ho, e1]; rfl, f1.trans f2 ?_⟩
          intro x a hx
          exact ⟨x, ((refers_after hov hs).1 hx).2⟩
  | swap v w =>
    obtain ⟨hv, hw⟩ := hl
    cases ho : s.own w with
    | none => exact absurd ho hw
    | some o =>
      cases hov : s.own v with
      | none => exact absurd hov hv
      | some ov => exact ⟨_, p, by simp only [step, ho, hov], swap_eff h hov ho⟩
  | reset v raw =>
    obtain ⟨hv, hr⟩ := hl
    cases hov : s.own v with
    | none => exact absurd hov hv
    | some ov =>
      obtain ⟨s1, e1, f1, hs, _, _, _, hl1, hl2⟩ := decrement_eff h hov
      have tr : ∀ x a, Refers s1 x a → ∃ w, Refers s w a := fun x a hx => ⟨x, ((refers_after hov hs).1 hx).2⟩
      cases raw with
      | none =>
        exact ⟨_, p, by simp only [step, resetOwn, e1]; rfl, f1.trans (clear_eff f1.inv (vacant_after hov hs) _ (Or.inr rfl)) tr⟩
      | some a =>
        obtain ⟨p', f2⟩ := adopt_eff f1.inv (vacant_after hov hs) (a := a)
          (by rw [hl2 a hr.2]; exact hr.1) (fun w hw => hr.2 w ((refers_after hov hs).1 hw).2)
        exact ⟨_, p', by simp only [step, resetOwn, e1]; rfl, f1.trans f2 tr⟩
  | destroy v =>
    cases hov : s.own v with
    | none => exact absurd hov hl
    | some ov =>
      obtain ⟨s1, e1, f1, hs, _, _, _, _⟩ := decrement_eff h hov
      have tr : ∀ x a, Refers s1 x a → ∃ w, Refers s w a := fun x a hx => ⟨x, ((refers_after hov hs).1 hx).2⟩
      exact ⟨_, p, by simp only [step, e1]; rfl, f1.trans (clear_eff f1.inv (vacant_after hov hs) _ (Or.inl rfl)) tr⟩
  | write v =>
    cases hov : s.own v with
    | none => exact absurd hov hl
    | some o =>
      refine ⟨{ s with msgs := s.msgs ++ [o] }, p, by simp only [step, hov], ⟨h.inj, h.own, ?_, h.cnt, h.alive, h.nd, h.del⟩, fun _ _ h => h,
        fun _ h => Or.inl h, fun _ h => h⟩
      intro m hm
      rcases mem_append.1 hm with hm | hm
      · exact h.msg m hm
      · simp at hm; subst hm
        rcases h.own v m hov with e | ⟨a, c, e, hp, _⟩
        · exact Or.inl e
        · exact Or.inr ⟨a, c, e, hp⟩
  | read v i =>
    obtain ⟨hv, m, hm, hr⟩ := hl
    cases hov : s.own v with
    | none => exact absurd hov hv
    | some ov =>
      obtain ⟨s1, e1, f1, hs, _, _, _, hl1, hl2⟩ := decrement_eff h hov
      have tr : ∀ x a, Refers s1 x a → ∃ w, Refers s w a := fun x a hx => ⟨x, ((refers_after hov hs).1 hx).2⟩
      rcases hr with hr | ⟨a, w, ha, hwv, hw⟩
      · exact ⟨_, p, by simp only [step, hm, resetOwn, e1, hr]; rfl,
          f1.trans (clear_eff f1.inv (vacant_after hov hs) _ (Or.inr rfl)) tr⟩
      · rcases h.msg m (mem_of_getElem? hm) with rfl | ⟨a', c, rfl, hp⟩
        · simp [Owner.empty] at ha
        · simp at ha; subst ha
          have hw1 : Refers s1 w a' := (refers_after hov hs).2 ⟨hwv, hw⟩
          obtain ⟨c', _, hp', hc'⟩ := f1.inv.refers hw1
          rw [hp] at hp'; simp at hp'; subst hp'
          cases hn : s1.cnts c with
          | none => exact absurd hn hc'
          | some n =>
            refine ⟨_, p, ?_, f1.trans (share_eff f1.inv (vacant_after hov hs) hp hn) tr⟩
            simp only [step, hm, resetOwn, e1, Option.bind_some, initOwn, hn]

theorem run_inv : ∀ (ops : List Op) {p s}, Inv p s → LegalRun s ops → ∃ s' p', run s ops = some s' ∧ Inv p' s' := by
  intro ops
  induction ops with
  | nil => intro p s h _; exact ⟨s, p, rfl, h⟩
  | cons op ops ih =>
    intro p s h hl
    obtain ⟨s1, p1, e, f⟩ := step_eff h op hl.1
    obtain ⟨s2, p2, e2, h2⟩ := ih f.inv (hl.2 s1 e)
    exact ⟨s2, p2, by simp [run, e, e2], h2⟩

theorem reach_inv {s : St} (h : Reach s) : ∃ p, Inv p s := by
  obtain ⟨n, ops, hl, hr⟩ := h
  obtain ⟨s', p', e, hi⟩ := run_inv ops (inv_init n) hl
  rw [hr] at e; simp at e; subst e
  exact ⟨p', hi⟩

end Verif.SharedPtr
