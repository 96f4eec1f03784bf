import Verif.SharedPtr.Lemmas
/-
Property theorems about shared pointers (C18, C19).
-/
namespace Verif.SharedPtr
open List

/-! ### C18 -/

/-- C18: a program that follows the rules never runs into undefined behaviour; at its end every object
somebody refers to is alive, the reported count of every owner is the number of owners of its object (0
for an empty one), no object was deleted twice and no deleted object is alive. -/
theorem C18_memory_safe (n : Nat) (ops : List Op) (h : LegalRun (St.init n) ops) :
    ∃ s, run (St.init n) ops = some s ∧
      (∀ v a, Refers s v a → s.live a = true) ∧
      (∀ v a, Refers s v a → getCounter s v = some (owners s a)) ∧
      (∀ v, s.own v = some Owner.empty → getCounter s v = some 0) ∧
      s.deleted.Nodup ∧ (∀ a ∈ s.deleted, s.live a = false) := by
  obtain ⟨s, p, e, hi⟩ := run_inv ops (inv_init n) h
  refine ⟨s, e, ?_, ?_, ?_, hi.nd, ?_⟩
  · intro v a hr
    obtain ⟨c, _, hp, _⟩ := hi.refers hr
    exact (hi.live_iff hp).2 ⟨v, hr⟩
  · intro v a hr
    obtain ⟨c, ho, hp, hc⟩ := hi.refers hr
    unfold getCounter
    rw [ho]
    simp only
    cases hn : s.cnts c with
    | none => exact absurd hn hc
    | some n => rw [hi.owners_eq hp, (hi.cnt c n hn).1]
  · intro v ho
    simp [getCounter, ho, Owner.empty]
  · intro a ha
    have h1 := (hi.del a).1 ha
    have h2 := ((hi.del a).2.2 h1)
    cases hl : s.live a with
    | false => rfl
    | true => exact absurd ha (h2.1 hl)

/-- every owner is either empty or refers to an object -/
theorem C18_owner_kinds {s : St} (h : Reach s) (v : Nat) (o : Owner) (ho : s.own v = some o) :
    o = Owner.empty ∨ ∃ a, Refers s v a := by
  obtain ⟨p, hi⟩ := reach_inv h
  rcases hi.own v o ho with e | ⟨a, c, rfl, _, _⟩
  · exact Or.inl e
  · exact Or.inr ⟨a, _, ho, rfl⟩

/-- C18, the moment of deletion: an operation deletes exactly the objects that had an owner before it and
have none after it. -/
theorem C18_deleted_with_last_owner {s s' : St} (h : Reach s) (op : Op) (hl : Legal s op)
    (hs : step s op = some s') (a : Nat) :
    a ∈ s'.deleted ↔ a ∈ s.deleted ∨ ((∃ v, Refers s v a) ∧ ¬ ∃ v, Refers s' v a) := by
  obtain ⟨p, hi⟩ := reach_inv h
  obtain ⟨s1, p', e, f⟩ := step_eff hi op hl
  rw [hs] at e; simp at e; subst e
  constructor
  · intro ha
    by_cases hd : a ∈ s.deleted
    · exact Or.inl hd
    · right
      rcases f.del a ha with hd' | hr
      · exact absurd hd' hd
      · refine ⟨hr, ?_⟩
        rintro ⟨v, hv⟩
        obtain ⟨c, _, hp, _⟩ := f.inv.refers hv
        have hlive := (f.inv.live_iff hp).2 ⟨v, hv⟩
        exact (((f.inv.del a).2.2 ((f.inv.del a).1 ha)).1 hlive) ha
  · rintro (hd | ⟨⟨v, hv⟩, hno⟩)
    · exact f.delMono a hd
    · obtain ⟨c, _, hp, _⟩ := hi.refers hv
      have hp' := f.mono a c hp
      have hnl : ¬ s'.live a = true := fun hl => hno ((f.inv.live_iff hp').1 hl)
      have hlt := (f.inv.alive a c hp').2.2
      have := (f.inv.del a).2.2 hlt
      exact Classical.byContradiction fun hd => hnl (this.2 hd)

theorem legalRun_cons {s s1 : St} {op : Op} {ops : List Op} (h : Legal s op) (e : step s op = some s1)
    (hr : LegalRun s1 ops) : LegalRun s (op :: ops) :=
  ⟨h, fun s' e' => by rw [e] at e'; simp at e'; subst e'; exact hr⟩

/-- a program creating an object, sharing it, sending it, dropping the first owner, receiving it and
dropping the other one: legal, and the object survives -/
def demoOps : List Op := [.alloc, .newRaw 0 (some 0), .copy 1 0, .write 1, .destroy 0, .newEmpty 2, .read 2 0, .destroy 1]

example : LegalRun (St.init 3) demoOps := by
  refine legalRun_cons trivial rfl ?_
  refine legalRun_cons ⟨⟨by decide, rfl⟩, rfl, ?_⟩ rfl ?_
  · rintro v ⟨o, ho, _⟩
    have : v < 3 := lt_of_built ho
    have hv : v = 0 ∨ v = 1 ∨ v = 2 := by omega
    rcases hv with rfl | rfl | rfl <;> cases ho
  refine legalRun_cons ⟨⟨by decide, rfl⟩, ?_⟩ rfl ?_
  · intro h; cases h
  refine legalRun_cons ?_ rfl ?_
  · intro h; cases h
  refine legalRun_cons ?_ rfl ?_
  · intro h; cases h
  refine legalRun_cons ⟨by decide, rfl⟩ rfl ?_
  refine legalRun_cons ⟨?_, ⟨some 0, some 0⟩, rfl, Or.inr ⟨0, 1, rfl, by decide, _, rfl, rfl⟩⟩ rfl ?_
  · intro h; cases h
  refine legalRun_cons ?_ rfl trivial
  intro h; cases h

example : (run (St.init 3) demoOps).map (fun s => (getCounter s 2, s.live 0, s.deleted)) =
    some (some 1, true, []) := by decide

example : (run (St.init 3) (demoOps ++ [.destroy 2])).map (fun s => (s.live 0, s.deleted)) =
    some (false, [0]) := by decide

/-- the rule "handed over once" is needed: resetting an owner to the object it already owns destroys it
and leaves the owner dangling (`p.reset(p.get())`) -/
theorem C18_reset_own_object_fails :
    ∃ s, run (St.init 1) [.alloc, .newRaw 0 (some 0), .reset 0 (some 0)] = some s ∧
      Refers s 0 0 ∧ s.live 0 = false :=
  ⟨_, rfl, ⟨_, rfl, rfl⟩, rfl⟩

/-! ### C19 -/

/-- C19: reading a message that carries an object which some other variable still owns makes the reader
a further owner of it: the object stays alive, the reported count is the number of owners, and nothing
else changes hands. -/
theorem C19_read_shares {s : St} (h : Reach s) (v i : Nat) (m : Owner) (a w : Nat) (hv : Built s v)
    (hm : s.msgs[i]? = some m) (ha : m.obj = some a) (hw : Refers s w a) (hne : w ≠ v) :
    ∃ s', step s (.read v i) = some s' ∧ Refers s' v a ∧ s'.live a = true ∧
      getCounter s' v = some (owners s' a) ∧ (∀ x, x ≠ v → s'.own x = s.own x) ∧
      (¬ Refers s v a → owners s' a = owners s a + 1) := by
  obtain ⟨p, hi⟩ := reach_inv h
  obtain ⟨s', p', e, f⟩ := step_eff hi (.read v i) ⟨hv, m, hm, Or.inr ⟨a, w, ha, hne, hw⟩⟩
  cases hov : s.own v with
  | none => exact absurd hov hv
  | some ov =>
    have hlt := lt_of_built hov
    obtain ⟨s1, e1, f1, hs, _, _, _, _, _⟩ := decrement_eff hi hov
    rcases hi.msg m (mem_of_getElem? hm) with rfl | ⟨a', c, rfl, hp⟩
    · simp [Owner.empty] at ha
    · simp at ha; subst ha
      have hw1 : Refers s1 w a' := (refers_after hov hs).2 ⟨hne, hw⟩
      obtain ⟨c', _, hp', hc'⟩ := f1.inv.refers hw1
      rw [hp] at hp'; simp at hp'; subst hp'
      cases hn : s1.cnts c with
      | none => exact absurd hn hc'
      | some n =>
        have hs' : s' = St.setOwn { s1 with cnts := upd s1.cnts c (some (n + 1)) } v (some ⟨some a', some c⟩) := by
          have e2 : step s (.read v i) = some _ := e
          simp only [step, hm, resetOwn, e1, Option.bind_some, initOwn, hn] at e2
          simpa using e2.symm
        have hlt1 : v < s1.slots.length := (vacant_after hov hs).1
        have hownv : ∀ x, s'.own x = if x = v then some ⟨some a', some c⟩ else s1.own x := by
          intro x; rw [hs']; exact own_setOwn s1 v x _ hlt1
        have hr : Refers s' v a' := ⟨_, by rw [hownv, if_pos rfl], rfl⟩
        obtain ⟨c2, hown2, hp2, hc2⟩ := f.inv.refers hr
        refine ⟨s', e, hr, (f.inv.live_iff hp2).2 ⟨v, hr⟩, ?_, ?_, ?_⟩
        · unfold getCounter
          rw [hown2]
          simp only
          cases hn2 : s'.cnts c2 with
          | none => exact absurd hn2 hc2
          | some n2 => rw [f.inv.owners_eq hp2, (f.inv.cnt c2 n2 hn2).1]
        · intro x hx
          rw [hownv, if_neg hx, own_after hov hs, if_neg hx]
        · intro hnr
          have hc : c2 = c := by
            rw [hownv, if_pos rfl] at hown2; simp at hown2; exact hown2.symm
          subst hc
          rw [f.inv.owners_eq hp2, hi.owners_eq hp]
          have h1 := count_set s1 v c2 (some ⟨some a', some c2⟩) hlt1
          have h2 := count_set s v c2 (some Owner.empty) hlt
          have hsl : s'.slots = (s1.setOwn v (some ⟨some a', some c2⟩)).slots := by rw [hs']; rfl
          have hsl1 : s1.slots = (s.setOwn v (some Owner.empty)).slots := by rw [hs]; rfl
          rw [hsl]
          rw [own_after hov hs, if_pos rfl] at h1
          have hnu : uses c2 (s.own v) = false := by
            rw [hov]
            rcases hi.own v ov hov with rfl | ⟨a2, c3, rfl, hp3, _⟩
            · rfl
            · simp only [uses, beq_eq_false_iff_ne, ne_eq, Option.some.injEq]
              rintro rfl
              exact hnr ⟨_, hov, by rw [hi.inj _ _ _ hp3 hp]⟩
          rw [hnu] at h2
          rw [show uses c2 (some Owner.empty) = false from rfl] at h1 h2
          rw [show uses c2 (some ⟨some a', some c2⟩) = true from by simp [uses]] at h1
          rw [hsl1] at h1
          simp at h1 h2 ⊢
          omega

/-- The proviso "some other owner is alive" cannot be dropped: if the last owner dies between write and
read, or if the reader is itself the only owner, the read uses freed memory. -/
theorem C19_late_read_fails :
    run (St.init 2) [.alloc, .newRaw 0 (some 0), .write 0, .destroy 0, .newEmpty 1, .read 1 0] = none ∧
    run (St.init 2) [.alloc, .newRaw 0 (some 0), .write 0, .read 0 0] = none := by decide

end Verif.SharedPtr
