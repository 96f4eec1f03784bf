import Verif.Pin.RemoveLemmas
import Verif.Chain.Props
/-
Property theorems about connections (C09-C13, and C04 for wired networks).
-/
namespace Verif.Pin
open List

/-- ports used in the examples: every block has output ports 0,1,2 and input ports 0,1,2, all of one
type, except that input port 2 has another type -/
def demoPorts : Ports where
  canBuild _ := true
  dir _ := .both
  outs _ := [0, 1, 2]
  ins _ := [0, 1, 2]
  outType _ _ := (0, 0)
  inType _ i := (0, if i = 2 then 1 else 0)

theorem demoPorts_ok : demoPorts.Ok := by constructor <;> intro _ <;> simp [demoPorts]

/-! ### C09 -/

/-- C09: after any sequence of `addPin` calls, links, children and parents on both ends are exactly
the accepted (legal) pins. -/
theorem C09_both_ends_agree (P : Ports) (qs : List Req) :
    Agrees (addPins P Net.init qs) ((qs.filter (fun q => decide (Legal P q))).map Req.pin) := by
  have := addPins_agrees P qs Net.init [] init_agrees
  simpa using this

/-- C09, listing: `b` is a child of `a` exactly when some accepted pin goes from `a` to `b`, and then
`a` is a parent of `b`; no block is listed twice. -/
theorem C09_children {n : Net} {pins : List Pin} (h : Agrees n pins) (a b : Obj) :
    (b ∈ n.graph.children a ↔ ∃ p ∈ pins, p.s = a ∧ p.r = b) ∧
    (a ∈ n.graph.parents b ↔ ∃ p ∈ pins, p.s = a ∧ p.r = b) ∧
    (n.graph.children a).Nodup ∧ (n.graph.parents b).Nodup := by
  refine ⟨?_, ?_, (h.childOk a).1, (h.parentOk b).1⟩
  · show b ∈ Counter.keys (n.child a) ↔ _
    rw [Counter.mem_keys_iff _ (h.childOk a), h.child, countP_pos_iff]
    simp
  · show a ∈ Counter.keys (n.parent b) ↔ _
    rw [Counter.mem_keys_iff _ (h.parentOk b), h.parent, countP_pos_iff]
    simp

/-- C09: hence what a chain sees is a well-formed network (the premise of the chain theorems). -/
theorem C09_graph_wellformed {n : Net} {pins : List Pin} (h : Agrees n pins) :
    Verif.Chain.WellFormed n.graph :=
  ⟨fun a b => (C09_children h a b).1.trans (C09_children h a b).2.1.symm,
   fun a => (C09_children h a a).2.2.2⟩

example : (addPins demoPorts Net.init [⟨0, 0, 1, 0, false⟩, ⟨0, 0, 1, 2, false⟩, ⟨0, 1, 1, 2, true⟩]).out 0 1 =
    [(1, 2)] := by decide

/-- C04 for networks wired by `addPin`: if the accepted pins contain no dependency cycle, a chain
built by any history of insertions and deletions runs without loop error. -/
theorem C04_wired_network_executes (P : Ports) (qs : List Req)
    (hac : ∀ a, ¬ Relation.TransGen (fun x y => ∃ q ∈ qs, Legal P q ∧ q.s = x ∧ q.r = y) a a)
    {ch : Verif.Chain.Chain} (hb : Verif.Chain.Built (addPins P Net.init qs).graph ch)
    (fails : Obj → Bool) :
    (Verif.Chain.exec (addPins P Net.init qs).graph fails ch).2 ≠ .loopError ∧
    ((∀ o ∈ ch.objs, fails o = false) →
      Verif.Chain.exec (addPins P Net.init qs).graph fails ch = (ch.objs, .ok)) := by
  have hA := C09_both_ends_agree P qs
  have hacy : Verif.Chain.Acyclic (addPins P Net.init qs).graph := by
    intro a ha
    have step : ∀ x y, Verif.Chain.Supplies (addPins P Net.init qs).graph x y →
        ∃ q ∈ qs, Legal P q ∧ q.s = x ∧ q.r = y := ?step
    refine hac a ?_
    · suffices ∀ b, Relation.TransGen (Verif.Chain.Supplies (addPins P Net.init qs).graph) a b →
          Relation.TransGen (fun x y => ∃ q ∈ qs, Legal P q ∧ q.s = x ∧ q.r = y) a b from this a ha
      intro b hb
      induction hb with
      | single h' => exact .single (step _ _ h')
      | tail _ h' ih => exact ih.tail (step _ _ h')
    intro x y hxy
    obtain ⟨p, hp, rfl, rfl⟩ := (C09_children hA x y).1.1 hxy
    obtain ⟨q, hq, rfl⟩ := mem_map.1 hp
    obtain ⟨hq1, hq2⟩ := mem_filter.1 hq
    exact ⟨q, hq1, by simpa using hq2, rfl, rfl⟩
  have := Verif.Chain.C04_built_chain_executes (C09_graph_wellformed hA) hacy hb fails
  exact ⟨this.1, this.2.1⟩

/-! ### C10 -/

/-- C10: `addPin` answers `true` exactly for legal requests; a refused (or throwing) call changes
nothing; it throws exactly when some ports cannot be built. -/
theorem C10_accept_iff_legal {P : Ports} {n : Net} {pins : List Pin} (h : Agrees n pins) (q : Req) :
    (Legal P q ↔ ∃ n', addPin P n q.s q.r q.o q.i q.forced = some (n', true)) ∧
    (∀ n', addPin P n q.s q.r q.o q.i q.forced = some (n', false) → n' = n) ∧
    (addPin P n q.s q.r q.o q.i q.forced = none ↔ ¬ (P.canBuild q.s = true ∧ P.canBuild q.r = true)) := by
  refine ⟨⟨fun hq => ?_, ?_⟩, ?_, ?_⟩
  · obtain ⟨n', h1, _⟩ := addPin_legal h q hq
    exact ⟨n', h1⟩
  · rintro ⟨n', h1⟩
    by_cases hq : Legal P q
    · exact hq
    · rcases addPin_illegal P n q hq with h2 | h2 <;> rw [h2] at h1 <;> simp at h1
  · intro n' h1
    by_cases hq : Legal P q
    · obtain ⟨n'', h2, _⟩ := addPin_legal h q hq
      rw [h2] at h1; simp at h1
    · rcases addPin_illegal P n q hq with h2 | h2 <;> rw [h2] at h1 <;> simp at h1
      exact h1.symm
  · unfold addPin
    by_cases hb : P.canBuild q.s = true ∧ P.canBuild q.r = true
    · rw [if_pos (by simp [hb])]
      simp only [hb, and_self, not_true, iff_false]
      split
      · split
        · split <;> simp
        · simp
      · simp
    · rw [if_neg (by simpa using hb)]
      simp only [hb, not_false_iff]

/-- C10: an unforced history never links two ports of different type. -/
theorem C10_types_agree (P : Ports) (qs : List Req) (hf : ∀ q ∈ qs, q.forced = false) (s : Obj)
    (o : PortId) : ∀ e ∈ (addPins P Net.init qs).out s o, P.outType s o = P.inType e.1 e.2 := by
  intro e he
  rw [(C09_both_ends_agree P qs).out] at he
  obtain ⟨p, hp, rfl⟩ := mem_map.1 he
  obtain ⟨hp1, hp2⟩ := mem_filter.1 hp
  obtain ⟨q, hq, rfl⟩ := mem_map.1 hp1
  obtain ⟨hq1, hq2⟩ := mem_filter.1 hq
  have hl : Legal P q := by simpa using hq2
  simp only [Bool.and_eq_true, beq_iff_eq] at hp2
  obtain ⟨e1, e2⟩ := hp2
  rcases hl.2.2.2.2.2.2 with h1 | h1
  · rw [hf q hq1] at h1; cases h1
  · rw [← e1, ← e2]; exact h1

example : Legal demoPorts ⟨0, 0, 1, 1, false⟩ ∧ ¬ Legal demoPorts ⟨0, 0, 1, 2, false⟩ ∧
    Legal demoPorts ⟨0, 0, 1, 2, true⟩ ∧ ¬ Legal demoPorts ⟨0, 5, 1, 2, true⟩ := by decide

/-! ### C11 -/

/-- C11 is false: when one output port of the sender is connected to two input ports of the receiver,
`removeAllPins` leaves one link; and when a third block is connected to that output port after them,
its link is removed instead (while it still lists the sender). -/
theorem C11_removeAllPins_fails :
    (∃ (P : Ports) (qs : List Req), P.Ok ∧
      ∃ e ∈ (removeAllPins P (addPins P Net.init qs) 0 1).out 0 0, e.1 = 1) ∧
    (∃ (P : Ports) (qs : List Req), P.Ok ∧
      (2, 0) ∈ (addPins P Net.init qs).out 0 0 ∧
      (2, 0) ∉ (removeAllPins P (addPins P Net.init qs) 0 1).out 0 0 ∧
      0 ∈ (removeAllPins P (addPins P Net.init qs) 0 1).inn 2 0) :=
  ⟨⟨demoPorts, [⟨0, 0, 1, 0, false⟩, ⟨0, 0, 1, 1, false⟩], demoPorts_ok, by decide⟩,
   ⟨demoPorts, [⟨0, 0, 1, 0, false⟩, ⟨0, 0, 1, 1, false⟩, ⟨0, 0, 2, 0, false⟩], demoPorts_ok,
     by decide, by decide, by decide⟩⟩

/-- C11, partial (full statement: without `hs`): if no two connections from `s` to `r` share a port,
`removeAllPins` removes exactly the connections from `s` to `r`. -/
theorem C11_removeAllPins_partial {P : Ports} (hP : P.Ok) {n : Net} {pins : List Pin}
    (h : Agrees n pins) (hpo : PortsOk P pins) (s r : Obj) (hs : SimpleBetween pins s r) :
    Agrees (removeAllPins P n s r) (pins.filter (fun p => !(p.s == s && p.r == r))) :=
  removeAll_agrees hP h hpo s r hs

/-- C11: and that condition is exact — links between `s` and `r` are gone on both ends if and only if
no two of the connections share a port. -/
theorem C11_removeAllPins_exact {P : Ports} (hP : P.Ok) {n : Net} {pins : List Pin}
    (h : Agrees n pins) (hpo : PortsOk P pins) (s r : Obj) :
    ((∀ o, ∀ e ∈ (removeAllPins P n s r).out s o, e.1 ≠ r) ∧
      (∀ i, s ∉ (removeAllPins P n s r).inn r i)) ↔ SimpleBetween pins s r := by
  constructor
  · rintro ⟨h1, h2⟩
    obtain ⟨g1, g2, _⟩ := removeAll_parts hP n h.childOk h.parentOk s r
    constructor
    · intro o
      rcases Nat.lt_or_ge (pins.countP (fun p => p.s == s && p.r == r && p.o == o)) 2 with hlt | hge
      · omega
      · exfalso
        obtain ⟨p, hp, hpp⟩ := countP_pos_iff.1 (Nat.lt_of_lt_of_le Nat.zero_lt_two hge)
        simp only [Bool.and_eq_true, beq_iff_eq] at hpp
        have ho : o ∈ P.outs s := by rw [← hpp.1.1, ← hpp.2]; exact (hpo p hp).1
        rw [← countP_out h] at hge
        obtain ⟨y, hy, hy2⟩ := dropHits_multi _ _ hge
        refine h1 o y ?_ (by simpa using hy2)
        rw [g1, if_pos ⟨rfl, ho⟩]; exact hy
    · intro i
      rcases Nat.lt_or_ge (pins.countP (fun p => p.s == s && p.r == r && p.i == i)) 2 with hlt | hge
      · omega
      · exfalso
        obtain ⟨p, hp, hpp⟩ := countP_pos_iff.1 (Nat.lt_of_lt_of_le Nat.zero_lt_two hge)
        simp only [Bool.and_eq_true, beq_iff_eq] at hpp
        have ho : i ∈ P.ins r := by rw [← hpp.1.2, ← hpp.2]; exact (hpo p hp).2
        rw [← countP_inn h] at hge
        obtain ⟨y, hy, hy2⟩ := dropHits_multi _ _ hge
        have hys : y = s := by simpa using hy2
        subst hys
        refine h2 i ?_
        rw [g2, if_pos ⟨rfl, ho⟩]; exact hy
  · intro hs
    have hA := removeAll_agrees hP h hpo s r hs
    constructor
    · intro o e he
      rw [hA.out] at he
      obtain ⟨p, hp, rfl⟩ := mem_map.1 he
      obtain ⟨hp1, hp2⟩ := mem_filter.1 hp
      obtain ⟨_, hp3⟩ := mem_filter.1 hp1
      simp only [Bool.and_eq_true, beq_iff_eq] at hp2
      intro he
      simp [hp2.1] at hp3
      exact hp3 he
    · intro i hi
      rw [hA.inn] at hi
      obtain ⟨p, hp, hps⟩ := mem_map.1 hi
      obtain ⟨hp1, hp2⟩ := mem_filter.1 hp
      obtain ⟨_, hp3⟩ := mem_filter.1 hp1
      simp only [Bool.and_eq_true, beq_iff_eq] at hp2
      simp [hp2.1, hps] at hp3

/-- premises: two connections 0→1 on different ports, one 0→2, one 1→0 -/
example : SimpleBetween [⟨0, 0, 1, 0⟩, ⟨0, 1, 1, 1⟩, ⟨0, 0, 2, 0⟩, ⟨1, 0, 0, 0⟩] 0 1 ∧
    PortsOk demoPorts [⟨0, 0, 1, 0⟩, ⟨0, 1, 1, 1⟩, ⟨0, 0, 2, 0⟩, ⟨1, 0, 0, 0⟩] := by
  refine ⟨⟨?_, ?_⟩, by unfold PortsOk; decide⟩
  · intro o
    simp only [countP_cons, countP_nil]
    by_cases h0 : o = 0
    · subst h0; decide
    · by_cases h1 : o = 1
      · subst h1; decide
      · simp [Ne.symm h0, Ne.symm h1]
  · intro o
    simp only [countP_cons, countP_nil]
    by_cases h0 : o = 0
    · subst h0; decide
    · by_cases h1 : o = 1
      · subst h1; decide
      · simp [Ne.symm h0, Ne.symm h1]

/-! ### C12 -/

/-- C12 is false in two ways.  Asking for a pin that does not exist (0.0→1.1, only 0.0→1.0 exists)
cuts the sender's end of the existing one.  Asking for an absent pin on other ports leaves all links
but forgets that the two blocks are connected. -/
theorem C12_removePin_fails :
    (∃ (P : Ports) (qs : List Req), P.Ok ∧ (⟨0, 0, 1, 1⟩ : Pin) ∉ qs.map Req.pin ∧
      (addPins P Net.init qs).out 0 0 = [(1, 0)] ∧
      (removePin P (addPins P Net.init qs) 0 1 0 1).out 0 0 = [] ∧
      (removePin P (addPins P Net.init qs) 0 1 0 1).inn 1 0 = [0]) ∧
    (∃ (P : Ports) (qs : List Req), P.Ok ∧ (⟨0, 1, 1, 1⟩ : Pin) ∉ qs.map Req.pin ∧
      (removePin P (addPins P Net.init qs) 0 1 1 1).out 0 0 = [(1, 0)] ∧
      1 ∈ (addPins P Net.init qs).graph.children 0 ∧
      1 ∉ (removePin P (addPins P Net.init qs) 0 1 1 1).graph.children 0) :=
  ⟨⟨demoPorts, [⟨0, 0, 1, 0, false⟩], demoPorts_ok, by decide, by decide, by decide, by decide⟩,
   ⟨demoPorts, [⟨0, 0, 1, 0, false⟩], demoPorts_ok, by decide, by decide, by decide, by decide⟩⟩

/-- C12, partial (full statement: for every pin, present or not): removing an existing pin works when
no other connection between the two blocks uses its output port or its input port. -/
theorem C12_removePin_partial {P : Ports} {n : Net} {pins : List Pin}
    (h : Agrees n pins) (hpo : PortsOk P pins) (s r : Obj) (o i : PortId)
    (hmem : (⟨s, o, r, i⟩ : Pin) ∈ pins)
    (ho : pins.countP (fun p => p.s == s && p.r == r && p.o == o) = 1)
    (hi : pins.countP (fun p => p.s == s && p.r == r && p.i == i) = 1) :
    Agrees (removePin P n s r o i) (pins.erase ⟨s, o, r, i⟩) := by
  obtain ⟨hoP, hiP⟩ := hpo _ hmem
  simp only at hoP hiP
  obtain ⟨pre, post, hsplit, hnotpre⟩ : ∃ pre post, pins = pre ++ ⟨s, o, r, i⟩ :: post ∧ (⟨s, o, r, i⟩ : Pin) ∉ pre := by
    obtain ⟨pre, post, h1, h2⟩ := List.eq_append_cons_of_mem hmem
    exact ⟨pre, post, h1, h2⟩
  have he : pins.erase ⟨s, o, r, i⟩ = pre ++ post := by
    rw [hsplit, erase_append_right _ hnotpre]; simp
  rw [hsplit, countP_append, countP_cons_of_pos (by simp)] at ho hi
  have hpreo : pre.countP (fun p => p.s == s && p.r == r && p.o == o) = 0 := by omega
  have hposto : post.countP (fun p => p.s == s && p.r == r && p.o == o) = 0 := by omega
  have hprei : pre.countP (fun p => p.s == s && p.r == r && p.i == i) = 0 := by omega
  have hposti : post.countP (fun p => p.s == s && p.r == r && p.i == i) = 0 := by omega
  rw [he]
  unfold removePin removePinOut removePinIn
  rw [if_pos hoP]
  simp only [if_pos hiP]
  constructor
  · intro a p
    simp only [upd2]
    split
    · next hc =>
      obtain ⟨rfl, rfl⟩ := hc
      rw [dropHits_simple _ _ (by rw [countP_out h, hsplit, countP_append, countP_cons_of_pos (by simp)]; omega), h.out, hsplit]
      simp only [filter_append, map_append]
      rw [filter_cons_of_pos (by simp), map_cons, filter_cons_of_neg (by simp)]
      congr 1
      · rw [filter_eq_self]
        intro e he'
        obtain ⟨q, hq, rfl⟩ := mem_map.1 he'
        obtain ⟨hq1, hq2⟩ := mem_filter.1 hq
        have := countP_eq_zero.1 hpreo q hq1
        simp at this hq2 ⊢
        intro hr; exact this hq2.1 hr hq2.2
      · rw [filter_eq_self]
        intro e he'
        obtain ⟨q, hq, rfl⟩ := mem_map.1 he'
        obtain ⟨hq1, hq2⟩ := mem_filter.1 hq
        have := countP_eq_zero.1 hposto q hq1
        simp at this hq2 ⊢
        intro hr; exact this hq2.1 hr hq2.2
    · next hc =>
      rw [h.out, hsplit, filter_append, filter_append, filter_cons_of_neg]
      simp only [Bool.and_eq_true, beq_iff_eq]
      rintro ⟨h1, h2⟩
      exact hc ⟨h1.symm, h2.symm⟩
  · intro a p
    simp only [upd2]
    split
    · next hc =>
      obtain ⟨rfl, rfl⟩ := hc
      rw [dropHits_simple _ _ (by rw [countP_inn h, hsplit, countP_append, countP_cons_of_pos (by simp)]; omega), h.inn, hsplit]
      simp only [filter_append, map_append]
      rw [filter_cons_of_pos (by simp), map_cons, filter_cons_of_neg (by simp)]
      congr 1
      · rw [filter_eq_self]
        intro e he'
        obtain ⟨q, hq, rfl⟩ := mem_map.1 he'
        obtain ⟨hq1, hq2⟩ := mem_filter.1 hq
        have := countP_eq_zero.1 hprei q hq1
        simp at this hq2 ⊢
        intro hr; exact this hr hq2.1 hq2.2
      · rw [filter_eq_self]
        intro e he'
        obtain ⟨q, hq, rfl⟩ := mem_map.1 he'
        obtain ⟨hq1, hq2⟩ := mem_filter.1 hq
        have := countP_eq_zero.1 hposti q hq1
        simp at this hq2 ⊢
        intro hr; exact this hr hq2.1 hq2.2
    · next hc =>
      rw [h.inn, hsplit, filter_append, filter_append, filter_cons_of_neg]
      simp only [Bool.and_eq_true, beq_iff_eq]
      rintro ⟨h1, h2⟩
      exact hc ⟨h1.symm, h2.symm⟩
  · intro a b
    simp only [upd]
    split
    · next hc =>
      subst hc
      rw [Counter.get_decr _ (h.childOk _), h.child, hsplit, countP_append, countP_append, countP_cons]
      by_cases hb : b = r
      · subst hb; simp
      · simp [hb, Ne.symm hb]
    · next hc =>
      rw [h.child, hsplit, countP_append, countP_append, countP_cons_of_neg]
      simp [Ne.symm hc]
  · intro b a
    simp only [upd]
    split
    · next hc =>
      subst hc
      rw [Counter.get_decr _ (h.parentOk _), h.parent, hsplit, countP_append, countP_append, countP_cons]
      by_cases hb : a = s
      · subst hb; simp
      · simp [hb, Ne.symm hb]
    · next hc =>
      rw [h.parent, hsplit, countP_append, countP_append, countP_cons_of_neg]
      simp [Ne.symm hc]
  · intro a
    simp only [upd]
    split
    · exact Counter.ok_decr _ _ (h.childOk _)
    · exact h.childOk _
  · intro a
    simp only [upd]
    split
    · exact Counter.ok_decr _ _ (h.parentOk _)
    · exact h.parentOk _

/-- C12, partial: asking to remove a pin between blocks that are not connected at all changes
nothing. -/
theorem C12_removePin_absent_partial {P : Ports} {n : Net} {pins : List Pin}
    (h : Agrees n pins) (s r : Obj) (o i : PortId) (hno : ∀ p ∈ pins, ¬ (p.s = s ∧ p.r = r)) :
    Agrees (removePin P n s r o i) pins := by
  have hz : ∀ f : Pin → Bool, pins.countP (fun p => p.s == s && p.r == r && f p) = 0 := by
    intro f
    rw [countP_eq_zero]
    intro p hp
    have := hno p hp
    simp only [Bool.and_eq_true, beq_iff_eq]
    rintro ⟨h1, _⟩
    exact this h1
  have hc0 : pins.countP (fun p => p.s == s && p.r == r) = 0 := by
    rw [countP_eq_zero]
    intro p hp
    simpa using hno p hp
  have ho : dropHits (fun e => e.1 == r) (n.out s o) = n.out s o := by
    rw [dropHits_simple _ _ (by rw [countP_out h, hz]; omega), filter_none]
    have := countP_out h s r o
    rw [hz, countP_eq_zero] at this
    intro y hy
    simpa using this y hy
  have hi : dropHits (fun e => e == s) (n.inn r i) = n.inn r i := by
    rw [dropHits_simple _ _ (by rw [countP_inn h, hz]; omega), filter_none]
    have := countP_inn h s r i
    rw [hz, countP_eq_zero] at this
    intro y hy
    simpa using this y hy
  have e1 : (removePin P n s r o i).out = n.out := by
    funext a p
    simp only [removePin, removePinOut, removePinIn]
    split <;> split <;> simp only [upd2, ho]
    all_goals
      split
      · next hc => rw [hc.1, hc.2]
      · rfl
  have e2 : (removePin P n s r o i).inn = n.inn := by
    funext a p
    simp only [removePin, removePinOut, removePinIn]
    split <;> split <;> simp only [upd2, hi]
    all_goals
      split
      · next hc => rw [hc.1, hc.2]
      · rfl
  have e3 : (removePin P n s r o i).child = upd n.child s ((n.child s).decr r) := by
    simp only [removePin, removePinOut, removePinIn]
    split <;> split <;> rfl
  have e4 : (removePin P n s r o i).parent = upd n.parent r ((n.parent r).decr s) := by
    simp only [removePin, removePinOut, removePinIn]
    split <;> split <;> rfl
  constructor
  · rw [e1]; exact h.out
  · rw [e2]; exact h.inn
  · intro a b
    rw [e3]
    simp only [upd]
    split
    · next hc =>
      subst hc
      rw [Counter.get_decr _ (h.childOk _), h.child]
      split
      · next hb => rw [hb, hc0]
      · rfl
    · exact h.child a b
  · intro b a
    rw [e4]
    simp only [upd]
    split
    · next hc =>
      subst hc
      rw [Counter.get_decr _ (h.parentOk _), h.parent]
      split
      · next hb => rw [hb, hc0]
      · rfl
    · exact h.parent b a
  · intro a
    rw [e3]
    simp only [upd]
    split
    · exact Counter.ok_decr _ _ (h.childOk _)
    · exact h.childOk _
  · intro a
    rw [e4]
    simp only [upd]
    split
    · exact Counter.ok_decr _ _ (h.parentOk _)
    · exact h.parentOk _

example : let pins : List Pin := [⟨0, 0, 1, 0⟩, ⟨0, 1, 1, 1⟩, ⟨2, 0, 1, 0⟩]
    PortsOk demoPorts pins ∧ (⟨0, 0, 1, 0⟩ : Pin) ∈ pins ∧
    pins.countP (fun p => p.s == 0 && p.r == 1 && p.o == 0) = 1 ∧
    pins.countP (fun p => p.s == 0 && p.r == 1 && p.i == 0) = 1 ∧
    (∀ p ∈ pins, ¬ (p.s = 2 ∧ p.r = 0)) := by
  refine ⟨by unfold PortsOk; decide, by decide, by decide, by decide, by decide⟩

/-! ### C13 -/

/-- C13 is false (1): destroying a receiver that is fed twice by the same output port leaves a link to
the destroyed block in the sender, which its next execution dereferences. -/
theorem C13_dangling_link_fails : ∃ (P : Ports) (qs : List Req) (first : Counter → Obj) (m : Net),
    P.Ok ∧ clear P first 3 (addPins P Net.init qs) 1 = some m ∧ ∃ e ∈ m.out 0 0, e.1 = 1 :=
  ⟨demoPorts, [⟨0, 0, 1, 0, false⟩, ⟨0, 0, 1, 1, false⟩], fun c => (c.headD (0, 0)).1, _,
    demoPorts_ok, rfl, by decide⟩

/-- `begin()` as the first inserted entry -/
def headFirst (c : Counter) : Obj := (c.headD (0, 0)).1
theorem headFirst_ok : FirstOk headFirst := by
  intro c hc
  cases c with
  | nil => exact absurd rfl hc
  | cons e t => simp [headFirst, Counter.keys]

/-- C13 is false (2): clearing (destroying) a sender whose output port feeds two ports of block 1 and
then block 2 never terminates when block 1 comes first in the child map. -/
theorem C13_clear_hangs_fails : ∃ (P : Ports) (qs : List Req) (first : Counter → Obj), P.Ok ∧
    FirstOk first ∧ ∀ k, clear P first k (addPins P Net.init qs) 0 = none := by
  refine ⟨demoPorts, [⟨0, 0, 1, 0, false⟩, ⟨0, 0, 1, 1, false⟩, ⟨0, 0, 2, 0, false⟩], headFirst,
    demoPorts_ok, headFirst_ok, ?_⟩
  intro k
  generalize hn : addPins demoPorts Net.init [⟨0, 0, 1, 0, false⟩, ⟨0, 0, 1, 1, false⟩, ⟨0, 0, 2, 0, false⟩] = n
  have hA : Agrees n [⟨0, 0, 1, 0⟩, ⟨0, 0, 1, 1⟩, ⟨0, 0, 2, 0⟩] := by
    subst hn
    exact C09_both_ends_agree demoPorts [⟨0, 0, 1, 0, false⟩, ⟨0, 0, 1, 1, false⟩, ⟨0, 0, 2, 0, false⟩]
  have hpar : n.parent 0 = [] := by subst hn; decide
  have hch : n.child 0 = [(1, 2), (2, 1)] := by subst hn; decide
  have hin : ∀ k, removePinsIn demoPorts headFirst k n 0 = if k = 0 then none else some n := by
    intro k
    cases k with
    | zero => rfl
    | succ k => simp [removePinsIn, hpar]
  unfold clear
  rw [hin]
  cases k with
  | zero => rfl
  | succ k =>
    rw [if_neg (by omega)]
    simp only [Option.bind_some]
    unfold removePinsOut
    rw [hch]
    simp only [length_cons, length_nil]
    rw [if_neg (by omega)]
    show removePinsOut demoPorts headFirst k (removeAllPins demoPorts n 0 1) 0 = none
    obtain ⟨h1, h2, h3, h4, h5, h6⟩ := removeAll_parts demoPorts_ok n hA.childOk hA.parentOk 0 1
    apply stuckOut demoPorts_ok headFirst_ok 0 2 k _ h5 h6
    · intro x
      rw [h3, hch]
      simp only [demoPorts, hA.out]
      by_cases hx1 : x = 1
      · subst hx1; decide
      · by_cases hx2 : x = 2
        · subst hx2; decide
        · simp [hx1, hx2, Counter.get_cons, Counter.get_nil, Ne.symm hx1, Ne.symm hx2]
    · have : ∀ o ∈ [0, 1, 2], ((removeAllPins demoPorts n 0 1).out 0 o).countP (fun e => e.1 == 2) = 0 := by
        subst hn; decide
      exact this

/-- C13 is false (3): after one `removePin`, clearing a block whose input port was fed three times by
one sender never terminates, whatever the order of the maps. -/
theorem C13_clear_hangs_after_removePin_fails : ∃ (P : Ports) (qs : List Req), P.Ok ∧
    ∀ first, FirstOk first → ∀ k,
      clear P first k (removePin P (addPins P Net.init qs) 0 1 0 0) 1 = none := by
  refine ⟨demoPorts, [⟨0, 0, 1, 0, false⟩, ⟨0, 1, 1, 0, false⟩, ⟨0, 2, 1, 0, false⟩], demoPorts_ok, ?_⟩
  intro first hf k
  generalize hn : addPins demoPorts Net.init [⟨0, 0, 1, 0, false⟩, ⟨0, 1, 1, 0, false⟩, ⟨0, 2, 1, 0, false⟩] = n
  have hA : Agrees n [⟨0, 0, 1, 0⟩, ⟨0, 1, 1, 0⟩, ⟨0, 2, 1, 0⟩] := by
    subst hn
    exact C09_both_ends_agree demoPorts [⟨0, 0, 1, 0, false⟩, ⟨0, 1, 1, 0, false⟩, ⟨0, 2, 1, 0, false⟩]
  have e3 : (removePin demoPorts n 0 1 0 0).child = upd n.child 0 ((n.child 0).decr 1) := by
    simp only [removePin, removePinOut, removePinIn]
    split <;> split <;> rfl
  have e4 : (removePin demoPorts n 0 1 0 0).parent = upd n.parent 1 ((n.parent 1).decr 0) := by
    simp only [removePin, removePinOut, removePinIn]
    split <;> split <;> rfl
  generalize hm : removePin demoPorts n 0 1 0 0 = m at *
  have hcOk : ∀ b, (m.child b).Ok := by
    intro b; rw [e3]; simp only [upd]
    split
    · exact Counter.ok_decr _ _ (hA.childOk _)
    · exact hA.childOk _
  have hpOk : ∀ b, (m.parent b).Ok := by
    intro b; rw [e4]; simp only [upd]
    split
    · exact Counter.ok_decr _ _ (hA.parentOk _)
    · exact hA.parentOk _
  have hpar : m.parent 1 = [(0, 2)] := by subst hm hn; decide
  have hnone : removePinsIn demoPorts first k m 1 = none := by
    cases k with
    | zero => rfl
    | succ k =>
      unfold removePinsIn
      rw [hpar]
      simp only [length_cons, length_nil]
      rw [if_neg (by omega)]
      have hfx : first [(0, 2)] = 0 := by
        have := hf [(0, 2)] (by simp)
        simpa [Counter.keys] using this
      rw [hfx]
      obtain ⟨h1, h2, h3, h4, h5, h6⟩ := removeAll_parts demoPorts_ok m hcOk hpOk 0 1
      apply stuckIn demoPorts_ok hf 0 1 k _ h5 h6
      · intro x
        rw [h4, hpar]
        have hs : ((demoPorts.ins 1).map (fun i => (m.inn 1 i).countP (fun e => e == 0))).sum = 1 := by
          subst hm hn; decide
        rw [hs]
        by_cases hx : x = 0
        · subst hx; decide
        · simp [hx, Counter.get_cons, Counter.get_nil, Ne.symm hx]
      · have : ∀ o ∈ [0, 1, 2], ((removeAllPins demoPorts m 0 1).inn 1 o).countP (fun e => e == 0) = 0 := by
          subst hm hn; decide
        exact this
  unfold clear
  rw [hnone]; rfl

/-- C13, partial (full statement: without `hs`): if no two connections between the same two blocks, one
of them `b`, share a port, clearing `b` terminates whatever the iteration order of the maps, and
afterwards the connections of all blocks are exactly those that do not involve `b`. -/
theorem C13_clear_detaches_partial {P : Ports} (hP : P.Ok) {first : Counter → Obj} (hf : FirstOk first)
    {n : Net} {pins : List Pin} (h : Agrees n pins) (hpo : PortsOk P pins) (b : Obj)
    (hs : SimpleAt pins b) (k : Nat) (hk : pins.length < k) :
    ∃ m, clear P first k n b = some m ∧
      Agrees m (pins.filter (fun p => !(p.s == b) && !(p.r == b))) := by
  obtain ⟨m1, h1, h2⟩ := removePinsIn_spec hP hf b k n pins h hpo (fun s => hs s b (Or.inr rfl))
    (Nat.lt_of_le_of_lt countP_le_length hk)
  obtain ⟨m2, h3, h4⟩ := removePinsOut_spec hP hf b k m1 _ h2 (portsOk_filter _ hpo)
    (fun r => simple_filter _ (hs b r (Or.inl rfl)))
    (Nat.lt_of_le_of_lt countP_le_length (Nat.lt_of_le_of_lt (length_filter_le _ _) hk))
  refine ⟨m2, by rw [clear, h1]; exact h3, ?_⟩
  rw [filter_filter] at h4
  exact h4

/-- C13, reading of the conclusion: no port of any block lists `b` any more. -/
theorem C13_no_trace {m : Net} {pins : List Pin} {b : Obj}
    (h : Agrees m (pins.filter (fun p => !(p.s == b) && !(p.r == b)))) :
    (∀ s o, ∀ e ∈ m.out s o, e.1 ≠ b) ∧ (∀ r i, b ∉ m.inn r i) ∧ (∀ o, m.out b o = []) ∧
    (∀ i, m.inn b i = []) ∧ (∀ a, b ∉ m.graph.children a ∧ b ∉ m.graph.parents a) := by
  refine ⟨?_, ?_, ?_, ?_, ?_⟩
  · intro s o e he
    rw [h.out] at he
    obtain ⟨p, hp, rfl⟩ := mem_map.1 he
    have := (mem_filter.1 (mem_filter.1 hp).1).2
    simp at this
    exact this.2
  · intro r i hb
    rw [h.inn] at hb
    obtain ⟨p, hp, hpb⟩ := mem_map.1 hb
    have := (mem_filter.1 (mem_filter.1 hp).1).2
    simp at this
    exact this.1 hpb
  · intro o
    rw [h.out, map_eq_nil_iff, filter_eq_nil_iff]
    intro p hp
    have := (mem_filter.1 hp).2
    simp at this ⊢
    intro he; exact absurd he this.1
  · intro i
    rw [h.inn, map_eq_nil_iff, filter_eq_nil_iff]
    intro p hp
    have := (mem_filter.1 hp).2
    simp at this ⊢
    intro he; exact absurd he this.2
  · intro a
    refine ⟨?_, ?_⟩
    · rw [(C09_children h a b).1]
      rintro ⟨p, hp, _, rfl⟩
      have := (mem_filter.1 hp).2
      simp at this
    · rw [(C09_children h b a).2.1]
      rintro ⟨p, hp, rfl, _⟩
      have := (mem_filter.1 hp).2
      simp at this

/-- premises of the partial theorem: the same output port may feed different blocks, and the same input
port may be fed by different blocks -/
example : SimpleAt [⟨0, 0, 1, 0⟩, ⟨0, 0, 2, 0⟩, ⟨2, 0, 1, 0⟩] 1 ∧ FirstOk headFirst ∧
    Agrees (addPins demoPorts Net.init [⟨0, 0, 1, 0, false⟩, ⟨0, 0, 2, 0, false⟩, ⟨2, 0, 1, 0, false⟩])
      [⟨0, 0, 1, 0⟩, ⟨0, 0, 2, 0⟩, ⟨2, 0, 1, 0⟩] := by
  refine ⟨?_, headFirst_ok, C09_both_ends_agree demoPorts [⟨0, 0, 1, 0, false⟩, ⟨0, 0, 2, 0, false⟩, ⟨2, 0, 1, 0, false⟩]⟩
  intro s r _
  have key : ([⟨0, 0, 1, 0⟩, ⟨0, 0, 2, 0⟩, ⟨2, 0, 1, 0⟩] : List Pin).countP (fun p => p.s == s && p.r == r) ≤ 1 := by
    simp only [countP_cons, countP_nil, Bool.and_eq_true, beq_iff_eq]
    by_cases h1 : s = 0
    · subst h1
      by_cases h2 : r = 1
      · subst h2; decide
      · simp [Ne.symm h2]; split <;> decide
    · simp [Ne.symm h1]; split <;> decide
  exact ⟨fun o => Nat.le_trans (countP_mono_left (by intro p _; simp; exact fun a b _ => ⟨a, b⟩)) key,
    fun o => Nat.le_trans (countP_mono_left (by intro p _; simp; exact fun a b _ => ⟨a, b⟩)) key⟩

end Verif.Pin
