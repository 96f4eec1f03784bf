import Verif.Pin.Lemmas
/-
Lemmas about the removal of connections.
-/
namespace Verif.Pin
open List

theorem countP_out {n : Net} {pins : List Pin} (h : Agrees n pins) (s r : Obj) (o : PortId) :
    (n.out s o).countP (fun e => e.1 == r) = pins.countP (fun p => p.s == s && p.r == r && p.o == o) := by
  rw [h.out, countP_map, countP_filter]
  congr 1
  funext p
  simp only [Function.comp]
  cases (p.s == s) <;> cases (p.o == o) <;> cases (p.r == r) <;> rfl

theorem countP_inn {n : Net} {pins : List Pin} (h : Agrees n pins) (s r : Obj) (i : PortId) :
    (n.inn r i).countP (fun e => e == s) = pins.countP (fun p => p.s == s && p.r == r && p.i == i) := by
  rw [h.inn, countP_map, countP_filter]
  congr 1
  funext p
  simp only [Function.comp]
  cases (p.s == s) <;> cases (p.i == i) <;> cases (p.r == r) <;> rfl

/-- the four components of `removeAllPins`, for any state with proper counters -/
theorem removeAll_parts {P : Ports} (hP : P.Ok) (n : Net) (hc : ∀ b, (n.child b).Ok)
    (hp : ∀ b, (n.parent b).Ok) (s r : Obj) :
    let m := removeAllPins P n s r
    (∀ a p, m.out a p = if a = s ∧ p ∈ P.outs s then dropHits (fun e => e.1 == r) (n.out a p) else n.out a p) ∧
    (∀ a p, m.inn a p = if a = r ∧ p ∈ P.ins r then dropHits (fun e => e == s) (n.inn a p) else n.inn a p) ∧
    (∀ a b, (m.child a).get b = (n.child a).get b -
      if a = s ∧ b = r then ((P.outs s).map (fun o => (n.out s o).countP (fun e => e.1 == r))).sum else 0) ∧
    (∀ a b, (m.parent a).get b = (n.parent a).get b -
      if a = r ∧ b = s then ((P.ins r).map (fun i => (n.inn r i).countP (fun e => e == s))).sum else 0) ∧
    (∀ b, (m.child b).Ok) ∧ (∀ b, (m.parent b).Ok) := by
  obtain ⟨a1, a2, a3, a4, a5⟩ := foldl_cutOut s r (P.outs s) n (hP.1 s) hc
  obtain ⟨b1, b2, b3, b4, b5⟩ := foldl_cutIn s r (P.ins r) ((P.outs s).foldl (cutOut s r) n) (hP.2 r)
    (by rw [a3]; exact hp)
  intro m
  have hm : m = (P.ins r).foldl (cutIn s r) ((P.outs s).foldl (cutOut s r) n) := rfl
  rw [← hm] at b1 b2 b3 b4 b5
  refine ⟨?_, ?_, ?_, ?_, ?_, b4⟩
  · rw [b2]; exact a1
  · intro a p; rw [b1, a2]
  · rw [b3]; exact a5
  · intro a b; rw [b5, a3, a2]
  · rw [b3]; exact a4

theorem removeAll_agrees {P : Ports} (hP : P.Ok) {n : Net} {pins : List Pin} (h : Agrees n pins)
    (hpo : PortsOk P pins) (s r : Obj) (hs : SimpleBetween pins s r) :
    Agrees (removeAllPins P n s r) (pins.filter (fun p => !(p.s == s && p.r == r))) := by
  obtain ⟨h1, h2, h3, h4, h5, h6⟩ := removeAll_parts hP n h.childOk h.parentOk s r
  constructor
  · intro a o
    rw [h1]
    have step : dropHits (fun e => e.1 == r) (n.out s o) =
        ((pins.filter (fun p => !(p.s == s && p.r == r))).filter (fun p => p.s == s && p.o == o)).map (fun p => (p.r, p.i)) := by
      rw [dropHits_simple _ _ (by rw [countP_out h]; exact hs.1 o), h.out, filter_map, filter_filter, filter_filter]
      congr 1
      apply filter_congr
      intro p _
      simp only [Function.comp]
      cases (p.s == s) <;> cases (p.o == o) <;> cases (p.r == r) <;> rfl
    split
    · next hc => rw [hc.1]; exact step
    · next hc =>
      by_cases ha : a = s
      · subst ha
        have ho : o ∉ P.outs a := fun ho => hc ⟨rfl, ho⟩
        rw [h.out]
        have e : ∀ l : List Pin, (∀ p ∈ l, p ∈ pins) → l.filter (fun p => p.s == a && p.o == o) = [] := by
          intro l hl
          rw [filter_eq_nil_iff]
          intro p hp
          simp only [Bool.and_eq_true, beq_iff_eq, not_and]
          intro e1 e2
          have := (hpo p (hl p hp)).1
          rw [e1, e2] at this
          exact ho this
        rw [e _ (fun _ hp => hp), e _ (fun p hp => (mem_filter.1 hp).1)]
      · rw [h.out, filter_filter]
        congr 1
        apply filter_congr
        intro p _
        by_cases hps : p.s = a
        · have : (p.s == s) = false := by simp [hps, ha]
          simp [this]
        · have : (p.s == a) = false := by simp [hps]
          simp [this]
  · intro a i
    rw [h2]
    have step : dropHits (fun e => e == s) (n.inn r i) =
        ((pins.filter (fun p => !(p.s == s && p.r == r))).filter (fun p => p.r == r && p.i == i)).map (fun p => p.s) := by
      rw [dropHits_simple _ _ (by rw [countP_inn h]; exact hs.2 i), h.inn, filter_map, filter_filter, filter_filter]
      congr 1
      apply filter_congr
      intro p _
      simp only [Function.comp]
      cases (p.s == s) <;> cases (p.i == i) <;> cases (p.r == r) <;> rfl
    split
    · next hc => rw [hc.1]; exact step
    · next hc =>
      by_cases ha : a = r
      · subst ha
        have ho : i ∉ P.ins a := fun ho => hc ⟨rfl, ho⟩
        rw [h.inn]
        have e : ∀ l : List Pin, (∀ p ∈ l, p ∈ pins) → l.filter (fun p => p.r == a && p.i == i) = [] := by
          intro l hl
          rw [filter_eq_nil_iff]
          intro p hp
          simp only [Bool.and_eq_true, beq_iff_eq, not_and]
          intro e1 e2
          have := (hpo p (hl p hp)).2
          rw [e1, e2] at this
          exact ho this
        rw [e _ (fun _ hp => hp), e _ (fun p hp => (mem_filter.1 hp).1)]
      · rw [h.inn, filter_filter]
        congr 1
        apply filter_congr
        intro p _
        by_cases hps : p.r = a
        · have : (p.r == r) = false := by simp [hps, ha]
          simp [this]
        · have : (p.r == a) = false := by simp [hps]
          simp [this]
  · intro a b
    rw [h3, h.child, countP_filter]
    by_cases hab : a = s ∧ b = r
    · obtain ⟨rfl, rfl⟩ := hab
      rw [if_pos ⟨rfl, rfl⟩]
      have : ((P.outs a).map (fun o => (n.out a o).countP (fun e => e.1 == b))) =
          ((P.outs a).map (fun o => pins.countP (fun p => (p.s == a && p.r == b) && p.o == o))) := by
        apply map_congr_left
        intro o _
        exact countP_out h a b o
      rw [this, sum_countP_classes (fun p : Pin => p.o) (fun p => p.s == a && p.r == b) pins _ (hP.1 a)
        (fun p hp hpp => by
          simp only [Bool.and_eq_true, beq_iff_eq] at hpp
          rw [← hpp.1]; exact (hpo p hp).1)]
      rw [Nat.sub_self, eq_comm, countP_eq_zero]
      intro p _
      simp
    · rw [if_neg hab, Nat.sub_zero]
      congr 1
      funext p
      by_cases e1 : p.s = a <;> by_cases e2 : p.r = b
      · have : (p.s == s && p.r == r) = false := by
          simp only [Bool.and_eq_false_iff, beq_eq_false_iff_ne, e1, e2]
          by_cases e3 : a = s
          · right; intro e4; exact hab ⟨e3, e4⟩
          · left; exact e3
        rw [this]; simp
      · simp [e2]
      · simp [e1]
      · simp [e1]
  · intro b a
    rw [h4, h.parent, countP_filter]
    by_cases hab : b = r ∧ a = s
    · obtain ⟨rfl, rfl⟩ := hab
      rw [if_pos ⟨rfl, rfl⟩]
      have : ((P.ins b).map (fun o => (n.inn b o).countP (fun e => e == a))) =
          ((P.ins b).map (fun o => pins.countP (fun p => (p.s == a && p.r == b) && p.i == o))) := by
        apply map_congr_left
        intro o _
        exact countP_inn h a b o
      rw [this, sum_countP_classes (fun p : Pin => p.i) (fun p => p.s == a && p.r == b) pins _ (hP.2 b)
        (fun p hp hpp => by
          simp only [Bool.and_eq_true, beq_iff_eq] at hpp
          rw [← hpp.2]; exact (hpo p hp).2)]
      rw [Nat.sub_self, eq_comm, countP_eq_zero]
      intro p _
      simp
    · rw [if_neg hab, Nat.sub_zero]
      congr 1
      funext p
      by_cases e1 : p.s = a <;> by_cases e2 : p.r = b
      · have : (p.s == s && p.r == r) = false := by
          simp only [Bool.and_eq_false_iff, beq_eq_false_iff_ne, e1, e2]
          by_cases e3 : a = s
          · right; intro e4; exact hab ⟨e4, e3⟩
          · left; exact e3
        rw [this]; simp
      · simp [e2]
      · simp [e1]
      · simp [e1]
  · exact h5
  · exact h6

theorem simple_filter {pins : List Pin} {s r : Obj} (f : Pin → Bool) (h : SimpleBetween pins s r) :
    SimpleBetween (pins.filter f) s r :=
  ⟨fun o => Nat.le_trans (filter_sublist.countP_le) (h.1 o),
   fun i => Nat.le_trans (filter_sublist.countP_le) (h.2 i)⟩

theorem portsOk_filter {P : Ports} {pins : List Pin} (f : Pin → Bool) (h : PortsOk P pins) :
    PortsOk P (pins.filter f) := fun p hp => h p (mem_filter.1 hp).1

/-- which entry `begin()` yields is unspecified, but it is an entry of the map -/
def FirstOk (first : Counter → Obj) : Prop := ∀ c, c ≠ [] → first c ∈ Counter.keys c

theorem removePinsIn_spec {P : Ports} (hP : P.Ok) {first : Counter → Obj} (hf : FirstOk first) (b : Obj) :
    ∀ (k : Nat) (n : Net) (pins : List Pin), Agrees n pins → PortsOk P pins →
    (∀ s, SimpleBetween pins s b) → pins.countP (fun p => p.r == b) < k →
    ∃ m, removePinsIn P first k n b = some m ∧ Agrees m (pins.filter (fun p => !(p.r == b))) := by
  intro k
  induction k with
  | zero => intro n pins _ _ _ h; omega
  | succ k ih =>
    intro n pins h hpo hs hk
    unfold removePinsIn
    split
    · next h0 =>
      refine ⟨n, rfl, ?_⟩
      have hnil : n.parent b = [] := length_eq_zero_iff.1 h0
      have : pins.filter (fun p => !(p.r == b)) = pins := by
        rw [filter_eq_self]
        intro p hp
        have hz := h.parent b p.s
        rw [hnil, Counter.get_nil, eq_comm, countP_eq_zero] at hz
        have := hz p hp
        simpa using this
      rw [this]; exact h
    · next h0 =>
      have hne : n.parent b ≠ [] := fun e => h0 (by rw [e]; rfl)
      have hmem := hf _ hne
      generalize hx : first (n.parent b) = x at *
      have hpos : 0 < pins.countP (fun p => p.s == x && p.r == b) := by
        rw [← h.parent b x]; exact Counter.get_pos _ (h.parentOk b) x hmem
      have hA := removeAll_agrees hP h hpo x b (hs x)
      have hlt : (pins.filter (fun p => !(p.s == x && p.r == b))).countP (fun p => p.r == b) < k := by
        have h1 : pins.countP (fun p => p.r == b) =
            pins.countP (fun p => p.r == b && (p.s == x && p.r == b)) +
            pins.countP (fun p => p.r == b && !(p.s == x && p.r == b)) := by
          clear hA hpos hk hs hpo h
          induction pins with
          | nil => rfl
          | cons a t iht =>
            simp only [countP_cons, iht]
            cases (a.r == b) <;> cases (a.s == x) <;> simp <;> omega
        have h2 : pins.countP (fun p => p.r == b && (p.s == x && p.r == b)) =
            pins.countP (fun p => p.s == x && p.r == b) := by
          congr 1; funext p
          cases (p.r == b) <;> cases (p.s == x) <;> rfl
        rw [countP_filter]
        omega
      obtain ⟨m, hm1, hm2⟩ := ih _ _ hA (portsOk_filter _ hpo) (fun s => simple_filter _ (hs s)) hlt
      refine ⟨m, hm1, ?_⟩
      rw [filter_filter] at hm2
      have : pins.filter (fun p => !(p.r == b) && !(p.s == x && p.r == b)) = pins.filter (fun p => !(p.r == b)) := by
        apply filter_congr
        intro p _
        cases (p.r == b) <;> cases (p.s == x) <;> rfl
      rw [this] at hm2
      exact hm2

theorem removePinsOut_spec {P : Ports} (hP : P.Ok) {first : Counter → Obj} (hf : FirstOk first) (b : Obj) :
    ∀ (k : Nat) (n : Net) (pins : List Pin), Agrees n pins → PortsOk P pins →
    (∀ r, SimpleBetween pins b r) → pins.countP (fun p => p.s == b) < k →
    ∃ m, removePinsOut P first k n b = some m ∧ Agrees m (pins.filter (fun p => !(p.s == b))) := by
  intro k
  induction k with
  | zero => intro n pins _ _ _ h; omega
  | succ k ih =>
    intro n pins h hpo hs hk
    unfold removePinsOut
    split
    · next h0 =>
      refine ⟨n, rfl, ?_⟩
      have hnil : n.child b = [] := length_eq_zero_iff.1 h0
      have : pins.filter (fun p => !(p.s == b)) = pins := by
        rw [filter_eq_self]
        intro p hp
        have hz := h.child b p.r
        rw [hnil, Counter.get_nil, eq_comm, countP_eq_zero] at hz
        have := hz p hp
        simpa using this
      rw [this]; exact h
    · next h0 =>
      have hne : n.child b ≠ [] := fun e => h0 (by rw [e]; rfl)
      have hmem := hf _ hne
      generalize hx : first (n.child b) = x at *
      have hpos : 0 < pins.countP (fun p => p.s == b && p.r == x) := by
        rw [← h.child b x]; exact Counter.get_pos _ (h.childOk b) x hmem
      have hA := removeAll_agrees hP h hpo b x (hs x)
      have hlt : (pins.filter (fun p => !(p.s == b && p.r == x))).countP (fun p => p.s == b) < k := by
        have h1 : pins.countP (fun p => p.s == b) =
            pins.countP (fun p => p.s == b && (p.s == b && p.r == x)) +
            pins.countP (fun p => p.s == b && !(p.s == b && p.r == x)) := by
          clear hA hpos hk hs hpo h
          induction pins with
          | nil => rfl
          | cons a t iht =>
            simp only [countP_cons, iht]
            cases (a.s == b) <;> cases (a.r == x) <;> simp <;> omega
        have h2 : pins.countP (fun p => p.s == b && (p.s == b && p.r == x)) =
            pins.countP (fun p => p.s == b && p.r == x) := by
          congr 1; funext p
          cases (p.s == b) <;> cases (p.r == x) <;> rfl
        rw [countP_filter]
        omega
      obtain ⟨m, hm1, hm2⟩ := ih _ _ hA (portsOk_filter _ hpo) (fun s => simple_filter _ (hs s)) hlt
      refine ⟨m, hm1, ?_⟩
      rw [filter_filter] at hm2
      have : pins.filter (fun p => !(p.s == b) && !(p.s == b && p.r == x)) = pins.filter (fun p => !(p.s == b)) := by
        apply filter_congr
        intro p _
        cases (p.s == b) <;> cases (p.r == x) <;> rfl
      rw [this] at hm2
      exact hm2

theorem countP_map_sum_zero {os : List PortId} {f : PortId → Nat} (h : ∀ o ∈ os, f o = 0) :
    (os.map f).sum = 0 := sum_eq_zero_of (fun x hx => by
      obtain ⟨o, ho, rfl⟩ := mem_map.1 hx; exact h o ho)

/-- the loop of `removePinsOut` cannot end when a child is recorded but no output port lists it -/
theorem stuckOut {P : Ports} (hP : P.Ok) {first : Counter → Obj} (hf : FirstOk first) (b r : Obj) :
    ∀ (k : Nat) (n : Net), (∀ x, (n.child x).Ok) → (∀ x, (n.parent x).Ok) →
    (∀ x, 0 < (n.child b).get x ↔ x = r) →
    (∀ o ∈ P.outs b, (n.out b o).countP (fun e => e.1 == r) = 0) → removePinsOut P first k n b = none := by
  intro k
  induction k with
  | zero => intros; rfl
  | succ k ih =>
    intro n hc hp hg ho
    unfold removePinsOut
    have hr : r ∈ Counter.keys (n.child b) := Counter.mem_of_get _ _ ((hg r).2 rfl)
    have hne : n.child b ≠ [] := by intro e; rw [e] at hr; simp [Counter.keys] at hr
    rw [if_neg (by intro e; exact hne (length_eq_zero_iff.1 e))]
    have hx : first (n.child b) = r := (hg _).1 (Counter.get_pos _ (hc b) _ (hf _ hne))
    rw [hx]
    obtain ⟨h1, h2, h3, h4, h5, h6⟩ := removeAll_parts hP n hc hp b r
    apply ih _ h5 h6
    · intro x
      rw [h3]
      have : (if b = b ∧ x = r then ((P.outs b).map (fun o => (n.out b o).countP (fun e => e.1 == r))).sum else 0) = 0 := by
        split
        · exact countP_map_sum_zero ho
        · rfl
      rw [this, Nat.sub_zero]; exact hg x
    · intro o hoo
      rw [h1, if_pos ⟨rfl, hoo⟩, dropHits_simple _ _ (by rw [ho o hoo]; omega), countP_filter, countP_eq_zero]
      intro e _
      simp

/-- the same for `removePinsIn` -/
theorem stuckIn {P : Ports} (hP : P.Ok) {first : Counter → Obj} (hf : FirstOk first) (s b : Obj) :
    ∀ (k : Nat) (n : Net), (∀ x, (n.child x).Ok) → (∀ x, (n.parent x).Ok) →
    (∀ x, 0 < (n.parent b).get x ↔ x = s) →
    (∀ o ∈ P.ins b, (n.inn b o).countP (fun e => e == s) = 0) → removePinsIn P first k n b = none := by
  intro k
  induction k with
  | zero => intros; rfl
  | succ k ih =>
    intro n hc hp hg ho
    unfold removePinsIn
    have hr : s ∈ Counter.keys (n.parent b) := Counter.mem_of_get _ _ ((hg s).2 rfl)
    have hne : n.parent b ≠ [] := by intro e; rw [e] at hr; simp [Counter.keys] at hr
    rw [if_neg (by intro e; exact hne (length_eq_zero_iff.1 e))]
    have hx : first (n.parent b) = s := (hg _).1 (Counter.get_pos _ (hp b) _ (hf _ hne))
    rw [hx]
    obtain ⟨h1, h2, h3, h4, h5, h6⟩ := removeAll_parts hP n hc hp s b
    apply ih _ h5 h6
    · intro x
      rw [h4]
      have : (if b = b ∧ x = s then ((P.ins b).map (fun o => (n.inn b o).countP (fun e => e == s))).sum else 0) = 0 := by
        split
        · exact countP_map_sum_zero ho
        · rfl
      rw [this, Nat.sub_zero]; exact hg x
    · intro o hoo
      rw [h2, if_pos ⟨rfl, hoo⟩, dropHits_simple _ _ (by rw [ho o hoo]; omega), countP_filter, countP_eq_zero]
      intro e _
      simp

end Verif.Pin
