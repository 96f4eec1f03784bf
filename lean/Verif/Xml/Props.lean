import Verif.Xml.Model
/-
Property theorems about XML sections (C22, C23).
-/
namespace Verif.Xml
open List Verif.Pin

/-! ### C22 -/

theorem digit_char (d : Nat) (h : d < 10) : isDigit (Char.ofNat (48 + d)) = true ∧
    (Char.ofNat (48 + d)).toNat - 48 = d ∧ blank (Char.ofNat (48 + d)) = false := by
  have : d = 0 ∨ d = 1 ∨ d = 2 ∨ d = 3 ∨ d = 4 ∨ d = 5 ∨ d = 6 ∨ d = 7 ∨ d = 8 ∨ d = 9 := by omega
  rcases this with rfl | rfl | rfl | rfl | rfl | rfl | rfl | rfl | rfl | rfl <;> decide

theorem toText_spec (n : Nat) : digitsVal (toText n) = n ∧ (∀ c ∈ toText n, isDigit c = true ∧ blank c = false) ∧
    toText n ≠ [] := by
  fun_induction toText n with
  | case1 n h =>
    obtain ⟨h1, h2, h3⟩ := digit_char n h
    refine ⟨?_, ?_, by simp⟩
    · simp [digitsVal, h2]
    · intro c hc; simp at hc; subst hc; exact ⟨h1, h3⟩
  | case2 n h ih =>
    obtain ⟨h1, h2, h3⟩ := digit_char (n % 10) (by omega)
    obtain ⟨i1, i2, i3⟩ := ih
    refine ⟨?_, ?_, by simp⟩
    · unfold digitsVal at i1 ⊢
      rw [foldl_append, i1]
      simp only [foldl_cons, foldl_nil, h2]
      omega
    · intro c hc
      rcases mem_append.1 hc with hc | hc
      · exact i2 c hc
      · simp at hc; subst hc; exact ⟨h1, h3⟩

theorem dropWhile_none {t : Text} {p : Char → Bool} (h : ∀ c ∈ t, p c = false) : t.dropWhile p = t := by
  cases t with
  | nil => rfl
  | cons a t => rw [dropWhile_cons_of_neg]; rw [h a (by simp)]; simp

theorem trim_clean {t : Text} (h : ∀ c ∈ t, blank c = false) : trim t = t := by
  unfold trim
  rw [dropWhile_none h, dropWhile_none (fun c hc => h c (by simpa using hc)), reverse_reverse]

theorem readInt_toText (n : Nat) : readInt (trim (toText n)) = min n INT_MAX := by
  obtain ⟨h1, h2, _⟩ := toText_spec n
  rw [trim_clean (fun c hc => (h2 c hc).2)]
  unfold readInt
  rw [dropWhile_none (fun c hc => (h2 c hc).2)]
  have : (toText n).takeWhile isDigit = toText n := by
    have h3 : ∀ c ∈ toText n, isDigit c = true := fun c hc => (h2 c hc).1
    revert h3
    generalize toText n = t
    intro h3
    induction t with
    | nil => rfl
    | cons a t ih =>
      rw [takeWhile_cons_of_pos (h3 a (by simp)), ih (fun c hc => h3 c (by simp [hc]))]
  simp only [this, h1]
  split <;> omega

theorem trim_one : trim (toText 1) = ['1'] := by
  rw [show toText 1 = ['1'] by rw [toText]; decide]; decide

/-- what comes back, for any settings: the priority is capped at `INT_MAX` and the directory trimmed -/
theorem C22_exact (s : Settings) :
    absorbSection (flushSection s (fun _ => none)) Settings.fresh =
      ⟨min s.priority INT_MAX, s.apply, s.plot,
        if s.plot then (if trim s.out = [] then ['.'] else trim s.out) else Settings.fresh.out⟩ := by
  have hp := readInt_toText s.priority
  have hne := (toText_spec s.priority).2.2
  have h1 := trim_one
  cases ha : s.apply <;> cases hb : s.plot <;>
    simp [absorbSection, flushSection, Section.set, ha, hb, hp, hne, h1, setOutputPlot, readBool, Settings.fresh]
  all_goals first | decide | skip
  all_goals
    split <;> simp_all <;> decide

/-- C22, partial (full statement: for all priorities and directories): settings come back when the
priority is at most `INT_MAX` and the directory is non-empty without blanks at its ends. -/
theorem C22_round_trip_partial (s : Settings) (hp : s.priority ≤ INT_MAX) (ho : trim s.out = s.out) (hn : s.out ≠ []) :
    let s' := absorbSection (flushSection s (fun _ => none)) Settings.fresh
    s'.priority = s.priority ∧ s'.apply = s.apply ∧ s'.plot = s.plot ∧ (s.plot = true → s'.out = s.out) := by
  rw [C22_exact]
  refine ⟨Nat.min_eq_left hp, rfl, rfl, ?_⟩
  intro h
  simp [h, ho, hn]

example : (⟨7, true, true, ['r', 'e', 's']⟩ : Settings).priority ≤ INT_MAX ∧ trim ['r', 'e', 's'] = ['r', 'e', 's'] := by
  decide

/-- C22 is false: a priority above `INT_MAX` (it is an unsigned int) and a directory ending with a blank
do not come back. -/
theorem C22_round_trip_fails :
    (∃ s : Settings, s.priority < 2 ^ 32 ∧
      (absorbSection (flushSection s (fun _ => none)) Settings.fresh).priority ≠ s.priority) ∧
    (∃ s : Settings, s.plot = true ∧
      (absorbSection (flushSection s (fun _ => none)) Settings.fresh).out ≠ s.out) := by
  refine ⟨⟨⟨3000000000, false, false, ['.']⟩, by decide, ?_⟩, ⟨⟨0, false, true, ['d', ' ']⟩, rfl, ?_⟩⟩
  · rw [C22_exact]; decide
  · rw [C22_exact]; decide

/-- C22, reading: an option that is missing leaves its setting as it was, and each option present decides its own
setting alone. -/
theorem C22_absorb (x : Section) (s : Settings) :
    let r := absorbSection x s
    (x "Priority" = none → r.priority = s.priority) ∧
    (∀ t, x "Priority" = some t → r.priority = readInt (trim t)) ∧
    (x "Apply" = none → r.apply = s.apply) ∧ (∀ t, x "Apply" = some t → r.apply = readBool (trim t)) ∧
    (x "PlotInExecution" = none → r.plot = s.plot) ∧
    (∀ t, x "PlotInExecution" = some t → r.plot = readBool (trim t)) ∧
    (x "OutputPlot" = none → r.out = s.out) ∧
    (∀ t, x "OutputPlot" = some t → r.out = if trim t = [] then ['.'] else trim t) := by
  have h1 : readInt (trim []) = 0 := by decide
  have h2 : readBool [] = false := by decide
  unfold absorbSection setOutputPlot
  cases x "Priority" <;> cases x "Apply" <;> cases x "PlotInExecution" <;> cases x "OutputPlot" <;>
    simp only [reduceCtorEq, false_imp_iff, forall_const, true_and, and_true, Option.some.injEq, forall_eq',
      implies_true] <;>
    grind

/-- two options given, two missing -/
example : (absorbSection (fun k => if k = "Apply" then some ['1'] else if k = "OutputPlot" then some [' '] else none)
    ⟨4, false, true, ['d']⟩) = ⟨4, true, true, ['.']⟩ := by decide

/-! ### C23 -/

/-- blocks are uniquely named: one name per block, one block per name, no name with blanks at its ends or
empty -/
structure UniquelyNamed (m : Names) : Prop where
  names : (m.map Prod.fst).Nodup
  blocks : (m.map Prod.snd).Nodup
  clean : ∀ e ∈ m, trim e.1 = e.1

/-- grouping a list by distinct keys is a rearrangement of the elements having one of these keys -/
theorem perm_group {α κ : Type} [DecidableEq κ] (key : α → κ) (xs : List α) : ∀ (l : List κ), l.Nodup →
    (l.flatMap (fun b => xs.filter (fun x => key x == b))).Perm (xs.filter (fun x => decide (key x ∈ l))) := by
  intro l
  induction l with
  | nil => intro _; simp
  | cons b l ih =>
    intro hn
    simp only [nodup_cons] at hn
    rw [flatMap_cons]
    refine (Perm.append_left _ (ih hn.2)).trans ?_
    clear ih
    induction xs with
    | nil => simp
    | cons x xs ihx =>
      by_cases h1 : key x = b
      · have h2 : key x ∉ l := by rw [h1]; exact hn.1
        rw [filter_cons_of_pos (by simpa using h1), filter_cons_of_neg (by simpa using h2),
          filter_cons_of_pos (by simp [h1]), cons_append]
        exact ihx.cons x
      · by_cases h2 : key x ∈ l
        · rw [filter_cons_of_neg (by simpa using h1), filter_cons_of_pos (by simpa using h2),
            filter_cons_of_pos (by simp [h2])]
          exact perm_middle.trans (ihx.cons x)
        · rw [filter_cons_of_neg (by simpa using h1), filter_cons_of_neg (by simpa using h2),
            filter_cons_of_neg (by simp [h1, h2])]
          exact ihx

/-- the section describing a pin -/
def sectOf (m : Names) (p : Pin) : Sect := ⟨nameOf m p.s, p.o, nameOf m p.r, p.i⟩

theorem flush_perm {P : Ports} (hP : P.Ok) {m : Names} (hm : (m.map Prod.snd).Nodup) {n : Net} {pins : List Pin}
    (h : Agrees n pins) (hpo : PortsOk P pins) :
    (flushConnections P m n).Perm ((pins.filter (fun p => decide (p.s ∈ m.map Prod.snd))).map (sectOf m)) := by
  have hport : ∀ b, ((P.outs b).flatMap (fun o => (pins.filter (fun p => p.s == b && p.o == o)))).Perm
      (pins.filter (fun p => p.s == b)) := by
    intro b
    have := perm_group (fun p : Pin => p.o) (pins.filter (fun p => p.s == b)) (P.outs b) (hP.1 b)
    have e1 : (pins.filter (fun p => p.s == b)).filter (fun p => decide (p.o ∈ P.outs b)) = pins.filter (fun p => p.s == b) := by
      rw [filter_eq_self]
      intro p hp
      rw [mem_filter] at hp
      have h1 := (hpo p hp.1).1
      have h2 : p.s = b := by simpa using hp.2
      rw [h2] at h1
      simpa using h1
    rw [e1] at this
    have e2 : (P.outs b).flatMap (fun o => (pins.filter (fun p => p.s == b && p.o == o))) =
        (P.outs b).flatMap (fun o => ((pins.filter (fun p => p.s == b)).filter (fun p => p.o == o))) := by
      congr 1
      funext o
      rw [filter_filter]
      congr 1
      funext p
      exact Bool.and_comm _ _
    rw [e2]; exact this
  have e : flushConnections P m n =
      (m.map Prod.snd).flatMap (fun b => ((P.outs b).flatMap (fun o =>
        (pins.filter (fun p => p.s == b && p.o == o)))).map (sectOf m)) := by
    unfold flushConnections
    rw [flatMap_map]
    congr 1
    funext e
    rw [map_flatMap]
    congr 1
    funext o
    rw [h.out, map_map]
    apply map_congr_left
    intro p hp
    rw [mem_filter] at hp
    have h2 : p.s = e.2 ∧ p.o = o := by simpa using hp.2
    simp [sectOf, h2.1, h2.2]
  rw [e]
  have h1 : ((m.map Prod.snd).flatMap (fun b => ((P.outs b).flatMap (fun o =>
        (pins.filter (fun p => p.s == b && p.o == o)))).map (sectOf m))).Perm
      ((m.map Prod.snd).flatMap (fun b => (pins.filter (fun p => p.s == b)).map (sectOf m))) := by
    generalize m.map Prod.snd = l
    induction l with
    | nil => simp
    | cons b l ih =>
      rw [flatMap_cons, flatMap_cons]
      exact ((hport b).map (sectOf m)).append ih
  refine h1.trans ?_
  rw [← map_flatMap]
  exact (perm_group (fun p : Pin => p.s) pins (m.map Prod.snd) hm).map (sectOf m)

theorem find_reverse_unique {α : Type} (l : List α) (p : α → Bool) (x : α) (hx : x ∈ l) (hp : p x = true)
    (hu : ∀ y ∈ l, p y = true → y = x) : l.find? p = some x := by
  cases h : l.find? p with
  | none => exact absurd hp (by simpa using find?_eq_none.1 h x hx)
  | some y => rw [hu y (mem_of_find?_eq_some h) (find?_some h)]

theorem nameOf_mem {m : Names} (hm : UniquelyNamed m) {t : Text} {b : Obj} (h : (t, b) ∈ m) : nameOf m b = t := by
  unfold nameOf
  rw [find_reverse_unique m.reverse _ (t, b) (by simpa using h) (by simp)]
  · rfl
  · rintro ⟨t', b'⟩ hy hb
    have hb' : b' = b := by simpa using hb
    subst hb'
    have hy' : (t', b') ∈ m := by simpa using hy
    have := hm.blocks
    rw [nodup_iff_pairwise_ne, pairwise_map] at this
    obtain ⟨i, hi, e1⟩ := getElem_of_mem h
    obtain ⟨j, hj, e2⟩ := getElem_of_mem hy'
    rw [pairwise_iff_getElem] at this
    rcases Nat.lt_trichotomy i j with hij | hij | hij
    · exact absurd (by rw [e1, e2]) (this i j hi hj hij)
    · subst hij; rw [← e2, e1]
    · exact absurd (by rw [e1, e2]) (this j i hj hi hij)

theorem lookupObj_mem {m : Names} (hm : UniquelyNamed m) {t : Text} {b : Obj} (h : (t, b) ∈ m) : lookupObj m t = some b := by
  unfold lookupObj
  rw [find_reverse_unique m _ (t, b) h (by simp)]
  · rfl
  · rintro ⟨t', b'⟩ hy hb
    have hb' : t' = t := by simpa using hb
    subst hb'
    have := hm.names
    rw [nodup_iff_pairwise_ne, pairwise_map] at this
    obtain ⟨i, hi, e1⟩ := getElem_of_mem h
    obtain ⟨j, hj, e2⟩ := getElem_of_mem hy
    rw [pairwise_iff_getElem] at this
    rcases Nat.lt_trichotomy i j with hij | hij | hij
    · exact absurd (by rw [e1, e2]) (this i j hi hj hij)
    · subst hij; rw [← e2, e1]
    · exact absurd (by rw [e1, e2]) (this j i hj hi hij)

theorem resolve_sectOf {m : Names} (hm : UniquelyNamed m) {reg : PortId → Bool} {p : Pin}
    (hs : p.s ∈ m.map Prod.snd) (hr : p.r ∈ m.map Prod.snd) (ho : reg p.o = true) (hi : reg p.i = true) :
    resolve m reg (sectOf m p) = some ⟨p.s, p.o, p.r, p.i, false⟩ := by
  obtain ⟨⟨t, b⟩, h1, e1⟩ := mem_map.1 hs
  obtain ⟨⟨t', b'⟩, h2, e2⟩ := mem_map.1 hr
  simp only at e1 e2
  subst e1 e2
  unfold resolve sectOf
  simp only [nameOf_mem hm h1, nameOf_mem hm h2, hm.clean _ h1, hm.clean _ h2, lookupObj_mem hm h1, lookupObj_mem hm h2,
    ho, hi, Bool.and_self, if_true]

/-- the reading loop as a sequence of `addPin` requests, when no block has unbuildable ports -/
theorem absorbLoop_spec (P : Ports) (m : Names) (reg : PortId → Bool) (hb : ∀ e ∈ m, P.canBuild e.2 = true) :
    ∀ (qs : List Sect) (n : Net) (pins : List Pin) (good : Bool), Agrees n pins →
      ∃ n', absorbLoop P m reg n good qs =
        (n', if good = true ∧ (∀ q ∈ qs.filterMap (resolve m reg), Legal P q) then .done else .failed) ∧
        Agrees n' (pins ++ ((qs.filterMap (resolve m reg)).filter (fun q => decide (Legal P q))).map Req.pin) := by
  intro qs
  induction qs with
  | nil =>
    intro n pins good h
    exact ⟨n, by simp [absorbLoop], by simpa using h⟩
  | cons q qs ih =>
    intro n pins good h
    cases hq : resolve m reg q with
    | none =>
      obtain ⟨n', h1, h2⟩ := ih n pins good h
      refine ⟨n', ?_, ?_⟩
      · simp only [absorbLoop, hq, filterMap_cons]
        rw [h1]
      · simpa only [filterMap_cons, hq] using h2
    | some p =>
      have hcb : P.canBuild p.s = true ∧ P.canBuild p.r = true := by
        unfold resolve at hq
        split at hq
        · next s r hs hr =>
          split at hq
          · simp at hq
            subst hq
            unfold lookupObj at hs hr
            rw [Option.map_eq_some_iff] at hs hr
            obtain ⟨e, he, rfl⟩ := hs
            obtain ⟨e', he', rfl⟩ := hr
            exact ⟨hb e (mem_of_find?_eq_some he), hb e' (mem_of_find?_eq_some he')⟩
          · cases hq
        · cases hq
      by_cases hl : Legal P p
      · obtain ⟨n1, a1, a2⟩ := addPin_legal h p hl
        obtain ⟨n', h1, h2⟩ := ih n1 (pins ++ [p.pin]) good a2
        refine ⟨n', ?_, ?_⟩
        · simp only [absorbLoop, hq, filterMap_cons, a1, Bool.and_true]
          rw [h1]
          simp only [forall_mem_cons, hl, true_and]
        · simp only [filterMap_cons, hq]
          rw [filter_cons_of_pos (by simpa using hl)]
          simpa using h2
      · have a1 : addPin P n p.s p.r p.o p.i p.forced = some (n, false) := by
          have := addPin_illegal P n p hl
          rcases this with h | h
          · exfalso
            unfold addPin at h
            rw [hcb.1, hcb.2] at h
            simp only [Bool.and_self, if_true] at h
            repeat' split at h
            all_goals cases h
          · exact h
        obtain ⟨n', h1, h2⟩ := ih n pins false h
        refine ⟨n', ?_, ?_⟩
        · simp only [absorbLoop, hq, filterMap_cons, a1, Bool.and_false]
          rw [h1]
          simp [hl]
        · simp only [filterMap_cons, hq]
          rw [filter_cons_of_neg (by simpa using hl)]
          exact h2

/-- Specification: section `q` asks for the connection `p` between known blocks through registered ports. -/
def Asks (m : Names) (reg : PortId → Bool) (q : Sect) (p : Req) : Prop :=
  (trim q.sender, p.s) ∈ m ∧ (trim q.receiver, p.r) ∈ m ∧ reg p.o = true ∧ reg p.i = true ∧
  p.o = q.senderPort ∧ p.i = q.receiverPort ∧ p.forced = false

theorem lookupObj_iff {m : Names} (hm : (m.map Prod.fst).Nodup) (t : Text) (b : Obj) :
    lookupObj m t = some b ↔ (t, b) ∈ m := by
  unfold lookupObj
  induction m with
  | nil => simp
  | cons e m ih =>
    rw [map_cons, nodup_cons] at hm
    rw [find?_cons]
    by_cases h : e.1 = t
    · subst h
      simp only [BEq.rfl, Option.map_some, Option.some.injEq, mem_cons]
      constructor
      · intro hb; left; rw [← hb]
      · rintro (hb | hb)
        · rw [← hb]
        · exact absurd (mem_map.2 ⟨_, hb, rfl⟩) hm.1
    · rw [beq_eq_false_iff_ne.2 h]
      simp only [ih hm.2, mem_cons]
      constructor
      · exact .inr
      · rintro (hb | hb)
        · exact absurd (congrArg Prod.fst hb).symm h
        · exact hb

/-- C23, which sections count when every block name is listed once: `C23_absorb` speaks of exactly the sections asking
for a connection in the sense of `Asks`. -/
theorem C23_resolve {m : Names} (hm : (m.map Prod.fst).Nodup) (reg : PortId → Bool) (q : Sect) (p : Req) :
    resolve m reg q = some p ↔ Asks m reg q p := by
  obtain ⟨s, o, r, i, f⟩ := p
  unfold resolve Asks
  cases hs : lookupObj m (trim q.sender) with
  | none =>
    simp only [reduceCtorEq, false_iff]
    rintro ⟨h, _⟩
    rw [← lookupObj_iff hm, hs] at h
    cases h
  | some s' =>
    have a := fun b => lookupObj_iff hm (trim q.sender) b
    have a' := fun b => lookupObj_iff hm (trim q.receiver) b
    simp only [← a, ← a', hs]
    cases hr : lookupObj m (trim q.receiver) with
    | none => simp
    | some r' =>
      simp only [Option.some.injEq, Bool.and_eq_true, Option.ite_none_right_eq_some, Req.mk.injEq]
      constructor
      · rintro ⟨⟨h1, h2⟩, h3, h4, h5, h6, h7⟩
        subst h3 h4 h5 h6 h7
        exact ⟨rfl, rfl, h1, h2, rfl, rfl, rfl⟩
      · rintro ⟨h1, h2, h3, h4, h5, h6, h7⟩
        subst h1 h2 h5 h6 h7
        exact ⟨⟨h3, h4⟩, rfl, rfl, rfl, rfl, rfl⟩

example : ∃ m : Names, (m.map Prod.fst).Nodup ∧
    Asks m (fun _ => true) ⟨[' ', 'a'], 3, ['b'], 4⟩ ⟨7, 3, 8, 4, false⟩ :=
  ⟨[(['a'], 7), (['b'], 8)], by decide, by decide, by decide, rfl, rfl, rfl, rfl, rfl⟩

/-- C23, reading: exactly the sections that resolve (known blocks, registered ports) and ask for a legal
connection are connected, in reading order; and reading throws exactly when some section that resolves
asks for an illegal one. -/
theorem C23_absorb (P : Ports) (m : Names) (reg : PortId → Bool) (hb : ∀ e ∈ m, P.canBuild e.2 = true)
    (n : Net) (pins : List Pin) (h : Agrees n pins) (qs : List Sect) :
    Agrees (absorbConnections P m reg n qs).1
      (pins ++ ((qs.filterMap (resolve m reg)).filter (fun q => decide (Legal P q))).map Req.pin) ∧
    ((absorbConnections P m reg n qs).2 ≠ .done ↔ ∃ q ∈ qs, ∃ p, resolve m reg q = some p ∧ ¬ Legal P p) := by
  obtain ⟨n', h1, h2⟩ := absorbLoop_spec P m reg hb qs n pins true h
  have e : absorbConnections P m reg n qs = absorbLoop P m reg n true qs := by
    unfold absorbConnections
    split
    · next e => subst e; simp [absorbLoop]
    · rfl
  rw [e, h1]
  refine ⟨h2, ?_⟩
  by_cases hc : ∀ q ∈ qs.filterMap (resolve m reg), Legal P q
  · rw [if_pos ⟨rfl, hc⟩]
    constructor
    · intro hne; exact absurd rfl hne
    · rintro ⟨q, hq, p, hp, hl⟩
      exact absurd (hc p (mem_filterMap.2 ⟨q, hq, hp⟩)) hl
  · rw [if_neg (fun hh => hc hh.2)]
    constructor
    · intro _
      apply Classical.byContradiction
      intro hno
      apply hc
      intro p hp
      obtain ⟨q, hq, hqp⟩ := mem_filterMap.1 hp
      exact Classical.byContradiction fun hl => hno ⟨q, hq, p, hqp, hl⟩
    · intro _ hne; cases hne

/-- C23, partial (full statement: for every network): when the blocks are uniquely named, the ports are
registered and the connections respect the port types (none was forced), writing all connections and
reading the sections back, in whatever order, into blocks without connections succeeds and gives the same
connections up to their order. -/
theorem C23_round_trip_partial {P : Ports} (hP : P.Ok) {m : Names} (hm : UniquelyNamed m) {reg : PortId → Bool}
    (hb : ∀ e ∈ m, P.canBuild e.2 = true) {n : Net} {pins : List Pin} (h : Agrees n pins)
    (hl : ∀ p ∈ pins, Legal P ⟨p.s, p.o, p.r, p.i, false⟩)
    (hn : ∀ p ∈ pins, p.s ∈ m.map Prod.snd ∧ p.r ∈ m.map Prod.snd ∧ reg p.o = true ∧ reg p.i = true)
    (qs : List Sect) (hq : qs.Perm (flushConnections P m n)) :
    (absorbConnections P m reg Net.init qs).2 = .done ∧
    ∃ pins', Agrees (absorbConnections P m reg Net.init qs).1 pins' ∧ pins'.Perm pins := by
  have hpo : PortsOk P pins := fun p hp => ⟨(hl p hp).2.2.2.2.1, (hl p hp).2.2.2.2.2.1⟩
  have hfl := flush_perm hP hm.blocks h hpo
  have e1 : pins.filter (fun p => decide (p.s ∈ m.map Prod.snd)) = pins := by
    rw [filter_eq_self]; intro p hp; simpa using (hn p hp).1
  rw [e1] at hfl
  have hperm := hq.trans hfl
  obtain ⟨a1, a2⟩ := C23_absorb P m reg hb Net.init [] init_agrees qs
  have hres : (qs.filterMap (resolve m reg)).Perm (pins.map (fun p => (⟨p.s, p.o, p.r, p.i, false⟩ : Req))) := by
    refine (hperm.filterMap (resolve m reg)).trans ?_
    rw [filterMap_map]
    have : ∀ l : List Pin, (∀ p ∈ l, p ∈ pins) →
        l.filterMap (resolve m reg ∘ sectOf m) = l.map (fun p => (⟨p.s, p.o, p.r, p.i, false⟩ : Req)) := by
      intro l
      induction l with
      | nil => intro _; rfl
      | cons p l ih =>
        intro hlp
        obtain ⟨b1, b2, b3, b4⟩ := hn p (hlp p (by simp))
        rw [filterMap_cons_some (b := ⟨p.s, p.o, p.r, p.i, false⟩) (by
          simp only [Function.comp]; exact resolve_sectOf hm b1 b2 b3 b4), map_cons,
          ih (fun q hq => hlp q (by simp [hq]))]
    rw [this pins (fun _ h => h)]
  refine ⟨?_, _, a1, ?_⟩
  · apply Classical.byContradiction
    intro hne
    obtain ⟨q, hq, p, hp, hnl⟩ := a2.1 hne
    have : p ∈ qs.filterMap (resolve m reg) := mem_filterMap.2 ⟨q, hq, hp⟩
    have := hres.subset this
    obtain ⟨x, hx, rfl⟩ := mem_map.1 this
    exact hnl (hl x hx)
  · rw [nil_append]
    have hall : (qs.filterMap (resolve m reg)).filter (fun q => decide (Legal P q)) = qs.filterMap (resolve m reg) := by
      rw [filter_eq_self]
      intro q hq
      obtain ⟨x, hx, rfl⟩ := mem_map.1 (hres.subset hq)
      simpa using hl x hx
    rw [hall]
    have := hres.map Req.pin
    rw [map_map] at this
    have e : (Req.pin ∘ fun p : Pin => (⟨p.s, p.o, p.r, p.i, false⟩ : Req)) = id := by funext p; rfl
    rw [e, map_id] at this
    exact this

/-- every block has output and input ports 0,1,2; input port 2 has another type -/
def xmlPorts : Ports where
  canBuild _ := true
  dir _ := .both
  outs _ := [0, 1, 2]
  ins _ := [0, 1, 2]
  outType _ _ := (0, 0)
  inType _ i := if i = 2 then (0, 1) else (0, 0)

def xmlNames : Names := [(['a'], 0), (['b'], 1)]

example : xmlPorts.Ok ∧ UniquelyNamed xmlNames ∧
    Agrees (addPins xmlPorts Net.init [⟨0, 0, 1, 0, false⟩, ⟨0, 0, 1, 1, false⟩]) [⟨0, 0, 1, 0⟩, ⟨0, 0, 1, 1⟩] ∧
    (∀ p ∈ ([⟨0, 0, 1, 0⟩, ⟨0, 0, 1, 1⟩] : List Pin), Legal xmlPorts ⟨p.s, p.o, p.r, p.i, false⟩) ∧
    flushConnections xmlPorts xmlNames (addPins xmlPorts Net.init [⟨0, 0, 1, 0, false⟩, ⟨0, 0, 1, 1, false⟩]) =
      [⟨['a'], 0, ['b'], 0⟩, ⟨['a'], 0, ['b'], 1⟩] := by
  refine ⟨?_, ⟨by decide, by decide, by decide⟩, ?_, by decide, by decide⟩
  · constructor <;> intro _ <;> simp [xmlPorts]
  · have := addPins_agrees xmlPorts [⟨0, 0, 1, 0, false⟩, ⟨0, 0, 1, 1, false⟩] Net.init [] init_agrees
    exact this

/-- C23 is false (1): a forced connection between ports of different types is written but refused when
read back, and reading throws. -/
theorem C23_forced_connection_fails :
    let n := addPins xmlPorts Net.init [⟨0, 0, 1, 2, true⟩]
    let r := absorbConnections xmlPorts xmlNames (fun _ => true) Net.init (flushConnections xmlPorts xmlNames n)
    n.out 0 0 = [(1, 2)] ∧ r.1.out 0 0 = [] ∧ r.2 = .failed := by decide

/-- C23 (2): a block listed under two names has its connections doubled. -/
theorem C23_two_names_fails :
    let m : Names := [(['a'], 0), (['c'], 0), (['b'], 1)]
    let n := addPins xmlPorts Net.init [⟨0, 0, 1, 0, false⟩]
    let r := absorbConnections xmlPorts m (fun _ => true) Net.init (flushConnections xmlPorts m n)
    n.out 0 0 = [(1, 0)] ∧ r.1.out 0 0 = [(1, 0), (1, 0)] := by decide

end Verif.Xml
