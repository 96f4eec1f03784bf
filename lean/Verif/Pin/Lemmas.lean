import Verif.Pin.Spec
/-
Auxiliary lemmas for the connection model.
-/
namespace Verif.Pin
open List

/-! ### stale erasure -/

theorem eraseStale_append {α} (a b : List Bool) : ∀ (j : Nat) (cur : List α),
    eraseStale j (a ++ b) cur = eraseStale (j + a.length) b (eraseStale j a cur) := by
  induction a with
  | nil => intro j cur; simp [eraseStale]
  | cons h t ih =>
    intro j cur
    cases h <;> simp [eraseStale, ih, Nat.add_comm, Nat.add_left_comm]

theorem eraseStale_false {α} (hs : List Bool) : ∀ (j : Nat) (cur : List α),
    (∀ h ∈ hs, h = false) → eraseStale j hs cur = cur := by
  induction hs with
  | nil => intros; simp [eraseStale]
  | cons h t ih =>
    intro j cur hall
    have : h = false := hall h (by simp)
    subst this
    simp only [eraseStale]
    exact ih _ _ (fun x hx => hall x (by simp [hx]))

theorem eraseStale_below {α} (hs : List Bool) : ∀ (j k : Nat) (cur : List α), k < j →
    (eraseStale j hs cur)[k]? = cur[k]? := by
  induction hs with
  | nil => intros; simp [eraseStale]
  | cons h t ih =>
    intro j k cur hk
    cases h
    · simp only [eraseStale]; exact ih _ _ _ (by omega)
    · simp only [eraseStale]
      rw [ih _ _ _ (by omega), getElem?_eraseIdx_of_lt hk]

theorem split_first {α} (p : α → Bool) : ∀ l : List α, 0 < l.countP p →
    ∃ pre x post, l = pre ++ x :: post ∧ p x = true ∧ ∀ y ∈ pre, p y = false := by
  intro l
  induction l with
  | nil => intro h; simp at h
  | cons a t ih =>
    intro h
    cases hp : p a with
    | true => exact ⟨[], a, t, rfl, hp, by simp⟩
    | false =>
      rw [countP_cons_of_neg (by simp [hp])] at h
      obtain ⟨pre, x, post, h1, h2, h3⟩ := ih h
      refine ⟨a :: pre, x, post, by rw [h1]; rfl, h2, ?_⟩
      intro y hy
      rcases mem_cons.1 hy with rfl | hy
      · exact hp
      · exact h3 y hy

theorem map_all_false {α} (p : α → Bool) (l : List α) (h : ∀ y ∈ l, p y = false) :
    ∀ b ∈ l.map p, b = false := by
  intro b hb
  obtain ⟨y, hy, rfl⟩ := mem_map.1 hb
  exact h y hy

theorem filter_none {α} (p : α → Bool) (l : List α) (h : ∀ y ∈ l, p y = false) :
    l.filter (fun x => !p x) = l := by
  rw [filter_eq_self]
  intro y hy
  simp [h y hy]

/-- with at most one position to remove, the loop does what it should -/
theorem dropHits_simple {α} (p : α → Bool) (l : List α) (h : l.countP p ≤ 1) :
    dropHits p l = l.filter (fun x => !p x) := by
  unfold dropHits
  rcases Nat.eq_zero_or_pos (l.countP p) with h0 | h0
  · have hall : ∀ y ∈ l, p y = false := by
      intro y hy
      have := countP_eq_zero.1 h0 y hy
      simpa using this
    rw [eraseStale_false _ _ _ (map_all_false p l hall), filter_none p l hall]
  · obtain ⟨pre, x, post, rfl, hx, hpre⟩ := split_first p l h0
    have hpost : ∀ y ∈ post, p y = false := by
      rw [countP_append, countP_cons_of_pos hx] at h
      have h2 : post.countP p = 0 := by omega
      intro y hy
      simpa using countP_eq_zero.1 h2 y hy
    rw [map_append, map_cons, eraseStale_append, eraseStale_false _ _ _ (map_all_false p pre hpre), hx]
    simp only [eraseStale]
    rw [eraseStale_false _ _ _ (map_all_false p post hpost)]
    rw [length_map, Nat.zero_add, eraseIdx_append_of_length_le (Nat.le_refl _)]
    simp only [Nat.sub_self, eraseIdx_cons_zero, filter_append]
    rw [filter_cons_of_neg (by simp [hx]), filter_none p pre hpre, filter_none p post hpost]

/-- with two or more positions to remove, an entry that should be removed survives -/
theorem dropHits_multi {α} (p : α → Bool) (l : List α) (h : 2 ≤ l.countP p) :
    ∃ y ∈ dropHits p l, p y = true := by
  unfold dropHits
  obtain ⟨pre, x, post, rfl, hx, hpre⟩ := split_first p l (by omega)
  have hpc : pre.countP p = 0 := countP_eq_zero.2 (fun y hy => by simp [hpre y hy])
  rw [countP_append, countP_cons_of_pos hx, hpc] at h
  obtain ⟨mid, y, post', rfl, hy, hmid⟩ := split_first p post (by omega)
  refine ⟨y, ?_, hy⟩
  have e : (pre ++ x :: (mid ++ y :: post')).map p =
      pre.map p ++ ([true] ++ (mid.map p ++ ([true] ++ post'.map p))) := by simp [hx, hy]
  rw [e, eraseStale_append, eraseStale_false _ _ _ (map_all_false p pre hpre), eraseStale_append]
  simp only [eraseStale, length_map, Nat.zero_add]
  rw [eraseIdx_append_of_length_le (Nat.le_refl _)]
  simp only [Nat.sub_self, eraseIdx_cons_zero]
  rw [eraseStale_append, eraseStale_false _ _ _ (map_all_false p mid hmid), eraseStale_append]
  simp only [eraseStale, length_map, length_cons, length_nil, Nat.zero_add]
  have hk : (eraseStale (pre.length + 1 + mid.length + 1) (post'.map p)
      ((pre ++ (mid ++ y :: post')).eraseIdx (pre.length + 1 + mid.length)))[pre.length + mid.length]? = some y := by
    rw [eraseStale_below _ _ _ _ (by omega), getElem?_eraseIdx_of_lt (by omega),
      getElem?_append_right (by omega), Nat.add_sub_cancel_left, getElem?_append_right (by omega)]
    simp
  exact mem_of_getElem? hk

theorem dropHits_iff {α} (p : α → Bool) (l : List α) :
    dropHits p l = l.filter (fun x => !p x) ↔ l.countP p ≤ 1 := by
  constructor
  · intro h
    rcases Nat.lt_or_ge (l.countP p) 2 with h2 | h2
    · omega
    · obtain ⟨y, hy, hpy⟩ := dropHits_multi p l h2
      rw [h, mem_filter] at hy
      simp [hpy] at hy
  · exact dropHits_simple p l

/-! ### counters -/

namespace Counter

theorem get_nil (k : Obj) : get [] k = 0 := rfl

theorem get_cons (e : Obj × Nat) (c : Counter) (k : Obj) :
    get (e :: c) k = if e.1 = k then e.2 else get c k := by
  unfold get
  rw [find?_cons]
  by_cases h : e.1 = k
  · simp [h]
  · have : (e.1 == k) = false := by simpa using h
    simp [h, this]

theorem get_append (c d : Counter) (k : Obj) (h : k ∉ keys c) : get (c ++ d) k = get d k := by
  induction c with
  | nil => rfl
  | cons e t ih =>
    simp only [keys, map_cons, mem_cons, not_or] at h
    rw [cons_append, get_cons, if_neg (Ne.symm h.1)]
    exact ih h.2

theorem get_append_left (c d : Counter) (k : Obj) (h : k ∈ keys c) : get (c ++ d) k = get c k := by
  induction c with
  | nil => simp [keys] at h
  | cons e t ih =>
    rw [cons_append, get_cons, get_cons]
    split
    · rfl
    · next hne =>
      simp only [keys, map_cons, mem_cons] at h
      rcases h with h | h
      · exact absurd h.symm hne
      · exact ih h

theorem get_not_mem (c : Counter) (k : Obj) (h : k ∉ keys c) : get c k = 0 := by
  have := get_append c [] k h
  rwa [append_nil] at this

theorem mem_of_get (c : Counter) (k : Obj) (h : 0 < get c k) : k ∈ keys c := by
  by_cases hk : k ∈ keys c
  · exact hk
  · rw [get_not_mem c k hk] at h; omega

theorem get_pos (c : Counter) (hc : c.Ok) (k : Obj) (h : k ∈ keys c) : 0 < get c k := by
  induction c with
  | nil => simp [keys] at h
  | cons e t ih =>
    rw [get_cons]
    split
    · exact hc.2 e (by simp)
    · next hne =>
      simp only [keys, map_cons, mem_cons] at h
      rcases h with h | h
      · exact absurd h.symm hne
      · refine ih ⟨?_, fun x hx => hc.2 x (by simp [hx])⟩ h
        have := hc.1
        simp only [keys, map_cons, nodup_cons] at this
        exact this.2

theorem mem_keys_iff (c : Counter) (hc : c.Ok) (k : Obj) : k ∈ keys c ↔ 0 < get c k :=
  ⟨get_pos c hc k, mem_of_get c k⟩

theorem keys_map (c : Counter) (f : Obj × Nat → Nat) (k : Obj) :
    keys (c.map (fun e => if e.1 = k then (e.1, f e) else e)) = keys c := by
  unfold keys
  rw [map_map]
  apply map_congr_left
  intro e _
  simp only [Function.comp]
  split <;> rfl

theorem get_map (c : Counter) (f : Obj × Nat → Nat) (k j : Obj) :
    get (c.map (fun e => if e.1 = k then (e.1, f e) else e)) j =
      if j = k then (((c.find? (fun e => e.1 == j)).map f).getD 0) else get c j := by
  induction c with
  | nil => simp [get]
  | cons e t ih =>
    rw [map_cons, get_cons, ih, get_cons, find?_cons]
    by_cases hjk : j = k
    · subst hjk
      by_cases he : e.1 = j
      · simp [he]
      · have : (e.1 == j) = false := by simpa using he
        simp [he, this]
    · by_cases he : e.1 = j
      · have : e.1 ≠ k := fun h => hjk (he ▸ h)
        simp [he, hjk]
      · simp only [if_neg hjk]
        by_cases hek : e.1 = k
        · simp [hek, Ne.symm hjk]
        · simp [hek, he]

theorem get_incr (c : Counter) (k j : Obj) :
    get (incr c k) j = get c j + if j = k then 1 else 0 := by
  unfold incr
  split
  · next hk =>
    rw [get_map]
    by_cases hjk : j = k
    · subst hjk
      simp only [if_true]
      have : (c.find? (fun e => e.1 == j)).isSome := by
        rw [find?_isSome]
        obtain ⟨e, he, hej⟩ := mem_map.1 hk
        exact ⟨e, he, by simp [hej]⟩
      obtain ⟨e, he⟩ := Option.isSome_iff_exists.1 this
      simp [get, he]
    · simp [hjk]
  · next hk =>
    by_cases hjk : j = k
    · subst hjk
      rw [get_append c _ j hk, get_not_mem c j hk, get_cons]
      simp
    · by_cases hj : j ∈ keys c
      · rw [get_append_left c _ j hj]; simp [hjk]
      · rw [get_append c _ j hj, get_not_mem c j hj, get_cons]
        simp [hjk, Ne.symm hjk, get_nil]

theorem ok_incr (c : Counter) (k : Obj) (hc : c.Ok) : (incr c k).Ok := by
  unfold incr
  split
  · refine ⟨by rw [keys_map]; exact hc.1, ?_⟩
    intro e he
    obtain ⟨x, hx, rfl⟩ := mem_map.1 he
    split
    · exact Nat.succ_pos _
    · exact hc.2 x hx
  · next hk =>
    refine ⟨?_, ?_⟩
    · unfold keys
      rw [map_append, nodup_append]
      refine ⟨hc.1, by simp, ?_⟩
      intro a ha b hb hab
      simp at hb
      subst hb hab
      exact hk ha
    · intro e he
      rcases mem_append.1 he with he | he
      · exact hc.2 e he
      · simp at he; subst he; exact Nat.one_pos

theorem ok_decr (c : Counter) (k : Obj) (hc : c.Ok) : (decr c k).Ok := by
  unfold decr
  refine ⟨?_, ?_⟩
  · have : (keys (c.map (fun e => if e.1 = k then (e.1, e.2 - 1) else e))).Nodup := by
      rw [keys_map c (fun e => e.2 - 1)]; exact hc.1
    exact this.sublist (filter_sublist.map _)
  · intro e he
    obtain ⟨h1, h2⟩ := mem_filter.1 he
    obtain ⟨x, hx, rfl⟩ := mem_map.1 h1
    split
    · next hk =>
      simp [hk] at h2
      have := hc.2 x hx
      rcases h2 with h2
      simp only []
      omega
    · exact hc.2 x hx

theorem get_decr (c : Counter) (hc : c.Ok) (k j : Obj) :
    get (decr c k) j = get c j - if j = k then 1 else 0 := by
  induction c with
  | nil => simp [decr, get]
  | cons e t ih =>
    have ht : Ok t := by
      refine ⟨?_, fun x hx => hc.2 x (by simp [hx])⟩
      have := hc.1
      simp only [keys, map_cons, nodup_cons] at this
      exact this.2
    have hnot : e.1 ∉ keys t := by
      have := hc.1
      simp only [keys, map_cons, nodup_cons] at this
      exact this.1
    have ih := ih ht
    unfold decr at ih ⊢
    rw [map_cons, get_cons]
    by_cases hek : e.1 = k
    · rw [if_pos hek]
      by_cases h1 : e.2 - 1 < 1
      · rw [filter_cons_of_neg (by simp [hek]; omega), ih]
        by_cases hj : e.1 = j
        · rw [if_pos hj]
          subst hj
          rw [get_not_mem t _ hnot]
          simp only [hek, if_true]; omega
        · rw [if_neg hj]
      · rw [filter_cons_of_pos (by simp [hek]; omega), get_cons]
        by_cases hj : e.1 = j
        · simp [hj, hek.symm.trans hj]
        · simp only [if_neg hj, ih]
    · rw [if_neg hek, filter_cons_of_pos (by simp [hek]), get_cons, ih]
      by_cases hj : e.1 = j
      · simp only [if_pos hj]
        rw [if_neg (by rw [← hj]; exact hek)]; rfl
      · simp only [if_neg hj]

theorem ok_decrN (n : Nat) : ∀ (c : Counter) (k : Obj), c.Ok → (decrN c k n).Ok := by
  induction n with
  | zero => intro c k h; exact h
  | succ n ih => intro c k h; exact ih _ k (ok_decr c k h)

theorem get_decrN (n : Nat) : ∀ (c : Counter) (k j : Obj), c.Ok →
    get (decrN c k n) j = get c j - if j = k then n else 0 := by
  induction n with
  | zero => intro c k j h; simp [decrN]
  | succ n ih =>
    intro c k j h
    rw [decrN, ih _ _ _ (ok_decr c k h), get_decr c h]
    split <;> omega

theorem ok_nil : Ok [] := by constructor <;> simp [keys]

end Counter

theorem init_agrees : Agrees Net.init [] := by
  constructor <;> simp [Net.init, Counter.get_nil, Counter.ok_nil]

theorem compatible_iff (P : Ports) (s r : Obj) (o i : PortId) :
    compatible P s r o i = true ↔ P.outType s o = P.inType r i := by
  simp [compatible, Prod.ext_iff]

/-- a legal request is accepted and extends the network by its pin -/
theorem addPin_legal {P : Ports} {n : Net} {pins : List Pin} (h : Agrees n pins) (q : Req)
    (hq : Legal P q) : ∃ n', addPin P n q.s q.r q.o q.i q.forced = some (n', true) ∧
      Agrees n' (pins ++ [q.pin]) := by
  obtain ⟨h1, h2, h3, h4, h5, h6, h7⟩ := hq
  unfold addPin
  rw [if_pos (by simp [h1, h2]), if_pos ⟨h3, h4⟩, if_pos ⟨h5, h6⟩,
    if_pos (by rw [Bool.or_eq_true, compatible_iff]; exact h7)]
  refine ⟨_, rfl, ?_⟩
  simp only [addPinOut, addPinIn, h5, h6, if_true]
  constructor
  · intro s o
    simp only [upd2, filter_append, map_append]
    split
    · next hso =>
      obtain ⟨rfl, rfl⟩ := hso
      rw [h.out]
      simp [Req.pin]
    · next hso =>
      rw [h.out]
      have : (q.s == s && q.o == o) = false := by
        simp only [Bool.and_eq_false_iff, beq_eq_false_iff_ne]
        by_cases hs : q.s = s
        · right; intro ho; exact hso ⟨hs.symm, ho.symm⟩
        · left; exact hs
      simp [Req.pin, this]
  · intro r i
    simp only [upd2, filter_append, map_append]
    split
    · next hso =>
      obtain ⟨rfl, rfl⟩ := hso
      rw [h.inn]
      simp [Req.pin]
    · next hso =>
      rw [h.inn]
      have : (q.r == r && q.i == i) = false := by
        simp only [Bool.and_eq_false_iff, beq_eq_false_iff_ne]
        by_cases hs : q.r = r
        · right; intro ho; exact hso ⟨hs.symm, ho.symm⟩
        · left; exact hs
      simp [Req.pin, this]
  · intro s r
    simp only [upd, countP_append]
    split
    · next hs =>
      subst hs
      rw [Counter.get_incr, h.child]
      by_cases hr : r = q.r
      · subst hr; simp [Req.pin]
      · simp [Req.pin, hr, Ne.symm hr]
    · next hs => rw [h.child]; simp [Req.pin, Ne.symm hs]
  · intro r s
    simp only [upd, countP_append]
    split
    · next hr =>
      subst hr
      rw [Counter.get_incr, h.parent]
      by_cases hs : s = q.s
      · subst hs; simp [Req.pin]
      · simp [Req.pin, hs, Ne.symm hs]
    · next hr => rw [h.parent]; simp [Req.pin, Ne.symm hr]
  · intro s
    simp only [upd]
    split
    · exact Counter.ok_incr _ _ (h.childOk _)
    · exact h.childOk _
  · intro r
    simp only [upd]
    split
    · exact Counter.ok_incr _ _ (h.parentOk _)
    · exact h.parentOk _

theorem addPin_illegal (P : Ports) (n : Net) (q : Req) (hq : ¬ Legal P q) :
    addPin P n q.s q.r q.o q.i q.forced = none ∨
    addPin P n q.s q.r q.o q.i q.forced = some (n, false) := by
  unfold addPin
  split
  · next h1 =>
    split
    · next h2 =>
      split
      · next h3 =>
        split
        · next h4 =>
          exfalso
          apply hq
          rw [Bool.or_eq_true, compatible_iff] at h4
          simp only [Bool.and_eq_true] at h1
          exact ⟨h1.1, h1.2, h2.1, h2.2, h3.1, h3.2, h4⟩
        · exact Or.inr rfl
      · exact Or.inr rfl
    · exact Or.inr rfl
  · exact Or.inl rfl

theorem addPins_agrees (P : Ports) : ∀ (qs : List Req) (n : Net) (pins : List Pin), Agrees n pins →
    Agrees (addPins P n qs) (pins ++ (qs.filter (fun q => decide (Legal P q))).map Req.pin) := by
  intro qs
  induction qs with
  | nil => intro n pins h; simpa [addPins] using h
  | cons q qs ih =>
    intro n pins h
    by_cases hq : Legal P q
    · obtain ⟨n', h1, h2⟩ := addPin_legal h q hq
      simp only [addPins, h1]
      rw [filter_cons_of_pos (by simp [hq])]
      have := ih n' _ h2
      rwa [append_assoc] at this
    · rw [filter_cons_of_neg (by simp [hq])]
      rcases addPin_illegal P n q hq with h1 | h1
      · simp only [addPins, h1]; exact ih n pins h
      · simp only [addPins, h1]; exact ih n pins h

/-! ### removal -/

theorem foldl_cutOut (s r : Obj) : ∀ (os : List PortId) (n : Net), os.Nodup → (∀ b, (n.child b).Ok) →
    let m := os.foldl (cutOut s r) n
    (∀ a p, m.out a p = if a = s ∧ p ∈ os then dropHits (fun e => e.1 == r) (n.out a p) else n.out a p) ∧
    m.inn = n.inn ∧ m.parent = n.parent ∧ (∀ b, (m.child b).Ok) ∧
    (∀ a b, (m.child a).get b = (n.child a).get b -
      if a = s ∧ b = r then (os.map (fun o => (n.out s o).countP (fun e => e.1 == r))).sum else 0) := by
  intro os
  induction os with
  | nil => intro n _ hok; simp; exact hok
  | cons o os ih =>
    intro n hnd hok
    rw [nodup_cons] at hnd
    have hok' : ∀ b, ((cutOut s r n o).child b).Ok := by
      intro b
      simp only [cutOut, upd]
      split
      · exact Counter.ok_decrN _ _ _ (hok _)
      · exact hok b
    obtain ⟨h1, h2, h3, h4, h5⟩ := ih (cutOut s r n o) hnd.2 hok'
    simp only [foldl_cons]
    refine ⟨?_, ?_, ?_, h4, ?_⟩
    · intro a p
      rw [h1]
      simp only [cutOut, upd2, mem_cons]
      by_cases ha : a = s
      · subst ha
        by_cases hp : p = o
        · subst hp
          simp [hnd.1]
        · simp [hp]
      · simp [ha]
    · rw [h2]; rfl
    · rw [h3]; rfl
    · intro a b
      rw [h5]
      have hsum : (os.map (fun o' => ((cutOut s r n o).out s o').countP (fun e => e.1 == r))).sum =
          (os.map (fun o' => (n.out s o').countP (fun e => e.1 == r))).sum := by
        congr 1
        apply map_congr_left
        intro o' ho'
        simp only [cutOut, upd2]
        rw [if_neg]
        rintro ⟨_, rfl⟩
        exact hnd.1 ho'
      rw [hsum]
      simp only [cutOut, upd]
      by_cases ha : a = s
      · subst ha
        simp only [if_true, Counter.get_decrN _ _ _ _ (hok _), true_and]
        by_cases hb : b = r
        · simp [hb]; omega
        · simp [hb]
      · simp [ha]

theorem foldl_cutIn (s r : Obj) : ∀ (is : List PortId) (n : Net), is.Nodup → (∀ b, (n.parent b).Ok) →
    let m := is.foldl (cutIn s r) n
    (∀ a p, m.inn a p = if a = r ∧ p ∈ is then dropHits (fun e => e == s) (n.inn a p) else n.inn a p) ∧
    m.out = n.out ∧ m.child = n.child ∧ (∀ b, (m.parent b).Ok) ∧
    (∀ a b, (m.parent a).get b = (n.parent a).get b -
      if a = r ∧ b = s then (is.map (fun i => (n.inn r i).countP (fun e => e == s))).sum else 0) := by
  intro os
  induction os with
  | nil => intro n _ hok; simp; exact hok
  | cons o os ih =>
    intro n hnd hok
    rw [nodup_cons] at hnd
    have hok' : ∀ b, ((cutIn s r n o).parent b).Ok := by
      intro b
      simp only [cutIn, upd]
      split
      · exact Counter.ok_decrN _ _ _ (hok _)
      · exact hok b
    obtain ⟨h1, h2, h3, h4, h5⟩ := ih (cutIn s r n o) hnd.2 hok'
    simp only [foldl_cons]
    refine ⟨?_, ?_, ?_, h4, ?_⟩
    · intro a p
      rw [h1]
      simp only [cutIn, upd2, mem_cons]
      by_cases ha : a = r
      · subst ha
        by_cases hp : p = o
        · subst hp
          simp [hnd.1]
        · simp [hp]
      · simp [ha]
    · rw [h2]; rfl
    · rw [h3]; rfl
    · intro a b
      rw [h5]
      have hsum : (os.map (fun o' => ((cutIn s r n o).inn r o').countP (fun e => e == s))).sum =
          (os.map (fun o' => (n.inn r o').countP (fun e => e == s))).sum := by
        congr 1
        apply map_congr_left
        intro o' ho'
        simp only [cutIn, upd2]
        rw [if_neg]
        rintro ⟨_, rfl⟩
        exact hnd.1 ho'
      rw [hsum]
      simp only [cutIn, upd]
      by_cases ha : a = r
      · subst ha
        simp only [if_true, Counter.get_decrN _ _ _ _ (hok _), true_and]
        by_cases hb : b = s
        · simp [hb]; omega
        · simp [hb]
      · simp [ha]

theorem sum_eq_zero_of {l : List Nat} (h : ∀ x ∈ l, x = 0) : l.sum = 0 := by
  induction l with
  | nil => rfl
  | cons a t ih =>
    rw [sum_cons, h a (by simp), ih (fun x hx => h x (by simp [hx]))]

/-- counting by classes -/
theorem sum_countP_classes {α} (cls : α → PortId) (p : α → Bool) (l : List α) :
    ∀ (ks : List PortId), ks.Nodup → (∀ x ∈ l, p x = true → cls x ∈ ks) →
    (ks.map (fun k => l.countP (fun x => p x && cls x == k))).sum = l.countP p := by
  induction l with
  | nil =>
    intro ks _ _
    simp only [countP_nil]
    exact sum_eq_zero_of (fun x hx => by obtain ⟨_, _, rfl⟩ := mem_map.1 hx; rfl)
  | cons x l ih =>
    intro ks hnd hmem
    have hih := ih ks hnd (fun y hy => hmem y (by simp [hy]))
    rw [countP_cons, ← hih]
    cases hp : p x with
    | false => simp [countP_cons, hp]
    | true =>
      have hx : cls x ∈ ks := hmem x (by simp) hp
      clear ih hih hmem
      simp only [countP_cons, hp, Bool.true_and, if_true]
      clear hp
      induction ks with
      | nil => simp at hx
      | cons k ks ihk =>
        rw [nodup_cons] at hnd
        simp only [map_cons, sum_cons]
        rcases mem_cons.1 hx with rfl | hx'
        · have : (ks.map (fun k => (l.countP (fun x => p x && cls x == k)) + if (cls x == k) = true then 1 else 0)) =
              ks.map (fun k => l.countP (fun x => p x && cls x == k)) := by
            apply map_congr_left
            intro k hk
            have : (cls x == k) = false := by
              simp only [beq_eq_false_iff_ne]
              rintro rfl
              exact hnd.1 hk
            simp [this]
          rw [this]
          simp; omega
        · rw [ihk hnd.2 hx']
          have : (cls x == k) = false := by
            simp only [beq_eq_false_iff_ne]
            rintro rfl
            exact hnd.1 hx'
          simp [this]; omega

end Verif.Pin
