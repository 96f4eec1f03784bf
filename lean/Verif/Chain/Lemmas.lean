import Verif.Chain.Spec
/-
Helper lemmas for the chain properties.
-/
namespace Verif.Chain

open List

/-! ### Lists -/

theorem insertAt_perm {α : Type} (l : List α) (i : Nat) (x : α) : insertAt l i x ~ x :: l := by
  unfold insertAt
  have h : l.take i ++ x :: l.drop i ~ x :: (l.take i ++ l.drop i) := perm_middle
  rwa [take_append_drop] at h

theorem length_insertAt {α : Type} (l : List α) (i : Nat) (x : α) :
    (insertAt l i x).length = l.length + 1 := by
  have := (insertAt_perm l i x).length_eq
  simpa using this

theorem zip_insertAt {α β : Type} (l : List α) (m : List β) (i : Nat) (x : α) (y : β)
    (h : l.length = m.length) :
    (insertAt l i x).zip (insertAt m i y) = insertAt (l.zip m) i (x, y) := by
  unfold insertAt
  rw [zip_append (by simp [h])]
  simp [zip_cons_cons, zip, take_zipWith, drop_zipWith]

theorem zip_eraseIdx {α β : Type} (l : List α) (m : List β) (i : Nat) (h : l.length = m.length) :
    (l.eraseIdx i).zip (m.eraseIdx i) = (l.zip m).eraseIdx i := by
  induction l generalizing m i with
  | nil => cases m <;> simp at *
  | cons a l ih =>
    cases m with
    | nil => simp at h
    | cons b m =>
      cases i with
      | zero => simp
      | succ i => simp [ih m i (by simpa using h)]

theorem perm_cons_eraseIdx {α : Type} (l : List α) (i : Nat) (h : i < l.length) :
    l ~ l[i] :: l.eraseIdx i := by
  induction l generalizing i with
  | nil => simp at h
  | cons a l ih =>
    cases i with
    | zero => simp
    | succ i =>
      simp only [getElem_cons_succ, eraseIdx_cons_succ]
      exact ((ih i (by simpa using h)).cons a).trans (Perm.swap _ _ _)

/-! ### `childIdx` -/

theorem childIdx_foldl_le (objs : List Obj) (cs : List Obj) (m : Nat) :
    cs.foldl (fun m c => if c ∈ objs then min m (objs.idxOf c) else m) m ≤ m ∧
    (∀ c ∈ cs, c ∈ objs →
      cs.foldl (fun m c => if c ∈ objs then min m (objs.idxOf c) else m) m ≤ objs.idxOf c) ∧
    (cs.foldl (fun m c => if c ∈ objs then min m (objs.idxOf c) else m) m = m ∨
      ∃ c ∈ cs, c ∈ objs ∧
        cs.foldl (fun m c => if c ∈ objs then min m (objs.idxOf c) else m) m = objs.idxOf c) := by
  induction cs generalizing m with
  | nil => simp
  | cons c cs ih =>
    simp only [foldl_cons]
    by_cases hc : c ∈ objs
    · simp only [hc, if_true]
      obtain ⟨h1, h2, h3⟩ := ih (min m (objs.idxOf c))
      refine ⟨by omega, ?_, ?_⟩
      · intro d hd hdo
        rcases mem_cons.1 hd with rfl | hd
        · omega
        · exact h2 d hd hdo
      · rcases h3 with h3 | ⟨d, hd, hdo, h3⟩
        · rw [h3]
          by_cases hle : m ≤ objs.idxOf c
          · left; omega
          · right; exact ⟨c, by simp, hc, by omega⟩
        · exact Or.inr ⟨d, by simp [hd], hdo, h3⟩
    · simp only [hc, if_false]
      obtain ⟨h1, h2, h3⟩ := ih m
      refine ⟨h1, ?_, ?_⟩
      · intro d hd hdo
        rcases mem_cons.1 hd with rfl | hd
        · exact absurd hdo hc
        · exact h2 d hd hdo
      · rcases h3 with h3 | ⟨d, hd, hdo, h3⟩
        · exact Or.inl h3
        · exact Or.inr ⟨d, by simp [hd], hdo, h3⟩

theorem childIdx_le_length (objs cs : List Obj) : childIdx objs cs ≤ objs.length :=
  (childIdx_foldl_le objs cs objs.length).1

theorem childIdx_le (objs cs : List Obj) (c : Obj) (h : c ∈ cs) (ho : c ∈ objs) :
    childIdx objs cs ≤ objs.idxOf c :=
  (childIdx_foldl_le objs cs objs.length).2.1 c h ho

theorem childIdx_cases (objs cs : List Obj) :
    childIdx objs cs = objs.length ∨ ∃ c ∈ cs, c ∈ objs ∧ childIdx objs cs = objs.idxOf c :=
  (childIdx_foldl_le objs cs objs.length).2.2

theorem idxOf_lt_iff_mem {l : List Obj} {a : Obj} : l.idxOf a < l.length ↔ a ∈ l :=
  List.idxOf_lt_length_iff

/-- elements of the prefix before position `i` have first index below `i`. -/
theorem mem_take_iff_idxOf {l : List Obj} {i : Nat} {a : Obj} (hi : i ≤ l.length) :
    a ∈ l.take i ↔ l.idxOf a < i := by
  induction l generalizing i with
  | nil => simp at hi; simp [hi]
  | cons b l ih =>
    cases i with
    | zero => simp
    | succ i =>
      simp only [take_succ_cons, mem_cons, idxOf_cons]
      by_cases hb : b = a
      · subst hb; simp
      · have : ¬ a = b := fun h => hb h.symm
        have hi' : i ≤ l.length := by simpa using hi
        have hb' : (b == a) = false := by simpa using hb
        rw [ih hi', hb']; simp [this]

theorem mem_drop_of_nodup {l : List Obj} {i : Nat} {a : Obj} (hi : i ≤ l.length) (hn : l.Nodup)
    (h : a ∈ l.drop i) : a ∈ l ∧ i ≤ l.idxOf a := by
  refine ⟨mem_of_mem_drop h, ?_⟩
  rcases Nat.lt_or_ge (l.idxOf a) i with hlt | hge
  · have ht := (mem_take_iff_idxOf hi).2 hlt
    rw [← take_append_drop i l, nodup_append] at hn
    exact absurd rfl (hn.2.2 a ht a h)
  · exact hge

/-! ### Order as pairwise condition -/

/-- no earlier element is supplied by a later one -/
def OrdP (g : Graph) (l : List Obj) : Prop := l.Pairwise (fun x y => ¬ Supplies g y x)

theorem ordered_iff (g : Graph) (l : List Obj) :
    Ordered g l ↔ OrdP g l ∧ ∀ a ∈ l, ¬ Supplies g a a := by
  constructor
  · intro h
    refine ⟨?_, ?_⟩
    · unfold OrdP
      rw [pairwise_iff_getElem]
      intro i j hi hj hij hs
      have := h j i l[j] l[i] (by simp) (by simp) hs
      omega
    · intro a ha hs
      obtain ⟨i, hi⟩ := mem_iff_getElem?.1 ha
      have := h i i a a hi hi hs
      omega
  · rintro ⟨h1, h2⟩ i j a b hi hj hs
    obtain ⟨hi', rfl⟩ := List.getElem?_eq_some_iff.1 hi
    obtain ⟨hj', rfl⟩ := List.getElem?_eq_some_iff.1 hj
    rcases Nat.lt_trichotomy i j with h | h | h
    · exact h
    · subst h; exact absurd hs (h2 _ (by simp))
    · exact absurd hs ((pairwise_iff_getElem.1 h1) j i hj' hi' h)

theorem not_self_of_acyclic {g : Graph} (h : Acyclic g) (a : Obj) : ¬ Supplies g a a :=
  fun hs => h a (.single hs)

theorem ordered_of_acyclic {g : Graph} (h : Acyclic g) (l : List Obj) : Ordered g l ↔ OrdP g l := by
  rw [ordered_iff]
  exact ⟨fun h => h.1, fun hp => ⟨hp, fun a _ => not_self_of_acyclic h a⟩⟩

/-! ### Ranks of an acyclic graph over a finite set of blocks -/

open Classical in
/-- number of ancestors of `b` among `univ` -/
noncomputable def rank (g : Graph) (univ : List Obj) (b : Obj) : Nat :=
  (univ.filter (fun a => decide (Relation.TransGen (Supplies g) a b))).length

theorem filter_length_lt {α : Type} (l : List α) (p q : α → Bool) (h : ∀ x, p x = true → q x = true)
    (y : α) (hy : y ∈ l) (hq : q y = true) (hp : p y = false) :
    (l.filter p).length < (l.filter q).length := by
  have hle : ∀ l : List α, (l.filter p).length ≤ (l.filter q).length := by
    intro l
    induction l with
    | nil => simp
    | cons z l ih =>
      by_cases hz : p z = true
      · simp [hz, h z hz, ih]
      · by_cases hz' : q z = true
        · simp [hz, hz']; omega
        · simp [hz, hz', ih]
  induction l with
  | nil => simp at hy
  | cons z l ih =>
    rcases mem_cons.1 hy with rfl | hy
    · simp [hp, hq]
      have := hle l
      omega
    · by_cases hz : p z = true
      · simp [hz, h z hz, ih hy]
      · have := ih hy
        by_cases hz' : q z = true
        · simp [hz, hz']; omega
        · simp [hz, hz', this]

theorem rank_lt {g : Graph} (h : Acyclic g) (univ : List Obj) (a b : Obj) (ha : a ∈ univ)
    (hs : Supplies g a b) : rank g univ a < rank g univ b := by
  classical
  unfold rank
  refine filter_length_lt _ _ _ ?_ a ha ?_ ?_
  · intro x hx
    simp only [decide_eq_true_eq] at *
    exact Relation.TransGen.tail hx hs
  · simpa using Relation.TransGen.single hs
  · simpa using h a

/-! ### Unfolding `addObject` -/

/-- chain after the id bookkeeping of lines 171-175 -/
def bump (ch : Chain) (id_ : Int) : Chain :=
  if id_ < 0 then { ch with counter := ch.counter + 1 } else ch
/-- id chosen by lines 171-175 -/
def pick (ch : Chain) (id_ : Int) : Int := if id_ < 0 then ch.counter else id_

@[simp] theorem bump_objs (ch : Chain) (i : Int) : (bump ch i).objs = ch.objs := by
  unfold bump; split <;> rfl
@[simp] theorem bump_ids (ch : Chain) (i : Int) : (bump ch i).ids = ch.ids := by
  unfold bump; split <;> rfl
theorem bump_of_nonneg (ch : Chain) (i : Int) (h : 0 ≤ i) : bump ch i = ch := by
  unfold bump; rw [if_neg (by omega)]
theorem pick_of_nonneg (ch : Chain) (i : Int) (h : 0 ≤ i) : pick ch i = i := by
  unfold pick; rw [if_neg (by omega)]
theorem pick_nonneg (ch : Chain) (i : Int) (h : 0 ≤ ch.counter) : 0 ≤ pick ch i := by
  unfold pick; split <;> omega

theorem addObject_succ (g : Graph) (n : Nat) (ch : Chain) (obj : Obj) (id_ : Int) :
    addObject g (n + 1) ch obj id_ =
      if ch.objs = [] then some ({ bump ch id_ with objs := [obj], ids := [pick ch id_] }, 0)
      else if (g.parents obj).any
          (fun p => parentIdx ch.objs p == (childIdx ch.objs (g.children obj) : Int)) then
        some (bump ch id_, -1)
      else if (g.parents obj).any
          (fun p => decide (parentIdx ch.objs p > (childIdx ch.objs (g.children obj) : Int))) then
        match addObject g n (removeLate (bump ch id_) ((g.parents obj).filter
            (fun p => decide (parentIdx ch.objs p > (childIdx ch.objs (g.children obj) : Int))))).1
            obj (pick ch id_) with
        | none => none
        | some (ch2, idx) =>
          match (removeLate (bump ch id_) ((g.parents obj).filter
            (fun p => decide (parentIdx ch.objs p > (childIdx ch.objs (g.children obj) : Int))))).2.foldlM
              (fun c x => (addObject g n c x.1 x.2).map Prod.fst) ch2 with
          | none => none
          | some ch3 => some (ch3, idx + 1)
      else some ({ bump ch id_ with
            objs := insertAt ch.objs (childIdx ch.objs (g.children obj)) obj,
            ids := insertAt ch.ids (childIdx ch.objs (g.children obj)) (pick ch id_) },
            (childIdx ch.objs (g.children obj) : Int)) := by
  conv => lhs; unfold addObject
  have e1 : (if id_ < 0 then { ch with counter := ch.counter + 1 } else ch) = bump ch id_ := rfl
  have e2 : (if id_ < 0 then ch.counter else id_) = pick ch id_ := rfl
  simp only [e1, e2, bump_objs, bump_ids]
  rfl

/-! ### `removeLate` -/

theorem removeLate_spec (ps : List Obj) : ∀ (ch : Chain), ch.Ok → ps.Nodup → (∀ p ∈ ps, p ∈ ch.objs) →
    let r := removeLate ch ps
    r.1.Ok ∧ r.1.counter = ch.counter ∧ r.1.plotDeb = ch.plotDeb ∧ r.1.outDeb = ch.outDeb ∧
    r.1.objs.Sublist ch.objs ∧
    ch.entries ~ r.2 ++ r.1.entries ∧ r.2.map Prod.fst = ps ∧
    r.1.objs = ch.objs.filter (fun x => decide (x ∉ ps)) ∧ (∀ x ∈ r.2, 0 ≤ x.2) := by
  induction ps with
  | nil =>
    intro ch hok _ _
    refine ⟨hok, rfl, rfl, rfl, List.Sublist.refl _, by simp [removeLate], rfl, ?_, by simp [removeLate]⟩
    simp only [removeLate]
    exact (filter_eq_self.2 (by simp)).symm
  | cons p ps ih =>
    intro ch hok hnd hmem
    have hp : p ∈ ch.objs := hmem p (by simp)
    have hk : ch.objs.idxOf p < ch.objs.length := idxOf_lt_iff_mem.2 hp
    have hk' : ch.objs.idxOf p < ch.ids.length := by rw [← hok.len]; exact hk
    have herase : ch.objs.eraseIdx (ch.objs.idxOf p) = ch.objs.erase p := by
      rw [erase_eq_eraseIdx_of_idxOf rfl]
    have hok1 : ({ ch with objs := ch.objs.eraseIdx (ch.objs.idxOf p),
                           ids := ch.ids.eraseIdx (ch.objs.idxOf p) } : Chain).Ok := by
      refine ⟨?_, ?_, ?_, hok.counter_nonneg⟩
      · simp [length_eraseIdx, hk, hk', hok.len]
      · exact hok.nodup.sublist (eraseIdx_sublist _ _)
      · intro i hi; exact hok.ids_nonneg i (mem_of_mem_eraseIdx hi)
    have hnd' := nodup_cons.1 hnd
    obtain ⟨h1, h2, h2a, h2b, h3, h4, h5, h6, h7⟩ := ih _ hok1 hnd'.2 (by
      intro q hq
      simp only [herase]
      rw [hok.nodup.mem_erase_iff]
      exact ⟨fun h => hnd'.1 (h ▸ hq), hmem q (by simp [hq])⟩)
    simp only [removeLate]
    refine ⟨h1, h2, h2a, h2b, h3.trans (eraseIdx_sublist _ _), ?_, ?_, ?_, ?_⟩
    · have he : ch.entries ~ (p, ch.ids.getD (ch.objs.idxOf p) (-1)) ::
          ({ ch with objs := ch.objs.eraseIdx (ch.objs.idxOf p),
                     ids := ch.ids.eraseIdx (ch.objs.idxOf p) } : Chain).entries := by
        unfold Chain.entries
        rw [zip_eraseIdx _ _ _ hok.len]
        have hlt : ch.objs.idxOf p < (ch.objs.zip ch.ids).length := by rw [length_zip]; omega
        have h := perm_cons_eraseIdx (ch.objs.zip ch.ids) (ch.objs.idxOf p) hlt
        have hz : (ch.objs.zip ch.ids)[ch.objs.idxOf p] = (p, ch.ids.getD (ch.objs.idxOf p) (-1)) := by
          rw [getElem_zip, getElem_idxOf, getD_eq_getElem?_getD, List.getElem?_eq_getElem hk']
          rfl
        rwa [hz] at h
      refine he.trans ?_
      simp only [cons_append]
      exact h4.cons _
    · simp [h5]
    · rw [h6]
      simp only [herase]
      rw [hok.nodup.erase_eq_filter]
      rw [filter_filter]
      congr 1
      funext x
      simp only [mem_cons, not_or, bne_iff_ne, ne_eq, Bool.decide_and]
      by_cases hx : x = p <;> by_cases hx' : x ∈ ps <;> simp [hx, hx']
    · intro x hx
      rcases mem_cons.1 hx with rfl | hx
      · simp only [getD_eq_getElem?_getD, List.getElem?_eq_getElem hk', Option.getD_some]
        exact hok.ids_nonneg _ (getElem_mem _)
      · exact h7 x hx

end Verif.Chain
