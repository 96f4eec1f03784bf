import Verif.Recon.Model
import Verif.Recon.ExtractProps
import Mathlib.Algebra.BigOperators.Group.List.Basic
import Mathlib.Tactic.Linarith
/-
C110, C111: what a reconstructed field holds, and how inputs are given and removed.
-/
namespace Verif.Recon
open List hiding get
open Verif.Field Verif.Mesh

variable {P α : Type}

/-! ### Specification -/

open Classical in
/-- the values that the inputs give to an entity, in the order of the inputs: those of the inputs whose geometry has
the entity -/
noncomputable def given (w : World P) (l : Loc) (subs : List (Field Nat α)) (j : Nat) : List α :=
  subs.filterMap fun f => if ∃ g, f.geo = some g ∧ On w g l j then get f.data j else none

/-- an input is usable: it has a geometry without repeated ids and a value on every entity shared with the target -/
def Usable (w : World P) (l : Loc) (t : Nat) (f : Field Nat α) : Prop :=
  ∃ g, f.geo = some g ∧ Distinct w g ∧ ∀ j, On w g l j → On w t l j → get f.data j ≠ none

/-! ### Lemmas -/

theorem mem_locIds (w : World P) (l : Loc) (h : l = .point ∨ l = .cell) (g j : Nat) :
    j ∈ locIds w l g ↔ On w g l j := by
  rcases h with rfl | rfl <;> simp [locIds, On, cellIds]

theorem nodup_locIds (w : World P) (l : Loc) (g : Nat) (h : Distinct w g) : (locIds w l g).Nodup := by
  cases l
  · simp [locIds]
  · exact h.1
  · exact h.2.1
  · simp [locIds]

/-- the combination of the values of an entity as the loops make it -/
noncomputable def comb (o : Ops α) (c : Crit) : List α → Option α
  | [] => none
  | v :: vs => some (vs.foldl (overlap o c) v)

theorem comb_snoc (o : Ops α) (c : Crit) (l : List α) (v : α) :
    comb o c (l ++ [v]) = some (match comb o c l with | none => v | some x => overlap o c x v) := by
  cases l <;> simp [comb]

structure Inv (o : Ops α) (c : Crit) (target : List Nat) (K : Nat → List α) (s : Data α × Data Nat) : Prop where
  ok1 : Ok s.1
  ok2 : Ok s.2
  val : ∀ j, get s.1 j = if j ∈ target then comb o c (K j) else none
  cnt : ∀ j, get s.2 j = if j ∈ target ∧ K j ≠ [] then some (K j).length else none

theorem recId_inv {o : Ops α} {c : Crit} {target : List Nat} {K : Nat → List α} {s : Data α × Data Nat}
    (h : Inv o c target K s) (f : Field Nat α) (id : Nat) (hv : id ∈ target → get f.data id ≠ none) :
    ∃ s', recId o c target f s id = some s' ∧
      Inv o c target (fun j => K j ++ if j = id then (get f.data j).toList else []) s' := by
  unfold recId
  by_cases ht : id ∈ target
  · rw [if_neg (by simpa using ht)]
    obtain ⟨v, hg⟩ := Option.ne_none_iff_exists'.1 (hv ht)
    have hval := h.val id
    have hcnt := h.cnt id
    simp only [ht, if_true, true_and] at hval hcnt
    rw [hg, Option.bind_some]
    cases hK : K id with
    | nil =>
      rw [hK] at hval hcnt
      simp only [comb, ne_eq, not_true_eq_false, if_false] at hval hcnt
      have h1 : has s.1 id = false := by rw [has_eq_isSome, hval]; rfl
      have h2 : has s.2 id = false := by rw [has_eq_isSome, hcnt]; rfl
      refine ⟨(s.1 ++ [(id, v)], s.2 ++ [(id, 1)]), by simp [hval, ins, h1, h2], ok_append h.ok1 h1, ok_append h.ok2 h2,
        ?_, ?_⟩
      · intro j
        rw [get_append, get_single, h.val j]
        by_cases hj : j = id
        · subst hj; simp [ht, hK, hg, comb]
        · simp only [if_neg hj, append_nil, if_neg (Ne.symm hj), Option.or_none]
      · intro j
        rw [get_append, get_single, h.cnt j]
        by_cases hj : j = id
        · subst hj; simp [ht, hK, hg]
        · simp only [if_neg hj, append_nil, if_neg (Ne.symm hj), Option.or_none]
    | cons a l =>
      rw [hK] at hcnt
      simp only [ne_eq, reduceCtorEq, not_false_eq_true, if_true] at hcnt
      have hval' : get s.1 id = some (l.foldl (overlap o c) a) := by rw [hval, hK]; rfl
      refine ⟨(setAt s.1 id (overlap o c (l.foldl (overlap o c) a) v), setAt s.2 id ((a :: l).length + 1)),
        by simp [hval', hcnt], ?_, ?_, ?_, ?_⟩
      · unfold Ok; rw [keys_setAt]; exact h.ok1
      · unfold Ok; rw [keys_setAt]; exact h.ok2
      · intro j
        rw [get_setAt]
        by_cases hj : j = id
        · subst hj
          simp [ht, hK, hg, hval', comb]
        · simp only [if_neg hj, append_nil]; exact h.val j
      · intro j
        rw [get_setAt]
        by_cases hj : j = id
        · subst hj
          simp [ht, hK, hg, hcnt]
        · simp only [if_neg hj, append_nil]; exact h.cnt j
  · rw [if_pos (by simpa using ht)]
    refine ⟨s, rfl, h.ok1, h.ok2, ?_, ?_⟩
    · intro j
      by_cases hj : j = id
      · subst hj; simp [ht, h.val j]
      · simp only [if_neg hj, append_nil]; exact h.val j
    · intro j
      by_cases hj : j = id
      · subst hj; simp [ht, h.cnt j]
      · simp only [if_neg hj, append_nil]; exact h.cnt j

theorem recIds_inv {o : Ops α} {c : Crit} {target : List Nat} (f : Field Nat α) :
    ∀ (ids : List Nat) (K : Nat → List α) (s : Data α × Data Nat), ids.Nodup → Inv o c target K s →
      (∀ id ∈ ids, id ∈ target → get f.data id ≠ none) →
      ∃ s', ids.foldlM (recId o c target f) s = some s' ∧
        Inv o c target (fun j => K j ++ if j ∈ ids then (get f.data j).toList else []) s' := by
  intro ids
  induction ids with
  | nil => intro K s _ h _; exact ⟨s, rfl, by simpa using h⟩
  | cons id ids ih =>
    intro K s hn h hv
    rw [nodup_cons] at hn
    obtain ⟨s1, e1, h1⟩ := recId_inv h f id (hv id (by simp))
    obtain ⟨s2, e2, h2⟩ := ih _ s1 hn.2 h1 (fun x hx => hv x (by simp [hx]))
    refine ⟨s2, by simp [e1, e2], ?_⟩
    have : (fun j => (K j ++ if j = id then (get f.data j).toList else []) ++ if j ∈ ids then (get f.data j).toList else []) =
        fun j => K j ++ if j ∈ id :: ids then (get f.data j).toList else [] := by
      funext j
      by_cases hj : j = id
      · subst hj; simp [hn.1]
      · simp [hj]
    rwa [this] at h2

open Classical in
theorem given_cons (w : World P) (l : Loc) (f : Field Nat α) (subs : List (Field Nat α)) (j : Nat) :
    given w l (f :: subs) j =
      (if ∃ g, f.geo = some g ∧ On w g l j then (get f.data j).toList else []) ++ given w l subs j := by
  unfold given
  rw [filterMap_cons]
  by_cases h : ∃ g, f.geo = some g ∧ On w g l j
  · rw [if_pos h, if_pos h]
    cases get f.data j <;> rfl
  · rw [if_neg h, if_neg h]; rfl

theorem recSubs_inv {o : Ops α} {c : Crit} {w : World P} {l : Loc} (hl : l = .point ∨ l = .cell) (t : Nat) :
    ∀ (subs : List (Field Nat α)) (K : Nat → List α) (s : Data α × Data Nat), Inv o c (locIds w l t) K s →
      (∀ f ∈ subs, Usable w l t f) →
      ∃ s', subs.foldlM (recSub o c w l (locIds w l t)) s = some s' ∧
        Inv o c (locIds w l t) (fun j => K j ++ given w l subs j) s' := by
  intro subs
  induction subs with
  | nil => intro K s h _; exact ⟨s, rfl, by simpa [given] using h⟩
  | cons f subs ih =>
    intro K s h hu
    obtain ⟨g, hg, hd, hv⟩ := hu f (by simp)
    obtain ⟨s1, e1, h1⟩ := recIds_inv f (locIds w l g) K s (nodup_locIds w l g hd) h
      (fun id h1 h2 => hv id ((mem_locIds w l hl _ _).1 h1) ((mem_locIds w l hl _ _).1 h2))
    obtain ⟨s2, e2, h2⟩ := ih _ s1 h1 (fun x hx => hu x (by simp [hx]))
    refine ⟨s2, by simp [recSub, hg, e1, e2], ?_⟩
    have : (fun j => (K j ++ if j ∈ locIds w l g then (get f.data j).toList else []) ++ given w l subs j) =
        fun j => K j ++ given w l (f :: subs) j := by
      funext j
      rw [given_cons, append_assoc]
      congr 2
      by_cases hj : On w g l j
      · rw [if_pos ((mem_locIds w l hl _ _).2 hj), if_pos ⟨g, hg, hj⟩]
      · rw [if_neg (fun h => hj ((mem_locIds w l hl _ _).1 h)), if_neg]
        rintro ⟨g', h1, h2⟩
        rw [hg] at h1
        simp only [Option.some.injEq] at h1
        subst h1
        exact hj h2
    rwa [this] at h2

theorem average_spec (o : Ops α) (n : Data Nat) (K : Nat → List α) : ∀ (d : Data α),
    (∀ e ∈ d, get n e.1 = some (K e.1).length) →
    average o n d = some (d.map fun e => (e.1, o.div e.2 (K e.1).length)) := by
  intro d
  induction d with
  | nil => intro _; rfl
  | cons e d ih =>
    intro h
    have h1 := ih (fun x hx => h x (by simp [hx]))
    unfold average at h1 ⊢
    simp only [mapM_cons, h e (by simp), Option.map_some, h1, map_cons]
    rfl

theorem get_mapVal (d : Data α) (g : Nat → α → α) (j : Nat) :
    get (d.map fun e => (e.1, g e.1 e.2)) j = (get d j).map (g j) := by
  induction d with
  | nil => simp [Field.get]
  | cons e d ih =>
    rw [map_cons, get_cons, get_cons, ih]
    by_cases h : e.1 = j
    · subst h; simp
    · simp [h]

theorem subResult_spec (w : World P) (l : Loc) (hl : l = .point ∨ l = .cell) (t : Nat) (res : Data α) (f : Field Nat α)
    (g : Nat) (hg : f.geo = some g) (hd : Distinct w g) (hres : ∀ j, On w t l j → get res j ≠ none) :
    ∃ r, subResult w l (locIds w l t) res f = some r ∧ r.geo = f.geo ∧ r.loc = l ∧ Ok r.data ∧
      ∀ j v, get r.data j = some v ↔ On w g l j ∧ On w t l j ∧ get res j = some v := by
  have key : ∀ (ids : List Nat) (d : Data α), ids.Nodup → Ok d → (∀ i ∈ ids, get d i = none) →
      ∃ d', ids.foldlM (fun (d : Data α) id =>
        if id ∈ locIds w l t then (get res id).bind fun v => ins d id v else some d) d = some d' ∧ Ok d' ∧
        ∀ j, get d' j = (get d j).or (if j ∈ ids ∧ j ∈ locIds w l t then get res j else none) := by
    intro ids
    induction ids with
    | nil => intro d _ hok _; exact ⟨d, rfl, hok, by simp⟩
    | cons id ids ih =>
      intro d hn hok hno
      rw [nodup_cons] at hn
      by_cases ht : id ∈ locIds w l t
      · obtain ⟨v, hv⟩ := Option.ne_none_iff_exists'.1 (hres id ((mem_locIds w l hl _ _).1 ht))
        have h1 : has d id = false := by rw [has_eq_isSome, hno id (by simp)]; rfl
        obtain ⟨d', e, ok, hd'⟩ := ih (d ++ [(id, v)]) hn.2 (ok_append hok h1) (by
          intro i hi
          have hne : id ≠ i := by rintro rfl; exact hn.1 hi
          rw [get_append, get_single, hno i (by simp [hi])]
          simp [hne])
        refine ⟨d', by simp only [foldlM_cons, if_pos ht, hv, Option.bind_some]; rw [ins, if_neg (by simp [h1])]; exact e, ok, ?_⟩
        intro j
        rw [hd' j, get_append, get_single]
        by_cases hj : id = j
        · subst hj; simp [ht, hv, hno id (by simp)]
        · simp [hj, Ne.symm hj]
      · obtain ⟨d', e, ok, hd'⟩ := ih d hn.2 hok (fun i hi => hno i (by simp [hi]))
        refine ⟨d', by simp [ht, e], ok, ?_⟩
        intro j
        rw [hd' j]
        by_cases hj : j = id
        · subst hj; simp [ht]
        · simp [hj]
  obtain ⟨d', e, ok, hd'⟩ := key (locIds w l g) [] (nodup_locIds w l g hd) (by simp [Ok]) (by simp [Field.get])
  refine ⟨{ (make (some g) l : Field Nat α) with data := d' }, by simp [subResult, hg, e], hg.symm, rfl, ok, ?_⟩
  intro j v
  have h0 : get ([] : Data α) j = none := rfl
  simp only [hd' j, h0, Option.none_or]
  by_cases h : On w g l j ∧ On w t l j
  · rw [if_pos ⟨(mem_locIds w l hl _ _).2 h.1, (mem_locIds w l hl _ _).2 h.2⟩]
    simp [h.1, h.2]
  · rw [if_neg (fun x => h ⟨(mem_locIds w l hl _ _).1 x.1, (mem_locIds w l hl _ _).1 x.2⟩)]
    simp only [reduceCtorEq, false_iff]
    exact fun x => h ⟨x.1, x.2.1⟩

theorem mapM_forall {β γ : Type} (p : β → Option γ) (R : β → γ → Prop) : ∀ (l : List β),
    (∀ x ∈ l, ∃ y, p x = some y ∧ R x y) → ∃ r, l.mapM p = some r ∧ List.Forall₂ R l r := by
  intro l
  induction l with
  | nil => intro _; exact ⟨[], rfl, .nil⟩
  | cons x l ih =>
    intro h
    obtain ⟨y, e, hy⟩ := h x (by simp)
    obtain ⟨r, e', hr⟩ := ih (fun z hz => h z (by simp [hz]))
    exact ⟨y :: r, by simp [e, e'], .cons hy hr⟩

/-- what the loops give -/
theorem execute_spec (o : Ops α) (s : Rec α) (w : World P) (t : Nat) (hl : s.loc = .point ∨ s.loc = .cell)
    (ht : s.geo = some t) (hd : Distinct w t) (hu : ∀ f ∈ s.subs, Usable w s.loc t f) :
    ∃ r, s.execute o w = some r ∧ r.result.geo = some t ∧ r.result.loc = s.loc ∧ Ok r.result.data ∧
      (∀ j, ¬ On w t s.loc j → get r.result.data j = none) ∧
      (∀ j, On w t s.loc j → get r.result.data j = some (match comb o s.crit (given w s.loc s.subs j) with
        | none => o.zero
        | some x => if s.crit = .average then o.div x (given w s.loc s.subs j).length else x)) ∧
      List.Forall₂ (fun (f r' : Field Nat α) => r'.geo = f.geo ∧ r'.loc = s.loc ∧ Ok r'.data ∧
        ∀ j v, get r'.data j = some v ↔
          (∃ g, f.geo = some g ∧ On w g s.loc j) ∧ On w t s.loc j ∧ get r.result.data j = some v) s.subs r.subresults := by
  obtain ⟨q, e1, h1⟩ := recSubs_inv (o := o) (c := s.crit) hl t s.subs (fun _ => []) ([], [])
    ⟨by simp [Ok], by simp [Ok], by intro j; simp [Field.get, comb], by intro j; simp [Field.get]⟩ hu
  simp only [nil_append] at h1
  obtain ⟨d, e2, hok, hval⟩ : ∃ d, (if s.crit = .average then average o q.2 q.1 else some q.1) = some d ∧ Ok d ∧
      ∀ j, get d j = if j ∈ locIds w s.loc t then (comb o s.crit (given w s.loc s.subs j)).map
        (fun x => if s.crit = .average then o.div x (given w s.loc s.subs j).length else x) else none := by
    by_cases hc : s.crit = .average
    · refine ⟨_, (if_pos hc).trans (average_spec o q.2 (given w s.loc s.subs) q.1 ?_), ?_, ?_⟩
      · intro e he
        have hg := get_of_mem h1.ok1 he
        have hv := h1.val e.1
        rw [hg] at hv
        rw [h1.cnt e.1]
        by_cases hm : e.1 ∈ locIds w s.loc t
        · have hne : given w s.loc s.subs e.1 ≠ [] := by
            intro hK
            rw [if_pos hm, hK] at hv
            simp [comb] at hv
          rw [if_pos ⟨hm, hne⟩]
        · rw [if_neg hm] at hv; simp at hv
      · unfold Ok
        rw [map_map]
        exact h1.ok1
      · intro j
        rw [get_mapVal q.1 (fun i x => o.div x (given w s.loc s.subs i).length), h1.val j]
        by_cases hm : j ∈ locIds w s.loc t
        · simp only [if_pos hm, hc, if_true]
        · simp only [if_neg hm, Option.map_none]
    · refine ⟨q.1, if_neg hc, h1.ok1, ?_⟩
      intro j
      rw [h1.val j]
      simp [hc]
  have hent : ∀ j, j ∈ entities (⟨some (geoOf w t), defaultName, s.loc, d⟩ : Field Geo α) ↔ On w t s.loc j := by
    intro j
    rcases hl with h | h <;> rw [h] <;> simp [entities, geoOf, On, cellIds]
  obtain ⟨f', e3, hg', -, hl', hok', hin, hout⟩ := C25_complete
    (f := (⟨some (geoOf w t), defaultName, s.loc, d⟩ : Field Geo α))
    ⟨hok, by rintro g hg; simp only [Option.some.injEq] at hg; subst hg; exact ⟨hd.1, hd.2.1, hd.2.2⟩⟩ (by simp)
    (by rcases hl with h | h <;> simp [h]) o.zero (by
      intro e he
      rw [hent]
      have := get_of_mem hok he
      rw [hval] at this
      by_cases hm : e.1 ∈ locIds w s.loc t
      · exact (mem_locIds w s.loc hl _ _).1 hm
      · rw [if_neg hm] at this; simp at this)
  have hres : ∀ j, On w t s.loc j → get f'.data j = some (match comb o s.crit (given w s.loc s.subs j) with
        | none => o.zero
        | some x => if s.crit = .average then o.div x (given w s.loc s.subs j).length else x) := by
    intro j hj
    rw [hin j ((hent j).2 hj)]
    simp only [hval j, if_pos ((mem_locIds w s.loc hl _ _).2 hj)]
    cases comb o s.crit (given w s.loc s.subs j) <;> rfl
  obtain ⟨subs, e4, hsub⟩ := mapM_forall (subResult w s.loc (locIds w s.loc t) f'.data)
    (fun (f r' : Field Nat α) => r'.geo = f.geo ∧ r'.loc = s.loc ∧ Ok r'.data ∧
        ∀ j v, get r'.data j = some v ↔
          (∃ g, f.geo = some g ∧ On w g s.loc j) ∧ On w t s.loc j ∧ get f'.data j = some v) s.subs (by
      intro f hf
      obtain ⟨g, hg, hdg, -⟩ := hu f hf
      obtain ⟨r, e, a, b, c, h⟩ := subResult_spec w s.loc hl t f'.data f g hg hdg (by intro j hj; rw [hres j hj]; simp)
      refine ⟨r, e, a, b, c, ?_⟩
      intro j v
      rw [h]
      simp [hg])
  refine ⟨{ s with result := ⟨some t, defaultName, s.loc, f'.data⟩, subresults := subs }, ?_, rfl, rfl, hok',
    fun j hj => hout j (by rw [hent]; exact hj), hres, hsub⟩
  simp only [Rec.execute, ht, Option.bind_some, e1, e2, e3, e4, Option.map_some]

/-! ### C110: what the result holds -/

theorem comb_max (o : Ops α) : ∀ (vs : List α) (v x : α), comb o .max (v :: vs) = some x →
    x ∈ v :: vs ∧ ∀ u ∈ v :: vs, o.key u ≤ o.key x := by
  intro vs v x h
  simp only [comb, Option.some.injEq] at h
  subst h
  induction vs generalizing v with
  | nil => simp
  | cons a vs ih =>
    obtain ⟨h1, h2⟩ := ih (overlap o .max v a)
    rw [foldl_cons]
    have hcase : overlap o .max v a = v ∧ o.key a ≤ o.key v ∨ overlap o .max v a = a ∧ o.key v < o.key a := by
      unfold overlap
      by_cases hlt : o.key v < o.key a
      · right; simp [hlt]
      · left; simp [hlt, not_lt.1 hlt]
    generalize foldl (overlap o .max) (overlap o .max v a) vs = x at h1 h2
    have h3 := h2 (overlap o .max v a) (by simp)
    refine ⟨?_, ?_⟩
    · rcases mem_cons.1 h1 with h | h
      · rcases hcase with ⟨hc, -⟩ | ⟨hc, -⟩ <;> rw [h, hc] <;> simp
      · simp [h]
    · intro u hu
      simp only [mem_cons] at hu
      rcases hu with rfl | rfl | hu
      · rcases hcase with ⟨hc, -⟩ | ⟨hc, hk⟩ <;> rw [hc] at h3
        · exact h3
        · exact le_trans (le_of_lt hk) h3
      · rcases hcase with ⟨hc, hk⟩ | ⟨hc, hk⟩ <;> rw [hc] at h3
        · exact le_trans hk h3
        · exact h3
      · exact h2 u (by simp [hu])

theorem comb_min (o : Ops α) : ∀ (vs : List α) (v x : α), comb o .min (v :: vs) = some x →
    x ∈ v :: vs ∧ ∀ u ∈ v :: vs, o.key x ≤ o.key u := by
  intro vs v x h
  simp only [comb, Option.some.injEq] at h
  subst h
  induction vs generalizing v with
  | nil => simp
  | cons a vs ih =>
    obtain ⟨h1, h2⟩ := ih (overlap o .min v a)
    rw [foldl_cons]
    have hcase : overlap o .min v a = v ∧ o.key v ≤ o.key a ∨ overlap o .min v a = a ∧ o.key a < o.key v := by
      unfold overlap
      by_cases hlt : o.key a < o.key v
      · right; simp [hlt]
      · left; simp [hlt, not_lt.1 hlt]
    generalize foldl (overlap o .min) (overlap o .min v a) vs = x at h1 h2
    have h3 := h2 (overlap o .min v a) (by simp)
    refine ⟨?_, ?_⟩
    · rcases mem_cons.1 h1 with h | h
      · rcases hcase with ⟨hc, -⟩ | ⟨hc, -⟩ <;> rw [h, hc] <;> simp
      · simp [h]
    · intro u hu
      simp only [mem_cons] at hu
      rcases hu with rfl | rfl | hu
      · rcases hcase with ⟨hc, -⟩ | ⟨hc, hk⟩ <;> rw [hc] at h3
        · exact h3
        · exact le_trans h3 (le_of_lt hk)
      · rcases hcase with ⟨hc, hk⟩ | ⟨hc, hk⟩ <;> rw [hc] at h3
        · exact le_trans h3 hk
        · exact h3
      · exact h2 u (by simp [hu])

/-- C110: a run with usable inputs succeeds; the result belongs to the target, at the location of the block, and has a
value on every entity of the target and on nothing else; an entity no input covers has the value zero. -/
theorem C110_covers (o : Ops α) (s : Rec α) (w : World P) (t : Nat) (hl : s.loc = .point ∨ s.loc = .cell)
    (ht : s.geo = some t) (hd : Distinct w t) (hu : ∀ f ∈ s.subs, Usable w s.loc t f) :
    ∃ r, s.execute o w = some r ∧ r.result.geo = some t ∧ r.result.loc = s.loc ∧ Ok r.result.data ∧
      (∀ j, (∃ v, get r.result.data j = some v) ↔ On w t s.loc j) ∧
      ∀ j, On w t s.loc j → given w s.loc s.subs j = [] → get r.result.data j = some o.zero := by
  obtain ⟨r, e, h1, h2, h3, h4, h5, -⟩ := execute_spec o s w t hl ht hd hu
  refine ⟨r, e, h1, h2, h3, fun j => ⟨?_, fun hj => ⟨_, h5 j hj⟩⟩, ?_⟩
  · rintro ⟨v, hv⟩
    by_contra hj
    rw [h4 j hj] at hv
    simp at hv
  · intro j hj hg
    rw [h5 j hj, hg]
    rfl

/-- C110, maximum and minimum: on an entity that inputs cover, the result is one of the given values, and none of them is
larger (smaller); vectors are compared by length. -/
theorem C110_extremes (o : Ops α) (s : Rec α) (w : World P) (t : Nat) (hl : s.loc = .point ∨ s.loc = .cell)
    (ht : s.geo = some t) (hd : Distinct w t) (hu : ∀ f ∈ s.subs, Usable w s.loc t f) :
    ∃ r, s.execute o w = some r ∧ ∀ j, On w t s.loc j → given w s.loc s.subs j ≠ [] →
      (s.crit = .max → ∃ x ∈ given w s.loc s.subs j, get r.result.data j = some x ∧
        ∀ u ∈ given w s.loc s.subs j, o.key u ≤ o.key x) ∧
      (s.crit = .min → ∃ x ∈ given w s.loc s.subs j, get r.result.data j = some x ∧
        ∀ u ∈ given w s.loc s.subs j, o.key x ≤ o.key u) := by
  obtain ⟨r, e, -, -, -, -, h5, -⟩ := execute_spec o s w t hl ht hd hu
  refine ⟨r, e, fun j hj hne => ?_⟩
  obtain ⟨v, vs, hg⟩ := exists_cons_of_ne_nil hne
  have h := h5 j hj
  rw [hg] at h ⊢
  constructor
  · intro hc
    rw [hc] at h
    obtain ⟨h1, h2⟩ := comb_max o vs v _ rfl
    exact ⟨_, h1, by simpa [comb] using h, h2⟩
  · intro hc
    rw [hc] at h
    obtain ⟨h1, h2⟩ := comb_min o vs v _ rfl
    exact ⟨_, h1, by simpa [comb] using h, h2⟩

/-- C110, scalars: maximum and minimum are those of the numbers. -/
theorem C110_scalar_extremes (s : Rec ℝ) (w : World P) (t : Nat) (hl : s.loc = .point ∨ s.loc = .cell)
    (ht : s.geo = some t) (hd : Distinct w t) (hu : ∀ f ∈ s.subs, Usable w s.loc t f) :
    ∃ r, s.execute scalarOps w = some r ∧ ∀ j, On w t s.loc j → given w s.loc s.subs j ≠ [] →
      ∃ x ∈ given w s.loc s.subs j, (s.crit = .max ∨ s.crit = .min → get r.result.data j = some x) ∧
        ∀ u ∈ given w s.loc s.subs j, (s.crit = .max → u ≤ x) ∧ (s.crit = .min → x ≤ u) := by
  obtain ⟨r, e, h⟩ := C110_extremes scalarOps s w t hl ht hd hu
  refine ⟨r, e, fun j hj hne => ?_⟩
  obtain ⟨h1, h2⟩ := h j hj hne
  cases hc : s.crit with
  | max =>
    obtain ⟨x, a, b, c⟩ := h1 hc
    exact ⟨x, a, fun _ => b, fun u hu => ⟨fun _ => c u hu, by simp⟩⟩
  | min =>
    obtain ⟨x, a, b, c⟩ := h2 hc
    exact ⟨x, a, fun _ => b, fun u hu => ⟨by simp, fun _ => c u hu⟩⟩
  | _ =>
    obtain ⟨v, vs, hg⟩ := exists_cons_of_ne_nil hne
    exact ⟨v, by simp [hg], by simp, by simp⟩

/-- C110, vectors: the result is one of the given vectors, and none of them is longer (shorter). -/
theorem C110_vector_extremes (s : Rec Shape.V3) (w : World P) (t : Nat) (hl : s.loc = .point ∨ s.loc = .cell)
    (ht : s.geo = some t) (hd : Distinct w t) (hu : ∀ f ∈ s.subs, Usable w s.loc t f) :
    ∃ r, s.execute vectorOps w = some r ∧ ∀ j, On w t s.loc j → given w s.loc s.subs j ≠ [] →
      ∃ x ∈ given w s.loc s.subs j, (s.crit = .max ∨ s.crit = .min → get r.result.data j = some x) ∧
        ∀ u ∈ given w s.loc s.subs j,
          (s.crit = .max → u.x ^ 2 + u.y ^ 2 + u.z ^ 2 ≤ x.x ^ 2 + x.y ^ 2 + x.z ^ 2) ∧
          (s.crit = .min → x.x ^ 2 + x.y ^ 2 + x.z ^ 2 ≤ u.x ^ 2 + u.y ^ 2 + u.z ^ 2) := by
  have hkey : ∀ u v : Shape.V3, vectorOps.key u ≤ vectorOps.key v →
      u.x ^ 2 + u.y ^ 2 + u.z ^ 2 ≤ v.x ^ 2 + v.y ^ 2 + v.z ^ 2 := by
    intro u v h
    have h' : √(Shape.dot u u) ≤ √(Shape.dot v v) := h
    have hv : 0 ≤ Shape.dot v v := by unfold Shape.dot; nlinarith [mul_self_nonneg v.x, mul_self_nonneg v.y, mul_self_nonneg v.z]
    have := (Real.sqrt_le_sqrt_iff hv).1 h'
    unfold Shape.dot at this
    nlinarith
  obtain ⟨r, e, h⟩ := C110_extremes vectorOps s w t hl ht hd hu
  refine ⟨r, e, fun j hj hne => ?_⟩
  obtain ⟨h1, h2⟩ := h j hj hne
  cases hc : s.crit with
  | max =>
    obtain ⟨x, a, b, c⟩ := h1 hc
    exact ⟨x, a, fun _ => b, fun u hu => ⟨fun _ => hkey _ _ (c u hu), by simp⟩⟩
  | min =>
    obtain ⟨x, a, b, c⟩ := h2 hc
    exact ⟨x, a, fun _ => b, fun u hu => ⟨by simp, fun _ => hkey _ _ (c u hu)⟩⟩
  | _ =>
    obtain ⟨v, vs, hg⟩ := exists_cons_of_ne_nil hne
    exact ⟨v, by simp [hg], by simp, by simp⟩

theorem foldl_scalar (c : Crit) (hc : c = .average ∨ c = .sum) : ∀ (vs : List ℝ) (v : ℝ),
    vs.foldl (overlap scalarOps c) v = v + vs.sum := by
  intro vs
  induction vs with
  | nil => intro v; simp
  | cons a vs ih =>
    intro v
    rw [foldl_cons, ih]
    rcases hc with rfl | rfl <;> simp [overlap, scalarOps, add_assoc]

theorem foldl_vector (c : Crit) (hc : c = .average ∨ c = .sum) : ∀ (vs : List Shape.V3) (v : Shape.V3),
    vs.foldl (overlap vectorOps c) v =
      ⟨v.x + (vs.map (·.x)).sum, v.y + (vs.map (·.y)).sum, v.z + (vs.map (·.z)).sum⟩ := by
  intro vs
  induction vs with
  | nil => intro v; simp
  | cons a vs ih =>
    intro v
    rw [foldl_cons, ih]
    have hx : ∀ a b : Shape.V3, a + b = ⟨a.x + b.x, a.y + b.y, a.z + b.z⟩ := fun _ _ => rfl
    rcases hc with rfl | rfl <;> simp [overlap, vectorOps, hx, add_assoc]

/-- C110, sum and average of scalars: on every entity of the target the result is the sum of the given values (zero
without any), divided by their number for the average. -/
theorem C110_scalar_sums (s : Rec ℝ) (w : World P) (t : Nat) (hl : s.loc = .point ∨ s.loc = .cell)
    (ht : s.geo = some t) (hd : Distinct w t) (hu : ∀ f ∈ s.subs, Usable w s.loc t f) :
    ∃ r, s.execute scalarOps w = some r ∧ ∀ j, On w t s.loc j →
      (s.crit = .sum → get r.result.data j = some (given w s.loc s.subs j).sum) ∧
      (s.crit = .average →
        get r.result.data j = some ((given w s.loc s.subs j).sum / (given w s.loc s.subs j).length)) := by
  obtain ⟨r, e, -, -, -, -, h5, -⟩ := execute_spec scalarOps s w t hl ht hd hu
  refine ⟨r, e, fun j hj => ?_⟩
  have h := h5 j hj
  cases hg : given w s.loc s.subs j with
  | nil => rw [hg] at h; simp [h, comb, scalarOps]
  | cons v vs =>
    rw [hg] at h
    constructor
    · intro hc
      rw [h, hc]
      simp [comb, foldl_scalar .sum (.inr rfl)]
    · intro hc
      rw [h, hc]
      simp only [comb, foldl_scalar .average (.inl rfl), if_true, sum_cons]
      rfl

/-- C110, sum and average of vectors, component by component. -/
theorem C110_vector_sums (s : Rec Shape.V3) (w : World P) (t : Nat) (hl : s.loc = .point ∨ s.loc = .cell)
    (ht : s.geo = some t) (hd : Distinct w t) (hu : ∀ f ∈ s.subs, Usable w s.loc t f) :
    ∃ r, s.execute vectorOps w = some r ∧ ∀ j, On w t s.loc j → ∀ l, l = given w s.loc s.subs j →
      (s.crit = .sum → get r.result.data j = some ⟨(l.map (·.x)).sum, (l.map (·.y)).sum, (l.map (·.z)).sum⟩) ∧
      (s.crit = .average → get r.result.data j =
        some ⟨(l.map (·.x)).sum / l.length, (l.map (·.y)).sum / l.length, (l.map (·.z)).sum / l.length⟩) := by
  obtain ⟨r, e, -, -, -, -, h5, -⟩ := execute_spec vectorOps s w t hl ht hd hu
  refine ⟨r, e, fun j hj l hl' => ?_⟩
  have h := h5 j hj
  rw [← hl'] at h
  cases l with
  | nil => simp [h, comb, vectorOps]
  | cons v vs =>
    constructor
    · intro hc
      rw [h, hc]
      simp [comb, foldl_vector .sum (.inr rfl)]
    · intro hc
      rw [h, hc]
      simp only [comb, foldl_vector .average (.inl rfl), if_true, map_cons, sum_cons]
      rfl

/-- C110: for every input there is one restriction of the result, in the same order: on the geometry of the input, with
the values of the result on exactly the entities shared with the target. -/
theorem C110_restrictions (o : Ops α) (s : Rec α) (w : World P) (t : Nat) (hl : s.loc = .point ∨ s.loc = .cell)
    (ht : s.geo = some t) (hd : Distinct w t) (hu : ∀ f ∈ s.subs, Usable w s.loc t f) :
    ∃ r, s.execute o w = some r ∧ r.subs = s.subs ∧
      List.Forall₂ (fun (f r' : Field Nat α) => r'.geo = f.geo ∧ r'.loc = s.loc ∧ Ok r'.data ∧
        ∀ j v, get r'.data j = some v ↔
          (∃ g, f.geo = some g ∧ On w g s.loc j) ∧ On w t s.loc j ∧ get r.result.data j = some v) s.subs r.subresults := by
  obtain ⟨r, e, -, -, -, -, -, h⟩ := execute_spec o s w t hl ht hd hu
  refine ⟨r, e, ?_, h⟩
  unfold Rec.execute at e
  simp only [ht, Option.bind_some, Option.bind_eq_some_iff, Option.map_eq_some_iff] at e
  obtain ⟨_, _, _, _, _, _, _, _, rfl⟩ := e
  rfl

/-- C110: the outcome does not depend on earlier results: two blocks that differ only in them give the same. -/
theorem C110_fresh (o : Ops α) (s : Rec α) (w : World P) (f : Field Nat α) (l : List (Field Nat α)) :
    ({ s with result := f, subresults := l } : Rec α).execute o w = s.execute o w := by
  unfold Rec.execute
  rfl

end Verif.Recon
