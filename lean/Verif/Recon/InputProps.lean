import Verif.Recon.ReconProps
/-
C110 concrete cases, C111: how the inputs of a reconstruction are given and removed.
-/
namespace Verif.Recon
open List hiding get
open Verif.Field Verif.Mesh

variable {P α : Type}

/-! ### Removal -/

theorem popWhile_spec (p : Option Nat) : ∀ (l : List (Field Nat α)),
    ((∀ f ∈ l, f.geo = p) → popWhile p l = none) ∧
    ((∃ f ∈ l, f.geo ≠ p) → ∃ R b m, popWhile p l = some (b :: m) ∧ l = R ++ b :: m ∧ (∀ f ∈ R, f.geo = p) ∧ b.geo ≠ p) := by
  intro l
  induction l with
  | nil => exact ⟨fun _ => rfl, by simp⟩
  | cons f l ih =>
    by_cases hf : f.geo = p
    · constructor
      · intro h
        simp only [popWhile, hf, if_true]
        exact ih.1 (fun x hx => h x (by simp [hx]))
      · rintro ⟨x, hx, hn⟩
        rcases mem_cons.1 hx with rfl | hx
        · exact absurd hf hn
        · obtain ⟨R, b, m, e, h1, h2, h3⟩ := ih.2 ⟨x, hx, hn⟩
          refine ⟨f :: R, b, m, by simp [popWhile, hf, e], by simp [h1], ?_, h3⟩
          intro y hy
          rcases mem_cons.1 hy with rfl | hy
          · exact hf
          · exact h2 y hy
    · constructor
      · intro h; exact absurd (h f (by simp)) hf
      · intro _
        exact ⟨[], f, l, by simp [popWhile, hf], rfl, by simp, hf⟩

theorem trim_none (p : Option Nat) (l : List (Field Nat α)) (h : ∀ f ∈ l, f.geo = p) : trim p l = none := by
  simp [trim, (popWhile_spec p l.reverse).1 (by simpa using h)]

theorem trim_some (p : Option Nat) (l : List (Field Nat α)) (h : ∃ f ∈ l, f.geo ≠ p) :
    ∃ m b R, trim p l = some (m ++ [b]) ∧ l = m ++ b :: R ∧ (∀ f ∈ R, f.geo = p) ∧ b.geo ≠ p := by
  obtain ⟨R, b, m, e, h1, h2, h3⟩ := (popWhile_spec p l.reverse).2 (by simpa using h)
  refine ⟨m.reverse, b, R.reverse, by simp [trim, e], ?_, by simpa using h2, h3⟩
  have := congrArg List.reverse h1
  simpa using this

/-- the inputs of other geometries -/
def others (p : Option Nat) (l : List (Field Nat α)) : List (Field Nat α) := l.filter (fun f => decide (f.geo ≠ p))

theorem others_all {p : Option Nat} {l : List (Field Nat α)} (h : ∀ f ∈ l, f.geo = p) : others p l = [] := by
  simp only [others, filter_eq_nil_iff, decide_eq_true_eq, ne_eq, not_not]
  exact h

theorem others_append (p : Option Nat) (l m : List (Field Nat α)) : others p (l ++ m) = others p l ++ others p m := by
  simp [others]

theorem sweep_spec (p : Option Nat) : ∀ (n : Nat) (A M : List (Field Nat α)) (b : Field Nat α),
    (∀ f ∈ A, f.geo ≠ p) → b.geo ≠ p → (M ++ [b]).length ≤ n →
    ∃ r, sweep p n A.length (A ++ (M ++ [b])) = some r ∧ (∀ f ∈ r, f.geo ≠ p) ∧ r.Perm (others p (A ++ (M ++ [b]))) := by
  intro n
  induction n with
  | zero => intro A M b _ _ h; simp at h
  | succ n ih =>
    intro A M b hA hb hlen
    have hdone : ∀ (B : List (Field Nat α)), (∀ f ∈ B, f.geo ≠ p) → ∀ k, ∃ r, sweep p k B.length B = some r ∧
        (∀ f ∈ r, f.geo ≠ p) ∧ r.Perm (others p B) := by
      intro B hB k
      have hp : B.Perm (others p B) := by
        unfold others
        rw [filter_eq_self.2 (by intro a ha; simpa using hB a ha)]
      cases k with
      | zero => exact ⟨B, rfl, hB, hp⟩
      | succ k => exact ⟨B, by simp [sweep], hB, hp⟩
    cases M with
    | nil =>
      have h1 : (A ++ ([] ++ [b]))[A.length]? = some b := by simp
      simp only [sweep, h1, if_neg hb]
      have hAb : ∀ f ∈ A ++ [b], f.geo ≠ p := by
        intro f hf
        rcases mem_append.1 hf with h | h
        · exact hA f h
        · simp only [mem_singleton] at h; subst h; exact hb
      have := hdone (A ++ [b]) hAb n
      simpa using this
    | cons f M =>
      have h1 : (A ++ (f :: M ++ [b]))[A.length]? = some f := by simp
      by_cases hf : f.geo = p
      · have h2 : (A ++ (f :: M ++ [b])).getLast? = some b := by
          rw [← append_assoc, getLast?_append]; simp
        have h3 : ((A ++ (f :: M ++ [b])).set A.length b).dropLast = A ++ b :: M := by
          rw [set_append_right _ _ (Nat.le_refl _)]
          simp only [Nat.sub_self, cons_append, set_cons_zero]
          rw [show A ++ b :: (M ++ [b]) = (A ++ b :: M) ++ [b] by simp, dropLast_concat]
        obtain ⟨m, c, R, e, h4, h5, h6⟩ := trim_some p (A ++ b :: M) ⟨b, by simp, hb⟩
        -- the kept part contains the position of the iterator
        have hlen' : A.length ≤ m.length := by
          rcases Nat.lt_or_ge m.length A.length with hlt | hge
          · exfalso
            have hR : b ∈ R := by
              have : (A ++ b :: M)[A.length]? = some b := by simp
              rw [h4, getElem?_append_right (by omega), getElem?_cons] at this
              have hne : A.length - m.length ≠ 0 := by omega
              rw [if_neg hne] at this
              exact mem_of_getElem? this
            exact hb (h5 b hR)
          · exact hge
        simp only [sweep, h1, if_pos hf, h2, h3, e, Option.bind_some]
        have hperm : (others p (m ++ [c])).Perm (others p (A ++ (f :: M ++ [b]))) := by
          have e1 : others p (m ++ [c]) = others p (A ++ b :: M) := by
            rw [h4, show m ++ c :: R = (m ++ [c]) ++ R by simp, others_append p (m ++ [c]) R, others_all h5, append_nil]
          rw [e1]
          have e2 : others p (A ++ (f :: M ++ [b])) = others p A ++ (others p M ++ [b]) := by
            simp [others, hf, hb]
          have e3 : others p (A ++ b :: M) = others p A ++ (b :: others p M) := by
            simp [others, hb]
          rw [e2, e3]
          exact Perm.append_left _ (perm_append_singleton b _).symm
        -- split the kept list at the next position
        have hsplit : (∃ m', m = A ++ b :: m') ∨ (m = A ∧ c = b) := by
          obtain ⟨d, hd⟩ : ∃ d, m = A ++ d := by
            refine ⟨m.drop A.length, ?_⟩
            have : A = m.take A.length := by
              have h := congrArg (List.take A.length) h4
              rw [take_append_of_le_length (Nat.le_refl _), take_append_of_le_length hlen'] at h
              simpa using h
            conv_lhs => rw [← take_append_drop A.length m, ← this]
          subst hd
          rw [append_assoc, append_cancel_left_eq] at h4
          cases d with
          | nil => simp only [nil_append, cons.injEq] at h4; right; simp [h4.1]
          | cons x d =>
            simp only [cons_append, cons.injEq] at h4
            left; exact ⟨d, by rw [h4.1]⟩
        have hA' : ∀ x ∈ A ++ [b], x.geo ≠ p := by
          intro x hx
          rcases mem_append.1 hx with h | h
          · exact hA x h
          · simp only [mem_singleton] at h; subst h; exact hb
        rcases hsplit with ⟨m', rfl⟩ | ⟨rfl, rfl⟩
        · have hlen2 : (m' ++ [c]).length ≤ n := by
            have := congrArg List.length h4
            simp at this hlen ⊢
            omega
          obtain ⟨r, e', h7, h8⟩ := ih (A ++ [b]) m' c hA' h6 hlen2
          refine ⟨r, ?_, h7, ?_⟩
          · simpa using e'
          · exact h8.trans (by simpa using hperm)
        · obtain ⟨r, e', h7, h8⟩ := hdone (m ++ [c]) hA' n
          exact ⟨r, by simpa using e', h7, h8.trans hperm⟩
      · simp only [sweep, h1, if_neg hf]
        obtain ⟨r, e, h2, h3⟩ := ih (A ++ [f]) M b (by
          intro x hx
          rcases mem_append.1 hx with h | h
          · exact hA x h
          · simp only [mem_singleton] at h; subst h; exact hf) hb (by simp at hlen ⊢; omega)
        exact ⟨r, by simpa using e, h2, by simpa using h3⟩

/-- C111, partial: if some input belongs to another geometry, removing those of a geometry keeps exactly the others (each
as many times as before).  Full statement: also if none is left; `C111_remove_fails`. -/
theorem C111_remove_partial (s : Rec α) (p : Option Nat) (h : ∃ f ∈ s.subs, f.geo ≠ p) :
    ∃ r, s.removeData p = some r ∧ r.subs.Perm (s.subs.filter (fun f => decide (f.geo ≠ p))) ∧
      r.crit = s.crit ∧ r.loc = s.loc ∧ r.geo = s.geo ∧ r.result = s.result := by
  obtain ⟨m, b, R, e, h1, h2, h3⟩ := trim_some p s.subs h
  obtain ⟨r, e', h4, h5⟩ := sweep_spec p (m ++ [b]).length [] m b (by simp) h3 (Nat.le_refl _)
  refine ⟨{ s with subs := r }, ?_, ?_, rfl, rfl, rfl, rfl⟩
  · simp only [Rec.removeData, e, Option.bind_some]
    simp only [length_nil, nil_append] at e'
    rw [e', Option.map_some]
  · have e1 : others p (m ++ [b]) = others p s.subs := by
      rw [h1, show m ++ b :: R = (m ++ [b]) ++ R by simp, others_append p (m ++ [b]) R, others_all h2, append_nil]
    exact h5.trans (by rw [nil_append, e1]; exact Perm.refl _)

/-- C111: removing the inputs of a geometry when no other input is there (or there is none at all) is undefined. -/
theorem C111_remove_fails (s : Rec α) (p : Option Nat) (h : ∀ f ∈ s.subs, f.geo = p) : s.removeData p = none := by
  simp [Rec.removeData, trim_none p s.subs h]

/-! ### Adding -/

/-- C111, partial: an input with a geometry is put last, unless it lies on a point cloud and the block works on cells;
a null pointer changes nothing.  Full statement: inputs without geometry or with another location are refused;
`C111_null_fails`, `C111_location_fails`. -/
theorem C111_add_partial (s : Rec α) (w : World P) (f : Field Nat α) (g : Nat) (hg : f.geo = some g) :
    (¬ ((w.obj g).type = 3 ∧ s.loc = .cell) → s.addData w (some f) = some { s with subs := s.subs ++ [f] }) ∧
    ((w.obj g).type = 3 → s.loc = .cell → s.addData w (some f) = some s) ∧ s.addData w none = some s := by
  refine ⟨fun h => ?_, fun h1 h2 => ?_, rfl⟩ <;> simp only [Rec.addData, hg]
  · rw [if_neg h]
  · rw [if_pos ⟨h1, h2⟩]

/-- C111: an input without geometry but with the location of the block is not refused: the null pointer is followed. -/
theorem C111_null_fails (s : Rec α) (w : World P) (f : Field Nat α) (hg : f.geo = none) :
    (f.loc = s.loc → s.addData w (some f) = none) ∧ (f.loc ≠ s.loc → s.addData w (some f) = some s) := by
  constructor <;> intro h <;> simp [Rec.addData, hg, h]

example : (make none .point : Field Nat ℝ).geo = none ∧ (make none .point : Field Nat ℝ).loc = (Rec.new .undefined .max : Rec ℝ).loc := by
  decide

/-- C111: a criterion in 1..4 is adopted, any other number changes nothing. -/
theorem C111_criterion (s : Rec α) (c : Int) :
    (1 ≤ c → c ≤ 4 → (s.setCrit c).crit.code = c) ∧ (¬ (1 ≤ c ∧ c ≤ 4) → s.setCrit c = s) := by
  unfold Rec.setCrit
  constructor
  · intro h1 h2
    rw [if_neg (by omega)]
    rcases (by omega : c = 1 ∨ c = 2 ∨ c = 3 ∨ c = 4) with rfl | rfl | rfl | rfl <;> rfl
  · intro h
    rw [if_pos (by omega)]

example : ((Rec.new .cell .max : Rec ℝ).setCrit 3).crit = .average := rfl

/-- C111: the location of a block is points or cells, whatever is asked, and no operation changes it: a run with a target
and no inputs gives zero everywhere. -/
theorem C111_empty (o : Ops α) (l : Loc) (c : Crit) (w : World P) (t : Nat) (hd : Distinct w t) :
    ∃ r, ({ (Rec.new l c : Rec α) with geo := some t }).execute o w = some r ∧
      (r.result.loc = if l = .cell then .cell else .point) ∧ r.subresults = [] ∧
      ∀ j, get r.result.data j = some o.zero ↔ On w t r.result.loc j := by
  have hl : (Rec.new l c : Rec α).loc = if l = .cell then .cell else .point := by
    cases l <;> simp [Rec.new]
  have hl' : (Rec.new l c : Rec α).loc = .point ∨ (Rec.new l c : Rec α).loc = .cell := by
    rw [hl]; split <;> simp
  obtain ⟨r, e, h1, h2, h3, h4, h5, h6⟩ := execute_spec o ({ (Rec.new l c : Rec α) with geo := some t }) w t hl' rfl hd
    (by simp [Rec.new])
  refine ⟨r, e, by rw [h2]; exact hl, by simpa [Rec.new] using h6, ?_⟩
  intro j
  rw [h2]
  constructor
  · intro h
    by_contra hj
    rw [h4 j hj] at h
    simp at h
  · intro hj
    rw [h5 j hj]
    simp [given, Rec.new, comb]

/-! ### Concrete cases: two overlapping patches (geometries 0 and 1 of `world`) on a target (geometry 0) -/

noncomputable def fa : Field Nat ℝ := { (make (some 0) .cell : Field Nat ℝ) with data := [(0, 1), (1, 2)] }
noncomputable def fb : Field Nat ℝ := { (make (some 1) .cell : Field Nat ℝ) with data := [(1, 5), (5, 9)] }

noncomputable def block (c : Crit) : Rec ℝ := { loc := .cell, crit := c, geo := some 0, subs := [fa, fb] }

theorem on_cells0 (j : Nat) : On world 0 .cell j ↔ j = 0 ∨ j = 1 := by
  simp only [On, world, if_true, plate, bare, mem_cons, Prod.mk.injEq, not_mem_nil, or_false]
  constructor
  · rintro ⟨c, ⟨rfl, -⟩ | ⟨rfl, -⟩⟩ <;> simp
  · rintro (rfl | rfl)
    · exact ⟨_, .inl ⟨rfl, rfl⟩⟩
    · exact ⟨_, .inr ⟨rfl, rfl⟩⟩

theorem on_cells1 (j : Nat) : On world 1 .cell j ↔ j = 1 ∨ j = 5 := by
  simp only [On, world, Nat.succ_ne_self, if_false, if_true, piece, bare, mem_cons, Prod.mk.injEq, not_mem_nil, or_false]
  constructor
  · rintro ⟨c, ⟨rfl, -⟩ | ⟨rfl, -⟩⟩ <;> simp
  · rintro (rfl | rfl)
    · exact ⟨_, .inl ⟨rfl, rfl⟩⟩
    · exact ⟨_, .inr ⟨rfl, rfl⟩⟩

theorem block_usable (c : Crit) : ∀ f ∈ (block c).subs, Usable world (block c).loc 0 f := by
  intro f hf
  simp only [block, mem_cons, not_mem_nil, or_false] at hf
  rcases hf with rfl | rfl
  · refine ⟨0, rfl, distinct_world.1, ?_⟩
    intro j hj _
    rcases (on_cells0 j).1 hj with rfl | rfl <;> simp [fa, Field.get]
  · refine ⟨1, rfl, distinct_world.2, ?_⟩
    intro j hj _
    rcases (on_cells1 j).1 hj with rfl | rfl <;> simp [fb, Field.get]

theorem block_given (c : Crit) : given world (block c).loc (block c).subs 1 = [2, 5] := by
  have h1 : ∃ g, fa.geo = some g ∧ On world g .cell 1 := ⟨0, rfl, (on_cells0 1).2 (.inr rfl)⟩
  have h2 : ∃ g, fb.geo = some g ∧ On world g .cell 1 := ⟨1, rfl, (on_cells1 1).2 (.inl rfl)⟩
  show given world .cell [fa, fb] 1 = _
  rw [given_cons, given_cons, if_pos h1, if_pos h2]
  simp [given, fa, fb, Field.get]

example : (block .sum).loc = .cell ∧ (block .sum).geo = some 0 ∧ Distinct world 0 ∧
    (∀ f ∈ (block .sum).subs, Usable world (block .sum).loc 0 f) ∧ On world 0 .cell 1 ∧
    given world (block .sum).loc (block .sum).subs 1 ≠ [] :=
  ⟨rfl, rfl, distinct_world.1, block_usable _, (on_cells0 1).2 (.inr rfl), by rw [block_given]; simp⟩

/-- C110 on the example: 2 and 5 overlap. -/
example : (∃ r, (block .sum).execute scalarOps world = some r ∧ get r.result.data 1 = some 7) ∧
    (∃ r, (block .average).execute scalarOps world = some r ∧ get r.result.data 1 = some (7 / 2)) := by
  have hj : On world 0 .cell 1 := (on_cells0 1).2 (.inr rfl)
  constructor
  · obtain ⟨r, e, h⟩ := C110_scalar_sums (block .sum) world 0 (.inr rfl) rfl distinct_world.1 (block_usable _)
    refine ⟨r, e, ?_⟩
    rw [(h 1 hj).1 rfl, block_given]
    norm_num
  · obtain ⟨r, e, h⟩ := C110_scalar_sums (block .average) world 0 (.inr rfl) rfl distinct_world.1 (block_usable _)
    refine ⟨r, e, ?_⟩
    rw [(h 1 hj).2 rfl, block_given]
    norm_num

example : ∃ f ∈ (block .max).subs, f.geo ≠ some 0 := ⟨fb, by simp [block], by simp [fb, make]⟩

/-- C110: an input that lacks the value of a shared entity makes the run undefined. -/
theorem C110_incomplete_fails (o : Ops ℝ) : ∃ f : Field Nat ℝ, f.geo = some 0 ∧ f.loc = .cell ∧ f.data ≠ [] ∧
    ({ loc := .cell, crit := .max, geo := some 0, subs := [f] } : Rec ℝ).execute o world = none := by
  refine ⟨{ fa with data := [(0, 1)] }, rfl, rfl, by simp, ?_⟩
  simp [Rec.execute, recSub, locIds, cellIds, world, plate, bare, fa, make, recId, Field.get, ins, has]

/-- C111: an input located on points is accepted by a block on cells, and its point values are taken for cell values. -/
theorem C111_location_fails : ∃ (s s' r : Rec ℝ) (f : Field Nat ℝ), s.loc = .cell ∧ f.loc = .point ∧
    s.addData world (some f) = some s' ∧ s'.execute scalarOps world = some r ∧ get r.result.data 1 = some 42 := by
  let f : Field Nat ℝ := { (make (some 0) .point : Field Nat ℝ) with data := [(0, 40), (1, 42), (2, 44), (3, 46)] }
  let s : Rec ℝ := { loc := .cell, crit := .sum, geo := some 0 }
  have hu : ∀ x ∈ [f], Usable world .cell 0 x := by
    intro x hx
    simp only [mem_singleton] at hx
    subst hx
    refine ⟨0, rfl, distinct_world.1, ?_⟩
    intro j hj _
    rcases (on_cells0 j).1 hj with rfl | rfl <;> simp [f, Field.get]
  obtain ⟨r, e, h⟩ := C110_scalar_sums { s with subs := [f] } world 0 (.inr rfl) rfl distinct_world.1 hu
  refine ⟨s, { s with subs := [f] }, r, f, rfl, rfl, rfl, e, ?_⟩
  have hj : On world 0 .cell 1 := (on_cells0 1).2 (.inr rfl)
  rw [(h 1 hj).1 rfl]
  show some (given world .cell [f] 1).sum = _
  rw [given_cons, if_pos ⟨0, rfl, hj⟩]
  simp [given, f, Field.get]

/-- C111: the remaining inputs do not keep their order: the last one takes the place of a removed one. -/
theorem C111_order_fails (a b c : Field Nat α) (ha : a.geo = some 0) (hb : b.geo = some 1) (hc : c.geo = some 2) (l : Loc)
    (k : Crit) : ∃ r, ({ loc := l, crit := k, subs := [a, b, c] } : Rec α).removeData (some 0) = some r ∧ r.subs = [c, b] := by
  refine ⟨{ loc := l, crit := k, subs := [c, b] }, ?_, rfl⟩
  simp [Rec.removeData, trim, popWhile, sweep, ha, hb, hc]

example : (make (some 0) .point : Field Nat ℝ).geo = some 0 ∧ (make (some 1) .point : Field Nat ℝ).geo = some 1 ∧
    (make (some 2) .point : Field Nat ℝ).geo = some 2 := ⟨rfl, rfl, rfl⟩

end Verif.Recon
