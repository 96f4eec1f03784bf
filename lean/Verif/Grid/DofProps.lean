import Verif.Grid.LoopProps
import Verif.Grid.BuildProps
/-
C75: the degrees of freedom of a lattice are numbered without gaps.
-/
namespace Verif.Grid
open Real Verif.Shape

/-- which nodes go together, by their indices: the node with the least number -/
def repT (kind : Kind) (per north south : Prop) [Decidable per] [Decidable north] [Decidable south] (nx ny nz i j k : Nat) : Nat × Nat × Nat :=
  match kind with
  | .cube => (i, j, k)
  | .wedge => (i, j, if i = nx then 0 else k)
  | .cylinder => (i, if per ∧ j = ny then 0 else j, k)
  | .sphere => (i, if (per ∧ j = ny - 1) ∨ (north ∧ k = 0) ∨ (south ∧ k = nz) then 0 else j, k)

def repN (kind : Kind) (per north south : Prop) [Decidable per] [Decidable north] [Decidable south] (nx ny nz n : Nat) : Nat :=
  let t := repT kind per north south nx ny nz (n / (nz + 1) / (ny + 1)) (n / (nz + 1) % (ny + 1)) (n % (nz + 1))
  at3 (ny + 1) (nz + 1) t.1 t.2.1 t.2.2

theorem at3_inj {b c i j k i' j' k' : Nat} (hj : j < b) (hk : k < c) (hj' : j' < b) (hk' : k' < c) :
    at3 b c i j k = at3 b c i' j' k' ↔ i = i' ∧ j = j' ∧ k = k' := by
  constructor
  · intro h
    obtain ⟨a1, a2, a3⟩ := at3_parts (i := i) hj hk
    obtain ⟨b1, b2, b3⟩ := at3_parts (i := i') hj' hk'
    rw [h] at a1 a2 a3
    exact ⟨a3.symm.trans b3, a2.symm.trans b2, a1.symm.trans b1⟩
  · rintro ⟨rfl, rfl, rfl⟩; rfl

section
variable (kind : Kind) (per north south : Prop) [Decidable per] [Decidable north] [Decidable south]

theorem repN_at {nx ny nz i j k : Nat} (hj : j < ny + 1) (hk : k < nz + 1) :
    repN kind per north south nx ny nz (at3 (ny + 1) (nz + 1) i j k) =
      at3 (ny + 1) (nz + 1) (repT kind per north south nx ny nz i j k).1 (repT kind per north south nx ny nz i j k).2.1
        (repT kind per north south nx ny nz i j k).2.2 := by
  obtain ⟨h1, h2, h3⟩ := at3_parts (i := i) hj hk
  unfold repN
  rw [h1, h2, h3]

theorem repT_bounds {nx ny nz i j k : Nat} (hj : j < ny + 1) (hk : k < nz + 1) :
    (repT kind per north south nx ny nz i j k).1 = i ∧ (repT kind per north south nx ny nz i j k).2.1 ≤ j ∧
      (repT kind per north south nx ny nz i j k).2.2 ≤ k ∧ (repT kind per north south nx ny nz i j k).2.1 < ny + 1 ∧
      (repT kind per north south nx ny nz i j k).2.2 < nz + 1 := by
  cases kind <;> dsimp only [repT] <;> refine ⟨rfl, ?_, ?_, ?_, ?_⟩ <;> (try split) <;> omega

theorem repT_idem {nx ny nz i j k : Nat} :
    repT kind per north south nx ny nz (repT kind per north south nx ny nz i j k).1 (repT kind per north south nx ny nz i j k).2.1
      (repT kind per north south nx ny nz i j k).2.2 = repT kind per north south nx ny nz i j k := by
  cases kind with
  | cube => rfl
  | wedge => simp only [repT]; by_cases h : i = nx <;> simp [h]
  | cylinder =>
    simp only [repT]
    by_cases h : per ∧ j = ny
    · simp [h]
    · simp [h]
  | sphere =>
    simp only [repT]
    by_cases h : (per ∧ j = ny - 1) ∨ (north ∧ k = 0) ∨ (south ∧ k = nz)
    · simp [h]
    · simp [h]

end

theorem mem_row {b c i0 k2 i j k m : Nat} (hj : j < b) (hk : k < c) (hm : m ≤ b) (hk2 : k2 < c) :
    at3 b c i j k ∈ (List.range m).map (fun x => at3 b c i0 x k2) ↔ i = i0 ∧ k = k2 ∧ j < m := by
  simp only [List.mem_map, List.mem_range]
  constructor
  · rintro ⟨x, hx, e⟩
    obtain ⟨h1, h2, h3⟩ := (at3_inj (by omega) hk2 hj hk).1 e
    omega
  · rintro ⟨rfl, rfl, h⟩; exact ⟨j, h, rfl⟩

theorem mem_col {b c i0 j0 i j k m : Nat} (hj : j < b) (hk : k < c) (hm : m ≤ c) (hj0 : j0 < b) :
    at3 b c i j k ∈ (List.range m).map (fun x => at3 b c i0 j0 x) ↔ i = i0 ∧ j = j0 ∧ k < m := by
  simp only [List.mem_map, List.mem_range]
  constructor
  · rintro ⟨x, hx, e⟩
    obtain ⟨h1, h2, h3⟩ := (at3_inj hj0 (by omega) hj hk).1 e
    omega
  · rintro ⟨rfl, rfl, h⟩; exact ⟨k, h, rfl⟩

theorem localOrigin_x {s : Shape} (h : s.kind = .cylinder ∨ s.kind = .sphere) : ¬ (localOrigin s).x > 0 := by
  rcases h with h | h <;> simp [localOrigin, h]

section
open scoped Classical

/-- the rule for a shape -/
noncomputable def repOf (s : Shape) (nx ny nz : Nat) : Nat → Nat :=
  repN s.kind (s.coord 1 = .periodic) (s.inf.z = 0) (s.inf.z + s.span.z = π) nx ny nz

theorem sphere_rule (P N S : Prop) {ny nz i j k i' j' k' : Nat} (hy : 2 ≤ ny)
    [Decidable ((P ∧ j = ny - 1) ∨ (N ∧ k = 0) ∨ (S ∧ k = nz))] [Decidable ((P ∧ j' = ny - 1) ∨ (N ∧ k' = 0) ∨ (S ∧ k' = nz))]
    (hfix : True ∧ (if (P ∧ j = ny - 1) ∨ (N ∧ k = 0) ∨ (S ∧ k = nz) then 0 else j) = j ∧ True) :
    (i' = i ∧ (if (P ∧ j' = ny - 1) ∨ (N ∧ k' = 0) ∨ (S ∧ k' = nz) then 0 else j') = j ∧ k' = k) ↔
      (i' = i ∧ j' = j ∧ k' = k) ∨ (((P ∧ j = 0) ∧ i' = i ∧ j' = ny - 1 ∧ k' = k) ∨ (N ∧ k = 0) ∧ i' = i ∧ k' = k) ∨
        (S ∧ k = nz) ∧ i' = i ∧ k' = k := by
  replace hfix := hfix.2.1
  grind

theorem also_rule (s : Shape) {nx ny nz i j k i' j' k' : Nat} (hy1 : 1 ≤ ny) (hy : s.kind = .sphere → 2 ≤ ny) (hj : j < ny + 1) (hk : k < nz + 1)
    (hj' : j' < ny + 1) (hk' : k' < nz + 1) (a b c : Int)
    (hfix : repT s.kind (s.coord 1 = .periodic) (s.inf.z = 0) (s.inf.z + s.span.z = π) nx ny nz i j k = (i, j, k)) :
    repT s.kind (s.coord 1 = .periodic) (s.inf.z = 0) (s.inf.z + s.span.z = π) nx ny nz i' j' k' = (i, j, k) ↔
      (i' = i ∧ j' = j ∧ k' = k) ∨
        at3 (ny + 1) (nz + 1) i' j' k' ∈ also s.kind (reduceDim s a b c).2 nx ny nz (at3 (ny + 1) (nz + 1) i j k) := by
  obtain ⟨p1, p2, p3⟩ := at3_parts (i := i) hj hk
  have eat : ∀ x y z, (ny + 1) * (nz + 1) * x + (nz + 1) * y + z = at3 (ny + 1) (nz + 1) x y z := fun _ _ _ => rfl
  rcases hkd : s.kind
  · -- cube
    rw [hkd] at hfix
    simp [repT, also]
  · -- cylinder
    rw [hkd] at hfix
    have hno := localOrigin_x (.inl hkd)
    unfold also
    rw [p1, p2, p3]
    simp only [reduceDim, hkd, hno, eat, decide_false, List.getElem?_cons_zero, List.getElem?_cons_succ, Option.getD_some,
      Bool.false_eq_true, false_and, if_false, List.nil_append, decide_eq_true_eq, repT, Prod.mk.injEq] at hfix ⊢
    by_cases hp : s.coord 1 = .periodic
    · simp only [hp, true_and] at hfix ⊢
      by_cases hj0 : j = 0
      · subst hj0
        simp only [if_true, List.mem_singleton, at3_inj hj' hk' (by omega : ny < ny + 1) hk]
        split <;> omega
      · simp only [hj0, if_false, List.not_mem_nil, or_false]
        by_cases h1 : j = ny
        · subst h1; simp at hfix; omega
        · split <;> omega
    · simp [hp]
  · -- sphere
    rw [hkd] at hfix
    have hno := localOrigin_x (.inr hkd)
    unfold also
    rw [p1, p2, p3]
    simp only [reduceDim, hkd, hno, eat, decide_false, List.getElem?_cons_zero, List.getElem?_cons_succ, Option.getD_some,
      Bool.false_eq_true, false_and, if_false, List.nil_append, decide_eq_true_eq, repT, Prod.mk.injEq, List.mem_append] at hfix ⊢
    have m1 : ∀ (q : Prop) [Decidable q], (at3 (ny + 1) (nz + 1) i' j' k' ∈ if q then [at3 (ny + 1) (nz + 1) i (ny - 1) k] else []) ↔
        (q ∧ i' = i ∧ j' = ny - 1 ∧ k' = k) := by
      intro q _
      by_cases hq : q
      · simp only [hq, if_true, List.mem_singleton, true_and, at3_inj hj' hk' (by omega : ny - 1 < ny + 1) hk]
      · simp [hq]
    have m2 : ∀ (q : Prop) [Decidable q], (at3 (ny + 1) (nz + 1) i' j' k' ∈ if q then (List.range (ny + 1)).map (fun k1 => at3 (ny + 1) (nz + 1) i k1 k) else []) ↔
        (q ∧ i' = i ∧ k' = k) := by
      intro q _
      by_cases hq : q
      · simp only [hq, if_true, true_and, mem_row hj' hk' (le_refl _) hk]; omega
      · simp [hq]
    rw [m1, m2, m2]
    clear m1 m2 p1 p2 p3 eat
    exact sphere_rule _ _ _ (hy hkd) hfix
  · -- wedge
    rw [hkd] at hfix
    unfold also
    rw [p1, p2, p3]
    simp only [reduceDim, hkd, eat, List.getElem?_cons_zero, Option.getD_some, true_and, repT, Prod.mk.injEq] at hfix ⊢
    by_cases hi : i = nx
    · subst hi
      simp only [if_true, mem_col hj' hk' (le_refl _) hj] at hfix ⊢
      split <;> omega
    · simp only [hi, if_false, List.not_mem_nil, or_false] at hfix ⊢
      split <;> omega

theorem repOf_at (s : Shape) {nx ny nz i j k : Nat} (hj : j < ny + 1) (hk : k < nz + 1) :
    repOf s nx ny nz (at3 (ny + 1) (nz + 1) i j k) =
      at3 (ny + 1) (nz + 1) (repT s.kind (s.coord 1 = .periodic) (s.inf.z = 0) (s.inf.z + s.span.z = π) nx ny nz i j k).1
        (repT s.kind (s.coord 1 = .periodic) (s.inf.z = 0) (s.inf.z + s.span.z = π) nx ny nz i j k).2.1
        (repT s.kind (s.coord 1 = .periodic) (s.inf.z = 0) (s.inf.z + s.span.z = π) nx ny nz i j k).2.2 :=
  repN_at _ _ _ _ hj hk

theorem repOf_eq (s : Shape) {nx ny nz i j k i' j' k' : Nat} (hj : j < ny + 1) (hk : k < nz + 1) (hj' : j' < ny + 1) (hk' : k' < nz + 1) :
    repOf s nx ny nz (at3 (ny + 1) (nz + 1) i' j' k') = at3 (ny + 1) (nz + 1) i j k ↔
      repT s.kind (s.coord 1 = .periodic) (s.inf.z = 0) (s.inf.z + s.span.z = π) nx ny nz i' j' k' = (i, j, k) := by
  rw [repOf_at s hj' hk']
  obtain ⟨b1, b2, b3, b4, b5⟩ := repT_bounds s.kind (s.coord 1 = .periodic) (s.inf.z = 0) (s.inf.z + s.span.z = π) (nx := nx) (i := i') hj' hk'
  rw [at3_inj b4 b5 hj hk, Prod.ext_iff, Prod.ext_iff]

theorem repOf_le (s : Shape) {nx ny nz n : Nat} (hn : n < (nx + 1) * (ny + 1) * (nz + 1)) : repOf s nx ny nz n ≤ n := by
  obtain ⟨h1, h2, h3⟩ := at3_bounds hn
  have e := at3_of (b := ny + 1) (c := nz + 1) n
  generalize n / (nz + 1) / (ny + 1) = i at *
  generalize n / (nz + 1) % (ny + 1) = j at *
  generalize n % (nz + 1) = k at *
  subst e
  rw [repOf_at s h2 h3]
  obtain ⟨b1, b2, b3, b4, b5⟩ := repT_bounds s.kind (s.coord 1 = .periodic) (s.inf.z = 0) (s.inf.z + s.span.z = π) (nx := nx) (i := i) h2 h3
  rw [b1]
  unfold at3
  have := Nat.mul_le_mul_left (nz + 1) b2
  omega

theorem repOf_idem (s : Shape) {nx ny nz n : Nat} (hn : n < (nx + 1) * (ny + 1) * (nz + 1)) :
    repOf s nx ny nz (repOf s nx ny nz n) = repOf s nx ny nz n := by
  obtain ⟨h1, h2, h3⟩ := at3_bounds hn
  have e := at3_of (b := ny + 1) (c := nz + 1) n
  generalize n / (nz + 1) / (ny + 1) = i at *
  generalize n / (nz + 1) % (ny + 1) = j at *
  generalize n % (nz + 1) = k at *
  subst e
  rw [repOf_at s h2 h3]
  obtain ⟨b1, b2, b3, b4, b5⟩ := repT_bounds s.kind (s.coord 1 = .periodic) (s.inf.z = 0) (s.inf.z + s.span.z = π) (nx := nx) (i := i) h2 h3
  rw [repOf_at s b4 b5, repT_idem]

/-- the loop gives every node the rank of its representative -/
theorem mapDof_spec (s : Shape) {nx ny nz : Nat} (hy1 : 1 ≤ ny) (hy : s.kind = .sphere → 2 ≤ ny) :
    (mapDof s nx ny nz).2 = numbering (repOf s nx ny nz) ((nx + 1) * (ny + 1) * (nz + 1)) := by
  unfold mapDof
  refine numberLoop_spec (fun n hn => repOf_le s hn) (fun n hn => repOf_idem s hn) ?_
  intro n hn hfix m hm
  obtain ⟨h1, h2, h3⟩ := at3_bounds hn
  have e := at3_of (b := ny + 1) (c := nz + 1) n
  generalize n / (nz + 1) / (ny + 1) = i at *
  generalize n / (nz + 1) % (ny + 1) = j at *
  generalize n % (nz + 1) = k at *
  subst e
  obtain ⟨h1', h2', h3'⟩ := at3_bounds hm
  have e := at3_of (b := ny + 1) (c := nz + 1) m
  generalize m / (nz + 1) / (ny + 1) = i' at *
  generalize m / (nz + 1) % (ny + 1) = j' at *
  generalize m % (nz + 1) = k' at *
  subst e
  rw [repOf_eq s h2 h3 h2 h3] at hfix
  rw [repOf_eq s h2 h3 h2' h3', at3_inj h2' h3' h2 h3]
  exact also_rule s hy1 hy h2 h3 h2' h3' _ _ _ hfix

theorem count_const {c : Nat} {p : Nat → Prop} [DecidablePred p] (h : ∀ k < c, p k) : Nat.count p c = c := by
  induction c with
  | zero => rfl
  | succ c ih => rw [Nat.count_succ, ih (fun k hk => h k (by omega)), if_pos (h c (by omega))]

theorem count_none {c : Nat} {p : Nat → Prop} [DecidablePred p] (h : ∀ k < c, ¬ p k) : Nat.count p c = 0 := by
  induction c with
  | zero => rfl
  | succ c ih => rw [Nat.count_succ, ih (fun k hk => h k (by omega)), if_neg (h c (by omega))]

theorem count_same {c : Nat} {p q : Nat → Prop} [DecidablePred p] [DecidablePred q] (h : ∀ k < c, (p k ↔ q k)) : Nat.count p c = Nat.count q c := by
  induction c with
  | zero => rfl
  | succ c ih => rw [Nat.count_succ, Nat.count_succ, ih (fun k hk => h k (by omega)), if_congr (h c (by omega)) rfl rfl]

theorem count_mid (N S : Prop) {nz : Nat} (hz : 1 ≤ nz) :
    (Nat.count (fun k => ¬ (N ∧ k = 0) ∧ ¬ (S ∧ k = nz)) (nz + 1) : Int) = nz + 1 - (if N then 1 else 0) - (if S then 1 else 0) := by
  obtain ⟨r, rfl⟩ : ∃ r, nz = r + 1 := ⟨nz - 1, by omega⟩
  rw [Nat.count_succ, Nat.count_succ', count_const (fun k hk => ⟨by omega, by omega⟩)]
  by_cases hN : N <;> by_cases hS : S <;> simp [hN, hS] <;> omega

theorem sphere_row (P N S : Prop) {q nz : Nat} (hz : 1 ≤ nz) :
    ((∑ j ∈ Finset.range (q + 2 + 1), Nat.count (fun k => (if (P ∧ j = q + 1) ∨ (N ∧ k = 0) ∨ (S ∧ k = nz) then 0 else j) = j) (nz + 1) : Nat) : Int) =
      (nz + 1) + (q + 2 - (if P then 1 else 0)) * (nz + 1 - (if N then 1 else 0) - (if S then 1 else 0)) := by
  have h0 : Nat.count (fun k => (if (P ∧ 0 = q + 1) ∨ (N ∧ k = 0) ∨ (S ∧ k = nz) then 0 else 0) = 0) (nz + 1) = nz + 1 :=
    count_const (fun k _ => by simp)
  have h1 : ∀ j, j ≠ 0 → j ≠ q + 1 → (Nat.count (fun k => (if (P ∧ j = q + 1) ∨ (N ∧ k = 0) ∨ (S ∧ k = nz) then 0 else j) = j) (nz + 1)) =
      Nat.count (fun k => ¬ (N ∧ k = 0) ∧ ¬ (S ∧ k = nz)) (nz + 1) := by
    intro j hj0 hj1
    apply count_same
    intro k _
    grind
  have h2 : (Nat.count (fun k => (if (P ∧ q + 1 = q + 1) ∨ (N ∧ k = 0) ∨ (S ∧ k = nz) then 0 else q + 1) = q + 1) (nz + 1)) =
      if P then 0 else Nat.count (fun k => ¬ (N ∧ k = 0) ∧ ¬ (S ∧ k = nz)) (nz + 1) := by
    by_cases hP : P
    · rw [if_pos hP]; exact count_none (fun k _ => by simp [hP])
    · rw [if_neg hP]; apply count_same; intro k _; grind
  have hm := count_mid N S hz
  rw [Finset.sum_range_succ, Finset.sum_range_succ, Finset.sum_range_succ', h0, h1 (q + 2) (by omega) (by omega), h2,
    Finset.sum_congr rfl (fun j hj => h1 (j + 1) (by omega) (by have := Finset.mem_range.1 hj; omega)), Finset.sum_const, Finset.card_range,
    smul_eq_mul]
  by_cases hP : P
  · simp only [hP, if_true]; push_cast; rw [hm]; ring
  · simp only [hP, if_false]; push_cast; rw [hm]; ring

/-- the number of representatives is the number of degrees of freedom announced -/
theorem count_rule (s : Shape) {nx ny nz : Nat} (hy1 : 1 ≤ ny) (hz : 1 ≤ nz) (hy : s.kind = .sphere → 2 ≤ ny) :
    (rank (repOf s nx ny nz) ((nx + 1) * (ny + 1) * (nz + 1)) : Int) = (mapDof s nx ny nz).1 := by
  have step : rank (repOf s nx ny nz) ((nx + 1) * (ny + 1) * (nz + 1)) = ∑ i ∈ Finset.range (nx + 1), ∑ j ∈ Finset.range (ny + 1),
      Nat.count (fun k => repT s.kind (s.coord 1 = .periodic) (s.inf.z = 0) (s.inf.z + s.span.z = π) nx ny nz i j k = (i, j, k)) (nz + 1) := by
    unfold rank
    rw [count_box]
    apply Finset.sum_congr rfl; intro i _
    apply Finset.sum_congr rfl; intro j hj
    apply count_same
    intro k hk
    have hj' := Finset.mem_range.1 hj
    exact repOf_eq s hj' hk hj' hk
  rw [step]
  unfold mapDof reduceDim
  rcases hkd : s.kind
  · -- cube
    simp only [repT, Nat.count_true, Finset.sum_const, Finset.card_range, smul_eq_mul]
    push_cast; ring
  · -- cylinder
    have hno := localOrigin_x (.inl hkd)
    simp only [repT, Prod.mk.injEq, true_and, and_true, hno, decide_false, Bool.false_eq_true, if_false, decide_eq_true_eq]
    by_cases hp : s.coord 1 = .periodic
    · have : ∀ j ∈ Finset.range ny, Nat.count (fun _ => (if s.coord 1 = .periodic ∧ j = ny then 0 else j) = j) (nz + 1) = nz + 1 := by
        intro j hj
        have := Finset.mem_range.1 hj
        exact count_const (fun k _ => if_neg (by omega))
      rw [Finset.sum_congr rfl (fun i _ => by rw [Finset.sum_range_succ, Finset.sum_congr rfl this, count_none (fun k _ => by simp [hp]; omega)])]
      simp only [Finset.sum_const, Finset.card_range, smul_eq_mul, hp, if_true]
      push_cast; ring
    · simp only [hp, false_and, if_false, Nat.count_true, Finset.sum_const, Finset.card_range, smul_eq_mul]
      push_cast; ring
  · -- sphere
    have hno := localOrigin_x (.inr hkd)
    obtain ⟨q, rfl⟩ : ∃ q, ny = q + 2 := ⟨ny - 2, by have := hy hkd; omega⟩
    have eq1 : q + 2 - 1 = q + 1 := rfl
    simp only [repT, Prod.mk.injEq, true_and, and_true, hno, decide_false, Bool.false_eq_true, if_false, decide_eq_true_eq, eq1]
    rw [Finset.sum_const, Finset.card_range, smul_eq_mul]
    push_cast
    have row := sphere_row (s.coord 1 = .periodic) (s.inf.z = 0) (s.inf.z + s.span.z = π) (q := q) hz
    push_cast at row
    refine Eq.trans (congrArg (((nx : Int) + 1) * ·) (Eq.trans ?_ row)) ?_
    · congr!
    · split_ifs <;> ring
  · -- wedge
    simp only [repT, Prod.mk.injEq, true_and, and_true]
    rw [Finset.sum_range_succ]
    have h1 : ∀ i ∈ Finset.range nx, ∑ j ∈ Finset.range (ny + 1), Nat.count (fun k => (if i = nx then 0 else k) = k) (nz + 1) = (ny + 1) * (nz + 1) := by
      intro i hi
      have := Finset.mem_range.1 hi
      rw [Finset.sum_const, count_const (fun k _ => if_neg (by omega)), Finset.card_range, smul_eq_mul]
    have h2 : Nat.count (fun k => (if nx = nx then 0 else k) = k) (nz + 1) = 1 := by
      simp only [if_true]
      rw [Nat.count_succ', count_none (fun k _ => by omega)]; rfl
    rw [Finset.sum_congr rfl h1, h2]
    simp only [Finset.sum_const, Finset.card_range, smul_eq_mul]
    push_cast; ring

end

theorem numbering_get {rep : Nat → Nat} {n j : Nat} (hj : j < n) : (numbering rep n)[j]? = some (rank rep (rep j) : Int) := by
  rw [numbering, List.getElem?_map, List.getElem?_range hj]; rfl

theorem findIdx_first {l : List Int} {d : Int} {i : Nat} (hi : l[i]? = some d) (hf : ∀ j < i, l[j]? ≠ some d) : l.findIdx (· == d) = i := by
  have hlen : i < l.length := by
    rcases Nat.lt_or_ge i l.length with h | h
    · exact h
    · rw [List.getElem?_eq_none h] at hi; cases hi
  rw [List.findIdx_eq hlen]
  constructor
  · rw [List.getElem?_eq_getElem hlen] at hi
    simpa using hi
  · intro j hj
    have := hf j hj
    rw [List.getElem?_eq_getElem (by omega)] at this
    simpa using this

theorem elem_nat {α : Type} (l : List α) (n : Nat) : elem l (n : Int) = l[n]? := by
  unfold elem
  simp

/-- the state left by `execute` -/
theorem execute_spec {l l' : Lattice} (h : execute l = some l') : ∃ s, l.grid.shape = some s ∧ l'.grid = (build l.grid).1 ∧
    l'.map = numbering (repOf s l'.grid.nx.toNat l'.grid.ny.toNat l'.grid.nz.toNat)
      ((l'.grid.nx.toNat + 1) * (l'.grid.ny.toNat + 1) * (l'.grid.nz.toNat + 1)) ∧
    l'.np = rank (repOf s l'.grid.nx.toNat l'.grid.ny.toNat l'.grid.nz.toNat)
      ((l'.grid.nx.toNat + 1) * (l'.grid.ny.toNat + 1) * (l'.grid.nz.toNat + 1)) := by
  have hsh : (build l.grid).1.shape = l.grid.shape := by
    cases hs : l.grid.shape with
    | none => rw [(C69_dimensions l.grid).1 hs, hs]
    | some s => exact (made_build hs).shape
  unfold execute at h
  rw [hsh] at h
  cases hs : l.grid.shape with
  | none => rw [hs] at h; cases h
  | some s =>
    rw [hs] at h
    simp only [Option.some.injEq] at h
    subst h
    have hm := made_build hs
    have h1 : 1 ≤ (build l.grid).1.ny.toNat := by have := hm.py; omega
    have h2 : 1 ≤ (build l.grid).1.nz.toNat := by have := hm.pz; omega
    have h3 : s.kind = .sphere → 2 ≤ (build l.grid).1.ny.toNat := by
      intro hk
      have := hm.ny
      rw [hk] at this
      simp only [dimLimit] at this
      omega
    exact ⟨s, rfl, rfl, mapDof_spec s h1 h3, (count_rule s h1 h2 h3).symm⟩

/-- the number of nodes of a grid -/
def nodeCount (g : Grid) : Int := (g.nx + 1) * (g.ny + 1) * (g.nz + 1)

/-- C75: after `execute` every node has a degree of freedom, a number below the number of degrees of freedom; every such number is the
degree of freedom of a node, the first of which is returned by `accessGridFromDOF` (-1 for other numbers); the lists of coordinates
have one entry per degree of freedom, that of this node. -/
theorem C75_dofs {l l' : Lattice} (h : execute l = some l') :
    (∀ n, 0 ≤ n → n < nodeCount l'.grid → ∃ d, dofFromGrid l' n = some d ∧ 0 ≤ d ∧ d < l'.np) ∧
    (∀ n, n < 0 ∨ nodeCount l'.grid ≤ n → dofFromGrid l' n = none) ∧
    (∀ d, 0 ≤ d → d < l'.np → 0 ≤ gridFromDof l' d ∧ gridFromDof l' d < nodeCount l'.grid ∧ dofFromGrid l' (gridFromDof l' d) = some d ∧
      ∀ m, 0 ≤ m → m < gridFromDof l' d → dofFromGrid l' m ≠ some d) ∧
    (∀ d, d < 0 ∨ l'.np ≤ d → gridFromDof l' d = -1) ∧
    (∃ c, latticeLocal l' = some c ∧ (c.length : Int) = l'.np ∧ ∀ d < c.length, c[d]? = localPointN l'.grid (gridFromDof l' d)) ∧
    (∃ c, latticeGlobal l' = some c ∧ (c.length : Int) = l'.np ∧ ∀ d < c.length, c[d]? = globalPointN l'.grid (gridFromDof l' d)) := by
  obtain ⟨s, hs, hg, hmap, hnp⟩ := execute_spec h
  have hm : Made l'.grid s := hg ▸ made_build hs
  have px := hm.px
  have py := hm.py
  have pz := hm.pz
  have hnodes := C69_lists hs
  dsimp only at hnodes
  rw [← hg] at hnodes
  obtain ⟨⟨c1, e1, e2, e3⟩, ⟨c2, f1, f2, f3⟩, _, _⟩ := hnodes
  have hcount : nodeCount l'.grid = ((l'.grid.nx.toNat + 1) * (l'.grid.ny.toNat + 1) * (l'.grid.nz.toNat + 1) : Nat) := by
    unfold nodeCount
    push_cast
    rw [Int.toNat_of_nonneg (by omega), Int.toNat_of_nonneg (by omega), Int.toNat_of_nonneg (by omega)]
  have hle : ∀ n < (l'.grid.nx.toNat + 1) * (l'.grid.ny.toNat + 1) * (l'.grid.nz.toNat + 1),
      repOf s l'.grid.nx.toNat l'.grid.ny.toNat l'.grid.nz.toNat n ≤ n := fun n hn => repOf_le s hn
  have hid : ∀ n < (l'.grid.nx.toNat + 1) * (l'.grid.ny.toNat + 1) * (l'.grid.nz.toNat + 1),
      repOf s l'.grid.nx.toNat l'.grid.ny.toNat l'.grid.nz.toNat (repOf s l'.grid.nx.toNat l'.grid.ny.toNat l'.grid.nz.toNat n) =
        repOf s l'.grid.nx.toNat l'.grid.ny.toNat l'.grid.nz.toNat n := fun n hn => repOf_idem s hn
  rw [show (l'.grid.nx + 1) * (l'.grid.ny + 1) * (l'.grid.nz + 1) = nodeCount l'.grid from rfl] at e2 f2
  generalize nodeCount l'.grid = T at *
  generalize (l'.grid.nx.toNat + 1) * (l'.grid.ny.toNat + 1) * (l'.grid.nz.toNat + 1) = N at *
  generalize repOf s l'.grid.nx.toNat l'.grid.ny.toNat l'.grid.nz.toNat = rep at *
  subst hcount
  have hdof : ∀ n < N, dofFromGrid l' (n : Int) = some (rank rep (rep n) : Int) := by
    intro n hn
    unfold dofFromGrid
    rw [elem_nat, hmap, numbering_get hn]
  have hgrid : ∀ d : Nat, d < rank rep N → ∃ i < N, rep i = i ∧ rank rep i = d ∧ gridFromDof l' (d : Int) = (i : Int) := by
    intro d hd
    obtain ⟨i, hi, hri, hrd⟩ := exists_rank rep hd
    refine ⟨i, hi, hri, hrd, ?_⟩
    have hf : l'.map.findIdx (· == (d : Int)) = i := by
      apply findIdx_first
      · rw [hmap, numbering_get hi, hri, hrd]
      · intro j hj
        rw [hmap, numbering_get (by omega)]
        intro hc
        simp only [Option.some.injEq, Int.natCast_inj] at hc
        have h1 := hle j (by omega)
        have := rank_inj (hid j (by omega)) hri (by rw [hc, hrd])
        omega
    unfold gridFromDof
    simp only [hf]
    rw [if_neg]
    rw [hmap]
    simp [numbering]
    omega
  have hlist : ∀ (f : Int → Option V3), (∀ n < N, (f (n : Int)).isSome) → ∃ c, (List.range l'.np.toNat).mapM (fun (i : Nat) => f (gridFromDof l' (i : Int))) = some c ∧
      (c.length : Int) = l'.np ∧ ∀ d < c.length, c[d]? = f (gridFromDof l' d) := by
    intro f hf
    obtain ⟨c, k1, k2, k3⟩ := mapM_some (f := fun (i : Nat) => f (gridFromDof l' (i : Int))) (n := l'.np.toNat) (by
      intro d hd
      obtain ⟨i, hi, _, _, e⟩ := hgrid d (by omega)
      rw [e]; exact hf i hi)
    exact ⟨c, k1, by omega, fun d hd => k3 d (by omega)⟩
  refine ⟨?_, ?_, ?_, ?_, ?_, ?_⟩
  · intro n h0 hn
    obtain ⟨n, rfl⟩ := Int.eq_ofNat_of_zero_le h0
    have hn' : n < N := by omega
    refine ⟨_, hdof n hn', by omega, ?_⟩
    rw [hnp]
    have := rank_lt (hid n hn') (lt_of_le_of_lt (hle n hn') hn')
    omega
  · intro n hn
    unfold dofFromGrid
    rcases hn with hn | hn
    · simp [elem, hn]
    · obtain ⟨n, rfl⟩ := Int.eq_ofNat_of_zero_le (by omega : 0 ≤ n)
      rw [elem_nat, hmap, List.getElem?_eq_none]
      simp [numbering]
      omega
  · intro d h0 hd
    obtain ⟨d, rfl⟩ := Int.eq_ofNat_of_zero_le h0
    obtain ⟨i, hi, hri, hrd, e⟩ := hgrid d (by omega)
    rw [e]
    refine ⟨by omega, by omega, by rw [hdof i hi, hri, hrd], ?_⟩
    intro m hm0 hm hc
    obtain ⟨m, rfl⟩ := Int.eq_ofNat_of_zero_le hm0
    rw [hdof m (by omega)] at hc
    simp only [Option.some.injEq, Int.natCast_inj] at hc
    have h1 := hle m (by omega)
    have := rank_inj (hid m (by omega)) hri (by rw [hc, hrd])
    omega
  · intro d hd
    unfold gridFromDof
    rw [if_pos]
    rw [List.findIdx_eq_length]
    intro x hx
    rw [hmap, numbering, List.mem_map] at hx
    obtain ⟨j, hj, rfl⟩ := hx
    have hj' := List.mem_range.1 hj
    have := rank_lt (hid j hj') (lt_of_le_of_lt (hle j hj') hj')
    simp
    omega
  · exact hlist (localPointN l'.grid) (fun n hn => by rw [← e3 n (by omega), List.getElem?_eq_getElem (by omega)]; rfl)
  · exact hlist (globalPointN l'.grid) (fun n hn => by rw [← f3 n (by omega), List.getElem?_eq_getElem (by omega)]; rfl)

example : ∃ l', execute ⟨setShape new .sphere 0 0, 0, []⟩ = some l' := ⟨_, rfl⟩

end Verif.Grid
