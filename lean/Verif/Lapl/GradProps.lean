import Verif.Lapl.Stencil
import Mathlib.Algebra.Order.BigOperators.Group.List
import Mathlib.LinearAlgebra.Matrix.ToLinearEquiv
/-
C170: gradients at cells.
-/
namespace Verif.Lapl
open List

noncomputable section

variable {β : Type} [AddCommGroup β] [Module ℝ β]

/-! ### Values of stencils -/

theorem sum_item (id : Nat) (w : β) (u : Nat → ℝ) (l : List (Nat × β)) :
    ((sumItem id w l).map fun e => u e.1 • e.2).sum = (l.map fun e => u e.1 • e.2).sum + u id • w := by
  induction l with
  | nil => simp [sumItem]
  | cons e l ih =>
    unfold sumItem
    split
    · rename_i h
      simp only [map_cons, sum_cons, ← h, smul_add]
      abel
    · simp only [map_cons, sum_cons, ih]
      abel

theorem eval_append (s : Sten β) (id : Nat) (w : β) (u : Nat → ℝ) : (s.append id w).eval u = s.eval u + u id • w := by
  simp only [Sten.eval, Sten.append, map_append, sum_append, map_cons, map_nil, sum_cons, sum_nil]
  abel

theorem eval_const (s : Sten β) (c : β) (u : Nat → ℝ) : (s.addConst c).eval u = s.eval u + c := by
  simp only [Sten.eval, Sten.addConst]
  abel

theorem eval_empty (u : Nat → ℝ) : (Sten.empty : Sten β).eval u = 0 := by simp [Sten.eval, Sten.empty]

theorem eval_add (s t : Sten β) (u : Nat → ℝ) : (s.add t).eval u = s.eval u + t.eval u := by
  have : ∀ (l l0 : List (Nat × β)), ((l.foldl (fun l e => sumItem e.1 e.2 l) l0).map fun e => u e.1 • e.2).sum =
      (l0.map fun e => u e.1 • e.2).sum + (l.map fun e => u e.1 • e.2).sum := by
    intro l
    induction l with
    | nil => intro l0; simp
    | cons e l ih =>
      intro l0
      rw [foldl_cons, ih, sum_item, map_cons, sum_cons]
      abel
  simp only [Sten.eval, Sten.add, this]
  abel

theorem eval_scale (k : ℝ) (s : Sten β) (u : Nat → ℝ) : (s.scale k).eval u = k • s.eval u := by
  have : ∀ l : List (Nat × β), ((l.map fun e => (e.1, k • e.2)).map fun e => u e.1 • e.2).sum = k • (l.map fun e => u e.1 • e.2).sum := by
    intro l
    induction l with
    | nil => simp
    | cons e l ih => simp only [map_cons, sum_cons, ih, smul_add, smul_comm k]
  simp only [Sten.eval, Sten.scale, this, smul_add]

theorem eval_sub (s t : Sten β) (u : Nat → ℝ) : (s.sub t).eval u = s.eval u - t.eval u := by
  unfold Sten.sub
  rw [eval_add, eval_scale]
  simp [sub_eq_add_neg]

theorem eval_complement (s : Sten β) (id : Nat) (u : Nat → ℝ) :
    (s.complement id).eval u = (s.items.map fun e => (u e.1 - u id) • e.2).sum + s.const := by
  unfold Sten.complement
  rw [eval_append]
  unfold Sten.eval
  have : ∀ l : List (Nat × β), (l.map fun e => (u e.1 - u id) • e.2).sum = (l.map fun e => u e.1 • e.2).sum - u id • (l.map Prod.snd).sum := by
    intro l
    induction l with
    | nil => simp
    | cons e l ih => rw [map_cons, sum_cons, ih, map_cons, sum_cons, map_cons, sum_cons, sub_smul, smul_add]; abel
  rw [this, smul_neg]
  abel

theorem dot_add_left (a b v : V) : dot (a + b) v = dot a v + dot b v := by simp [dot]; ring
theorem dot_sub_left (a b v : V) : dot (a - b) v = dot a v - dot b v := by simp [dot]; ring
theorem dot_smul_left (k : ℝ) (a v : V) : dot (k • a) v = k * dot a v := by simp [dot]; ring
theorem dot_comm (a b : V) : dot a b = dot b a := by simp [dot]; ring
theorem dot_zero_left (v : V) : dot 0 v = 0 := by simp [dot]

theorem eval_dot (s : Sten V) (v : V) (u : Nat → ℝ) : (s.dot v).eval u = dot (s.eval u) v := by
  have : ∀ l : List (Nat × V), ((l.map fun e => (e.1, dot e.2 v)).map fun e => u e.1 • e.2).sum = dot (l.map fun e => u e.1 • e.2).sum v := by
    intro l
    induction l with
    | nil => simp [dot_zero_left]
    | cons e l ih => rw [map_cons, map_cons, sum_cons, ih, map_cons, sum_cons, dot_add_left, dot_smul_left, smul_eq_mul]
  unfold Sten.eval Sten.dot
  rw [this, dot_add_left]

theorem eval_times (s : Sten ℝ) (v : V) (u : Nat → ℝ) : (s.times v).eval u = s.eval u • v := by
  have : ∀ l : List (Nat × ℝ), ((l.map fun e => (e.1, e.2 • v)).map fun e => u e.1 • e.2).sum = (l.map fun e => u e.1 • e.2).sum • v := by
    intro l
    induction l with
    | nil => simp
    | cons e l ih => simp only [map_cons, sum_cons, ih, add_smul, smul_eq_mul, mul_smul]
  unfold Sten.eval Sten.times
  rw [this, add_smul]

/-! ### The matrix -/

/-- the matrix as it acts on vectors -/
theorem matrix_dot (P : List V) (w : List ℝ) (v : V) (j : Fin 3) :
    wlsMatrix P w j 0 * v 0 + wlsMatrix P w j 1 * v 1 + wlsMatrix P w j 2 * v 2 =
      ((P.zip w).map fun e => e.2 * dot e.1 v * e.1 j).sum + (open scoped Classical in if singular P j then v j else 0) := by
  classical
  have h1 : ∀ l : List (V × ℝ), (l.map fun e => e.2 * e.1 0 * e.1 j).sum * v 0 + (l.map fun e => e.2 * e.1 1 * e.1 j).sum * v 1 +
      (l.map fun e => e.2 * e.1 2 * e.1 j).sum * v 2 = (l.map fun e => e.2 * dot e.1 v * e.1 j).sum := by
    intro l
    induction l with
    | nil => simp
    | cons e l ih =>
      rw [map_cons, map_cons, map_cons, map_cons, sum_cons, sum_cons, sum_cons, sum_cons, ← ih]
      simp only [dot]
      ring
  rw [← h1]
  unfold wlsMatrix
  by_cases h : singular P j
  · rw [if_pos h]
    have e : ∀ l : Fin 3, (if j = l ∧ singular P j then (1 : ℝ) else 0) = if j = l then 1 else 0 := by
      intro l
      by_cases hl : j = l
      · rw [if_pos ⟨hl, h⟩, if_pos hl]
      · rw [if_neg (fun h' => hl h'.1), if_neg hl]
    simp only [e]
    generalize (map (fun e : V × ℝ => e.2 * e.1 0 * e.1 j) (P.zip w)).sum = a
    generalize (map (fun e : V × ℝ => e.2 * e.1 1 * e.1 j) (P.zip w)).sum = b
    generalize (map (fun e : V × ℝ => e.2 * e.1 2 * e.1 j) (P.zip w)).sum = c
    clear e h1 h
    fin_cases j <;> simp <;> ring
  · rw [if_neg h]
    have e : ∀ l : Fin 3, (if j = l ∧ singular P j then (1 : ℝ) else 0) = 0 := fun l => if_neg fun h' => h h'.2
    simp only [e]
    ring

theorem matrix_symm (P : List V) (w : List ℝ) (j l : Fin 3) : wlsMatrix P w j l = wlsMatrix P w l j := by
  unfold wlsMatrix
  congr 1
  · congr 1
    apply map_congr_left
    intro e _
    ring
  · by_cases h : j = l
    · subst h; rfl
    · rw [if_neg (by tauto), if_neg (by intro h'; exact h h'.1.symm)]

/-- the inverse undoes a symmetric matrix -/
theorem inv_mul {A : Fin 3 → Fin 3 → ℝ} (hs : ∀ j l, A j l = A l j) (hd : det3 A ≠ 0) (v : V) (i : Fin 3) :
    inv3 A i 0 * (A 0 0 * v 0 + A 0 1 * v 1 + A 0 2 * v 2) + inv3 A i 1 * (A 1 0 * v 0 + A 1 1 * v 1 + A 1 2 * v 2) +
      inv3 A i 2 * (A 2 0 * v 0 + A 2 1 * v 1 + A 2 2 * v 2) = v i := by
  have h1 : A 1 0 = A 0 1 := hs _ _
  have h2 : A 2 0 = A 0 2 := hs _ _
  have h3 : A 2 1 = A 1 2 := hs _ _
  unfold inv3
  have hd' : det3 A * (1 / det3 A) = 1 := by field_simp
  generalize 1 / det3 A = d at hd'
  unfold det3 at hd'
  rw [h1, h2, h3] at hd'
  fin_cases i <;> simp [h1, h2, h3]
  · linear_combination (v 0) * hd'
  · linear_combination (v 1) * hd'
  · linear_combination (v 2) * hd'

/-- a matrix with a zero determinant takes a nonzero vector to zero -/
theorem det_zero {A : Fin 3 → Fin 3 → ℝ} (hd : det3 A = 0) :
    ∃ v : V, v ≠ 0 ∧ ∀ j, A j 0 * v 0 + A j 1 * v 1 + A j 2 * v 2 = 0 := by
  have e : Matrix.det (Matrix.of A) = 0 := by
    rw [Matrix.det_fin_three]
    unfold det3 at hd
    simp only [Matrix.of_apply]
    linarith
  obtain ⟨v, hv, h⟩ := Matrix.exists_mulVec_eq_zero_iff.2 e
  refine ⟨v, hv, fun j => ?_⟩
  have := congrFun h j
  simpa [Matrix.mulVec, dotProduct, Fin.sum_univ_three] using this

theorem det_nonzero {A : Fin 3 → Fin 3 → ℝ} {v : V} (hv : v ≠ 0) (h : ∀ j, A j 0 * v 0 + A j 1 * v 1 + A j 2 * v 2 = 0) : det3 A = 0 := by
  have e : Matrix.det (Matrix.of A) = 0 := by
    apply Matrix.exists_mulVec_eq_zero_iff.1
    refine ⟨v, hv, ?_⟩
    funext j
    simpa [Matrix.mulVec, dotProduct, Fin.sum_univ_three] using h j
  rw [Matrix.det_fin_three] at e
  simp only [Matrix.of_apply] at e
  unfold det3
  linarith

theorem mul_inv' {A : Fin 3 → Fin 3 → ℝ} (hs : ∀ j l, A j l = A l j) (hd : det3 A ≠ 0) (b : V) (j : Fin 3) :
    A j 0 * (inv3 A 0 0 * b 0 + inv3 A 0 1 * b 1 + inv3 A 0 2 * b 2) + A j 1 * (inv3 A 1 0 * b 0 + inv3 A 1 1 * b 1 + inv3 A 1 2 * b 2) +
      A j 2 * (inv3 A 2 0 * b 0 + inv3 A 2 1 * b 1 + inv3 A 2 2 * b 2) = b j := by
  have h1 : A 1 0 = A 0 1 := hs _ _
  have h2 : A 2 0 = A 0 2 := hs _ _
  have h3 : A 2 1 = A 1 2 := hs _ _
  unfold inv3
  have hd' : det3 A * (1 / det3 A) = 1 := by field_simp
  generalize 1 / det3 A = d at hd'
  unfold det3 at hd'
  rw [h1, h2, h3] at hd'
  fin_cases j <;> simp [h1, h2, h3]
  · linear_combination (b 0) * hd'
  · linear_combination (b 1) * hd'
  · linear_combination (b 2) * hd'

theorem dot_self_nonneg (v : V) : 0 ≤ dot v v := by
  unfold dot
  nlinarith [mul_self_nonneg (v 0), mul_self_nonneg (v 1), mul_self_nonneg (v 2)]

theorem dot_self_eq {v : V} (h : dot v v = 0) : v = 0 := by
  unfold dot at h
  have a0 := mul_self_nonneg (v 0)
  have a1 := mul_self_nonneg (v 1)
  have a2 := mul_self_nonneg (v 2)
  funext j
  fin_cases j
  · show v 0 = 0
    exact mul_self_eq_zero.1 (by linarith)
  · show v 1 = 0
    exact mul_self_eq_zero.1 (by linarith)
  · show v 2 = 0
    exact mul_self_eq_zero.1 (by linarith)

theorem norm2_pos {v : V} (h : v ≠ 0) : 0 < norm2 v := by
  unfold norm2
  apply Real.sqrt_pos.2
  rcases lt_or_eq_of_le (dot_self_nonneg v) with h' | h'
  · exact h'
  · exact absurd (dot_self_eq h'.symm) h

/-- the offsets of the neighbours and their weights -/
def offs (cent : Nat → V) (neighs : List Nat) (c : Nat) : List V := neighs.map fun n => cent n - cent c
def wts (cent : Nat → V) (neighs : List Nat) (c : Nat) : List ℝ := (offs cent neighs c).map fun p => 1 / (norm2 p) ^ (1.5 : ℝ)

theorem zip_offs (cent : Nat → V) (neighs : List Nat) (c : Nat) : (offs cent neighs c).zip (wts cent neighs c) =
    neighs.map fun n => (cent n - cent c, 1 / (norm2 (cent n - cent c)) ^ (1.5 : ℝ)) := by
  unfold wts offs
  induction neighs with
  | nil => rfl
  | cons n l ih => simpa using ih

theorem sum_zero {α : Type} {f : α → ℝ} : ∀ {l : List α}, (∀ a ∈ l, 0 ≤ f a) → (l.map f).sum = 0 → ∀ a ∈ l, f a = 0 := by
  intro l
  induction l with
  | nil => intro _ _ a h; exact absurd h not_mem_nil
  | cons b l ih =>
    intro h hs a ha
    have h0 : 0 ≤ (l.map f).sum := sum_nonneg (by
      intro x hx
      obtain ⟨a, ha, rfl⟩ := mem_map.1 hx
      exact h a (mem_cons_of_mem _ ha))
    rw [map_cons, sum_cons] at hs
    have hb := h b mem_cons_self
    rcases mem_cons.1 ha with rfl | ha
    · linarith
    · exact ih (fun a ha => h a (mem_cons_of_mem _ ha)) (by linarith) a ha

theorem sum_mul3 (l : List (V × ℝ)) (v : V) : (l.map fun e => e.2 * dot e.1 v * e.1 0).sum * v 0 + (l.map fun e => e.2 * dot e.1 v * e.1 1).sum * v 1 +
    (l.map fun e => e.2 * dot e.1 v * e.1 2).sum * v 2 = (l.map fun e => e.2 * dot e.1 v * dot e.1 v).sum := by
  have : ∀ (k : V × ℝ → ℝ), (l.map fun e => k e * e.1 0).sum * v 0 + (l.map fun e => k e * e.1 1).sum * v 1 +
      (l.map fun e => k e * e.1 2).sum * v 2 = (l.map fun e => k e * dot e.1 v).sum := by
    intro k
    induction l with
    | nil => simp
    | cons e l ih =>
      rw [map_cons, map_cons, map_cons, map_cons, sum_cons, sum_cons, sum_cons, sum_cons, ← ih]
      simp only [dot]
      ring
  exact this fun e => e.2 * dot e.1 v

open scoped Classical in
/-- a vector is taken to zero when it is orthogonal to all offsets and vanishes along the singular directions -/
theorem kernel {P : List V} {w : List ℝ} (hw : ∀ e ∈ P.zip w, 0 < e.2) (v : V) :
    (∀ j, wlsMatrix P w j 0 * v 0 + wlsMatrix P w j 1 * v 1 + wlsMatrix P w j 2 * v 2 = 0) ↔
      (∀ e ∈ P.zip w, dot e.1 v = 0) ∧ ∀ j, singular P j → v j = 0 := by
  simp only [matrix_dot]
  constructor
  · intro h
    have q := sum_mul3 (P.zip w) v
    have hj : ∀ j, (map (fun e : V × ℝ => e.2 * dot e.1 v * e.1 j) (P.zip w)).sum = -(if singular P j then v j else 0) := by
      intro j
      have := h j
      linarith
    rw [hj, hj, hj] at q
    have hs : ∀ j, 0 ≤ (if singular P j then v j else 0) * v j := by
      intro j
      split
      · exact mul_self_nonneg _
      · simp
    have hn : 0 ≤ (map (fun e : V × ℝ => e.2 * dot e.1 v * dot e.1 v) (P.zip w)).sum := by
      apply sum_nonneg
      intro x hx
      obtain ⟨e, he, rfl⟩ := mem_map.1 hx
      rw [mul_assoc]
      exact mul_nonneg (hw e he).le (mul_self_nonneg _)
    have s0 := hs 0
    have s1 := hs 1
    have s2 := hs 2
    constructor
    · intro e he
      have := sum_zero (f := fun e : V × ℝ => e.2 * dot e.1 v * dot e.1 v) (l := P.zip w) (by
        intro e he
        rw [mul_assoc]
        exact mul_nonneg (hw e he).le (mul_self_nonneg _)) (by linarith) e he
      rw [mul_assoc] at this
      exact mul_self_eq_zero.1 ((mul_eq_zero.1 this).resolve_left (hw e he).ne')
    · intro j hj'
      have : (if singular P j then v j else 0) * v j = 0 := by
        fin_cases j <;> simp only at * <;> first | (apply le_antisymm _ s0; linarith) | (apply le_antisymm _ s1; linarith) | (apply le_antisymm _ s2; linarith)
      rw [if_pos hj'] at this
      exact mul_self_eq_zero.1 this
  · rintro ⟨h1, h2⟩ j
    have : (map (fun e : V × ℝ => e.2 * dot e.1 v * e.1 j) (P.zip w)).sum = 0 := by
      apply sum_eq_zero
      intro x hx
      obtain ⟨e, he, rfl⟩ := mem_map.1 hx
      rw [h1 e he]
      ring
    rw [this]
    split
    · rename_i h
      rw [h2 j h]
      ring
    · ring

/-- the solution of the normal equations -/
theorem weights_solve {P : List V} {w : List ℝ} (hd : det3 (wlsMatrix P w) ≠ 0) (d : V × ℝ → ℝ) (j : Fin 3) :
    let g : V := ((P.zip w).map fun e => d e • (fun i => (inv3 (wlsMatrix P w) i 0 * e.1 0 + inv3 (wlsMatrix P w) i 1 * e.1 1 + inv3 (wlsMatrix P w) i 2 * e.1 2) * e.2 : V)).sum
    wlsMatrix P w j 0 * g 0 + wlsMatrix P w j 1 * g 1 + wlsMatrix P w j 2 * g 2 = ((P.zip w).map fun e => e.2 * d e * e.1 j).sum := by
  intro g
  have hg : ∀ i, g i = inv3 (wlsMatrix P w) i 0 * ((P.zip w).map fun e => e.2 * d e * e.1 0).sum +
      inv3 (wlsMatrix P w) i 1 * ((P.zip w).map fun e => e.2 * d e * e.1 1).sum + inv3 (wlsMatrix P w) i 2 * ((P.zip w).map fun e => e.2 * d e * e.1 2).sum := by
    intro i
    simp only [g]
    clear g
    generalize inv3 (wlsMatrix P w) = B
    generalize P.zip w = l
    induction l with
    | nil => simp
    | cons e l ih =>
      rw [map_cons, map_cons, map_cons, map_cons, sum_cons, sum_cons, sum_cons, sum_cons, Pi.add_apply, ih]
      simp only [Pi.smul_apply, smul_eq_mul]
      ring
  rw [hg, hg, hg]
  exact mul_inv' (matrix_symm P w) hd (fun j => ((P.zip w).map fun e => e.2 * d e * e.1 j).sum) j

theorem zip_map_sum (neighs : List Nat) (l : List (V × ℝ)) (he : l.length = neighs.length) (f : V × ℝ → V) (k : Nat → ℝ) (d : V × ℝ → ℝ)
    (h : ∀ q ∈ neighs.zip l, k q.1 = d q.2) : ((neighs.zip (l.map f)).map fun e => k e.1 • e.2).sum = (l.map fun e => d e • f e).sum := by
  induction neighs generalizing l with
  | nil => cases l with
    | nil => rfl
    | cons _ _ => simp at he
  | cons n ns ih => cases l with
    | nil => simp at he
    | cons e l =>
      rw [map_cons, zip_cons_cons, map_cons, sum_cons, map_cons, sum_cons, ih l (by simpa using he) (fun q hq => h q (by rw [zip_cons_cons]; exact mem_cons_of_mem _ hq))]
      have := h (n, e) (by rw [zip_cons_cons]; exact mem_cons_self)
      simp only at this
      rw [this]

/-- what the stencil of a cell gives for a linear field solves the normal equations -/
theorem cell_solve {cent : Nat → V} {neighs : List Nat} {c : Nat} {s : Sten V} (h : cellGradient cent neighs c = some s) {u : Nat → ℝ} {a : ℝ} {g : V}
    (hu : ∀ n, n ∈ neighs ∨ n = c → u n = a + dot g (cent n)) (j : Fin 3) :
    det3 (wlsMatrix (offs cent neighs c) (wts cent neighs c)) ≠ 0 ∧
    wlsMatrix (offs cent neighs c) (wts cent neighs c) j 0 * s.eval u 0 + wlsMatrix (offs cent neighs c) (wts cent neighs c) j 1 * s.eval u 1 +
      wlsMatrix (offs cent neighs c) (wts cent neighs c) j 2 * s.eval u 2 =
      (((offs cent neighs c).zip (wts cent neighs c)).map fun e => e.2 * dot e.1 g * e.1 j).sum := by
  unfold cellGradient wlsWeights at h
  simp only at h
  change Option.map _ (if det3 (wlsMatrix (offs cent neighs c) (wts cent neighs c)) = 0 then none else some (map _ ((offs cent neighs c).zip (wts cent neighs c)))) = some s at h
  split at h
  · simp at h
  · rename_i hd
    refine ⟨hd, ?_⟩
    simp only [Option.map_some, Option.some.injEq] at h
    have he : s.eval u = (((offs cent neighs c).zip (wts cent neighs c)).map fun e => dot e.1 g • (fun i => (inv3 (wlsMatrix (offs cent neighs c) (wts cent neighs c)) i 0 * e.1 0 +
        inv3 (wlsMatrix (offs cent neighs c) (wts cent neighs c)) i 1 * e.1 1 + inv3 (wlsMatrix (offs cent neighs c) (wts cent neighs c)) i 2 * e.1 2) * e.2 : V)).sum := by
      rw [← h, eval_complement, add_zero]
      apply zip_map_sum neighs _ _ _ (fun n => u n - u c) (fun e => dot e.1 g)
      · intro q hq
        rw [zip_offs] at hq
        have : ∀ ns : List Nat, (∀ n ∈ ns, n ∈ neighs) → q ∈ ns.zip (ns.map fun n => (cent n - cent c, 1 / (norm2 (cent n - cent c)) ^ (1.5 : ℝ))) → u q.1 - u c = dot q.2.1 g := by
          intro ns
          induction ns with
          | nil => intro _ h; simp at h
          | cons n ns ih =>
            intro hn h
            rw [map_cons, zip_cons_cons] at h
            rcases mem_cons.1 h with rfl | h
            · simp only [hu n (Or.inl (hn n mem_cons_self)), hu c (Or.inr rfl), dot_sub_left, dot_comm g]
              ring
            · exact ih (fun n h => hn n (mem_cons_of_mem _ h)) h
        exact this neighs (fun n h => h) hq
      · rw [zip_offs, length_map]
    rw [he]
    exact weights_solve hd (fun e => dot e.1 g) j

/-- **C170.** The stencil of a cell exists unless a nonzero direction is orthogonal to the offsets of all neighbours without being one of the
directions in which all of them are below 1e-12. -/
theorem C170_exists {cent : Nat → V} {neighs : List Nat} {c : Nat} (hne : ∀ n ∈ neighs, cent n ≠ cent c) :
    (∃ s, cellGradient cent neighs c = some s) ↔
      ∀ v : V, (∀ n ∈ neighs, dot (cent n - cent c) v = 0) → (∀ j, (∀ n ∈ neighs, |cent n j - cent c j| < 1e-12) → v j = 0) → v = 0 := by
  have hw : ∀ e ∈ (offs cent neighs c).zip (wts cent neighs c), 0 < e.2 := by
    intro e he
    rw [zip_offs] at he
    obtain ⟨n, hn, rfl⟩ := mem_map.1 he
    exact one_div_pos.2 (Real.rpow_pos_of_pos (norm2_pos (sub_ne_zero.2 (hne n hn))) _)
  have hk : ∀ v : V, ((∀ e ∈ (offs cent neighs c).zip (wts cent neighs c), dot e.1 v = 0) ∧ ∀ j, singular (offs cent neighs c) j → v j = 0) ↔
      (∀ n ∈ neighs, dot (cent n - cent c) v = 0) ∧ ∀ j, (∀ n ∈ neighs, |cent n j - cent c j| < 1e-12) → v j = 0 := by
    intro v
    rw [zip_offs]
    unfold singular offs
    simp
  have hdet : (∃ s, cellGradient cent neighs c = some s) ↔ det3 (wlsMatrix (offs cent neighs c) (wts cent neighs c)) ≠ 0 := by
    constructor
    · rintro ⟨s, h⟩
      exact (cell_solve h (u := fun n => 0 + dot 0 (cent n)) (a := 0) (g := 0) (fun _ _ => rfl) 0).1
    · intro hd
      apply Option.isSome_iff_exists.1
      unfold cellGradient wlsWeights
      simp only
      change Option.isSome (Option.map _ (if det3 (wlsMatrix (offs cent neighs c) (wts cent neighs c)) = 0 then none else some (map _ ((offs cent neighs c).zip (wts cent neighs c))))) = true
      rw [if_neg hd]
      rfl
  rw [hdet]
  constructor
  · intro hd v h1 h2
    by_contra hv
    exact hd (det_nonzero hv ((kernel hw v).2 ((hk v).2 ⟨h1, h2⟩)))
  · intro h hd
    obtain ⟨v, hv, hz⟩ := det_zero hd
    have := (hk v).1 ((kernel hw v).1 hz)
    exact hv (h v this.1 this.2)

/-- **C170.** It is exact for linear fields: the gradient of `a + g·x` is `g`, without the components along the axes in which no neighbour is
offset at all. -/
theorem C170_linear {cent : Nat → V} {neighs : List Nat} {c : Nat} {s : Sten V} (h : cellGradient cent neighs c = some s)
    {u : Nat → ℝ} {a : ℝ} {g : V} (hu : ∀ n, n ∈ neighs ∨ n = c → u n = a + dot g (cent n))
    (hj : ∀ j, (∃ n ∈ neighs, (1e-12 : ℝ) ≤ |cent n j - cent c j|) ∨ ∀ n ∈ neighs, cent n j = cent c j) (j : Fin 3) :
    ((∃ n ∈ neighs, cent n j ≠ cent c j) → s.eval u j = g j) ∧ ((∀ n ∈ neighs, cent n j = cent c j) → s.eval u j = 0) := by
  classical
  have hsing : ∀ j, singular (offs cent neighs c) j ↔ ∀ n ∈ neighs, cent n j = cent c j := by
    intro j
    unfold singular offs
    simp only [mem_map, forall_exists_index, and_imp, forall_apply_eq_imp_iff₂, Pi.sub_apply]
    constructor
    · intro h
      rcases hj j with ⟨n, hn, h'⟩ | h'
      · exact absurd (h n hn) (not_lt.2 h')
      · exact h'
    · intro h n hn
      rw [h n hn, sub_self, abs_zero]
      norm_num
  let v : V := fun j => if ∀ n ∈ neighs, cent n j = cent c j then 0 else g j
  have hv : s.eval u = v := by
    have hA := fun j => (cell_solve h hu j).2
    have hd := (cell_solve h hu 0).1
    have hB : ∀ j, wlsMatrix (offs cent neighs c) (wts cent neighs c) j 0 * v 0 + wlsMatrix (offs cent neighs c) (wts cent neighs c) j 1 * v 1 +
        wlsMatrix (offs cent neighs c) (wts cent neighs c) j 2 * v 2 = (((offs cent neighs c).zip (wts cent neighs c)).map fun e => e.2 * dot e.1 g * e.1 j).sum := by
      intro j
      rw [matrix_dot]
      have h0 : (if singular (offs cent neighs c) j then v j else 0) = 0 := by
        split
        · rename_i h
          exact if_pos ((hsing j).1 h)
        · rfl
      rw [h0, add_zero]
      congr 1
      apply map_congr_left
      intro e he
      rw [zip_offs] at he
      obtain ⟨n, hn, rfl⟩ := mem_map.1 he
      have : ∀ j, (cent n - cent c) j * v j = (cent n - cent c) j * g j := by
        intro j
        by_cases hz : ∀ n ∈ neighs, cent n j = cent c j
        · rw [Pi.sub_apply, hz n hn, sub_self, zero_mul, zero_mul]
        · show _ * (if _ then _ else _) = _
          rw [if_neg hz]
      simp only [dot, this]
    funext i
    rw [← inv_mul (matrix_symm _ _) hd (s.eval u) i, ← inv_mul (matrix_symm _ _) hd v i, hA, hA, hA, hB, hB, hB]
  rw [hv]
  constructor
  · rintro ⟨n, hn, hne⟩
    exact if_neg fun h => hne (h n hn)
  · intro h
    exact if_pos h

/-- **C170.** A constant field has a zero gradient. -/
theorem C170_constant {cent : Nat → V} {neighs : List Nat} {c : Nat} {s : Sten V} (h : cellGradient cent neighs c = some s)
    {u : Nat → ℝ} {a : ℝ} (hu : ∀ n, n ∈ neighs ∨ n = c → u n = a) : s.eval u = 0 := by
  have hu' : ∀ n, n ∈ neighs ∨ n = c → u n = a + dot 0 (cent n) := fun n hn => by rw [hu n hn, dot_zero_left, add_zero]
  have hA := fun j => (cell_solve h hu' j).2
  have hd := (cell_solve h hu' 0).1
  have z : ∀ j, (((offs cent neighs c).zip (wts cent neighs c)).map fun e => e.2 * dot e.1 0 * e.1 j).sum = 0 := by
    intro j
    apply sum_eq_zero
    intro x hx
    obtain ⟨e, _, rfl⟩ := mem_map.1 hx
    simp [dot]
  funext i
  rw [← inv_mul (matrix_symm _ _) hd (s.eval u) i, hA, hA, hA, z, z, z]
  simp

/-- **C170.** Violated on small meshes: when the neighbours of a cell are offset along an axis by less than 1e-12 the gradient of a linear field is
not the right one unless it has no component along the axis. -/
theorem C170_small_fails {cent : Nat → V} {neighs : List Nat} {c : Nat} {s : Sten V} (h : cellGradient cent neighs c = some s)
    {u : Nat → ℝ} {a : ℝ} {g : V} (hu : ∀ n, n ∈ neighs ∨ n = c → u n = a + dot g (cent n)) (j : Fin 3)
    (hs : ∀ n ∈ neighs, |cent n j - cent c j| < 1e-12) (hg : g j ≠ 0) : s.eval u ≠ g := by
  intro he
  have hA := (cell_solve h hu j).2
  rw [he, matrix_dot, if_pos] at hA
  · apply hg
    linarith
  · unfold singular offs
    simpa using hs

/-- **C170.** Violated when the offsets lie in a plane that is not one of the axes': no stencil is defined. -/
theorem C170_plane_fails {cent : Nat → V} {neighs : List Nat} {c : Nat} (hne : ∀ n ∈ neighs, cent n ≠ cent c) {v : V} (hv : v ≠ 0)
    (hp : ∀ n ∈ neighs, dot (cent n - cent c) v = 0) (hj : ∀ j, v j ≠ 0 → ∃ n ∈ neighs, (1e-12 : ℝ) ≤ |cent n j - cent c j|) :
    cellGradient cent neighs c = none := by
  cases hc : cellGradient cent neighs c with
  | none => rfl
  | some s =>
    exfalso
    apply hv
    apply (C170_exists hne).1 ⟨s, hc⟩ v hp
    intro j hs
    by_contra hvj
    obtain ⟨n, hn, h⟩ := hj j hvj
    exact absurd (hs n hn) (not_lt.2 h)

/-- the weight of a neighbour: its distance to the power of −3/2 -/
def weight (cent : Nat → V) (c n : Nat) : ℝ := 1 / (norm2 (cent n - cent c)) ^ (1.5 : ℝ)

/-- for any field, what the stencil of a cell gives solves the normal equations -/
theorem cell_normal {cent : Nat → V} {neighs : List Nat} {c : Nat} {s : Sten V} (h : cellGradient cent neighs c = some s) (u : Nat → ℝ) (j : Fin 3) :
    wlsMatrix (offs cent neighs c) (wts cent neighs c) j 0 * s.eval u 0 + wlsMatrix (offs cent neighs c) (wts cent neighs c) j 1 * s.eval u 1 +
      wlsMatrix (offs cent neighs c) (wts cent neighs c) j 2 * s.eval u 2 =
      (neighs.map fun n => weight cent c n * (u n - u c) * (cent n j - cent c j)).sum := by
  unfold cellGradient wlsWeights at h
  simp only at h
  change Option.map _ (if det3 (wlsMatrix (offs cent neighs c) (wts cent neighs c)) = 0 then none else some (map _ ((offs cent neighs c).zip (wts cent neighs c)))) = some s at h
  split at h
  · simp at h
  · rename_i hd
    simp only [Option.map_some, Option.some.injEq] at h
    have hg : ∀ i, s.eval u i = inv3 (wlsMatrix (offs cent neighs c) (wts cent neighs c)) i 0 * (neighs.map fun n => weight cent c n * (u n - u c) * (cent n 0 - cent c 0)).sum +
        inv3 (wlsMatrix (offs cent neighs c) (wts cent neighs c)) i 1 * (neighs.map fun n => weight cent c n * (u n - u c) * (cent n 1 - cent c 1)).sum +
        inv3 (wlsMatrix (offs cent neighs c) (wts cent neighs c)) i 2 * (neighs.map fun n => weight cent c n * (u n - u c) * (cent n 2 - cent c 2)).sum := by
      intro i
      rw [← h, eval_complement, add_zero]
      simp only
      rw [zip_offs]
      have e : ∀ (B : Fin 3 → Fin 3 → ℝ) (l : List Nat), (map (fun e : Nat × V => (u e.1 - u c) • e.2) (l.zip (map (fun (e : V × ℝ) i => (B i 0 * e.1 0 + B i 1 * e.1 1 + B i 2 * e.1 2) * e.2)
          (l.map fun n => (cent n - cent c, 1 / (norm2 (cent n - cent c)) ^ (1.5 : ℝ)))))).sum i =
          B i 0 * (l.map fun n => weight cent c n * (u n - u c) * (cent n 0 - cent c 0)).sum +
          B i 1 * (l.map fun n => weight cent c n * (u n - u c) * (cent n 1 - cent c 1)).sum +
          B i 2 * (l.map fun n => weight cent c n * (u n - u c) * (cent n 2 - cent c 2)).sum := ?_
      · exact e _ neighs
      intro B l
      induction l with
      | nil => simp
      | cons n l ih =>
        rw [map_cons, map_cons, zip_cons_cons, map_cons, sum_cons, Pi.add_apply, ih, map_cons, map_cons, map_cons, sum_cons, sum_cons, sum_cons]
        simp only [Pi.smul_apply, smul_eq_mul, Pi.sub_apply, weight]
        ring
    rw [hg, hg, hg]
    exact mul_inv' (matrix_symm _ _) hd (fun j => (neighs.map fun n => weight cent c n * (u n - u c) * (cent n j - cent c j)).sum) j

/-- the weighted squared differences between the field at the neighbours and a linear prediction -/
def residual (cent : Nat → V) (neighs : List Nat) (c : Nat) (u : Nat → ℝ) (v : V) : ℝ :=
  (neighs.map fun n => weight cent c n * (u n - u c - dot (cent n - cent c) v) ^ 2).sum

/-- **C170.** For any field the gradient at a cell is the best fit of the differences to the neighbours, weighted by the distance to the power of
−3/2. -/
theorem C170_fit {cent : Nat → V} {neighs : List Nat} {c : Nat} {s : Sten V} (h : cellGradient cent neighs c = some s) (hne : ∀ n ∈ neighs, cent n ≠ cent c)
    (hj : ∀ j, ∃ n ∈ neighs, (1e-12 : ℝ) ≤ |cent n j - cent c j|) (u : Nat → ℝ) (v : V) :
    residual cent neighs c u (s.eval u) ≤ residual cent neighs c u v := by
  have hns : ∀ j, ¬ singular (offs cent neighs c) j := by
    intro j hs
    obtain ⟨n, hn, h'⟩ := hj j
    exact absurd (hs (cent n - cent c) (mem_map_of_mem hn)) (not_lt.2 h')
  have hA := cell_normal h u
  have hN : ∀ j, (neighs.map fun n => weight cent c n * (u n - u c - dot (cent n - cent c) (s.eval u)) * (cent n j - cent c j)).sum = 0 := by
    intro j
    have := hA j
    rw [matrix_dot, if_neg (hns j), add_zero, zip_offs] at this
    rw [map_map] at this
    have e : ∀ l : List Nat, (l.map fun n => weight cent c n * (u n - u c - dot (cent n - cent c) (s.eval u)) * (cent n j - cent c j)).sum =
        (l.map fun n => weight cent c n * (u n - u c) * (cent n j - cent c j)).sum -
        (l.map ((fun e : V × ℝ => e.2 * dot e.1 (s.eval u) * e.1 j) ∘ fun n => (cent n - cent c, 1 / (norm2 (cent n - cent c)) ^ (1.5 : ℝ)))).sum := by
      intro l
      induction l with
      | nil => simp
      | cons n l ih =>
        rw [map_cons, map_cons, map_cons, sum_cons, sum_cons, sum_cons, ih]
        simp only [Function.comp, Pi.sub_apply, weight]
        ring
    rw [e, this, sub_self]
  have key : residual cent neighs c u v = residual cent neighs c u (s.eval u) +
      (neighs.map fun n => weight cent c n * (dot (cent n - cent c) (v - s.eval u)) ^ 2).sum := by
    have e : ∀ l : List Nat, (l.map fun n => weight cent c n * (u n - u c - dot (cent n - cent c) v) ^ 2).sum =
        (l.map fun n => weight cent c n * (u n - u c - dot (cent n - cent c) (s.eval u)) ^ 2).sum +
        (l.map fun n => weight cent c n * (dot (cent n - cent c) (v - s.eval u)) ^ 2).sum -
        2 * ((v - s.eval u) 0 * (l.map fun n => weight cent c n * (u n - u c - dot (cent n - cent c) (s.eval u)) * (cent n 0 - cent c 0)).sum +
          (v - s.eval u) 1 * (l.map fun n => weight cent c n * (u n - u c - dot (cent n - cent c) (s.eval u)) * (cent n 1 - cent c 1)).sum +
          (v - s.eval u) 2 * (l.map fun n => weight cent c n * (u n - u c - dot (cent n - cent c) (s.eval u)) * (cent n 2 - cent c 2)).sum) := by
      intro l
      induction l with
      | nil => simp
      | cons n l ih =>
        rw [map_cons, map_cons, map_cons, map_cons, map_cons, map_cons, sum_cons, sum_cons, sum_cons, sum_cons, sum_cons, sum_cons, ih]
        simp only [dot, Pi.sub_apply]
        ring
    unfold residual
    rw [e neighs, hN, hN, hN]
    ring
  rw [key]
  have : 0 ≤ (neighs.map fun n => weight cent c n * (dot (cent n - cent c) (v - s.eval u)) ^ 2).sum := by
    apply sum_nonneg
    intro x hx
    obtain ⟨n, hn, rfl⟩ := mem_map.1 hx
    exact mul_nonneg (one_div_pos.2 (Real.rpow_pos_of_pos (norm2_pos (sub_ne_zero.2 (hne n hn))) _)).le (sq_nonneg _)
  linarith

/-! ### Cases -/

/-- a cell at the origin with neighbours along the axes -/
def gridCent : Nat → V
  | 1 => ![1, 0, 0]
  | 2 => ![0, 1, 0]
  | 3 => ![0, 0, 1]
  | 4 => ![1, 1, 0]
  | _ => 0

theorem grid_ne : ∀ n ∈ [1, 2, 3], gridCent n ≠ gridCent 0 := by
  intro n hn h
  simp only [mem_cons, not_mem_nil, or_false] at hn
  rcases hn with rfl | rfl | rfl
  · have := congrFun h 0; simp [gridCent] at this
  · have := congrFun h 1; simp [gridCent] at this
  · have := congrFun h 2; simp [gridCent] at this

theorem grid_off (j : Fin 3) : ∃ n ∈ [1, 2, 3], (1e-12 : ℝ) ≤ |gridCent n j - gridCent 0 j| := by
  fin_cases j
  · exact ⟨1, by simp, by simp [gridCent]; norm_num⟩
  · exact ⟨2, by simp, by simp [gridCent]; norm_num⟩
  · exact ⟨3, by simp, by simp [gridCent]; norm_num⟩

theorem grid_exists : ∃ s, cellGradient gridCent [1, 2, 3] 0 = some s := by
  apply (C170_exists grid_ne).2
  intro v h _
  funext j
  fin_cases j
  · have := h 1 (by simp); simpa [gridCent, dot] using this
  · have := h 2 (by simp); simpa [gridCent, dot] using this
  · have := h 3 (by simp); simpa [gridCent, dot] using this

example : ∃ s, cellGradient gridCent [1, 2, 3] 0 = some s ∧ (s.eval fun n => 7 + dot ![2, 3, 4] (gridCent n)) = ![2, 3, 4] := by
  obtain ⟨s, h⟩ := grid_exists
  refine ⟨s, h, ?_⟩
  funext j
  refine (C170_linear h (fun _ _ => rfl) (fun j => Or.inl (grid_off j)) j).1 ?_
  obtain ⟨n, hn, h'⟩ := grid_off j
  refine ⟨n, hn, fun e => ?_⟩
  rw [e, sub_self, abs_zero] at h'
  norm_num at h'

example : ∃ s, cellGradient gridCent [1, 2, 3] 0 = some s ∧ (s.eval fun _ => 7) = 0 :=
  let ⟨s, h⟩ := grid_exists
  ⟨s, h, C170_constant h fun _ _ => rfl⟩

example (u : Nat → ℝ) (v : V) : ∃ s, cellGradient gridCent [1, 2, 3] 0 = some s ∧ residual gridCent [1, 2, 3] 0 u (s.eval u) ≤ residual gridCent [1, 2, 3] 0 u v :=
  let ⟨s, h⟩ := grid_exists
  ⟨s, h, C170_fit h grid_ne grid_off u v⟩

/-- neighbours along the diagonal of two axes -/
example : cellGradient gridCent [3, 4] 0 = none := by
  refine C170_plane_fails (v := ![1, -1, 0]) ?_ ?_ ?_ ?_
  · intro n hn h
    simp only [mem_cons, not_mem_nil, or_false] at hn
    rcases hn with rfl | rfl
    · have := congrFun h 2; simp [gridCent] at this
    · have := congrFun h 1; simp [gridCent] at this
  · intro h
    have := congrFun h 0
    simp at this
  · intro n hn
    simp only [mem_cons, not_mem_nil, or_false] at hn
    rcases hn with rfl | rfl <;> simp [gridCent, dot]
  · intro j hj
    fin_cases j
    · exact ⟨4, by simp, by simp [gridCent]; norm_num⟩
    · exact ⟨4, by simp, by simp [gridCent]; norm_num⟩
    · simp at hj

/-- a mesh of size 1e-13 -/
example : ∃ s, cellGradient (fun n => (1e-13 : ℝ) • gridCent n) [1, 2, 3] 0 = some s ∧
    (s.eval fun n => 7 + dot ![2, 3, 4] ((1e-13 : ℝ) • gridCent n)) ≠ ![2, 3, 4] := by
  have ht : ∀ n ∈ [1, 2, 3], ∀ j : Fin 3, |((1e-13 : ℝ) • gridCent n) j - ((1e-13 : ℝ) • gridCent 0) j| < 1e-12 := by
    intro n hn j
    simp only [mem_cons, not_mem_nil, or_false] at hn
    rcases hn with rfl | rfl | rfl <;> fin_cases j <;> simp [gridCent] <;> norm_num
  have hne : ∀ n ∈ [1, 2, 3], (fun n => (1e-13 : ℝ) • gridCent n) n ≠ (fun n => (1e-13 : ℝ) • gridCent n) 0 := by
    intro n hn h
    refine grid_ne n hn ?_
    simp only at h
    exact smul_right_injective V (by norm_num : (1e-13 : ℝ) ≠ 0) h
  obtain ⟨s, h⟩ := (C170_exists hne).2 (by
    intro v _ h
    funext j
    exact h j fun n hn => ht n hn j)
  exact ⟨s, h, C170_small_fails h (fun _ _ => rfl) 0 (fun n hn => ht n hn 0) (by simp)⟩

end

end Verif.Lapl
