import Verif.Grid.NumberProps
import Mathlib.Data.Nat.Count
import Mathlib.Algebra.BigOperators.Intervals
/-
The numbering loop of the degrees of freedom, for any rule saying which nodes go together.
-/
namespace Verif.Grid

/-- number of representatives before `r` -/
def rank (rep : Nat → Nat) (r : Nat) : Nat := Nat.count (fun i => rep i = i) r

theorem rank_le (rep : Nat → Nat) (r : Nat) : rank rep r ≤ r := Nat.count_le _

theorem rank_inj {rep : Nat → Nat} {i j : Nat} (hi : rep i = i) (hj : rep j = j) (h : rank rep i = rank rep j) : i = j :=
  Nat.count_injective (p := fun i => rep i = i) hi hj h

theorem rank_mono (rep : Nat → Nat) {i j : Nat} (h : i ≤ j) : rank rep i ≤ rank rep j := Nat.count_monotone _ h

theorem rank_lt {rep : Nat → Nat} {i j : Nat} (hi : rep i = i) (h : i < j) : rank rep i < rank rep j :=
  Nat.count_strict_mono (p := fun i => rep i = i) hi h

/-- every number below the count is the rank of a representative -/
theorem exists_rank (rep : Nat → Nat) : ∀ {j t : Nat}, t < rank rep j → ∃ i < j, rep i = i ∧ rank rep i = t := by
  intro j
  induction j with
  | zero => intro t h; simp [rank] at h
  | succ j ih =>
    intro t h
    rw [rank, Nat.count_succ] at h
    by_cases hj : rep j = j
    · rw [if_pos hj] at h
      rcases Nat.lt_succ_iff_lt_or_eq.1 h with h | h
      · obtain ⟨i, h1, h2, h3⟩ := ih h
        exact ⟨i, by omega, h2, h3⟩
      · exact ⟨j, by omega, hj, h.symm⟩
    · rw [if_neg hj] at h
      obtain ⟨i, h1, h2, h3⟩ := ih h
      exact ⟨i, by omega, h2, h3⟩

theorem putAll_length (m : List Int) (l : List Nat) (v : Int) : (putAll m l v).length = m.length := by
  unfold putAll
  induction l generalizing m with
  | nil => rfl
  | cons a l ih => rw [List.foldl_cons, ih, List.length_set]

theorem putAll_get (l : List Nat) : ∀ (m : List Int) (v : Int) (j : Nat), j < m.length →
    (putAll m l v)[j]? = if j ∈ l then some v else m[j]? := by
  induction l with
  | nil => intro m v j _; simp [putAll]
  | cons a l ih =>
    intro m v j hj
    have e : putAll m (a :: l) v = putAll (m.set a v) l v := rfl
    rw [e, ih _ v j (by rw [List.length_set]; exact hj)]
    by_cases h1 : j ∈ l
    · rw [if_pos h1, if_pos (List.mem_cons_of_mem _ h1)]
    · rw [if_neg h1]
      by_cases h2 : j = a
      · subst h2
        rw [if_pos List.mem_cons_self, List.getElem?_set_self hj]
      · rw [if_neg (by simp [h1, h2]), List.getElem?_set_ne (fun h => h2 h.symm)]

/-- the map when the first `t` numbers have been given -/
def stage (rep : Nat → Nat) (n t : Nat) : List Int :=
  (List.range n).map (fun j => if rank rep (rep j) < t then (rank rep (rep j) : Int) else -1)

theorem stage_length (rep : Nat → Nat) (n t : Nat) : (stage rep n t).length = n := by simp [stage]

theorem stage_get {rep : Nat → Nat} {n t j : Nat} (hj : j < n) :
    (stage rep n t)[j]? = some (if rank rep (rep j) < t then (rank rep (rep j) : Int) else -1) := by
  rw [stage, List.getElem?_map, List.getElem?_range hj]; rfl

/-- the numbers of all the nodes -/
def numbering (rep : Nat → Nat) (n : Nat) : List Int := (List.range n).map (fun j => (rank rep (rep j) : Int))

theorem numberLoop_spec {n : Nat} {same : Nat → List Nat} {rep : Nat → Nat} (h1 : ∀ i < n, rep i ≤ i) (h2 : ∀ i < n, rep (rep i) = rep i)
    (h3 : ∀ i < n, rep i = i → ∀ j < n, (rep j = i ↔ j = i ∨ j ∈ same i)) :
    numberLoop same n (List.replicate n (-1)) 0 = numbering rep n := by
  have done : ∀ t, (∀ j < n, rank rep (rep j) < t) → stage rep n t = numbering rep n := by
    intro t ht
    unfold stage numbering
    apply List.map_congr_left
    intro j hj
    rw [if_pos (ht j (List.mem_range.1 hj))]
  have start : List.replicate n (-1 : Int) = stage rep n 0 := by
    unfold stage
    apply List.ext_getElem?
    intro j
    simp only [Nat.not_lt_zero, if_false]
    by_cases hj : j < n
    · simp [hj]
    · simp [hj]
  have main : ∀ fuel t, n ≤ t + fuel → numberLoop same fuel (stage rep n t) t = numbering rep n := by
    intro fuel
    induction fuel with
    | zero =>
      intro t ht
      exact done t (fun j hj => by have := rank_le rep (rep j); have := h1 j hj; omega)
    | succ fuel ih =>
      intro t ht
      unfold numberLoop
      simp only
      split
      · rename_i he
        rw [stage_length] at he
        apply done
        intro j hj
        by_contra hc
        have hm : (-1 : Int) ∈ stage rep n t := by
          have := stage_get (rep := rep) (t := t) hj
          rw [if_neg hc] at this
          exact List.mem_of_getElem? this
        have hlt : (stage rep n t).findIdx (· == -1) < (stage rep n t).length := List.findIdx_lt_length_of_exists ⟨_, hm, by simp⟩
        rw [stage_length] at hlt
        omega
      · rename_i he
        have hle := List.findIdx_le_length (xs := stage rep n t) (p := (· == (-1 : Int)))
        generalize hit : (stage rep n t).findIdx (· == (-1 : Int)) = it at he hle
        rw [stage_length] at he hle
        have hlt : it < n := by omega
        -- `it` is the first node without number
        have hat : ¬ rank rep (rep it) < t := by
          intro hc
          have hx := stage_get (rep := rep) (t := t) hlt
          rw [if_pos hc] at hx
          have hf := List.findIdx_getElem (xs := stage rep n t) (p := (· == (-1 : Int))) (w := by rw [hit, stage_length]; exact hlt)
          simp only [hit, beq_iff_eq] at hf
          rw [List.getElem?_eq_getElem (by rw [stage_length]; exact hlt)] at hx
          rw [hf] at hx
          simp at hx
        have hbefore : ∀ j < it, rank rep (rep j) < t := by
          intro j hj
          by_contra hc
          have hx := stage_get (rep := rep) (t := t) (show j < n by omega)
          rw [if_neg hc] at hx
          have hf := List.not_of_lt_findIdx (xs := stage rep n t) (p := (· == (-1 : Int))) (i := j) (by rw [hit]; exact hj)
          rw [List.getElem?_eq_getElem (by rw [stage_length]; omega)] at hx
          simp only [Option.some.injEq] at hx
          rw [hx] at hf
          simp at hf
        have hfix : rep it = it := by
          have := h1 it hlt
          by_contra hne
          have := hbefore (rep it) (by omega)
          rw [h2 it hlt] at this
          exact hat this
        rw [hfix] at hat
        have hrank : rank rep it = t := by
          by_contra hne
          obtain ⟨i, hi, hri, hrk⟩ := exists_rank rep (j := it) (t := t) (by omega)
          have := hbefore i hi
          rw [hri, hrk] at this
          omega
        have e : putAll ((stage rep n t).set it t) (same it) t = stage rep n (t + 1) := by
          apply List.ext_getElem?
          intro j
          by_cases hj : j < n
          · rw [putAll_get _ _ _ _ (by rw [List.length_set, stage_length]; exact hj), stage_get hj]
            have key := h3 it hlt hfix j hj
            by_cases hc : rep j = it
            · have hr : rank rep (rep j) = t := by rw [hc, hrank]
              rw [hr, if_pos (Nat.lt_succ_self t)]
              rcases key.1 hc with rfl | hm
              · split
                · rfl
                · rw [List.getElem?_set_self (by rw [stage_length]; exact hj)]
              · rw [if_pos hm]
            · have hnm : ¬ (j = it ∨ j ∈ same it) := fun h => hc (key.2 h)
              rw [not_or] at hnm
              rw [if_neg hnm.2, List.getElem?_set_ne (fun h => hnm.1 h.symm), stage_get hj]
              have hne : rank rep (rep j) ≠ t := by
                intro h
                exact hc (rank_inj (h2 j hj) hfix (by rw [h, hrank]))
              congr 1
              by_cases hl : rank rep (rep j) < t
              · rw [if_pos hl, if_pos (by omega)]
              · rw [if_neg hl, if_neg (by omega)]
          · rw [List.getElem?_eq_none (by rw [putAll_length, List.length_set, stage_length]; omega),
              List.getElem?_eq_none (by rw [stage_length]; omega)]
        rw [e]
        have := ih (t + 1) (by omega)
        push_cast at this
        exact this
  rw [start]
  exact main n 0 (by omega)

/-! ### Counting over a box -/

theorem count_blocks (p : Nat → Prop) [DecidablePred p] (m : Nat) : ∀ a : Nat,
    Nat.count p (m * a) = ∑ i ∈ Finset.range a, Nat.count (fun r => p (m * i + r)) m := by
  intro a
  induction a with
  | zero => simp
  | succ a ih => rw [Nat.mul_succ, Nat.count_add, ih, Finset.sum_range_succ]

theorem count_box (p : Nat → Prop) [DecidablePred p] (a b c : Nat) :
    Nat.count p (a * b * c) = ∑ i ∈ Finset.range a, ∑ j ∈ Finset.range b, Nat.count (fun k => p (b * c * i + c * j + k)) c := by
  have e : a * b * c = b * c * a := by rw [Nat.mul_assoc, Nat.mul_comm]
  rw [e, count_blocks]
  apply Finset.sum_congr rfl
  intro i _
  rw [Nat.mul_comm b c, count_blocks]
  apply Finset.sum_congr rfl
  intro j _
  have : (fun r => p (c * b * i + (c * j + r))) = (fun k => p (c * b * i + c * j + k)) := by
    funext k; rw [Nat.add_assoc]
  simp only [this]

/-- position of the node (i, j, k) of a box with `b` and `c` nodes in the second and third direction -/
def at3 (b c : Nat) (i j k : Nat) : Nat := b * c * i + c * j + k

theorem at3_parts {b c i j k : Nat} (hj : j < b) (hk : k < c) :
    at3 b c i j k % c = k ∧ at3 b c i j k / c % b = j ∧ at3 b c i j k / c / b = i := by
  have e : at3 b c i j k = k + c * (j + b * i) := by unfold at3; ring
  have hc : 0 < c := by omega
  have hb : 0 < b := by omega
  rw [e, Nat.add_mul_mod_self_left, Nat.add_mul_div_left _ _ hc, Nat.div_eq_of_lt hk, Nat.zero_add, Nat.add_mul_mod_self_left,
    Nat.add_mul_div_left _ _ hb, Nat.div_eq_of_lt hj, Nat.zero_add]
  exact ⟨Nat.mod_eq_of_lt hk, Nat.mod_eq_of_lt hj, rfl⟩

theorem at3_of {b c : Nat} (n : Nat) : at3 b c (n / c / b) (n / c % b) (n % c) = n := by
  unfold at3
  have h1 := Nat.div_add_mod n c
  have h2 := Nat.div_add_mod (n / c) b
  have : b * c * (n / c / b) + c * (n / c % b) + n % c = c * (b * (n / c / b) + n / c % b) + n % c := by ring
  rw [this, h2, h1]

theorem at3_lt {a b c i j k : Nat} (hi : i < a) (hj : j < b) (hk : k < c) : at3 b c i j k < a * b * c := by
  unfold at3
  have h1 : c * j + k < c * b := by
    calc c * j + k < c * j + c := by omega
      _ = c * (j + 1) := by ring
      _ ≤ c * b := Nat.mul_le_mul_left _ hj
  calc b * c * i + c * j + k < b * c * i + c * b := by omega
    _ = b * c * (i + 1) := by ring
    _ ≤ b * c * a := Nat.mul_le_mul_left _ hi
    _ = a * b * c := by ring

theorem at3_bounds {a b c n : Nat} (h : n < a * b * c) : n / c / b < a ∧ n / c % b < b ∧ n % c < c := by
  have hc : 0 < c := by rcases Nat.eq_zero_or_pos c with h0 | h0; · subst h0; simp at h
                        · exact h0
  have hb : 0 < b := by rcases Nat.eq_zero_or_pos b with h0 | h0; · subst h0; simp at h
                        · exact h0
  refine ⟨?_, Nat.mod_lt _ hb, Nat.mod_lt _ hc⟩
  rw [Nat.div_lt_iff_lt_mul hb, Nat.div_lt_iff_lt_mul hc]; exact h

end Verif.Grid
