import Verif.Lapl.GradProps
/-
C173: graph Laplacians.
-/
namespace Verif.Lapl
open List

noncomputable section

/-- the weight of an edge: the mean diffusivity over the squared length -/
def wgt (pos : Nat → V) (k : Nat → ℝ) (a b : Nat) : ℝ := (k a + k b) / 2 / dot (pos a - pos b) (pos a - pos b)

theorem edge_weight (pos : Nat → V) (k : Nat → ℝ) (a b : Nat) : edgeWeight pos k a b = wgt pos k a b := by
  unfold edgeWeight wgt norm2
  rw [Real.rpow_two, Real.sq_sqrt (dot_self_nonneg _)]
  ring

theorem fold_items (w : Nat → ℝ) : ∀ (l : List Nat) (s : Sten ℝ), l.foldl (fun s b => s.append b (w b)) s = ⟨s.items ++ l.map fun b => (b, w b), s.const⟩ := by
  intro l
  induction l with
  | nil => intro s; simp
  | cons b l ih => intro s; rw [foldl_cons, ih]; simp [Sten.append]

theorem fold_sum (w : Nat → ℝ) : ∀ (l : List Nat) (s : ℝ), l.foldl (fun s b => s + w b) s = s + (l.map w).sum := by
  intro l
  induction l with
  | nil => intro s; simp
  | cons b l ih => intro s; rw [foldl_cons, ih, map_cons, sum_cons]; ring

theorem graph_items (pos : Nat → V) (k : Nat → ℝ) (conn : Nat → List Nat) (a : Nat) : graphStencil pos k conn a =
    (Sten.mk ((conn a).map fun b => (b, wgt pos k a b / ((conn a).map (wgt pos k a)).sum)) 0).complement a := by
  unfold graphStencil
  simp only [fold_items, fold_sum, edge_weight, zero_add]
  unfold Sten.scale Sten.empty
  simp only [nil_append, map_map, smul_zero, smul_eq_mul]
  congr 2
  · apply map_congr_left
    intro b _
    simp only [Function.comp, Prod.mk.injEq, true_and]
    ring
  · ring

theorem sum_div (l : List Nat) (w : Nat → ℝ) (d : ℝ) : (l.map fun b => w b / d).sum = (l.map w).sum / d := by
  induction l with
  | nil => simp
  | cons b l ih => rw [map_cons, sum_cons, ih, map_cons, sum_cons]; ring

/-- **C173.** Exactly the requested points have a stencil. -/
theorem C173_points (pos : Nat → V) (diff : Option (Nat → ℝ)) (conn : Nat → List Nat) (ids : List Nat) (a : Nat) :
    (∃ s, graphStencils pos diff conn ids a = some s) ↔ a ∈ ids := by
  unfold graphStencils
  by_cases h : a ∈ ids <;> simp [h]

/-- a point has neighbours, none in its own place, and the diffusivity is positive there -/
structure Sound (pos : Nat → V) (k : Nat → ℝ) (conn : Nat → List Nat) (a : Nat) : Prop where
  some : conn a ≠ []
  apart : ∀ b ∈ conn a, pos b ≠ pos a
  diff : 0 < k a ∧ ∀ b ∈ conn a, 0 < k b

theorem wgt_pos {pos : Nat → V} {k : Nat → ℝ} {conn : Nat → List Nat} {a : Nat} (h : Sound pos k conn a) {b : Nat} (hb : b ∈ conn a) : 0 < wgt pos k a b := by
  unfold wgt
  have h1 := h.diff.1
  have h2 := h.diff.2 b hb
  have h3 : 0 < dot (pos a - pos b) (pos a - pos b) := by
    rcases lt_or_eq_of_le (dot_self_nonneg (pos a - pos b)) with h' | h'
    · exact h'
    · exact absurd (sub_eq_zero.1 (dot_self_eq h'.symm)).symm (h.apart b hb)
  positivity

theorem total_pos {pos : Nat → V} {k : Nat → ℝ} {conn : Nat → List Nat} {a : Nat} (h : Sound pos k conn a) : 0 < ((conn a).map (wgt pos k a)).sum := by
  apply sum_pos
  · intro x hx
    obtain ⟨b, hb, rfl⟩ := mem_map.1 hx
    exact wgt_pos h hb
  · simp [h.some]

/-- **C173.** The row of a point: positive weights of its neighbours in proportion to diffusivity over squared distance, which sum to 1, and −1 for the
point itself. -/
theorem C173_row {pos : Nat → V} {diff : Option (Nat → ℝ)} {conn : Nat → List Nat} {ids : List Nat} {a : Nat} {s : Sten ℝ}
    (hs : graphStencils pos diff conn ids a = some s) (h : Sound pos (diff.getD fun _ => 1) conn a) :
    ∃ ws : List (Nat × ℝ), s.items = ws ++ [(a, -1)] ∧ s.const = 0 ∧ ws.map Prod.fst = conn a ∧ (ws.map Prod.snd).sum = 1 ∧ (∀ e ∈ ws, 0 < e.2) ∧
      ∀ e ∈ ws, ∀ e' ∈ ws, e.2 * wgt pos (diff.getD fun _ => 1) a e'.1 = e'.2 * wgt pos (diff.getD fun _ => 1) a e.1 := by
  unfold graphStencils at hs
  split at hs
  · simp only [Option.some.injEq] at hs
    rw [← hs, graph_items]
    have ht := total_pos h
    have h1 : (((conn a).map fun b => (b, wgt pos (diff.getD fun _ => 1) a b / ((conn a).map (wgt pos (diff.getD fun _ => 1) a)).sum)).map Prod.snd).sum = 1 := by
      rw [map_map]
      show ((conn a).map fun b => wgt pos _ a b / _).sum = 1
      rw [sum_div, div_self ht.ne']
    refine ⟨_, by unfold Sten.complement Sten.append; rw [h1], rfl, ?_, h1, ?_, ?_⟩
    · rw [map_map]
      exact map_id _
    · intro e he
      obtain ⟨b, hb, rfl⟩ := mem_map.1 he
      exact div_pos (wgt_pos h hb) ht
    · intro e he e' he'
      obtain ⟨b, hb, rfl⟩ := mem_map.1 he
      obtain ⟨b', hb', rfl⟩ := mem_map.1 he'
      simp only
      ring
  · simp at hs

/-- the value of a stencil times the total weight -/
theorem graph_eval {pos : Nat → V} {diff : Option (Nat → ℝ)} {conn : Nat → List Nat} {ids : List Nat} {a : Nat} {s : Sten ℝ}
    (hs : graphStencils pos diff conn ids a = some s) (h : Sound pos (diff.getD fun _ => 1) conn a) (u : Nat → ℝ) :
    s.eval u * ((conn a).map (wgt pos (diff.getD fun _ => 1) a)).sum = ((conn a).map fun b => wgt pos (diff.getD fun _ => 1) a b * (u b - u a)).sum := by
  unfold graphStencils at hs
  split at hs
  · simp only [Option.some.injEq] at hs
    rw [← hs, graph_items, eval_complement, add_zero, map_map]
    have ht := total_pos h
    generalize ((conn a).map (wgt pos (diff.getD fun _ => 1) a)).sum = d at ht
    have : ∀ l : List Nat, (l.map ((fun e : Nat × ℝ => (u e.1 - u a) • e.2) ∘ fun b => (b, wgt pos (diff.getD fun _ => 1) a b / d))).sum * d =
        (l.map fun b => wgt pos (diff.getD fun _ => 1) a b * (u b - u a)).sum := by
      intro l
      induction l with
      | nil => simp
      | cons b l ih =>
        rw [map_cons, sum_cons, map_cons, sum_cons, add_mul, ih]
        simp only [Function.comp, smul_eq_mul]
        field_simp
    exact this _
  · simp at hs

/-- **C173.** The Laplacian is zero at a point exactly when the field there is the weighted mean of the neighbours. -/
theorem C173_mean {pos : Nat → V} {diff : Option (Nat → ℝ)} {conn : Nat → List Nat} {ids : List Nat} {a : Nat} {s : Sten ℝ}
    (hs : graphStencils pos diff conn ids a = some s) (h : Sound pos (diff.getD fun _ => 1) conn a) (u : Nat → ℝ) :
    s.eval u = 0 ↔ u a = ((conn a).map fun b => wgt pos (diff.getD fun _ => 1) a b * u b).sum / ((conn a).map (wgt pos (diff.getD fun _ => 1) a)).sum := by
  have ht := total_pos h
  have he := graph_eval hs h u
  have e : ∀ l : List Nat, (l.map fun b => wgt pos (diff.getD fun _ => 1) a b * (u b - u a)).sum =
      (l.map fun b => wgt pos (diff.getD fun _ => 1) a b * u b).sum - u a * (l.map (wgt pos (diff.getD fun _ => 1) a)).sum := by
    intro l
    induction l with
    | nil => simp
    | cons b l ih => simp only [map_cons, sum_cons] at ih ⊢; rw [ih]; ring
  rw [e] at he
  rw [eq_div_iff ht.ne']
  constructor
  · intro h0
    rw [h0, zero_mul] at he
    linarith
  · intro h0
    rw [h0, sub_self] at he
    exact (mul_eq_zero.1 he).resolve_right ht.ne'

/-- **C173.** Constants have a zero Laplacian. -/
theorem C173_constant {pos : Nat → V} {diff : Option (Nat → ℝ)} {conn : Nat → List Nat} {ids : List Nat} {a : Nat} {s : Sten ℝ}
    (hs : graphStencils pos diff conn ids a = some s) (h : Sound pos (diff.getD fun _ => 1) conn a) (c : ℝ) : s.eval (fun _ => c) = 0 := by
  have he := graph_eval hs h fun _ => c
  have hz : ((conn a).map fun b => wgt pos (diff.getD fun _ => 1) a b * (c - c)).sum = 0 := by
    apply sum_eq_zero
    intro x hx
    obtain ⟨b, _, rfl⟩ := mem_map.1 hx
    simp
  rw [hz] at he
  exact (mul_eq_zero.1 he).resolve_right (total_pos h).ne'

theorem sum_pos_of {l : List Nat} {f : Nat → ℝ} (h : ∀ b ∈ l, 0 ≤ f b) {b : Nat} (hb : b ∈ l) (hp : 0 < f b) : 0 < (l.map f).sum := by
  rcases lt_or_eq_of_le (sum_nonneg (l := l.map f) (by
      intro x hx
      obtain ⟨b, hb, rfl⟩ := mem_map.1 hx
      exact h b hb)) with h' | h'
  · exact h'
  · exact absurd (sum_zero h h'.symm b hb) hp.ne'

/-- **C173.** Maximum principle: where the Laplacian is not negative the field does not exceed all neighbours, and when none exceeds it all neighbours
have its value. -/
theorem C173_max {pos : Nat → V} {diff : Option (Nat → ℝ)} {conn : Nat → List Nat} {ids : List Nat} {a : Nat} {s : Sten ℝ}
    (hs : graphStencils pos diff conn ids a = some s) (h : Sound pos (diff.getD fun _ => 1) conn a) {u : Nat → ℝ} (h0 : 0 ≤ s.eval u)
    (hm : ∀ b ∈ conn a, u b ≤ u a) : ∀ b ∈ conn a, u b = u a := by
  have ht := total_pos h
  have he := graph_eval hs h u
  intro b hb
  by_contra hne
  have hlt : u b < u a := lt_of_le_of_ne (hm b hb) hne
  have := sum_pos_of (l := conn a) (f := fun b => wgt pos (diff.getD fun _ => 1) a b * (u a - u b))
    (fun b hb => mul_nonneg (wgt_pos h hb).le (sub_nonneg.2 (hm b hb))) hb (mul_pos (wgt_pos h hb) (sub_pos.2 hlt))
  have e : ∀ l : List Nat, (l.map fun b => wgt pos (diff.getD fun _ => 1) a b * (u a - u b)).sum = -(l.map fun b => wgt pos (diff.getD fun _ => 1) a b * (u b - u a)).sum := by
    intro l
    induction l with
    | nil => simp
    | cons b l ih => rw [map_cons, sum_cons, ih, map_cons, sum_cons]; ring
  rw [e, ← he] at this
  have := mul_nonneg h0 ht.le
  linarith

/-- **C173.** The same for minima. -/
theorem C173_min {pos : Nat → V} {diff : Option (Nat → ℝ)} {conn : Nat → List Nat} {ids : List Nat} {a : Nat} {s : Sten ℝ}
    (hs : graphStencils pos diff conn ids a = some s) (h : Sound pos (diff.getD fun _ => 1) conn a) {u : Nat → ℝ} (h0 : s.eval u ≤ 0)
    (hm : ∀ b ∈ conn a, u a ≤ u b) : ∀ b ∈ conn a, u b = u a := by
  have ht := total_pos h
  have h1 := graph_eval hs h u
  have h2 := graph_eval hs h fun n => -u n
  have e : ((conn a).map fun b => wgt pos (diff.getD fun _ => 1) a b * (-u b - -u a)).sum = -((conn a).map fun b => wgt pos (diff.getD fun _ => 1) a b * (u b - u a)).sum := by
    generalize conn a = l
    induction l with
    | nil => simp
    | cons b l ih => rw [map_cons, sum_cons, ih, map_cons, sum_cons]; ring
  rw [e, ← h1] at h2
  have h3 : s.eval (fun n => -u n) = -s.eval u := mul_right_cancel₀ ht.ne' (by rw [h2]; ring)
  intro b hb
  have := C173_max hs h (u := fun n => -u n) (by rw [h3]; linarith) (fun b hb => neg_le_neg (hm b hb)) b hb
  linarith

/-- a point between two others, one twice as far -/
def linePos : Nat → V
  | 1 => ![1, 0, 0]
  | 2 => ![-2, 0, 0]
  | _ => 0

theorem line_sound : Sound linePos ((none : Option (Nat → ℝ)).getD fun _ => 1) (fun _ => [1, 2]) 0 := by
  constructor
  · simp
  · intro b hb h
    simp only [mem_cons, not_mem_nil, or_false] at hb
    rcases hb with rfl | rfl <;> have := congrFun h 0 <;> simp [linePos] at this
  · simp

example : ∃ s, graphStencils linePos none (fun _ => [1, 2]) [0] 0 = some s ∧ ∃ ws : List (Nat × ℝ), s.items = ws ++ [(0, -1)] ∧ ws.map Prod.fst = [1, 2] := by
  obtain ⟨s, h⟩ := (C173_points linePos none (fun _ => [1, 2]) [0] 0).2 (by simp)
  obtain ⟨ws, h1, _, h2, _⟩ := C173_row h line_sound
  exact ⟨s, h, ws, h1, h2⟩

example : ∃ s, graphStencils linePos none (fun _ => [1, 2]) [0] 0 = some s ∧ s.eval (fun n => if n = 1 then 10 else if n = 2 then 0 else 8) = 0 := by
  obtain ⟨s, h⟩ := (C173_points linePos none (fun _ => [1, 2]) [0] 0).2 (by simp)
  refine ⟨s, h, (C173_mean h line_sound _).2 ?_⟩
  simp [wgt, linePos, dot]
  norm_num

/-- **C173.** Violated: a point without neighbours has no nonzero weight at all, its own included: its value is not determined. -/
theorem C173_isolated_fails : ∃ (pos : Nat → V) (conn : Nat → List Nat) (s : Sten ℝ), graphStencils pos none conn [0] 0 = some s ∧
    ∀ u : Nat → ℝ, (s.items.map fun e => u e.1 • e.2).sum = 0 := by
  refine ⟨fun _ => 0, fun _ => [], _, rfl, fun u => ?_⟩
  simp [graphStencil, Sten.empty, Sten.scale, Sten.complement, Sten.append]

end

end Verif.Lapl
