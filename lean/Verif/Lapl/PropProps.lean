import Verif.Lapl.GraphProps
import Verif.Lapl.Propagate
import Mathlib.Data.Finset.Max
import Mathlib.LinearAlgebra.FiniteDimensional.Basic
/-
C174: the propagation of a scalar field.
-/
namespace Verif.Lapl
open List

noncomputable section

/-! ### Specification -/

/-- a point in the band that is farther from the surface than another one -/
def Farther (band : Nat → Option ℝ) (a b : Nat) : Prop := ∃ d d', band a = some d ∧ band b = some d' ∧ d < d'

open scoped Classical in
/-- the coefficient of an edge: relaxed in the band towards points that are farther away -/
def coef (pos : Nat → V) (k : Nat → ℝ) (band : Nat → Option ℝ) (relax : ℝ) (a b : Nat) : ℝ :=
  if Farther band a b then relax * wgt pos k a b else wgt pos k a b

/-- a field has the given values and is balanced elsewhere -/
def Harmonic (ids : List Nat) (conn : Nat → List Nat) (c : Nat → Nat → ℝ) (bc : Nat → Option ℝ) (u : Nat → ℝ) : Prop :=
  ∀ a ∈ ids, match bc a with
    | some v => u a = v
    | none => ((conn a).map fun b => c a b * (u b - u a)).sum = 0

/-- a point is connected to one with a given value -/
inductive Reach (conn : Nat → List Nat) (c : Nat → Nat → ℝ) (bc : Nat → Option ℝ) : Nat → Prop
  | here {a v} : bc a = some v → Reach conn c bc a
  | step {a b} : b ∈ conn a → 0 < c a b → Reach conn c bc b → Reach conn c bc a

/-! ### Rows -/

theorem row_product (s : Sten ℝ) (u : Nat → ℝ) : s.eval u = rowProduct s u + s.const := rfl

theorem dirichlet_eval (id : Nat) (v : ℝ) (s : Sten ℝ) (u : Nat → ℝ) : rowProduct (dirichletRow id v s) u = u id ∧ (dirichletRow id v s).const = -v := by
  have h1 : (dirichletRow id v s).eval u = u id - v := by
    unfold dirichletRow
    rw [eval_add, eval_scale, zero_smul, eval_const, eval_append, eval_empty]
    simp
    ring
  have h2 : (dirichletRow id v s).const = -v := by
    show (0 : ℝ) • s.const + (0 + -v) = -v
    simp
  rw [row_product, h2] at h1
  exact ⟨by linarith, h2⟩

theorem graph_row (pos : Nat → V) (k : Nat → ℝ) (conn : Nat → List Nat) (a : Nat) : ∃ ws : List (Nat × ℝ), (graphStencil pos k conn a).items = ws ++ [(a, -(ws.map Prod.snd).sum)] ∧
    (graphStencil pos k conn a).const = 0 ∧ ws = (conn a).map fun b => (b, wgt pos k a b / ((conn a).map (wgt pos k a)).sum) := by
  rw [graph_items]
  exact ⟨_, rfl, rfl, rfl⟩

open scoped Classical in
theorem band_row (band : Nat → Option ℝ) (relax : ℝ) (a : Nat) (s : Sten ℝ) (ws : List (Nat × ℝ)) (h : s.items = ws ++ [(a, -(ws.map Prod.snd).sum)]) :
    (bandStencil band relax a s).items = (ws.map fun e => (e.1, if Farther band a e.1 then relax * e.2 else e.2)) ++
      [(a, -((ws.map fun e => if Farther band a e.1 then relax * e.2 else e.2).sum))] ∧ (bandStencil band relax a s).const = s.const := by
  unfold bandStencil
  cases hb : band a with
  | none =>
    have hf : ∀ b, ¬ Farther band a b := by
      rintro b ⟨d, d', h1, _⟩
      rw [hb] at h1
      simp at h1
    simp only [hf, if_false, h, and_true]
    have e1 : (ws.map fun e => (e.1, e.2)) = ws := map_id _
    rw [e1]
  | some d =>
    refine ⟨?_, rfl⟩
    simp only [h, dropLast_concat, getLast?_append, getLast?_singleton, Option.some_or, Option.map_some, Option.toList_some]
    have hf : ∀ e : Nat × ℝ, (isFar band d e = true) ↔ Farther band a e.1 := by
      intro e
      unfold Farther isFar
      cases hbe : band e.1 with
      | none => simp
      | some d' => simp [hb]
    congr 1
    · apply map_congr_left
      intro e _
      by_cases hfe : Farther band a e.1
      · rw [if_pos ((hf e).2 hfe), if_pos hfe, mul_comm]
      · rw [if_neg (fun h => hfe ((hf e).1 h)), if_neg hfe]
    · congr 2
      have : ∀ l : List (Nat × ℝ), -(l.map Prod.snd).sum + (((l.filter (isFar band d)).map Prod.snd).sum -
          ((l.filter (isFar band d)).map fun e => e.2 * relax).sum) =
          -((l.map fun e => if Farther band a e.1 then relax * e.2 else e.2).sum) := by
        intro l
        induction l with
        | nil => simp
        | cons e l ih =>
          rw [filter_cons]
          by_cases hfe : Farther band a e.1
          · rw [if_pos ((hf e).2 hfe)]
            simp only [map_cons, sum_cons, if_pos hfe]
            linarith
          · rw [if_neg (fun h => hfe ((hf e).1 h))]
            simp only [map_cons, sum_cons, if_neg hfe]
            linarith
      exact this ws

/-- the row of a point without a given value -/
theorem free_row {pos : Nat → V} {k : Nat → ℝ} {conn : Nat → List Nat} {ids : List Nat} {band : Nat → Option ℝ} {relax : ℝ} {a : Nat} {s : Sten ℝ}
    (hs : stencils pos k conn ids band relax a = some s) (h : Sound pos k conn a) (u : Nat → ℝ) :
    rowProduct s u * ((conn a).map (wgt pos k a)).sum = ((conn a).map fun b => coef pos k band relax a b * (u b - u a)).sum ∧ s.const = 0 := by
  classical
  unfold stencils graphStencils at hs
  split at hs
  · simp only [Option.map_some, Option.some.injEq, Option.getD_some] at hs
    obtain ⟨ws, h1, h2, h3⟩ := graph_row pos k conn a
    obtain ⟨b1, b2⟩ := band_row band relax a _ ws h1
    rw [← hs]
    refine ⟨?_, by rw [b2, h2]⟩
    have ht := total_pos h
    unfold rowProduct
    rw [b1, h3]
    generalize ((conn a).map (wgt pos k a)).sum = d at ht
    rw [map_append, sum_append, map_map, map_map, map_map]
    simp only [map_cons, map_nil, sum_cons, sum_nil, add_zero]
    have : ∀ l : List Nat, ((l.map ((fun e : Nat × ℝ => u e.1 * e.2) ∘ (fun e : Nat × ℝ => (e.1, if Farther band a e.1 then relax * e.2 else e.2)) ∘ fun b => (b, wgt pos k a b / d))).sum +
        u a * -(l.map ((fun e : Nat × ℝ => if Farther band a e.1 then relax * e.2 else e.2) ∘ fun b => (b, wgt pos k a b / d))).sum) * d =
        (l.map fun b => coef pos k band relax a b * (u b - u a)).sum := by
      intro l
      induction l with
      | nil => simp
      | cons b l ih =>
        rw [map_cons, sum_cons, map_cons, sum_cons, map_cons, sum_cons, ← ih]
        simp only [Function.comp, coef]
        split <;> field_simp <;> ring
    exact this _
  · simp at hs

/-- **C174.** A field solves the system exactly when it has the given values at the points with conditions and is balanced at the others: the sum of the
differences to the neighbours, weighted by diffusivity over squared distance and relaxed in the band, is zero. -/
theorem C174_system {pos : Nat → V} {k : Nat → ℝ} {conn : Nat → List Nat} {ids border : List Nat} {band : Nat → Option ℝ} {relax : ℝ} {bc : Nat → Option ℝ}
    (h : ∀ a ∈ ids, Sound pos k conn a) (u : Nat → ℝ) :
    Solves ids border (stencils pos k conn ids band relax) bc u ↔ Harmonic ids conn (coef pos k band relax) bc u := by
  have ex : ∀ a ∈ ids, ∃ s, stencils pos k conn ids band relax a = some s := by
    intro a ha
    unfold stencils graphStencils
    rw [if_pos ha]
    exact ⟨_, rfl⟩
  unfold Solves Harmonic
  apply forall_congr'
  intro a
  apply forall_congr'
  intro ha
  obtain ⟨s, hs⟩ := ex a ha
  cases hb : bc a with
  | some v =>
    have hr : systemRow (stencils pos k conn ids band relax) bc a = some (dirichletRow a v s) := by
      unfold systemRow
      rw [hs, hb]
      rfl
    have hrhs : rhs border (stencils pos k conn ids band relax) bc a = v := by
      unfold rhs
      rw [if_pos (Or.inr (by rw [hb]; rfl)), hr]
      simp only [(dirichlet_eval a v s u).2]
      ring
    rw [hr, hrhs]
    constructor
    · intro h'
      have := h' _ rfl
      rw [(dirichlet_eval a v s u).1] at this
      exact this
    · intro h' t ht
      simp only [Option.some.injEq] at ht
      rw [← ht, (dirichlet_eval a v s u).1]
      exact h'
  | none =>
    have hr : systemRow (stencils pos k conn ids band relax) bc a = some s := by
      unfold systemRow
      rw [hs, hb]
      rfl
    obtain ⟨f1, f2⟩ := free_row hs (h a ha) u
    have hrhs : rhs border (stencils pos k conn ids band relax) bc a = 0 := by
      unfold rhs
      split
      · rw [hr]
        simp only [f2]
        ring
      · rfl
    rw [hr, hrhs]
    have ht := total_pos (h a ha)
    constructor
    · intro h'
      rw [← f1, h' s rfl, zero_mul]
    · intro h' t ht'
      simp only [Option.some.injEq] at ht'
      rw [← ht']
      rw [h'] at f1
      exact (mul_eq_zero.1 f1).resolve_right ht.ne'

/-- **C174.** Without a band the points without conditions have the weighted mean of their neighbours. -/
theorem C174_mean {pos : Nat → V} {k : Nat → ℝ} {conn : Nat → List Nat} {ids border : List Nat} {relax : ℝ} {bc : Nat → Option ℝ} {u : Nat → ℝ}
    (h : ∀ a ∈ ids, Sound pos k conn a) (hu : Solves ids border (stencils pos k conn ids (fun _ => none) relax) bc u) {a : Nat} (ha : a ∈ ids) :
    (∀ v, bc a = some v → u a = v) ∧
    (bc a = none → u a = ((conn a).map fun b => wgt pos k a b * u b).sum / ((conn a).map (wgt pos k a)).sum) := by
  have := (C174_system h u).1 hu a ha
  constructor
  · intro v hv
    rw [hv] at this
    exact this
  · intro hb
    rw [hb] at this
    simp only at this
    have hc : ∀ b, coef pos k (fun _ => none) relax a b = wgt pos k a b := by
      intro b
      unfold coef
      rw [if_neg]
      rintro ⟨d, d', h1, _⟩
      simp at h1
    simp only [hc] at this
    have e : ∀ l : List Nat, (l.map fun b => wgt pos k a b * (u b - u a)).sum = (l.map fun b => wgt pos k a b * u b).sum - u a * (l.map (wgt pos k a)).sum := by
      intro l
      induction l with
      | nil => simp
      | cons b l ih => simp only [map_cons, sum_cons] at ih ⊢; rw [ih]; ring
    rw [e] at this
    rw [eq_div_iff (total_pos (h a ha)).ne']
    linarith

/-! ### The maximum principle -/

/-- differences of balanced fields are balanced -/
theorem Harmonic.sub {ids : List Nat} {conn : Nat → List Nat} {c : Nat → Nat → ℝ} {b1 b2 b : Nat → Option ℝ} {u v : Nat → ℝ}
    (h1 : Harmonic ids conn c b1 u) (h2 : Harmonic ids conn c b2 v)
    (hb : ∀ a, b a = (b1 a).bind fun x => (b2 a).map fun y => x - y) (hs : ∀ a, (b1 a).isSome = (b2 a).isSome) : Harmonic ids conn c b fun a => u a - v a := by
  intro a ha
  have e1 := h1 a ha
  have e2 := h2 a ha
  have e3 := hs a
  rw [hb]
  cases h1a : b1 a with
  | some x =>
    rw [h1a] at e1 e3
    cases h2a : b2 a with
    | some y =>
      rw [h2a] at e2
      simp only [Option.bind_some, Option.map_some] at e1 e2 ⊢
      rw [e1, e2]
    | none => rw [h2a] at e3; simp at e3
  | none =>
    rw [h1a] at e1 e3
    cases h2a : b2 a with
    | some y => rw [h2a] at e3; simp at e3
    | none =>
      rw [h2a] at e2
      simp only [Option.bind_none] at e1 e2 ⊢
      have e : ∀ l : List Nat, (l.map fun b => c a b * (u b - v b - (u a - v a))).sum = (l.map fun b => c a b * (u b - u a)).sum - (l.map fun b => c a b * (v b - v a)).sum := by
        intro l
        induction l with
        | nil => simp
        | cons b l ih => rw [map_cons, sum_cons, ih, map_cons, sum_cons, map_cons, sum_cons]; ring
      rw [e, e1, e2, sub_zero]

theorem harmonic_le {ids : List Nat} {conn : Nat → List Nat} {c : Nat → Nat → ℝ} {bc : Nat → Option ℝ} {u : Nat → ℝ} (h : Harmonic ids conn c bc u)
    (hin : ∀ a ∈ ids, ∀ b ∈ conn a, b ∈ ids) (hc : ∀ a ∈ ids, ∀ b ∈ conn a, 0 ≤ c a b) (hr : ∀ a ∈ ids, Reach conn c bc a) {M : ℝ}
    (hM : ∀ a ∈ ids, ∀ v, bc a = some v → v ≤ M) : ∀ a ∈ ids, u a ≤ M := by
  intro x hx
  obtain ⟨m, hm, hmax⟩ := Finset.exists_max_image ids.toFinset u ⟨x, List.mem_toFinset.2 hx⟩
  rw [List.mem_toFinset] at hm
  have hmax' : ∀ a ∈ ids, u a ≤ u m := fun a ha => hmax a (List.mem_toFinset.2 ha)
  have key : ∀ a, Reach conn c bc a → a ∈ ids → u a = u m → u m ≤ M := by
    intro a hra
    induction hra with
    | here hb =>
      intro ha he
      have := h _ ha
      rw [hb] at this
      simp only at this
      rw [← he, this]
      exact hM _ ha _ hb
    | @step a b hb hcb _ ih =>
      intro ha he
      cases hba : bc a with
      | some v =>
        have := h _ ha
        rw [hba] at this
        simp only at this
        rw [← he, this]
        exact hM _ ha _ hba
      | none =>
        have h0 := h _ ha
        rw [hba] at h0
        simp only at h0
        apply ih (hin a ha b hb)
        by_contra hne
        have hlt : u b < u a := by
          rw [he]
          exact lt_of_le_of_ne (hmax' b (hin a ha b hb)) hne
        have := sum_pos_of (l := conn a) (f := fun b => c a b * (u a - u b))
          (fun b hb => mul_nonneg (hc a ha b hb) (sub_nonneg.2 (by rw [he]; exact hmax' b (hin a ha b hb)))) hb (mul_pos hcb (sub_pos.2 hlt))
        have e : ∀ l : List Nat, (l.map fun b => c a b * (u a - u b)).sum = -(l.map fun b => c a b * (u b - u a)).sum := by
          intro l
          induction l with
          | nil => simp
          | cons b l ih => rw [map_cons, sum_cons, ih, map_cons, sum_cons]; ring
        rw [e, h0] at this
        simp at this
  exact le_trans (hmax' x hx) (key m (hr m hm) hm rfl)

theorem Reach.congr {conn : Nat → List Nat} {c : Nat → Nat → ℝ} {b1 b2 : Nat → Option ℝ} (hs : ∀ a, (b1 a).isSome = (b2 a).isSome) {a : Nat}
    (h : Reach conn c b1 a) : Reach conn c b2 a := by
  induction h with
  | @here a v hb =>
    have := hs a
    rw [hb] at this
    obtain ⟨w, hw⟩ := Option.isSome_iff_exists.1 this.symm
    exact .here hw
  | step hb hc _ ih => exact .step hb hc ih

/-- a mesh that can be solved: sound points, no relaxation below zero, and every point connected to one with a condition -/
structure Solvable (pos : Nat → V) (k : Nat → ℝ) (conn : Nat → List Nat) (ids : List Nat) (band : Nat → Option ℝ) (relax : ℝ) (bc : Nat → Option ℝ) : Prop where
  sound : ∀ a ∈ ids, Sound pos k conn a
  inside : ∀ a ∈ ids, ∀ b ∈ conn a, b ∈ ids
  relaxed : 0 ≤ relax
  reach : ∀ a ∈ ids, Reach conn (coef pos k band relax) bc a

theorem coef_nonneg {pos : Nat → V} {k : Nat → ℝ} {conn : Nat → List Nat} {band : Nat → Option ℝ} {relax : ℝ} (hr : 0 ≤ relax) {a b : Nat} (h : Sound pos k conn a)
    (hb : b ∈ conn a) : 0 ≤ coef pos k band relax a b := by
  unfold coef
  split
  · exact mul_nonneg hr (wgt_pos h hb).le
  · exact (wgt_pos h hb).le

/-- **C174.** Two results for conditions at the same points compare as the conditions do. -/
theorem C174_compare {pos : Nat → V} {k : Nat → ℝ} {conn : Nat → List Nat} {ids border : List Nat} {band : Nat → Option ℝ} {relax : ℝ} {b1 b2 : Nat → Option ℝ}
    {u v : Nat → ℝ} (h : Solvable pos k conn ids band relax b1) (hs : ∀ a, (b1 a).isSome = (b2 a).isSome)
    (hu : Solves ids border (stencils pos k conn ids band relax) b1 u) (hv : Solves ids border (stencils pos k conn ids band relax) b2 v)
    (hle : ∀ a x y, b1 a = some x → b2 a = some y → x ≤ y) : ∀ a ∈ ids, u a ≤ v a := by
  have hd : Harmonic ids conn (coef pos k band relax) (fun a => (b1 a).bind fun x => (b2 a).map fun y => x - y) fun a => u a - v a :=
    Harmonic.sub ((C174_system h.sound u).1 hu) ((C174_system h.sound v).1 hv) (fun _ => rfl) hs
  have hsome : ∀ a, (b1 a).isSome = ((b1 a).bind fun x => (b2 a).map fun y => x - y).isSome := by
    intro a
    have := hs a
    cases h1 : b1 a <;> cases h2 : b2 a <;> simp_all
  have := harmonic_le hd h.inside (fun a ha b hb => coef_nonneg h.relaxed (h.sound a ha) hb) (fun a ha => (h.reach a ha).congr hsome) (M := 0) (by
    intro a ha w hw
    cases h1 : b1 a with
    | none => rw [h1] at hw; simp at hw
    | some x =>
      cases h2 : b2 a with
      | none => rw [h1, h2] at hw; simp at hw
      | some y =>
        rw [h1, h2] at hw
        simp only [Option.bind_some, Option.map_some, Option.some.injEq] at hw
        have := hle a x y h1 h2
        linarith)
  intro a ha
  have := this a ha
  linarith

/-- **C174.** The result is between the smallest and the largest of the given values. -/
theorem C174_bounds {pos : Nat → V} {k : Nat → ℝ} {conn : Nat → List Nat} {ids border : List Nat} {band : Nat → Option ℝ} {relax : ℝ} {bc : Nat → Option ℝ}
    {u : Nat → ℝ} (h : Solvable pos k conn ids band relax bc) (hu : Solves ids border (stencils pos k conn ids band relax) bc u) {m M : ℝ}
    (hm : ∀ a ∈ ids, ∀ v, bc a = some v → m ≤ v ∧ v ≤ M) : ∀ a ∈ ids, m ≤ u a ∧ u a ≤ M := by
  have hH := (C174_system h.sound u).1 hu
  have up := harmonic_le hH h.inside (fun a ha b hb => coef_nonneg h.relaxed (h.sound a ha) hb) h.reach (fun a ha v hv => (hm a ha v hv).2)
  have hz : Harmonic ids conn (coef pos k band relax) (fun a => (bc a).map fun _ => 0) fun _ => 0 := by
    intro a _
    simp only
    cases hb : bc a with
    | some v => simp
    | none => simp
  have hd := Harmonic.sub (b := fun a => ((bc a).map fun _ => (0 : ℝ)).bind fun x => (bc a).map fun y => x - y) hz hH (fun _ => rfl) (by
    intro a
    cases bc a <;> rfl)
  have lo := harmonic_le hd h.inside (fun a ha b hb => coef_nonneg h.relaxed (h.sound a ha) hb) (fun a ha => (h.reach a ha).congr (by
    intro a
    cases bc a <;> rfl)) (M := -m) (by
    intro a ha w hw
    cases hb : bc a with
    | none => rw [hb] at hw; simp at hw
    | some v =>
      rw [hb] at hw
      simp only [Option.map_some, Option.bind_some, Option.some.injEq] at hw
      have := (hm a ha v hb).1
      linarith)
  intro a ha
  have := lo a ha
  exact ⟨by linarith, up a ha⟩

/-- **C174.** Equal values everywhere on the patches give that value everywhere. -/
theorem C174_constant {pos : Nat → V} {k : Nat → ℝ} {conn : Nat → List Nat} {ids border : List Nat} {band : Nat → Option ℝ} {relax : ℝ} {bc : Nat → Option ℝ}
    {u : Nat → ℝ} (h : Solvable pos k conn ids band relax bc) (hu : Solves ids border (stencils pos k conn ids band relax) bc u) {c : ℝ}
    (hc : ∀ a ∈ ids, ∀ v, bc a = some v → v = c) : ∀ a ∈ ids, u a = c := by
  intro a ha
  have := C174_bounds h hu (m := c) (M := c) (fun a ha v hv => by rw [hc a ha v hv]; exact ⟨le_rfl, le_rfl⟩) a ha
  exact le_antisymm this.2 this.1

/-- **C174.** There is exactly one result. -/
theorem C174_unique {pos : Nat → V} {k : Nat → ℝ} {conn : Nat → List Nat} {ids border : List Nat} {band : Nat → Option ℝ} {relax : ℝ} {bc : Nat → Option ℝ}
    (h : Solvable pos k conn ids band relax bc) : (∃ u, Solves ids border (stencils pos k conn ids band relax) bc u) ∧
    ∀ u v, Solves ids border (stencils pos k conn ids band relax) bc u → Solves ids border (stencils pos k conn ids band relax) bc v → ∀ a ∈ ids, u a = v a := by
  classical
  constructor
  · let ι := {a // a ∈ ids.toFinset}
    let ext : (ι → ℝ) → Nat → ℝ := fun x a => if h : a ∈ ids.toFinset then x ⟨a, h⟩ else 0
    let L : (ι → ℝ) →ₗ[ℝ] (ι → ℝ) :=
      { toFun := fun x a => if (bc a.1).isSome then x a else ((conn a.1).map fun b => coef pos k band relax a.1 b * (ext x b - ext x a.1)).sum
        map_add' := by
          intro x y
          funext a
          simp only [Pi.add_apply]
          split
          · rfl
          · have e : ∀ b, ext (x + y) b = ext x b + ext y b := by
              intro b
              simp only [ext]
              split <;> simp
            simp only [e]
            generalize conn a.1 = l
            induction l with
            | nil => simp
            | cons b l ih => simp only [map_cons, sum_cons] at ih ⊢; rw [ih]; ring
        map_smul' := by
          intro r x
          funext a
          simp only [Pi.smul_apply, RingHom.id_apply, smul_eq_mul]
          split
          · rfl
          · have e : ∀ b, ext (r • x) b = r * ext x b := by
              intro b
              simp only [ext]
              split <;> simp
            simp only [e]
            generalize conn a.1 = l
            induction l with
            | nil => simp
            | cons b l ih => simp only [map_cons, sum_cons] at ih ⊢; rw [ih]; ring }
    have hext : ∀ (x : ι → ℝ) (a : Nat) (ha : a ∈ ids), ext x a = x ⟨a, List.mem_toFinset.2 ha⟩ := by
      intro x a ha
      simp only [ext]
      rw [dif_pos (List.mem_toFinset.2 ha)]
    have hinj : Function.Injective L := by
      rw [← LinearMap.ker_eq_bot, LinearMap.ker_eq_bot']
      intro x hx
      have hH : Harmonic ids conn (coef pos k band relax) (fun a => (bc a).map fun _ => 0) (ext x) := by
        intro a ha
        have := congrFun hx ⟨a, List.mem_toFinset.2 ha⟩
        change (if (bc a).isSome then x _ else _) = 0 at this
        simp only
        cases hb : bc a with
        | some v =>
          rw [hb, if_pos (Option.isSome_some)] at this
          simp only [Option.map_some]
          rw [hext x a ha]
          exact this
        | none =>
          rw [hb, if_neg (by simp)] at this
          simp only [Option.map_none]
          exact this
      have hsx : Solves ids border (stencils pos k conn ids band relax) (fun a => (bc a).map fun _ => 0) (ext x) := (C174_system h.sound _).2 hH
      have hsolv : Solvable pos k conn ids band relax (fun a => (bc a).map fun _ => 0) := ⟨h.sound, h.inside, h.relaxed, fun a ha => (h.reach a ha).congr (by
        intro a
        cases bc a <;> rfl)⟩
      have hz := C174_constant hsolv hsx (c := 0) (by
        intro a _ v hv
        cases hb : bc a with
        | none => rw [hb] at hv; simp at hv
        | some w => rw [hb] at hv; simpa using hv.symm)
      funext a
      have := hz a.1 (List.mem_toFinset.1 a.2)
      rw [hext x a.1 (List.mem_toFinset.1 a.2)] at this
      exact this
    obtain ⟨x, hx⟩ := (LinearMap.injective_iff_surjective.1 hinj) fun a => (bc a.1).getD 0
    refine ⟨ext x, (C174_system h.sound _).2 ?_⟩
    intro a ha
    have := congrFun hx ⟨a, List.mem_toFinset.2 ha⟩
    change (if (bc a).isSome then x _ else _) = (bc a).getD 0 at this
    cases hb : bc a with
    | some v =>
      rw [hb, if_pos (Option.isSome_some)] at this
      simp only
      rw [hext x a ha]
      exact this
    | none =>
      rw [hb, if_neg (by simp)] at this
      exact this
  · intro u v hu hv a ha
    apply le_antisymm
    · exact C174_compare h (fun _ => rfl) hu hv (fun a x y h1 h2 => by rw [h1] at h2; simp only [Option.some.injEq] at h2; exact h2.le) a ha
    · exact C174_compare h (fun _ => rfl) hv hu (fun a x y h1 h2 => by rw [h1] at h2; simp only [Option.some.injEq] at h2; exact h2.le) a ha

/-- **C174.** The number of steps has no effect: whatever it is, the result solves the system with the given values. -/
theorem C174_steps {ids border : List Nat} {st : Nat → Option (Sten ℝ)} {solve : (Nat → Option ℝ) → Nat → ℝ} (n : Nat) {bc : Nat → Option ℝ}
    (hs : ∀ b : Nat → Option ℝ, Solves ids border st b (solve b)) : ∃ u, multiStep solve (setSteps n) bc = some u ∧ Solves ids border st bc u := by
  have hn : 1 ≤ setSteps n := le_max_left _ _
  obtain ⟨m, hm⟩ : ∃ m, setSteps n = m + 1 := ⟨setSteps n - 1, by omega⟩
  have e : stepBc (m + 1) m bc = bc := by
    funext a
    unfold stepBc
    cases bc a with
    | none => rfl
    | some v =>
      simp only [Option.map_some, Option.some.injEq]
      have : ((m : ℝ) + 1) ≠ 0 := by positivity
      push_cast
      field_simp
  refine ⟨solve bc, ?_, hs bc⟩
  unfold multiStep
  rw [hm, range_succ, foldl_append, foldl_cons, foldl_nil, e]

/-! ### Cases -/

/-- the edges of a point with its two neighbours -/
def lineConn : Nat → List Nat
  | 0 => [1, 2]
  | _ => [0]

/-- values at the neighbours -/
def lineBc : Nat → Option ℝ
  | 1 => some 10
  | 2 => some 0
  | _ => none

theorem line_sound3 : ∀ a ∈ [0, 1, 2], Sound linePos (fun _ => 1) lineConn a := by
  intro a ha
  simp only [mem_cons, not_mem_nil, or_false] at ha
  rcases ha with rfl | rfl | rfl
  · refine ⟨by simp [lineConn], ?_, by simp⟩
    intro b hb h
    simp only [lineConn, mem_cons, not_mem_nil, or_false] at hb
    rcases hb with rfl | rfl <;> have := congrFun h 0 <;> simp [linePos] at this
  · refine ⟨by simp [lineConn], ?_, by simp⟩
    intro b hb h
    simp only [lineConn, mem_cons, not_mem_nil, or_false] at hb
    subst hb
    have := congrFun h 0
    simp [linePos] at this
  · refine ⟨by simp [lineConn], ?_, by simp⟩
    intro b hb h
    simp only [lineConn, mem_cons, not_mem_nil, or_false] at hb
    subst hb
    have := congrFun h 0
    simp [linePos] at this

theorem line_inside : ∀ a ∈ [0, 1, 2], ∀ b ∈ lineConn a, b ∈ [0, 1, 2] := by decide

theorem line_solvable : Solvable linePos (fun _ => 1) lineConn [0, 1, 2] (fun _ => none) 1 lineBc := by
  refine ⟨line_sound3, line_inside, zero_le_one, ?_⟩
  intro a ha
  simp only [mem_cons, not_mem_nil, or_false] at ha
  rcases ha with rfl | rfl | rfl
  · refine .step (b := 1) (by simp [lineConn]) ?_ (.here (v := 10) rfl)
    unfold coef
    rw [if_neg]
    · exact wgt_pos (line_sound3 0 (by simp)) (by simp [lineConn])
    · rintro ⟨d, d', h, _⟩
      simp at h
  · exact .here (v := 10) rfl
  · exact .here (v := 0) rfl

example : ∃ u, Solves [0, 1, 2] [1, 2] (stencils linePos (fun _ => 1) lineConn [0, 1, 2] (fun _ => none) 1) lineBc u ∧ u 0 = 8 ∧ u 1 = 10 ∧ u 2 = 0 := by
  obtain ⟨u, hu⟩ := (C174_unique line_solvable (border := [1, 2])).1
  have h1 := (C174_mean line_sound3 hu (a := 1) (by simp)).1 10 rfl
  have h2 := (C174_mean line_sound3 hu (a := 2) (by simp)).1 0 rfl
  refine ⟨u, hu, ?_, h1, h2⟩
  rw [(C174_mean line_sound3 hu (a := 0) (by simp)).2 rfl]
  simp [lineConn, h1, h2, wgt, linePos, dot]
  norm_num

example : ∃ u, Solves [0, 1, 2] [1, 2] (stencils linePos (fun _ => 1) lineConn [0, 1, 2] (fun _ => none) 1) lineBc u ∧ ∀ a ∈ [0, 1, 2], 0 ≤ u a ∧ u a ≤ 10 := by
  obtain ⟨u, hu⟩ := (C174_unique line_solvable (border := [1, 2])).1
  refine ⟨u, hu, C174_bounds line_solvable hu ?_⟩
  intro a ha v hv
  simp only [mem_cons, not_mem_nil, or_false] at ha
  rcases ha with rfl | rfl | rfl
  · simp [lineBc] at hv
  · simp only [lineBc, Option.some.injEq] at hv
    subst hv
    norm_num
  · simp only [lineBc, Option.some.injEq] at hv
    subst hv
    norm_num

/-- a solver for the steps exists -/
example : ∃ solve : (Nat → Option ℝ) → Nat → ℝ, ∃ u, multiStep solve (setSteps 4) lineBc = some u :=
  ⟨fun b a => (b a).getD 0, _, rfl⟩

/-- **C174.** Violated: the relaxation may be zero; a point of the band all of whose neighbours are farther from the surface is then free, although they
have given values. -/
theorem C174_relax_fails : ∃ (band : Nat → Option ℝ) (u v : Nat → ℝ), (∀ a ∈ [0, 1, 2], Sound linePos (fun _ => 1) lineConn a) ∧
    Solves [0, 1, 2] [1, 2] (stencils linePos (fun _ => 1) lineConn [0, 1, 2] band 0) lineBc u ∧
    Solves [0, 1, 2] [1, 2] (stencils linePos (fun _ => 1) lineConn [0, 1, 2] band 0) lineBc v ∧ u 0 ≠ v 0 ∧ 10 < v 0 := by
  let band : Nat → Option ℝ := fun n => if n = 0 then some 0 else some 1
  have hf : ∀ b, b ≠ 0 → Farther band 0 b := fun b hb => ⟨0, 1, rfl, if_neg hb, by norm_num⟩
  have h : ∀ x : ℝ, Solves [0, 1, 2] [1, 2] (stencils linePos (fun _ => 1) lineConn [0, 1, 2] band 0) lineBc fun a => if a = 1 then 10 else if a = 2 then 0 else x := by
    intro x
    rw [C174_system line_sound3]
    intro a ha
    simp only [mem_cons, not_mem_nil, or_false] at ha
    rcases ha with rfl | rfl | rfl
    · simp [lineBc, lineConn, coef, hf]
    · simp [lineBc]
    · simp [lineBc]
  exact ⟨band, _, _, line_sound3, h 0, h 99, by norm_num, by norm_num⟩

/-- **C174.** Violated: without any patch there is only a warning; every constant solves the system. -/
theorem C174_no_patch_fails {pos : Nat → V} {k : Nat → ℝ} {conn : Nat → List Nat} {ids border : List Nat} {band : Nat → Option ℝ} {relax : ℝ}
    (h : ∀ a ∈ ids, Sound pos k conn a) (c : ℝ) : Solves ids border (stencils pos k conn ids band relax) (fun _ => none) fun _ => c := by
  rw [C174_system h]
  intro a _
  simp

example (c : ℝ) : Solves [0, 1, 2] [1, 2] (stencils linePos (fun _ => 1) lineConn [0, 1, 2] (fun _ => none) 1) (fun _ => none) fun _ => c :=
  C174_no_patch_fails line_sound3 c

end

end Verif.Lapl
