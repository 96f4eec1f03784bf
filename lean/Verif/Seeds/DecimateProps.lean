import Verif.Seeds.Model
import Mathlib.Tactic.Linarith
import Mathlib.Tactic.NormNum
import Mathlib.Analysis.SpecificLimits.Basic

/-! # The decimation of candidates -/

namespace Verif.Seeds

open List
open scoped Classical

/-! ### Specification -/

/-- points chosen from `n` candidates: as many as wanted, the first is the first candidate, all further apart than `r`; no candidate is further than `10/9 r` from
those chosen, unless the distance was never reduced -/
structure Spread (ref : Nat → E) (n k : Nat) (r0 : ℝ) (final : List Nat) (r : ℝ) : Prop where
  length : final.length = k
  first : 0 < k → final.head? = some 0
  inside : ∀ i ∈ final, i < n
  apart : final.Pairwise fun i j => r < ‖ref j - ref i‖
  nonneg : 0 ≤ r
  le : r ≤ r0
  cover : r = r0 ∨ ∀ j < n, ∃ i ∈ final, ‖ref j - ref i‖ ≤ r / 0.9

/-- each point after the first has the best score among the candidates that are far enough from those before it -/
def Greedy (q : List Nat → Nat → ℝ) (ref : Nat → E) (n : Nat) (final : List Nat) (r : ℝ) : Prop :=
  ∀ a c b, final = a ++ c :: b → a ≠ [] → ∃ ρ, r ≤ ρ ∧ (∀ i ∈ a, ρ < ‖ref c - ref i‖) ∧ ∀ j < n, (∀ i ∈ a, ρ < ‖ref j - ref i‖) → q a j ≤ q a c

/-! ### The loops -/

def Visited (ref : Nat → E) (n : Nat) (final : List Nat) (r : ℝ) : Set Nat := { j | j ∈ final } ∪ near ref n final r

theorem shrink_spec {ref : Nat → E} {n : Nat} {final : List Nat} {f : Nat} {r : ℝ} {v : Set Nat} {s : ℝ × Set Nat} (hr : 0 ≤ r) (hin : ∀ i ∈ final, i < n)
    (hv : v = Visited ref n final r) (h : shrink ref n final f r v = some s) :
    0 ≤ s.1 ∧ s.1 ≤ r ∧ s.2 = Visited ref n final s.1 ∧ (∃ j < n, j ∉ s.2) ∧ (s.1 = r ∨ ∀ j < n, ∃ i ∈ final, ‖ref j - ref i‖ ≤ s.1 / 0.9) := by
  induction f generalizing r v with
  | zero => cases h
  | succ f ih =>
    rw [shrink] at h
    split at h
    case isTrue hc =>
      obtain ⟨h1, h2, h3, h4, h5⟩ := ih (by positivity) rfl h
      refine ⟨h1, by linarith, h3, h4, Or.inr ?_⟩
      rcases h5 with h5 | h5
      · intro j hj
        have := hc j hj
        rw [hv] at this
        rw [h5]
        rcases this with h6 | ⟨-, i, hi, h6⟩
        · exact ⟨j, h6, by rw [sub_self, norm_zero]; positivity⟩
        · exact ⟨i, hi, by rw [mul_div_cancel_left₀ _ (by norm_num)]; exact h6⟩
      · exact h5
    case isFalse hc =>
      cases h
      push Not at hc
      exact ⟨hr, le_refl _, hv, hc, Or.inl rfl⟩

theorem pick_mem (pos : Nat → E) (final : List Nat) {l : List Nat} (h : l ≠ []) : pick pos final l ∈ l ∧ ∀ j ∈ l, score pos final j ≤ score pos final (pick pos final l) := by
  have key : ∀ (is : List Nat) (b : Nat), let p := is.foldl (fun b j => if score pos final b ≤ score pos final j then j else b) b
      p ∈ b :: is ∧ ∀ j ∈ b :: is, score pos final j ≤ score pos final p := by
    intro is
    induction is with
    | nil => intro b; exact ⟨mem_cons_self, by simp⟩
    | cons i is ih =>
      intro b
      rw [foldl_cons]
      by_cases hs : score pos final b ≤ score pos final i
      · rw [if_pos hs]
        obtain ⟨h1, h2⟩ := ih i
        refine ⟨mem_cons_of_mem _ h1, ?_⟩
        intro j hj
        rcases mem_cons.1 hj with rfl | hj
        · exact hs.trans (h2 i mem_cons_self)
        · exact h2 j hj
      · rw [if_neg hs]
        obtain ⟨h1, h2⟩ := ih b
        refine ⟨?_, ?_⟩
        · rcases mem_cons.1 h1 with h1 | h1
          · rw [h1]; exact mem_cons_self
          · exact mem_cons_of_mem _ (mem_cons_of_mem _ h1)
        · intro j hj
          rcases mem_cons.1 hj with rfl | hj
          · exact h2 j mem_cons_self
          · rcases mem_cons.1 hj with rfl | hj
            · exact (not_le.1 hs).le.trans (h2 b mem_cons_self)
            · exact h2 j (mem_cons_of_mem _ hj)
  cases l with
  | nil => exact absurd rfl h
  | cons i is => exact key is i

/-- what holds at the head of the loop -/
structure Inv (ref : Nat → E) (n : Nat) (r0 : ℝ) (final : List Nat) (cand : Nat) (r : ℝ) (v : Set Nat) : Prop where
  inside : ∀ i ∈ final, i < n
  apart : final.Pairwise fun i j => r < ‖ref j - ref i‖
  nonneg : 0 ≤ r
  le : r ≤ r0
  visited : v = Visited ref n final r
  cand : cand < n ∧ cand ∉ v
  cover : r = r0 ∨ ∀ j < n, ∃ i ∈ final, ‖ref j - ref i‖ ≤ r / 0.9

theorem Inv.far {ref : Nat → E} {n : Nat} {r0 r : ℝ} {final : List Nat} {cand : Nat} {v : Set Nat} (h : Inv ref n r0 final cand r v) :
    ∀ i ∈ final, r < ‖ref cand - ref i‖ := by
  intro i hi
  by_contra hc
  refine h.cand.2 ?_
  rw [h.visited]
  exact Or.inr ⟨h.cand.1, i, hi, not_lt.1 hc⟩

theorem Inv.push {ref : Nat → E} {n : Nat} {r0 r : ℝ} {final : List Nat} {cand : Nat} {v : Set Nat} (h : Inv ref n r0 final cand r v) :
    (∀ i ∈ final ++ [cand], i < n) ∧ ((final ++ [cand]).Pairwise fun i j => r < ‖ref j - ref i‖) ∧
      v ∪ {cand} ∪ near ref n [cand] r = Visited ref n (final ++ [cand]) r := by
  refine ⟨?_, ?_, ?_⟩
  · intro i hi
    rcases mem_append.1 hi with hi | hi
    · exact h.inside i hi
    · rw [mem_singleton.1 hi]; exact h.cand.1
  · rw [pairwise_append]
    refine ⟨h.apart, pairwise_singleton _ _, ?_⟩
    intro i hi j hj
    rw [mem_singleton.1 hj]
    exact h.far i hi
  · rw [h.visited]
    ext j
    simp only [Visited, near, Set.mem_union, Set.mem_setOf_eq, Set.mem_singleton_iff, mem_append, mem_singleton]
    constructor
    · rintro ((( h | ⟨h1, i, h2, h3⟩) | h) | ⟨h1, i, h2, h3⟩)
      · exact Or.inl (Or.inl h)
      · exact Or.inr ⟨h1, i, Or.inl h2, h3⟩
      · exact Or.inl (Or.inr h)
      · exact Or.inr ⟨h1, i, Or.inr h2, h3⟩
    · rintro ((h | h) | ⟨h1, i, h2 | h2, h3⟩)
      · exact Or.inl (Or.inl (Or.inl h))
      · exact Or.inl (Or.inr h)
      · exact Or.inl (Or.inl (Or.inr ⟨h1, i, h2, h3⟩))
      · exact Or.inr ⟨h1, i, h2, h3⟩

theorem Inv.next {pos ref : Nat → E} {n : Nat} {r0 r : ℝ} {final : List Nat} {cand : Nat} {v : Set Nat} (h : Inv ref n r0 final cand r v) {f : Nat} {s : ℝ × Set Nat}
    (hs : shrink ref n (final ++ [cand]) f r (v ∪ {cand} ∪ near ref n [cand] r) = some s) :
    Inv ref n r0 (final ++ [cand]) (pick pos (final ++ [cand]) ((range n).filter fun i => i ∉ s.2)) s.1 s.2 ∧ s.1 ≤ r ∧
      ∀ j < n, (∀ i ∈ final ++ [cand], s.1 < ‖ref j - ref i‖) →
        score pos (final ++ [cand]) j ≤ score pos (final ++ [cand]) (pick pos (final ++ [cand]) ((range n).filter fun i => i ∉ s.2)) := by
  obtain ⟨h1, h2, h3⟩ := h.push
  obtain ⟨g1, g2, g3, ⟨j, hj, hjv⟩, g5⟩ := shrink_spec h.nonneg h1 h3 hs
  have hne : ((range n).filter fun i => i ∉ s.2) ≠ [] := ne_nil_of_mem (mem_filter.2 ⟨mem_range.2 hj, by simpa using hjv⟩)
  obtain ⟨p1, p2⟩ := pick_mem pos (final ++ [cand]) hne
  obtain ⟨p3, p4⟩ := mem_filter.1 p1
  refine ⟨⟨h1, h2.imp fun h => lt_of_le_of_lt g2 h, g1, g2.trans h.le, g3, ⟨mem_range.1 p3, of_decide_eq_true p4⟩, ?_⟩, g2, ?_⟩
  · rcases g5 with g5 | g5
    · rw [g5]
      rcases h.cover with h6 | h6
      · exact Or.inl h6
      · exact Or.inr fun j hj => (h6 j hj).imp fun i hi => ⟨mem_append_left _ hi.1, hi.2⟩
    · exact Or.inr g5
  · intro j hj hfar
    refine p2 j (mem_filter.2 ⟨mem_range.2 hj, decide_eq_true ?_⟩)
    rw [g3]
    rintro (hm | ⟨-, i, hi, hle⟩)
    · have := hfar j hm
      rw [sub_self, norm_zero] at this
      exact absurd this (not_lt.2 g1)
    · exact absurd (hfar i hi) (not_lt.2 hle)

/-- the points that are chosen: those before stay, the next is the candidate -/
theorem choose_spec {pos ref : Nat → E} {n fuel : Nat} {r0 : ℝ} {k : Nat} {final : List Nat} {cand : Nat} {r : ℝ} {v : Set Nat} {res : List Nat × ℝ}
    (h : Inv ref n r0 final cand r v) (hc : choose pos ref n fuel k final cand r v = some res) :
    (∃ l, res.1 = final ++ l ∧ l.length = k ∧ (0 < k → l.head? = some cand)) ∧ (∀ i ∈ res.1, i < n) ∧ (res.1.Pairwise fun i j => res.2 < ‖ref j - ref i‖) ∧
      0 ≤ res.2 ∧ res.2 ≤ r ∧ (res.2 = r0 ∨ ∀ j < n, ∃ i ∈ res.1, ‖ref j - ref i‖ ≤ res.2 / 0.9) := by
  induction k generalizing final cand r v with
  | zero =>
    cases hc
    exact ⟨⟨[], by simp, rfl, fun h => absurd h (lt_irrefl _)⟩, h.inside, h.apart, h.nonneg, le_refl _, h.cover⟩
  | succ k ih =>
    rw [choose] at hc
    obtain ⟨s, hs, hn⟩ := Option.bind_eq_some_iff.1 hc
    obtain ⟨g1, g2, g3⟩ := h.next (pos := pos) hs
    obtain ⟨⟨l, e1, e2, e3⟩, i1, i2, i3, i4, i5⟩ := ih g1 hn
    refine ⟨⟨cand :: l, by rw [e1, append_assoc]; rfl, by rw [length_cons, e2], fun _ => rfl⟩, i1, i2, i3, i4.trans g2, i5⟩

theorem inv_start {ref : Nat → E} {n : Nat} {r0 : ℝ} (hn : 0 < n) (h0 : 0 ≤ r0) : Inv ref n r0 [] 0 r0 ∅ := by
  refine ⟨by simp, Pairwise.nil, h0, le_refl _, ?_, ⟨hn, by simp⟩, Or.inl rfl⟩
  ext j
  simp [Visited, near]

/-- **C184.** The decimation gives as many points as wanted, the first candidate among them, further apart than the distance it ends with (where distances are those
of the coordinates relative to the first, times the sensitivities); if the distance was reduced, no candidate is further from them than 10/9 of it. -/
theorem C184_spread {fuel nPoints : Nat} {r0 r : ℝ} {pts : List (E × ℝ)} {final : List Nat} (hp : pts ≠ []) (h0 : 0 ≤ r0)
    (h : decimate fuel nPoints r0 pts = some (final, r)) : Spread (refer pts) pts.length nPoints r0 final r := by
  obtain ⟨⟨l, e1, e2, e3⟩, i1, i2, i3, i4, i5⟩ := choose_spec (inv_start (length_pos_of_ne_nil hp) h0) h
  have e1 : final = l := e1
  exact ⟨by rw [e1, e2], fun hk => by rw [e1]; exact e3 hk, i1, i2, i3, i4, i5⟩

theorem choose_greedy {pos ref : Nat → E} {n fuel : Nat} {r0 : ℝ} {k : Nat} {final : List Nat} {cand : Nat} {r : ℝ} {v : Set Nat} {res : List Nat × ℝ}
    (h : Inv ref n r0 final cand r v) (hc : choose pos ref n fuel k final cand r v = some res)
    (hg : Greedy (score pos) ref n final r)
    (hb : final ≠ [] → ∃ ρ, r ≤ ρ ∧ (∀ i ∈ final, ρ < ‖ref cand - ref i‖) ∧ ∀ j < n, (∀ i ∈ final, ρ < ‖ref j - ref i‖) → score pos final j ≤ score pos final cand) :
    Greedy (score pos) ref n res.1 res.2 := by
  induction k generalizing final cand r v with
  | zero => cases hc; exact hg
  | succ k ih =>
    rw [choose] at hc
    obtain ⟨s, hs, hn⟩ := Option.bind_eq_some_iff.1 hc
    obtain ⟨g1, g2, g3⟩ := h.next (pos := pos) hs
    refine ih g1 hn ?_ (fun _ => ⟨s.1, le_refl _, g1.far, g3⟩)
    intro a c b e ha
    rcases eq_nil_or_concat b with rfl | ⟨b', x, rfl⟩
    · have e' : final ++ [cand] = a ++ [c] := e
      obtain ⟨e1, e2⟩ := append_inj' e' rfl
      cases e2
      cases e1
      obtain ⟨ρ, h1, h2⟩ := hb ha
      exact ⟨ρ, g2.trans h1, h2⟩
    · have e' : final ++ [cand] = (a ++ c :: b') ++ [x] := by rw [e]; simp
      obtain ⟨e1, -⟩ := append_inj' e' rfl
      obtain ⟨ρ, h1, h2⟩ := hg a c b' e1 ha
      exact ⟨ρ, g2.trans h1, h2⟩

/-- mean and greatest relative deviation -/
theorem greatest_spec {l : List ℝ} (h : l ≠ []) : greatest l ∈ l ∧ ∀ x ∈ l, x ≤ greatest l := by
  have key : ∀ (l : List ℝ) (y : ℝ), l.foldl max y ∈ y :: l ∧ ∀ x ∈ y :: l, x ≤ l.foldl max y := by
    intro l
    induction l with
    | nil => intro y; simp
    | cons z l ih =>
      intro y
      rw [foldl_cons]
      obtain ⟨h1, h2⟩ := ih (max y z)
      refine ⟨?_, ?_⟩
      · rcases mem_cons.1 h1 with h1 | h1
        · rw [h1]
          rcases max_choice y z with h | h <;> rw [h] <;> simp
        · exact mem_cons_of_mem _ (mem_cons_of_mem _ h1)
      · intro x hx
        have hm := h2 _ mem_cons_self
        rcases mem_cons.1 hx with rfl | hx
        · exact (le_max_left _ _).trans hm
        · rcases mem_cons.1 hx with rfl | hx
          · exact (le_max_right _ _).trans hm
          · exact h2 x (mem_cons_of_mem _ hx)
  cases l with
  | nil => exact absurd rfl h
  | cons y l => exact key l y

theorem least_spec {l : List ℝ} (h : l ≠ []) : least l ∈ l ∧ ∀ x ∈ l, least l ≤ x := by
  have key : ∀ (l : List ℝ) (y : ℝ), l.foldl min y ∈ y :: l ∧ ∀ x ∈ y :: l, l.foldl min y ≤ x := by
    intro l
    induction l with
    | nil => intro y; simp
    | cons z l ih =>
      intro y
      rw [foldl_cons]
      obtain ⟨h1, h2⟩ := ih (min y z)
      refine ⟨?_, ?_⟩
      · rcases mem_cons.1 h1 with h1 | h1
        · rw [h1]
          rcases min_choice y z with h | h <;> rw [h] <;> simp
        · exact mem_cons_of_mem _ (mem_cons_of_mem _ h1)
      · intro x hx
        have hm := h2 _ mem_cons_self
        rcases mem_cons.1 hx with rfl | hx
        · exact hm.trans (min_le_left _ _)
        · rcases mem_cons.1 hx with rfl | hx
          · exact hm.trans (min_le_right _ _)
          · exact h2 x (mem_cons_of_mem _ hx)
  cases l with
  | nil => exact absurd rfl h
  | cons y l => exact key l y

/-- the quality of a position relative to others: the mean of the distances divided by the square of one plus the greatest relative deviation -/
def Quality (pos : Nat → E) (a : List Nat) (j : Nat) (q : ℝ) : Prop :=
  ∃ mean dev, mean * a.length = (a.map fun i => ‖pos j - pos i‖).sum ∧ (∃ i ∈ a, dev = |‖pos j - pos i‖ / mean - 1|) ∧
    (∀ i ∈ a, |‖pos j - pos i‖ / mean - 1| ≤ dev) ∧ q * (1 + dev) ^ 2 = mean

theorem score_quality (pos : Nat → E) {a : List Nat} (h : a ≠ []) (j : Nat) : Quality pos a j (score pos a j) := by
  have hl : (a.length : ℝ) ≠ 0 := by
    have := length_pos_of_ne_nil h
    positivity
  have hne : ((a.map fun i => ‖pos j - pos i‖).map fun v => |v / ((a.map fun i => ‖pos j - pos i‖).sum / (a.map fun i => ‖pos j - pos i‖).length) - 1|) ≠ [] := by simpa using h
  obtain ⟨h1, h2⟩ := greatest_spec hne
  refine ⟨(a.map fun i => ‖pos j - pos i‖).sum / (a.map fun i => ‖pos j - pos i‖).length,
    greatest ((a.map fun i => ‖pos j - pos i‖).map fun v => |v / ((a.map fun i => ‖pos j - pos i‖).sum / (a.map fun i => ‖pos j - pos i‖).length) - 1|), ?_, ?_, ?_, ?_⟩
  · rw [length_map, div_mul_cancel₀ _ hl]
  · obtain ⟨v, hv, e⟩ := mem_map.1 h1
    obtain ⟨i, hi, rfl⟩ := mem_map.1 hv
    exact ⟨i, hi, e.symm⟩
  · intro i hi
    exact h2 _ (mem_map.2 ⟨_, mem_map.2 ⟨i, hi, rfl⟩, rfl⟩)
  · have hpos : 0 ≤ greatest ((a.map fun i => ‖pos j - pos i‖).map fun v => |v / ((a.map fun i => ‖pos j - pos i‖).sum / (a.map fun i => ‖pos j - pos i‖).length) - 1|) := by
      obtain ⟨v, hv, e⟩ := mem_map.1 h1
      rw [← e]
      exact abs_nonneg _
    unfold score
    simp only
    rw [add_comm 1, div_mul_cancel₀]
    positivity

/-- **C184.** Each point after the first has the best quality (mean distance from the points before it over the square of one plus the greatest relative deviation)
among the candidates that are far enough. -/
theorem C184_greedy {fuel nPoints : Nat} {r0 r : ℝ} {pts : List (E × ℝ)} {final : List Nat} (hp : pts ≠ []) (h0 : 0 ≤ r0)
    (h : decimate fuel nPoints r0 pts = some (final, r)) :
    ∃ q : List Nat → Nat → ℝ, (∀ a j, a ≠ [] → Quality (fun j => (pts[j]?.map Prod.fst).getD 0) a j (q a j)) ∧ Greedy q (refer pts) pts.length final r :=
  ⟨score _, fun _ j ha => score_quality _ ha j, choose_greedy (inv_start (length_pos_of_ne_nil hp) h0) h
    (fun a c b e _ => absurd (congrArg length e) (by simp)) (fun h => absurd rfl h)⟩

/-! ### Termination -/

theorem shrink_mono {ref : Nat → E} {n : Nat} {final : List Nat} {f g : Nat} {r : ℝ} {v : Set Nat} {s : ℝ × Set Nat} (hfg : f ≤ g)
    (h : shrink ref n final f r v = some s) : shrink ref n final g r v = some s := by
  induction f generalizing g r v with
  | zero => cases h
  | succ f ih =>
    obtain ⟨g, rfl⟩ : ∃ g', g = g' + 1 := ⟨g - 1, by omega⟩
    rw [shrink] at h ⊢
    split at h
    case isTrue hc => rw [if_pos hc]; exact ih (by omega) h
    case isFalse hc => rw [if_neg hc]; exact h

theorem choose_mono {pos ref : Nat → E} {n f g k : Nat} {final : List Nat} {cand : Nat} {r : ℝ} {v : Set Nat} {res : List Nat × ℝ} (hfg : f ≤ g)
    (h : choose pos ref n f k final cand r v = some res) : choose pos ref n g k final cand r v = some res := by
  induction k generalizing final cand r v with
  | zero => exact h
  | succ k ih =>
    rw [choose] at h ⊢
    obtain ⟨s, hs, hn⟩ := Option.bind_eq_some_iff.1 h
    exact Option.bind_eq_some_iff.2 ⟨s, shrink_mono hfg hs, ih hn⟩

/-- the distance gets small enough, if some candidate differs from those chosen -/
theorem shrink_ends {ref : Nat → E} {n : Nat} {final : List Nat} {r : ℝ} (hr : 0 ≤ r) {j : Nat} (hj : j < n) (hd : ∀ i ∈ final, ref j ≠ ref i) :
    ∃ f s, shrink ref n final f r (Visited ref n final r) = some s := by
  obtain ⟨δ, hδ, hδi⟩ : ∃ δ > 0, ∀ i ∈ final, δ ≤ ‖ref j - ref i‖ := by
    clear hr
    induction final with
    | nil => exact ⟨1, one_pos, by simp⟩
    | cons a l ih =>
      obtain ⟨δ, h1, h2⟩ := ih fun i hi => hd i (mem_cons_of_mem _ hi)
      refine ⟨min δ ‖ref j - ref a‖, lt_min h1 (norm_pos_iff.2 (sub_ne_zero.2 (hd a mem_cons_self))), ?_⟩
      intro i hi
      rcases mem_cons.1 hi with rfl | hi
      · exact min_le_right _ _
      · exact (min_le_left _ _).trans (h2 i hi)
  have hnv : ∀ x < δ, j ∉ Visited ref n final x := by
    rintro x hx (h | ⟨-, i, hi, hle⟩)
    · exact hd j h rfl
    · exact absurd (hδi i hi) (not_le.2 (lt_of_le_of_lt hle hx))
  obtain ⟨m, hm⟩ : ∃ m : Nat, (0.9 : ℝ) ^ m * r < δ := by
    obtain ⟨m, hm⟩ := exists_pow_lt_of_lt_one (show 0 < δ / (r + 1) by positivity) (show (0.9 : ℝ) < 1 by norm_num)
    refine ⟨m, ?_⟩
    rw [lt_div_iff₀ (by positivity)] at hm
    have : (0 : ℝ) ≤ 0.9 ^ m := by positivity
    nlinarith
  clear hδ hδi
  induction m generalizing r with
  | zero =>
    refine ⟨1, (r, Visited ref n final r), ?_⟩
    rw [shrink, if_neg]
    intro hc
    exact hnv r (by simpa using hm) (hc j hj)
  | succ m ih =>
    by_cases hc : ∀ j < n, j ∈ Visited ref n final r
    · obtain ⟨f, s, h⟩ := ih (r := 0.9 * r) (by positivity) (by rw [pow_succ] at hm; rw [← mul_assoc]; exact hm)
      exact ⟨f + 1, s, by rw [shrink, if_pos hc]; exact h⟩
    · exact ⟨1, _, by rw [shrink, if_neg hc]⟩

theorem nodup_refs {ref : Nat → E} {r : ℝ} (hr : 0 ≤ r) {l : List Nat} (h : l.Pairwise fun i j => r < ‖ref j - ref i‖) : (l.map ref).Nodup := by
  rw [List.Nodup, pairwise_map]
  refine h.imp fun {i j} hij e => ?_
  rw [e, sub_self, norm_zero] at hij
  linarith

theorem choose_ends {pos ref : Nat → E} {n : Nat} {r0 : ℝ} {k : Nat} {final : List Nat} {cand : Nat} {r : ℝ} {v : Set Nat} (h : Inv ref n r0 final cand r v)
    (hcard : final.length + k < ((Finset.range n).image ref).card) : ∃ f res, choose pos ref n f k final cand r v = some res := by
  induction k generalizing final cand r v with
  | zero => exact ⟨0, _, rfl⟩
  | succ k ih =>
    obtain ⟨h1, h2, h3⟩ := h.push
    obtain ⟨j, hj, hd⟩ : ∃ j < n, ∀ i ∈ final ++ [cand], ref j ≠ ref i := by
      by_contra hc
      push Not at hc
      have hsub : (Finset.range n).image ref ⊆ ((final ++ [cand]).map ref).toFinset := by
        intro x hx
        obtain ⟨j, hj, rfl⟩ := Finset.mem_image.1 hx
        obtain ⟨i, hi, e⟩ := hc j (Finset.mem_range.1 hj)
        rw [mem_toFinset, e]
        exact mem_map_of_mem hi
      have h4 := Finset.card_le_card hsub
      have h5 := toFinset_card_le ((final ++ [cand]).map ref)
      rw [length_map, length_append, length_singleton] at h5
      omega
    obtain ⟨f, s, hs⟩ := shrink_ends h.nonneg hj hd
    rw [← h3] at hs
    obtain ⟨g1, -, -⟩ := h.next (pos := pos) hs
    obtain ⟨g, res, hres⟩ := ih g1 (by rw [length_append, length_singleton]; omega)
    refine ⟨max f g, res, ?_⟩
    rw [choose]
    exact Option.bind_eq_some_iff.2 ⟨s, shrink_mono (le_max_left _ _) hs, choose_mono (le_max_right _ _) hres⟩

theorem choose_card {pos ref : Nat → E} {n fuel : Nat} {r0 : ℝ} {k : Nat} {final : List Nat} {cand : Nat} {r : ℝ} {v : Set Nat} {res : List Nat × ℝ}
    (h : Inv ref n r0 final cand r v) (hc : choose pos ref n fuel k final cand r v = some res) : final.length + k < ((Finset.range n).image ref).card := by
  induction k generalizing final cand r v with
  | zero =>
    obtain ⟨h1, h2, -⟩ := h.push
    have h3 := nodup_refs h.nonneg h2
    have h4 : ((final ++ [cand]).map ref).toFinset ⊆ (Finset.range n).image ref := by
      intro x hx
      obtain ⟨i, hi, rfl⟩ := mem_map.1 (mem_toFinset.1 hx)
      exact Finset.mem_image_of_mem _ (Finset.mem_range.2 (h1 i hi))
    have h5 := Finset.card_le_card h4
    rw [toFinset_card_of_nodup h3, length_map, length_append, length_singleton] at h5
    omega
  | succ k ih =>
    rw [choose] at hc
    obtain ⟨s, hs, hn⟩ := Option.bind_eq_some_iff.1 hc
    obtain ⟨g1, -, -⟩ := h.next (pos := pos) hs
    have := ih g1 hn
    rw [length_append, length_singleton] at this
    omega

/-- **C184.** The decimation ends exactly if there are more different candidates (relative to the first, times the sensitivity) than wanted points. -/
theorem C184_ends {nPoints : Nat} {r0 : ℝ} {pts : List (E × ℝ)} (hp : pts ≠ []) (h0 : 0 ≤ r0) :
    (∃ fuel res, decimate fuel nPoints r0 pts = some res) ↔ nPoints < ((Finset.range pts.length).image (refer pts)).card := by
  have hi := inv_start (ref := refer pts) (length_pos_of_ne_nil hp) h0
  constructor
  · rintro ⟨fuel, res, h⟩
    have := choose_card hi h
    simpa using this
  · intro h
    exact choose_ends hi (by simpa using h)

/-- **C184.** With unit sensitivities the points are further apart than the distance that is reported. -/
theorem C184_unit {fuel nPoints : Nat} {r0 r : ℝ} {pts : List (E × ℝ)} {final : List Nat} (hp : pts ≠ []) (h0 : 0 ≤ r0) (hs : ∀ p ∈ pts, p.2 = 1)
    (h : decimate fuel nPoints r0 pts = some (final, r)) : final.Pairwise fun i j => ∃ p q, pts[i]? = some p ∧ pts[j]? = some q ∧ r < ‖q.1 - p.1‖ := by
  have hsp := C184_spread hp h0 h
  have hm := Pairwise.and_mem.1 hsp.apart
  refine hm.imp fun {i j} hij => ?_
  obtain ⟨hi, hj, hr⟩ := hij
  have li := hsp.inside i hi
  have lj := hsp.inside j hj
  refine ⟨pts[i], pts[j], getElem?_eq_getElem li, getElem?_eq_getElem lj, ?_⟩
  have hpos : 0 < pts.length := length_pos_of_ne_nil hp
  unfold refer at hr
  rw [getElem?_eq_getElem li, getElem?_eq_getElem lj, getElem?_eq_getElem hpos] at hr
  simp only [hs _ (getElem_mem li), hs _ (getElem_mem lj), one_smul, sub_sub_sub_cancel_right] at hr
  exact hr

/-- **C184.** The list of candidates that is decimated is the given one, the nearest to the seed first. -/
theorem C184_nearest (seed : E) (pts : List (E × ℝ)) : (order seed pts).Perm pts ∧ (order seed pts).Pairwise fun a b => ‖seed - a.1‖ ≤ ‖seed - b.1‖ := by
  let R : ℝ × Nat × E × ℝ → ℝ × Nat × E × ℝ → Prop := fun a b => a.1 < b.1 ∨ a.1 = b.1 ∧ a.2.1 ≤ b.2.1
  have ht : ∀ a b, R a b ∨ R b a := by
    intro a b
    rcases lt_trichotomy a.1 b.1 with h | h | h
    · exact Or.inl (Or.inl h)
    · rcases le_total a.2.1 b.2.1 with h' | h'
      · exact Or.inl (Or.inr ⟨h, h'⟩)
      · exact Or.inr (Or.inr ⟨h.symm, h'⟩)
    · exact Or.inr (Or.inl h)
  have htr : ∀ a b c, R a b → R b c → R a c := by
    rintro a b c (h1 | ⟨h1, h1'⟩) (h2 | ⟨h2, h2'⟩)
    · exact Or.inl (h1.trans h2)
    · exact Or.inl (h2 ▸ h1)
    · exact Or.inl (h1.symm ▸ h2)
    · exact Or.inr ⟨h1.trans h2, h1'.trans h2'⟩
  haveI : Std.Total R := ⟨ht⟩
  haveI : IsTrans _ R := ⟨htr⟩
  have hperm := perm_insertionSort R (pts.zipIdx.map fun e => (‖seed - e.1.1‖, e.2, e.1))
  have hsort := pairwise_insertionSort R (pts.zipIdx.map fun e => (‖seed - e.1.1‖, e.2, e.1))
  constructor
  · refine (hperm.map fun e => e.2.2).trans ?_
    rw [map_map]
    have : ((fun e : ℝ × Nat × E × ℝ => e.2.2) ∘ fun e : (E × ℝ) × Nat => (‖seed - e.1.1‖, e.2, e.1)) = Prod.fst := rfl
    rw [this, zipIdx_map_fst]
  · unfold order
    rw [pairwise_map]
    refine (Pairwise.and_mem.1 hsort).imp fun {a b} hab => ?_
    obtain ⟨ha, hb, hR⟩ := hab
    have hnorm : ∀ e ∈ (pts.zipIdx.map fun e => (‖seed - e.1.1‖, e.2, e.1)).insertionSort R, e.1 = ‖seed - e.2.2.1‖ := by
      intro e he
      obtain ⟨x, -, rfl⟩ := mem_map.1 (hperm.mem_iff.1 he)
      rfl
    rw [← hnorm a ha, ← hnorm b hb]
    rcases hR with h | ⟨h, -⟩
    · exact h.le
    · exact h.le

theorem never_ends {nPoints fuel : Nat} {r0 : ℝ} {pts : List (E × ℝ)} (hp : pts ≠ []) (h0 : 0 ≤ r0)
    (hc : ((Finset.range pts.length).image (refer pts)).card ≤ nPoints) : decimate fuel nPoints r0 pts = none := by
  cases h : decimate fuel nPoints r0 pts with
  | none => rfl
  | some res => exact absurd ((C184_ends hp h0).1 ⟨fuel, res, h⟩) (not_lt.2 hc)

theorem card_le (pts : List (E × ℝ)) : ((Finset.range pts.length).image (refer pts)).card ≤ pts.length := by
  have := Finset.card_image_le (s := Finset.range pts.length) (f := refer pts)
  rwa [Finset.card_range] at this

theorem cells_le {n : Nat} {span : Fin 3 → ℝ} {i : Fin 3} {k : Nat} (hk : 1 ≤ k) (h : span i * n / (span 0 + span 1 + span 2) + 0.5 < k + 1) : gridCells n span i ≤ k := by
  unfold gridCells
  refine max_le hk ?_
  have : ⌊span i * n / (span 0 + span 1 + span 2) + 0.5⌋₊ < k + 1 := Nat.floor_lt_ceil_of_lt_of_pos (by simpa using h) (by positivity) |>.trans_eq (by
    have := Nat.ceil_natCast (R := ℝ) (k + 1)
    simpa using this)
  omega

/-- **C184.** Violated: with the grid, which is the default, one or two points are never found, on any surface: there are at most as many candidates.  On boxes with
equal sides this happens up to four points. -/
theorem C184_grid_fails (n : Nat) (span : Fin 3 → ℝ) (hs : ∀ i, 0 ≤ span i) (hpos : 0 < span 0 + span 1 + span 2)
    (hn : n = 1 ∨ n = 2 ∨ (0 < n ∧ n ≤ 4 ∧ span 0 = span 1 ∧ span 1 = span 2)) :
    1 ≤ gridCandidates n span ∧ ∀ (pts : List (E × ℝ)), pts.length = gridCandidates n span → ∀ (r0 : ℝ), 0 ≤ r0 → ∀ fuel, decimate fuel n r0 pts = none := by
  have h1 : ∀ i, 1 ≤ gridCells n span i := fun i => le_max_left _ _
  have hge : 1 ≤ gridCandidates n span := Nat.mul_pos (Nat.mul_pos (h1 0) (h1 1)) (h1 2)
  refine ⟨hge, ?_⟩
  have hle : gridCandidates n span ≤ n := by
    have hsm : ∀ i, span i ≤ span 0 + span 1 + span 2 := by
      intro i
      fin_cases i
      · have := hs 1; have := hs 2; show span 0 ≤ _; linarith
      · have := hs 0; have := hs 2; show span 1 ≤ _; linarith
      · have := hs 0; have := hs 1; show span 2 ≤ _; linarith
    rcases hn with rfl | rfl | ⟨hn0, hn4, e1, e2⟩
    · have : ∀ i, gridCells 1 span i ≤ 1 := fun i => cells_le le_rfl (by
        have : span i * (1 : Nat) / (span 0 + span 1 + span 2) ≤ 1 := by rw [div_le_one hpos]; simpa using hsm i
        norm_num at this ⊢
        linarith)
      unfold gridCandidates
      rw [le_antisymm (this 0) (h1 0), le_antisymm (this 1) (h1 1), le_antisymm (this 2) (h1 2)]
    · have hb : ∀ i, gridCells 2 span i ≤ 2 := fun i => cells_le (by norm_num) (by
        have : span i * (2 : Nat) / (span 0 + span 1 + span 2) ≤ 2 := by
          rw [div_le_iff₀ hpos]
          have := hsm i
          push_cast
          linarith
        norm_num at this ⊢
        linarith)
      have hone : ∀ i, span i < 0.75 * (span 0 + span 1 + span 2) → gridCells 2 span i = 1 := fun i hi => le_antisymm (cells_le le_rfl (by
        have : span i * (2 : Nat) / (span 0 + span 1 + span 2) < 1.5 := by
          rw [div_lt_iff₀ hpos]
          push_cast
          linarith
        norm_num at this ⊢
        linarith)) (h1 i)
      have a0 := hs 0
      have a1 := hs 1
      have a2 := hs 2
      unfold gridCandidates
      by_cases c0 : span 0 < 0.75 * (span 0 + span 1 + span 2)
      · by_cases c1 : span 1 < 0.75 * (span 0 + span 1 + span 2)
        · rw [hone 0 c0, hone 1 c1]
          simpa using hb 2
        · rw [hone 0 c0, hone 2 (by linarith)]
          simpa using hb 1
      · rw [hone 1 (by linarith), hone 2 (by linarith)]
        simpa using hb 0
    · have hi : ∀ i, span i = span 0 := by
        intro i
        fin_cases i
        · rfl
        · exact e1.symm
        · exact (e1.trans e2).symm
      have hn4' : (n : ℝ) ≤ 4 := by exact_mod_cast hn4
      have h0pos : 0 < span 0 := by rw [← e2, ← e1] at hpos; linarith
      have : ∀ i, gridCells n span i ≤ 1 := fun i => cells_le le_rfl (by
        have : span i * n / (span 0 + span 1 + span 2) ≤ 4 / 3 := by
          rw [div_le_iff₀ hpos, hi i, hi 1, hi 2]
          nlinarith
        norm_num at this ⊢
        linarith)
      unfold gridCandidates
      rw [le_antisymm (this 0) (h1 0), le_antisymm (this 1) (h1 1), le_antisymm (this 2) (h1 2)]
      omega
  intro pts hl r0 h0 fuel
  have hp : pts ≠ [] := by
    intro e
    rw [e] at hl
    simp at hl
    omega
  exact never_ends hp h0 ((card_le pts).trans (hl.le.trans hle))

/-- **C184.** Violated: candidates where the sensitivity is zero count as one; if fewer candidates than wanted points have another sensitivity, the decimation never
ends. -/
theorem C184_sensitivity_fails (nPoints : Nat) (pts : List (E × ℝ)) (hp : pts ≠ []) (hn : (pts.filter fun p => p.2 ≠ 0).length < nPoints) (r0 : ℝ) (h0 : 0 ≤ r0)
    (fuel : Nat) : decimate fuel nPoints r0 pts = none := by
  refine never_ends hp h0 ?_
  have hpos : 0 < pts.length := length_pos_of_ne_nil hp
  have hsub : (Finset.range pts.length).image (refer pts) ⊆ insert (0 : E) ((pts.filter fun p => p.2 ≠ 0).map fun p => p.2 • (p.1 - pts[0].1)).toFinset := by
    intro x hx
    obtain ⟨j, hj, rfl⟩ := Finset.mem_image.1 hx
    have hj := Finset.mem_range.1 hj
    unfold refer
    rw [getElem?_eq_getElem hj, getElem?_eq_getElem hpos]
    simp only
    rw [Finset.mem_insert]
    by_cases hz : pts[j].2 = 0
    · left; rw [hz, zero_smul]
    · right
      rw [mem_toFinset]
      exact mem_map.2 ⟨pts[j], mem_filter.2 ⟨getElem_mem hj, by simpa using hz⟩, rfl⟩
  have h1 := Finset.card_le_card hsub
  have h2 := Finset.card_insert_le (0 : E) ((pts.filter fun p => p.2 ≠ 0).map fun p => p.2 • (p.1 - pts[0].1)).toFinset
  have h3 := toFinset_card_le ((pts.filter fun p => p.2 ≠ 0).map fun p => p.2 • (p.1 - pts[0].1))
  rw [length_map] at h3
  omega

example : ([(0, 0), (0, 1), (EuclideanSpace.single 0 1, 0), (EuclideanSpace.single 1 1, 0)] : List (E × ℝ)).filter (fun p => p.2 ≠ 0) = [(0, 1)] := by simp

/-- two candidates, one point -/
example : ∃ fuel res, decimate fuel 1 5 [(0, 1), (EuclideanSpace.single 0 1, 1)] = some res := by
  rw [C184_ends (by simp) (by norm_num)]
  have h : ((Finset.range 2).image (refer [((0 : E), (1 : ℝ)), (EuclideanSpace.single 0 1, 1)])).card = 2 := by
    rw [Finset.card_image_of_injOn, Finset.card_range]
    intro a ha b hb e
    have ha : a = 0 ∨ a = 1 := by have := Finset.mem_range.1 (Finset.mem_coe.1 ha); omega
    have hb : b = 0 ∨ b = 1 := by have := Finset.mem_range.1 (Finset.mem_coe.1 hb); omega
    rcases ha with rfl | rfl <;> rcases hb with rfl | rfl <;> simp [refer] at e ⊢
    exact absurd (congrArg (fun x : E => x 0) e) (by simp)
  show 1 < _
  rw [show ([((0 : E), (1 : ℝ)), (EuclideanSpace.single 0 1, 1)] : List (E × ℝ)).length = 2 from rfl, h]
  norm_num

end Verif.Seeds
