import Verif.Seeds.EikonalProps
import Mathlib.Analysis.Convex.Function
import Mathlib.Topology.MetricSpace.Lipschitz

/-! # The fast marching -/

namespace Verif.Seeds

open List
open scoped Classical InnerProductSpace

/-! ### Specification -/

/-- a triangulation: the triangles around a vertex are seen from all their vertices, no two of which coincide -/
structure Sound (t : Tri) : Prop where
  nodup : t.ids.Nodup
  inside : ∀ v ∈ t.ids, ∀ e ∈ t.ring v, e.1 ∈ t.ids ∧ e.2 ∈ t.ids
  turn : ∀ v ∈ t.ids, ∀ e ∈ t.ring v, (e.2, v) ∈ t.ring e.1 ∧ (v, e.1) ∈ t.ring e.2
  apart : ∀ v ∈ t.ids, ∀ e ∈ t.ring v, t.pos v ≠ t.pos e.1 ∧ t.pos v ≠ t.pos e.2 ∧ t.pos e.1 ≠ t.pos e.2

/-- two vertices of a triangle -/
def Edge (t : Tri) (u v : Nat) : Prop := u ≠ v ∧ ∃ e ∈ t.ring v, u = e.1 ∨ u = e.2

/-- a way along edges from some vertex of a list, and its length -/
inductive Way (t : Tri) (deads : List Nat) : Nat → ℝ → Prop
  | start {d : Nat} : d ∈ deads → Way t deads d 0
  | step {u v : Nat} {l : ℝ} : Way t deads u l → v ∈ t.ids → Edge t u v → Way t deads v (l + ‖t.pos v - t.pos u‖)

/-- no angle is obtuse -/
def Acute (t : Tri) : Prop := ∀ v ∈ t.ids, ∀ e ∈ t.ring v, 0 ≤ ⟪t.pos e.1 - t.pos v, t.pos e.2 - t.pos v⟫_ℝ

/-! ### One update -/

/-- what a triangle offers to a vertex -/
noncomputable def Tri.offer (t : Tri) (s : Front) (V : Nat) (e : Nat × Nat) : Option ℝ :=
  if s.status e.1 = 0 ∧ s.status e.2 = 0 then
    let k := coef (t.pos V) (t.pos e.1) (t.pos e.2) |s.field e.1| |s.field e.2|
    let f := front 1 (t.pos V) (t.pos e.1) (t.pos e.2) |s.field e.1| |s.field e.2|
    if k.type = 1 then some (min (f (clamp ((-k.B - Real.sqrt |k.discr|) / k.A))) (f (clamp ((-k.B + Real.sqrt |k.discr|) / k.A))))
    else if k.type = 2 then some (min (f 0) (f 1))
    else none
  else if s.status e.1 = 0 ∨ s.status e.2 = 0 then
    let U := if s.status e.2 = 0 then e.2 else e.1
    some (|s.field U| + 1 * ‖t.pos V - t.pos U‖)
  else none

theorem cell_offer (t : Tri) (s : Front) (V : Nat) (value : ℝ) (e : Nat × Nat) :
    t.cell 1 s V value e = match t.offer s V e with | none => value | some c => min value c := by
  unfold Tri.cell Tri.offer twoDead
  by_cases h : s.status e.1 = 0 ∧ s.status e.2 = 0
  · simp only [h, and_self, if_true]
    split
    · rfl
    · split <;> rfl
  · rw [if_neg h, if_neg h]
    by_cases h2 : s.status e.1 = 0 ∨ s.status e.2 = 0
    · rw [if_pos h2, if_pos h2]
    · rw [if_neg h2, if_neg h2]

theorem fold_offer (t : Tri) (s : Front) (V : Nat) (l : List (Nat × Nat)) (value : ℝ) :
    l.foldl (t.cell 1 s V) value = (l.filterMap (t.offer s V)).foldl min value := by
  induction l generalizing value with
  | nil => rfl
  | cons e l ih =>
    rw [foldl_cons, ih, cell_offer, filterMap_cons]
    cases t.offer s V e <;> rfl

theorem fold_min_le (l : List ℝ) (x : ℝ) : l.foldl min x ≤ x ∧ ∀ c ∈ l, l.foldl min x ≤ c := by
  induction l generalizing x with
  | nil => exact ⟨le_refl _, fun _ h => absurd h not_mem_nil⟩
  | cons y l ih =>
    rw [foldl_cons]
    have := ih (min x y)
    refine ⟨this.1.trans (min_le_left _ _), fun c hc => ?_⟩
    rcases mem_cons.1 hc with rfl | hc
    · exact this.1.trans (min_le_right _ _)
    · exact this.2 c hc

theorem le_fold_min {l : List ℝ} {x m : ℝ} (hx : m ≤ x) (hl : ∀ c ∈ l, m ≤ c) : m ≤ l.foldl min x := by
  induction l generalizing x with
  | nil => exact hx
  | cons y l ih =>
    rw [foldl_cons]
    exact ih (le_min hx (hl y mem_cons_self)) fun c hc => hl c (mem_cons_of_mem _ hc)

theorem update_le_self (t : Tri) (s : Front) (V : Nat) : t.update 1 s V ≤ |s.field V| := by
  unfold Tri.update
  rw [fold_offer]
  exact (fold_min_le _ _).1

theorem update_le {t : Tri} {s : Front} {V : Nat} {e : Nat × Nat} {c : ℝ} (he : e ∈ t.ring V) (hc : t.offer s V e = some c) : t.update 1 s V ≤ c := by
  unfold Tri.update
  rw [fold_offer]
  exact (fold_min_le _ _).2 c (mem_filterMap.2 ⟨e, he, hc⟩)

theorem le_update {t : Tri} {s : Front} {V : Nat} {m : ℝ} (h : m ≤ |s.field V|) (hc : ∀ e ∈ t.ring V, ∀ c, t.offer s V e = some c → m ≤ c) : m ≤ t.update 1 s V := by
  unfold Tri.update
  rw [fold_offer]
  refine le_fold_min h fun c h => ?_
  obtain ⟨e, he, h⟩ := mem_filterMap.1 h
  exact hc e he c h

/-- what is offered depends on which vertices are dead, and on their values -/
theorem offer_congr {t : Tri} {s s' : Front} {V : Nat} {e : Nat × Nat} (h1 : s.status e.1 = 0 ↔ s'.status e.1 = 0) (h2 : s.status e.2 = 0 ↔ s'.status e.2 = 0)
    (f1 : s.field e.1 = s'.field e.1) (f2 : s.field e.2 = s'.field e.2) : t.offer s V e = t.offer s' V e := by
  unfold Tri.offer
  simp only [h1, h2, f1, f2]
  by_cases h : s'.status e.2 = 0 <;> simp [h, f1, f2]

theorem update_congr {t : Tri} {s s' : Front} (V : Nat) (h : ∀ u, s.status u = 0 ↔ s'.status u = 0) (f : s.field = s'.field) : t.update 1 s V = t.update 1 s' V := by
  unfold Tri.update
  rw [fold_offer, fold_offer, f]
  have : t.offer s V = t.offer s' V := funext fun e => offer_congr (h _) (h _) (congrFun f _) (congrFun f _)
  rw [this]

/-- an offer is an arrival time from a dead vertex or an edge between dead vertices -/
theorem offer_spec {t : Tri} {s : Front} {V : Nat} {e : Nat × Nat} {c : ℝ} (h : t.offer s V e = some c) :
    (s.status e.1 = 0 ∧ s.status e.2 = 0 ∧ Arrival (t.pos V) (t.pos e.1) (t.pos e.2) |s.field e.1| |s.field e.2| c) ∨
      ∃ U, (U = e.1 ∨ U = e.2) ∧ s.status U = 0 ∧ (s.status e.1 ≠ 0 ∨ s.status e.2 ≠ 0) ∧ c = |s.field U| + ‖t.pos V - t.pos U‖ := by
  unfold Tri.offer at h
  by_cases h2 : s.status e.1 = 0 ∧ s.status e.2 = 0
  · rw [if_pos h2] at h
    refine .inl ⟨h2.1, h2.2, ?_⟩
    have key : ∀ x y, 0 ≤ x ∧ x ≤ 1 → 0 ≤ y ∧ y ≤ 1 → Arrival (t.pos V) (t.pos e.1) (t.pos e.2) |s.field e.1| |s.field e.2|
        (min (front 1 (t.pos V) (t.pos e.1) (t.pos e.2) |s.field e.1| |s.field e.2| x) (front 1 (t.pos V) (t.pos e.1) (t.pos e.2) |s.field e.1| |s.field e.2| y)) := by
      intro x y hx hy
      rcases min_choice (front 1 (t.pos V) (t.pos e.1) (t.pos e.2) |s.field e.1| |s.field e.2| x) (front 1 (t.pos V) (t.pos e.1) (t.pos e.2) |s.field e.1| |s.field e.2| y) with h | h
      · rw [h]; exact front_arrival hx.1 hx.2
      · rw [h]; exact front_arrival hy.1 hy.2
    simp only at h
    split at h
    · exact Option.some.inj h ▸ key _ _ (clamp_mem _) (clamp_mem _)
    · split at h
      · exact Option.some.inj h ▸ key 0 1 ⟨le_refl _, by norm_num⟩ ⟨by norm_num, le_refl _⟩
      · cases h
  · rw [if_neg h2] at h
    by_cases h3 : s.status e.1 = 0 ∨ s.status e.2 = 0
    · rw [if_pos h3] at h
      right
      have h4 : s.status e.1 ≠ 0 ∨ s.status e.2 ≠ 0 := by
        by_cases h5 : s.status e.1 = 0
        · exact .inr fun h6 => h2 ⟨h5, h6⟩
        · exact .inl h5
      by_cases h5 : s.status e.2 = 0
      · refine ⟨e.2, .inr rfl, h5, h4, ?_⟩
        simp only [h5, if_true, one_mul] at h
        exact (Option.some.inj h).symm
      · refine ⟨e.1, .inl rfl, h3.resolve_right h5, h4, ?_⟩
        simp only [h5, if_false, one_mul] at h
        exact (Option.some.inj h).symm
    · rw [if_neg h3] at h
      cases h

/-! ### One extraction -/

theorem visits (t : Tri) (s : Front) (l : List Nat) :
    (l.foldl t.visit s).field = s.field ∧
    (∀ u, (l.foldl t.visit s).status u = if u ∈ l ∧ s.status u = 2 then 1 else s.status u) ∧
    (∀ u, (l.foldl t.visit s).key u = if u ∈ l ∧ (s.status u = 1 ∨ s.status u = 2) then t.update 1 s u else s.key u) := by
  induction l using List.reverseRecOn with
  | nil => simp
  | append_singleton l J ih =>
    obtain ⟨hf, hs, hk⟩ := ih
    rw [foldl_append, foldl_cons, foldl_nil]
    have hz : ∀ u, (l.foldl t.visit s).status u = 0 ↔ s.status u = 0 := by
      intro u; rw [hs]; split
      · rename_i h; simp [h.2]
      · rfl
    have hu := update_congr (t := t) J hz hf
    generalize l.foldl t.visit s = r at *
    unfold Tri.visit
    by_cases h1 : r.status J = 1
    · rw [if_pos h1, hu]
      have hJ : s.status J = 1 ∨ s.status J = 2 := by
        rw [hs] at h1; split at h1
        · rename_i h; exact .inr h.2
        · exact .inl h1
      refine ⟨hf, fun u => ?_, fun u => ?_⟩
      · show r.status u = _
        by_cases h : u = J
        · subst h
          rw [h1]
          rcases hJ with h | h <;> simp [h]
        · rw [hs]; simp [h]
      · by_cases h : u = J
        · subst h
          simp [hJ]
        · simp only [h, if_false, hk, mem_append, mem_singleton, or_false]
    · rw [if_neg h1]
      by_cases h2 : r.status J = 2
      · rw [if_pos h2, hu]
        have hJ : s.status J = 2 := by
          rw [hs] at h2; split at h2
          · cases h2
          · exact h2
        refine ⟨hf, fun u => ?_, fun u => ?_⟩
        · by_cases h : u = J
          · subst h
            simp [hJ]
          · simp only [h, if_false, hs, mem_append, mem_singleton, or_false]
        · by_cases h : u = J
          · subst h
            simp [hJ]
          · simp only [h, if_false, hk, mem_append, mem_singleton, or_false]
      · rw [if_neg h2]
        have hJ : s.status J ≠ 1 ∧ s.status J ≠ 2 := by
          rw [hs] at h1 h2; split at h1
          · exact absurd rfl h1
          · rename_i h; rw [if_neg h] at h2; exact ⟨h1, h2⟩
        refine ⟨hf, fun u => ?_, fun u => ?_⟩
        · by_cases h : u = J
          · subst h
            rw [hs]; simp [hJ.2]
          · rw [hs]; simp [h]
        · by_cases h : u = J
          · subst h
            rw [hk]; simp [hJ.1, hJ.2]
          · rw [hk]; simp [h]

/-- the state after an extraction -/
theorem accepted (t : Tri) (s : Front) (v : Nat) :
    (∀ u, (t.accept s v).field u = if u = v then s.key v else s.field u) ∧
    (∀ u, (t.accept s v).status u = if u = v then 0 else if u ∈ t.neighs v ∧ s.status u = 2 then 1 else s.status u) ∧
    (∀ u, u ≠ v → u ∈ t.neighs v → (s.status u = 1 ∨ s.status u = 2) → (t.accept s v).key u = t.update 1 (t.accept s v) u) ∧
    (∀ u, u ≠ v → u ∉ t.neighs v → (t.accept s v).key u = s.key u) := by
  obtain ⟨hf, hs, hk⟩ := visits t { s with field := fun u => if u = v then s.key v else s.field u, status := fun u => if u = v then 0 else s.status u } (t.neighs v)
  have e : t.accept s v = (t.neighs v).foldl t.visit
      { s with field := fun u => if u = v then s.key v else s.field u, status := fun u => if u = v then 0 else s.status u } := rfl
  rw [← e] at hf hs hk
  refine ⟨fun u => by rw [hf], fun u => ?_, fun u hu hn h => ?_, fun u hu hn => ?_⟩
  · rw [hs]
    by_cases h : u = v
    · simp [h]
    · simp [h]
  · rw [hk]
    rw [if_pos ⟨hn, by simpa [hu] using h⟩]
    refine update_congr u (fun w => ?_) hf.symm
    rw [hs]
    split
    · rename_i h; rw [h.2]; simp
    · rfl
  · rw [hk, if_neg (fun h => hn h.1)]

theorem mem_neighs {t : Tri} {u v : Nat} : u ∈ t.neighs v ↔ Edge t u v := by
  unfold Tri.neighs Edge
  simp only [mem_filter, mem_flatMap, mem_cons, not_mem_nil, or_false, decide_eq_true_eq]
  constructor
  · rintro ⟨h, hn⟩; exact ⟨hn, h⟩
  · rintro ⟨hn, h⟩; exact ⟨h, hn⟩

theorem Edge.symm {t : Tri} (ht : Sound t) {u v : Nat} (hv : v ∈ t.ids) (h : Edge t u v) : Edge t v u := by
  obtain ⟨hn, e, he, h⟩ := h
  refine ⟨hn.symm, ?_⟩
  rcases h with rfl | rfl
  · exact ⟨_, (ht.turn v hv e he).1, .inr rfl⟩
  · exact ⟨_, (ht.turn v hv e he).2, .inl rfl⟩

theorem Edge.mem {t : Tri} (ht : Sound t) {u v : Nat} (hv : v ∈ t.ids) (h : Edge t u v) : u ∈ t.ids := by
  obtain ⟨hn, e, he, h⟩ := h
  rcases h with rfl | rfl
  · exact (ht.inside v hv e he).1
  · exact (ht.inside v hv e he).2

/-! ### Invariants -/

/-- vertices alive have a dead neighbour and up-to-date keys, those far away have none; values are given to the dead only; the dead are linked to the first ones -/
structure Marched (t : Tri) (big : ℝ) (deads : List Nat) (s : Front) : Prop where
  status : ∀ v, s.status v = 0 ∨ s.status v = 1 ∨ s.status v = 2
  zero : ∀ d ∈ deads, s.status d = 0 ∧ s.field d = 0
  rest : ∀ v, s.status v ≠ 0 → s.field v = big
  key : ∀ v ∈ t.ids, s.status v = 1 → s.key v = t.update 1 s v
  alive : ∀ v ∈ t.ids, s.status v = 1 → ∃ u, Edge t u v ∧ s.status u = 0
  far : ∀ v ∈ t.ids, s.status v = 2 → ∀ u, Edge t u v → s.status u ≠ 0
  linked : ∀ v, s.status v = 0 → ∃ l, Way t deads v l

theorem inv_begin {t : Tri} {big : ℝ} {deads : List Nat} (hb : 0 < big) : Marched t big deads (t.begin big deads) := by
  have hs : ∀ v, (t.begin big deads).status v = if v ∈ deads then 0 else if ∃ u ∈ t.neighs v, 0 ≤ start big deads u ∧ start big deads u < big then 1 else 2 := fun v => rfl
  have hf : ∀ v, (t.begin big deads).field v = if v ∈ deads then 0 else big := fun v => rfl
  have h0 : ∀ v, (t.begin big deads).status v = 0 ↔ v ∈ deads := by
    intro v; rw [hs]
    by_cases h : v ∈ deads
    · simp [h]
    · simp only [h, if_false, iff_false]; split <;> simp
  have hst : ∀ u, (0 ≤ start big deads u ∧ start big deads u < big) ↔ u ∈ deads := by
    intro u; unfold start
    by_cases h : u ∈ deads <;> simp [h, hb]
  constructor
  · intro v; rw [hs]; split
    · exact .inl rfl
    · split
      · exact .inr (.inl rfl)
      · exact .inr (.inr rfl)
  · intro d hd; exact ⟨(h0 d).2 hd, by rw [hf, if_pos hd]⟩
  · intro v hv; rw [hf, if_neg (fun h => hv ((h0 v).2 h))]
  · intro v _ _
    exact update_congr v (fun _ => Iff.rfl) rfl
  · intro v _ h1
    rw [hs] at h1
    split at h1
    · cases h1
    · split at h1
      · rename_i h
        obtain ⟨u, hu, h⟩ := h
        exact ⟨u, mem_neighs.1 hu, (h0 u).2 ((hst u).1 h)⟩
      · cases h1
  · intro v _ h2 u hu h
    rw [hs] at h2
    split at h2
    · cases h2
    · split at h2
      · cases h2
      · rename_i h3
        exact h3 ⟨u, mem_neighs.2 hu, (hst u).2 ((h0 u).1 h)⟩
  · intro v hv
    exact ⟨0, .start ((h0 v).1 hv)⟩

theorem inv_step {t : Tri} {big : ℝ} {deads : List Nat} (ht : Sound t) {s s' : Front} (hi : Marched t big deads s) (h : t.Step s s') : Marched t big deads s' := by
  obtain ⟨v, hv, hv1, -, rfl⟩ := h
  obtain ⟨hf, hs, hk, hk'⟩ := accepted t s v
  have h0 : ∀ u, (t.accept s v).status u = 0 ↔ u = v ∨ s.status u = 0 := by
    intro u; rw [hs]
    by_cases h : u = v
    · simp [h]
    · simp only [h, if_false, false_or]
      split
      · rename_i h; simp [h.2]
      · rfl
  constructor
  · intro u; rw [hs]; split
    · exact .inl rfl
    · split
      · exact .inr (.inl rfl)
      · exact hi.status u
  · intro d hd
    have := hi.zero d hd
    refine ⟨(h0 d).2 (.inr this.1), ?_⟩
    rw [hf, if_neg (fun h => by rw [h, hv1] at this; exact absurd this.1 (by decide)), this.2]
  · intro u hu
    have hu' : u ≠ v ∧ s.status u ≠ 0 := ⟨fun h => hu ((h0 u).2 (.inl h)), fun h => hu ((h0 u).2 (.inr h))⟩
    rw [hf, if_neg hu'.1]
    exact hi.rest u hu'.2
  · intro u hu h1
    have hu' : u ≠ v ∧ s.status u ≠ 0 := ⟨fun h => (by rw [(h0 u).2 (.inl h)] at h1; cases h1), fun h => (by rw [(h0 u).2 (.inr h)] at h1; cases h1)⟩
    by_cases hn : u ∈ t.neighs v
    · exact hk u hu'.1 hn ((hi.status u).resolve_left hu'.2)
    · rw [hk' u hu'.1 hn]
      rw [hs, if_neg hu'.1, if_neg (fun h => hn h.1)] at h1
      rw [hi.key u hu h1]
      unfold Tri.update
      rw [fold_offer, fold_offer]
      have hfu : (t.accept s v).field u = s.field u := by rw [hf, if_neg hu'.1]
      rw [hfu]
      congr 1
      refine filterMap_congr fun e he => ?_
      have hne : e.1 ≠ v ∧ e.2 ≠ v := by
        constructor
        · intro h
          exact hn (mem_neighs.2 (Edge.symm ht hu ⟨fun h' => hu'.1 h'.symm, e, he, .inl h.symm⟩))
        · intro h
          exact hn (mem_neighs.2 (Edge.symm ht hu ⟨fun h' => hu'.1 h'.symm, e, he, .inr h.symm⟩))
      refine offer_congr ?_ ?_ ?_ ?_
      · rw [h0]; simp [hne.1]
      · rw [h0]; simp [hne.2]
      · rw [hf, if_neg hne.1]
      · rw [hf, if_neg hne.2]
  · intro u hu h1
    have hu' : u ≠ v := fun h => by rw [(h0 u).2 (.inl h)] at h1; cases h1
    rw [hs, if_neg hu'] at h1
    split at h1
    · rename_i h
      exact ⟨v, Edge.symm ht hv (mem_neighs.1 h.1), (h0 v).2 (.inl rfl)⟩
    · obtain ⟨w, h, hw⟩ := hi.alive u hu h1
      exact ⟨w, h, (h0 w).2 (.inr hw)⟩
  · intro u hu h2 w hw h
    have hu' : u ≠ v := fun h => by rw [(h0 u).2 (.inl h)] at h2; cases h2
    rw [hs, if_neg hu'] at h2
    split at h2
    · cases h2
    · rename_i h3
      rcases (h0 w).1 h with rfl | h
      · exact h3 ⟨mem_neighs.2 (Edge.symm ht hu hw), h2⟩
      · exact hi.far u hu h2 w hw h
  · intro u hu
    rcases (h0 u).1 hu with rfl | h
    · obtain ⟨w, hw, hw0⟩ := hi.alive u hv hv1
      obtain ⟨l, hl⟩ := hi.linked w hw0
      exact ⟨_, .step hl hv hw⟩
    · exact hi.linked u h

theorem reach_inv {t : Tri} {big : ℝ} {deads : List Nat} (ht : Sound t) (hb : 0 < big) {s : Front} (h : t.Reach big deads s) : Marched t big deads s := by
  induction h with
  | start => exact inv_begin hb
  | step _ h ih => exact inv_step ht ih h

/-! ### Theorems -/

/-- **C186.** No march takes more steps than there are vertices, and one that can go no further is done. -/
theorem C186_ends {t : Tri} {big : ℝ} {deads : List Nat} :
    (∀ (n : Nat) (run : Nat → Front), (∀ i < n, t.Step (run i) (run (i + 1))) → n ≤ t.ids.length) ∧
    ∀ s, t.Reach big deads s → t.Done big deads s ∨ ∃ s', t.Step s s' := by
  constructor
  · intro n run h
    have key : ∀ i ≤ n, i + t.ids.countP (fun v => (run i).status v ≠ 0) ≤ t.ids.length := by
      intro i
      induction i with
      | zero => intro _; rw [Nat.zero_add]; exact countP_le_length
      | succ i ih =>
        intro hi
        have h1 := ih (by omega)
        obtain ⟨v, hv, hv1, -, he⟩ := h i (by omega)
        have h2 : t.ids.countP (fun v => (run (i + 1)).status v ≠ 0) < t.ids.countP (fun v => (run i).status v ≠ 0) := by
          rw [he]
          obtain ⟨-, hs, -, -⟩ := accepted t (run i) v
          have himp : ∀ u, (t.accept (run i) v).status u ≠ 0 → (run i).status u ≠ 0 := by
            intro u hu h0
            apply hu
            rw [hs]; split
            · rfl
            · rw [if_neg (fun h => by rw [h0] at h; exact absurd h.2 (by decide))]; exact h0
          obtain ⟨l1, l2, hl⟩ := append_of_mem hv
          rw [hl, countP_append, countP_append, countP_cons, countP_cons]
          have a1 := countP_mono_left (l := l1) (p := fun u => decide ((t.accept (run i) v).status u ≠ 0)) (q := fun u => decide ((run i).status u ≠ 0))
            (fun u _ h => decide_eq_true (himp u (of_decide_eq_true h)))
          have a2 := countP_mono_left (l := l2) (p := fun u => decide ((t.accept (run i) v).status u ≠ 0)) (q := fun u => decide ((run i).status u ≠ 0))
            (fun u _ h => decide_eq_true (himp u (of_decide_eq_true h)))
          have a3 : (t.accept (run i) v).status v = 0 := by rw [hs, if_pos rfl]
          simp only [a3, hv1, ne_eq, not_true_eq_false, decide_false, Bool.false_eq_true, if_false, one_ne_zero, not_false_eq_true, decide_true, if_true] at a1 a2 ⊢
          omega
        omega
    have := key n (le_refl _)
    omega
  · intro s hs
    by_cases h : ∃ v ∈ t.ids, s.status v = 1
    · right
      obtain ⟨v, hv, h1⟩ := h
      obtain ⟨m, hm, hle⟩ := Finset.exists_min_image (t.ids.filter fun u => s.status u = 1).toFinset s.key ⟨v, mem_toFinset.2 (mem_filter.2 ⟨hv, decide_eq_true h1⟩)⟩
      have hm' := mem_filter.1 (mem_toFinset.1 hm)
      exact ⟨_, m, hm'.1, of_decide_eq_true hm'.2, fun u hu h => hle u (mem_toFinset.2 (mem_filter.2 ⟨hu, decide_eq_true h⟩)), rfl⟩
    · left
      exact ⟨hs, fun v hv h1 => h ⟨v, hv, h1⟩⟩

/-- **C186.** In the end the vertices with a value are those linked to the starting ones by edges; all others keep the largest number, the starting ones have zero. -/
theorem C186_covers {t : Tri} {big : ℝ} {deads : List Nat} (ht : Sound t) (hb : 0 < big) (hd : ∀ d ∈ deads, d ∈ t.ids) {s : Front} (h : t.Done big deads s) :
    (∀ d ∈ deads, s.field d = 0) ∧ (∀ v ∈ t.ids, (∃ l, Way t deads v l) ↔ s.status v = 0) ∧ ∀ v ∈ t.ids, (¬ ∃ l, Way t deads v l) → s.field v = big := by
  have hi := reach_inv ht hb h.1
  have key : ∀ v ∈ t.ids, (∃ l, Way t deads v l) ↔ s.status v = 0 := by
    intro v hv
    constructor
    · rintro ⟨l, hw⟩
      have : v ∈ t.ids ∧ s.status v = 0 := by
        induction hw with
        | start hd' => exact ⟨hd _ hd', (hi.zero _ hd').1⟩
        | step hw hv he ih =>
          refine ⟨hv, ?_⟩
          have hu := ih (Edge.mem ht hv he)
          rcases hi.status _ with h0 | h1 | h2
          · exact h0
          · exact absurd h1 (h.2 _ hv)
          · exact absurd hu.2 (hi.far _ hv h2 _ he)
      exact this.2
    · exact hi.linked v
  refine ⟨fun d hd => (hi.zero d hd).2, key, fun v hv hn => hi.rest v fun h => hn ((key v hv).2 h)⟩

/-- the values are above any function that grows no faster than the distance and is convex -/
theorem march_ge {t : Tri} {big : ℝ} {deads : List Nat} {h : E → ℝ} (hl : ∀ x y, h x - h y ≤ ‖x - y‖) (hc : ConvexOn ℝ Set.univ h)
    (hd : ∀ d ∈ deads, h (t.pos d) ≤ 0) (hb : ∀ v, h (t.pos v) ≤ big) {s : Front} (hs : t.Reach big deads s) :
    (∀ v, h (t.pos v) ≤ s.field v) ∧ ∀ v, (s.status v = 1 → h (t.pos v) ≤ s.key v) := by
  have upd : ∀ s : Front, (∀ v, h (t.pos v) ≤ s.field v) → ∀ v, h (t.pos v) ≤ t.update 1 s v := by
    intro s hs v
    refine le_update ((hs v).trans (le_abs_self _)) fun e _ c hc' => ?_
    rcases offer_spec hc' with ⟨-, -, x, h0, h1, rfl⟩ | ⟨U, -, -, -, rfl⟩
    · have a1 := (hs e.1).trans (le_abs_self _)
      have a2 := (hs e.2).trans (le_abs_self _)
      have a3 := hc.2 (Set.mem_univ (t.pos e.1)) (Set.mem_univ (t.pos e.2)) (by linarith : 0 ≤ 1 - x) h0 (by ring)
      have a4 : (1 - x) • t.pos e.1 + x • t.pos e.2 = t.pos e.1 + x • (t.pos e.2 - t.pos e.1) := by module
      rw [a4, smul_eq_mul, smul_eq_mul] at a3
      have a5 := hl (t.pos v) (t.pos e.1 + x • (t.pos e.2 - t.pos e.1))
      have a6 : (1 - x) * h (t.pos e.1) ≤ (1 - x) * |s.field e.1| := mul_le_mul_of_nonneg_left a1 (by linarith)
      have a7 : x * h (t.pos e.2) ≤ x * |s.field e.2| := mul_le_mul_of_nonneg_left a2 h0
      linarith
    · have a1 := (hs U).trans (le_abs_self _)
      have a5 := hl (t.pos v) (t.pos U)
      linarith
  have hst : ∀ v, h (t.pos v) ≤ (t.begin big deads).field v := by
    intro v
    show _ ≤ start big deads v
    unfold start
    split
    · rename_i h; exact hd v h
    · exact hb v
  induction hs with
  | start => exact ⟨hst, fun v _ => upd ⟨_, _, fun _ => 0⟩ hst v⟩
  | @step s s' _ h1 ih =>
    obtain ⟨v, hv, hv1, -, rfl⟩ := h1
    obtain ⟨hf, hs, hk, hk'⟩ := accepted t s v
    have hfield : ∀ u, h (t.pos u) ≤ (t.accept s v).field u := by
      intro u
      rw [hf]
      split
      · rename_i e; rw [e]; exact ih.2 v hv1
      · exact ih.1 u
    refine ⟨hfield, fun u h1 => ?_⟩
    by_cases e : u = v
    · rw [hs, if_pos e] at h1; cases h1
    · by_cases hn : u ∈ t.neighs v
      · rw [hs, if_neg e] at h1
        have : s.status u = 1 ∨ s.status u = 2 := by
          split at h1
          · rename_i h; exact .inr h.2
          · exact .inl h1
        rw [hk u e hn this]
        exact upd _ hfield u
      · rw [hk' u e hn]
        rw [hs, if_neg e, if_neg (fun h => hn h.1)] at h1
        exact ih.2 u h1

/-- **C186.** Nothing is underestimated: a value is at least the distance in space from the starting vertex. -/
theorem C186_lower {t : Tri} {big : ℝ} {d : Nat} (hb : ∀ v, ‖t.pos v - t.pos d‖ ≤ big) {s : Front} (hs : t.Reach big [d] s) (v : Nat) :
    ‖t.pos v - t.pos d‖ ≤ s.field v := by
  refine (march_ge (h := fun x => ‖x - t.pos d‖) ?_ ?_ ?_ hb hs).1 v
  · intro x y
    have := norm_sub_norm_le (x - t.pos d) (y - t.pos d)
    rwa [sub_sub_sub_cancel_right] at this
  · exact (convexOn_univ_norm (E := E)).translate_left (c := -t.pos d) |> fun h => by simpa [Function.comp_def, sub_eq_add_neg] using h
  · intro x hx
    rw [mem_singleton.1 hx]; simp

/-- **C186.** With several starting vertices: at least any convex function that grows no faster than the distance and is not positive at those. -/
theorem C186_convex {t : Tri} {big : ℝ} {deads : List Nat} {h : E → ℝ} (hl : ∀ x y, h x - h y ≤ ‖x - y‖) (hc : ConvexOn ℝ Set.univ h)
    (hd : ∀ d ∈ deads, h (t.pos d) ≤ 0) (hb : ∀ v, h (t.pos v) ≤ big) {s : Front} (hs : t.Reach big deads s) (v : Nat) : h (t.pos v) ≤ s.field v :=
  (march_ge hl hc hd hb hs).1 v

/-! ### Upper bound -/

/-- the test that leaves a gap is never met exactly -/
def NoGap (t : Tri) (big : ℝ) (deads : List Nat) : Prop :=
  ∀ s, t.Reach big deads s → ∀ v ∈ t.ids, ∀ e ∈ t.ring v, s.status e.1 = 0 → s.status e.2 = 0 →
    |‖t.pos e.2 - t.pos e.1‖ ^ 2 * ((s.field e.2 - s.field e.1) ^ 2 - ‖t.pos e.2 - t.pos e.1‖ ^ 2)| ≠ 1e-12

/-- an update is not above what comes along an edge -/
theorem offer_edge {t : Tri} (ht : Sound t) {s : Front} {v : Nat} (hv : v ∈ t.ids) {e : Nat × Nat} (he : e ∈ t.ring v) (hn : ∀ u, 0 ≤ s.field u)
    (hK : s.status e.1 = 0 → s.status e.2 = 0 → |s.field e.2 - s.field e.1| ≤ ‖t.pos e.2 - t.pos e.1‖)
    (hg : s.status e.1 = 0 → s.status e.2 = 0 → |‖t.pos e.2 - t.pos e.1‖ ^ 2 * ((s.field e.2 - s.field e.1) ^ 2 - ‖t.pos e.2 - t.pos e.1‖ ^ 2)| ≠ 1e-12)
    {u : Nat} (hu : u = e.1 ∨ u = e.2) (h0 : s.status u = 0) : ∃ c, t.offer s v e = some c ∧ c ≤ s.field u + ‖t.pos v - t.pos u‖ := by
  obtain ⟨a1, a2, a3⟩ := ht.apart v hv e he
  unfold Tri.offer
  by_cases h : s.status e.1 = 0 ∧ s.status e.2 = 0
  · rw [if_pos h, abs_of_nonneg (hn e.1), abs_of_nonneg (hn e.2)]
    have hK := hK h.1 h.2
    have hg := hg h.1 h.2
    have hd := discr_nonneg a1 a3.symm hK
    have hAe : (coef (t.pos v) (t.pos e.1) (t.pos e.2) (s.field e.1) (s.field e.2)).A =
      ‖t.pos e.2 - t.pos e.1‖ ^ 2 * ((s.field e.2 - s.field e.1) ^ 2 - ‖t.pos e.2 - t.pos e.1‖ ^ 2) := rfl
    rw [← hAe] at hg
    rcases lt_or_gt_of_ne hg with hlt | hgt
    · have ht := type_two hd hlt
      simp only [ht]
      rw [if_neg (by decide), if_pos trivial, front_zero, front_one]
      refine ⟨_, rfl, ?_⟩
      rcases hu with rfl | rfl
      · exact min_le_left _ _
      · exact min_le_right _ _
    · have ht := type_one hd hgt
      have hKs : (s.field e.2 - s.field e.1) ^ 2 ≤ ‖t.pos e.2 - t.pos e.1‖ ^ 2 := by
        rw [← sq_abs (s.field e.2 - s.field e.1)]; exact pow_le_pow_left₀ (abs_nonneg _) hK 2
      have hlt : |s.field e.2 - s.field e.1| < ‖t.pos e.2 - t.pos e.1‖ := by
        rcases lt_or_eq_of_le hK with h | h
        · exact h
        · rw [hAe, ← h, sq_abs, sub_self, mul_zero, abs_zero] at hgt
          norm_num at hgt
      obtain ⟨z, hz, hm⟩ := root_least a1 a3.symm hlt
      simp only [ht, if_true]
      refine ⟨_, rfl, ?_⟩
      have hx : ∃ x, 0 ≤ x ∧ x ≤ 1 ∧ front 1 (t.pos v) (t.pos e.1) (t.pos e.2) (s.field e.1) (s.field e.2) x = s.field u + ‖t.pos v - t.pos u‖ := by
        rcases hu with rfl | rfl
        · exact ⟨0, le_refl _, by norm_num, front_zero ..⟩
        · exact ⟨1, by norm_num, le_refl _, front_one ..⟩
      obtain ⟨x, x0, x1, hx⟩ := hx
      rw [← hx]
      rcases hz with rfl | rfl
      · exact le_trans (min_le_left _ _) (clamp_least hm x0 x1)
      · exact le_trans (min_le_right _ _) (clamp_least hm x0 x1)
  · rw [if_neg h, if_pos (by rcases hu with rfl | rfl; exact .inl h0; exact .inr h0)]
    refine ⟨_, rfl, ?_⟩
    have hU : (if s.status e.2 = 0 then e.2 else e.1) = u := by
      rcases hu with rfl | rfl
      · rw [if_neg (fun h' => h ⟨h0, h'⟩)]
      · rw [if_pos h0]
    simp only [hU, one_mul, abs_of_nonneg (hn u)]
    exact le_refl _

/-- seen under an acute angle, the front comes through an edge no earlier than its later end was reached -/
theorem arrival_late {V U W : E} {pU pW m c : ℝ} (hang : 0 ≤ ⟪U - V, W - V⟫_ℝ) (hU : m ≤ pU + ‖V - U‖) (hW : m ≤ pW) (hle : pU ≤ m) (h : Arrival V U W pU pW c) : m ≤ c := by
  obtain ⟨x, h0, h1, rfl⟩ := h
  have e : V - (U + x • (W - U)) = -((1 - x) • (U - V) + x • (W - V)) := by module
  have h2 : (1 - x) * ‖V - U‖ ≤ ‖V - (U + x • (W - U))‖ := by
    rw [e, norm_neg]
    refine le_of_sq_le_sq ?_ (norm_nonneg _)
    rw [norm_add_sq_real, norm_smul, norm_smul, inner_smul_left, inner_smul_right, Real.norm_of_nonneg (by linarith : 0 ≤ 1 - x), Real.norm_of_nonneg h0,
      norm_sub_rev V U]
    simp only [conj_trivial]
    have : 0 ≤ 2 * ((1 - x) * (x * ⟪U - V, W - V⟫_ℝ)) := mul_nonneg (by norm_num) (mul_nonneg (by linarith) (mul_nonneg h0 hang))
    nlinarith [sq_nonneg (x * ‖W - V‖)]
  have h3 : (1 - x) * (m - pU) ≤ (1 - x) * ‖V - U‖ := mul_le_mul_of_nonneg_left (by linarith) (by linarith)
  have h4 : x * m ≤ x * pW := mul_le_mul_of_nonneg_left hW h0
  nlinarith

theorem arrival_swap {V U W : E} {pU pW c : ℝ} (h : Arrival V U W pU pW c) : Arrival V W U pW pU c := by
  obtain ⟨x, h0, h1, rfl⟩ := h
  refine ⟨1 - x, by linarith, by linarith, ?_⟩
  have : W + (1 - x) • (U - W) = U + x • (W - U) := by module
  rw [this]; ring

theorem reach_nonneg {t : Tri} {big : ℝ} {deads : List Nat} (hb : 0 < big) {s : Front} (hs : t.Reach big deads s) :
    (∀ v, 0 ≤ s.field v) ∧ ∀ v, (s.status v = 1 → 0 ≤ s.key v) :=
  march_ge (h := fun _ => 0) (fun x y => by rw [sub_self]; exact norm_nonneg _) (convexOn_const 0 convex_univ) (fun _ _ => le_refl _) (fun _ => hb.le) hs

/-- dead values are not above the keys of the alive, and along an edge they grow no faster than the distance -/
structure Ordered (t : Tri) (s : Front) : Prop where
  below : ∀ d ∈ t.ids, s.status d = 0 → ∀ v ∈ t.ids, s.status v = 1 → s.field d ≤ s.key v
  slope : ∀ u ∈ t.ids, s.status u = 0 → ∀ v ∈ t.ids, s.status v = 0 → Edge t u v → s.field v ≤ s.field u + ‖t.pos v - t.pos u‖

theorem key_edge {t : Tri} {big : ℝ} {deads : List Nat} (ht : Sound t) (hb : 0 < big) (hg : NoGap t big deads) {s : Front} (hs : t.Reach big deads s)
    (ho : Ordered t s) {u v : Nat} (hv : v ∈ t.ids) (h1 : s.status v = 1) (he : Edge t u v) (h0 : s.status u = 0) : s.key v ≤ s.field u + ‖t.pos v - t.pos u‖ := by
  obtain ⟨-, e, hm, hu⟩ := he
  rw [(reach_inv ht hb hs).key v hv h1]
  obtain ⟨i1, i2⟩ := ht.inside v hv e hm
  obtain ⟨a1, a2, a3⟩ := ht.apart v hv e hm
  have hne : e.1 ≠ e.2 := fun h => a3 (by rw [h])
  have hed : Edge t e.1 e.2 := ⟨hne, _, (ht.turn v hv e hm).2, .inr rfl⟩
  obtain ⟨c, hc, hle⟩ := offer_edge ht hv hm (reach_nonneg hb hs).1 (fun d1 d2 => by
    have b1 := ho.slope e.1 i1 d1 e.2 i2 d2 hed
    have b2 := ho.slope e.2 i2 d2 e.1 i1 d1 (Edge.symm ht i2 hed)
    rw [norm_sub_rev] at b2
    rw [abs_le]; constructor <;> linarith) (fun d1 d2 => hg s hs v hv e hm d1 d2) hu h0
  exact (update_le hm hc).trans hle

theorem reach_ordered {t : Tri} {big : ℝ} {deads : List Nat} (ht : Sound t) (ha : Acute t) (hb : 0 < big) (hg : NoGap t big deads) {s : Front}
    (hs : t.Reach big deads s) : Ordered t s := by
  induction hs with
  | start =>
    have hr : t.Reach big deads (t.begin big deads) := .start
    have h0 : ∀ v, (t.begin big deads).status v = 0 → (t.begin big deads).field v = 0 := by
      intro v hv
      by_cases h : v ∈ deads
      · exact ((reach_inv ht hb hr).zero v h).2
      · have e : (t.begin big deads).status v = if v ∈ deads then 0 else if ∃ u ∈ t.neighs v, 0 ≤ start big deads u ∧ start big deads u < big then 1 else 2 := rfl
        rw [e, if_neg h] at hv
        split at hv <;> cases hv
    constructor
    · intro d _ hd v hv h1
      rw [h0 d hd]; exact (reach_nonneg hb hr).2 v h1
    · intro u _ hu v _ hv _
      rw [h0 u hu, h0 v hv, zero_add]; exact norm_nonneg _
  | @step s s' hr h ho =>
    have hr' : t.Reach big deads s' := .step hr h
    have hi := reach_inv ht hb hr
    have hi' := reach_inv ht hb hr'
    obtain ⟨hn, hkn⟩ := reach_nonneg hb hr
    obtain ⟨hn', -⟩ := reach_nonneg hb hr'
    obtain ⟨v, hv, hv1, hmin, rfl⟩ := h
    obtain ⟨hf, hst, hk, hk'⟩ := accepted t s v
    have h0 : ∀ u, (t.accept s v).status u = 0 ↔ u = v ∨ s.status u = 0 := by
      intro u; rw [hst]
      by_cases h : u = v
      · simp [h]
      · simp only [h, if_false, false_or]
        split
        · rename_i h; simp [h.2]
        · rfl
    have hfv : (t.accept s v).field v = s.key v := by rw [hf, if_pos rfl]
    have hfo : ∀ u, u ≠ v → (t.accept s v).field u = s.field u := fun u hu => by rw [hf, if_neg hu]
    -- the new dead value is the greatest
    have hdead : ∀ d ∈ t.ids, (t.accept s v).status d = 0 → (t.accept s v).field d ≤ s.key v := by
      intro d hd h
      by_cases e : d = v
      · rw [e, hfv]
      · rw [hfo d e]
        exact ho.below d hd (((h0 d).1 h).resolve_left e) v hv hv1
    have halive : ∀ u ∈ t.ids, (t.accept s v).status u = 1 → s.key v ≤ (t.accept s v).key u := by
      intro u hu h1
      have hne : u ≠ v := fun h => by rw [(h0 u).2 (.inl h)] at h1; cases h1
      have hu0 : s.status u ≠ 0 := fun h => by rw [(h0 u).2 (.inr h)] at h1; cases h1
      have hlive : ∀ w, Edge t w u → s.status w = 0 → s.status u = 1 := by
        intro w hw h
        rcases hi.status u with h' | h' | h'
        · exact absurd h' hu0
        · exact h'
        · exact absurd h (hi.far u hu h' w hw)
      by_cases hnb : u ∈ t.neighs v
      · rw [hk u hne hnb ((hi.status u).resolve_left hu0)]
        refine le_update ?_ fun e he c hc => ?_
        · rw [abs_of_nonneg (hn' u), hfo u hne, hi.rest u hu0, hi.key v hv hv1]
          have := update_le_self t s v
          rwa [hi.rest v (by rw [hv1]; decide), abs_of_pos hb] at this
        obtain ⟨i1, i2⟩ := ht.inside u hu e he
        obtain ⟨p1, p2, p3⟩ := ht.apart u hu e he
        have n1 : e.1 ≠ u := fun h => p1 (by rw [h])
        have n2 : e.2 ≠ u := fun h => p2 (by rw [h])
        have n3 : e.1 ≠ e.2 := fun h => p3 (by rw [h])
        have d1 : Edge t e.1 u := ⟨n1, e, he, .inl rfl⟩
        have d2 : Edge t e.2 u := ⟨n2, e, he, .inr rfl⟩
        -- what was there before
        have old : e.1 ≠ v → e.2 ≠ v → s.key v ≤ c := by
          intro m1 m2
          have hsame : t.offer s u e = some c := by
            rw [← hc]
            exact offer_congr (by rw [h0]; simp [m1]) (by rw [h0]; simp [m2]) (hfo _ m1).symm (hfo _ m2).symm
          have h1' : s.status u = 1 := by
            rcases offer_spec hsame with ⟨z, -, -⟩ | ⟨U, hU, z, -, -⟩
            · exact hlive _ d1 z
            · rcases hU with rfl | rfl
              · exact hlive _ d1 z
              · exact hlive _ d2 z
          have := update_le he hsame
          rw [← hi.key u hu h1'] at this
          exact (hmin u hu h1').trans this
        by_cases m1 : e.1 = v
        · have m2 : e.2 ≠ v := fun h => n3 (by rw [m1, h])
          rcases offer_spec hc with ⟨z1, z2, harr⟩ | ⟨U, hU, z, z', rfl⟩
          · have z2' : s.status e.2 = 0 := ((h0 _).1 z2).resolve_left m2
            rw [abs_of_nonneg (hn' _), abs_of_nonneg (hn' _), m1, hfv, hfo _ m2] at harr
            have h1' := hlive _ d2 z2'
            have := key_edge ht hb hg hr ho hu h1' d2 z2'
            have hang := ha u hu e he
            rw [m1, real_inner_comm] at hang
            exact arrival_late hang ((hmin u hu h1').trans this) (le_refl _) (ho.below _ i2 z2' v hv hv1) (arrival_swap harr)
          · rcases hU with rfl | rfl
            · rw [abs_of_nonneg (hn' _), m1, hfv]; linarith [norm_nonneg (t.pos u - t.pos v)]
            · exact absurd z (z'.resolve_left (fun h => h ((h0 _).2 (.inl m1))))
        · by_cases m2 : e.2 = v
          · rcases offer_spec hc with ⟨z1, z2, harr⟩ | ⟨U, hU, z, z', rfl⟩
            · have z1' : s.status e.1 = 0 := ((h0 _).1 z1).resolve_left m1
              rw [abs_of_nonneg (hn' _), abs_of_nonneg (hn' _), m2, hfv, hfo _ m1] at harr
              have h1' := hlive _ d1 z1'
              have := key_edge ht hb hg hr ho hu h1' d1 z1'
              have hang := ha u hu e he
              rw [m2] at hang
              exact arrival_late hang ((hmin u hu h1').trans this) (le_refl _) (ho.below _ i1 z1' v hv hv1) harr
            · rcases hU with rfl | rfl
              · exact absurd z (z'.resolve_right (fun h => h ((h0 _).2 (.inl m2))))
              · rw [abs_of_nonneg (hn' _), m2, hfv]; linarith [norm_nonneg (t.pos u - t.pos v)]
          · exact old m1 m2
      · rw [hk' u hne hnb]
        rw [hst, if_neg hne, if_neg (fun h => hnb h.1)] at h1
        exact hmin u hu h1
    constructor
    · intro d hd hd0 u hu h1
      exact (hdead d hd hd0).trans (halive u hu h1)
    · intro u hu hu0 w hw hw0 he
      by_cases eu : u = v
      · subst eu
        have hwv : w ≠ u := fun h => he.1 h.symm
        rw [hfv]
        have := hdead w hw hw0
        linarith [norm_nonneg (t.pos w - t.pos u)]
      · by_cases ew : w = v
        · subst ew
          rw [hfv, hfo u eu]
          exact key_edge ht hb hg hr ho hw hv1 he (((h0 u).1 hu0).resolve_left eu)
        · rw [hfo u eu, hfo w ew]
          exact ho.slope u hu (((h0 u).1 hu0).resolve_left eu) w hw (((h0 w).1 hw0).resolve_left ew) he

/-- **C186.** On a triangulation without obtuse angles, no value is above the length of a way along edges. -/
theorem C186_upper_partial {t : Tri} {big : ℝ} {deads : List Nat} (ht : Sound t) (ha : Acute t) (hb : 0 < big) (hd : ∀ d ∈ deads, d ∈ t.ids)
    (hg : NoGap t big deads) {s : Front} (h : t.Done big deads s) {v : Nat} {l : ℝ} (hw : Way t deads v l) : s.field v ≤ l := by
  obtain ⟨hz, hcov, -⟩ := C186_covers ht hb hd h
  have ho := reach_ordered ht ha hb hg h.1
  have hin : ∀ {v l}, Way t deads v l → v ∈ t.ids := fun hw => by
    cases hw with
    | start h => exact hd _ h
    | step _ h _ => exact h
  induction hw with
  | start h => exact (hz _ h).le
  | step hw' hv he ih =>
    have := ho.slope _ (hin hw') ((hcov _ (hin hw')).1 ⟨_, hw'⟩) _ hv ((hcov _ hv).1 ⟨_, .step hw' hv he⟩) he
    linarith

/-- **C186.** There, the value at a neighbour of a single starting vertex is its distance. -/
theorem C186_neighbour {t : Tri} {big : ℝ} {d : Nat} (ht : Sound t) (ha : Acute t) (hb : ∀ v, ‖t.pos v - t.pos d‖ ≤ big) (hb0 : 0 < big) (hd : d ∈ t.ids)
    (hg : NoGap t big [d]) {s : Front} (h : t.Done big [d] s) {v : Nat} (hv : v ∈ t.ids) (he : Edge t d v) : s.field v = ‖t.pos v - t.pos d‖ := by
  have h1 := C186_lower hb h.1 v
  have h2 := C186_upper_partial ht ha hb0 (by simpa using hd) hg h (.step (.start (by simp)) hv he)
  linarith

/-! ### A case: the unit right triangle -/

noncomputable def corner : Tri where
  ids := [0, 1, 2]
  pos := fun v => if v = 1 then EuclideanSpace.single 0 1 else if v = 2 then EuclideanSpace.single 1 1 else 0
  ring := fun v => if v = 0 then [(1, 2)] else if v = 1 then [(2, 0)] else if v = 2 then [(0, 1)] else []

theorem corner_pos : corner.pos 0 = 0 ∧ corner.pos 1 = EuclideanSpace.single 0 1 ∧ corner.pos 2 = EuclideanSpace.single 1 1 := by simp [corner]
theorem corner_ring : corner.ring 0 = [(1, 2)] ∧ corner.ring 1 = [(2, 0)] ∧ corner.ring 2 = [(0, 1)] := by simp [corner]

theorem corner_norms : ‖corner.pos 1 - corner.pos 0‖ = 1 ∧ ‖corner.pos 2 - corner.pos 0‖ = 1 ∧ ‖corner.pos 1 - corner.pos 2‖ = Real.sqrt 2 := by
  obtain ⟨h0, h1, h2⟩ := corner_pos
  rw [h0, h1, h2]
  refine ⟨by simp, by simp, ?_⟩
  rw [EuclideanSpace.norm_eq]
  congr 1
  norm_num [Fin.sum_univ_three]
  rw [if_neg (show ¬ (2 : Fin 3) = 0 by decide), if_neg (show ¬ (2 : Fin 3) = 1 by decide)]; norm_num

theorem corner_apart : corner.pos 1 ≠ corner.pos 0 ∧ corner.pos 2 ≠ corner.pos 0 ∧ corner.pos 1 ≠ corner.pos 2 := by
  obtain ⟨n1, n2, n3⟩ := corner_norms
  refine ⟨fun h => ?_, fun h => ?_, fun h => ?_⟩
  · rw [h, sub_self, norm_zero] at n1; norm_num at n1
  · rw [h, sub_self, norm_zero] at n2; norm_num at n2
  · rw [h, sub_self, norm_zero] at n3
    have := Real.sqrt_pos.2 (show (0 : ℝ) < 2 by norm_num)
    linarith

theorem corner_sound : Sound corner := by
  obtain ⟨a1, a2, a3⟩ := corner_apart
  obtain ⟨r0, r1, r2⟩ := corner_ring
  constructor
  · decide
  all_goals
    intro v hv e he
    have : v = 0 ∨ v = 1 ∨ v = 2 := by simpa [corner] using hv
    rcases this with rfl | rfl | rfl
    · rw [r0] at he; rw [mem_singleton.1 he]
      first | exact ⟨by decide, by decide⟩ | exact ⟨by rw [r1]; simp, by rw [r2]; simp⟩ | exact ⟨a1.symm, a2.symm, a3⟩
    · rw [r1] at he; rw [mem_singleton.1 he]
      first | exact ⟨by decide, by decide⟩ | exact ⟨by rw [r2]; simp, by rw [r0]; simp⟩ | exact ⟨a3, a1, a2⟩
    · rw [r2] at he; rw [mem_singleton.1 he]
      first | exact ⟨by decide, by decide⟩ | exact ⟨by rw [r0]; simp, by rw [r1]; simp⟩ | exact ⟨a2, a3.symm, a1.symm⟩

theorem corner_acute : Acute corner := by
  obtain ⟨p0, p1, p2⟩ := corner_pos
  obtain ⟨r0, r1, r2⟩ := corner_ring
  intro v hv e he
  have : v = 0 ∨ v = 1 ∨ v = 2 := by simpa [corner] using hv
  rcases this with rfl | rfl | rfl
  · rw [r0] at he; rw [mem_singleton.1 he]
    simp [p0, p1, p2, EuclideanSpace.inner_single_left]
  · rw [r1] at he; rw [mem_singleton.1 he]
    simp [p0, p1, p2, EuclideanSpace.inner_single_left, inner_sub_left]
  · rw [r2] at he; rw [mem_singleton.1 he]
    simp [p0, p1, p2, EuclideanSpace.inner_single_left, inner_sub_left, inner_sub_right]

/-- from the corner, the two other vertices get their distance -/
theorem corner_update {s : Front} {v w : Nat} (hv : corner.pos v ≠ corner.pos 0) (hvw : corner.pos v ≠ corner.pos w) (hw0 : corner.pos w ≠ corner.pos 0)
    (n1 : ‖corner.pos v - corner.pos 0‖ = 1) (n2 : ‖corner.pos w - corner.pos 0‖ = 1)
    (hr : corner.ring v = [(w, 0)] ∨ corner.ring v = [(0, w)]) (h0 : s.status 0 = 0 ∧ s.field 0 = 0) (hw : s.status w = 0 → s.field w = 1)
    (hf : s.field v = 2) : corner.update 1 s v = 1 := by
  have hn : 0 ≤ ‖corner.pos v - corner.pos w‖ := norm_nonneg _
  unfold Tri.update
  rw [fold_offer, hf]
  rcases hr with hr | hr
  · rw [hr, filterMap_cons, filterMap_nil]
    by_cases h : s.status w = 0
    · have h1 := hw h
      have hd := discr_nonneg (pU := 1) (pW := 0) hvw hw0.symm (by rw [norm_sub_rev, n2]; norm_num)
      have hA : (coef (corner.pos v) (corner.pos w) (corner.pos 0) 1 0).A = 0 := by
        show ‖corner.pos 0 - corner.pos w‖ ^ 2 * ((0 - 1 : ℝ) ^ 2 - ‖corner.pos 0 - corner.pos w‖ ^ 2) = 0
        rw [norm_sub_rev, n2]; norm_num
      have ht := type_two hd (by rw [hA]; norm_num)
      have : corner.offer s v (w, 0) = some (min (1 + ‖corner.pos v - corner.pos w‖) (0 + ‖corner.pos v - corner.pos 0‖)) := by
        unfold Tri.offer
        simp only [h, h0.1, h1, h0.2, and_self, if_true, abs_one, abs_zero, ht]
        rw [if_neg (by decide), front_zero, front_one]
      rw [this, n1]
      simp only [foldl_cons, foldl_nil]
      rw [min_eq_right (a := 1 + ‖corner.pos v - corner.pos w‖) (by linarith)]
      norm_num
    · have : corner.offer s v (w, 0) = some 1 := by
        unfold Tri.offer
        simp [h, h0.1, h0.2, n1]
      rw [this]
      norm_num
  · rw [hr, filterMap_cons, filterMap_nil]
    by_cases h : s.status w = 0
    · have h1 := hw h
      have hd := discr_nonneg (pU := 0) (pW := 1) hv hw0 (by rw [n2]; norm_num)
      have hA : (coef (corner.pos v) (corner.pos 0) (corner.pos w) 0 1).A = 0 := by
        show ‖corner.pos w - corner.pos 0‖ ^ 2 * ((1 - 0 : ℝ) ^ 2 - ‖corner.pos w - corner.pos 0‖ ^ 2) = 0
        rw [n2]; norm_num
      have ht := type_two hd (by rw [hA]; norm_num)
      have : corner.offer s v (0, w) = some (min (0 + ‖corner.pos v - corner.pos 0‖) (1 + ‖corner.pos v - corner.pos w‖)) := by
        unfold Tri.offer
        simp only [h, h0.1, h1, h0.2, and_self, if_true, abs_one, abs_zero, ht]
        rw [if_neg (by decide), front_zero, front_one]
      rw [this, n1]
      simp only [foldl_cons, foldl_nil]
      rw [min_eq_left (b := 1 + ‖corner.pos v - corner.pos w‖) (by linarith)]
      norm_num
    · have : corner.offer s v (0, w) = some 1 := by
        unfold Tri.offer
        simp [h, h0.1, h0.2, n1]
      rw [this]
      norm_num

theorem corner_values {s : Front} (h : corner.Reach 2 [0] s) : s.field 0 = 0 ∧ s.status 0 = 0 ∧ ∀ v ∈ [1, 2], s.status v = 0 → s.field v = 1 := by
  obtain ⟨n1, n2, n3⟩ := corner_norms
  obtain ⟨a1, a2, a3⟩ := corner_apart
  obtain ⟨r0, r1, r2⟩ := corner_ring
  induction h with
  | start =>
    have := (reach_inv corner_sound (by norm_num) (.start : corner.Reach 2 [0] _)).zero 0 (by simp)
    refine ⟨this.2, this.1, fun v hv h => ?_⟩
    have hne : v ∉ ([0] : List Nat) := by intro h; rw [mem_singleton] at h; subst h; simp at hv
    have e : (corner.begin 2 [0]).status v = if v ∈ [0] then 0 else if ∃ u ∈ corner.neighs v, 0 ≤ start 2 [0] u ∧ start 2 [0] u < 2 then 1 else 2 := rfl
    rw [e, if_neg hne] at h
    split at h <;> cases h
  | @step s s' hr h ih =>
    have hi := reach_inv corner_sound (by norm_num) hr
    have hi' := reach_inv corner_sound (by norm_num) (hr.step h)
    have z := hi'.zero 0 (by simp)
    refine ⟨z.2, z.1, ?_⟩
    obtain ⟨v, hv, hv1, -, rfl⟩ := h
    obtain ⟨hf, hst, -, -⟩ := accepted corner s v
    have hkey : s.key v = 1 := by
      rw [hi.key v hv hv1]
      have : v = 0 ∨ v = 1 ∨ v = 2 := by simpa [corner] using hv
      rcases this with rfl | rfl | rfl
      · rw [ih.2.1] at hv1; cases hv1
      · exact corner_update (w := 2) a1 a3 a2 n1 n2 (.inl r1) ⟨ih.2.1, ih.1⟩ (ih.2.2 2 (by simp)) (hi.rest 1 (by rw [hv1]; decide))
      · exact corner_update (w := 1) a2 a3.symm a1 n2 n1 (.inr r2) ⟨ih.2.1, ih.1⟩ (ih.2.2 1 (by simp)) (hi.rest 2 (by rw [hv1]; decide))
    intro u hu h
    rw [hf]
    by_cases e : u = v
    · rw [if_pos e, hkey]
    · rw [if_neg e]
      rw [hst, if_neg e] at h
      split at h
      · cases h
      · exact ih.2.2 u hu h

theorem corner_gap : NoGap corner 2 [0] := by
  obtain ⟨n1, n2, n3⟩ := corner_norms
  obtain ⟨r0, r1, r2⟩ := corner_ring
  intro s hs v hv e he h1 h2
  obtain ⟨z, -, w⟩ := corner_values hs
  have : v = 0 ∨ v = 1 ∨ v = 2 := by simpa [corner] using hv
  rcases this with rfl | rfl | rfl
  · rw [r0] at he; rw [mem_singleton.1 he] at h1 h2 ⊢
    simp only at h1 h2 ⊢
    rw [w 1 (by simp) h1, w 2 (by simp) h2, norm_sub_rev, n3, Real.sq_sqrt (by norm_num)]
    norm_num
  · rw [r1] at he; rw [mem_singleton.1 he] at h1 h2 ⊢
    simp only at h1 h2 ⊢
    rw [w 2 (by simp) h1, z, norm_sub_rev, n2]
    norm_num
  · rw [r2] at he; rw [mem_singleton.1 he] at h1 h2 ⊢
    simp only at h1 h2 ⊢
    rw [w 1 (by simp) h2, z, n1]
    norm_num

/-- the premises of the theorems hold: a march on the triangle is sound, acute, without gaps, and ends -/
example : Sound corner ∧ Acute corner ∧ NoGap corner 2 [0] ∧ (∀ s, corner.Done 2 [0] s → s.field 1 = 1 ∧ s.field 2 = 1) := by
  refine ⟨corner_sound, corner_acute, corner_gap, fun s h => ?_⟩
  obtain ⟨-, hc, -⟩ := C186_covers corner_sound (by norm_num) (by simp [corner]) h
  obtain ⟨-, -, w⟩ := corner_values h.1
  obtain ⟨r0, r1, r2⟩ := corner_ring
  have w1 : Way corner [0] 1 _ := .step (.start (by simp)) (by simp [corner]) ⟨by decide, (2, 0), by rw [r1]; simp, .inr rfl⟩
  have w2 : Way corner [0] 2 _ := .step (.start (by simp)) (by simp [corner]) ⟨by decide, (0, 1), by rw [r2]; simp, .inl rfl⟩
  exact ⟨w 1 (by simp) ((hc 1 (by simp [corner])).1 ⟨_, w1⟩), w 2 (by simp) ((hc 2 (by simp [corner])).1 ⟨_, w2⟩)⟩

example : ∃ s, corner.Done 2 [0] s := by
  by_contra hn
  have hstep : ∀ s, corner.Reach 2 [0] s → ∃ s', corner.Step s s' := fun s hs => (C186_ends.2 s hs).resolve_left fun h => hn ⟨s, h⟩
  have hrun : ∀ n, ∃ run : Nat → Front, corner.Reach 2 [0] (run n) ∧ ∀ i < n, corner.Step (run i) (run (i + 1)) := by
    intro n
    induction n with
    | zero => exact ⟨fun _ => corner.begin 2 [0], .start, fun i hi => absurd hi (by omega)⟩
    | succ n ih =>
      obtain ⟨run, hr, hs⟩ := ih
      obtain ⟨s', h'⟩ := hstep _ hr
      refine ⟨fun i => if i ≤ n then run i else s', by simpa using hr.step h', fun i hi => ?_⟩
      by_cases h : i = n
      · subst h; simpa using h'
      · have h1 : i ≤ n := by omega
        have h2 : i + 1 ≤ n := by omega
        simp only [h1, h2, if_true]
        exact hs i (by omega)
  obtain ⟨run, -, h⟩ := hrun 4
  have := (C186_ends (t := corner) (big := 2) (deads := [0])).1 4 run h
  exact absurd this (by decide)

end Verif.Seeds
