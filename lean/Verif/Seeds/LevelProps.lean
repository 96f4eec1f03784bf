import Verif.Seeds.Model
import Mathlib.Tactic.Linarith
import Mathlib.Tactic.NormNum

/-! # The points of the level sets -/

namespace Verif.Seeds

open List
open scoped Classical

/-! ### Specification -/

/-- each point after the first has the greatest value given those before it -/
def Farthest (ids : List Nat) (value : List Nat → Nat → ℝ) (l : List Nat) : Prop :=
  ∀ a c b, l = a ++ c :: b → a ≠ [] → c ∈ ids ∧ ∀ v ∈ ids, value a v ≤ value a c

/-- there is always some vertex left with a positive value -/
def Left (ids : List Nat) (value : List Nat → Nat → ℝ) (n : Nat) : Prop :=
  ∀ deads : List Nat, deads ≠ [] → deads.length < n → (∀ d ∈ deads, d ∈ ids) → ∃ v ∈ ids, 0 < value deads v

/-- a distance from several points is the least of the distances -/
def FromAll (δ : Nat → Nat → ℝ) (dist : List Nat → Nat → ℝ) : Prop :=
  ∀ deads v, (∀ d ∈ deads, dist deads v ≤ δ d v) ∧ (deads ≠ [] → ∃ d ∈ deads, dist deads v = δ d v)

/-! ### The loops -/

theorem farthest_fold (field : Nat → ℝ) (l : List Nat) (b : ℝ × Nat) :
    let r := l.foldl (fun (b : ℝ × Nat) v => if field v > b.1 then (field v, v) else b) b
    b.1 ≤ r.1 ∧ (∀ v ∈ l, field v ≤ r.1) ∧ (r = b ∨ r.2 ∈ l ∧ field r.2 = r.1 ∧ b.1 < r.1) := by
  induction l generalizing b with
  | nil => exact ⟨le_refl _, fun v h => absurd h not_mem_nil, .inl rfl⟩
  | cons x l ih =>
    rw [foldl_cons]
    by_cases h : field x > b.1
    · rw [if_pos h]
      obtain ⟨h1, h2, h3⟩ := ih (field x, x)
      refine ⟨h.le.trans h1, fun v hv => ?_, ?_⟩
      · rcases mem_cons.1 hv with rfl | hv
        · exact h1
        · exact h2 v hv
      · right
        rcases h3 with h3 | ⟨h3, h4, h5⟩
        · rw [h3]; exact ⟨mem_cons_self, rfl, h⟩
        · exact ⟨mem_cons_of_mem _ h3, h4, h.trans h5⟩
    · rw [if_neg h]
      obtain ⟨h1, h2, h3⟩ := ih b
      refine ⟨h1, fun v hv => ?_, ?_⟩
      · rcases mem_cons.1 hv with rfl | hv
        · exact (not_lt.1 h).trans h1
        · exact h2 v hv
      · rcases h3 with h3 | ⟨h3, h4, h5⟩
        · exact .inl h3
        · exact .inr ⟨mem_cons_of_mem _ h3, h4, h5⟩

theorem farthest_spec (ids : List Nat) (field : Nat → ℝ) :
    ((∃ v ∈ ids, 0 < field v) → farthest ids field ∈ ids ∧ 0 < field (farthest ids field) ∧ ∀ v ∈ ids, field v ≤ field (farthest ids field)) ∧
    ((∀ v ∈ ids, field v ≤ 0) → farthest ids field = 0) := by
  obtain ⟨h1, h2, h3⟩ := farthest_fold field ids (0, 0)
  have e : (ids.foldl (fun (b : ℝ × Nat) v => if field v > b.1 then (field v, v) else b) (0, 0)).2 = farthest ids field := rfl
  rw [e] at h3
  constructor
  · rintro ⟨v, hv, hp⟩
    rcases h3 with h3 | ⟨h3, h4, h5⟩
    · have := h2 v hv
      rw [h3] at this
      exact absurd this (not_le.2 hp)
    · rw [h4]
      exact ⟨h3, h5, h2⟩
  · intro h
    rcases h3 with h3 | ⟨h3, h4, h5⟩
    · rw [← e, h3]
    · rw [← h4] at h5
      exact absurd (h _ h3) (not_le.2 h5)

theorem sow_prefix {ids : List Nat} {dist : List Nat → Nat → ℝ} {sens : Nat → ℝ} {k : Nat} {deads l : List Nat} (h : sow ids dist sens k deads = some l) :
    l.length = deads.length + k ∧ deads <+: l := by
  induction k generalizing deads with
  | zero => rw [sow] at h; obtain rfl := Option.some.inj h; exact ⟨rfl, prefix_refl _⟩
  | succ k ih =>
    rw [sow] at h
    split at h
    · obtain ⟨h1, h2⟩ := ih h
      exact ⟨by rw [h1, length_append, length_singleton]; omega, (prefix_append _ _).trans h2⟩
    · cases h

/-! ### Theorems -/

/-- **C187.** As many points as wanted are found, all of them vertices and distinct, the first one first; each further one is a vertex with the greatest product of
distance and sensitivity, as long as there always is a vertex where this is positive. -/
theorem C187_points_partial {ids : List Nat} {dist : List Nat → Nat → ℝ} {sens : Nat → ℝ} {n first : Nat} (hf : first ∈ ids) (hn : 0 < n)
    (hz : ∀ deads, ∀ d ∈ deads, dist deads d = 0) (hl : Left ids (fun deads v => dist deads v * sens v) n) :
    ∃ l, levelSet ids dist sens n (some first) = some l ∧ l.length = n ∧ l.head? = some first ∧ l.Nodup ∧ (∀ v ∈ l, v ∈ ids) ∧
      Farthest ids (fun deads v => dist deads v * sens v) l := by
  have key : ∀ k (deads : List Nat), deads ≠ [] → deads.length + k ≤ n → (∀ d ∈ deads, d ∈ ids) → deads.Nodup → Farthest ids (fun deads v => dist deads v * sens v) deads →
      ∃ l, sow ids dist sens k deads = some l ∧ l.Nodup ∧ (∀ v ∈ l, v ∈ ids) ∧ Farthest ids (fun deads v => dist deads v * sens v) l := by
    intro k
    induction k with
    | zero => intro deads _ _ h1 h2 h3; exact ⟨deads, rfl, h2, h1, h3⟩
    | succ k ih =>
      intro deads hne hk h1 h2 h3
      rw [sow, if_pos h1]
      obtain ⟨c1, c2, c3⟩ := (farthest_spec ids fun v => dist deads v * sens v).1 (hl deads hne (by omega) h1)
      generalize (farthest ids fun v => dist deads v * sens v) = c at *
      have hc : c ∉ deads := fun h => by rw [hz deads c h, zero_mul] at c2; exact lt_irrefl _ c2
      refine ih (deads ++ [c]) (by simp) (by rw [length_append, length_singleton]; omega) ?_ ?_ ?_
      · intro d hd
        rcases mem_append.1 hd with hd | hd
        · exact h1 d hd
        · rw [mem_singleton.1 hd]; exact c1
      · rw [nodup_append]
        exact ⟨h2, by simp, fun a ha b hb => by rw [mem_singleton.1 hb]; exact fun h => hc (h ▸ ha)⟩
      · intro a x b he ha
        rcases eq_nil_or_concat b with rfl | ⟨b', y, rfl⟩
        · have := append_inj' (s₁ := deads) (t₁ := [c]) (s₂ := a) (t₂ := [x]) (by simpa using he) rfl
          obtain ⟨rfl, h⟩ := this
          obtain rfl : c = x := by simpa using h
          exact ⟨c1, c3⟩
        · have : deads ++ [c] = (a ++ x :: b') ++ [y] := by rw [he, concat_eq_append]; simp
          obtain ⟨h, -⟩ := append_inj' this rfl
          exact h3 a x b' h ha
  obtain ⟨l, h1, h2, h3, h4⟩ := key (n - 1) [first] (by simp) (by simp; omega) (by simpa using hf) (by simp) (by
    intro a x b he ha
    cases a with
    | nil => exact absurd rfl ha
    | cons y a => simp at he)
  obtain ⟨p1, p2⟩ := sow_prefix h1
  refine ⟨l, ?_, by rw [p1]; simp; omega, ?_, h2, h3, h4⟩
  · unfold levelSet
    simp only
    rw [h1, Option.bind_some, if_pos h3]
  · obtain ⟨t, rfl⟩ := p2
    rfl

/-- **C187.** Without sensitivity, the points are spread: no vertex is further from the points than any two of them are from each other. -/
theorem C187_spread {ids : List Nat} {dist : List Nat → Nat → ℝ} {δ : Nat → Nat → ℝ} {n : Nat} {first : Option Nat} {l : List Nat} (hδ : ∀ u v, 0 ≤ δ u v)
    (hd : FromAll δ dist) (h : levelSet ids dist (fun _ => 1) n first = some l) : ∀ v ∈ ids, l.Pairwise fun a b => dist l v ≤ δ a b := by
  have key : ∀ k (deads : List Nat), deads ≠ [] → (∀ v ∈ ids, deads.Pairwise fun a b => dist deads v ≤ δ a b) → ∀ l, sow ids dist (fun _ => 1) k deads = some l →
      ∀ v ∈ ids, l.Pairwise fun a b => dist l v ≤ δ a b := by
    intro k
    induction k with
    | zero => intro deads _ h l hl; rw [sow] at hl; obtain rfl := Option.some.inj hl; exact h
    | succ k ih =>
      intro deads hne hp l hl
      rw [sow] at hl
      split at hl
      · refine ih _ (by simp) ?_ l hl
        obtain ⟨f1, f2⟩ := farthest_spec ids fun v => dist deads v * 1
        generalize (farthest ids fun v => dist deads v * 1) = c at *
        simp only [mul_one] at f1 f2
        intro v hv
        have hmono : dist (deads ++ [c]) v ≤ dist deads v := by
          obtain ⟨d, hd1, hd2⟩ := (hd deads v).2 hne
          rw [hd2]
          exact (hd (deads ++ [c]) v).1 d (mem_append_left _ hd1)
        rw [pairwise_append]
        refine ⟨(hp v hv).imp fun h => hmono.trans h, pairwise_singleton _ _, fun a ha b hb => ?_⟩
        rw [mem_singleton.1 hb]
        refine hmono.trans ?_
        by_cases hpos : ∃ w ∈ ids, 0 < dist deads w
        · exact ((f1 hpos).2.2 v hv).trans ((hd deads c).1 a ha)
        · have hle : ∀ w ∈ ids, dist deads w ≤ 0 := fun w hw => not_lt.1 fun h => hpos ⟨w, hw, h⟩
          exact (hle v hv).trans (hδ a c)
      · cases hl
  unfold levelSet at h
  cases first with
  | none => obtain rfl := Option.some.inj h; exact fun v _ => Pairwise.nil
  | some f =>
    simp only at h
    obtain ⟨l', h1, h2⟩ := Option.bind_eq_some_iff.1 h
    split at h2
    · obtain rfl := Option.some.inj h2
      exact key _ [f] (by simp) (fun v _ => pairwise_singleton _ _) _ h1
    · cases h2

/-- **C187.** The distance reported is the least between two of the points. -/
theorem C187_distance (big : ℝ) (pts : List E) :
    pts.Pairwise (fun p q => minDistance big pts ≤ ‖p - q‖) ∧ minDistance big pts ≤ big ∧
    (minDistance big pts = big ∨ ∃ a b c, ∃ p q : E, pts = a ++ p :: (b ++ q :: c) ∧ minDistance big pts = ‖p - q‖) := by
  have fold : ∀ (l : List ℝ) (x : ℝ), l.foldl min x ≤ x ∧ (∀ c ∈ l, l.foldl min x ≤ c) ∧ (l.foldl min x = x ∨ l.foldl min x ∈ l) := by
    intro l
    induction l with
    | nil => intro x; exact ⟨le_refl _, fun c h => absurd h not_mem_nil, .inl rfl⟩
    | cons y l ih =>
      intro x
      rw [foldl_cons]
      obtain ⟨h1, h2, h3⟩ := ih (min x y)
      refine ⟨h1.trans (min_le_left _ _), fun c hc => ?_, ?_⟩
      · rcases mem_cons.1 hc with rfl | hc
        · exact h1.trans (min_le_right _ _)
        · exact h2 c hc
      · rcases h3 with h3 | h3
        · rcases min_choice x y with h | h
          · exact .inl (h3.trans h)
          · exact .inr (by rw [h3, h]; exact mem_cons_self)
        · exact .inr (mem_cons_of_mem _ h3)
  induction pts with
  | nil => exact ⟨Pairwise.nil, le_refl _, .inl rfl⟩
  | cons p ps ih =>
    obtain ⟨i1, i2, i3⟩ := ih
    obtain ⟨h1, h2, h3⟩ := fold (ps.map fun q => ‖p - q‖) (minDistance big ps)
    have e : minDistance big (p :: ps) = (ps.map fun q => ‖p - q‖).foldl min (minDistance big ps) := rfl
    rw [← e] at h1 h2 h3
    refine ⟨pairwise_cons.2 ⟨fun q hq => h2 _ (mem_map.2 ⟨q, hq, rfl⟩), i1.imp fun h => h1.trans h⟩, h1.trans i2, ?_⟩
    rcases h3 with h3 | h3
    · rcases i3 with i3 | ⟨a, b, c, x, y, rfl, i3⟩
      · exact .inl (h3.trans i3)
      · exact .inr ⟨p :: a, b, c, x, y, rfl, h3.trans i3⟩
    · right
      obtain ⟨q, hq, hq'⟩ := mem_map.1 h3
      obtain ⟨b, c, rfl⟩ := append_of_mem hq
      exact ⟨[], b, c, p, q, rfl, hq'.symm⟩

/-- **C187.** Violated: once no vertex has a positive value left (as many points as vertices, or a sensitivity of zero elsewhere), the point with number 0 is taken
again and again, or, if no vertex has this number, the run ends with an error. -/
theorem C187_exhausted_fails {ids : List Nat} {dist : List Nat → Nat → ℝ} {sens : Nat → ℝ} {n first : Nat} (hf : first ∈ ids) (hn : 1 < n)
    (hz : ∀ deads, first ∈ deads → ∀ v ∈ ids, dist deads v * sens v ≤ 0) :
    levelSet ids dist sens n (some first) = if 0 ∈ ids then some (first :: replicate (n - 1) 0) else none := by
  have key : ∀ k m, (0 ∈ ids ∨ m = 0) → sow ids dist sens k (first :: replicate m 0) =
      if 0 ∈ ids ∨ k + m ≤ 1 then some (first :: replicate (m + k) 0) else none := by
    intro k
    induction k with
    | zero =>
      intro m hm
      rw [sow, if_pos]
      · rfl
      · rcases hm with h | h
        · exact .inl h
        · right; omega
    | succ k ih =>
      intro m hm
      rw [sow, if_pos]
      · rw [(farthest_spec ids _).2 (hz _ mem_cons_self)]
        have e : first :: replicate m 0 ++ [0] = first :: replicate (m + 1) 0 := by rw [cons_append, replicate_succ']
        rw [e]
        by_cases h0 : 0 ∈ ids
        · rw [ih (m + 1) (.inl h0), if_pos (.inl h0), if_pos (.inl h0)]
          congr 3; omega
        · have hm0 : m = 0 := hm.resolve_left h0
          subst hm0
          cases k with
          | zero =>
            rw [sow, if_pos (.inr (by omega))]
          | succ k =>
            rw [sow, if_neg, if_neg]
            · intro h; rcases h with h | h
              · exact h0 h
              · omega
            · intro h; exact h0 (h 0 (by simp))
      · intro d hd
        rcases mem_cons.1 hd with rfl | hd
        · exact hf
        · rcases hm with h | h
          · rw [eq_of_mem_replicate hd]; exact h
          · rw [h] at hd; exact absurd hd not_mem_nil
  unfold levelSet
  simp only
  have := key (n - 1) 0 (.inr rfl)
  rw [replicate_zero] at this
  rw [this]
  by_cases h0 : 0 ∈ ids
  · rw [if_pos (.inl h0), if_pos h0, Option.bind_some, if_pos, Nat.zero_add]
    intro d hd
    rcases mem_cons.1 hd with rfl | hd
    · exact hf
    · rw [eq_of_mem_replicate hd]; exact h0
  · rw [if_neg h0]
    by_cases hk : n - 1 + 0 ≤ 1
    · rw [if_pos (.inr hk), Option.bind_some, if_neg]
      intro h
      refine h0 (h 0 (mem_cons_of_mem _ (mem_replicate.2 ⟨by omega, rfl⟩)))
    · rw [if_neg (by rintro (h | h); exact h0 h; exact hk h), Option.bind_none]

/-- **C187.** Violated: with no points wanted, there still is one. -/
theorem C187_zero_fails {ids : List Nat} {dist : List Nat → Nat → ℝ} {sens : Nat → ℝ} {first : Nat} (hf : first ∈ ids) :
    levelSet ids dist sens 0 (some first) = some [first] := by
  show ((sow ids dist sens 0 [first]).bind fun l => if ∀ d ∈ l, d ∈ ids then some l else none) = _
  rw [sow, Option.bind_some, if_pos (by simpa using hf)]

/-! ### A case: three vertices on a line -/

/-- the distance of numbers -/
noncomputable def line (deads : List Nat) (v : Nat) : ℝ :=
  match deads with
  | [] => 0
  | d :: ds => (ds.map fun u : Nat => |(u : ℝ) - v|).foldl min |(d : ℝ) - v|

theorem line_spec : FromAll (fun u v => |(u : ℝ) - v|) line := by
  intro deads v
  cases deads with
  | nil => exact ⟨fun d h => absurd h not_mem_nil, fun h => absurd rfl h⟩
  | cons d ds =>
    have fold : ∀ (l : List Nat) (x : ℝ), (l.map fun u : Nat => |(u : ℝ) - v|).foldl min x ≤ x ∧ (∀ c ∈ l, (l.map fun u : Nat => |(u : ℝ) - v|).foldl min x ≤ |(c : ℝ) - v|) ∧
        ((l.map fun u : Nat => |(u : ℝ) - v|).foldl min x = x ∨ ∃ c ∈ l, (l.map fun u : Nat => |(u : ℝ) - v|).foldl min x = |(c : ℝ) - v|) := by
      intro l
      induction l with
      | nil => intro x; exact ⟨le_refl _, fun c h => absurd h not_mem_nil, .inl rfl⟩
      | cons y l ih =>
        intro x
        rw [map_cons, foldl_cons]
        obtain ⟨h1, h2, h3⟩ := ih (min x |(y : ℝ) - v|)
        refine ⟨h1.trans (min_le_left _ _), fun c hc => ?_, ?_⟩
        · rcases mem_cons.1 hc with rfl | hc
          · exact h1.trans (min_le_right _ _)
          · exact h2 c hc
        · rcases h3 with h3 | ⟨c, hc, h3⟩
          · rcases min_choice x |(y : ℝ) - v| with h | h
            · exact .inl (h3.trans h)
            · exact .inr ⟨y, mem_cons_self, h3.trans h⟩
          · exact .inr ⟨c, mem_cons_of_mem _ hc, h3⟩
    obtain ⟨h1, h2, h3⟩ := fold ds |(d : ℝ) - v|
    refine ⟨fun c hc => ?_, fun _ => ?_⟩
    · rcases mem_cons.1 hc with rfl | hc
      · exact h1
      · exact h2 c hc
    · rcases h3 with h3 | ⟨c, hc, h3⟩
      · exact ⟨d, mem_cons_self, h3⟩
      · exact ⟨c, mem_cons_of_mem _ hc, h3⟩

theorem line_pos {deads : List Nat} {v : Nat} (hne : deads ≠ []) (hv : v ∉ deads) : 0 < line deads v := by
  obtain ⟨d, hd, h⟩ := (line_spec deads v).2 hne
  rw [h]
  refine abs_pos.2 (sub_ne_zero.2 ?_)
  exact fun h => hv (Nat.cast_injective h ▸ hd)

/-- the premises hold for three points among the numbers 0, 1 and 5 -/
example : (∀ deads : List Nat, ∀ d ∈ deads, line deads d = 0) ∧ Left [0, 1, 5] (fun deads v => line deads v * (fun _ => 1) v) 3 := by
  constructor
  · intro deads d hd
    have h1 := (line_spec deads d).1 d hd
    obtain ⟨c, -, h2⟩ := (line_spec deads d).2 (ne_nil_of_mem hd)
    have : 0 ≤ line deads d := h2 ▸ abs_nonneg _
    simp only [sub_self, abs_zero] at h1
    exact le_antisymm h1 this
  · intro deads hne hlen hin
    by_contra hno
    have hall : ∀ v ∈ [0, 1, 5], v ∈ deads := by
      intro v hv
      by_contra hnv
      exact hno ⟨v, hv, by simpa using line_pos hne hnv⟩
    have h3 : [0, 1, 5].length ≤ deads.length := (List.subperm_of_subset (by decide) hall).length_le
    simp at h3
    omega

end Verif.Seeds
