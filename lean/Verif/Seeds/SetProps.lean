import Verif.Seeds.DecimateProps
import Mathlib.Tactic.FieldSimp

/-! # Sensitivity and settings -/

namespace Verif.Seeds

open List
open scoped Classical

/-! ### Specification -/

/-- a field on the same vertices with values in the unit interval, ordered as before, zero at the least value and one at the greatest -/
structure Scaled (s r : List (Nat × ℝ)) : Prop where
  ids : r.map Prod.fst = s.map Prod.fst
  unit : ∀ e ∈ r, 0 ≤ e.2 ∧ e.2 ≤ 1
  linear : ∃ a b, 0 < a ∧ r = s.map fun e => (e.1, a * e.2 + b)
  least : ∃ e ∈ r, e.2 = 0
  greatest : ∃ e ∈ r, e.2 = 1

/-- two values of a field differ by more than the smallest number -/
def Varies (s : List (Nat × ℝ)) : Prop := ∃ e ∈ s, ∃ f ∈ s, dblMin < e.2 - f.2

/-! ### Theorems -/

/-- **C188.** The sensitivity is scaled to the unit interval, and is one everywhere if it does not vary. -/
theorem C188_scaled {s : List (Nat × ℝ)} (hs : s ≠ []) : (Varies s → Scaled s (normalise s)) ∧ (¬ Varies s → normalise s = s.map fun e => (e.1, 1)) := by
  have hne : s.map Prod.snd ≠ [] := by simpa using hs
  obtain ⟨l1, l2⟩ := least_spec hne
  obtain ⟨g1, g2⟩ := greatest_spec hne
  have hv : Varies s ↔ ¬ greatest (s.map Prod.snd) - least (s.map Prod.snd) ≤ dblMin := by
    rw [not_le]
    constructor
    · rintro ⟨e, he, f, hf, h⟩
      have := g2 _ (mem_map_of_mem (f := Prod.snd) he)
      have := l2 _ (mem_map_of_mem (f := Prod.snd) hf)
      linarith
    · intro h
      obtain ⟨e, he, h1⟩ := mem_map.1 g1
      obtain ⟨f, hf, h2⟩ := mem_map.1 l1
      exact ⟨e, he, f, hf, by rw [h1, h2]; exact h⟩
  constructor
  · intro h
    have h' := hv.1 h
    have hd : 0 < dblMin := by unfold dblMin; positivity
    have hpos : 0 < greatest (s.map Prod.snd) - least (s.map Prod.snd) := hd.trans (not_le.1 h')
    have e : normalise s = s.map fun e => (e.1, (e.2 - least (s.map Prod.snd)) / (greatest (s.map Prod.snd) - least (s.map Prod.snd))) := by
      unfold normalise; simp only [h', if_false]
    rw [e]
    constructor
    · rw [map_map]; rfl
    · intro x hx
      obtain ⟨y, hy, rfl⟩ := mem_map.1 hx
      have a1 := g2 _ (mem_map_of_mem (f := Prod.snd) hy)
      have a2 := l2 _ (mem_map_of_mem (f := Prod.snd) hy)
      exact ⟨div_nonneg (by linarith) hpos.le, (div_le_one hpos).2 (by linarith)⟩
    · refine ⟨1 / (greatest (s.map Prod.snd) - least (s.map Prod.snd)), -least (s.map Prod.snd) / (greatest (s.map Prod.snd) - least (s.map Prod.snd)), by positivity, ?_⟩
      refine map_congr_left fun x _ => ?_
      rw [Prod.mk.injEq]
      exact ⟨rfl, by ring⟩
    · obtain ⟨f, hf, h2⟩ := mem_map.1 l1
      exact ⟨_, mem_map.2 ⟨f, hf, rfl⟩, by simp [h2]⟩
    · obtain ⟨f, hf, h2⟩ := mem_map.1 g1
      exact ⟨_, mem_map.2 ⟨f, hf, rfl⟩, by simp only [h2]; exact div_self hpos.ne'⟩
  · intro h
    have h' := not_not.1 fun h2 => h (hv.2 h2)
    unfold normalise
    simp only [h', if_true]

example : Varies [(3, 1), (5, 4)] := ⟨(5, 4), by simp, (3, 1), by simp, by
  have : dblMin ≤ 1 := zpow_le_one_of_nonpos₀ (by norm_num) (by norm_num)
  norm_num
  linarith⟩

/-- calls of the setters -/
inductive Call where
  | nPoints (n : Int)
  | engine (e : Int)
  | signature (n : Nat)
  | absorb (x : Section)

def Call.run (s : Settings) : Call → Settings
  | .nPoints n => s.setNPoints n
  | .engine e => s.setEngine e
  | .signature n => s.setSignature n
  | .absorb x => s.absorb x

/-- what a block can hold -/
def Valid (s : Settings) : Prop := 0 ≤ s.nPoints ∧ (s.engine = 0 ∨ s.engine = 1 ∨ s.engine = 2)

theorem absorb_fields (s : Settings) (x : Section) :
    (s.absorb x).nPoints = (x.nPoints.map fun n => max (max n 0) 0).getD s.nPoints ∧
    (s.absorb x).engine = (x.engine.map fun e => if min (max e 0) 2 < 0 ∨ min (max e 0) 2 > 2 then 2 else min (max e 0) 2).getD s.engine ∧
    (s.absorb x).seed = x.seed.getD s.seed ∧ (s.absorb x).massCenter = (x.massCenter.map fun b => decide (b ≠ 0)).getD s.massCenter ∧
    (s.absorb x).randomFixed = (x.randomFixed.map fun b => decide (b ≠ 0)).getD s.randomFixed ∧ (s.absorb x).signature = s.signature := by
  obtain ⟨a, b, c, d, e, f⟩ := x
  cases a <;> cases b <;> cases c <;> cases d <;> cases e <;> exact ⟨rfl, rfl, rfl, rfl, rfl, rfl⟩

/-- **C188.** Whatever is given, the number of points is not negative and the engine is one of the three; numbers out of range mean the grid in the setter, the nearest
engine in a section. -/
theorem C188_range (cs : List Call) : Valid (cs.foldl Call.run {}) ∧
    (∀ (s : Settings) (e : Int), (s.setEngine e).engine = if e = 0 then 0 else if e = 1 then 1 else 2) ∧
    (∀ (s : Settings) (x : Section) (e : Int), x.engine = some e → (s.absorb x).engine = if e ≤ 0 then 0 else if e = 1 then 1 else 2) ∧
    (∀ (s : Settings) (n : Int), (s.setNPoints n).nPoints = if n < 0 then 0 else n) ∧
    ∀ (s : Settings) (x : Section) (n : Int), x.nPoints = some n → (s.absorb x).nPoints = if n < 0 then 0 else n := by
  have he : ∀ (s : Settings) (x : Section) (e : Int), x.engine = some e → (s.absorb x).engine = if e ≤ 0 then 0 else if e = 1 then 1 else 2 := by
    intro s x e h
    rw [(absorb_fields s x).2.1, h, Option.map_some, Option.getD_some]
    split <;> split <;> (try split) <;> omega
  have hn : ∀ (s : Settings) (x : Section) (n : Int), x.nPoints = some n → (s.absorb x).nPoints = if n < 0 then 0 else n := by
    intro s x n h
    rw [(absorb_fields s x).1, h, Option.map_some, Option.getD_some]
    split <;> omega
  have hse : ∀ (s : Settings) (e : Int), (s.setEngine e).engine = if e = 0 then 0 else if e = 1 then 1 else 2 := by
    intro s e
    show (if e < 0 ∨ e > 2 then 2 else e) = _
    split <;> split <;> (try split) <;> omega
  have hsn : ∀ (s : Settings) (n : Int), (s.setNPoints n).nPoints = if n < 0 then 0 else n := by
    intro s n
    show max n 0 = _
    split <;> omega
  refine ⟨?_, hse, he, hsn, hn⟩
  have key : ∀ (cs : List Call) (s : Settings), Valid s → Valid (cs.foldl Call.run s) := by
    intro cs
    induction cs with
    | nil => exact fun s h => h
    | cons c cs ih =>
      intro s h
      refine ih _ ?_
      cases c with
      | nPoints n =>
        refine ⟨?_, h.2⟩
        show 0 ≤ (s.setNPoints n).nPoints
        rw [hsn]; split <;> omega
      | engine e =>
        refine ⟨h.1, ?_⟩
        show (s.setEngine e).engine = 0 ∨ (s.setEngine e).engine = 1 ∨ (s.setEngine e).engine = 2
        rw [hse]; split
        · exact .inl rfl
        · split
          · exact .inr (.inl rfl)
          · exact .inr (.inr rfl)
      | signature n => exact h
      | absorb x =>
        constructor
        · show 0 ≤ (s.absorb x).nPoints
          cases hx : x.nPoints with
          | none => rw [(absorb_fields s x).1, hx]; exact h.1
          | some n => rw [hn s x n hx]; split <;> omega
        · show (s.absorb x).engine = 0 ∨ (s.absorb x).engine = 1 ∨ (s.absorb x).engine = 2
          cases hx : x.engine with
          | none => rw [(absorb_fields s x).2.1, hx]; exact h.2
          | some e =>
            rw [he s x e hx]; split
            · exact .inl rfl
            · split
              · exact .inr (.inl rfl)
              · exact .inr (.inr rfl)
  exact key cs {} ⟨le_refl _, .inr (.inr rfl)⟩

/-- **C188.** A section that was written gives back the number of points, the engine, the seed as far as its digits go, and the use of the centre as seed; with another
engine than the random one also the default of the rest. -/
theorem C188_roundtrip_partial (round : Round) (h0 : round 0 = 0) {s : Settings} (hs : Valid s) :
    let r := ({} : Settings).absorb (s.flush round)
    r.nPoints = s.nPoints ∧ r.engine = s.engine ∧ r.seed = (fun i => round (s.seed i)) ∧ r.massCenter = s.massCenter ∧
      (s.engine ≠ 0 → r.randomFixed = false) ∧ r.signature = 1 := by
  intro r
  obtain ⟨f1, f2, f3, f4, f5, f6⟩ := absorb_fields {} (s.flush round)
  refine ⟨?_, ?_, ?_, ?_, ?_, f6⟩
  · show (({} : Settings).absorb (s.flush round)).nPoints = _
    rw [f1]
    show (Option.map _ (if s.nPoints ≠ 0 then some s.nPoints else none)).getD 0 = _
    have := hs.1
    split
    · rw [Option.map_some, Option.getD_some]; omega
    · rename_i h; rw [Option.map_none, Option.getD_none]; exact (not_not.1 h).symm
  · show (({} : Settings).absorb (s.flush round)).engine = _
    rw [f2]
    show (Option.map _ (if s.engine ≠ 2 then some s.engine else none)).getD 2 = _
    split
    · rw [Option.map_some, Option.getD_some]
      rcases hs.2 with h | h | h <;> rw [h] <;> rfl
    · rename_i h; rw [Option.map_none, Option.getD_none]; exact (not_not.1 h).symm
  · show (({} : Settings).absorb (s.flush round)).seed = _
    rw [f3]
    show (if s.seed ≠ 0 then some fun i => round (s.seed i) else none).getD (fun _ => 0) = _
    split
    · rfl
    · rename_i h
      rw [not_not.1 h]
      funext i
      show (0 : ℝ) = round 0
      rw [h0]
  · show (({} : Settings).absorb (s.flush round)).massCenter = _
    rw [f4]
    show (Option.map _ (if s.massCenter = true then some 1 else none)).getD false = _
    cases s.massCenter <;> rfl
  · intro h
    show (({} : Settings).absorb (s.flush round)).randomFixed = _
    rw [f5]
    show (Option.map _ (if (s.signature : Int) ≠ -1 ∧ s.engine = 0 then some (s.signature : Int) else none)).getD false = _
    rw [if_neg (fun h' => h h'.2)]
    rfl

/-- **C188.** A fixed pattern uses the signature given, any other the time. -/
theorem C188_pattern (time : Nat) (s : Settings) : ((s.run time).signature = if s.engine = 0 ∧ s.randomFixed = false then time else s.signature) ∧
    (s.run time).nPoints = s.nPoints ∧ (s.run time).engine = s.engine ∧ (s.run time).randomFixed = s.randomFixed := by
  unfold Settings.run
  by_cases h : s.engine = 0 ∧ s.randomFixed = false
  · have h' : s.engine = 0 ∧ (!s.randomFixed) = true := ⟨h.1, by rw [h.2]; rfl⟩
    rw [if_pos h', if_pos h]; exact ⟨rfl, rfl, rfl, rfl⟩
  · have h' : ¬ (s.engine = 0 ∧ (!s.randomFixed) = true) := fun h2 => h ⟨h2.1, by simpa using h2.2⟩
    rw [if_neg h', if_neg h]; exact ⟨rfl, rfl, rfl, rfl⟩

/-- **C188.** Violated: the option for the signature is not read. -/
theorem C188_signature_fails (s : Settings) (x : Section) (n : Option Int) :
    s.absorb { x with signature := n } = s.absorb x ∧ (s.absorb x).signature = s.signature :=
  ⟨rfl, (absorb_fields s x).2.2.2.2.2⟩

/-- **C188.** Violated: a section written with the random engine gives back a pattern that is fixed if and only if the signature is not 0, whatever was set, and the
signature is lost. -/
theorem C188_fixed_fails (round : Round) {s : Settings} (hs : s.engine = 0) :
    ((({} : Settings).absorb (s.flush round)).randomFixed = decide (s.signature ≠ 0)) ∧ (({} : Settings).absorb (s.flush round)).signature = 1 := by
  obtain ⟨f1, f2, f3, f4, f5, f6⟩ := absorb_fields {} (s.flush round)
  refine ⟨?_, f6⟩
  rw [f5]
  show (Option.map _ (if (s.signature : Int) ≠ -1 ∧ s.engine = 0 then some (s.signature : Int) else none)).getD false = _
  rw [if_pos ⟨by omega, hs⟩, Option.map_some, Option.getD_some]
  congr 1
  exact propext (by omega)

/-- never fixed, read back as fixed -/
example : ((({} : Settings).absorb (({ engine := 0, nPoints := 5 } : Settings).flush id)).randomFixed) = true := by
  rw [(C188_fixed_fails id rfl).1]; rfl

example : Valid { nPoints := 7, engine := 1 } := ⟨by decide, by decide⟩

end Verif.Seeds
