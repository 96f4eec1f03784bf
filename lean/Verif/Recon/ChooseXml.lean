import Verif.Recon.ChooseProps
import Verif.Xml.Props
/-
C148: fields that a selection block takes, settings that last, and its XML section.
-/
namespace Verif.Recon
open List hiding get
open Verif.Field Verif.Mesh Verif.Xml

variable {P α : Type}

/-- the fields of a list that are there, have a geometry and the right location -/
def fitting (l : Loc) (fs : List (Option (Field Nat α))) : List (Field Nat α) :=
  fs.filterMap fun f => f.bind fun f => if f.loc = l ∧ f.geo.isSome then some f else none

theorem addField_spec (s : Sel α) (f : Option (Field Nat α)) : s.addField f = { s with fields := s.fields ++ fitting s.loc [f] } := by
  unfold Sel.addField fitting
  cases f with
  | none => simp
  | some f =>
    simp only [Sel.takes, Bool.and_eq_true, beq_iff_eq]
    by_cases h : f.loc = s.loc ∧ f.geo.isSome
    · simp [h]
    · rw [if_neg h]; simp [h]

theorem fold_fields' (fs : List (Option (Field Nat α))) : ∀ s : Sel α,
    fs.foldl (fun s f => s.addField f) s = { s with fields := s.fields ++ fitting s.loc fs } := by
  induction fs with
  | nil => intro s; simp [fitting]
  | cons f fs ih =>
    intro s
    rw [foldl_cons, ih, addField_spec]
    simp only [append_assoc]
    congr 2
    unfold fitting
    rw [← filterMap_append]
    rfl

/-- C148, list: setting a list replaces what was there by the fields of the list that have a geometry and the location of the block, in their
order; adding one puts it at the end under the same condition.  Nothing else changes. -/
theorem C148_lists (s : Sel α) (fs : List (Option (Field Nat α))) (f : Option (Field Nat α)) :
    s.setFields fs = { s with fields := fitting s.loc fs } ∧ s.addField f = { s with fields := s.fields ++ fitting s.loc [f] } := by
  refine ⟨?_, addField_spec s f⟩
  unfold Sel.setFields
  rw [fold_fields']
  simp

/-- calls of a user -/
inductive Call (α : Type) where
  | fields (fs : List (Option (Field Nat α)))
  | field (f : Option (Field Nat α))
  | mode (m : Int)
  | name (n : Text)
  | tol (t : Rat)
  | geo (g : Option Nat)
  | clear
  | run

def Call.apply (w : World P) (ov : Overlap α) (s : Sel α) : Call α → Option (Sel α)
  | .fields fs => some (s.setFields fs)
  | .field f => some (s.addField f)
  | .mode m => some (s.setMode m)
  | .name n => some (s.setFieldName n)
  | .tol t => some (s.setTolerance t)
  | .geo g => some (s.setGeometry g)
  | .clear => some s.clear
  | .run => s.execute w ov

theorem mem_fitting (l : Loc) (fs : List (Option (Field Nat α))) (f : Field Nat α) (h : f ∈ fitting l fs) :
    f.loc = l ∧ f.geo.isSome := by
  unfold fitting at h
  obtain ⟨o, -, h⟩ := mem_filterMap.1 h
  cases o with
  | none => simp at h
  | some f' =>
    simp only [Option.bind_some] at h
    split at h
    · obtain rfl := Option.some.inj h; assumption
    · simp at h

/-- C148, every sequence of calls on a new block: the location is the one of the constructor (points when undefined was asked), all fields
listed have it and a geometry, and the tolerance is never below 1e-12. -/
theorem C148_reachable (w : World P) (ov : Overlap α) (l : Loc) (cs : List (Call α)) (s : Sel α)
    (h : cs.foldlM (Call.apply w ov) (Sel.new l) = some s) :
    s.loc = (if l = .undefined then .point else l) ∧ Loaded s ∧ 1 / 1000000000000 ≤ s.tol := by
  have step : ∀ (s s' : Sel α) (c : Call α), c.apply w ov s = some s' → Loaded s → 1 / 1000000000000 ≤ s.tol →
      s'.loc = s.loc ∧ Loaded s' ∧ 1 / 1000000000000 ≤ s'.tol := by
    intro s s' c h hs ht
    cases c with
    | fields fs =>
      obtain rfl := Option.some.inj h
      rw [(C148_lists s fs none).1]
      exact ⟨rfl, ⟨hs.1, fun f hf => mem_fitting _ _ f hf⟩, ht⟩
    | field f =>
      obtain rfl := Option.some.inj h
      rw [addField_spec]
      refine ⟨rfl, ⟨hs.1, fun f' hf => ?_⟩, ht⟩
      rcases mem_append.1 hf with hf | hf
      · exact hs.2 f' hf
      · exact mem_fitting _ _ f' hf
    | mode m => obtain rfl := Option.some.inj h; exact ⟨rfl, hs, ht⟩
    | name m => obtain rfl := Option.some.inj h; exact ⟨rfl, hs, ht⟩
    | tol m =>
      obtain rfl := Option.some.inj h
      refine ⟨rfl, hs, ?_⟩
      show 1 / 1000000000000 ≤ max (1 / 1000000000000) m
      rw [Rat.max_def]
      split
      · assumption
      · exact Rat.le_refl
    | geo m => obtain rfl := Option.some.inj h; exact ⟨rfl, hs, ht⟩
    | clear => obtain rfl := Option.some.inj h; exact ⟨rfl, ⟨hs.1, by simp [Sel.clear]⟩, ht⟩
    | run =>
      obtain ⟨q, hq, rfl⟩ := Option.map_eq_some_iff.1 h
      obtain ⟨f, hf⟩ := select_keeps w ov s q hq
      rw [hf]
      exact ⟨rfl, hs, ht⟩
  have all : ∀ (cs : List (Call α)) (s s' : Sel α), cs.foldlM (Call.apply w ov) s = some s' → Loaded s → 1 / 1000000000000 ≤ s.tol →
      s'.loc = s.loc ∧ Loaded s' ∧ 1 / 1000000000000 ≤ s'.tol := by
    intro cs
    induction cs with
    | nil => intro s s' h hs ht; obtain rfl := Option.some.inj h; exact ⟨rfl, hs, ht⟩
    | cons c cs ih =>
      intro s s' h hs ht
      rw [foldlM_cons] at h
      obtain ⟨s1, h1, h2⟩ := Option.bind_eq_some_iff.1 h
      obtain ⟨a1, a2, a3⟩ := step s s1 c h1 hs ht
      obtain ⟨b1, b2, b3⟩ := ih s1 s' h2 a2 a3
      exact ⟨b1.trans a1, b2, b3⟩
  have h0 : Loaded (Sel.new l : Sel α) := by
    refine ⟨?_, by simp [Sel.new]⟩
    unfold Sel.new
    simp only
    split
    · decide
    · assumption
  exact all cs _ s h h0 (by show (1 : Rat) / 1000000000000 ≤ 1 / 1000000000000; exact Rat.le_refl)

/-- C148, clear: fields, result and geometry go; mode, name, tolerance and location stay. -/
theorem C148_clear (s : Sel α) : s.clear.fields = [] ∧ s.clear.result.data = [] ∧ s.clear.result.geo = none ∧ s.clear.geo = none ∧
    s.clear.mode = s.mode ∧ s.clear.name = s.name ∧ s.clear.tol = s.tol ∧ s.clear.loc = s.loc :=
  ⟨rfl, rfl, rfl, rfl, rfl, rfl, rfl, rfl⟩

/-! ### XML -/

theorem absorb_mode (num : Text → Rat) (x : Section) (s : Sel α) (h : s.mode = 0 ∨ s.mode = 1) :
    (s.absorbBase num x).mode = 0 ∨ (s.absorbBase num x).mode = 1 := by
  have : (s.absorbBase num x).mode = (match x "SelectType" with
    | none => s.mode
    | some t => if trim t = [] then 0 else if readBool (trim t) then 1 else 0) := by
    unfold Sel.absorbBase
    cases x "SelectType" <;> cases x "FieldName" <;> cases x "Tolerance" <;> simp only <;> (try split) <;> rfl
  rw [this]
  split
  · exact h
  · split
    · exact .inl rfl
    · split
      · exact .inr rfl
      · exact .inl rfl

/-- C148: no XML section makes a block that maps: the mode that comes out is by geometry or by name. -/
theorem C148_never_mapping (num : Text → Rat) (x : Section) (s : Sel α) (h : Sel.fromXml num x = some s) : s.mode = 0 ∨ s.mode = 1 := by
  have key : ∀ s0 s' : Sel α, s0.mode = 1 → s0.absorb num x = some s' → s'.mode = 0 ∨ s'.mode = 1 := by
    intro s0 s' h0 h'
    unfold Sel.absorb at h'
    split at h'
    · obtain rfl := Option.some.inj h'; exact absorb_mode num x s0 (.inr h0)
    · split at h'
      · obtain rfl := Option.some.inj h'; exact absorb_mode num x s0 (.inr h0)
      · simp at h'
  unfold Sel.fromXml at h
  split at h
  · exact key _ _ rfl h
  · split at h
    · simp at h
    · exact key _ _ rfl h

/-- C148: a section whose location is neither points, cells nor interfaces cannot be loaded: an exception leaves the constructor. -/
theorem C148_location (num : Text → Rat) (x : Section) (t : Text) (hx : x "DataLocation" = some t)
    (ht : trim t = [] ∨ (readInt (trim t) ≠ 1 ∧ readInt (trim t) ≠ 2 ∧ readInt (trim t) ≠ 3)) :
    (Sel.fromXml num x : Option (Sel α)) = none := by
  unfold Sel.fromXml
  rw [hx]
  simp only
  rcases ht with ht | ⟨h1, h2, h3⟩
  · rw [if_pos ht]
  · split
    · rfl
    · unfold Sel.absorb
      rw [hx]
      simp only
      rw [if_neg]
      rintro ⟨-, h⟩
      rw [locOf, if_neg h2, if_neg h3] at h
      exact h1 h

theorem readBool_toText (n : Nat) : readBool (trim (toText n)) = (n != 0) := by
  obtain ⟨h1, h2, -⟩ := toText_spec n
  rw [trim_clean (fun c hc => (h2 c hc).2)]
  unfold readBool
  rw [dropWhile_none (fun c hc => (h2 c hc).2)]
  have : (toText n).takeWhile isDigit = toText n := by
    have h3 : ∀ c ∈ toText n, isDigit c = true := fun c hc => (h2 c hc).1
    generalize toText n = l at h3
    induction l with
    | nil => rfl
    | cons a l ih => rw [takeWhile_cons_of_pos (h3 a (by simp)), ih (fun c hc => h3 c (by simp [hc]))]
  simp only [this, h1]

theorem trim_toText_ne (n : Nat) : trim (toText n) ≠ [] := by
  obtain ⟨-, h2, h3⟩ := toText_spec n
  rw [trim_clean (fun c hc => (h2 c hc).2)]
  exact h3

/-- C148, round trip, partial: a block built from the section that another wrote has its location, its name (trimmed; the default one when
nothing is left) and its mode, if that is not mapping.  Full statement: for any mode; `C148_mapping_fails`. -/
theorem C148_round_trip_partial (num : Text → Rat) (dec : Rat → Text) (s : Sel α) (hl : s.loc ≠ .undefined) (hm : s.mode = 0 ∨ s.mode = 1) :
    (Sel.fromXml num (s.flush dec (fun _ => none)) : Option (Sel α)) =
      some { (Sel.new s.loc : Sel α) with mode := s.mode
                                          name := if trim s.name = [] then ['d', 'a', 't', 'a'] else trim s.name } := by
  have hm2 : s.mode ≠ 2 := by rcases hm with h | h <;> rw [h] <;> decide
  have hx1 : (s.flush dec (fun _ => none)) "DataLocation" = some (toText (locCode s.loc)) := by
    simp [Sel.flush, Section.set, hm2]
  have hx2 : (s.flush dec (fun _ => none)) "SelectType" = some (toText s.mode.toNat) := by
    simp [Sel.flush, Section.set, hm2]
  have hx3 : (s.flush dec (fun _ => none)) "FieldName" = some s.name := by
    simp [Sel.flush, Section.set]
  have hx4 : (s.flush dec (fun _ => none)) "Tolerance" = none := by
    simp [Sel.flush, Section.set, hm2]
  have hr : readInt (trim (toText (locCode s.loc))) = locCode s.loc := by
    rw [readInt_toText]
    cases s.loc <;> decide
  have hlo : locOf (locCode s.loc) = s.loc := by
    cases h : s.loc with
    | undefined => exact absurd h hl
    | _ => rfl
  have hn : (Sel.new s.loc : Sel α).loc = s.loc := by simp [Sel.new, hl]
  have hmode : (if trim (toText s.mode.toNat) = [] then (0 : Int) else if readBool (trim (toText s.mode.toNat)) = true then 1 else 0) =
      s.mode := by
    rw [if_neg (trim_toText_ne _), readBool_toText]
    rcases hm with h | h <;> rw [h] <;> decide
  unfold Sel.fromXml Sel.absorb
  simp only [hx1, if_neg (trim_toText_ne _), hr, hlo, hn]
  rw [if_pos ⟨trim_toText_ne _, trivial⟩]
  unfold Sel.absorbBase
  simp only [hx2, hx3, hx4, hmode]
  split <;> simp [Sel.setMode, Sel.setFieldName, Sel.new, hl]

/-- C148: a block that maps writes a section which gives a block that selects by name, and not by mapping. -/
theorem C148_mapping_fails (num : Text → Rat) (dec : Rat → Text) (s : Sel α) (hl : s.loc ≠ .undefined) (hm : s.mode = 2) :
    ∃ r : Sel α, Sel.fromXml num (s.flush dec (fun _ => none)) = some r ∧ r.mode = 1 := by
  have hx1 : (s.flush dec (fun _ => none)) "DataLocation" = some (toText (locCode s.loc)) := by
    simp [Sel.flush, Section.set, hm]
  have hx2 : (s.flush dec (fun _ => none)) "SelectType" = some (toText 2) := by
    simp [Sel.flush, Section.set, hm]
  have hr : readInt (trim (toText (locCode s.loc))) = locCode s.loc := by
    rw [readInt_toText]
    cases s.loc <;> decide
  have hlo : locOf (locCode s.loc) = s.loc := by
    cases h : s.loc with
    | undefined => exact absurd h hl
    | _ => rfl
  have hn : (Sel.new s.loc : Sel α).loc = s.loc := by simp [Sel.new, hl]
  refine ⟨Sel.absorbBase num (s.flush dec (fun _ => none)) (Sel.new s.loc), ?_, ?_⟩
  · unfold Sel.fromXml Sel.absorb
    simp only [hx1, if_neg (trim_toText_ne _), hr, hlo, hn]
    rw [if_pos ⟨trim_toText_ne _, trivial⟩]
  · unfold Sel.absorbBase
    have h2 : ((2 : Nat) != 0) = true := rfl
    simp only [hx2, if_neg (trim_toText_ne _), readBool_toText, h2, if_true]
    cases (s.flush dec (fun _ => none)) "FieldName" <;> cases (s.flush dec (fun _ => none)) "Tolerance" <;> simp only <;> (try split) <;> rfl

/-! concrete cases -/

example : ∃ s : Sel Rat, [Call.fields [some rCells, none, some { rCells with loc := .point }], .field (some rCells'), .tol (-1), .geo (some 1),
    .mode 2, .run].foldlM (Call.apply nearWorld (.mean ratArith)) (Sel.new .cell) = some s ∧ s.fields.length = 2 ∧
    s.result.data = [(1, 16), (5, 30)] :=
  ⟨_, rfl, by decide +kernel, by decide +kernel⟩

example : ({ picker with mode := 1, name := ['c'] } : Sel Rat).loc ≠ .undefined ∧ picker.mode = 2 := ⟨by decide, rfl⟩

example : (Section.set (fun _ => none) "DataLocation" ['0']) "DataLocation" = some ['0'] ∧ readInt (trim ['0']) = 0 := ⟨rfl, by decide⟩

end Verif.Recon
