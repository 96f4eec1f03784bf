import Verif.Create.CurveMeshProps
import Verif.Xml.Props
/-
C146: the settings of a curve in XML (src/iogeneric/Create3DCurve.cpp:277-319)
-/
namespace Verif.Create
open Verif.Xml
open List hiding get get_of_mem

noncomputable section

/-- least `int` -/
def INT_MIN : Int := -2147483648

/-- `stringstream >> int` with a sign: the run of digits after the sign, 0 when there is none, the nearest `int` on overflow -/
def readSigned (t : Text) : Int :=
  match t.dropWhile blank with
  | '-' :: u => max (-(digitsVal (u.takeWhile isDigit) : Int)) INT_MIN
  | '+' :: u => min (digitsVal (u.takeWhile isDigit)) INT_MAX
  | u => min (digitsVal (u.takeWhile isDigit)) INT_MAX

/-- `std::to_string` of an `int` -/
def intText (n : Int) : Text := if n < 0 then '-' :: toText n.natAbs else toText n.toNat

/-- `absorbSectionXML`, src/iogeneric/Create3DCurve.cpp:277-305 (without the base class) -/
def Curve.absorb (x : Section) (c : Curve) : Curve :=
  let c := match x "ClosedLoop" with
    | none => c
    | some t => c.setClosedLoop (if t = [] then false else readBool (trim t))
  match x "nCells" with
  | none => c
  | some t => c.setNCells (if t = [] then 0 else readSigned (trim t))

/-- `flushSectionXML`, src/iogeneric/Create3DCurve.cpp:312-320 (without the base class) -/
def Curve.flush (c : Curve) (x : Section) : Section :=
  (x.set "ClosedLoop" (intText (if c.closed then 1 else 0))).set "nCells" (intText c.nCells)

theorem takeWhile_digits {t : Text} (h : ∀ z ∈ t, isDigit z = true) : t.takeWhile isDigit = t := by
  induction t with
  | nil => rfl
  | cons a t ih => rw [takeWhile_cons, h a mem_cons_self, if_pos rfl, ih fun z hz => h z (mem_cons_of_mem _ hz)]

theorem readSigned_intText {n : Int} (h1 : INT_MIN ≤ n) (h2 : n ≤ INT_MAX) : trim (intText n) = intText n ∧ readSigned (intText n) = n := by
  unfold intText
  split
  · rename_i hn
    obtain ⟨d1, d2, d3⟩ := toText_spec n.natAbs
    have hb : ∀ z ∈ '-' :: toText n.natAbs, blank z = false := by
      intro z hz
      rcases mem_cons.1 hz with rfl | hz
      · decide
      · exact (d2 z hz).2
    refine ⟨trim_clean hb, ?_⟩
    unfold readSigned
    rw [dropWhile_none hb]
    simp only
    rw [takeWhile_digits fun z hz => (d2 z hz).1, d1]
    omega
  · rename_i hn
    obtain ⟨d1, d2, d3⟩ := toText_spec n.toNat
    have hb : ∀ z ∈ toText n.toNat, blank z = false := fun z hz => (d2 z hz).2
    refine ⟨trim_clean hb, ?_⟩
    unfold readSigned
    rw [dropWhile_none hb]
    split
    · rename_i u hu
      have := (d2 '-' (by rw [hu]; simp)).1
      exact absurd this (by decide)
    · rename_i u hu
      have := (d2 '+' (by rw [hu]; simp)).1
      exact absurd this (by decide)
    · rw [takeWhile_digits fun z hz => (d2 z hz).1, d1]
      omega

theorem intText_ne (n : Int) : intText n ≠ [] := by
  unfold intText
  split
  · simp
  · exact (toText_spec n.toNat).2.2

/-- **C146**: an option that is missing leaves its setting as it was; each decides its own setting only; a text that is not a number is 0, or
false -/
theorem C146_absorb (x : Section) (c : Curve) :
    (x "ClosedLoop" = none → (c.absorb x).closed = c.closed) ∧
    (∀ t, x "ClosedLoop" = some t → (c.absorb x).closed = readBool (trim t)) ∧
    (x "nCells" = none → (c.absorb x).nCells = c.nCells) ∧
    (∀ t, x "nCells" = some t → (c.absorb x).nCells = readSigned (trim t)) ∧
    (c.absorb x).raw = c.raw ∧ (c.absorb x).result = c.result ∧ (c.absorb x).scalarOut = c.scalarOut ∧ (c.absorb x).vectorOut = c.vectorOut := by
  have h1 : readBool (trim []) = false := by decide
  have h2 : readSigned (trim []) = 0 := by decide
  unfold Curve.absorb Curve.setClosedLoop Curve.setNCells
  refine ⟨?_, ?_, ?_, ?_, ?_, ?_, ?_, ?_⟩
  · intro h; rw [h]; cases x "nCells" <;> rfl
  · intro t h
    rw [h]
    by_cases ht : t = []
    · subst ht; rw [h1]; cases x "nCells" <;> rfl
    · cases x "nCells" <;> simp [ht]
  · intro h; rw [h]; cases x "ClosedLoop" <;> rfl
  · intro t h
    rw [h]
    by_cases ht : t = []
    · subst ht; rw [h2]; cases x "ClosedLoop" <;> rfl
    · cases x "ClosedLoop" <;> simp [ht]
  all_goals cases x "ClosedLoop" <;> cases x "nCells" <;> rfl

/-- **C146**: whatever was in the section, the settings written are read back by any block -/
theorem C146_round_trip (c d : Curve) (x : Section) (h1 : INT_MIN ≤ c.nCells) (h2 : c.nCells ≤ INT_MAX) :
    (d.absorb (c.flush x)).closed = c.closed ∧ (d.absorb (c.flush x)).nCells = c.nCells := by
  obtain ⟨-, a2, -, a4, -⟩ := C146_absorb (c.flush x) d
  have e1 : c.flush x "ClosedLoop" = some (intText (if c.closed then 1 else 0)) := by simp [Curve.flush, Section.set]
  have e2 : c.flush x "nCells" = some (intText c.nCells) := by simp [Curve.flush, Section.set]
  refine ⟨?_, ?_⟩
  · rw [a2 _ e1]
    have z0 : intText 0 = ['0'] := by unfold intText; rw [if_neg (by omega)]; show toText 0 = _; rw [toText]; decide
    have z1 : intText 1 = ['1'] := by unfold intText; rw [if_neg (by omega)]; show toText 1 = _; rw [toText]; decide
    cases c.closed with
    | false => rw [if_neg (by simp), z0]; decide
    | true => rw [if_pos rfl, z1]; decide
  · rw [a4 _ e2]
    obtain ⟨t1, t2⟩ := readSigned_intText h1 h2
    rw [t1, t2]

/-- the settings of a closed curve of 40 lines, read back -/
example : INT_MIN ≤ ({ closed := true, nCells := 40 } : Curve).nCells ∧ ({ closed := true, nCells := 40 } : Curve).nCells ≤ INT_MAX ∧
    readSigned [' ', '-', '4', '0', 'x'] = -40 := by
  refine ⟨by decide, by decide, by decide⟩

end
end Verif.Create
