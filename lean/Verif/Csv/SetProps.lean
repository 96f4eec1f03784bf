import Verif.Csv.FieldProps
import Verif.Io.DisplsSetProps
/-
C169: blocks that read and write generic data.
-/
namespace Verif.Csv
open Verif.Xml Verif.Create Verif.Io Verif.Field
open List hiding get get_of_mem

variable {α τ : Type}

/-- **C169** (partial): the value that was given last, by `setInput` or `setResult`, is the value of the block; a file that does not exist is
refused.  Full statement: and without a value and a file the call is refused (`C169_unset_fails`) -/
theorem C169_value_partial (rd : Bool → Text → Res τ) (fs : Files) (b : Input τ) (x : τ) :
    (b.fromFile = false → (∃ b', (b.setInput x).getResult rd fs = .done (x, b')) ∧ (∃ b', (b.setResult x).getResult rd fs = .done (x, b'))) ∧
    (b.fromFile = true → fs (b.dir ++ '/' :: b.file) = none → b.getResult rd fs = .thrown) := by
  constructor
  · intro h
    unfold Input.getResult Input.setInput Input.setResult
    simp [h]
  · intro h1 h2
    unfold Input.getResult
    rw [if_pos h1, h2]

/-- **C169**: asked for its value a block without a value uses a null pointer; that is the state of a new block, of a copy of any block that does
not read a file and of a cleared block -/
theorem C169_unset_fails (rd : Bool → Text → Res τ) (fs : Files) (b : Input τ) (h : b.fromFile = false) :
    ({} : Input τ).getResult rd fs = .undefined ∧ b.copy.getResult rd fs = .undefined ∧ b.clearResult.getResult rd fs = .undefined := by
  refine ⟨rfl, ?_, ?_⟩
  · unfold Input.getResult Input.copy; simp [h]
  · unfold Input.getResult Input.clearResult; simp [h]

/-- **C169**: after `clearInput` the block still gives the value that was cleared -/
theorem C169_clear_fails (rd : Bool → Text → Res τ) (fs : Files) (b : Input τ) (x : τ) (h : b.fromFile = false) :
    (b.setInput x).clearInput.input = none ∧ ∃ b', (b.setInput x).clearInput.getResult rd fs = .done (x, b') := by
  refine ⟨rfl, ?_⟩
  unfold Input.getResult Input.setInput Input.clearInput
  simp [h]

/-- **C169**: what one block wrote is what another block with the same directory, file and mode reads; other files are not touched -/
theorem C169_same_file (rd : Bool → Text → Res τ) (wr : Bool → τ → Text) (fs : Files) (o : Output τ) (i : Input τ) (hd : i.dir = o.dir)
    (hf : i.file = o.file) (hc : i.csv = o.csv) (hr : i.fromFile = true) {x y : τ} (h : rd o.csv (wr o.csv x) = .done y) :
    (∃ i', i.getResult rd (o.setInput wr fs x).2 = .done (y, i') ∧ i'.result = some y ∧ i'.dir = i.dir ∧ i'.file = i.file ∧ i'.csv = i.csv ∧ i'.fromFile = true) ∧
    (o.setInput wr fs x).1.input = some x ∧ ∀ p, p ≠ o.dir ++ '/' :: o.file → (o.setInput wr fs x).2 p = fs p := by
  refine ⟨?_, rfl, ?_⟩
  · unfold Input.getResult Output.setInput
    simp [hr, hd, hf, Files.put, hc, h, Res.bind]
  · intro p hp
    unfold Output.setInput
    simp [Files.put, hp]

/-- how numbers are read and written, by mode, src/iogeneric/GenericInput.tpp:333-339, src/iogeneric/GenericOutput.tpp:179-185 -/
def readOne (S : Scal τ) (csv : Bool) (t : Text) : Res τ := if csv then csvOne (scalE S) t else plainOne S t
def writeOne (S : Scal τ) (csv : Bool) (x : τ) : Text := if csv then (scalE S).putMid x else S.put x

/-- **C169**: a number is read from the file it was written to, in both modes -/
theorem C169_number {S : Scal τ} (fs : Files) (o : Output τ) (i : Input τ) (hd : i.dir = o.dir) (hf : i.file = o.file) (hc : i.csv = o.csv)
    (hr : i.fromFile = true) {x y : τ} (h : Reads S x y) : ∃ i', i.getResult (readOne S) (o.setInput (writeOne S) fs x).2 = .done (y, i') := by
  obtain ⟨h1, h2⟩ := C167_number h
  obtain ⟨⟨i', e, -⟩, -⟩ := C169_same_file (readOne S) (writeOne S) fs o i hd hf hc hr (x := x) (y := y) (by
    unfold readOne writeOne
    cases o.csv
    · exact h2
    · exact h1)
  exact ⟨i', e⟩

/-! ### Sections -/

/-- what a text says as a truth value: `0` or `1`, false if it is blank -/
theorem flag_text (b : Bool) : flagOption (toText b.toNat) = b := by
  unfold flagOption
  rw [if_neg (Verif.Recon.trim_toText_ne _), Verif.Recon.readBool_toText]
  cases b <;> rfl

/-- the option, or what was there -/
def optFlag (x : Section) (k : String) (d : Bool) : Bool := match x k with | none => d | some t => flagOption t
def optText (x : Section) (k : String) (d : Text) : Text := match x k with | none => d | some t => trim t

/-- **C169**: what the blocks take from a section: every option that is there, and nothing else changes; the directory and file of an
input only if it reads a file -/
theorem C169_absorb (x : Section) (b : Input τ) (o : Output τ) (mi : MInput α) (mo : MOutput α) :
    b.absorb x = { b with
      fromFile := optFlag x "ReadFromFile" b.fromFile, csv := optFlag x "CSV" b.csv
      file := if optFlag x "ReadFromFile" b.fromFile then optText x "Filename" b.file else b.file
      dir := if optFlag x "ReadFromFile" b.fromFile then optText x "ReadDir" b.dir else b.dir } ∧
    o.absorb x = { o with file := optText x "Filename" o.file, dir := optText x "WriteDir" o.dir, csv := optFlag x "CSV" o.csv } ∧
    mi.absorb x = { mi with
      csv := optFlag x "CSV" mi.csv, file := optText x "Filename" mi.file, dir := optText x "ReadDir" mi.dir, binary := optFlag x "Binary" mi.binary } ∧
    mo.absorb x = { mo with
      file := optText x "Filename" mo.file, dir := optText x "WriteDir" mo.dir, csv := optFlag x "CSV" mo.csv, binary := optFlag x "Binary" mo.binary } := by
  unfold optFlag optText
  refine ⟨?_, ?_, ?_, ?_⟩
  · unfold Input.absorb
    obtain ⟨f, c, d, fl, i, r⟩ := b
    cases x "ReadFromFile" <;> cases x "CSV" <;> cases x "Filename" <;> cases x "ReadDir" <;> simp <;> split <;> simp_all
  · unfold Output.absorb
    cases x "CSV" <;> cases x "Filename" <;> cases x "WriteDir" <;> rfl
  · unfold MInput.absorb
    cases x "CSV" <;> cases x "Filename" <;> cases x "ReadDir" <;> cases x "Binary" <;> rfl
  · unfold MOutput.absorb
    cases x "CSV" <;> cases x "Filename" <;> cases x "WriteDir" <;> cases x "Binary" <;> rfl

theorem in_back (x : Section) (b b0 : Input τ) (hd : trim b.dir = b.dir) (hf : trim b.file = b.file) :
    b0.absorb (b.flush x) = { b0 with fromFile := b.fromFile, csv := b.csv, file := if b.fromFile then b.file else b0.file, dir := if b.fromFile then b.dir else b0.dir } := by
  have e1 : b.flush x "ReadFromFile" = some (toText b.fromFile.toNat) := by unfold Input.flush; simp [Section.set]
  have e2 : b.flush x "CSV" = some (toText b.csv.toNat) := by unfold Input.flush; simp [Section.set]
  have e4 : b.flush x "Filename" = some b.file := by unfold Input.flush; simp [Section.set]
  have e3 : b.flush x "ReadDir" = some b.dir := by unfold Input.flush; simp [Section.set]
  rw [(C169_absorb (τ := τ) (α := τ) (b.flush x) b0 {} {} {}).1]
  unfold optFlag optText
  simp only [e1, e2, e4, e3, flag_text, hd, hf]

theorem out_back (x : Section) (b b0 : Output τ) (hd : trim b.dir = b.dir) (hf : trim b.file = b.file) :
    b0.absorb (b.flush x) = { b0 with csv := b.csv, file := b.file, dir := b.dir } := by
  have e2 : b.flush x "CSV" = some (toText b.csv.toNat) := by unfold Output.flush; simp [Section.set]
  have e4 : b.flush x "Filename" = some b.file := by unfold Output.flush; simp [Section.set]
  have e3 : b.flush x "WriteDir" = some b.dir := by unfold Output.flush; simp [Section.set]
  rw [(C169_absorb (τ := τ) (α := τ) (b.flush x) {} b0 {} {}).2.1]
  unfold optFlag optText
  simp only [e2, e4, e3, flag_text, hd, hf]

theorem min_back (x : Section) (b b0 : MInput τ) (hd : trim b.dir = b.dir) (hf : trim b.file = b.file) :
    b0.absorb (b.flush x) = { b0 with csv := b.csv, file := b.file, dir := b.dir, binary := b.binary } := by
  have e1 : b.flush x "Binary" = some (toText b.binary.toNat) := by unfold MInput.flush; simp [Section.set]
  have e2 : b.flush x "CSV" = some (toText b.csv.toNat) := by unfold MInput.flush; simp [Section.set]
  have e4 : b.flush x "Filename" = some b.file := by unfold MInput.flush; simp [Section.set]
  have e3 : b.flush x "ReadDir" = some b.dir := by unfold MInput.flush; simp [Section.set]
  rw [(C169_absorb (τ := τ) (α := τ) (b.flush x) {} {} b0 {}).2.2.1]
  unfold optFlag optText
  simp only [e1, e2, e4, e3, flag_text, hd, hf]

theorem mout_back (x : Section) (b b0 : MOutput τ) (hd : trim b.dir = b.dir) (hf : trim b.file = b.file) :
    b0.absorb (b.flush x) = { b0 with csv := b.csv, file := b.file, dir := b.dir, binary := b.binary } := by
  have e1 : b.flush x "Binary" = some (toText b.binary.toNat) := by unfold MOutput.flush; simp [Section.set]
  have e2 : b.flush x "CSV" = some (toText b.csv.toNat) := by unfold MOutput.flush; simp [Section.set]
  have e4 : b.flush x "Filename" = some b.file := by unfold MOutput.flush; simp [Section.set]
  have e3 : b.flush x "WriteDir" = some b.dir := by unfold MOutput.flush; simp [Section.set]
  rw [(C169_absorb (τ := τ) (α := τ) (b.flush x) {} {} {} b0).2.2.2]
  unfold optFlag optText
  simp only [e1, e2, e4, e3, flag_text, hd, hf]

/-- **C169** (partial): a block built from the section that another wrote has its settings.  Full statement: also for the directory and file of
an input that does not read a file (`C169_section_fails`) -/
theorem C169_section_partial (x : Section) (b : Input τ) (o : Output τ) (mi : MInput α) (mo : MOutput α) :
    (x "ClassName" = some "mimmo.GenericInput".toList → trim b.dir = b.dir → trim b.file = b.file → b.fromFile = true →
      Input.fromXml (τ := τ) (b.flush x) = b.copy) ∧
    (x "ClassName" = some "mimmo.GenericOutput".toList → trim o.dir = o.dir → trim o.file = o.file → Output.fromXml (τ := τ) (o.flush x) = o.copy) ∧
    (x "ClassName" = some "mimmo.GenericInputMPVData".toList → trim mi.dir = mi.dir → trim mi.file = mi.file → mi.geo = none →
      MInput.fromXml (α := α) (mi.flush x) = mi.copy) ∧
    (x "ClassName" = some "mimmo.GenericOutputMPVData".toList → trim mo.dir = mo.dir → trim mo.file = mo.file →
      MOutput.fromXml (α := α) (mo.flush x) = mo.copy) := by
  refine ⟨?_, ?_, ?_, ?_⟩
  · intro hx hd hf hr
    have hc : b.flush x "ClassName" = some "mimmo.GenericInput".toList := by unfold Input.flush; rw [← hx]; rfl
    unfold Input.fromXml
    simp only
    rw [hc, Option.getD_some, if_pos (by decide +kernel), in_back x b _ hd hf, if_pos hr, if_pos hr]
    rfl
  · intro hx hd hf
    have hc : o.flush x "ClassName" = some "mimmo.GenericOutput".toList := by unfold Output.flush; rw [← hx]; rfl
    unfold Output.fromXml
    rw [hc, Option.getD_some, if_pos (by decide +kernel), out_back x o _ hd hf]
    rfl
  · intro hx hd hf hg
    have hc : mi.flush x "ClassName" = some "mimmo.GenericInputMPVData".toList := by unfold MInput.flush; rw [← hx]; rfl
    unfold MInput.fromXml
    simp only
    rw [hc, Option.getD_some, if_pos (by decide +kernel), min_back x mi _ hd hf]
    unfold MInput.copy
    rw [hg]
  · intro hx hd hf
    have hc : mo.flush x "ClassName" = some "mimmo.GenericOutputMPVData".toList := by unfold MOutput.flush; rw [← hx]; rfl
    unfold MOutput.fromXml
    rw [hc, Option.getD_some, if_pos (by decide +kernel), mout_back x mo _ hd hf]
    rfl

/-- **C169**: the directory and file of an input that does not read a file are written to a section but not taken from it -/
theorem C169_section_fails (x : Section) (b : Input τ) (hr : b.fromFile = false) :
    b.flush x "ReadDir" = some b.dir ∧ b.flush x "Filename" = some b.file ∧ (Input.fromXml (τ := τ) (b.flush x)).dir = "./".toList ∧
    (Input.fromXml (τ := τ) (b.flush x)).file = "input.txt".toList := by
  have e1 : b.flush x "ReadFromFile" = some (toText b.fromFile.toNat) := by unfold Input.flush; simp [Section.set]
  have k : ∀ b0 : Input τ, b0.absorb (b.flush x) = { b0 with fromFile := false, csv := optFlag (b.flush x) "CSV" b0.csv } := by
    intro b0
    rw [(C169_absorb (b.flush x) b0 ({} : Output τ) ({} : MInput τ) ({} : MOutput τ)).1]
    have : optFlag (b.flush x) "ReadFromFile" b0.fromFile = false := by unfold optFlag; simp only [e1, flag_text, hr]
    rw [this]
    rfl
  refine ⟨by unfold Input.flush; simp [Section.set], by unfold Input.flush; simp [Section.set], ?_, ?_⟩ <;>
  · unfold Input.fromXml
    simp only
    split
    · rw [k]
    · rfl

/-- a number is written and read -/
example : ∃ i', ({ fromFile := true, csv := true, dir := "d".toList, file := "f".toList } : Input Int).getResult (readOne intS)
    (({ dir := "d".toList, file := "f".toList, csv := true } : Output Int).setInput (writeOne intS) (fun _ => none) 42).2 = .done (42, i') :=
  C169_number _ _ _ rfl rfl rfl rfl ((C167_numbers demoFmt).2.1 42 (by decide) (by decide))

example : Input.fromXml (τ := Int) (({ fromFile := true, csv := true, dir := "d".toList, file := "f".toList } : Input Int).flush
    (Section.set (fun _ => none) "ClassName" "mimmo.GenericInput".toList)) = { fromFile := true, csv := true, dir := "d".toList, file := "f".toList } :=
  (C169_section_partial _ _ ({} : Output Int) ({} : MInput Int) ({} : MOutput Int)).1 (by decide +kernel) (by decide +kernel) (by decide +kernel) rfl

end Verif.Csv
