import Verif.Io.DisplsProps
import Verif.Recon.ChooseXml
/-
C164: labels, settings and XML section of the block that reads and writes lists of displacements.
-/
namespace Verif.Io
open Verif.Xml Verif.Create List

variable {D : Type}

theorem le_foldl_max : ∀ (l : List Int) (m : Int), m ≤ l.foldl max m ∧ ∀ x ∈ l, x ≤ l.foldl max m := by
  intro l
  induction l with
  | nil => intro m; exact ⟨Int.le_refl _, fun x hx => absurd hx (by simp)⟩
  | cons a l ih =>
    intro m
    rw [foldl_cons]
    obtain ⟨i1, i2⟩ := ih (max m a)
    refine ⟨by omega, fun x hx => ?_⟩
    rcases mem_cons.1 hx with rfl | hx
    · omega
    · exact i2 x hx

/-- **C164**: after writing there is one label for each displacement; those that were given are kept, in order, as far as there are
displacements; the others are positive, differ from each other and from every one that was given -/
theorem C164_labels (F : Fmt D) (fs : Files) (b : Displs D) (hb : b.read = false) :
    ∃ b' fs' more, b.execute F fs = .done (b', fs') ∧ b'.displ = b.displ ∧ b'.n = b.n ∧ b'.labels.length = b.displ.length ∧
      b'.labels = b.labels.take b.displ.length ++ more ∧ more.Nodup ∧ ∀ l ∈ more, 0 < l ∧ l ∉ b.labels := by
  refine ⟨(b.save F fs).1, (b.save F fs).2,
    (range (b.displ.length - b.labels.length)).map (fun i : Nat => b.labels.foldl max 0 + 1 + (i : Int)),
    by unfold Displs.execute; rw [if_neg (by simp [hb])], rfl, rfl, fit_length _ _, more_labels _ _ _, ?_, ?_⟩
  · refine (nodup_range).map ?_
    intro a b h
    simp only at h
    omega
  · intro l hl
    obtain ⟨i, -, rfl⟩ := mem_map.1 hl
    obtain ⟨h1, h2⟩ := le_foldl_max b.labels 0
    refine ⟨by omega, fun hm => ?_⟩
    have := h2 _ hm
    omega

/-- **C164**: labels that were given twice are written twice: labels in the file need not be unique -/
theorem C164_unique_fails (F : Fmt D) (fs : Files) (b : Displs D) (hb : b.read = false) (hd : ¬ (b.labels.take b.displ.length).Nodup) :
    ∃ b' fs', b.execute F fs = .done (b', fs') ∧ ¬ b'.labels.Nodup := by
  obtain ⟨b', fs', more, e, -, -, -, hl, -⟩ := C164_labels F fs b hb
  exact ⟨b', fs', e, fun h => hd (by rw [hl] at h; exact (nodup_append.1 h).1)⟩

/-- **C164**: the number of displacements is changed although displacements or labels are available, and it has no effect on the file -/
theorem C164_count_fails (F : Fmt D) (fs : Files) (b : Displs D) (hb : b.read = false) (k : Int) :
    (b.setN k).n = k ∧
    ∃ b1 b2 fs', b.execute F fs = .done (b1, fs') ∧ (b.setN k).execute F fs = .done (b2, fs') ∧ b2.displ = b.displ ∧
      b2.labels.length = b.displ.length := by
  unfold Displs.setN
  rw [if_neg (by simp [hb])]
  refine ⟨rfl, (b.save F fs).1, (Displs.save F fs { b with n := k }).1, (b.save F fs).2, ?_, ?_, rfl, fit_length _ _⟩
  · unfold Displs.execute; rw [if_neg (by simp [hb])]
  · unfold Displs.execute; rw [if_neg (by simp [hb])]; rfl

/-- **C164**: writing changes one file only, and it is the same one whether the block writes values or a template: a template written
where values are kept takes their place -/
theorem C164_file (F : Fmt D) (fs : Files) (b : Displs D) (hb : b.read = false) :
    ∃ b' fs', b.execute F fs = .done (b', fs') ∧ (∀ q, q ≠ b.dir ++ '/' :: b.file → fs' q = fs q) ∧ (fs' (b.dir ++ '/' :: b.file)).isSome := by
  refine ⟨(b.save F fs).1, (b.save F fs).2, by unfold Displs.execute; rw [if_neg (by simp [hb])], ?_, ?_⟩
  · intro q hq
    show (Files.put fs b.path _) q = _
    unfold Files.put Displs.path
    rw [if_neg hq]
  · show ((Files.put fs b.path _) _).isSome = _
    unfold Files.put Displs.path
    rw [if_pos rfl]
    rfl

theorem C164_template_name_fails (F : Fmt D) (hv : F.val [] = (F.zero, true)) (fs : Files) (b r : Displs D) (hb : b.read = false) (hr : r.read = true)
    (ht : b.template = true) (hd : r.dir = b.dir) (hn : r.file = b.file)
    (hl : ∀ l ∈ fitLabels b.labels b.displ.length, LONG_MIN ≤ l ∧ l ≤ LONG_MAX) :
    ∃ b' fs' r', b.execute F fs = .done (b', fs') ∧ r.execute F fs' = .done (r', fs') ∧ r'.displ = replicate b.displ.length (F.zero, F.zero, F.zero) ∧
      fs' (b.dir ++ '/' :: ("TEMPLATE_".toList ++ b.file)) = fs (b.dir ++ '/' :: ("TEMPLATE_".toList ++ b.file)) := by
  obtain ⟨b', fs', e1, e2⟩ := C163_template_fails F hv fs b r hb hr ht hd hn hl
  obtain ⟨b'', fs'', e3, e4, -⟩ := C164_file F fs b hb
  rw [e1] at e3
  injection e3 with e3
  cases e3
  refine ⟨_, _, _, e1, e2, rfl, e4 _ ?_⟩
  intro h
  have := congrArg List.length h
  simp at this
  omega

/-- **C164**: the methods of one mode do nothing in the other -/
theorem C164_modes (b : Displs D) (t : Text) (k : Int) (l : List Int) (ps : List (P3 D)) (f : Bool) :
    (b.read = true → b.setWriteDir t = b ∧ b.setWriteFile t = b ∧ b.setN k = b ∧ b.setLabels l = b ∧ b.setDispl ps = b ∧ b.setTemplate f = b ∧
      b.setReadDir t = { b with dir := t } ∧ b.setReadFile t = { b with file := t }) ∧
    (b.read = false → b.setReadDir t = b ∧ b.setReadFile t = b ∧ b.setWriteDir t = { b with dir := t } ∧ b.setWriteFile t = { b with file := t } ∧
      b.setTemplate f = { b with template := f } ∧ b.setDispl ps = { b with displ := ps, n := ps.length } ∧
      b.setLabels l = { b with labels := l, n := if b.displ = [] then (l.length : Int) else b.n }) := by
  refine ⟨fun h => ?_, fun h => ?_⟩
  · simp [Displs.setWriteDir, Displs.setWriteFile, Displs.setN, Displs.setLabels, Displs.setDispl, Displs.setTemplate, Displs.setReadDir,
      Displs.setReadFile, h]
  · refine ⟨?_, ?_, ?_, ?_, ?_, ?_, ?_⟩
    · simp [Displs.setReadDir, h]
    · simp [Displs.setReadFile, h]
    · simp [Displs.setWriteDir, h]
    · simp [Displs.setWriteFile, h]
    · simp [Displs.setTemplate, h]
    · simp [Displs.setDispl, h]
    · cases hd : b.displ <;> simp [Displs.setLabels, Displs.setN, h, hd]

/-- **C164**: `clear` removes the data and the name of the file but leaves the directory and the mode; a copy has all settings and data -/
theorem C164_clear (b : Displs D) :
    b.clear = { ({ read := b.read } : Displs D) with dir := b.dir } ∧ b.copy = b := ⟨rfl, rfl⟩

/-- **C164**: the options of a section: the mode must agree with that of the block; each option sets what it names -/
theorem C164_absorb (x : Section) (b : Displs D) :
    (∀ t, x "IOmode" = some t → (if t = [] then true else readBool (trim t)) ≠ b.read → b.absorb x = .thrown) ∧
    ((∀ t, x "IOmode" = some t → (if t = [] then true else readBool (trim t)) = b.read) → ∃ b', b.absorb x = .done b' ∧
      b'.read = b.read ∧ b'.displ = b.displ ∧ b'.labels = b.labels ∧
      b'.dir = ((x (if b.read then "ReadDir" else "WriteDir")).map trim).getD b.dir ∧
      b'.file = ((x (if b.read then "ReadFilename" else "WriteFilename")).map trim).getD b.file ∧
      b'.n = (if b.read then b.n else ((x "NDispl").map (fun t => readSigned (trim t))).getD b.n) ∧
      b'.template = (if b.read then b.template else ((x "Template").map (fun t => readBool (trim t))).getD b.template)) := by
  have z1 : readSigned [] = 0 := by decide
  have z2 : readBool [] = false := by decide
  have hn : ∀ t, (if trim t = [] then 0 else readSigned (trim t)) = readSigned (trim t) := by
    intro t; split
    · rename_i h; rw [h, z1]
    · rfl
  have hf : ∀ t, flagOption t = readBool (trim t) := by
    intro t; unfold flagOption; split
    · rename_i h; rw [h, z2]
    · rfl
  refine ⟨?_, ?_⟩
  · intro t ht hm
    unfold Displs.absorb
    rw [ht, if_pos]
    exact hm
  · intro hm
    have hm' : (match x "IOmode" with | none => b.read | some t => modeOption t) = b.read := by
      cases h : x "IOmode" with
      | none => rfl
      | some t => exact hm t h
    unfold Displs.absorb
    rw [if_neg (fun h => h hm')]
    refine ⟨_, rfl, ?_⟩
    simp only [hf]
    cases hr : b.read
    · cases h1 : x "WriteDir" <;> cases h2 : x "WriteFilename" <;> cases h3 : x "NDispl" <;> cases h4 : x "Template" <;>
        simp [Displs.setWriteDir, Displs.setWriteFile, Displs.setN, Displs.setTemplate, hr, hn, h1, h2]
    · cases h1 : x "ReadDir" <;> cases h2 : x "ReadFilename" <;> cases h3 : x "NDispl" <;> cases h4 : x "Template" <;>
        simp [Displs.setReadDir, Displs.setReadFile, Displs.setN, Displs.setTemplate, hr, hn, h1, h2]

theorem flag_zero : intText 0 = ['0'] := by unfold intText; rw [if_neg (by omega)]; show toText 0 = _; rw [toText]; decide
theorem flag_one : toText 1 = ['1'] := by rw [toText]; decide
theorem flag_none : toText 0 = ['0'] := by rw [toText]; decide

/-- **C164**: a block built from the section that another wrote has its settings; in write mode also the number and the template flag -/
theorem C164_round_trip (b : Displs D) (x : Section) (hc : x "ClassName" = some "mimmo.GenericDispls".toList)
    (hd : trim b.dir = b.dir) (hf : trim b.file = b.file) (h1 : INT_MIN ≤ b.n) (h2 : b.n ≤ INT_MAX) :
    ∃ b', Displs.fromXml (D := D) (b.flush x) = .done b' ∧ b'.read = b.read ∧ b'.dir = b.dir ∧ b'.file = b.file ∧ b'.displ = [] ∧ b'.labels = [] ∧
      (b.read = false → b'.n = b.n ∧ b'.template = b.template) := by
  have hmode : b.flush x "IOmode" = some (toText b.read.toNat) := by
    unfold Displs.flush; cases b.read <;> simp [Section.set]
  have hclass : b.flush x "ClassName" = some "mimmo.GenericDispls".toList := by
    unfold Displs.flush; cases b.read <;> simp [Section.set, hc]
  have hread : (readSigned (trim ((b.flush x "IOmode").getD ['1'])) != 0) = b.read := by
    rw [hmode]
    cases b.read
    · show (readSigned (trim (toText 0)) != 0) = _; rw [flag_none]; decide
    · show (readSigned (trim (toText 1)) != 0) = _; rw [flag_one]; decide
  unfold Displs.fromXml
  simp only
  rw [hread, hclass, Option.getD_some, if_pos (by decide)]
  obtain ⟨-, key⟩ := C164_absorb (b.flush x) ({ read := b.read } : Displs D)
  obtain ⟨b', e, e1, e2, e3, e4, e5, e6, e7⟩ := key (by
    intro t ht
    rw [hmode] at ht
    injection ht with ht
    subst ht
    rw [if_neg (toText_spec _).2.2, Verif.Recon.readBool_toText]
    cases b.read <;> rfl)
  refine ⟨b', e, e1, ?_, ?_, e2, e3, ?_⟩
  · rw [e4]
    unfold Displs.flush
    cases hr : b.read <;> simp [Section.set, hd]
  · rw [e5]
    unfold Displs.flush
    cases hr : b.read <;> simp [Section.set, hf]
  · intro hr
    obtain ⟨t1, t2⟩ := readSigned_intText h1 h2
    refine ⟨?_, ?_⟩
    · rw [e6]
      unfold Displs.flush
      simp [hr, Section.set, t1, t2]
    · rw [e7]
      unfold Displs.flush
      simp only [hr, Section.set]
      simp [Verif.Recon.readBool_toText]

/-- **C164**: an empty mode is taken as writing by the constructor and as reading by the rest: the block cannot be built -/
theorem C164_empty_mode_fails (x : Section) (hc : x "ClassName" = some "mimmo.GenericDispls".toList) (hm : x "IOmode" = some []) :
    Displs.fromXml (D := D) x = .thrown := by
  unfold Displs.fromXml
  simp only
  rw [hc, hm, Option.getD_some, if_pos (by decide)]
  exact (C164_absorb x _).1 [] hm (by show true ≠ (readSigned (trim []) != 0); decide)

/-! ### Examples -/

/-- C164: three displacements, one label -/
example : ∃ b' fs', Displs.execute demoFmt (fun _ => none) { read := false, displ := [(1, 2, 3), (4, 5, 6), (7, 8, 9)], labels := [5] } = .done (b', fs') ∧
    b'.labels = [5, 6, 7] := ⟨_, _, rfl, by decide⟩

example : ¬ (([5, 5] : List Int).take 2).Nodup := by decide

/-- C164: a section for writing -/
example : let x : Section := Section.set (Section.set (Section.set (fun _ => none) "ClassName" "mimmo.GenericDispls".toList) "IOmode" ['0']) "NDispl" [' ', '1', '2']
    ∃ b', Displs.fromXml (D := Int) x = .done b' ∧ b'.read = false ∧ b'.n = 12 := by
  refine ⟨_, rfl, ?_, ?_⟩ <;> decide +kernel

end Verif.Io
