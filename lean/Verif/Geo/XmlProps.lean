import Verif.Geo.Model
import Verif.Xml.Props
/-!
# C228: the XML section of a reader, writer or converter of geometries
-/
namespace Verif.Geo

open Verif.Xml (Text Section trim toText readBool isDigit digitsVal blank toText_spec trim_clean)

variable {T : Type}

theorem typeOf_name (t : FileType) : typeOf (trim t.name) = some t ∧ trim t.name ≠ [] := by
  cases t <;> decide

theorem flag_text (d b : Bool) : flag d (flagText b) = b := by
  cases d <;> cases b <;> decide

theorem readLong_toText (n : Nat) (h : n ≤ LONG_MAX) : readLong (trim (toText n)) = n := by
  obtain ⟨h1, h2, h3⟩ := toText_spec n
  rw [trim_clean (fun c hc => (h2 c hc).2)]
  have hd : (toText n).dropWhile blank = toText n := by
    cases ht : toText n with
    | nil => rfl
    | cons c t => rw [ht] at h2; rw [List.dropWhile_cons_of_neg (by simp [(h2 c (by simp)).2])]
  have hw : ∀ l : Text, (∀ c ∈ l, isDigit c = true) → l.takeWhile isDigit = l := by
    intro l
    induction l with
    | nil => intro _; rfl
    | cons c l ih =>
      intro hl
      rw [List.takeWhile_cons, if_pos (hl c (by simp)), ih fun d hd => hl d (List.mem_cons_of_mem _ hd)]
  rw [readLong, hd, hw _ fun c hc => (h2 c hc).1, h1]
  exact if_pos h

/-- A name which can be written in a section: not empty, no blanks at its ends. -/
def Name (t : Text) : Prop := trim t = t ∧ t ≠ []

def Info.Good (i : Info) : Prop := Name i.dir ∧ Name i.name

/-- The options which do not depend on the mode. -/
structure SameOptions (r s : Settings T) : Prop where
  long : r.long = s.long
  codex : r.codex = s.codex
  skd : r.skd = s.skd
  kd : r.kd = s.kd
  refPID : r.refPID = s.refPID
  multi : r.multi = s.multi
  tol : r.tol = s.tol
  clean : r.clean = s.clean
  restore : r.restore = s.restore

/-- The section has, at each key, what was set there. -/
structure Says (E : Env T) (x : Section) (s : Settings T) : Prop where
  codex : x "Codex" = some (flagText s.codex)
  bv : x "BvTree" = none
  skd : x "SkdTree" = some (flagText s.skd)
  kd : x "KdTree" = some (flagText s.kd)
  ref : x "AssignRefPID" = some (toText s.refPID)
  multi : x "WriteMultiSolidSTL" = some (flagText s.multi)
  tol : x "Tolerance" = some (E.print s.tol)
  clean : x "Clean" = some (flagText s.clean)
  nas : x "FormatNAS" = some (flagText s.long)
  restore : x "ParallelRestore" = some (flagText s.restore)

theorem base_other (b : Verif.Xml.Settings) (x : Section) (k : String) (h1 : k ≠ "Priority") (h2 : k ≠ "Apply")
    (h3 : k ≠ "PlotInExecution") (h4 : k ≠ "OutputPlot") : Verif.Xml.flushSection b x k = x k := by
  unfold Verif.Xml.flushSection
  cases b.apply <;> cases b.plot <;> simp [Section.set, h1, h2, h3, h4]

def fileKeys : List String := ["ReadDir", "ReadFilename", "WriteDir", "WriteFilename", "ReadFileType", "WriteFileType", "Dir",
  "Filename", "FileType"]

def flagKeys : List String := ["Codex", "SkdTree", "KdTree", "AssignRefPID", "WriteMultiSolidSTL", "Tolerance", "Clean",
  "FormatNAS", "ParallelRestore"]

theorem files_other (s : Settings T) (x : Section) (k : String) (h : k ∉ fileKeys) : flushFiles s x k = x k := by
  simp only [fileKeys, List.mem_cons, List.not_mem_nil, or_false, not_or] at h
  unfold flushFiles
  split <;> simp [Section.set, h]

theorem flags_other (E : Env T) (s : Settings T) (x : Section) (k : String) (h : k ∉ flagKeys) : flushFlags E s x k = x k := by
  simp only [flagKeys, List.mem_cons, List.not_mem_nil, or_false, not_or] at h
  simp [flushFlags, Section.set, h]

theorem flush_says (E : Env T) (s : Settings T) : Says E (flush E s) s := by
  unfold flush
  refine ⟨rfl, ?_, rfl, rfl, rfl, rfl, rfl, rfl, rfl, rfl⟩
  rw [flags_other _ _ _ _ (by decide), files_other _ _ _ (by decide)]
  have : ∀ (x : Section) (t : Text), (x.set "IOMode" t) "BvTree" = x "BvTree" := fun _ _ => rfl
  rw [this, base_other _ _ _ (by decide) (by decide) (by decide) (by decide)]
  rfl

theorem absorbFlags_says (E : Env T) (x : Section) (s r : Settings T) (h : Says E x s) (href : s.refPID ≤ LONG_MAX)
    (htol : E.floor (E.parse (trim (E.print s.tol))) = s.tol) (hprint : E.print s.tol ≠ []) :
    SameOptions (absorbFlags E x r) s ∧ (absorbFlags E x r).read = r.read ∧ (absorbFlags E x r).write = r.write ∧
    (absorbFlags E x r).rinfo = r.rinfo ∧ (absorbFlags E x r).winfo = r.winfo ∧ (absorbFlags E x r).base = r.base := by
  have hne := (toText_spec s.refPID).2.2
  have hr := readLong_toText s.refPID href
  unfold absorbFlags
  simp only [opt, h.codex, h.bv, h.skd, h.kd, h.ref, h.multi, h.tol, h.clean, h.nas, h.restore, flag_text, if_neg hne,
    if_neg hprint, setReferencePID, setTolerance, hr, htol]
  refine ⟨⟨rfl, rfl, rfl, rfl, ?_, rfl, rfl, rfl, rfl⟩, trivial, trivial, trivial, trivial, trivial⟩
  simp only
  omega

theorem flush_class (E : Env T) (s : Settings T) : flush E s "ClassName" = some "mimmo.Geometry".toList := by
  unfold flush
  rw [flags_other _ _ _ _ (by decide), files_other _ _ _ (by decide)]
  have : ∀ (x : Section) (t : Text), (x.set "IOMode" t) "ClassName" = x "ClassName" := fun _ _ => rfl
  rw [this, base_other _ _ _ (by decide) (by decide) (by decide) (by decide)]
  rfl

theorem flush_mode (E : Env T) (s : Settings T) : flush E s "IOMode" = some (modeText s) := by
  unfold flush
  rw [flags_other _ _ _ _ (by decide), files_other _ _ _ (by decide)]
  rfl

/-- nothing about files before the files -/
theorem head_none (s : Settings T) (t : Text) (k : String) (h : k ∈ fileKeys) : ((Verif.Xml.flushSection s.base
    (Section.set (fun _ => none) "ClassName" "mimmo.Geometry".toList)).set "IOMode" t) k = none := by
  have h1 : ∀ k ∈ fileKeys, k ≠ "Priority" ∧ k ≠ "Apply" ∧ k ≠ "PlotInExecution" ∧ k ≠ "OutputPlot" ∧ k ≠ "IOMode" ∧
      k ≠ "ClassName" := by decide
  obtain ⟨a, b, c, d, e, f⟩ := h1 k h
  rw [Section.set, if_neg e, base_other _ _ _ a b c d, Section.set, if_neg f]

theorem flush_flagless (E : Env T) (s : Settings T) (k : String) (h : k ∈ fileKeys) : flush E s k = flushFiles s ((Verif.Xml.flushSection s.base
    (Section.set (fun _ => none) "ClassName" "mimmo.Geometry".toList)).set "IOMode" (modeText s)) k := by
  have h1 : ∀ k ∈ fileKeys, k ∉ flagKeys := by decide
  exact flags_other _ _ _ _ (h1 k h)

/-- what the section says of the files -/
theorem flush_convert (E : Env T) (s : Settings T) (hm : (s.read && s.write) = true) :
      flush E s "FileType" = none ∧ flush E s "Dir" = none ∧ flush E s "Filename" = none ∧
      flush E s "ReadFileType" = some s.rinfo.type.name ∧ flush E s "WriteFileType" = some s.winfo.type.name ∧
      flush E s "ReadDir" = some s.rinfo.dir ∧ flush E s "ReadFilename" = some s.rinfo.name ∧
      flush E s "WriteDir" = some s.winfo.dir ∧ flush E s "WriteFilename" = some s.winfo.name := by
  have hf : ∀ k ∈ fileKeys, flush E s k = _ := fun k h => flush_flagless E s k h
  simp only [flushFiles, if_pos hm] at hf
  refine ⟨?_, ?_, ?_, ?_, ?_, ?_, ?_, ?_, ?_⟩ <;> rw [hf _ (by decide)]
  · exact head_none s (modeText s) "FileType" (by decide)
  · exact head_none s (modeText s) "Dir" (by decide)
  · exact head_none s (modeText s) "Filename" (by decide)
  all_goals rfl

theorem flush_single (E : Env T) (s : Settings T) (hm : (s.read && s.write) = false) :
      flush E s "FileType" = some s.rinfo.type.name ∧ flush E s "Dir" = some s.rinfo.dir ∧
      flush E s "Filename" = some s.rinfo.name ∧
      flush E s "ReadFileType" = none ∧ flush E s "WriteFileType" = none ∧
      flush E s "ReadDir" = none ∧ flush E s "ReadFilename" = none ∧
      flush E s "WriteDir" = none ∧ flush E s "WriteFilename" = none := by
  have hf : ∀ k ∈ fileKeys, flush E s k = _ := fun k h => flush_flagless E s k h
  simp only [flushFiles, hm, Bool.false_eq_true, if_false] at hf
  refine ⟨?_, ?_, ?_, ?_, ?_, ?_, ?_, ?_, ?_⟩ <;> rw [hf _ (by decide)]
  · rfl
  · rfl
  · rfl
  · exact head_none s (modeText s) "ReadFileType" (by decide)
  · exact head_none s (modeText s) "WriteFileType" (by decide)
  · exact head_none s (modeText s) "ReadDir" (by decide)
  · exact head_none s (modeText s) "ReadFilename" (by decide)
  · exact head_none s (modeText s) "WriteDir" (by decide)
  · exact head_none s (modeText s) "WriteFilename" (by decide)

theorem absorbFiles_convert (E : Env T) (s r : Settings T) (hr : s.read = true) (hw : s.write = true) (h1 : s.rinfo.Good)
    (h2 : s.winfo.Good) : absorbFiles (flush E s) r = { r with rinfo := s.rinfo, winfo := s.winfo } := by
  obtain ⟨a1, a2, a3, a4, a5, a6, a7, a8, a9⟩ := flush_convert E s (by rw [hr, hw]; rfl)
  have t1 := typeOf_name s.rinfo.type
  have t2 := typeOf_name s.winfo.type
  obtain ⟨⟨d1, d2⟩, n1, n2⟩ := h1
  obtain ⟨⟨e1, e2⟩, m1, m2⟩ := h2
  unfold absorbFiles
  simp only [opt, a1, a2, a3, a4, a5, a6, a7, a8, a9, filled, if_neg t1.2, if_neg t2.2, withType, t1.1, t2.1, d1, if_neg d2,
    n1, if_neg n2, e1, if_neg e2, m1, if_neg m2, setReadFileType, setWriteFileType, setReadDir, setReadFilename, setWriteDir,
    setWriteFilename]

theorem absorbFiles_single (E : Env T) (s r : Settings T) (hm : (s.read && s.write) = false) (h1 : s.rinfo.Good) :
    absorbFiles (flush E s) r = { r with rinfo := s.rinfo, winfo := s.rinfo } := by
  obtain ⟨a1, a2, a3, a4, a5, a6, a7, a8, a9⟩ := flush_single E s hm
  have t1 := typeOf_name s.rinfo.type
  obtain ⟨⟨d1, d2⟩, n1, n2⟩ := h1
  unfold absorbFiles
  simp only [opt, a1, a2, a3, a4, a5, a6, a7, a8, a9, if_neg t1.2, withType, t1.1, d1, if_neg d2,
    n1, if_neg n2, setFileType, setDir, setFilename]

/-- a step on the settings leaves the mode -/
def Modeless (f : Settings T → Settings T) : Prop := ∀ s, (f s).read = s.read ∧ (f s).write = s.write

theorem opt_modeless (x : Section) (k : String) (f : Text → Settings T → Settings T) (h : ∀ t, Modeless (f t)) :
    Modeless (opt x k f) := by
  intro s
  unfold opt
  split
  · exact ⟨rfl, rfl⟩
  · exact h _ s

theorem filled_modeless (f : Text → Settings T → Settings T) (h : ∀ t, Modeless (f t)) (t : Text) : Modeless (filled f t) := by
  intro s
  unfold filled
  split
  · exact ⟨rfl, rfl⟩
  · exact h _ s

theorem type_modeless (f : FileType → Settings T → Settings T) (h : ∀ t, Modeless (f t)) (t : Text) :
    Modeless (withType f t) := by
  intro s
  unfold withType
  split
  · exact h _ s
  · exact ⟨rfl, rfl⟩

theorem Modeless.trans {f g : Settings T → Settings T} (hf : Modeless f) (hg : Modeless g) : Modeless fun s => g (f s) :=
  fun s => ⟨(hg (f s)).1.trans (hf s).1, (hg (f s)).2.trans (hf s).2⟩

theorem plain_modeless {f : Settings T → Settings T} (h : ∀ s, (f s).read = s.read ∧ (f s).write = s.write) : Modeless f := h

theorem absorbFiles_modeless (x : Section) : Modeless (absorbFiles (T := T) x) := by
  have r : ∀ {f : Text → Settings T → Settings T}, (∀ t s, (f t s).read = s.read ∧ (f t s).write = s.write) → ∀ t, Modeless (f t) :=
    fun h t => h t
  unfold absorbFiles
  refine Modeless.trans (f := opt x "FileType" _) ?_ <| Modeless.trans (f := opt x "ReadFileType" _) ?_ <|
    Modeless.trans (f := opt x "WriteFileType" _) ?_ <| Modeless.trans (f := opt x "Dir" _) ?_ <|
    Modeless.trans (f := opt x "Filename" _) ?_ <| Modeless.trans (f := opt x "ReadDir" _) ?_ <|
    Modeless.trans (f := opt x "ReadFilename" _) ?_ <| Modeless.trans (f := opt x "WriteDir" _) ?_ ?_
  · refine opt_modeless _ _ _ fun t s => ?_
    split
    · exact ⟨rfl, rfl⟩
    · exact type_modeless setFileType (fun _ _ => ⟨rfl, rfl⟩) _ s
  · exact opt_modeless _ _ _ fun t => filled_modeless _ (fun t => type_modeless setReadFileType (fun _ _ => ⟨rfl, rfl⟩) t) t
  · exact opt_modeless _ _ _ fun t => filled_modeless _ (fun t => type_modeless setWriteFileType (fun _ _ => ⟨rfl, rfl⟩) t) t
  · exact opt_modeless _ _ _ fun t s => ⟨rfl, rfl⟩
  · exact opt_modeless _ _ _ fun t s => ⟨rfl, rfl⟩
  · exact opt_modeless _ _ _ fun t => filled_modeless setReadDir (fun t s => ⟨rfl, rfl⟩) t
  · exact opt_modeless _ _ _ fun t => filled_modeless setReadFilename (fun t s => ⟨rfl, rfl⟩) t
  · exact opt_modeless _ _ _ fun t => filled_modeless setWriteDir (fun t s => ⟨rfl, rfl⟩) t
  · exact opt_modeless _ _ _ fun t => filled_modeless setWriteFilename (fun t s => ⟨rfl, rfl⟩) t

theorem absorbFlags_modeless (E : Env T) (x : Section) : Modeless (absorbFlags E x) := by
  unfold absorbFlags
  refine Modeless.trans (f := opt x "Codex" _) ?_ <| Modeless.trans (f := opt x "BvTree" _) ?_ <|
    Modeless.trans (f := opt x "SkdTree" _) ?_ <| Modeless.trans (f := opt x "KdTree" _) ?_ <|
    Modeless.trans (f := opt x "AssignRefPID" _) ?_ <| Modeless.trans (f := opt x "WriteMultiSolidSTL" _) ?_ <|
    Modeless.trans (f := opt x "Tolerance" _) ?_ <| Modeless.trans (f := opt x "Clean" _) ?_ <|
    Modeless.trans (f := opt x "FormatNAS" _) ?_ ?_
  case refine_7 =>
    refine opt_modeless _ _ _ fun t s => ?_
    split <;> exact ⟨rfl, rfl⟩
  all_goals exact opt_modeless _ _ _ fun t s => ⟨rfl, rfl⟩

theorem mode_back (E : Env T) (s b : Settings T) (hrw : s.read = true ∨ s.write = true) :
    (setIOMode (modeOf (flush E s)) b).read = s.read ∧ (setIOMode (modeOf (flush E s)) b).write = s.write := by
  have e1 : trim "CONVERT".toList = "CONVERT".toList := by decide
  have e2 : trim "WRITE".toList = "WRITE".toList := by decide
  have e3 : trim "READ".toList = "READ".toList := by decide
  unfold modeOf
  rw [flush_mode, Option.getD_some, modeText]
  cases h1 : s.read <;> cases h2 : s.write
  · rw [h1, h2] at hrw; simp at hrw
  · simp only [Bool.and_true, Bool.false_eq_true, if_false, if_true, e2]
    rw [if_neg (by decide)]
    exact ⟨rfl, rfl⟩
  · simp only [Bool.and_false, Bool.false_eq_true, if_false, e3]
    rw [if_neg (by decide), if_neg (by decide)]
    exact ⟨rfl, rfl⟩
  · simp only [Bool.and_true, if_true, e1]
    exact ⟨rfl, rfl⟩

theorem create_flush (E : Env T) (s : Settings T) (hrw : s.read = true ∨ s.write = true) (href : s.refPID ≤ LONG_MAX)
    (htol : E.floor (E.parse (trim (E.print s.tol))) = s.tol) (hprint : E.print s.tol ≠ []) :
    SameOptions (create E (flush E s)) s ∧ (create E (flush E s)).read = s.read ∧ (create E (flush E s)).write = s.write ∧
    (∃ r : Settings T, (create E (flush E s)).rinfo = (absorbFiles (flush E s) r).rinfo ∧
      (create E (flush E s)).winfo = (absorbFiles (flush E s) r).winfo) ∧
    (absorbFlags E (flush E s) (absorbFiles (flush E s) { setIOMode (modeOf (flush E s)) (defaults E) with
      base := Verif.Xml.absorbSection (flush E s) Verif.Xml.Settings.fresh })) = create E (flush E s) := by
  have hc : create E (flush E s) = absorbFlags E (flush E s) (absorbFiles (flush E s)
      { setIOMode (modeOf (flush E s)) (defaults E) with
        base := Verif.Xml.absorbSection (flush E s) Verif.Xml.Settings.fresh }) := by
    unfold create
    rw [flush_class, Option.getD_some, if_pos (by decide), absorb]
    have : (setIOMode (modeOf (flush E s)) (defaults E)).base = Verif.Xml.Settings.fresh := by
      cases modeOf (flush E s) <;> rfl
    rw [this]
  obtain ⟨f1, f2, f3, f4, f5, -⟩ := absorbFlags_says E (flush E s) s
    (absorbFiles (flush E s) { setIOMode (modeOf (flush E s)) (defaults E) with
        base := Verif.Xml.absorbSection (flush E s) Verif.Xml.Settings.fresh }) (flush_says E s) href htol hprint
  have hm := mode_back E s (defaults E) hrw
  have hk := absorbFiles_modeless (flush E s) { setIOMode (modeOf (flush E s)) (defaults E) with
        base := Verif.Xml.absorbSection (flush E s) Verif.Xml.Settings.fresh }
  rw [hc]
  exact ⟨f1, f2.trans (hk.1.trans hm.1), f3.trans (hk.2.trans hm.2), ⟨_, f4, f5⟩, rfl⟩

/-- **C228.**  A block created from the section which another one has written has the same mode and options; it reads from
the same file, and it writes in the same file when it is a converter, or when the files for reading and writing are set
together. -/
theorem C228_roundtrip_partial (E : Env T) (s : Settings T) (hrw : s.read = true ∨ s.write = true)
    (href : s.refPID ≤ LONG_MAX) (htol : E.floor (E.parse (trim (E.print s.tol))) = s.tol) (hprint : E.print s.tol ≠ [])
    (h1 : s.rinfo.Good) (h2 : s.winfo.Good) :
    let r := create E (flush E s)
    SameOptions r s ∧ r.read = s.read ∧ r.write = s.write ∧ r.rinfo = s.rinfo ∧
    ((s.read = true ∧ s.write = true) ∨ s.winfo = s.rinfo → r.winfo = s.winfo) := by
  obtain ⟨a, b, c, ⟨q, d, e⟩, -⟩ := create_flush E s hrw href htol hprint
  refine ⟨a, b, c, ?_, ?_⟩
  · rw [d]
    cases hm : (s.read && s.write) with
    | true =>
      rw [Bool.and_eq_true] at hm
      rw [absorbFiles_convert E s q hm.1 hm.2 h1 h2]
    | false => rw [absorbFiles_single E s q hm h1]
  · intro h
    rw [e]
    cases hm : (s.read && s.write) with
    | true =>
      rw [Bool.and_eq_true] at hm
      rw [absorbFiles_convert E s q hm.1 hm.2 h1 h2]
    | false =>
      rw [absorbFiles_single E s q hm h1]
      rcases h with ⟨h, h'⟩ | h
      · rw [h, h'] at hm; cases hm
      · exact h.symm

theorem base_keys (E : Env T) (s : Settings T) (k : String) (hk : k ∈ ["Priority", "Apply", "PlotInExecution", "OutputPlot"]) :
    flush E s k = Verif.Xml.flushSection s.base (fun _ => none) k := by
  have h1 : ∀ k ∈ ["Priority", "Apply", "PlotInExecution", "OutputPlot"], k ∉ flagKeys ∧ k ∉ fileKeys ∧ k ≠ "IOMode" ∧
      k ≠ "ClassName" := by decide
  obtain ⟨a, b, c, d⟩ := h1 k hk
  unfold flush
  rw [flags_other _ _ _ _ a, files_other _ _ _ b, Section.set, if_neg c]
  unfold Verif.Xml.flushSection
  cases s.base.apply <;> cases s.base.plot <;> simp [Section.set, d]

/-- **C228.**  The settings common to all blocks come back too. -/
theorem C228_base_partial (E : Env T) (s : Settings T)
    (href : s.refPID ≤ LONG_MAX) (htol : E.floor (E.parse (trim (E.print s.tol))) = s.tol) (hprint : E.print s.tol ≠ [])
    (h1 : s.rinfo.Good) (h2 : s.winfo.Good) (hrw : s.read = true ∨ s.write = true)
    (hp : s.base.priority ≤ Verif.Xml.INT_MAX) (ho : Name s.base.out) :
    let r := create E (flush E s)
    r.base.priority = s.base.priority ∧ r.base.apply = s.base.apply ∧ r.base.plot = s.base.plot ∧
    (s.base.plot = true → r.base.out = s.base.out) := by
  obtain ⟨-, -, -, -, hc⟩ := create_flush E s hrw href htol hprint
  have hb : (create E (flush E s)).base = Verif.Xml.absorbSection (flush E s) Verif.Xml.Settings.fresh := by
    rw [← hc, (absorbFlags_says E (flush E s) s _ (flush_says E s) href htol hprint).2.2.2.2.2]
    cases hm : (s.read && s.write) with
    | true =>
      rw [Bool.and_eq_true] at hm
      rw [absorbFiles_convert E s _ hm.1 hm.2 h1 h2]
    | false => rw [absorbFiles_single E s _ hm h1]
  have he : Verif.Xml.absorbSection (flush E s) Verif.Xml.Settings.fresh =
      Verif.Xml.absorbSection (Verif.Xml.flushSection s.base (fun _ => none)) Verif.Xml.Settings.fresh := by
    unfold Verif.Xml.absorbSection
    rw [base_keys E s "Priority" (by decide), base_keys E s "Apply" (by decide), base_keys E s "PlotInExecution" (by decide),
      base_keys E s "OutputPlot" (by decide)]
  simp only [hb, he]
  exact Verif.Xml.C22_round_trip_partial s.base hp ho.1 ho.2

/-- **C228, violated.**  A writer whose file was set by the setters for writing comes back as a writer on the file for
reading. -/
theorem C228_writer_fails (E : Env T) (s : Settings T) (hr : s.read = false) (hw : s.write = true)
    (href : s.refPID ≤ LONG_MAX) (htol : E.floor (E.parse (trim (E.print s.tol))) = s.tol) (hprint : E.print s.tol ≠ [])
    (h1 : s.rinfo.Good) (hne : s.winfo ≠ s.rinfo) :
    (create E (flush E s)).write = true ∧ (create E (flush E s)).winfo = s.rinfo ∧ (create E (flush E s)).winfo ≠ s.winfo := by
  obtain ⟨-, -, c, ⟨q, -, e⟩, -⟩ := create_flush E s (Or.inr hw) href htol hprint
  have : (create E (flush E s)).winfo = s.rinfo := by
    rw [e, absorbFiles_single E s q (by rw [hr]; rfl) h1]
  exact ⟨c.trans hw, this, by rw [this]; exact hne.symm⟩

/-- **C228, violated.**  The mode in a section is ignored by a block which exists already. -/
theorem C228_mode_fails (E : Env T) (x : Section) (s : Settings T) :
    (absorb E x s).read = s.read ∧ (absorb E x s).write = s.write := by
  unfold absorb
  have h1 := absorbFlags_modeless E x (absorbFiles x { s with base := Verif.Xml.absorbSection x s.base })
  have h2 := absorbFiles_modeless x { s with base := Verif.Xml.absorbSection x s.base }
  exact ⟨h1.1.trans h2.1, h1.2.trans h2.2⟩

/-- Tolerances in the examples. -/
def demoEnv : Env Nat := ⟨toText, fun t => digitsVal t, fun n => max 1 n, 10, false⟩

example : (setDir "dir".toList (setIOMode .write (defaults demoEnv))).rinfo.Good ∧
    (setWriteDir "out".toList (setIOMode .write (defaults demoEnv))).winfo ≠
      (setWriteDir "out".toList (setIOMode .write (defaults demoEnv))).rinfo ∧
    demoEnv.floor (demoEnv.parse (trim (demoEnv.print 10))) = 10 ∧ demoEnv.print 10 ≠ [] := by
  refine ⟨⟨⟨by decide, by decide⟩, ⟨by decide, by decide⟩⟩, by decide, ?_, (toText_spec 10).2.2⟩
  have h := toText_spec 10
  show max 1 (digitsVal (trim (toText 10))) = 10
  rw [trim_clean (fun c hc => (h.2.1 c hc).2), h.1]
  decide

end Verif.Geo
