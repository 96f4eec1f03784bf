import Verif.Io.CloudWriteProps
import Verif.Io.DisplsSetProps
/-
C166 (continued): settings and XML section of the block that reads and writes clouds of points.
-/
namespace Verif.Io
open Verif.Xml Verif.Create Verif.Field Verif.Mesh
open List hiding get get_of_mem

variable {D : Type}

/-- **C166** (partial): if the points have the labels 0, 1, 2, … in this order the fields are read at the points they were written for -/
theorem C166_same_partial (F : Fmt D) (fs : Files) (b r : Cloud D) {o : Pc D} (hb : b.read = false) (hr : r.read = true) (ht : b.template = false)
    (hd : r.dir = b.dir) (hn : r.file = b.file) (hg : b.geo = some o) (hids : o.verts.map Prod.fst = range o.verts.length) (hoc : Ok o.cells)
    (hs : Fits o b.scalar) (hv : Fits o b.vector)
    (hl : ∀ e ∈ o.verts, (e.1 : Int) ≤ LONG_MAX) (hp : ∀ e ∈ o.verts, Prints3 F e.2)
    (hps : ∀ e ∈ o.verts, ∀ v, valueAt F.zero b.scalar e.1 = some v → Prints F v)
    (hpv : ∀ e ∈ o.verts, ∀ v, valueAt (F.zero, F.zero, F.zero) b.vector e.1 = some v → Prints3 F v) :
    ∃ b' fs' r', b.execute F fs = .done (b', fs') ∧ r.execute F fs' = .done (r', fs') ∧
      ∀ l < o.verts.length, get r'.scalar.data l = (valueAt F.zero b.scalar l).map F.round ∧
        get r'.vector.data l = (valueAt (F.zero, F.zero, F.zero) b.vector l).map (round3 F) := by
  have ho : Ok o.verts := by unfold Ok; rw [hids]; exact nodup_range
  obtain ⟨b', fs', q, r', e1, e2, -, -, e3, e4⟩ := C166_round_trip F fs b r hb hr ht hd hn hg ho hoc hs hv hl hp hps hpv
  have gen : ∀ {α β : Type} (f : Nat → Option α) (g : α → β) (l : Nat), l < o.verts.length →
      get ((o.verts.map Prod.fst).filterMap (fun l => (f l).map fun v => ((o.verts.map Prod.fst).idxOf l, g v))) l = (f l).map g := by
    intro α β f g l hlt
    have key : ∀ ids : List Nat, ids.Nodup → ∀ l,
        get (ids.filterMap (fun l => (f l).map fun v => (l, g v))) l = if l ∈ ids then (f l).map g else none := by
      intro ids
      induction ids with
      | nil => intro _ l; rfl
      | cons a ids ih =>
        intro hn l
        obtain ⟨ha, hn'⟩ := nodup_cons.1 hn
        cases e : f a with
        | none =>
          rw [filterMap_cons_none (by rw [e]; rfl), ih hn' l]
          by_cases h : l = a
          · subst h; rw [if_neg ha, if_pos mem_cons_self, e]; rfl
          · simp [h]
        | some v =>
          rw [filterMap_cons_some (by rw [e]; rfl)]
          by_cases h : l = a
          · subst h; simp [Verif.Field.get, e]
          · have : get ((a, g v) :: ids.filterMap (fun l => (f l).map fun v => (l, g v))) l =
                get (ids.filterMap (fun l => (f l).map fun v => (l, g v))) l := by
              simp [Verif.Field.get, Ne.symm h]
            rw [this, ih hn' l]
            simp [h]
    rw [hids]
    have : (range o.verts.length).filterMap (fun l => (f l).map fun v => ((range o.verts.length).idxOf l, g v)) =
        (range o.verts.length).filterMap (fun l => (f l).map fun v => (l, g v)) := by
      apply filterMap_congr
      intro x hx
      have hlt : idxOf x (range o.verts.length) < (range o.verts.length).length := idxOf_lt_length_iff.2 hx
      have h1 := getElem_idxOf hlt
      rw [getElem_range] at h1
      rw [h1]
    rw [this, key _ nodup_range, if_pos (mem_range.2 hlt)]
  refine ⟨b', fs', r', e1, e2, fun l hlt => ⟨?_, ?_⟩⟩
  · rw [e3]; exact gen _ _ l hlt
  · rw [e4]; exact gen _ _ l hlt

/-- **C166**: execution in write mode changes the file of the block only, whatever the fields hold -/
theorem C166_file (F : Fmt D) (fs : Files) (b b' : Cloud D) (fs' : Files) (hb : b.read = false) (h : b.execute F fs = .done (b', fs')) :
    (∀ q, q ≠ b.dir ++ '/' :: b.file → fs' q = fs q) ∧ (fs' (b.dir ++ '/' :: b.file)).isSome ∧ b'.geo = b.geo ∧ b.geo.isSome := by
  unfold Cloud.execute Cloud.save at h
  rw [if_neg (by simp [hb])] at h
  cases hg : b.geo with
  | none => rw [hg] at h; cases h
  | some o =>
    rw [hg] at h
    simp only at h
    cases h1 : ready o F.zero b.scalar with
    | none => rw [h1] at h; cases h
    | some sc =>
      cases h2 : ready o (F.zero, F.zero, F.zero) b.vector with
      | none => rw [h1, h2] at h; cases h
      | some ve =>
        rw [h1, h2] at h
        injection h with h
        cases h
        refine ⟨fun q hq => ?_, ?_, rfl, rfl⟩
        · unfold Files.put Cloud.path; rw [if_neg hq]
        · unfold Files.put Cloud.path; rw [if_pos rfl]; rfl

/-- **C166**: a template is written over the data: to the same file, so that only the points remain, and not to a file of its own -/
theorem C166_template_fails (F : Fmt D) (fs : Files) (b : Cloud D) {o : Pc D} (hb : b.read = false) (ht : b.template = true) (hg : b.geo = some o)
    (ho : Ok o.verts) (hoc : Ok o.cells) (hs : Fits o b.scalar) (hv : Fits o b.vector) :
    ∃ b' fs', b.execute F fs = .done (b', fs') ∧ fs' (b.dir ++ '/' :: ("TEMPLATE_".toList ++ b.file)) = fs (b.dir ++ '/' :: ("TEMPLATE_".toList ++ b.file)) ∧
      fs' (b.dir ++ '/' :: b.file) = some (o.verts.flatMap (fun e => "$POINT".toList ++ '\t' :: (intText e.1 ++ '\t' :: (F.put e.2.1 ++ '\t' ::
          (F.put e.2.2.1 ++ '\t' :: F.put e.2.2.2))) ++ ['\n']) ++ '\n' ::
        ((o.verts.map Prod.fst).flatMap (fun l : Nat => "$SCALARF".toList ++ '\t' :: (intText l ++ '\t' :: ("{s".toList ++ (intText l ++ ['}']))) ++ ['\n']) ++ '\n' ::
        ((o.verts.map Prod.fst).flatMap (fun l : Nat => "$VECTORF".toList ++ '\t' :: (intText l ++ '\t' :: ("{x".toList ++ (intText l ++ '}' :: '\t' ::
          ("{y".toList ++ (intText l ++ '}' :: '\t' :: ("{z".toList ++ (intText l ++ ['}']))))))) ++ ['\n']) ++ ['\n']))) := by
  obtain ⟨sc, es, -⟩ := ready_spec ho hoc F.zero hs
  obtain ⟨ve, ev, -⟩ := ready_spec ho hoc (F.zero, F.zero, F.zero) hv
  have e1 : b.execute F fs = .done ({ b with scalar := sc, vector := ve }, fs.put b.path (cloudText F true o sc.data ve.data)) := by
    unfold Cloud.execute Cloud.save
    rw [if_neg (by simp [hb]), hg]
    simp only [es, ev, ht]
  have key := (C166_file F fs b _ _ hb e1).1
  have htext : cloudText F true o sc.data ve.data = o.verts.flatMap (fun e => pointKey ++ '\t' :: (intText e.1 ++ '\t' :: (F.put e.2.1 ++ '\t' ::
          (F.put e.2.2.1 ++ '\t' :: F.put e.2.2.2))) ++ ['\n']) ++ '\n' ::
        ((o.verts.map Prod.fst).flatMap (fun l : Nat => scalarKey ++ '\t' :: (intText l ++ '\t' :: (['{', 's'] ++ (intText l ++ ['}']))) ++ ['\n']) ++ '\n' ::
        ((o.verts.map Prod.fst).flatMap (fun l : Nat => vectorKey ++ '\t' :: (intText l ++ '\t' :: (['{', 'x'] ++ (intText l ++ '}' :: '\t' ::
          (['{', 'y'] ++ (intText l ++ '}' :: '\t' :: (['{', 'z'] ++ (intText l ++ ['}']))))))) ++ ['\n']) ++ ['\n'])) := by
    unfold cloudText scalarText rowText holder
    simp
  refine ⟨{ b with scalar := sc, vector := ve }, fs.put b.path (cloudText F true o sc.data ve.data), e1, ?_, ?_⟩
  · apply key
    intro h
    have := congrArg List.length h
    simp at this
    omega
  · unfold Files.put Cloud.path
    rw [if_pos rfl, htext]
    rfl

/-- **C166**: without a geometry execution in write mode uses a null pointer, and so do the methods that set the geometry and the fields if they
are given none -/
theorem C166_null_fails (F : Fmt D) (fs : Files) (b : Cloud D) :
    (b.read = false → b.geo = none → b.execute F fs = .undefined) ∧ b.setGeometry none = .undefined ∧
    (b.read = false → b.setScalar none = .undefined ∧ b.setVector none = .undefined) := by
  refine ⟨fun h g => ?_, rfl, fun h => ?_⟩
  · unfold Cloud.execute Cloud.save; rw [if_neg (by simp [h]), g]
  · unfold Cloud.setScalar Cloud.setVector; simp [h]

/-- **C166**: the methods of one mode do nothing in the other; a geometry that is not a cloud of points is ignored in both -/
theorem C166_modes (b : Cloud D) (t : Text) (f : Bool) (s : Field Geo D) (v : Field Geo (P3 D)) (o : Pc D) :
    (b.read = true → b.setWriteDir t = b ∧ b.setWriteFile t = b ∧ b.setTemplate f = b ∧ b.setScalar (some s) = .done b ∧ b.setVector (some v) = .done b ∧
      b.setReadDir t = { b with dir := t } ∧ b.setReadFile t = { b with file := t }) ∧
    (b.read = false → b.setReadDir t = b ∧ b.setReadFile t = b ∧ b.setWriteDir t = { b with dir := t } ∧ b.setWriteFile t = { b with file := t } ∧
      b.setTemplate f = { b with template := f } ∧ b.setScalar (some s) = .done { b with scalar := s } ∧
      b.setVector (some v) = .done { b with vector := v }) ∧
    (o.type = 3 → b.setGeometry (some o) = .done { b with geo := some o }) ∧ (o.type ≠ 3 → b.setGeometry (some o) = .done b) := by
  refine ⟨fun h => ?_, fun h => ?_, fun h => ?_, fun h => ?_⟩
  · simp [Cloud.setWriteDir, Cloud.setWriteFile, Cloud.setTemplate, Cloud.setReadDir, Cloud.setReadFile, Cloud.setScalar, Cloud.setVector, h]
  · refine ⟨?_, ?_, ?_, ?_, ?_, ?_, ?_⟩ <;>
      simp [Cloud.setWriteDir, Cloud.setWriteFile, Cloud.setTemplate, Cloud.setReadDir, Cloud.setReadFile, Cloud.setScalar, Cloud.setVector, h]
  · simp [Cloud.setGeometry, h]
  · simp [Cloud.setGeometry, h]

/-- **C166**: `clear` removes the geometry, the values of the fields and the name of the file, but leaves the directory and the mode -/
theorem C166_clear (b : Cloud D) :
    b.clear.geo = none ∧ b.clear.scalar.data = [] ∧ b.clear.vector.data = [] ∧ b.clear.template = false ∧
    b.clear.file = "mimmo.IOCloudPoints_source.dat".toList ∧ b.clear.dir = b.dir ∧ b.clear.read = b.read := ⟨rfl, rfl, rfl, rfl, rfl, rfl, rfl⟩

/-- **C166**: a copy writes the points of the original but none of its values -/
theorem C166_copy_fails (F : Fmt D) (fs : Files) (b : Cloud D) {o : Pc D} (hb : b.read = false) (ht : b.template = false) (hg : b.geo = some o)
    (hl : ∀ e ∈ o.verts, (e.1 : Int) ≤ LONG_MAX) (hp : ∀ e ∈ o.verts, Prints3 F e.2) :
    ∃ c' fs' t is, b.copy.execute F fs = .done (c', fs') ∧ fs' (b.dir ++ '/' :: b.file) = some t ∧ FileSays F is t ∧
      CItem.points is = o.verts.map (fun e => (e.1, round3 F e.2)) ∧ CItem.scalars is = [] ∧ CItem.vectors is = [] := by
  have e1 : ∃ c', b.copy.execute F fs = .done (c', fs.put b.path (cloudText F false o [] [])) := by
    unfold Cloud.execute Cloud.save
    rw [if_neg (by simp [Cloud.copy, hb])]
    simp only [Cloud.copy, hg, ht]
    exact ⟨_, rfl⟩
  obtain ⟨c', e1⟩ := e1
  refine ⟨c', _, _, itemsOf F o [] [], e1, ?_, text_says F o [] [] hl hp (fun e _ v h => by cases h) (fun e _ v h => by cases h), items_points F o [] [], ?_, ?_⟩
  · unfold Files.put Cloud.path; rw [if_pos rfl]
  · rw [items_scalars]; simp [Verif.Field.get]
  · rw [items_vectors]; simp [Verif.Field.get]

/-- **C166**: the options of a section: the mode must agree with that of the block; each option sets what it names -/
theorem C166_absorb (x : Section) (b : Cloud D) :
    (∀ t, x "IOmode" = some t → (if t = [] then true else readBool (trim t)) ≠ b.read → b.absorb x = .thrown) ∧
    ((∀ t, x "IOmode" = some t → (if t = [] then true else readBool (trim t)) = b.read) → ∃ b', b.absorb x = .done b' ∧
      b'.read = b.read ∧ b'.geo = b.geo ∧ b'.scalar = b.scalar ∧ b'.vector = b.vector ∧
      b'.dir = ((x (if b.read then "ReadDir" else "WriteDir")).map trim).getD b.dir ∧
      b'.file = ((x (if b.read then "ReadFilename" else "WriteFilename")).map trim).getD b.file ∧
      b'.template = (if b.read then b.template else ((x "Template").map (fun t => readBool (trim t))).getD b.template)) := by
  have z2 : readBool [] = false := by decide
  have hf : ∀ t, flagOption t = readBool (trim t) := by
    intro t; unfold flagOption; split
    · rename_i h; rw [h, z2]
    · rfl
  refine ⟨?_, ?_⟩
  · intro t ht hm
    unfold Cloud.absorb
    rw [ht, if_pos]
    exact hm
  · intro hm
    have hm' : (match x "IOmode" with | none => b.read | some t => modeOption t) = b.read := by
      cases h : x "IOmode" with
      | none => rfl
      | some t => exact hm t h
    unfold Cloud.absorb
    rw [if_neg (fun h => h hm')]
    refine ⟨_, rfl, ?_⟩
    simp only [hf]
    cases hr : b.read
    · cases h1 : x "WriteDir" <;> cases h2 : x "WriteFilename" <;> cases h4 : x "Template" <;>
        simp [Cloud.setWriteDir, Cloud.setWriteFile, Cloud.setTemplate, hr, h1, h2]
    · cases h1 : x "ReadDir" <;> cases h2 : x "ReadFilename" <;> cases h4 : x "Template" <;>
        simp [Cloud.setReadDir, Cloud.setReadFile, Cloud.setTemplate, hr, h1, h2]

/-- **C166**: a block built from the section that another wrote has its settings -/
theorem C166_xml_round_trip (b : Cloud D) (x : Section) (hc : x "ClassName" = some "mimmo.IOCloudPoints".toList)
    (hd : trim b.dir = b.dir) (hf : trim b.file = b.file) :
    ∃ b', Cloud.fromXml (D := D) (b.flush x) = .done b' ∧ b'.read = b.read ∧ b'.dir = b.dir ∧ b'.file = b.file ∧ b'.geo = none ∧
      b'.scalar.data = [] ∧ b'.vector.data = [] ∧ (b.read = false → b'.template = b.template) := by
  have hmode : b.flush x "IOmode" = some (toText b.read.toNat) := by
    unfold Cloud.flush; cases b.read <;> simp [Section.set]
  have hclass : b.flush x "ClassName" = some "mimmo.IOCloudPoints".toList := by
    unfold Cloud.flush; cases b.read <;> simp [Section.set, hc]
  have hread : (readSigned (trim ((b.flush x "IOmode").getD ['1'])) != 0) = b.read := by
    rw [hmode]
    cases b.read
    · show (readSigned (trim (toText 0)) != 0) = _; rw [flag_none]; decide
    · show (readSigned (trim (toText 1)) != 0) = _; rw [flag_one]; decide
  unfold Cloud.fromXml
  simp only
  rw [hread, hclass, Option.getD_some, if_pos (by decide)]
  obtain ⟨-, key⟩ := C166_absorb (b.flush x) ({ read := b.read } : Cloud D)
  obtain ⟨b', e, e1, e2, e3, e3', e4, e5, e7⟩ := key (by
    intro t ht
    rw [hmode] at ht
    injection ht with ht
    subst ht
    rw [if_neg (toText_spec _).2.2, Verif.Recon.readBool_toText]
    cases b.read <;> rfl)
  refine ⟨b', e, e1, ?_, ?_, e2, by rw [e3]; rfl, by rw [e3']; rfl, ?_⟩
  · rw [e4]
    unfold Cloud.flush
    cases hr : b.read <;> simp [Section.set, hd]
  · rw [e5]
    unfold Cloud.flush
    cases hr : b.read <;> simp [Section.set, hf]
  · intro hr
    rw [e7]
    unfold Cloud.flush
    simp only [hr, Section.set]
    simp [Verif.Recon.readBool_toText]

/-- **C166**: an empty mode is taken as writing by the constructor and as reading by the rest: the block cannot be built -/
theorem C166_empty_mode_fails (x : Section) (hc : x "ClassName" = some "mimmo.IOCloudPoints".toList) (hm : x "IOmode" = some []) :
    Cloud.fromXml (D := D) x = .thrown := by
  unfold Cloud.fromXml
  simp only
  rw [hc, hm, Option.getD_some, if_pos (by decide)]
  exact (C166_absorb x _).1 [] hm (by show true ≠ (readSigned (trim []) != 0); decide)

/-- **C166**: a field with a value at a label that is not a point of the cloud is not completed: the points without a value get no row, where
otherwise they get zero -/
theorem C166_foreign_fails (F : Fmt D) (fs : Files) (b : Cloud D) {o : Pc D} (hb : b.read = false) (ht : b.template = false) (hg : b.geo = some o)
    (hsg : b.scalar.geo = none ∨ b.scalar.geo = some (idsOf o)) (hf : ∃ e ∈ b.scalar.data, e.1 ∉ o.verts.map Prod.fst) (hv : b.vector.data = [])
    (hl : ∀ e ∈ o.verts, (e.1 : Int) ≤ LONG_MAX) (hp : ∀ e ∈ o.verts, Prints3 F e.2)
    (hps : ∀ e ∈ o.verts, ∀ v, get b.scalar.data e.1 = some v → Prints F v) :
    ∃ b' fs' t is, b.execute F fs = .done (b', fs') ∧ fs' (b.dir ++ '/' :: b.file) = some t ∧ FileSays F is t ∧
      CItem.points is = o.verts.map (fun e => (e.1, round3 F e.2)) ∧
      CItem.scalars is = (o.verts.map Prod.fst).filterMap (fun l => (get b.scalar.data l).map fun v => (l, F.round v)) := by
  have hgeo : b.scalar.geo.getD (idsOf o) = idsOf o := by
    rcases hsg with h | h <;> rw [h] <;> rfl
  have e0 : ∃ sc, ready o F.zero b.scalar = some sc ∧ sc.data = b.scalar.data := by
    unfold ready
    simp only [hgeo]
    obtain ⟨e, he, hne⟩ := hf
    rw [if_neg (by cases hd : b.scalar.data with | nil => rw [hd] at he; cases he | cons x d => simp)]
    rw [C25_refuse ({ b.scalar with geo := some (idsOf o), loc := .point } : Field Geo D) F.zero (.inr ⟨by simp, e, he, hne⟩)]
    exact ⟨_, rfl, rfl⟩
  obtain ⟨sc, es, ed⟩ := e0
  have e1 : ∃ ve, ready o (F.zero, F.zero, F.zero) b.vector = some ve ∧ ve.data = [] := by
    unfold ready
    simp only [hv]
    exact ⟨_, rfl, rfl⟩
  obtain ⟨ve, ev, evd⟩ := e1
  have e2 : b.execute F fs = .done ({ b with scalar := sc, vector := ve }, fs.put b.path (cloudText F false o sc.data ve.data)) := by
    unfold Cloud.execute Cloud.save
    rw [if_neg (by simp [hb]), hg]
    simp only [es, ev, ht]
  rw [ed, evd] at e2
  refine ⟨_, _, _, itemsOf F o b.scalar.data [], e2, ?_, text_says F o b.scalar.data [] hl hp hps (fun e _ v h => by cases h),
    items_points F o _ _, items_scalars F o _ _⟩
  unfold Files.put Cloud.path
  rw [if_pos rfl]

/-! ### Examples -/

def demoPc : Pc Int :=
  { type := 3, verts := [(0, (1, 2, 3)), (1, (4, 5, 6)), (2, (7, 8, 9))], cells := [], pids := [], names := [], tree := false
    kd := ⟨.none, none⟩, skd := ⟨.notSupported, none⟩, adj := ⟨.none, none⟩, int := ⟨.none, none⟩, info := ⟨.none, none⟩, bbox := ⟨.none, none⟩
    pc := ⟨.none, none⟩ }
def demoField : Field Geo Int := { geo := none, name := [], loc := .undefined, data := [(1, 40)] }
def demoWriter : Cloud Int := { read := false, geo := some demoPc, scalar := demoField }

/-- C166: three points, a value at the second of them -/
example : Ok demoPc.verts ∧ Ok demoPc.cells ∧ demoPc.verts.map Prod.fst = range demoPc.verts.length ∧ Fits demoPc demoWriter.scalar ∧
    Fits demoPc demoWriter.vector ∧ demoWriter.template = false ∧ valueAt 0 demoWriter.scalar 0 = some 0 ∧ valueAt 0 demoWriter.scalar 1 = some 40 ∧
    (∀ e ∈ demoPc.verts, Prints3 demoFmt e.2) ∧ (∀ e ∈ demoPc.verts, ∀ v, valueAt demoFmt.zero demoWriter.scalar e.1 = some v → Prints demoFmt v) := by
  have hp : ∀ d ∈ ([0, 1, 2, 3, 4, 5, 6, 7, 8, 9, 40] : List Int), Prints demoFmt d := by
    intro d hd
    have : ∀ d ∈ ([0, 1, 2, 3, 4, 5, 6, 7, 8, 9, 40] : List Int), INT_MIN ≤ d ∧ d ≤ INT_MAX := by decide
    exact demo_prints (this d hd).1 (this d hd).2
  refine ⟨by unfold Ok; decide, by unfold Ok; decide, by decide, ⟨by unfold Ok; decide, by decide, .inl rfl⟩, ⟨by unfold Ok; decide, by decide, .inl rfl⟩,
    rfl, by decide, by decide, ?_, ?_⟩
  · have : ∀ e ∈ demoPc.verts, e.2.1 ∈ ([0, 1, 2, 3, 4, 5, 6, 7, 8, 9, 40] : List Int) ∧ e.2.2.1 ∈ ([0, 1, 2, 3, 4, 5, 6, 7, 8, 9, 40] : List Int) ∧
        e.2.2.2 ∈ ([0, 1, 2, 3, 4, 5, 6, 7, 8, 9, 40] : List Int) := by decide
    exact fun e he => ⟨hp _ (this e he).1, hp _ (this e he).2.1, hp _ (this e he).2.2⟩
  · intro e he v hv
    have : ∀ e ∈ demoPc.verts, ((valueAt demoFmt.zero demoWriter.scalar e.1).getD 0) ∈ ([0, 1, 2, 3, 4, 5, 6, 7, 8, 9, 40] : List Int) := by decide
    have := this e he
    rw [hv] at this
    exact hp v this

example : ∃ e ∈ ([(1, 40), (9, 50)] : Data Int), e.1 ∉ demoPc.verts.map Prod.fst := ⟨(9, 50), by decide, by decide⟩

/-- C166: a section for writing -/
example : let x : Section := Section.set (Section.set (Section.set (fun _ => none) "ClassName" "mimmo.IOCloudPoints".toList) "IOmode" ['0']) "Template" [' ', '1']
    ∃ b', Cloud.fromXml (D := Int) x = .done b' ∧ b'.read = false ∧ b'.template = true := by
  refine ⟨_, rfl, ?_, ?_⟩ <;> decide +kernel

end Verif.Io
