import Verif.Nas.FileProps
/-!
# C222, C226: a mesh written in a Nastran file and read again
-/
namespace Verif.Nas

open Verif.Xml (Text trim blank toText isDigit digitsVal INT_MAX toText_spec trim_clean)

/-! ## Specification -/

/-- The integer part, its sign and the point fit in the eight characters of a field. -/
def Num.Fits (x : Num) : Prop := x.int < (if x.neg then 10 ^ 6 else 10 ^ 7) ∧ x.frac < 10 ^ 8

/-- What is read of a coordinate: the same up to the decimals which do not fit. -/
def Close (x : Num) (r : ℚ) : Prop :=
  0 ≤ signed x.neg * (x.value 8 - r) ∧
  ∀ d, 1 ≤ d → x.int < 10 ^ d → (if x.neg then 1 else 0) + d ≤ 7 →
    signed x.neg * (x.value 8 - r) < 1 / 10 ^ (7 - (if x.neg then 1 else 0) - d)

def Kept (p : Point) (q : Int × ℚ × ℚ × ℚ) : Prop :=
  q.1 = p.id ∧ Close p.x q.2.1 ∧ Close p.y q.2.2.1 ∧ Close p.z q.2.2.2

/-- The faces with their labels and PIDs. -/
def faceList (faces : List (List Nat)) (ids pids : List Nat) : List Face :=
  (faces.zip (ids.zip pids)).map fun f => ⟨f.2.1, f.2.2, f.1.map fun v : Nat => (v : Int)⟩

def SmallPoint (p : Point) : Prop := p.id < 10 ^ 8 ∧ p.x.Fits ∧ p.y.Fits ∧ p.z.Fits

def Plain (f : List Nat) : Prop := (f.length = 3 ∨ f.length = 4) ∧ ∀ v ∈ f, v < 10 ^ 8

/-! ## Points -/

theorem close_of_fits (x : Num) (h : x.Fits) : ∃ r, readBack false x = some r ∧ Close x r := by
  obtain ⟨hi, hf⟩ := h
  have h0 : ∃ d, 1 ≤ d ∧ x.int < 10 ^ d ∧ (if x.neg then 1 else 0) + d ≤ 7 := by
    cases hn : x.neg with
    | true => rw [hn] at hi; exact ⟨6, by omega, by simpa using hi, by simp⟩
    | false => rw [hn] at hi; exact ⟨7, by omega, by simpa using hi, by simp⟩
  obtain ⟨d, hd, hid, hfit⟩ := h0
  obtain ⟨r, hr, h1, -⟩ := C223_near_partial false x d hd hid (by simpa [width] using hf) (by
    simp only [width, Bool.false_eq_true, if_false]; omega)
  refine ⟨r, hr, by simpa [width] using h1, ?_⟩
  intro e he hie hfe
  obtain ⟨r', hr', -, h2⟩ := C223_near_partial false x e he hie (by simpa [width] using hf) (by
    simp only [width, Bool.false_eq_true, if_false]; omega)
  rw [hr] at hr'
  cases hr'
  simpa [width] using h2

/-- What is read of a point. -/
noncomputable def keep (p : Point) : Int × ℚ × ℚ × ℚ :=
  (p.id, (readBack false p.x).getD 0, (readBack false p.y).getD 0, (readBack false p.z).getD 0)

theorem keep_kept {p : Point} (h : SmallPoint p) : Kept p (keep p) := by
  obtain ⟨x, hx, cx⟩ := close_of_fits _ h.2.1
  obtain ⟨y, hy, cy⟩ := close_of_fits _ h.2.2.1
  obtain ⟨z, hz, cz⟩ := close_of_fits _ h.2.2.2
  refine ⟨rfl, ?_, ?_, ?_⟩
  · simpa [keep, hx] using cx
  · simpa [keep, hy] using cy
  · simpa [keep, hz] using cz

theorem lines_points (pts : List Point) (h : ∀ p ∈ pts, SmallPoint p) (g : Got) :
    allLines (pts.flatMap (writeCoord false)) g = some { g with pts := g.pts ++ pts.map keep } := by
  induction pts generalizing g with
  | nil => simp [allLines]
  | cons p pts ih =>
    have hp := h p (by simp)
    obtain ⟨x, hx, -⟩ := close_of_fits _ hp.2.1
    obtain ⟨y, hy, -⟩ := close_of_fits _ hp.2.2.1
    obtain ⟨z, hz, -⟩ := close_of_fits _ hp.2.2.2
    have hone : ∃ l, writeCoord false p = [l] := ⟨_, rfl⟩
    obtain ⟨l, hl⟩ := hone
    rw [List.flatMap_cons, hl, List.singleton_append, allLines,
      line_point p hp.1 x y z hx hy hz g l (by rw [hl]; simp), Option.bind_some,
      ih (fun q hq => h q (List.mem_cons_of_mem _ hq))]
    simp [keep, hx, hy, hz]

/-! ## Faces -/

theorem lines_faces (faces : List (List Nat)) (ids pids : List Nat) (h : ∀ f ∈ faces, Plain f)
    (hi : faces.length ≤ ids.length) (hp : faces.length ≤ pids.length) (his : ∀ i ∈ ids, i < 10 ^ 8)
    (hps : ∀ i ∈ pids, i < 10 ^ 8) (g : Got) :
    allLines (writeFaces faces ids pids) g = some { g with faces := g.faces ++ faceList faces ids pids } := by
  induction faces generalizing ids pids g with
  | nil => simp [writeFaces, allLines, faceList]
  | cons f faces ih =>
    obtain ⟨i, ids, rfl⟩ : ∃ i is, ids = i :: is := by
      cases ids with
      | nil => simp at hi
      | cons i is => exact ⟨i, is, rfl⟩
    obtain ⟨p, pids, rfl⟩ : ∃ i is, pids = i :: is := by
      cases pids with
      | nil => simp at hp
      | cons i is => exact ⟨i, is, rfl⟩
    have hf := h f (by simp)
    have hi' := his i (by simp)
    have hp' := hps p (by simp)
    have hrec := fun g => ih ids pids (fun f hf => h f (List.mem_cons_of_mem _ hf)) (by simpa using hi) (by simpa using hp)
      (fun j hj => his j (List.mem_cons_of_mem _ hj)) (fun j hj => hps j (List.mem_cons_of_mem _ hj)) g
    rw [writeFaces]
    simp only [List.headD_cons, List.tail_cons]
    rcases hf.1 with hl | hl
    · rw [if_pos hl]
      match f, hl, hf.2 with
      | [a, b, c], _, hv =>
        rw [allLines, line_tria a b c i p (hv a (by simp)) (hv b (by simp)) (hv c (by simp)) hi' hp', Option.bind_some, hrec]
        simp [faceList]
    · rw [if_neg (by omega), if_pos hl]
      match f, hl, hf.2 with
      | [a, b, c, d], _, hv =>
        rw [allLines, line_quad a b c d i p (hv a (by simp)) (hv b (by simp)) (hv c (by simp)) (hv d (by simp)) hi' hp',
          Option.bind_some, hrec]
        simp [faceList]

theorem lines_footer (long : Bool) (set : List Nat) (g : Got) : allLines (writeFooter long set) g = some g := by
  rw [writeFooter, allLines_append]
  have h1 : allLines (set.map fun pid => writeKeyword long "PSHELL".toList ++ (writeValue long (toText pid) ++
      (List.replicate 6 (writeValue long (toText 1))).flatten)) g = some g := by
    induction set with
    | nil => rfl
    | cons p set ih =>
      rw [List.map_cons, allLines, line_none (by rw [key_word (by cases long <;> decide)]; cases long <;> decide)]
      exact ih
  rw [h1, Option.bind_some, allLines, line_none (by rw [key_word (by cases long <;> decide)]; cases long <;> decide)]
  rfl

theorem lines_head (name : Text) (ls : List Text) (g : Got) :
    allLines (["TITLE=mimmo ".toList ++ (name ++ " mesh".toList), "$".toList, "BEGIN BULK".toList] ++ ls) g = allLines ls g := by
  have h1 : line ("TITLE=mimmo ".toList ++ (name ++ " mesh".toList)) g = some g := by
    apply line_none
    rw [key, List.take_append_of_le_length (by decide)]
    decide
  have h2 : line "$".toList g = some g := line_none (by decide) g
  have h3 : line "BEGIN BULK".toList g = some g := line_none (by decide) g
  simp only [List.cons_append, List.nil_append, allLines, h1, h2, h3, Option.bind_some]

/-- the lines of the file before the empty one -/
theorem read_write (long : Bool) (name : Text) (pts : List Point) (faces : List (List Nat)) (ids pids set : List Nat)
    (hi : faces.length = ids.length) (hp : pids.length = faces.length) :
    ∃ file, write long name pts faces ids pids set = some file ∧
      read file = ((allLines (pts.flatMap (writeCoord long)) ⟨[], []⟩).bind (allLines (writeFaces faces ids pids))) := by
  refine ⟨_, by rw [write, if_neg (by simpa using hi), if_neg (by simpa using hp)], ?_⟩
  have e : ["TITLE=mimmo ".toList ++ (name ++ " mesh".toList), "$".toList, "BEGIN BULK".toList] ++
      (pts.flatMap (writeCoord long) ++ (writeFaces faces ids pids ++ (writeFooter long set ++ ["ENDDATA".toList, []]))) =
      (["TITLE=mimmo ".toList ++ (name ++ " mesh".toList), "$".toList, "BEGIN BULK".toList] ++
      (pts.flatMap (writeCoord long) ++ (writeFaces faces ids pids ++ (writeFooter long set ++ ["ENDDATA".toList])))) ++ [[]] := by
    simp only [List.append_assoc, List.cons_append, List.nil_append]
  rw [e, C225_lines_partial, lines_head, allLines_append]
  congr 1
  funext g
  rw [allLines_append]
  have h0 : ∀ g, allLines (writeFooter long set ++ ["ENDDATA".toList]) g = some g := by
    intro g
    rw [allLines_append, lines_footer, Option.bind_some, allLines, line_none (by decide)]
    rfl
  cases allLines (writeFaces faces ids pids) g with
  | none => rfl
  | some g' => exact h0 g'

/-- **C222.**  In the short format a mesh of triangles and quadrangles is read back from the file: the points with their
labels and the coordinates as they fit in the file, the faces with their labels, PIDs and vertices, in the same order. -/
theorem C222_roundtrip_partial (name : Text) (pts : List Point) (faces : List (List Nat)) (ids pids set : List Nat)
    (hpts : ∀ p ∈ pts, SmallPoint p) (hf : ∀ f ∈ faces, Plain f) (hi : faces.length = ids.length)
    (hp : pids.length = faces.length) (his : ∀ i ∈ ids, i < 10 ^ 8) (hps : ∀ i ∈ pids, i < 10 ^ 8) :
    ∃ file got, write false name pts faces ids pids set = some file ∧ read file = some got ∧
      got.faces = faceList faces ids pids ∧
      ∃ coords : Point → Int × ℚ × ℚ × ℚ, (∀ p ∈ pts, Kept p (coords p)) ∧ got.pts = pts.map coords := by
  obtain ⟨file, h1, h2⟩ := read_write false name pts faces ids pids set hi hp
  rw [lines_points pts hpts, Option.bind_some, lines_faces faces ids pids hf (by omega) (by omega) his hps] at h2
  exact ⟨file, _, h1, h2, by simp, keep, fun p hp => keep_kept (hpts p hp), by simp⟩

example : SmallPoint ⟨1, ⟨false, 12, 50000000⟩, ⟨true, 0, 33333333⟩, ⟨false, 0, 0⟩⟩ ∧ Plain [1, 2, 3] ∧
    Plain [1, 2, 3, 4] ∧ [[1, 2, 3], [1, 2, 3, 4]].length = [10, 11].length := by
  refine ⟨⟨by decide, ?_, ?_, ?_⟩, ⟨by decide, by decide⟩, ⟨by decide, by decide⟩, rfl⟩ <;>
    (unfold Num.Fits; decide)

/-- **C222, violated.**  A file written in the long format is never read: reading fails as soon as there is a point. -/
theorem C222_long_fails (name : Text) (pts : List Point) (faces : List (List Nat)) (ids pids set : List Nat)
    (hne : pts ≠ []) (hi : faces.length = ids.length) (hp : pids.length = faces.length) :
    ∃ file, write true name pts faces ids pids set = some file ∧ read file = none := by
  obtain ⟨file, h1, h2⟩ := read_write true name pts faces ids pids set hi hp
  refine ⟨file, h1, ?_⟩
  rw [h2]
  cases pts with
  | nil => exact absurd rfl hne
  | cons p pts =>
    have hw : ∀ t, (writeValue true t).length = 16 := by
      intro t; simp [writeValue, padLeft, width]
    have hk : (writeKeyword true "GRID".toList).length = 8 := by decide
    rw [List.flatMap_cons, writeCoord]
    simp only [if_true, List.cons_append, allLines]
    have : line (writeKeyword true "GRID".toList ++ (writeValue true (toText p.id) ++ (writeValue true [] ++
        (writeValue true (p.x.text (width true)) ++ writeValue true (p.y.text (width true)))))) ⟨[], []⟩ = none := by
      have hc : cardOf (key (writeKeyword true "GRID".toList ++ (writeValue true (toText p.id) ++ (writeValue true [] ++
        (writeValue true (p.x.text (width true)) ++ writeValue true (p.y.text (width true))))))) = some .gridL := by
        rw [key_word hk]; decide
      rw [line, hc]
      simp only [Option.filter, Card.enabled, if_true, process, readPoint]
      have hz : real (writeKeyword true "GRID".toList ++ (writeValue true (toText p.id) ++ (writeValue true [] ++
          (writeValue true (p.x.text (width true)) ++ writeValue true (p.y.text (width true)))))) 80 16 = none := by
        rw [real, sub, if_neg (by simp only [List.length_append, hw, hk]; omega)]
        rfl
      rw [hz]
      simp
    rw [this]
    rfl

example : ([⟨1, ⟨false, 1, 0⟩, ⟨false, 1, 0⟩, ⟨false, 1, 0⟩⟩] : List Point) ≠ [] := by decide

/-- **C222, violated.**  A polygon of the mesh is not written, and the faces after it take the labels and the PIDs of the
ones before them. -/
theorem C222_polygon_fails (name : Text) (pts : List Point) (f : List Nat) (faces : List (List Nat)) (i p : Nat)
    (ids pids set : List Nat) (hpts : ∀ p ∈ pts, SmallPoint p) (h3 : f.length ≠ 3) (h4 : f.length ≠ 4)
    (hf : ∀ f ∈ faces, Plain f) (hi : faces.length = ids.length)
    (hp : pids.length = faces.length) (his : ∀ j ∈ i :: ids, j < 10 ^ 8) (hps : ∀ j ∈ p :: pids, j < 10 ^ 8) :
    ∃ file got, write false name pts (f :: faces) (i :: ids) (p :: pids) set = some file ∧ read file = some got ∧
      got.faces = faceList faces (i :: ids) (p :: pids) := by
  obtain ⟨file, h1, h2⟩ := read_write false name pts (f :: faces) (i :: ids) (p :: pids) set (by simp [hi]) (by simp [hp])
  rw [lines_points pts hpts, Option.bind_some, writeFaces, if_neg h3, if_neg h4,
    lines_faces faces (i :: ids) (p :: pids) hf (by simp; omega) (by simp; omega) his hps] at h2
  exact ⟨file, _, h1, h2, by simp⟩

example : faceList [[1, 2, 3]] [7, 8] [1, 2] = [⟨7, 1, [1, 2, 3]⟩] ∧
    faceList [[1, 2, 3, 4, 5], [1, 2, 3]] [7, 8] [1, 2] = [⟨7, 1, [1, 2, 3, 4, 5]⟩, ⟨8, 2, [1, 2, 3]⟩] := by decide

/-! ## PIDs and labels of an exported mesh -/

/-- What is added to the PIDs: two when there are cells without PID, one when there is the PID `0`. -/
def pidShift (set : List Int) : Int := if -1 ∈ set then 2 else if 0 ∈ set then 1 else 0

theorem shift_eq (set pids : List Int) :
    shiftPids set pids = (set.map (· + pidShift set), pids.map (· + pidShift set)) := by
  unfold shiftPids pidShift
  by_cases h1 : -1 ∈ set
  · simp [h1]
  · by_cases h0 : 0 ∈ set
    · simp [h1, h0]
    · simp [h1, h0]

theorem faceList_maps (faces : List (List Nat)) (ids pids : List Nat) (hi : faces.length = ids.length)
    (hp : pids.length = faces.length) :
    (faceList faces ids pids).map (·.id) = ids.map (fun i : Nat => (i : Int)) ∧
    (faceList faces ids pids).map (·.conn) = faces.map (fun f => f.map fun v : Nat => (v : Int)) ∧
    (faceList faces ids pids).map (·.pid) = pids.map (fun i : Nat => (i : Int)) := by
  induction faces generalizing ids pids with
  | nil =>
    obtain rfl : ids = [] := List.length_eq_zero_iff.1 (by simpa using hi.symm)
    obtain rfl : pids = [] := List.length_eq_zero_iff.1 (by simpa using hp)
    exact ⟨rfl, rfl, rfl⟩
  | cons f faces ih =>
    cases ids with
    | nil => simp at hi
    | cons i ids =>
      cases pids with
      | nil => simp at hp
      | cons p pids =>
        obtain ⟨h1, h2, h3⟩ := ih ids pids (by simpa using hi) (by simpa using hp)
        unfold faceList at h1 h2 h3 ⊢
        simp only [List.zip_cons_cons, List.map_cons, h1, h2, h3]
        simp

/-- **C226.**  A mesh of triangles and quadrangles exported in the short format comes back with the labels one more than
the ids, and with the PIDs all moved by the same amount: none, unless there is a cell with PID `0` or without one; all of
them are positive, and cells have the same PID exactly when they had. -/
theorem C226_export (name : Text) (verts : List Point) (cells : List (Nat × List Nat)) (set pids : List Int)
    (hv : ∀ p ∈ verts, SmallPoint { p with id := p.id + 1 })
    (hc : ∀ c ∈ cells, c.1 + 1 < 10 ^ 8 ∧ Plain (c.2.map (· + 1))) (hp : pids.length = cells.length)
    (hset : ∀ p ∈ pids, p ∈ set) (hlow : ∀ p ∈ pids, -1 ≤ p) (hhigh : ∀ p ∈ pids, p + 2 < 10 ^ 8) :
    ∃ file got, exportMesh false name verts cells set pids = some file ∧ read file = some got ∧
      got.pts.map (·.1) = verts.map (fun p => (p.id : Int) + 1) ∧
      got.faces.map (·.id) = cells.map (fun c => (c.1 : Int) + 1) ∧
      got.faces.map (·.conn) = cells.map (fun c => c.2.map fun v : Nat => (v : Int) + 1) ∧
      got.faces.map (·.pid) = pids.map (· + pidShift set) ∧ ∀ f ∈ got.faces, 0 < f.pid := by
  have hpos : ∀ p ∈ pids, 0 < p + pidShift set := by
    intro p hpm
    have hl := hlow p hpm
    have hs := hset p hpm
    unfold pidShift
    split
    · omega
    · next h1 =>
      have : p ≠ -1 := fun e => h1 (e ▸ hs)
      split
      · omega
      · next h0 =>
        have : p ≠ 0 := fun e => h0 (e ▸ hs)
        omega
  have hsh : pidShift set ≤ 2 := by unfold pidShift; split <;> [omega; (split <;> omega)]
  have hpl : ((pids.map (· + pidShift set)).map Int.toNat).length = (cells.map fun c => c.2.map (· + 1)).length := by
    simp [hp]
  obtain ⟨file, got, h1, h2, h3, coords, h4, h5⟩ := C222_roundtrip_partial name
    (verts.map fun p => { p with id := p.id + 1 }) (cells.map fun c => c.2.map (· + 1)) (cells.map (·.1 + 1))
    ((pids.map (· + pidShift set)).map Int.toNat) ((set.map (· + pidShift set)).map Int.toNat)
    (by
      intro p hpm
      obtain ⟨q, hq, rfl⟩ := List.mem_map.1 hpm
      exact hv q hq)
    (by
      intro f hf
      obtain ⟨c, hcm, rfl⟩ := List.mem_map.1 hf
      exact (hc c hcm).2)
    (by simp) hpl
    (by
      intro i hi
      obtain ⟨c, hcm, rfl⟩ := List.mem_map.1 hi
      exact (hc c hcm).1)
    (by
      intro i hi
      obtain ⟨q, hq, rfl⟩ := List.mem_map.1 hi
      obtain ⟨p, hpm, rfl⟩ := List.mem_map.1 hq
      have := hhigh p hpm
      omega)
  obtain ⟨m1, m2, m3⟩ := faceList_maps (cells.map fun c => c.2.map (· + 1)) (cells.map (·.1 + 1))
    ((pids.map (· + pidShift set)).map Int.toNat) (by simp) hpl
  refine ⟨file, got, by rw [exportMesh, shift_eq]; exact h1, h2, ?_, ?_, ?_, ?_, ?_⟩
  · rw [h5, List.map_map, List.map_map]
    apply List.map_congr_left
    intro p hpm
    have := (h4 { p with id := p.id + 1 } (List.mem_map.2 ⟨p, hpm, rfl⟩)).1
    simp only [Function.comp]
    rw [this]
    simp
  all_goals rw [h3]
  · rw [m1, List.map_map]
    rfl
  · rw [m2, List.map_map]
    apply List.map_congr_left
    intro c _
    simp only [Function.comp, List.map_map]
    rfl
  · rw [m3, List.map_map, List.map_map]
    apply List.map_congr_left
    intro p hpm
    have := hpos p hpm
    simp only [Function.comp]
    omega
  · intro f hf
    have : f.pid ∈ (faceList (cells.map fun c => c.2.map (· + 1)) (cells.map (·.1 + 1))
        ((pids.map (· + pidShift set)).map Int.toNat)).map (·.pid) := List.mem_map.2 ⟨f, hf, rfl⟩
    rw [m3, List.map_map, List.map_map] at this
    obtain ⟨p, hpm, he⟩ := List.mem_map.1 this
    have := hpos p hpm
    simp only [Function.comp] at he
    omega

/-- **C226.**  The properties of every PID of the cells are in the file, with the same number as in the cells. -/
theorem C226_declared (name : Text) (verts : List Point) (cells : List (Nat × List Nat)) (set pids : List Int)
    (file : List Text) (hw : exportMesh false name verts cells set pids = some file) (p : Int) (hp : p ∈ set)
    (hlow : -1 ≤ p) (hhigh : p + 2 < 10 ^ 8) :
    ∃ l ∈ file, key l = "PSHELL".toList ∧ int l 8 8 = some (p + pidShift set) := by
  have hpos : 0 < p + pidShift set := by
    unfold pidShift
    split
    · omega
    · next h1 =>
      have : p ≠ -1 := fun e => h1 (e ▸ hp)
      split
      · omega
      · next h0 =>
        have : p ≠ 0 := fun e => h0 (e ▸ hp)
        omega
  have hsh : pidShift set ≤ 2 := by unfold pidShift; split <;> [omega; (split <;> omega)]
  rw [exportMesh, shift_eq, write] at hw
  split at hw
  · exact absurd hw (by simp)
  split at hw
  · exact absurd hw (by simp)
  have hk : (writeKeyword false "PSHELL".toList).length = 8 := by decide
  refine ⟨writeKeyword false "PSHELL".toList ++ (writeValue false (toText (p + pidShift set).toNat) ++
    (List.replicate 6 (writeValue false (toText 1))).flatten), ?_, ?_, ?_⟩
  · rw [← Option.some.inj hw]
    have : (p + pidShift set).toNat ∈ (set.map (· + pidShift set)).map Int.toNat :=
      List.mem_map.2 ⟨_, List.mem_map.2 ⟨p, hp, rfl⟩, rfl⟩
    have hm := List.mem_map_of_mem (f := fun pid => writeKeyword false "PSHELL".toList ++ (writeValue false (toText pid) ++
      (List.replicate 6 (writeValue false (toText 1))).flatten)) this
    simp only [writeFooter, List.mem_append]
    exact Or.inr (Or.inr (Or.inr (Or.inl (Or.inl hm))))
  · rw [key_word hk]; decide
  · have e8 : ∀ t len, sub t 8 len = sub t (0 + 8) len := fun _ _ => rfl
    rw [int, e8, sub_skip hk, sub_here (writeValue_length _), Option.bind_some, stoi_field _ (by omega)]
    congr 1
    omega

example : SmallPoint { (⟨0, ⟨false, 12, 5⟩, ⟨true, 0, 3⟩, ⟨false, 0, 0⟩⟩ : Point) with id := 0 + 1 } ∧
    Plain ([0, 1, 2].map (· + 1)) ∧ pidShift [0, 3] = 1 ∧ pidShift [-1, 0] = 2 ∧ pidShift [1, 5] = 0 := by
  refine ⟨⟨by decide, ?_, ?_, ?_⟩, ⟨by decide, by decide⟩, by decide, by decide, by decide⟩ <;>
    (unfold Num.Fits; decide)

end Verif.Nas
