import Verif.Foam.Model
/-!
# C217, C218, C219: the case, the options and the points
-/
namespace Verif.Foam

open Verif.Xml (Text Section trim readBool)

variable {P : Type}

/-! ## C217: several readings and writings -/

/-- What a block does with a case. -/
inductive Op (P : Type) where
  | read (dir : String)
  | write (dir : String) (pts : List P) (overwrite : Bool)

/-- What it sees: vertices, or what was written. -/
inductive Seen (P : Type) where
  | vertices (l : List (Nat × P))
  | wrote (w : Option (Written P))

def Op.dir : Op P → String
  | .read d => d
  | .write d _ _ => d

/-- One after the other. -/
def runOps (disk : String → Mesh P) : Statics P → List (Op P) → List (Seen P)
  | _, [] => []
  | st, .read d :: ops => let r := readVertices disk st d; .vertices r.1 :: runOps disk r.2 ops
  | st, .write d pts o :: ops => let r := writePoints disk st d pts o; .wrote r.1 :: runOps disk r.2 ops

/-- What is expected of a single case with these points: a reading gives the points in order, and a writing of as many
points moves them, at the directory asked for. -/
def expected : List P → List (Op P) → List (Seen P)
  | _, [] => []
  | pts, .read _ :: ops => .vertices ((List.range pts.length).zip pts) :: expected pts ops
  | pts, .write d new o :: ops =>
    if pts.length = new.length then .wrote (some ⟨d, o, new⟩) :: expected new ops
    else .wrote none :: expected pts ops

theorem runOps_opened (disk : String → Mesh P) (d : String) (ops : List (Op P)) (h : ∀ op ∈ ops, op.dir = d) :
    ∀ M : Mesh P, runOps disk (some (d, M)) ops = expected M.points ops := by
  induction ops with
  | nil => intro M; rfl
  | cons op ops ih =>
    have ih := ih fun o ho => h o (List.mem_cons_of_mem _ ho)
    intro M
    have hd := h op (by simp)
    cases op with
    | read e =>
      rw [runOps, expected]
      exact congrArg (List.cons _) (ih M)
    | write e pts o =>
      have hd : e = d := hd
      subst hd
      rw [runOps, expected]
      by_cases hl : M.points.length = pts.length
      · have : writePoints disk (some (e, M)) e pts o = (some ⟨e, o, pts⟩, some (e, { M with points := pts })) :=
          if_neg (not_not_intro hl)
        rw [this, if_pos hl]
        exact congrArg (List.cons _) (ih _)
      · have : writePoints disk (some (e, M)) e pts o = (none, some (e, M)) := if_pos hl
        rw [this, if_neg hl]
        exact congrArg (List.cons _) (ih M)

/-- **C217.**  In a program which uses a single directory every reading gives the points of the case, or those of the
last writing, and every writing of as many points goes to the directory. -/
theorem C217_single_partial (disk : String → Mesh P) (d : String) (ops : List (Op P)) (h : ∀ op ∈ ops, op.dir = d) :
    runOps disk none ops = expected (disk d).points ops := by
  cases ops with
  | nil => rfl
  | cons op ops =>
    rw [← runOps_opened disk d (op :: ops) h]
    have hd := h op (by simp)
    cases op with
    | read e =>
      have hd : e = d := hd
      subst hd
      rfl
    | write e pts o =>
      have hd : e = d := hd
      subst hd
      rfl

example : ∀ op ∈ [Op.read "a", .write "a" [5, 6] true, .read "a"], op.dir = "a" := by decide
example : expected [1, 2] [Op.read "a", .write "a" [5, 6] true, .read "a"] =
    [.vertices [(0, 1), (1, 2)], .wrote (some ⟨"a", true, [5, 6]⟩), .vertices [(0, 5), (1, 6)]] := rfl

/-- **C217, violated.**  A second directory is not opened: the mesh of the first comes again. -/
theorem C217_reading_fails (disk : String → Mesh P) (a b : String) :
    runOps disk none [.read a, .read b] =
      [.vertices (bulkVertices (disk a)), .vertices (bulkVertices (disk a))] := rfl

/-- **C217, violated.**  Points for a second directory are written in the first, over its own. -/
theorem C217_writing_fails (disk : String → Mesh P) (a b : String) (pts : List P)
    (h : (disk a).points.length = pts.length) :
    runOps disk none [.read a, .write b pts true] =
      [.vertices (bulkVertices (disk a)), .wrote (some ⟨a, true, pts⟩)] := by
  have : writePoints disk (some (a, disk a)) b pts true = (some ⟨a, true, pts⟩, some (a, { disk a with points := pts })) :=
    if_neg (not_not_intro h)
  show [_, Seen.wrote (writePoints disk (some (a, disk a)) b pts true).1] = _
  rw [this]
  rfl

/-! ## C219: points through the mesh -/

/-- **C219.**  Vertices read from a case and moved, whatever the motion, are written each at its own place; the written
set has as many points as the case, and reading again gives them. -/
theorem C219_points (disk : String → Mesh P) (d : String) (move : Nat → P → P) (o : Bool) :
    let r := readVertices disk none d
    let w := writeVertices disk r.2 d (r.1.map fun v => (v.1, move v.1 v.2)) o
    ∃ pts, w.1 = some ⟨d, o, pts⟩ ∧ pts.length = (disk d).points.length ∧
      (∀ (i : Nat) (p : P), (disk d).points[i]? = some p → pts[i]? = some (move i p)) ∧
      (readVertices disk w.2 d).1 = r.1.map fun v => (v.1, move v.1 v.2) := by
  intro r w
  have hr : r = (bulkVertices (disk d), some (d, disk d)) := rfl
  let new := (bulkVertices (disk d)).map fun v => move v.1 v.2
  have hb : (bulkVertices (disk d)).length = (disk d).points.length := by simp [bulkVertices]
  have hlen : (disk d).points.length = new.length := by simp [new, hb]
  have hpts : ((bulkVertices (disk d)).map fun v => (v.1, move v.1 v.2)).map Prod.snd = new := by
    rw [List.map_map]; rfl
  have hw : w = (some ⟨d, o, new⟩, some (d, { disk d with points := new })) := by
    show writePoints disk (some (d, disk d)) d
      (((bulkVertices (disk d)).map fun v => (v.1, move v.1 v.2)).map Prod.snd) o = _
    rw [hpts]
    exact if_neg (not_not_intro hlen)
  refine ⟨new, by rw [hw], hlen.symm, ?_, ?_⟩
  · intro i p hi
    have hlt := (List.getElem?_eq_some_iff.1 hi).1
    have : (bulkVertices (disk d))[i]? = some (i, p) := by
      rw [bulkVertices, List.getElem?_zip_eq_some]
      exact ⟨by rw [List.getElem?_range hlt], hi⟩
    simp [new, this]
  · rw [hw, hr]
    show (List.range new.length).zip new = _
    apply List.ext_getElem?
    intro i
    by_cases hi : i < (disk d).points.length
    · have h1 : (bulkVertices (disk d))[i]? = some (i, (disk d).points[i]) := by
        rw [bulkVertices, List.getElem?_zip_eq_some]
        exact ⟨by rw [List.getElem?_range hi], List.getElem?_eq_getElem hi⟩
      have h2 : new[i]? = some (move i (disk d).points[i]) := by simp [new, h1]
      rw [List.getElem?_map, h1, Option.map_some, List.getElem?_zip_eq_some]
      exact ⟨by rw [List.getElem?_range (by omega)], h2⟩
    · rw [List.getElem?_eq_none (by simp; omega), List.getElem?_eq_none (by simp [hb]; omega)]

example : (writeVertices (fun _ => (⟨[1, 2], [], [], [], [], [], []⟩ : Mesh Nat)) none "a" [(0, 7), (1, 9)] true).1 =
    some ⟨"a", true, [7, 9]⟩ := by decide

/-- **C219.**  A mesh with another number of vertices is refused, and the case stays. -/
theorem C219_refused (disk : String → Mesh P) (M : Mesh P) (d e : String) (vs : List (Nat × P)) (o : Bool)
    (h : M.points.length ≠ vs.length) :
    writeVertices disk (some (d, M)) e vs o = (none, some (d, M)) := by
  unfold writeVertices writePoints
  exact if_pos (by simpa [initializeCase] using h)

/-- **C219.**  Only the number counts, as documented: vertices in another order are written in that order. -/
theorem C219_order : (writeVertices (fun _ => (⟨[1, 2], [], [], [], [], [], []⟩ : Mesh Nat)) none "a"
    [(1, 2), (0, 1)] true).1 = some ⟨"a", true, [2, 1]⟩ := by decide

/-! ## C218: the options -/

/-- The value of an option as documented: the one of the text when there is one, the default otherwise. -/
def documented (s : Section) (k : String) (old dflt : Bool) : Bool :=
  match s k with
  | none => old
  | some [] => dflt
  | some t => readBool (trim t)

/-- **C218.**  `Overwrite` is read as documented when it is given, or when `WritePointsOnly` is not given; without both
nothing changes. -/
theorem C218_overwrite_partial (s : Section) (o : Options) :
    ((s "Overwrite").isSome ∨ s "WritePointsOnly" = none →
      (absorb s o).overwrite = documented s "Overwrite" o.overwrite false) ∧
    (s "Overwrite" = none → s "WritePointsOnly" = none → absorb s o = o) := by
  refine ⟨?_, ?_⟩
  · intro h
    unfold absorb documented
    cases hO : s "Overwrite" with
    | some t =>
      cases t with
      | nil => rfl
      | cons c t => simp [optValue]
    | none =>
      have hW : s "WritePointsOnly" = none := by simpa [hO] using h
      rw [hW]
  · intro h1 h2
    unfold absorb
    rw [h2, h1]

example : (absorb (Section.set (fun _ => none) "Overwrite" ['1']) Options.fresh).overwrite = true := by decide

/-- **C218, round trip.**  A block which is saved and loaded writes over the case when it did before. -/
theorem C218_roundtrip_partial (o p : Options) : (absorb (flush o fun _ => none) p).overwrite = o.overwrite := by
  obtain ⟨a, b⟩ := o
  cases a <;> rfl

/-- **C218, violated.**  `WritePointsOnly` is never set. -/
theorem C218_pointsOnly_fails (s : Section) (o : Options) : (absorb s o).pointsOnly = o.pointsOnly := by
  unfold absorb
  cases s "WritePointsOnly" <;> cases s "Overwrite" <;> rfl

/-- **C218, violated.**  `WritePointsOnly` on its own decides whether the case is overwritten. -/
theorem C218_overwritten_fails (s : Section) (o : Options) (t : Text) (h : s "WritePointsOnly" = some t)
    (h2 : s "Overwrite" = none) : (absorb s o).overwrite = documented s "WritePointsOnly" o.overwrite true := by
  unfold absorb documented
  rw [h, h2]
  cases t with
  | nil => rfl
  | cons c t => simp [optValue]

/-- **C218, violated.**  What is saved as `WritePointsOnly` is the other option. -/
theorem C218_saved_fails (o : Options) (s : Section) : flush o s "WritePointsOnly" = flush o s "Overwrite" := by
  simp [flush, Section.set]

end Verif.Foam
