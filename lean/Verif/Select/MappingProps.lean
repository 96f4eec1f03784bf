import Verif.Select.Mapping
import Verif.Select.PidProps
import Verif.Recon.ChooseXml
/-
C156 (what a selection by proximity selects) and C157 (its settings, paths and XML).
-/
namespace Verif.Select
open Verif.Field Verif.Mesh Verif.Recon Verif.Xml Verif.Create
open List hiding get get_of_mem

variable {P : Type}

/-! ### C156 -/

/-- the geometry in the file: MimmoGeometry is asked for directory, name and type -/
def FileGeo (read : Text → Text → Int → Option Nat) (f : Text × Int) (i : Nat) : Prop :=
  read (extractInfo f.1).1 (extractInfo f.1).2.1 f.2 = some i

/-- the cell is near to one of the geometries listed, or to one, not a point cloud, of the files listed -/
def Near (s : Mapping) (w : World P) (read : Text → Text → Int → Option Nat) (t id : Nat) : Prop :=
  (∃ i ∈ s.objs, id ∈ w.near i t s.tol) ∨
  ∃ f ∈ s.files, ∃ i, FileGeo read f i ∧ (w.obj i).type ≠ 3 ∧ id ∈ w.near i t s.tol

theorem mapM_some {α β : Type} {f : α → Option β} : ∀ {l : List α}, (∀ a ∈ l, ∃ b, f a = some b) →
    ∃ ls, l.mapM f = some ls ∧ ∀ b, b ∈ ls ↔ ∃ a ∈ l, f a = some b := by
  intro l
  induction l with
  | nil => intro _; exact ⟨[], rfl, by simp⟩
  | cons a l ih =>
    intro h
    obtain ⟨b, hb⟩ := h a (by simp)
    obtain ⟨ls, h1, h2⟩ := ih (fun x hx => h x (by simp [hx]))
    refine ⟨b :: ls, by rw [mapM_cons, hb, h1]; rfl, fun c => ?_⟩
    simp only [mem_cons, exists_eq_or_imp, h2, hb, Option.some.injEq]
    exact or_congr eq_comm Iff.rfl

theorem mapM_none {α β : Type} {f : α → Option β} : ∀ {l : List α}, (∃ a ∈ l, f a = none) → l.mapM f = none := by
  intro l
  induction l with
  | nil => rintro ⟨a, h, -⟩; cases h
  | cons a l ih =>
    rintro ⟨x, hx, e⟩
    rw [mapM_cons]
    cases ha : f a with
    | none => rfl
    | some b =>
      rcases mem_cons.1 hx with rfl | hx
      · rw [ha] at e; cases e
      · rw [ih ⟨x, hx, e⟩]; rfl

/-- C156: the selection holds, in increasing order, the cells of the linked geometry that are near to one of the geometries or files
listed; with the dual option, the other cells. -/
theorem C156_select (s : Mapping) {w : World P} {read : Text → Text → Int → Option Nat} {t : Nat} (ho : Ok (w.obj t).cells)
    (hnear : ∀ i tol, ∀ id ∈ w.near i t tol, has (w.obj t).cells id = true) (hread : ∀ f ∈ s.files, ∃ i, FileGeo read f i) :
    ∃ r, s.extract w read t = some r ∧ r.Pairwise (· < ·) ∧
      ∀ id, id ∈ r ↔ has (w.obj t).cells id = true ∧ (Near s w read t id ↔ s.dual = false) := by
  obtain ⟨ls, hl, hm⟩ := mapM_some (f := s.nearFile w read t) (l := s.files) (by
    intro f hf
    obtain ⟨i, hi⟩ := hread f hf
    exact ⟨_, by rw [Mapping.nearFile, hi]; rfl⟩)
  unfold Mapping.extract
  rw [hl, Option.bind_some]
  obtain ⟨ex, hex⟩ : ∃ ex, ex = distinct (ls.flatten ++ s.objs.flatMap (s.nearObj w t)) := ⟨_, rfl⟩
  have hmem : ∀ id, id ∈ ex ↔ Near s w read t id := by
    intro id
    rw [hex, mem_distinct, mem_append, mem_flatMap, mem_flatten, or_comm]
    refine or_congr Iff.rfl ?_
    constructor
    · rintro ⟨l, h1, h2⟩
      obtain ⟨f, hf, e⟩ := (hm l).1 h1
      rw [Mapping.nearFile, Option.map_eq_some_iff] at e
      obtain ⟨i, e1, rfl⟩ := e
      by_cases h3 : (w.obj i).type = 3
      · rw [if_pos h3] at h2; cases h2
      · rw [if_neg h3] at h2
        exact ⟨f, hf, i, e1, h3, h2⟩
    · rintro ⟨f, hf, i, e1, h3, h2⟩
      refine ⟨_, (hm _).2 ⟨f, hf, ?_⟩, h2⟩
      rw [Mapping.nearFile, e1, Option.map_some, if_neg h3]
  have hids : ∀ id, id ∈ cellIds (w.obj t) ↔ has (w.obj t).cells id = true := fun id => (has_iff (w.obj t).cells id).symm
  have hsub : ∀ id ∈ ex, id ∈ cellIds (w.obj t) := by
    intro id h
    rw [hids]
    rcases (hmem id).1 h with ⟨i, -, h2⟩ | ⟨f, -, i, -, -, h2⟩ <;> exact hnear _ _ _ h2
  have hnd : ex.Nodup := by rw [hex]; exact nodup_distinct _
  simp only [← hex]
  cases hd : s.dual with
  | false =>
    obtain ⟨s1, s2, -⟩ := Shape.sorted_lt hnd
    refine ⟨Shape.sorted ex, by simp, s1, fun id => ?_⟩
    rw [s2, hmem]
    simp only [iff_true]
    exact ⟨fun h => ⟨(hids id).1 (hsub id ((hmem id).2 h)), h⟩, And.right⟩
  | true =>
    have hcn : (cellIds (w.obj t)).Nodup := ho
    obtain ⟨r, r1, r2, r3⟩ := Shape.complement_spec hcn hnd hsub
    by_cases hl : (cellIds (w.obj t)).length = ex.length
    · refine ⟨[], by simp [hl], by simp, fun id => ?_⟩
      have hfull := subset_full hnd hsub (by omega)
      simp only [not_mem_nil, false_iff, not_and, Bool.true_eq_false, iff_false, not_not]
      intro h; exact (hmem id).1 (hfull id ((hids id).2 h))
    · refine ⟨r, by simp [hl, r1], r2, fun id => ?_⟩
      rw [r3, hids, hmem]
      simp

/-- C156: the patch is the part of the linked geometry made of the cells that are near, or of the others with the dual option -/
theorem C156_patch {close : P → P → Prop} {clean : Obj P → Data P × Data Cell}
    (hclean : ∀ t, ∃ m, Cleaned close t.verts t.cells (clean t).1 (clean t).2 m)
    (s : Mapping) {w : World P} {read : Text → Text → Int → Option Nat} {t : Nat} (hg : s.geo = some t) (htopo : s.topo = (w.obj t).type)
    (ho : Good (w.obj t)) (ht : (w.obj t).type = 1 ∨ (w.obj t).type = 2 ∨ (w.obj t).type = 4)
    (hnear : ∀ i tol, ∀ id ∈ w.near i t tol, has (w.obj t).cells id = true) (hread : ∀ f ∈ s.files, ∃ i, FileGeo read f i) :
    ∃ r m, s.execute clean w read = some r ∧
      SubMeshUpTo close (w.obj t) r (fun id => has (w.obj t).cells id = true ∧ (Near s w read t id ↔ s.dual = false)) m := by
  obtain ⟨ex, e1, -, e2⟩ := C156_select s ho.cells hnear hread
  obtain ⟨r, m, h1, h2⟩ := C101_merged hclean ho ht ex (fun i hi => ((e2 i).1 hi).1)
  refine ⟨r, m, ?_, ?_⟩
  · rw [Mapping.execute, hg, Option.bind_some, e1, Option.bind_some, htopo]
    exact h1
  · have : (fun id => has (w.obj t).cells id = true ∧ (Near s w read t id ↔ s.dual = false)) = (· ∈ ex) := by
      funext id; exact propext (e2 id).symm
    rw [this]; exact h2

/-- C156: a file that cannot be read stops the execution; so does a missing geometry -/
theorem C156_refused (clean : Obj P → Data P × Data Cell) (s : Mapping) (w : World P) (read : Text → Text → Int → Option Nat)
    (h : s.geo = none ∨ ∃ f ∈ s.files, ∀ i, ¬ FileGeo read f i) : s.execute clean w read = none := by
  unfold Mapping.execute
  cases hg : s.geo with
  | none => rfl
  | some t =>
    obtain ⟨f, hf, hn⟩ := h.resolve_left (by simp [hg])
    rw [Option.bind_some, Mapping.extract, mapM_none ⟨f, hf, ?_⟩]
    · rfl
    · rw [Mapping.nearFile, Option.map_eq_none_iff]
      cases hr : read (extractInfo f.1).1 (extractInfo f.1).2.1 f.2 with
      | none => rfl
      | some i => exact absurd hr (hn i)

/-! ### C157: settings -/

/-- calls that change the lists -/
inductive MCall where
  | file (f : Text × Int)
  | geo (i : Nat)
  | dropFile (f : Text)
  | dropFiles
  | dropGeos

/-- what a user sees as the lists after a call: a file type or a geometry that the topology does not allow is ignored, a path keeps its
first type -/
def MCall.after (topo : Nat) (type : Nat → Nat) (c : MCall) (files : Text → Option Int) (geos : Nat → Prop) : (Text → Option Int) × (Nat → Prop) :=
  match c with
  | .file f => (fun p => if p = f.1 ∧ files p = none ∧ f.2 ∈ allowedTypes topo then some f.2 else files p, geos)
  | .geo i => (files, fun j => geos j ∨ j = i ∧ type i ∈ allowedTopology topo)
  | .dropFile f => (fun p => if p = f then none else files p, geos)
  | .dropFiles => (fun _ => none, geos)
  | .dropGeos => (files, fun _ => False)

/-- the type listed for a path -/
def Mapping.typeOf (s : Mapping) (p : Text) : Option Int := (s.files.find? (fun e => e.1 == p)).map Prod.snd

def Mapping.call (s : Mapping) (w : World P) : MCall → Option Mapping
  | .file f => some (s.addFile f)
  | .geo i => s.addGeo w (some i)
  | .dropFile f => some (s.removeFile f)
  | .dropFiles => some s.removeFiles
  | .dropGeos => some s.removeGeos

theorem typeOf_addFile (s : Mapping) (f : Text × Int) (p : Text) : (s.addFile f).typeOf p =
    if p = f.1 ∧ s.typeOf p = none ∧ f.2 ∈ allowedTypes s.topo then some f.2 else s.typeOf p := by
  unfold Mapping.addFile
  by_cases ha : f.2 ∈ allowedTypes s.topo
  · rw [if_pos ha]
    by_cases hany : s.files.any (fun e => e.1 == f.1) = true
    · rw [if_pos hany, if_neg]
      rintro ⟨rfl, h, -⟩
      rw [Mapping.typeOf, Option.map_eq_none_iff, find?_eq_none] at h
      rw [any_eq_true] at hany
      obtain ⟨e, he, he'⟩ := hany
      exact h e he he'
    · rw [if_neg hany]
      unfold Mapping.typeOf
      dsimp only
      rw [find?_append]
      by_cases hp : p = f.1
      · subst hp
        have : s.files.find? (fun e => e.1 == f.1) = none := by
          rw [find?_eq_none]; intro e he h; exact hany (any_eq_true.2 ⟨e, he, h⟩)
        simp [this, ha]
      · rw [if_neg (fun h => hp h.1)]
        have : [f].find? (fun e => e.1 == p) = none := by
          simp [Ne.symm hp]
        rw [this, Option.or_none]
  · rw [if_neg ha, if_neg (fun h => ha h.2.2)]

/-- C157: every call changes the lists of files and geometries as `MCall.after` says, and nothing else -/
theorem C157_calls (s : Mapping) (w : World P) (c : MCall) : ∃ s', s.call w c = some s' ∧
    s'.topo = s.topo ∧ s'.dual = s.dual ∧ s'.tol = s.tol ∧ s'.geo = s.geo ∧
    (∀ p, s'.typeOf p = (c.after s.topo (fun i => (w.obj i).type) s.typeOf (· ∈ s.objs)).1 p) ∧
    (∀ j, j ∈ s'.objs ↔ (c.after s.topo (fun i => (w.obj i).type) s.typeOf (· ∈ s.objs)).2 j) := by
  cases c with
  | file f =>
    refine ⟨_, rfl, ?_, ?_, ?_, ?_, typeOf_addFile s f, fun j => ?_⟩
    all_goals (simp only [MCall.after, Mapping.addFile]; split <;> (try split) <;> first | rfl | exact Iff.rfl)
  | geo i =>
    simp only [Mapping.call, Mapping.addGeo, Option.map_some]
    refine ⟨_, rfl, ?_⟩
    by_cases h : (w.obj i).type ∈ allowedTopology s.topo
    · rw [if_pos h]
      refine ⟨rfl, rfl, rfl, rfl, fun p => rfl, fun j => ?_⟩
      simp only [MCall.after, h, and_true]
      exact mem_insSet s.objs i j
    · rw [if_neg h]
      refine ⟨rfl, rfl, rfl, rfl, fun p => rfl, fun j => ?_⟩
      simp [MCall.after, h]
  | dropFile f =>
    refine ⟨_, rfl, rfl, rfl, rfl, rfl, fun p => ?_, fun j => Iff.rfl⟩
    simp only [MCall.after, Mapping.typeOf, Mapping.removeFile, find?_filter]
    by_cases hp : p = f
    · rw [if_pos hp, Option.map_eq_none_iff, find?_eq_none]
      intro e he h
      subst hp
      simp at h
    · rw [if_neg hp]
      congr 1
      congr 1
      funext e
      by_cases he : e.1 = p
      · simp [he, hp]
      · simp [he]
  | dropFiles => exact ⟨_, rfl, rfl, rfl, rfl, rfl, fun p => rfl, fun j => Iff.rfl⟩
  | dropGeos => exact ⟨_, rfl, rfl, rfl, rfl, rfl, fun p => rfl, fun j => by simp [MCall.after, Mapping.removeGeos]⟩

theorem new_topo (n : Int) : (Mapping.new n).topo = (if n = 2 then 2 else if n = 4 then 4 else 1) := by
  simp only [Mapping.new, clipTopo]
  split <;> split <;> (try split) <;> omega

/-- C157: the constructor with a topology accepts surfaces, volumes and curves and makes a surface of every other number; a geometry is
linked when it has that topology, otherwise nothing changes; negative tolerances give the default -/
theorem C157_settings (n : Int) (s : Mapping) (w : World P) (i : Nat) (t : Rat) (b : Bool) :
    (Mapping.new n).topo = (if n = 2 then 2 else if n = 4 then 4 else 1) ∧ (Mapping.new n).files = [] ∧ (Mapping.new n).objs = [] ∧
    (Mapping.new n).geo = none ∧ (Mapping.new n).dual = false ∧ (Mapping.new n).tol = 1 / 100000000 ∧
    s.setGeometry w none = s ∧ ((w.obj i).type = s.topo → s.setGeometry w (some i) = { s with geo := some i }) ∧
    ((w.obj i).type ≠ s.topo → s.setGeometry w (some i) = s) ∧
    (0 ≤ t → s.setTolerance t = { s with tol := t }) ∧ (t < 0 → s.setTolerance t = { s with tol := 1 / 100000000 }) ∧
    s.setDual b = { s with dual := b } ∧ s.clear = { s with files := [], objs := [], geo := none } ∧ s.addGeo w none = none := by
  refine ⟨?_, rfl, rfl, rfl, rfl, rfl, rfl, fun h => by simp [Mapping.setGeometry, h], fun h => by simp [Mapping.setGeometry, h],
    fun h => ?_, fun h => by simp [Mapping.setTolerance, h], rfl, rfl, rfl⟩
  · exact new_topo n
  · simp only [Mapping.setTolerance]
    rw [if_neg (Rat.not_lt.2 h)]

/-- C157 fails for the constructor with a target: a volume or a curve is never linked (`min` was written for `max`), and negative
tolerances are kept -/
theorem C157_constructor_fails (w : World P) (l : List (Text × Int)) (i : Nat) (t : Rat) :
    (2 ≤ (w.obj i).type → (Mapping.newWith w l (some i) t).geo = none) ∧ (Mapping.newWith w l (some i) t).tol = t := by
  refine ⟨fun h => ?_, rfl⟩
  have hf : ∀ (l : List (Text × Int)) (s : Mapping), (s.setFiles l).geo = s.geo := by
    intro l
    induction l with
    | nil => intro s; rfl
    | cons f l ih =>
      intro s
      show (Mapping.setFiles (s.addFile f) l).geo = s.geo
      rw [ih]
      unfold Mapping.addFile
      split <;> (try split) <;> rfl
  simp only [Mapping.newWith]
  rw [hf]
  have e : min 1 ((w.obj i).type : Int) = 1 := by omega
  simp only [Mapping.setGeometry, e]
  rw [if_pos]
  simp
  omega

/-- C157, what holds: with a surface the constructor links it, lists the files and keeps the tolerance -/
theorem C157_constructor_partial (w : World P) (l : List (Text × Int)) (i : Nat) (t : Rat) (h : (w.obj i).type = 1) :
    Mapping.newWith w l (some i) t = { ({ geo := some i } : Mapping).setFiles l with tol := t } := by
  simp [Mapping.newWith, Mapping.setGeometry, h]

/-! ### C157: paths -/

theorem cutLast_some {key : Char → Bool} {a b : Text} {c : Char} (hc : key c = true) (hb : ∀ x ∈ b, key x = false) :
    cutLast key (a ++ c :: b) = some (a, b) := by
  have h1 : (a ++ c :: b).reverse = b.reverse ++ c :: a.reverse := by simp
  have hb' : ∀ x ∈ b.reverse, (!key x) = true := fun x hx => by simp [hb x (mem_reverse.1 hx)]
  have h2 : ∀ (u v : Text), (∀ x ∈ u, (!key x) = true) → (u ++ c :: v).dropWhile (fun c => !key c) = c :: v ∧
      (u ++ c :: v).takeWhile (fun c => !key c) = u := by
    intro u v hu
    induction u with
    | nil => simp [dropWhile_cons, takeWhile_cons, hc]
    | cons x u ih =>
      have := ih (fun y hy => hu y (by simp [hy]))
      have hx := hu x (by simp)
      simp [dropWhile_cons, takeWhile_cons, hx, this.1, this.2]
  obtain ⟨e1, e2⟩ := h2 b.reverse a.reverse hb'
  unfold cutLast
  rw [h1, e1, e2]
  simp

theorem cutLast_none {key : Char → Bool} {a : Text} (h : ∀ x ∈ a, key x = false) : cutLast key a = none := by
  unfold cutLast
  have : a.reverse.dropWhile (fun c => !key c) = [] := by
    have h' : ∀ x ∈ a.reverse, (!key x) = true := fun x hx => by simp [h x (mem_reverse.1 hx)]
    generalize a.reverse = b at h'
    induction b with
    | nil => rfl
    | cons x b ih => rw [dropWhile_cons, if_pos (h' x (by simp)), ih (fun y hy => h' y (by simp [hy]))]
  rw [this]

/-- a character that separates directories -/
def slash (c : Char) : Bool := c == '/' || c == '\\'

/-- C157: a path with a directory and an extension is taken apart at its last separator and at the last dot after it -/
theorem C157_path {dir name tag : Text} {c : Char} (hc : slash c = true) (hn : ∀ x ∈ name, slash x = false)
    (ht : ∀ x ∈ tag, slash x = false ∧ x ≠ '.') : extractInfo (dir ++ c :: (name ++ '.' :: tag)) = (dir, name, tag) := by
  have h1 : ∀ x ∈ name ++ '.' :: tag, slash x = false := by
    intro x hx
    rcases mem_append.1 hx with hx | hx
    · exact hn x hx
    · rcases mem_cons.1 hx with rfl | hx
      · decide
      · exact (ht x hx).1
  unfold extractInfo
  rw [show (fun c => c == '/' || c == '\\') = slash from rfl, cutLast_some hc h1]
  simp only [Option.getD_some]
  rw [cutLast_some (key := fun c => c == '.') rfl (fun x hx => by simp [(ht x hx).2])]
  rfl

/-- C157 fails for files of the working directory: without a separator the whole name of the file is taken for the directory -/
theorem C157_path_fails {name tag : Text} (hn : ∀ x ∈ name, slash x = false) (ht : ∀ x ∈ tag, slash x = false ∧ x ≠ '.') :
    extractInfo (name ++ '.' :: tag) = (name ++ '.' :: tag, name, tag) := by
  have h1 : ∀ x ∈ name ++ '.' :: tag, slash x = false := by
    intro x hx
    rcases mem_append.1 hx with hx | hx
    · exact hn x hx
    · rcases mem_cons.1 hx with rfl | hx
      · decide
      · exact (ht x hx).1
  unfold extractInfo
  rw [show (fun c => c == '/' || c == '\\') = slash from rfl, cutLast_none h1]
  simp only [Option.getD_none]
  rw [cutLast_some (key := fun c => c == '.') rfl (fun x hx => by simp [(ht x hx).2])]
  rfl

example : extractInfo "geo/../a.b.stl".toList = ("geo/..".toList, "a.b".toList, "stl".toList) ∧
    extractInfo "a.stl".toList = ("a.stl".toList, "a".toList, "stl".toList) := by decide

/-! ### C157: XML -/

theorem stoi_toText {n : Nat} (h : n ≤ INT_MAX) : stoi (toText n) = some (n : Int) := by
  obtain ⟨d1, d2, d3⟩ := toText_spec n
  unfold stoi
  have hd : (toText n).dropWhile blank = toText n := dropWhile_none (fun c hc => (d2 c hc).2)
  have hh : ∀ u, toText n ≠ '-' :: u ∧ toText n ≠ '+' :: u := by
    intro u
    constructor <;> intro e <;> have := (d2 _ (by rw [e]; exact mem_cons_self)).1 <;> simp [isDigit] at this
  rw [hd]
  have hm : signOf (toText n) = (false, toText n) := by
    unfold signOf
    split
    · rename_i u e; exact absurd e (hh u).1
    · rename_i u e; exact absurd e (hh u).2
    · rfl
  rw [hm]
  simp only [takeWhile_digits (fun c hc => (d2 c hc).1), d1, d3, false_or, Bool.false_eq_true, if_false]
  rw [if_neg]
  simp only [INT_MIN]
  omega

theorem trim_toText (n : Nat) : trim (toText n) = toText n := trim_clean (fun c hc => ((toText_spec n).2.1 c hc).2)

/-- C157: without `Topology` the block read from a section is for surfaces; with the number of surfaces, volumes or curves it is for those;
with any other number the construction stops with an exception -/
theorem C157_topology (x : MapXml) : (x.topo = none → ∃ s, Mapping.newXml x = some s ∧ s.topo = 1) ∧
    ∀ n : Nat, n ≤ INT_MAX → x.topo = some (toText n) →
      ((n = 1 ∨ n = 2 ∨ n = 4) → ∃ s, Mapping.newXml x = some s ∧ s.topo = n) ∧ (¬ (n = 1 ∨ n = 2 ∨ n = 4) → Mapping.newXml x = none) := by
  have hf : ∀ (l : List (Text × Int)) (s : Mapping), (s.setFiles l).topo = s.topo := by
    intro l
    induction l with
    | nil => intro s; rfl
    | cons f l ih =>
      intro s
      show (Mapping.setFiles (s.addFile f) l).topo = s.topo
      rw [ih]
      unfold Mapping.addFile
      split <;> (try split) <;> rfl
  have ht : ∀ (s : Mapping), s.wrongTopo x = false →
      ∃ s', s.absorb x = some s' ∧ s'.topo = s.topo := by
    intro s h
    unfold Mapping.absorb
    rw [h, if_neg (by simp)]
    refine ⟨_, rfl, ?_⟩
    simp only [Mapping.readFiles, Mapping.readTol, Mapping.readDual]
    cases x.files <;> simp only [hf] <;> cases x.tol <;> cases x.dual <;> rfl
  constructor
  · intro h
    have e : stoi (trim (x.topo.getD ['-', '1'])) = some (-1) := by rw [h]; decide
    obtain ⟨s', h1, h2⟩ := ht (Mapping.new (-1)) (by rw [Mapping.wrongTopo, h])
    exact ⟨s', by rw [Mapping.newXml, e]; exact h1, h2⟩
  · intro n hn h
    have e : stoi (trim (x.topo.getD ['-', '1'])) = some (n : Int) := by
      rw [h, Option.getD_some, trim_toText]; exact stoi_toText hn
    have er : readSigned (trim (toText n)) = (n : Int) := by
      obtain ⟨a, b⟩ := readSigned_intText (n := (n : Int)) (by unfold INT_MIN; omega) (by omega)
      have : intText (n : Int) = toText n := by unfold intText; rw [if_neg (by omega)]; rfl
      rw [this] at a b
      rw [a, b]
    have hnew : (Mapping.new n).topo = (if (n : Int) = 2 then 2 else if (n : Int) = 4 then 4 else 1) := new_topo n
    constructor
    · intro hv
      have hk : (Mapping.new n).topo = n := by rw [hnew]; split <;> (try split) <;> omega
      obtain ⟨s', h1, h2⟩ := ht (Mapping.new n) (by
        rw [Mapping.wrongTopo, h]
        simp only [if_neg (trim_toText_ne n), er, hk, ne_eq, not_true, decide_false])
      exact ⟨s', by rw [Mapping.newXml, e]; exact h1, h2.trans hk⟩
    · intro hv
      rw [Mapping.newXml, e, Option.bind_some, Mapping.absorb, if_pos]
      rw [Mapping.wrongTopo, h]
      simp only [if_neg (trim_toText_ne n), er]
      rw [decide_eq_true_eq, hnew]
      split <;> (try split) <;> omega

/-- the type given for a path in a list -/
def typeIn (l : List (Text × Int)) (p : Text) : Option Int := (l.find? (fun e => e.1 == p)).map Prod.snd

theorem typeIn_cons (e : Text × Int) (l : List (Text × Int)) (p : Text) : typeIn (e :: l) p = if e.1 = p then some e.2 else typeIn l p := by
  unfold typeIn
  by_cases h : e.1 = p
  · simp [h]
  · simp [h]

theorem typeIn_append (a b : List (Text × Int)) (p : Text) : typeIn (a ++ b) p = (typeIn a p).or (typeIn b p) := by
  unfold typeIn
  rw [find?_append]
  cases a.find? (fun e => e.1 == p) <;> rfl

theorem typeIn_none {l : List (Text × Int)} {p : Text} : typeIn l p = none ↔ p ∉ l.map Prod.fst := by
  unfold typeIn
  rw [Option.map_eq_none_iff, find?_eq_none]
  simp only [mem_map, not_exists, not_and, beq_iff_eq]

theorem typeIn_some {l : List (Text × Int)} (hn : (l.map Prod.fst).Nodup) {p : Text} {v : Int} : typeIn l p = some v ↔ (p, v) ∈ l := by
  induction l with
  | nil => simp [typeIn]
  | cons e l ih =>
    rw [map_cons, nodup_cons] at hn
    rw [typeIn_cons]
    by_cases h : e.1 = p
    · rw [if_pos h]
      constructor
      · intro hv
        have : (p, v) = e := by rw [← h, ← Option.some.inj hv]
        rw [this]; exact mem_cons_self
      · intro hm
        rcases mem_cons.1 hm with he | hm
        · rw [← he]
        · exact absurd (mem_map.2 ⟨_, hm, h.symm⟩) hn.1
    · rw [if_neg h, ih hn.2, mem_cons]
      constructor
      · exact Or.inr
      · rintro (he | hm)
        · exact absurd (by rw [← he]) h
        · exact hm

theorem mapSetT_spec (l : List (Text × Int)) (f : Text × Int) (hn : (l.map Prod.fst).Nodup) :
    ((mapSetT l f).map Prod.fst).Nodup ∧ ∀ p, typeIn (mapSetT l f) p = if p = f.1 then some f.2 else typeIn l p := by
  unfold mapSetT
  by_cases h : l.any (fun e => e.1 == f.1) = true
  · rw [if_pos h]
    have hk : (l.map (fun e => if e.1 = f.1 then f else e)).map Prod.fst = l.map Prod.fst := by
      rw [map_map]
      apply map_congr_left
      intro e _
      simp only [Function.comp]
      by_cases he : e.1 = f.1
      · rw [if_pos he, he]
      · rw [if_neg he]
    refine ⟨by rw [hk]; exact hn, fun p => ?_⟩
    have : ∀ l : List (Text × Int), typeIn (l.map (fun e => if e.1 = f.1 then f else e)) p =
        if p = f.1 ∧ f.1 ∈ l.map Prod.fst then some f.2 else typeIn l p := by
      intro l
      induction l with
      | nil => simp [typeIn]
      | cons e l ih =>
        rw [map_cons, typeIn_cons, typeIn_cons, ih]
        grind
    rw [this l]
    have hm : f.1 ∈ l.map Prod.fst := by
      rw [any_eq_true] at h
      obtain ⟨e, he, he'⟩ := h
      exact mem_map.2 ⟨e, he, by simpa using he'⟩
    simp only [hm, and_true]
  · rw [if_neg h]
    have hm : f.1 ∉ l.map Prod.fst := by
      intro hm
      obtain ⟨e, he, he'⟩ := mem_map.1 hm
      exact h (any_eq_true.2 ⟨e, he, by simpa using he'⟩)
    refine ⟨?_, fun p => ?_⟩
    · rw [map_append, nodup_append]
      refine ⟨hn, by simp, ?_⟩
      intro a ha b hb
      simp only [map_cons, map_nil, mem_singleton] at hb
      rintro rfl
      exact hm (hb ▸ ha)
    · rw [typeIn_append, typeIn_cons]
      by_cases hp : p = f.1
      · subst hp
        rw [typeIn_none.2 hm]; simp
      · rw [if_neg (Ne.symm hp), if_neg hp]
        cases typeIn l p <;> rfl

/-- what `mapp` holds: the last type given for each path -/
theorem mapSetT_fold : ∀ (l acc : List (Text × Int)), (acc.map Prod.fst).Nodup → ((l.foldl mapSetT acc).map Prod.fst).Nodup ∧
    ∀ p, typeIn (l.foldl mapSetT acc) p = (typeIn l.reverse p).or (typeIn acc p) := by
  intro l
  induction l with
  | nil => intro acc h; exact ⟨h, fun p => rfl⟩
  | cons f l ih =>
    intro acc h
    obtain ⟨h1, h2⟩ := mapSetT_spec acc f h
    obtain ⟨h3, h4⟩ := ih _ h1
    refine ⟨h3, fun p => ?_⟩
    rw [foldl_cons, h4, h2, reverse_cons, typeIn_append, typeIn_cons]
    by_cases hp : p = f.1
    · subst hp; cases typeIn l.reverse f.1 <;> simp
    · rw [if_neg hp, if_neg (Ne.symm hp)]
      cases typeIn l.reverse p <;> simp [typeIn]

theorem setFiles_spec : ∀ (l : List (Text × Int)) (s : Mapping), (l.map Prod.fst).Nodup → (s.setFiles l).topo = s.topo ∧
    (s.setFiles l).dual = s.dual ∧ (s.setFiles l).tol = s.tol ∧ (s.setFiles l).geo = s.geo ∧ (s.setFiles l).objs = s.objs ∧
    ∀ p, (s.setFiles l).typeOf p = (s.typeOf p).or ((typeIn l p).filter (· ∈ allowedTypes s.topo)) := by
  intro l
  induction l with
  | nil => intro s _; exact ⟨rfl, rfl, rfl, rfl, rfl, fun p => by simp [Mapping.setFiles, typeIn]⟩
  | cons f l ih =>
    intro s hn
    rw [map_cons, nodup_cons] at hn
    have ha : (s.addFile f).topo = s.topo ∧ (s.addFile f).dual = s.dual ∧ (s.addFile f).tol = s.tol ∧ (s.addFile f).geo = s.geo ∧
        (s.addFile f).objs = s.objs := by
      unfold Mapping.addFile
      split <;> (try split) <;> exact ⟨rfl, rfl, rfl, rfl, rfl⟩
    obtain ⟨h1, h2, h3, h4, h5, h6⟩ := ih (s.addFile f) hn.2
    refine ⟨h1.trans ha.1, h2.trans ha.2.1, h3.trans ha.2.2.1, h4.trans ha.2.2.2.1, h5.trans ha.2.2.2.2, fun p => ?_⟩
    show (Mapping.setFiles (s.addFile f) l).typeOf p = _
    rw [h6, typeOf_addFile, ha.1, typeIn_cons]
    by_cases hp : f.1 = p
    · subst hp
      rw [typeIn_none.2 hn.1]
      cases hs : s.typeOf f.1 with
      | some v => simp
      | none =>
        by_cases hal : f.2 ∈ allowedTypes s.topo <;> simp [hal, Option.filter]
    · rw [if_neg (fun h => hp h.1.symm), if_neg hp]

/-- C157: what a section changes, when its topology is the one of the block: each option decides its own setting; a missing one leaves it as
it was; every file with a path and a known tag allowed by the topology is listed with the last tag it has, unless
its path was listed before -/
theorem C157_absorb {x : MapXml} {s : Mapping} (h : s.wrongTopo x = false) : ∃ s', s.absorb x = some s' ∧ s'.topo = s.topo ∧
    s'.geo = s.geo ∧ s'.objs = s.objs ∧
    s'.dual = (match x.dual with | none => s.dual | some t => readBool (trim t)) ∧
    s'.tol = (match x.tol with | none => s.tol | some t => if t < 0 then 1 / 100000000 else t) ∧
    (x.files = none → s'.files = s.files) ∧
    ∀ l, x.files = some l → ∀ p, s'.typeOf p = (s.typeOf p).or ((typeIn (l.filterMap readFile).reverse p).filter (· ∈ allowedTypes s.topo)) := by
  unfold Mapping.absorb
  rw [h, if_neg (by simp)]
  have hb : ∀ t, (if trim t = [] then false else readBool (trim t)) = readBool (trim t) := by
    intro t
    split
    · next e => rw [e]; rfl
    · rfl
  generalize e1 : s.readDual x = s1
  have f1 : s1.topo = s.topo ∧ s1.geo = s.geo ∧ s1.objs = s.objs ∧ s1.files = s.files ∧ s1.tol = s.tol ∧
      s1.dual = (match x.dual with | none => s.dual | some t => readBool (trim t)) := by
    rw [← e1, Mapping.readDual]
    cases x.dual with
    | none => exact ⟨rfl, rfl, rfl, rfl, rfl, rfl⟩
    | some t => exact ⟨rfl, rfl, rfl, rfl, rfl, hb t⟩
  generalize e2 : s1.readTol x = s2
  have f2 : s2.topo = s1.topo ∧ s2.geo = s1.geo ∧ s2.objs = s1.objs ∧ s2.files = s1.files ∧ s2.dual = s1.dual ∧
      s2.tol = (match x.tol with | none => s1.tol | some t => if t < 0 then 1 / 100000000 else t) := by
    rw [← e2, Mapping.readTol]
    cases x.tol <;> exact ⟨rfl, rfl, rfl, rfl, rfl, rfl⟩
  obtain ⟨a1, a2, a3, a4, a5, a6⟩ := f1
  obtain ⟨b1, b2, b3, b4, b5, b6⟩ := f2
  rw [a5] at b6
  refine ⟨_, rfl, ?_⟩
  rw [Mapping.readFiles]
  cases x.files with
  | none =>
    exact ⟨b1.trans a1, b2.trans a2, b3.trans a3, b5.trans a6, b6, fun _ => b4.trans a4, fun l h => nomatch h⟩
  | some l =>
    obtain ⟨k1, k2⟩ := mapSetT_fold (l.filterMap readFile) [] (by simp)
    obtain ⟨c1, c2, c3, c4, c5, c6⟩ := setFiles_spec ((l.filterMap readFile).foldl mapSetT []) s2 k1
    refine ⟨c1.trans (b1.trans a1), c4.trans (b2.trans a2), c5.trans (b3.trans a3), c2.trans (b5.trans a6), c3.trans b6, (fun h => nomatch h), ?_⟩
    intro l' hl p
    cases hl
    rw [c6, k2, b1, a1]
    have : s2.typeOf p = s.typeOf p := by unfold Mapping.typeOf; rw [b4, a4]
    rw [this]
    simp [typeIn]

/-- a block that can be reached by the calls, whose paths have no blanks around them -/
structure MapOk (s : Mapping) : Prop where
  topo : s.topo = 1 ∨ s.topo = 2 ∨ s.topo = 4
  keys : (s.files.map Prod.fst).Nodup
  allowed : ∀ f ∈ s.files, f.2 ∈ allowedTypes s.topo
  paths : ∀ f ∈ s.files, trim f.1 = f.1 ∧ f.1 ≠ []
  tol : 0 ≤ s.tol

theorem name_known {n : Nat} {c : Int} (h : c ∈ allowedTypes n) : ∃ nm, fileTypes.find? (fun e => e.1 == c) = some (c, nm) ∧
    fileTypes.find? (fun e => e.2 == trim nm) = some (c, nm) := by
  have : c ∈ [0, 1, 2, 3, 5, 99] := by
    unfold allowedTypes at h
    split at h <;> simp only [mem_cons, not_mem_nil, or_false] at h ⊢ <;> omega
  simp only [mem_cons, not_mem_nil, or_false] at this
  rcases this with rfl | rfl | rfl | rfl | rfl | rfl <;> exact ⟨_, rfl, by decide⟩

/-- C157: what a block writes, a block constructed from it reads, in whatever order the files are listed: topology, dual option, tolerance
(up to the digits written) and files with their types; geometries are not written -/
theorem C157_round_trip (sci : Rat → Rat) {s : Mapping} (h : MapOk s) (hs : sci s.tol = s.tol) : ∃ x, s.flush sci = some x ∧
    ∀ l, l.Perm (x.files.getD []) → ∃ s', Mapping.newXml { x with files := some l } = some s' ∧ s'.topo = s.topo ∧ s'.dual = s.dual ∧
      s'.tol = s.tol ∧ s'.geo = none ∧ s'.objs = [] ∧ ∀ p, s'.typeOf p = s.typeOf p := by
  have hm : ∃ L, s.files.mapM (fun f => (fileTypes.find? (fun e => e.1 == f.2)).map fun e => (some f.1, some e.2)) = some L ∧
      L.filterMap readFile = s.files := by
    have h1 := h.allowed
    have h2 := h.paths
    generalize s.files = fs at h1 h2
    induction fs with
    | nil => exact ⟨[], rfl, rfl⟩
    | cons f fs ih =>
      obtain ⟨L, e1, e2⟩ := ih (fun g hg => h1 g (by simp [hg])) (fun g hg => h2 g (by simp [hg]))
      obtain ⟨nm, n1, n2⟩ := name_known (h1 f (by simp))
      refine ⟨(some f.1, some nm) :: L, by rw [mapM_cons, n1, e1]; rfl, ?_⟩
      have : readFile (some f.1, some nm) = some f := by
        simp only [readFile, Option.getD_some, n2, (h2 f (by simp)).1]
        rw [if_neg (h2 f (by simp)).2]
      rw [filterMap_cons, this, e2]
  obtain ⟨L, hL, hr⟩ := hm
  refine ⟨_, by rw [Mapping.flush, hL]; rfl, ?_⟩
  intro l hl
  simp only [Option.getD_some] at hl
  have hn : s.topo ≤ INT_MAX := by have := h.topo; unfold INT_MAX; omega
  have er : readSigned (trim (toText s.topo)) = (s.topo : Int) := by
    obtain ⟨a, b⟩ := readSigned_intText (n := (s.topo : Int)) (by unfold INT_MIN; omega) (by omega)
    have : intText (s.topo : Int) = toText s.topo := by unfold intText; rw [if_neg (by omega)]; rfl
    rw [this] at a b
    rw [a, b]
  have hnew : (Mapping.new s.topo).topo = s.topo := by
    rw [new_topo]
    have := h.topo
    split <;> (try split) <;> omega
  have hw : ∀ x : MapXml, x.topo = some (toText s.topo) → (Mapping.new s.topo).wrongTopo x = false := by
    intro x hx
    rw [Mapping.wrongTopo, hx]
    simp only [if_neg (trim_toText_ne s.topo), er, hnew, ne_eq, not_true, decide_false]
  obtain ⟨s', e, c1, c2, c3, c4, c5, -, c6⟩ := C157_absorb (x := { topo := some (toText s.topo), dual := some (toText (if s.dual then 1 else 0)), tol := if s.tol ≠ 1 / 100000000 then some (sci s.tol) else none, files := some l }) (hw _ rfl)
  refine ⟨s', ?_, c1.trans hnew, ?_, ?_, c2, c3, ?_⟩
  · rw [Mapping.newXml, Option.getD_some, trim_toText, stoi_toText hn]
    exact e
  · rw [c4]
    simp only [readBool_toText]
    cases s.dual <;> rfl
  · rw [c5]
    by_cases ht : s.tol = 1 / 100000000
    · simp only [ht, ne_eq, not_true, if_false]
      rfl
    · simp only [ne_eq, ht, not_false_eq_true, if_true, hs]
      rw [if_neg (Rat.not_lt.2 h.tol)]
  · intro p
    rw [c6 l rfl p]
    have hp : (l.filterMap readFile).reverse.Perm s.files := by
      rw [← hr]
      exact (reverse_perm _).trans (hl.filterMap _)
    have hk : ((l.filterMap readFile).reverse.map Prod.fst).Nodup := (hp.map Prod.fst).nodup_iff.2 h.keys
    have hnone : (Mapping.new s.topo).typeOf p = none := rfl
    rw [hnone, Option.none_or, hnew]
    show _ = typeIn s.files p
    cases hv : typeIn s.files p with
    | none =>
      rw [typeIn_none] at hv
      rw [typeIn_none.2 (fun hm => hv ((hp.map Prod.fst).mem_iff.1 hm))]
      rfl
    | some v =>
      have hmem := (typeIn_some h.keys).1 hv
      rw [(typeIn_some hk).2 (hp.mem_iff.2 hmem)]
      simp [h.allowed _ hmem]

/-- C157: types of files and geometries allowed by each topology -/
theorem C157_allowed (topo : Nat) (t : Int) (k : Nat) :
    (t ∈ allowedTypes topo ↔ topo = 1 ∧ (t = 0 ∨ t = 1 ∨ t = 3 ∨ t = 5 ∨ t = 99) ∨ topo = 2 ∧ (t = 2 ∨ t = 99) ∨ topo = 4 ∧ (t = 5 ∨ t = 99)) ∧
    (k ∈ allowedTopology topo ↔ topo = 1 ∧ (k = 1 ∨ k = 4) ∨ topo = 2 ∧ k = 2 ∨ topo = 4 ∧ k = 4) := by
  by_cases h1 : topo = 1
  · subst h1; simp [allowedTypes, allowedTopology]; grind
  · by_cases h2 : topo = 2
    · subst h2; simp [allowedTypes, allowedTopology]
    · by_cases h4 : topo = 4
      · subst h4; simp [allowedTypes, allowedTopology]
      · simp [allowedTypes, allowedTopology, h1, h2, h4]

/-- C157: a section of a file counts when it has a path, not blank, and a tag that is one of the names of types; blanks around both do
not matter -/
theorem C157_file (f : Option Text × Option Text) (p : Text) (c : Int) : readFile f = some (p, c) ↔
    ∃ path tag, f = (some path, some tag) ∧ p = trim path ∧ p ≠ [] ∧
      (trim tag, c) ∈ [("STL".toList, 0), ("SURFVTU".toList, 1), ("VOLVTU".toList, 2), ("NAS".toList, 3), ("PCVTU".toList, 4),
        ("CURVEVTU".toList, 5), ("MIMMO".toList, (99 : Int))] := by
  have hl : [("STL".toList, 0), ("SURFVTU".toList, 1), ("VOLVTU".toList, 2), ("NAS".toList, 3), ("PCVTU".toList, 4),
        ("CURVEVTU".toList, 5), ("MIMMO".toList, (99 : Int))] = fileTypes.map Prod.swap := by decide
  have hm : ∀ t : Text, (t, c) ∈ fileTypes.map Prod.swap ↔ (c, t) ∈ fileTypes := by
    intro t
    rw [mem_map]
    constructor
    · rintro ⟨⟨x, y⟩, h, h'⟩; cases h'; exact h
    · intro h; exact ⟨_, h, rfl⟩
  have hk : ∀ (t : Text) (e : Int × Text), fileTypes.find? (fun e => e.2 == t) = some e ↔ e ∈ fileTypes ∧ e.2 = t := by
    intro t e
    constructor
    · intro h
      exact ⟨mem_of_find?_eq_some h, by simpa using find?_some h⟩
    · rintro ⟨h, rfl⟩
      simp only [fileTypes, mem_cons, not_mem_nil, or_false] at h
      rcases h with rfl | rfl | rfl | rfl | rfl | rfl | rfl <;> decide
  have ht : trim ([] : Text) = [] := by decide
  rw [hl]
  simp only [hm]
  obtain ⟨a, b⟩ := f
  unfold readFile
  constructor
  · intro h
    simp only at h
    split at h
    · cases h
    · next e he =>
      split at h
      · cases h
      · next hp =>
        cases h
        obtain ⟨h1, h2⟩ := (hk _ _).1 he
        cases a with
        | none => exact absurd ht hp
        | some path =>
          cases b with
          | none =>
            rw [Option.getD_none, ht] at h2
            exfalso
            simp only [fileTypes, mem_cons, not_mem_nil, or_false] at h1
            rcases h1 with rfl | rfl | rfl | rfl | rfl | rfl | rfl <;> cases h2
          | some tag => exact ⟨path, tag, rfl, rfl, hp, by rw [Option.getD_some] at h2; rw [← h2]; exact h1⟩
  · rintro ⟨path, tag, h, rfl, hp, hc⟩
    cases h
    simp only [Option.getD_some]
    rw [(hk (trim tag) (c, trim tag)).2 ⟨hc, rfl⟩]
    simp only [if_neg hp]

/-- a block for surfaces with two files -/
def demoMap : Mapping := ((Mapping.new 1).addFile ("geo/a.stl".toList, 0)).addFile ("geo/b.vtu".toList, 5)

example : MapOk demoMap ∧ demoMap.files.length = 2 ∧ (demoMap.addFile ("geo/c.vtu".toList, 2)).files = demoMap.files ∧
    demoMap.wrongTopo { topo := some [' ', '1'] } = false := by
  refine ⟨⟨.inl rfl, by decide, by decide, by decide, by decide +kernel⟩, by decide, by decide, by decide⟩

/-- geometry 0 is the strip; geometry 1 is near to its cell 9, geometry 2 to its cell 6 -/
def nearWorld : World Int := ⟨fun _ => strip, fun _ => [], fun _ _ => [], fun i _ _ => if i = 1 then [9] else if i = 2 then [6] else []⟩

def nearRead (dir name : Text) (_ : Int) : Option Nat := if dir = "geo".toList ∧ name = "a".toList then some 1 else some 2

def nearBlock : Mapping := (((Mapping.new 1).setGeometry nearWorld (some 0)).addFile ("geo/a.stl".toList, 0)).addFile ("geo/b.vtu".toList, 5)

/-- the hypotheses of `C156_select` and `C156_patch` -/
example : nearBlock.geo = some 0 ∧ nearBlock.topo = (nearWorld.obj 0).type ∧ Good (nearWorld.obj 0) ∧
    (∀ i tol, ∀ id ∈ nearWorld.near i 0 tol, has (nearWorld.obj 0).cells id = true) ∧
    (∀ f ∈ nearBlock.files, ∃ i, FileGeo nearRead f i) ∧
    Near nearBlock nearWorld nearRead 0 6 ∧ Near nearBlock nearWorld nearRead 0 9 ∧ ¬ Near nearBlock nearWorld nearRead 0 4 := by
  refine ⟨by decide +kernel, by decide +kernel, strip_good, ?_, ?_, ?_, ?_, ?_⟩
  · intro i tol id h
    simp only [nearWorld] at h
    split at h
    · rw [mem_singleton.1 h]; decide
    · split at h
      · rw [mem_singleton.1 h]; decide
      · cases h
  · intro f _
    unfold FileGeo nearRead
    split
    · exact ⟨1, rfl⟩
    · exact ⟨2, rfl⟩
  · exact .inr ⟨("geo/b.vtu".toList, 5), by decide +kernel, 2, by unfold FileGeo; decide +kernel, by decide +kernel, by decide +kernel⟩
  · exact .inr ⟨("geo/a.stl".toList, 0), by decide +kernel, 1, by unfold FileGeo; decide +kernel, by decide +kernel, by decide +kernel⟩
  · rintro (⟨i, h, -⟩ | ⟨f, -, i, -, -, h⟩)
    · cases h
    · simp only [nearWorld] at h
      split at h
      · simp at h
      · split at h <;> simp at h

end Verif.Select
