import Verif.Check.Model
import Verif.Select.SubProps
/-
C158 (what the mesh checker reports) and C159 (its settings).
-/
namespace Verif.Check
open Verif.Field Verif.Mesh
open List hiding get get_of_mem
open Verif.Select (addVertex_some addCell_some)

variable {P : Type}

/-! ### Specification -/

/-- a mesh in order: ids once, the vertices and the cells referred to exist, PIDs fit their type -/
structure MeshOk (g : Geo P) : Prop where
  type : 1 ≤ g.obj.type ∧ g.obj.type ≤ 4
  verts : Ok g.obj.verts
  cells : Ok g.obj.cells
  complete : ∀ id c, get g.obj.cells id = some c → ∀ v ∈ vertexIds c, has g.obj.verts v = true
  pid : ∀ id c, get g.obj.cells id = some c → InRange c.pid
  faces : ∀ f ∈ g.faces, has g.obj.cells f.owner = true ∧ ∀ n, f.neigh = some n → has g.obj.cells n = true

/-- the cell belongs to the mesh and is no ghost -/
def Inner (g : Geo P) (id : Nat) : Prop := ∃ c, get g.obj.cells id = some c ∧ c.interior = true

/-- the sides of a cell: interface and normal pointing out of the cell -/
def sides (g : Geo P) (id : Nat) : List (Face × R3) :=
  g.faces.flatMap fun f => (if f.owner = id then [(f, f.normal)] else []) ++ (if f.neigh = some id then [(f, f.normal.neg)] else [])

def areaOf (l : List (Face × R3)) : Rat := (l.map fun s => s.1.area).sum

/-- the side sees the centre of the cell from the right side -/
def Valid (g : Geo P) (id : Nat) (s : Face × R3) : Prop := 0 < (s.1.centre.sub (g.centre id)).dot s.2

instance (g : Geo P) (id : Nat) (s : Face × R3) : Decidable (Valid g id s) := by unfold Valid; infer_instance

/-- the angle at an interface between its normal and the line that joins the centres, or that joins the centre of the cell and the
one of the interface at the border -/
def Skew (ang : R3 → R3 → Rat) (g : Geo P) (f : Face) (a : Rat) : Prop :=
  a = ang (R3.sub (match f.neigh with | none => f.centre | some n => g.centre n) (g.centre f.owner)) f.normal

/-- a cell that fails the volume checks -/
def BadVolume (t : Tols) (g : Geo P) (id : Nat) : Prop := Inner g id ∧ (g.vol id < t.minVol ∨ t.maxVol < g.vol id)

/-- a cell much smaller than a neighbour -/
def BadChange (t : Tols) (g : Geo P) (id : Nat) : Prop :=
  Inner g id ∧ ∃ n, some n ∈ g.adj id ∧ g.vol n ≠ 0 ∧ g.vol id / g.vol n < t.change

/-- a cell with too many invalid faces -/
def BadFaces (t : Tols) (g : Geo P) (id : Nat) : Prop :=
  g.obj.type = 2 ∧ Inner g id ∧ areaOf (sides g id) ≠ 0 ∧ areaOf ((sides g id).filter (Valid g id)) / areaOf (sides g id) < t.face

/-- an interface between cells, or at the border, that is too skewed -/
def BadFace (ang : R3 → R3 → Rat) (t : Tols) (g : Geo P) (border : Bool) (f : Face) : Prop :=
  g.obj.type = 2 ∧ f ∈ g.faces ∧ (border = true ↔ f.neigh = none) ∧ ∀ a, Skew ang g f a → (if border then t.bskew else t.skew) < a

/-- the check with this code fails -/
def Fails (ang : R3 → R3 → Rat) (t : Tols) (g : Geo P) : Int → Prop
  | 1 => ∃ id, BadFaces t g id
  | 2 => ∃ id, BadChange t g id
  | 3 => ∃ f, BadFace ang t g true f
  | 4 => ∃ f, BadFace ang t g false f
  | 5 => ∃ id, Inner g id ∧ g.vol id < t.minVol
  | 6 => ∃ id, Inner g id ∧ t.maxVol < g.vol id
  | _ => False

/-- tolerances within the values the indicators start from -/
structure Sane (t : Tols) : Prop where
  minVol : t.minVol ≤ 1000000000000000000
  maxVol : 0 ≤ t.maxVol
  skew : 0 ≤ t.skew
  bskew : 0 ≤ t.bskew
  face : t.face ≤ 1
  change : t.change ≤ 1

/-- the part of the mesh made of these cells and their vertices -/
structure Sick (o r : Obj P) (S : Nat → Prop) : Prop where
  type : r.type = o.type
  cells : ∀ id c, get r.cells id = some c ↔ S id ∧ get o.cells id = some c
  once : Ok r.cells
  verts : ∀ v p, get r.verts v = some p ↔ get o.verts v = some p ∧ ∃ id c, S id ∧ get o.cells id = some c ∧ v ∈ vertexIds c
  vonce : Ok r.verts

/-! ### Values -/

theorem minD_lt (a b x : Rat) : minD a b < x ↔ a < x ∨ b < x := by unfold minD; grind
theorem lt_maxD (a b x : Rat) : x < maxD a b ↔ x < a ∨ x < b := by unfold maxD; grind

theorem minQ_lt (a b c x : Rat) : minQ a (quot b c) < x ↔ a < x ∨ c ≠ 0 ∧ b / c < x := by
  unfold quot
  by_cases h : c = 0
  · simp [h, minQ]
  · simp [h, minQ, minD_lt]

theorem ltQ_quot (b c x : Rat) : ltQ (quot b c) x = true ↔ c ≠ 0 ∧ b / c < x := by
  unfold quot
  by_cases h : c = 0
  · simp [h, ltQ]
  · simp [h, ltQ]

theorem ratioOf_lt (g : Geo P) (id : Nat) (x : Rat) : ratioOf g id < x ↔ 1 < x ∨ ∃ n, some n ∈ g.adj id ∧ g.vol n ≠ 0 ∧ g.vol id / g.vol n < x := by
  unfold ratioOf
  generalize g.adj id = l
  generalize (1 : Rat) = r
  induction l generalizing r with
  | nil => simp
  | cons e l ih =>
    rw [foldl_cons, ih]
    cases e with
    | none => simp
    | some n =>
      simp only [minQ_lt, mem_cons, Option.some.injEq]
      constructor
      · rintro ((h | h) | ⟨m, h, h'⟩)
        · exact .inl h
        · exact .inr ⟨n, .inl rfl, h⟩
        · exact .inr ⟨m, .inr h, h'⟩
      · rintro (h | ⟨m, rfl | h, h'⟩)
        · exact .inl (.inl h)
        · exact .inl (.inr h')
        · exact .inr ⟨m, h, h'⟩

theorem mem_internals (g : Geo P) (hg : Ok g.obj.cells) (id : Nat) : id ∈ internals g ↔ Inner g id := by
  unfold internals Inner
  simp only [mem_map, mem_filter]
  constructor
  · rintro ⟨⟨i, c⟩, ⟨h, h'⟩, rfl⟩
    exact ⟨c, get_of_mem hg h, h'⟩
  · rintro ⟨c, h, h'⟩
    exact ⟨(id, c), ⟨get_some_mem h, h'⟩, rfl⟩

/-- the loop on the cells of `checkVolume` -/
theorem vol_loop (t : Tols) (g : Geo P) : ∀ (l : List Nat) (s : Found × List Nat × List Nat),
    (∀ x, (l.foldl (volStep t g) s).1.minVol < x ↔ s.1.minVol < x ∨ ∃ id ∈ l, g.vol id < x) ∧
    (∀ x, x < (l.foldl (volStep t g) s).1.maxVol ↔ x < s.1.maxVol ∨ ∃ id ∈ l, x < g.vol id) ∧
    (∀ x, (l.foldl (volStep t g) s).1.change < x ↔ s.1.change < x ∨ ∃ id ∈ l, ratioOf g id < x) ∧
    (l.foldl (volStep t g) s).1.skew = s.1.skew ∧ (l.foldl (volStep t g) s).1.bskew = s.1.bskew ∧
    (l.foldl (volStep t g) s).1.face = s.1.face ∧
    (∀ id, id ∈ (l.foldl (volStep t g) s).2.1 ↔ id ∈ s.2.1 ∨ id ∈ l ∧ (g.vol id < t.minVol ∨ t.maxVol < g.vol id)) ∧
    (∀ id, id ∈ (l.foldl (volStep t g) s).2.2 ↔ id ∈ s.2.2 ∨ id ∈ l ∧ ratioOf g id < t.change) := by
  intro l
  induction l with
  | nil => intro s; simp
  | cons a l ih =>
    intro s
    obtain ⟨h1, h2, h3, h4, h5, h6, h7, h8⟩ := ih (volStep t g s a)
    rw [foldl_cons]
    refine ⟨fun x => ?_, fun x => ?_, fun x => ?_, h4, h5, h6, fun id => ?_, fun id => ?_⟩
    · rw [h1]; simp only [volStep, minD_lt, mem_cons, exists_eq_or_imp, or_assoc]
    · rw [h2]; simp only [volStep, lt_maxD, mem_cons, exists_eq_or_imp, or_assoc]
    · rw [h3]; simp only [volStep, minD_lt, mem_cons, exists_eq_or_imp, or_assoc]
    · rw [h7]; simp only [volStep, mem_append, mem_cons]; grind
    · rw [h8]; simp only [volStep, mem_append, mem_cons]; grind

theorem skew_loop (ang : R3 → R3 → Rat) (t : Tols) (g : Geo P) : ∀ (l : List Face) (s : Found × List Face × List Face),
    (∀ x, x < (l.foldl (skewStep ang t g) s).1.skew ↔ x < s.1.skew ∨ ∃ f ∈ l, f.neigh ≠ none ∧ x < angleOf ang g f) ∧
    (∀ x, x < (l.foldl (skewStep ang t g) s).1.bskew ↔ x < s.1.bskew ∨ ∃ f ∈ l, f.neigh = none ∧ x < angleOf ang g f) ∧
    (l.foldl (skewStep ang t g) s).1.minVol = s.1.minVol ∧ (l.foldl (skewStep ang t g) s).1.maxVol = s.1.maxVol ∧
    (l.foldl (skewStep ang t g) s).1.change = s.1.change ∧ (l.foldl (skewStep ang t g) s).1.face = s.1.face ∧
    (∀ f, f ∈ (l.foldl (skewStep ang t g) s).2.1 ↔ f ∈ s.2.1 ∨ f ∈ l ∧ f.neigh ≠ none ∧ t.skew < angleOf ang g f) := by
  intro l
  induction l with
  | nil => intro s; simp
  | cons a l ih =>
    intro s
    obtain ⟨h1, h2, h3, h4, h5, h6, h7⟩ := ih (skewStep ang t g s a)
    rw [foldl_cons]
    cases hn : a.neigh with
    | none =>
      have e : skewStep ang t g s a = ({ s.1 with bskew := maxD s.1.bskew (angleOf ang g a) }, s.2.1, s.2.2 ++ (if t.bskew < angleOf ang g a then [a] else [])) := by
        simp only [skewStep, hn]
      rw [e] at h1 h2 h3 h4 h5 h6 h7 ⊢
      refine ⟨fun x => ?_, fun x => ?_, h3, h4, h5, h6, fun f => ?_⟩
      · rw [h1]; simp [hn]
      · rw [h2]; simp only [lt_maxD, mem_cons, exists_eq_or_imp, or_assoc, hn, true_and]
      · rw [h7]; simp only [mem_cons]; grind
    | some n =>
      have e : skewStep ang t g s a = ({ s.1 with skew := maxD s.1.skew (angleOf ang g a) }, s.2.1 ++ (if t.skew < angleOf ang g a then [a] else []), s.2.2) := by
        simp only [skewStep, hn]
      rw [e] at h1 h2 h3 h4 h5 h6 h7 ⊢
      refine ⟨fun x => ?_, fun x => ?_, h3, h4, h5, h6, fun f => ?_⟩
      · rw [h1]; simp [hn, lt_maxD, or_assoc]
      · rw [h2]; simp [hn]
      · rw [h7]; simp only [mem_append, mem_cons]; grind

theorem face_loop (t : Tols) (m : (Nat → Rat) × (Nat → Rat)) : ∀ (l : List Nat) (s : Found × List Nat),
    (∀ x, (l.foldl (faceStep t m) s).1.face < x ↔ s.1.face < x ∨ ∃ id ∈ l, m.2 id ≠ 0 ∧ m.1 id / m.2 id < x) ∧
    (l.foldl (faceStep t m) s).1.minVol = s.1.minVol ∧ (l.foldl (faceStep t m) s).1.maxVol = s.1.maxVol ∧
    (l.foldl (faceStep t m) s).1.change = s.1.change ∧ (l.foldl (faceStep t m) s).1.skew = s.1.skew ∧
    (l.foldl (faceStep t m) s).1.bskew = s.1.bskew ∧
    (∀ id, id ∈ (l.foldl (faceStep t m) s).2 ↔ id ∈ s.2 ∨ id ∈ l ∧ m.2 id ≠ 0 ∧ m.1 id / m.2 id < t.face) := by
  intro l
  induction l with
  | nil => intro s; simp
  | cons a l ih =>
    intro s
    obtain ⟨h1, h2, h3, h4, h5, h6, h7⟩ := ih (faceStep t m s a)
    rw [foldl_cons]
    refine ⟨fun x => ?_, h2, h3, h4, h5, h6, fun id => ?_⟩
    · rw [h1]; simp only [faceStep, minQ_lt, mem_cons, exists_eq_or_imp, or_assoc]
    · rw [h7]
      have := ltQ_quot (m.1 a) (m.2 a) t.face
      simp only [faceStep, mem_append, mem_cons]
      grind

theorem areaOf_append (a b : List (Face × R3)) : areaOf (a ++ b) = areaOf a + areaOf b := by
  simp [areaOf]

/-- the two maps hold the area of the valid sides and of all the sides -/
theorem areas_spec (g : Geo P) (id : Nat) : (areas g).1 id = areaOf ((sides g id).filter (Valid g id)) ∧ (areas g).2 id = areaOf (sides g id) := by
  have key : ∀ (l : List Face) (m : (Nat → Rat) × (Nat → Rat)),
      (l.foldl (areaStep g) m).1 id = m.1 id + areaOf ((l.flatMap fun f => (if f.owner = id then [(f, f.normal)] else []) ++ (if f.neigh = some id then [(f, f.normal.neg)] else [])).filter (Valid g id)) ∧
      (l.foldl (areaStep g) m).2 id = m.2 id + areaOf (l.flatMap fun f => (if f.owner = id then [(f, f.normal)] else []) ++ (if f.neigh = some id then [(f, f.normal.neg)] else [])) := by
    intro l
    induction l with
    | nil => intro m; simp [areaOf]
    | cons f l ih =>
      intro m
      rw [foldl_cons, (ih _).1, (ih _).2, flatMap_cons, filter_append, areaOf_append, areaOf_append]
      have side : ∀ (n : R3) (m : (Nat → Rat) × (Nat → Rat)) (k : Nat),
          (areaSide g f n m k).1 id = m.1 id + areaOf ((if k = id then [(f, n)] else []).filter (Valid g id)) ∧
          (areaSide g f n m k).2 id = m.2 id + areaOf (if k = id then [(f, n)] else []) := by
        intro n m k
        by_cases hk : k = id
        · subst hk
          by_cases hv : 0 < (f.centre.sub (g.centre k)).dot n
          · simp [areaSide, hv, addAt, areaOf, Valid]
          · simp [areaSide, hv, addAt, areaOf, Valid]
        · have : ¬ id = k := fun h => hk h.symm
          simp [areaSide, hk, addAt, areaOf, this]
          split
          · show (if id = k then _ else _) = _
            rw [if_neg this]
          · rfl
      have stp : (areaStep g m f).1 id = m.1 id + areaOf (((if f.owner = id then [(f, f.normal)] else []) ++ (if f.neigh = some id then [(f, f.normal.neg)] else [])).filter (Valid g id)) ∧
          (areaStep g m f).2 id = m.2 id + areaOf ((if f.owner = id then [(f, f.normal)] else []) ++ (if f.neigh = some id then [(f, f.normal.neg)] else [])) := by
        rw [filter_append, areaOf_append, areaOf_append]
        unfold areaStep
        cases hn : f.neigh with
        | none =>
          simp only [(side f.normal m f.owner).1, (side f.normal m f.owner).2]
          simp [areaOf]
        | some n =>
          simp only [(side f.normal.neg _ n).1, (side f.normal.neg _ n).2, (side f.normal m f.owner).1, (side f.normal m f.owner).2, Option.some.injEq]
          constructor <;> grind
      rw [stp.1, stp.2]
      constructor <;> grind
  have := key g.faces (fun _ => 0, fun _ => 0)
  unfold areas sides
  rw [this.1, this.2]
  simp

/-! ### Parts -/

theorem addV_loop (g : Geo P) : ∀ (l : List Nat) (r : Obj P), (∀ v ∈ l, has g.obj.verts v = true) → Ok r.verts →
    (∀ v p, get r.verts v = some p → get g.obj.verts v = some p) →
    ∃ r', l.foldlM (addV g) r = some r' ∧ r'.cells = r.cells ∧ r'.type = r.type ∧ Ok r'.verts ∧
      ∀ v p, get r'.verts v = some p ↔ get g.obj.verts v = some p ∧ (v ∈ l ∨ has r.verts v = true) := by
  intro l
  induction l with
  | nil =>
    intro r _ ho hs
    refine ⟨r, rfl, rfl, rfl, ho, fun v p => ⟨fun h => ⟨hs v p h, .inr (by rw [has_eq_isSome, h]; rfl)⟩, ?_⟩⟩
    rintro ⟨h, h' | h'⟩
    · cases h'
    · rw [has_eq_isSome] at h'
      obtain ⟨q, hq⟩ := Option.isSome_iff_exists.1 h'
      rw [hq]; rw [hs v q hq] at h; exact h
  | cons a l ih =>
    intro r hl ho hs
    have ha := hl a (by simp)
    rw [has_eq_isSome] at ha
    obtain ⟨p, hp⟩ := Option.isSome_iff_exists.1 ha
    rw [foldlM_cons]
    by_cases hh : has r.verts a = true
    · have e : addV g r a = some r := by rw [addV, if_pos hh]
      obtain ⟨r', h1, h2, h3, h4, h5⟩ := ih r (fun v hv => hl v (by simp [hv])) ho hs
      refine ⟨r', by rw [e]; exact h1, h2, h3, h4, fun v q => ?_⟩
      rw [h5, mem_cons]
      grind
    · have hf : has r.verts a = false := by simpa using hh
      have e : addV g r a = some (addVertex r 0 p (some a)).1 := by rw [addV, if_neg hh, hp]; rfl
      obtain ⟨a1, a2, a3, a4, a5, a6, a7⟩ := addVertex_some r p a
      rw [hf] at a1
      have a1' : (addVertex r 0 p (some a)).1.verts = r.verts ++ [(a, p)] := by simpa using a1
      obtain ⟨r', h1, h2, h3, h4, h5⟩ := ih (addVertex r 0 p (some a)).1 (fun v hv => hl v (by simp [hv]))
        (by rw [a1']; exact ok_append ho hf) (by
          intro v q
          rw [a1', get_append, get_single]
          cases hv : get r.verts v with
          | some q' => intro h; simp at h; subst h; exact hs v q' hv
          | none =>
            intro h
            by_cases hav : a = v
            · subst hav; simp at h; subst h; exact hp
            · simp [hav] at h)
      refine ⟨r', by rw [e]; exact h1, ?_, ?_, h4, fun v q => ?_⟩
      · rw [h2, a2]
      · rw [h3, a3]
      · rw [h5]
        have : has (addVertex r 0 p (some a)).1.verts v = true ↔ has r.verts v = true ∨ v = a := by
          rw [a1', has_iff, has_iff]; simp
        rw [this, mem_cons]
        grind

theorem sick_congr {o r : Obj P} {S T : Nat → Prop} (h : Sick o r S) (e : ∀ i, S i ↔ T i) : Sick o r T := by
  have : S = T := by funext i; exact propext (e i)
  rw [← this]; exact h

theorem addC_spec {g : Geo P} (hg : MeshOk g) {r : Obj P} {S : Nat → Prop} (hr : Sick g.obj r S) {id : Nat} (hi : Inner g id) :
    ∃ r', addC g r id = some r' ∧ Sick g.obj r' (fun i => S i ∨ i = id) := by
  obtain ⟨c, hc, hin⟩ := hi
  obtain ⟨r1, e1, b1, b2, b3, b4⟩ := addV_loop g (vertexIds c) r (hg.complete id c hc) hr.vonce (fun v p h => ((hr.verts v p).1 h).1)
  have hok : Ok r1.cells := by rw [b1]; exact hr.once
  obtain ⟨a1, a2, a3, -, -, -, -⟩ := addCell_some r1 hok c id (hg.pid id c hc) hin
  refine ⟨(addCell r1 0 c (some id)).1, by rw [addC, hc, Option.bind_some, e1]; rfl, ?_, ?_, ?_, ?_, ?_⟩
  · rw [a3, b2, hr.type]
  · intro i d
    rw [a1, b1]
    by_cases hh : has r.cells id = true
    · rw [if_pos hh, hr.cells]
      constructor
      · rintro ⟨h, h'⟩; exact ⟨.inl h, h'⟩
      · rintro ⟨h | rfl, h'⟩
        · exact ⟨h, h'⟩
        · rw [has_eq_isSome] at hh
          obtain ⟨d', hd⟩ := Option.isSome_iff_exists.1 hh
          exact ⟨((hr.cells i d').1 hd).1, h'⟩
    · rw [if_neg hh, get_append, get_single]
      cases hd : get r.cells i with
      | some d' =>
        have h1 := (hr.cells i d').1 hd
        simp only [Option.some_or, Option.some.injEq]
        constructor
        · rintro rfl; exact ⟨.inl h1.1, h1.2⟩
        · rintro ⟨-, h⟩; rw [h1.2] at h; exact Option.some.inj h
      | none =>
        simp only [Option.none_or]
        have hno : ¬ (S i ∧ get g.obj.cells i = some d) := fun h => by rw [(hr.cells i d).2 h] at hd; cases hd
        by_cases hid : id = i
        · subst hid
          rw [if_pos rfl, hc]
          simp
        · rw [if_neg hid]
          constructor
          · intro h; cases h
          · rintro ⟨h | h, h'⟩
            · exact absurd ⟨h, h'⟩ hno
            · exact absurd h.symm hid
  · rw [a1]; split
    · exact hok
    · next h => exact ok_append hok (by simpa using h)
  · intro v p
    rw [a2, b4]
    constructor
    · rintro ⟨h, h' | h'⟩
      · exact ⟨h, id, c, .inr rfl, hc, h'⟩
      · rw [has_eq_isSome] at h'
        obtain ⟨q, hq⟩ := Option.isSome_iff_exists.1 h'
        obtain ⟨-, i, d, hs, hd, hv⟩ := (hr.verts v q).1 hq
        exact ⟨h, i, d, .inl hs, hd, hv⟩
    · rintro ⟨h, i, d, hs | rfl, hd, hv⟩
      · exact ⟨h, .inr (by rw [has_eq_isSome, (hr.verts v p).2 ⟨h, i, d, hs, hd, hv⟩]; rfl)⟩
      · rw [hc] at hd; cases hd
        exact ⟨h, .inl hv⟩
  · rw [a2]; exact b3

theorem addCs_spec {g : Geo P} (hg : MeshOk g) : ∀ (l : List Nat) {r : Obj P} {S : Nat → Prop}, Sick g.obj r S → (∀ i ∈ l, Inner g i) →
    ∃ r', addCs g r l = some r' ∧ Sick g.obj r' (fun i => S i ∨ i ∈ l) := by
  intro l
  induction l with
  | nil => intro r S hr _; exact ⟨r, rfl, sick_congr hr (by simp)⟩
  | cons a l ih =>
    intro r S hr hl
    obtain ⟨r1, e1, h1⟩ := addC_spec hg hr (hl a (by simp))
    obtain ⟨r2, e2, h2⟩ := ih h1 (fun i hi => hl i (by simp [hi]))
    refine ⟨r2, ?_, sick_congr h2 (by intro i; simp [or_assoc])⟩
    rw [addCs, foldlM_cons, e1]; exact e2

theorem addSide_spec {g : Geo P} (hg : MeshOk g) {r : Obj P} {S : Nat → Prop} (hr : Sick g.obj r S) {id : Nat}
    (hi : has g.obj.cells id = true) : ∃ r', addSide g r id = some r' ∧ Sick g.obj r' (fun i => S i ∨ i = id ∧ Inner g id) := by
  rw [has_eq_isSome] at hi
  obtain ⟨c, hc⟩ := Option.isSome_iff_exists.1 hi
  rw [addSide, hc, Option.bind_some]
  by_cases hin : c.interior = true
  · have hI : Inner g id := ⟨c, hc, hin⟩
    by_cases hh : has r.cells id = true
    · refine ⟨r, by simp [hh], sick_congr hr ?_⟩
      intro i
      constructor
      · exact .inl
      · rintro (h | ⟨rfl, -⟩)
        · exact h
        · rw [has_eq_isSome] at hh
          obtain ⟨d, hd⟩ := Option.isSome_iff_exists.1 hh
          exact ((hr.cells i d).1 hd).1
    · obtain ⟨r', e, h⟩ := addC_spec hg hr hI
      refine ⟨r', ?_, sick_congr h (by intro i; simp [hI])⟩
      have : has r.cells id = false := by simpa using hh
      rw [hin, this]; exact e
  · have : ¬ Inner g id := by
      rintro ⟨d, hd, h⟩
      rw [hc] at hd; cases hd; exact hin h
    refine ⟨r, by simp [hin], sick_congr hr (by simp [this])⟩

theorem addFaces_spec {g : Geo P} (hg : MeshOk g) : ∀ (l : List Face) {r : Obj P} {S : Nat → Prop}, Sick g.obj r S →
    (∀ f ∈ l, f ∈ g.faces ∧ f.neigh ≠ none) →
    ∃ r', l.foldlM (addFace g) r = some r' ∧
      Sick g.obj r' (fun i => S i ∨ Inner g i ∧ ∃ f ∈ l, f.owner = i ∨ f.neigh = some i) := by
  intro l
  induction l with
  | nil => intro r S hr _; exact ⟨r, rfl, sick_congr hr (by simp)⟩
  | cons f l ih =>
    intro r S hr hl
    obtain ⟨hf, hn⟩ := hl f (by simp)
    obtain ⟨n, hn⟩ := Option.ne_none_iff_exists'.1 hn
    have ho := (hg.faces f hf).1
    have hk := (hg.faces f hf).2 n hn
    obtain ⟨r1, e1, h1⟩ := addSide_spec hg hr ho
    obtain ⟨r2, e2, h2⟩ := addSide_spec hg h1 hk
    obtain ⟨r3, e3, h3⟩ := ih h2 (fun i hi => hl i (by simp [hi]))
    refine ⟨r3, ?_, sick_congr h3 ?_⟩
    · rw [foldlM_cons]
      have : addFace g r f = some r2 := by
        rw [has_eq_isSome] at ho hk
        obtain ⟨c, hc⟩ := Option.isSome_iff_exists.1 ho
        obtain ⟨d, hd⟩ := Option.isSome_iff_exists.1 hk
        rw [addFace, hc, hn]
        simp only [Option.bind_some, hd, e1, Option.getD_some, e2]
      rw [this]; exact e3
    · intro i
      simp only [mem_cons, exists_eq_or_imp, hn, Option.some.injEq]
      grind

/-! ### C158 -/

theorem angleOf_skew (ang : R3 → R3 → Rat) (g : Geo P) (f : Face) (x : Rat) : (∀ a, Skew ang g f a → x < a) ↔ x < angleOf ang g f := by
  unfold Skew angleOf
  cases f.neigh <;> simp

/-- the checks of one geometry: indicators found, and parts of the sick cells -/
theorem quality_spec (ang : R3 → R3 → Rat) (t : Tols) {g : Geo P} (hg : MeshOk g) (f : Found) {p : Parts P}
    (hv : Sick g.obj p.volume (fun _ => False)) (hc : Sick g.obj p.change (fun _ => False)) (hs : Sick g.obj p.skew (fun _ => False))
    (hf : Sick g.obj p.face (fun _ => False)) :
    ∃ f' p', checkMeshQuality ang t g f p = (f', some p', verdict t f') ∧
      (∀ x, f'.minVol < x ↔ f.minVol < x ∨ ∃ id, Inner g id ∧ g.vol id < x) ∧
      (∀ x, x < f'.maxVol ↔ x < f.maxVol ∨ ∃ id, Inner g id ∧ x < g.vol id) ∧
      (∀ x, f'.change < x ↔ f.change < x ∨ ∃ id, Inner g id ∧ (1 < x ∨ ∃ n, some n ∈ g.adj id ∧ g.vol n ≠ 0 ∧ g.vol id / g.vol n < x)) ∧
      (∀ x, x < f'.skew ↔ x < f.skew ∨ g.obj.type = 2 ∧ ∃ i ∈ g.faces, i.neigh ≠ none ∧ x < angleOf ang g i) ∧
      (∀ x, x < f'.bskew ↔ x < f.bskew ∨ g.obj.type = 2 ∧ ∃ i ∈ g.faces, i.neigh = none ∧ x < angleOf ang g i) ∧
      (∀ x, f'.face < x ↔ f.face < x ∨ g.obj.type = 2 ∧ ∃ id, Inner g id ∧ areaOf (sides g id) ≠ 0 ∧
        areaOf ((sides g id).filter (Valid g id)) / areaOf (sides g id) < x) ∧
      Sick g.obj p'.volume (BadVolume t g) ∧
      Sick g.obj p'.change (fun id => Inner g id ∧ (1 < t.change ∨ ∃ n, some n ∈ g.adj id ∧ g.vol n ≠ 0 ∧ g.vol id / g.vol n < t.change)) ∧
      Sick g.obj p'.skew (fun id => Inner g id ∧ ∃ i, BadFace ang t g false i ∧ (i.owner = id ∨ i.neigh = some id)) ∧
      Sick g.obj p'.face (BadFaces t g) := by
  obtain ⟨v1, v2, v3, v4, v5, v6, v7, v8⟩ := vol_loop t g (internals g) (f, [], [])
  have hI := mem_internals g hg.cells
  generalize e1 : (internals g).foldl (volStep t g) (f, [], []) = s1 at v1 v2 v3 v4 v5 v6 v7 v8
  obtain ⟨f1, sv, sc⟩ := s1
  simp only [not_mem_nil, false_or, hI] at v1 v2 v3 v4 v5 v6 v7 v8
  obtain ⟨rv, ev, Hv⟩ := addCs_spec hg sv hv (fun i hi => ((v7 i).1 hi).1)
  obtain ⟨rc, ec, Hc⟩ := addCs_spec hg sc hc (fun i hi => ((v8 i).1 hi).1)
  have eV : checkVolume t g f p = (f1, some { p with volume := rv, change := rc }) := by
    unfold checkVolume
    rw [e1]
    simp only [ev, ec, Option.bind_some, Option.map_some]
  have HV : Sick g.obj rv (BadVolume t g) := sick_congr Hv (by intro i; rw [v7, false_or]; rfl)
  have HC : Sick g.obj rc (fun id => Inner g id ∧ (1 < t.change ∨ ∃ n, some n ∈ g.adj id ∧ g.vol n ≠ 0 ∧ g.vol id / g.vol n < t.change)) :=
    sick_congr Hc (by intro i; rw [v8, false_or, ratioOf_lt])
  have v3' : ∀ x, f1.change < x ↔ f.change < x ∨ ∃ id, Inner g id ∧ (1 < x ∨ ∃ n, some n ∈ g.adj id ∧ g.vol n ≠ 0 ∧ g.vol id / g.vol n < x) := by
    intro x
    rw [v3]
    simp only [ratioOf_lt]
  by_cases ht : g.obj.type = 2
  · obtain ⟨w1, w2, w3, w4, w5, w6, w7⟩ := skew_loop ang t g g.faces (f1, [], [])
    generalize e2 : g.faces.foldl (skewStep ang t g) (f1, [], []) = s2 at w1 w2 w3 w4 w5 w6 w7
    obtain ⟨f2, ss, sb⟩ := s2
    simp only [not_mem_nil, false_or] at w1 w2 w3 w4 w5 w6 w7
    obtain ⟨rs, es, Hs⟩ := addFaces_spec hg ss hs (fun i hi => ⟨((w7 i).1 hi).1, ((w7 i).1 hi).2.1⟩)
    have eS : ∀ q : Parts P, q.skew = p.skew → checkSkewness ang t g f1 q = (f2, some { q with skew := rs }) := by
      intro q hq
      unfold checkSkewness
      rw [if_neg (by simp [ht]), e2]
      simp only [hq, es, Option.map_some]
    obtain ⟨u1, u2, u3, u4, u5, u6, u7⟩ := face_loop t (areas g) (internals g) (f2, [])
    generalize e3 : (internals g).foldl (faceStep t (areas g)) (f2, []) = s3 at u1 u2 u3 u4 u5 u6 u7
    obtain ⟨f3, sf⟩ := s3
    simp only [not_mem_nil, false_or, hI, (areas_spec g _).1, (areas_spec g _).2] at u1 u2 u3 u4 u5 u6 u7
    obtain ⟨rf, ef, Hf⟩ := addCs_spec hg sf hf (fun i hi => ((u7 i).1 hi).1)
    have eF : ∀ q : Parts P, q.face = p.face → checkFaceValidity t g f2 q = (f3, some { q with face := rf }) := by
      intro q hq
      unfold checkFaceValidity
      rw [if_neg (by simp [ht]), e3]
      simp only [hq, ef, Option.map_some]
    refine ⟨f3, ⟨rv, rc, rs, rf⟩, ?_, ?_, ?_, ?_, ?_, ?_, ?_, HV, HC, ?_, ?_⟩
    · simp only [checkMeshQuality, eV, eS ⟨rv, rc, p.skew, p.face⟩ rfl, eF ⟨rv, rc, rs, p.face⟩ rfl]
    · intro x; rw [u2, w3, v1]
    · intro x; rw [u3, w4, v2]
    · intro x; rw [u4, w5, v3']
    · intro x; rw [u5, w1, v4]; simp [ht]
    · intro x; rw [u6, w2, v5]; simp [ht]
    · intro x; rw [u1, w6, v6]; simp [ht]
    · refine sick_congr Hs ?_
      intro i
      rw [false_or]
      apply and_congr_right
      intro _
      constructor
      · rintro ⟨k, hk, h⟩
        obtain ⟨k1, k2, k3⟩ := (w7 k).1 hk
        exact ⟨k, ⟨ht, k1, by simp [k2], (angleOf_skew ang g k _).2 k3⟩, h⟩
      · rintro ⟨k, ⟨-, k1, k2, k3⟩, h⟩
        exact ⟨k, (w7 k).2 ⟨k1, by simpa using k2, (angleOf_skew ang g k _).1 k3⟩, h⟩
    · refine sick_congr Hf ?_
      intro i
      rw [false_or, u7, BadFaces]
      simp [ht]
  · have eS : ∀ q : Parts P, checkSkewness ang t g f1 q = (f1, some q) := by
      intro q; unfold checkSkewness; rw [if_pos ht]
    have eF : ∀ q : Parts P, checkFaceValidity t g f1 q = (f1, some q) := by
      intro q; unfold checkFaceValidity; rw [if_pos ht]
    refine ⟨f1, ⟨rv, rc, p.skew, p.face⟩, ?_, v1, v2, v3', ?_, ?_, ?_, HV, HC, ?_, ?_⟩
    · simp only [checkMeshQuality, eV, eS, eF]
    · intro x; rw [v4]; simp [ht]
    · intro x; rw [v5]; simp [ht]
    · intro x; rw [v6]; simp [ht]
    · exact sick_congr hs (by intro i; simp [BadFace, ht])
    · exact sick_congr hf (by intro i; simp [BadFaces, ht])

theorem fresh_sick {g : Geo P} (hg : MeshOk g) : ∃ p : Parts P, freshParts g.obj.type = some p ∧ Sick g.obj p.volume (fun _ => False) ∧
    Sick g.obj p.change (fun _ => False) ∧ Sick g.obj p.skew (fun _ => False) ∧ Sick g.obj p.face (fun _ => False) := by
  obtain ⟨h1, h4⟩ := hg.type
  have hm : (max (g.obj.type : Int) 1).toNat = g.obj.type := by omega
  have : ∃ o : Obj P, ctor (g.obj.type : Int) = some o ∧ o.type = g.obj.type ∧ o.verts = [] ∧ o.cells = [] := by
    unfold ctor
    simp only [hm]
    rw [if_neg (by omega)]
    exact ⟨_, rfl, rfl, rfl, rfl⟩
  obtain ⟨o, e, a, b, c⟩ := this
  have hs : Sick g.obj o (fun _ => False) := by
    refine ⟨a, ?_, ?_, ?_, ?_⟩
    · intro id d; rw [c]; simp [Verif.Field.get]
    · rw [c]; unfold Ok; simp
    · intro v p; rw [b]; simp [Verif.Field.get]
    · rw [b]; unfold Ok; simp
  exact ⟨⟨o, o, o, o⟩, by rw [freshParts, e]; rfl, hs, hs, hs, hs⟩

/-- the indicators of a block that was never executed -/
theorem quality_fresh (ang : R3 → R3 → Rat) {t : Tols} (ht : Sane t) {g : Geo P} (hg : MeshOk g) {p : Parts P}
    (hv : Sick g.obj p.volume (fun _ => False)) (hc : Sick g.obj p.change (fun _ => False)) (hs : Sick g.obj p.skew (fun _ => False))
    (hf : Sick g.obj p.face (fun _ => False)) :
    ∃ f' p', checkMeshQuality ang t g {} p = (f', some p', verdict t f') ∧
      (f'.face < t.face ↔ Fails ang t g 1) ∧ (f'.change < t.change ↔ Fails ang t g 2) ∧ (t.bskew < f'.bskew ↔ Fails ang t g 3) ∧
      (t.skew < f'.skew ↔ Fails ang t g 4) ∧ (f'.minVol < t.minVol ↔ Fails ang t g 5) ∧ (t.maxVol < f'.maxVol ↔ Fails ang t g 6) ∧
      Sick g.obj p'.volume (BadVolume t g) ∧ Sick g.obj p'.change (BadChange t g) ∧
      Sick g.obj p'.skew (fun id => Inner g id ∧ ∃ i, BadFace ang t g false i ∧ (i.owner = id ∨ i.neigh = some id)) ∧
      Sick g.obj p'.face (BadFaces t g) := by
  obtain ⟨f', p', e, h1, h2, h3, h4, h5, h6, k1, k2, k3, k4⟩ := quality_spec ang t hg {} hv hc hs hf
  have n1 : ¬ (1 : Rat) < t.change := Rat.not_lt.2 ht.change
  have n2 : ¬ (1 : Rat) < t.face := Rat.not_lt.2 ht.face
  have n3 : ¬ t.bskew < (0 : Rat) := Rat.not_lt.2 ht.bskew
  have n4 : ¬ t.skew < (0 : Rat) := Rat.not_lt.2 ht.skew
  have n5 : ¬ (1000000000000000000 : Rat) < t.minVol := Rat.not_lt.2 ht.minVol
  have n6 : ¬ t.maxVol < (0 : Rat) := Rat.not_lt.2 ht.maxVol
  refine ⟨f', p', e, ?_, ?_, ?_, ?_, ?_, ?_, k1, sick_congr k2 (by intro i; simp [BadChange, n1]), k3, k4⟩
  · rw [h6]; simp only [n2, false_or, Fails, BadFaces]
    constructor
    · rintro ⟨h, id, h'⟩; exact ⟨id, h, h'⟩
    · rintro ⟨id, h, h'⟩; exact ⟨h, id, h'⟩
  · rw [h3]; simp only [n1, false_or, Fails, BadChange]
  · rw [h5]; simp only [n3, false_or, Fails, BadFace, if_true, true_iff, angleOf_skew]
    constructor
    · rintro ⟨h, i, h'⟩; exact ⟨i, h, h'⟩
    · rintro ⟨i, h, h'⟩; exact ⟨h, i, h'⟩
  · rw [h4]; simp only [n4, false_or, Fails, BadFace, Bool.false_eq_true, if_false, false_iff, angleOf_skew, ne_eq]
    constructor
    · rintro ⟨h, i, h'⟩; exact ⟨i, h, h'⟩
    · rintro ⟨i, h, h'⟩; exact ⟨h, i, h'⟩
  · rw [h1]; simp only [n5, false_or, Fails]
  · rw [h2]; simp only [n6, false_or, Fails]

theorem exec_eq {ang : R3 → R3 → Rat} {w : Nat → Geo P} {s : Checker P} {i : Nat} {p : Parts P} {f' : Found} {p' : Option (Parts P)} {c : Int}
    (hi : s.geo = some i) (e : freshParts (w i).obj.type = some p) (e' : checkMeshQuality ang s.tols (w i) s.found p = (f', p', c)) :
    s.execute ang w = some { s with found := f', parts := p', status := c, good := decide (c = 0) } := by
  rw [Checker.execute, hi, Option.bind_some, e, Option.map_some, e']

/-- C158: the first execution of the block on a mesh in order is completed; the mesh is good exactly when no check fails, and
otherwise the status is the least code of a check that fails. -/
theorem C158_status (ang : R3 → R3 → Rat) {w : Nat → Geo P} {s : Checker P} {i : Nat} (hi : s.geo = some i) (hg : MeshOk (w i)) (hf : s.found = {})
    (ht : Sane s.tols) : ∃ s', s.execute ang w = some s' ∧ (s'.good = true ↔ s'.status = 0) ∧
      (s'.status = 0 ↔ ∀ k, ¬ Fails ang s.tols (w i) k) ∧
      (∀ k, k ≠ 0 → (s'.status = k ↔ Fails ang s.tols (w i) k ∧ ∀ j, j < k → ¬ Fails ang s.tols (w i) j)) ∧
      s'.tols = s.tols ∧ s'.geo = s.geo ∧ s'.resume = s.resume := by
  obtain ⟨p, e, a1, a2, a3, a4⟩ := fresh_sick hg
  obtain ⟨f', p', e', c1, c2, c3, c4, c5, c6, -⟩ := quality_fresh ang ht hg a1 a2 a3 a4
  rw [← hf] at e'
  refine ⟨_, exec_eq hi e e', by simp, ?_, ?_, rfl, rfl, rfl⟩
  · show verdict s.tols f' = 0 ↔ _
    unfold verdict
    constructor
    · intro h k hk
      have : k = 1 ∨ k = 2 ∨ k = 3 ∨ k = 4 ∨ k = 5 ∨ k = 6 := by
        unfold Fails at hk
        split at hk <;> simp_all
      rcases this with rfl | rfl | rfl | rfl | rfl | rfl <;> grind
    · intro h
      have := h 1; have := h 2; have := h 3; have := h 4; have := h 5; have := h 6
      grind
  · intro k hk
    show verdict s.tols f' = k ↔ _
    have hfew : ∀ j, Fails ang s.tols (w i) j → j = 1 ∨ j = 2 ∨ j = 3 ∨ j = 4 ∨ j = 5 ∨ j = 6 := by
      intro j hj
      unfold Fails at hj
      split at hj <;> simp_all
    unfold verdict
    constructor
    · intro h
      constructor
      · grind
      · intro j hj hF
        rcases hfew j hF with rfl | rfl | rfl | rfl | rfl | rfl <;> grind
    · rintro ⟨h, h'⟩
      have := h' 1; have := h' 2; have := h' 3; have := h' 4; have := h' 5; have := h' 6
      rcases hfew k h with rfl | rfl | rfl | rfl | rfl | rfl <;> grind

/-- C158: the cells reported are those that fail the check of volume, of volume change, of skewness between cells (the cells on both
sides) and of validity, with their vertices. -/
theorem C158_parts (ang : R3 → R3 → Rat) {w : Nat → Geo P} {s : Checker P} {i : Nat} (hi : s.geo = some i) (hg : MeshOk (w i)) (hf : s.found = {})
    (ht : Sane s.tols) : ∃ s' p, s.execute ang w = some s' ∧ s'.parts = some p ∧
      Sick (w i).obj p.volume (BadVolume s.tols (w i)) ∧ Sick (w i).obj p.change (BadChange s.tols (w i)) ∧
      Sick (w i).obj p.skew (fun id => Inner (w i) id ∧ ∃ f, BadFace ang s.tols (w i) false f ∧ (f.owner = id ∨ f.neigh = some id)) ∧
      Sick (w i).obj p.face (BadFaces s.tols (w i)) := by
  obtain ⟨p, e, a1, a2, a3, a4⟩ := fresh_sick hg
  obtain ⟨f', p', e', -, -, -, -, -, -, b⟩ := quality_fresh ang ht hg a1 a2 a3 a4
  rw [← hf] at e'
  exact ⟨_, p', exec_eq hi e e', rfl, b⟩

/-- C158: without a geometry the execution ends with an exception -/
theorem C158_refused (ang : R3 → R3 → Rat) (w : Nat → Geo P) {s : Checker P} (h : s.geo = none) : s.execute ang w = none := by
  rw [Checker.execute, h]; rfl

/-- C158 does not hold for a block that was executed before: once a check has failed, no mesh is good any more -/
theorem C158_again_fails (ang : R3 → R3 → Rat) {w : Nat → Geo P} {s s1 s2 : Checker P} {i : Nat} (hg : MeshOk (w i))
    (h1 : s.execute ang w = some s1) (hbad : 0 < s1.status) (h2 : (s1.setGeometry (some i)).execute ang w = some s2) : s2.good = false := by
  obtain ⟨k, hk⟩ : ∃ k, s.geo = some k := by
    cases h : s.geo with
    | none => rw [C158_refused ang w h] at h1; cases h1
    | some k => exact ⟨k, rfl⟩
  have hv : s1.tols = s.tols ∧ s1.status = verdict s.tols s1.found := by
    rw [Checker.execute, hk, Option.bind_some] at h1
    cases hp : (freshParts (w k).obj.type : Option (Parts P)) with
    | none => rw [hp] at h1; cases h1
    | some p =>
      rw [hp, Option.map_some] at h1
      have h1 := Option.some.inj h1
      subst h1
      refine ⟨rfl, ?_⟩
      simp only at hbad ⊢
      unfold checkMeshQuality at hbad ⊢
      split at hbad
      · simp at hbad
      · split at hbad
        · simp at hbad
        · split at hbad
          · simp at hbad
          · simp_all
  obtain ⟨p, e, a1, a2, a3, a4⟩ := fresh_sick hg
  obtain ⟨f', p', e', c1, c2, c3, c4, c5, c6, -⟩ := quality_spec ang s1.tols hg s1.found a1 a2 a3 a4
  have e2 : s2 = { s1.setGeometry (some i) with found := f', parts := some p', status := verdict s1.tols f', good := decide (verdict s1.tols f' = 0) } := by
    have : (s1.setGeometry (some i)).execute ang w = some { s1.setGeometry (some i) with found := f', parts := some p', status := verdict s1.tols f', good := decide (verdict s1.tols f' = 0) } := by
      exact exec_eq rfl e e'
    rw [h2] at this
    exact Option.some.inj this
  rw [e2]
  simp only [decide_eq_false_iff_not]
  rw [hv.2, ← hv.1] at hbad
  have d1 := (c1 s1.tols.minVol).2
  have d2 := (c2 s1.tols.maxVol).2
  have d3 := (c3 s1.tols.change).2
  have d4 := (c4 s1.tols.skew).2
  have d5 := (c5 s1.tols.bskew).2
  have d6 := (c6 s1.tols.face).2
  unfold verdict at hbad ⊢
  clear e2 h2 e' c1 c2 c3 c4 c5 c6 a1 a2 a3 a4
  grind

/-- C158 does not hold for interfaces at the border: when only these are too skewed, the status says so but no cell is reported -/
theorem C158_border_fails (ang : R3 → R3 → Rat) {w : Nat → Geo P} {s : Checker P} {i : Nat} (hi : s.geo = some i) (hg : MeshOk (w i)) (hf : s.found = {})
    (ht : Sane s.tols) (hb : ∀ k, Fails ang s.tols (w i) k ↔ k = 3) :
    ∃ s', s.execute ang w = some s' ∧ s'.status = 3 ∧ s'.plot = some [] := by
  obtain ⟨s', e, -, -, h, -, hgeo, -⟩ := C158_status ang hi hg hf ht
  obtain ⟨s'', p, e', hp, k1, k2, k3, k4⟩ := C158_parts ang hi hg hf ht
  rw [e] at e'; cases e'
  have hs : s'.status = 3 := (h 3 (by decide)).2 ⟨(hb 3).2 rfl, fun j hj hF => by have := (hb j).1 hF; omega⟩
  refine ⟨s', e, hs, ?_⟩
  have emp : ∀ {r : Obj P} {S : Nat → Prop}, Sick (w i).obj r S → (∀ id, ¬ S id) → r.cells = [] := by
    intro r S hr hS
    cases hc : r.cells with
    | nil => rfl
    | cons c l =>
      have : get r.cells c.1 = some c.2 := get_of_mem hr.once (by rw [hc]; simp)
      exact absurd ((hr.cells _ _).1 this).1 (hS _)
  have f1 := emp k1 (by
    intro id h
    have h5 : ¬ Fails ang s.tols (w i) 5 := fun h => by have := (hb 5).1 h; omega
    have h6 : ¬ Fails ang s.tols (w i) 6 := fun h => by have := (hb 6).1 h; omega
    rcases h with ⟨hI, h | h⟩
    · exact h5 ⟨id, hI, h⟩
    · exact h6 ⟨id, hI, h⟩)
  have f2 := emp k2 (fun id h => by have := (hb 2).1 ⟨id, h⟩; omega)
  have f3 := emp k3 (by rintro id ⟨-, f, h, -⟩; have := (hb 4).1 ⟨f, h⟩; omega)
  have f4 := emp k4 (fun id h => by have := (hb 1).1 ⟨id, h⟩; omega)
  rw [Checker.plot, hgeo, hi, hs, hp, if_neg (by simp)]
  simp [f1, f2, f3, f4]

/-! ### C159 -/

/-- C159: default tolerances, and what each setter changes; tolerances of skewness are given in degrees -/
theorem C159_settings (pi : Rat) (s : Checker P) (v : Rat) (g : Nat) :
    (Checker.new pi : Checker P).tols = ⟨1 / 100000000000000, 10000000000, 85 * (pi / 180), 85 * (pi / 180), 1 / 2, 1 / 100000⟩ ∧
    (Checker.new pi : Checker P).status = -1 ∧ (Checker.new pi : Checker P).good = false ∧ (Checker.new pi : Checker P).geo = none ∧
    (s.setMinVol v).tols = { s.tols with minVol := v } ∧ (s.setMaxVol v).tols = { s.tols with maxVol := v } ∧
    (s.setSkew pi v).tols = { s.tols with skew := v * (pi / 180) } ∧ (s.setBoundarySkew pi v).tols = { s.tols with bskew := v * (pi / 180) } ∧
    (s.setFace v).tols = { s.tols with face := v } ∧ (s.setChange v).tols = { s.tols with change := v } ∧
    s.setGeometry none = s ∧ s.setGeometry (some g) = { s with geo := some g } := by
  have h : v / 180 * pi = v * (pi / 180) := by grind
  have h' : 85 * pi / 180 = 85 * (pi / 180) := by grind
  refine ⟨?_, rfl, rfl, rfl, rfl, rfl, ?_, ?_, rfl, rfl, rfl, rfl⟩
  · simp only [Checker.new, defTols, h']
  · simp only [Checker.setSkew, h]
  · simp only [Checker.setBoundarySkew, h]

/-- C159, for the tolerances that are not angles: what a block writes, another reads -/
theorem C159_round_trip_partial (pi : Rat) (sci : Rat → Rat) (s s0 : Checker P) (h : sci s.tols.minVol = s.tols.minVol ∧ sci s.tols.maxVol = s.tols.maxVol ∧
    sci s.tols.face = s.tols.face ∧ sci s.tols.change = s.tols.change) :
    (s0.absorb pi (s.flush sci)).tols.minVol = s.tols.minVol ∧ (s0.absorb pi (s.flush sci)).tols.maxVol = s.tols.maxVol ∧
    (s0.absorb pi (s.flush sci)).tols.face = s.tols.face ∧ (s0.absorb pi (s.flush sci)).tols.change = s.tols.change ∧
    (s0.absorb pi (s.flush sci)).resume = s.resume := by
  obtain ⟨h1, h2, h3, h4⟩ := h
  refine ⟨?_, ?_, ?_, ?_, ?_⟩ <;>
    simp [Checker.absorb, Checker.flush, opt, Checker.setMinVol, Checker.setMaxVol, Checker.setSkew, Checker.setBoundarySkew, Checker.setFace, Checker.setChange, h1, h2, h3, h4]

/-- C159 does not hold for the tolerances of skewness: they are written in radians and read in degrees -/
theorem C159_skew_fails (pi : Rat) (sci : Rat → Rat) (s s0 : Checker P) (h : sci s.tols.skew = s.tols.skew) (hb : sci s.tols.bskew = s.tols.bskew) :
    (s0.absorb pi (s.flush sci)).tols.skew = s.tols.skew * (pi / 180) ∧ (s0.absorb pi (s.flush sci)).tols.bskew = s.tols.bskew * (pi / 180) := by
  refine ⟨?_, ?_⟩ <;>
    simp [Checker.absorb, Checker.flush, opt, Checker.setMinVol, Checker.setMaxVol, Checker.setSkew, Checker.setBoundarySkew, Checker.setFace, Checker.setChange, h, hb] <;> grind

/-- C159: an option that is missing leaves its tolerance; one that is empty gives the default, but for the tolerances of skewness, where it gives the
default turned to radians twice -/
theorem C159_absorb (pi : Rat) (x : CheckXml) (s : Checker P) :
    (s.absorb pi x).tols.minVol = (match x.minVol with | none => s.tols.minVol | some v => v.getD (1 / 100000000000000)) ∧
    (s.absorb pi x).tols.maxVol = (match x.maxVol with | none => s.tols.maxVol | some v => v.getD 10000000000) ∧
    (s.absorb pi x).tols.skew = (match x.skew with | none => s.tols.skew | some v => v.getD (85 * (pi / 180)) * (pi / 180)) ∧
    (s.absorb pi x).tols.bskew = (match x.bskew with | none => s.tols.bskew | some v => v.getD (85 * (pi / 180)) * (pi / 180)) ∧
    (s.absorb pi x).tols.face = (match x.face with | none => s.tols.face | some v => v.getD (1 / 2)) ∧
    (s.absorb pi x).tols.change = (match x.change with | none => s.tols.change | some v => v.getD (1 / 100000)) ∧
    (s.absorb pi x).geo = s.geo ∧ (s.absorb pi x).found = s.found ∧ (s.absorb pi x).status = s.status := by
  obtain ⟨a, b, c, d, e, f, r⟩ := x
  have h : ∀ v : Rat, v / 180 * pi = v * (pi / 180) := by intro v; grind
  have h' : 85 * pi / 180 = 85 * (pi / 180) := by grind
  refine ⟨?_, ?_, ?_, ?_, ?_, ?_, ?_, ?_, ?_⟩ <;>
    cases a <;> cases b <;> cases c <;> cases d <;> cases e <;> cases f <;>
    simp [Checker.absorb, opt, Checker.setMinVol, Checker.setMaxVol, Checker.setSkew, Checker.setBoundarySkew, Checker.setFace, Checker.setChange, h, h']

/-- C159: a copy has the settings, the geometry and the result of the block -/
theorem C159_copy (s : Checker P) : s.copy.tols = s.tols ∧ s.copy.geo = s.geo ∧ s.copy.status = s.status ∧ s.copy.good = s.good ∧ s.copy.resume = s.resume ∧
    s.copy.found = s.found := ⟨rfl, rfl, rfl, rfl, rfl, rfl⟩

/-- C159 does not hold for the plot of a copy of an executed block (a null pointer is dereferenced) and for an assigned block, which
keeps its geometry and its parts under the status of the other -/
theorem C159_copy_fails (s other : Checker P) (h : s.geo ≠ none) (hs : s.status ≠ -1) :
    s.copy.plot = none ∧ (s.assign other).geo = s.geo ∧ (s.assign other).status = other.status ∧
    (other.status ≠ -1 → s.parts = none → (s.assign other).plot = none) := by
  refine ⟨?_, rfl, rfl, ?_⟩
  · rw [Checker.plot, if_neg]
    · rfl
    · simp only [Checker.copy]
      rintro (h' | h')
      · exact h h'
      · exact hs h'
  · intro h1 h2
    rw [Checker.plot, if_neg]
    · simp only [Checker.assign, h2]; rfl
    · simp only [Checker.assign, Checker.copy]
      rintro (h' | h')
      · exact h h'
      · exact h1 h'

/-! ### A case: two tetrahedra with a common face -/

def twoTets : Obj Int :=
  { type := 2, verts := [(0, 10), (1, 20), (2, 30), (3, 40), (4, 50)]
    cells := [(0, ⟨.tetra, [0, 1, 2, 3], 0, true⟩), (7, ⟨.tetra, [1, 2, 3, 4], 0, true⟩)]
    pids := [0], names := [(0, "")], tree := true
    kd := ⟨.none, none⟩, skd := ⟨.none, none⟩, adj := ⟨.none, none⟩, int := ⟨.none, none⟩
    info := ⟨.none, none⟩, bbox := ⟨.none, none⟩, pc := ⟨.none, none⟩, tol := 3 }

/-- the interface in the middle is well placed, the one at the border of cell 0 has its normal inwards -/
def twoFaces : List Face := [⟨0, some 7, ⟨1 / 2, 0, 0⟩, ⟨1, 0, 0⟩, 1⟩, ⟨0, none, ⟨-1, 0, 0⟩, ⟨1, 0, 0⟩, 1⟩]

def twoGeo : Geo Int := ⟨twoTets, fun i => if i = 0 then [some 7, none] else [some 0, none], twoFaces, fun i => if i = 0 then 1 else 3, fun i => ⟨i, 0, 0⟩⟩

/-- an angle that only tells whether it is acute -/
def side (a b : R3) : Rat := if a.dot b < 0 then 3 else 0

def twoChecker : Checker Int := { (Checker.new 3 : Checker Int) with geo := some 0 }

theorem two_ok : MeshOk twoGeo := by
  have h : ∀ (Q : Nat → Cell → Prop), (∀ c ∈ twoTets.cells, Q c.1 c.2) → ∀ id c, get twoTets.cells id = some c → Q id c :=
    fun Q hQ id c hc => hQ (id, c) (get_some_mem hc)
  refine ⟨by decide, by unfold Ok; decide, by unfold Ok; decide, h _ ?_, h _ ?_, by decide⟩
  · decide
  · simp [twoTets, InRange]

theorem two_inner {id : Nat} (h : Inner twoGeo id) : id = 0 ∨ id = 7 := by
  obtain ⟨c, hc, -⟩ := h
  have := get_some_mem hc
  simp only [twoGeo, twoTets, mem_cons, Prod.mk.injEq, not_mem_nil, or_false] at this
  rcases this with ⟨h, -⟩ | ⟨h, -⟩
  · exact .inl h
  · exact .inr h

/-- the hypotheses of C158, of its failure at the border and of its failure at a second execution -/
example : twoChecker.geo = some 0 ∧ MeshOk twoGeo ∧ twoChecker.found = {} ∧ Sane twoChecker.tols ∧
    (∀ k, Fails side twoChecker.tols twoGeo k ↔ k = 3) ∧
    (twoChecker.execute side (fun _ => twoGeo)).map (fun s => (s.status, s.good)) = some (3, false) ∧
    (Checker.execute side (fun _ => twoGeo) { twoChecker with tols := { twoChecker.tols with change := 1 / 2, bskew := 3 } }).map
      (fun s => (s.status, s.parts.map fun p => (p.change.cells.map Prod.fst, p.change.verts.map Prod.fst, p.volume.cells.map Prod.fst))) =
        some (2, some ([0], [0, 1, 2, 3], [])) := by
  refine ⟨rfl, two_ok, rfl, ⟨by decide +kernel, by decide +kernel, by decide +kernel, by decide +kernel, by decide +kernel, by decide +kernel⟩, ?_,
    by decide +kernel, by decide +kernel⟩
  obtain ⟨s', h1, -, -, h3, -⟩ := C158_status side (w := fun _ => twoGeo) (s := twoChecker) (i := 0) rfl two_ok rfl
    ⟨by decide +kernel, by decide +kernel, by decide +kernel, by decide +kernel, by decide +kernel, by decide +kernel⟩
  have hs : s'.status = 3 := by
    have : (twoChecker.execute side (fun _ => twoGeo)).map (fun s => s.status) = some 3 := by decide +kernel
    rw [h1] at this; exact Option.some.inj this
  obtain ⟨f3, hlow⟩ := (h3 3 (by decide)).1 hs
  intro k
  constructor
  · intro hk
    rcases Int.lt_trichotomy k 3 with h | h | h
    · exact absurd hk (hlow k h)
    · exact h
    · exfalso
      unfold Fails at hk
      split at hk
      · omega
      · omega
      · omega
      · obtain ⟨f, -, hf, hb, ha⟩ := hk
        simp only [twoGeo, twoFaces, mem_cons, not_mem_nil, or_false] at hf
        rcases hf with rfl | rfl
        · exact absurd (ha _ rfl) (by decide +kernel)
        · simp at hb
      · obtain ⟨id, hI, hv⟩ := hk
        rcases two_inner hI with rfl | rfl
        · exact absurd hv (by decide +kernel)
        · exact absurd hv (by decide +kernel)
      · obtain ⟨id, hI, hv⟩ := hk
        rcases two_inner hI with rfl | rfl
        · exact absurd hv (by decide +kernel)
        · exact absurd hv (by decide +kernel)
      · exact hk
  · rintro rfl; exact f3

end Verif.Check
