import Verif.Foam.Model
import Mathlib.Data.List.Rotate
/-!
# C213, C214: the cells of an OpenFOAM mesh
-/
namespace Verif.Foam

/-! ## The shapes

The faces of the models of OpenFOAM (its dictionary `cellModels`) and of the cells of VTK, which are those of
bitpit, all with the normals outwards. -/

/-- The number of vertices. -/
def EType.count : EType → Nat
  | .tetra => 4 | .hexa => 8 | .wedge => 6 | .pyramid => 5 | .polyhedron => 0

/-- The faces of the models of OpenFOAM. -/
def foamFaces : EType → List (List Nat)
  | .hexa => [[0, 4, 7, 3], [1, 2, 6, 5], [0, 1, 5, 4], [3, 7, 6, 2], [0, 3, 2, 1], [4, 5, 6, 7]]
  | .tetra => [[1, 2, 3], [0, 3, 2], [0, 1, 3], [0, 2, 1]]
  | .wedge => [[0, 2, 1], [3, 4, 5], [0, 3, 5, 2], [1, 2, 5, 4], [0, 1, 4, 3]]
  | .pyramid => [[0, 3, 2, 1], [0, 4, 3], [3, 4, 2], [1, 2, 4], [0, 1, 4]]
  | .polyhedron => []

/-- The faces of the cells of VTK. -/
def vtkFaces : EType → List (List Nat)
  | .hexa => [[0, 3, 2, 1], [4, 5, 6, 7], [0, 1, 5, 4], [1, 2, 6, 5], [2, 3, 7, 6], [3, 0, 4, 7]]
  | .tetra => [[0, 2, 1], [0, 1, 3], [1, 2, 3], [2, 0, 3]]
  | .wedge => [[0, 1, 2], [3, 5, 4], [0, 3, 4, 1], [1, 4, 5, 2], [2, 5, 3, 0]]
  | .pyramid => [[0, 3, 2, 1], [0, 1, 4], [1, 2, 4], [2, 3, 4], [3, 0, 4]]
  | .polyhedron => []

/-- The faces of a cell with the given vertices. -/
def facesOn (fs : List (List Nat)) (vs : List Nat) : List (List Nat) := fs.map fun f => f.map fun i => vs.getD i 0

/-- Two lists of faces are the same up to a relation of faces. -/
def Agree (R : List Nat → List Nat → Prop) (a b : List (List Nat)) : Prop :=
  (∀ f ∈ a, ∃ g ∈ b, R f g) ∧ ∀ g ∈ b, ∃ f ∈ a, R f g

/-- The names of the models of OpenFOAM with their types. -/
inductive Named : String → EType → Prop where
  | hex : Named "hex" .hexa
  | tet : Named "tet" .tetra
  | prism : Named "prism" .wedge
  | pyr : Named "pyr" .pyramid

theorem named_supported {s : String} {e : EType} (h : Named s e) : supported s = some e := by
  cases h <;> rfl

theorem named_poly {s : String} {e : EType} (h : Named s e) : e ≠ .polyhedron := by cases h <;> simp

theorem mapM_get (vs : List Nat) (l : List Nat) (h : ∀ i ∈ l, i < vs.length) :
    l.mapM (fun i => vs[i]?) = some (l.map fun i => vs.getD i 0) := by
  induction l with
  | nil => rfl
  | cons i l ih =>
    have hi := h i (by simp)
    rw [List.mapM_cons, ih fun j hj => h j (List.mem_cons_of_mem _ hj), List.getElem?_eq_getElem hi]
    simp [List.getD_eq_getElem?_getD, List.getElem?_eq_getElem hi]

theorem order_lt (e : EType) : ∀ i ∈ order e, i < e.count := by cases e <;> decide

theorem range_map (vs : List Nat) : (List.range vs.length).map (fun i => vs.getD i 0) = vs := by
  apply List.ext_getElem
  · simp
  · intro i h1 h2
    simp [List.getD_eq_getElem?_getD, List.getElem?_eq_getElem h2]

theorem cellOf_named {P : Type} {M : Mesh P} {iC : Nat} {name : String} {vs fs : List Nat} {e : EType}
    (hs : M.shapes[iC]? = some (name, vs)) (hc : M.cells[iC]? = some fs) (hn : Named name e)
    (hl : vs.length = e.count) : cellOf M iC = some (e, (order e).map fun i => vs.getD i 0) := by
  rw [cellOf, hs, hc]
  simp only [named_supported hn]
  rw [mapEle, mapM_get vs (order e) (by rw [hl]; exact order_lt e)]
  rfl

theorem facesOn_order (fs : List (List Nat)) (vs : List Nat) (e : EType)
    (hf : ∀ f ∈ fs, ∀ i ∈ f, i < (order e).length) :
    facesOn fs ((order e).map fun i => vs.getD i 0) =
      (fs.map fun f => f.map fun i => (order e).getD i 0).map fun f => f.map fun i => vs.getD i 0 := by
  rw [facesOn, List.map_map]
  refine List.map_congr_left fun f hm => ?_
  show _ = List.map _ (List.map _ f)
  rw [List.map_map]
  refine List.map_congr_left fun i hi => ?_
  have h := hf f hm i hi
  simp [List.getD_eq_getElem?_getD, List.getElem?_eq_getElem h]

theorem agree_map {R : List Nat → List Nat → Prop} {a b : List (List Nat)} (g : Nat → Nat)
    (hR : ∀ f f', R f f' → R (f.map g) (f'.map g)) (h : Agree R a b) :
    Agree R (a.map (List.map g)) (b.map (List.map g)) := by
  refine ⟨fun f hf => ?_, fun f hf => ?_⟩
  · obtain ⟨x, hx, rfl⟩ := List.mem_map.1 hf
    obtain ⟨y, hy, hxy⟩ := h.1 x hx
    exact ⟨_, List.mem_map.2 ⟨y, hy, rfl⟩, hR _ _ hxy⟩
  · obtain ⟨x, hx, rfl⟩ := List.mem_map.1 hf
    obtain ⟨y, hy, hxy⟩ := h.2 x hx
    exact ⟨_, List.mem_map.2 ⟨y, hy, rfl⟩, hR _ _ hxy⟩

theorem vtk_lt (e : EType) : ∀ f ∈ vtkFaces e, ∀ i ∈ f, i < (order e).length := by cases e <;> decide

instance (a b : List (List Nat)) : Decidable (Agree List.Perm a b) := by unfold Agree; infer_instance
instance (a b : List (List Nat)) : Decidable (Agree List.IsRotated a b) := by unfold Agree; infer_instance

/-- **C213.**  A hexahedron, tetrahedron, prism or pyramid of OpenFOAM becomes the cell of bitpit of this type, with
the same vertices and the same faces (as sets of vertices). -/
theorem C213_shapes {P : Type} (M : Mesh P) (iC : Nat) (name : String) (vs fs : List Nat) (e : EType)
    (hs : M.shapes[iC]? = some (name, vs)) (hc : M.cells[iC]? = some fs) (hn : Named name e)
    (hl : vs.length = e.count) :
    ∃ conn, cellOf M iC = some (e, conn) ∧ conn.Perm vs ∧
      Agree List.Perm (facesOn (foamFaces e) vs) (facesOn (vtkFaces e) conn) := by
  refine ⟨_, cellOf_named hs hc hn hl, ?_, ?_⟩
  · have h : (order e).Perm (List.range vs.length) := by
      rw [hl]; cases hn <;> decide
    have := h.map fun i => vs.getD i 0
    rwa [range_map] at this
  · rw [facesOn_order _ _ _ (vtk_lt e)]
    refine agree_map (fun i => vs.getD i 0) (fun f f' h => h.map _) ?_
    cases hn <;> decide

/-- **C213, second half.**  Of hexahedra, tetrahedra and prisms the faces have the same orientation.  Pyramids are
missing. -/
theorem C213_oriented_partial {P : Type} (M : Mesh P) (iC : Nat) (name : String) (vs fs : List Nat) (e : EType)
    (hs : M.shapes[iC]? = some (name, vs)) (hc : M.cells[iC]? = some fs) (hn : Named name e)
    (hl : vs.length = e.count) (hp : name ≠ "pyr") :
    ∃ conn, cellOf M iC = some (e, conn) ∧
      Agree List.IsRotated (facesOn (foamFaces e) vs) (facesOn (vtkFaces e) conn) := by
  refine ⟨_, cellOf_named hs hc hn hl, ?_⟩
  rw [facesOn_order _ _ _ (vtk_lt e)]
  refine agree_map (fun i => vs.getD i 0) (fun f f' h => h.map _) ?_
  cases hn with
  | pyr => exact (hp rfl).elim
  | _ => decide

/-- A mesh of one cell. -/
def one (name : String) (vs : List Nat) : Mesh Nat := ⟨vs, [[0, 1, 2, 3, 4]], [(name, vs)], [], [], [], []⟩

example : cellOf (one "prism" [10, 11, 12, 13, 14, 15]) 0 = some (.wedge, [10, 12, 11, 13, 15, 14]) := by decide
example : (one "prism" [10, 11, 12, 13, 14, 15]).shapes[0]? = some ("prism", [10, 11, 12, 13, 14, 15]) ∧
    Named "prism" .wedge ∧ [10, 11, 12, 13, 14, 15].length = EType.wedge.count := ⟨rfl, .prism, rfl⟩

/-- **C213, violated.**  A pyramid is turned inside out: its base has no face of the pyramid of OpenFOAM with the same
orientation. -/
theorem C213_pyramid_fails : ∃ conn, cellOf (one "pyr" [0, 1, 2, 3, 4]) 0 = some (.pyramid, conn) ∧
    ∀ g ∈ facesOn (vtkFaces .pyramid) conn, ∀ f ∈ facesOn (foamFaces .pyramid) [0, 1, 2, 3, 4],
      ¬ f.IsRotated g := ⟨[3, 2, 1, 0, 4], by decide, by decide⟩

/-! ## C214: polyhedra -/

/-- A mesh of OpenFOAM: every face has an owner, every internal face a neighbour with a larger number; the faces of a
cell are those of which it is the owner or the neighbour. -/
structure Proper {P : Type} (M : Mesh P) : Prop where
  owners : M.owner.length = M.faces.length
  internal : M.neighbour.length ≤ M.faces.length
  upper : ∀ i o n : Nat, M.owner[i]? = some o → M.neighbour[i]? = some n → o < n
  faces : ∀ (iC : Nat) (fs : List Nat), M.cells[iC]? = some fs → ∀ i ∈ fs, M.owner[i]? = some iC ∨ M.neighbour[i]? = some iC

/-- The vertices of a face seen from a cell, the normal outwards: OpenFOAM's normals go out of the owner. -/
def outward {P : Type} (M : Mesh P) (iC i : Nat) : List Nat :=
  if M.owner[i]? = some iC then M.faces.getD i [] else (M.faces.getD i []).reverse

/-- The faces in the stream of a polyhedron: the number of the faces, then each face with its number of vertices. -/
def parseFaces : Nat → List Nat → Option (List (List Nat))
  | 0, [] => some []
  | 0, _ :: _ => none
  | _ + 1, [] => none
  | n + 1, k :: l => if k ≤ l.length then (parseFaces n (l.drop k)).map (l.take k :: ·) else none

def parseStream : List Nat → Option (List (List Nat))
  | [] => none
  | n :: l => parseFaces n l

theorem parse_flat (vs : List (List Nat)) : parseFaces vs.length (vs.flatMap fun v => v.length :: v) = some vs := by
  induction vs with
  | nil => rfl
  | cons v vs ih =>
    rw [List.flatMap_cons, List.cons_append, List.length_cons, parseFaces, if_pos (by simp),
      List.drop_left, List.take_left, ih]
    rfl

theorem faceOf_outward {P : Type} {M : Mesh P} (h : Proper M) {iC : Nat} {fs : List Nat} (hc : M.cells[iC]? = some fs)
    {i : Nat} (hi : i ∈ fs) : faceOf M iC i = some (outward M iC i) := by
  have hin := h.faces iC fs hc i hi
  have hlt : i < M.faces.length := by
    rcases hin with ho | hn
    · have := (List.getElem?_eq_some_iff.1 ho).1
      rw [h.owners] at this; exact this
    · have := (List.getElem?_eq_some_iff.1 hn).1
      have := h.internal; omega
  have hf : M.faces[i]? = some (M.faces.getD i []) := by
    rw [List.getD_eq_getElem?_getD, List.getElem?_eq_getElem hlt]; rfl
  rw [faceOf, hf]
  simp only
  by_cases hb : i ≥ M.neighbour.length
  · rw [if_pos hb]
    have hno : M.neighbour[i]? = none := List.getElem?_eq_none hb
    rw [hno] at hin
    rw [outward, if_pos (hin.resolve_right (by simp))]
  · rw [if_neg hb]
    obtain ⟨o, ho⟩ : ∃ o, M.owner[i]? = some o :=
      ⟨_, List.getElem?_eq_getElem (by rw [h.owners]; exact hlt)⟩
    obtain ⟨n, hn⟩ : ∃ n, M.neighbour[i]? = some n := ⟨_, List.getElem?_eq_getElem (by omega)⟩
    have hu := h.upper i o n ho hn
    rw [ho, hn] at hin
    simp only [outward, ho, hn, Option.some.injEq] at hin ⊢
    by_cases he : o = iC
    · subst he
      simp [hu]
    · have hne : n = iC := hin.resolve_left he
      have he' : ¬ iC = o := fun h => he h.symm
      have : ¬ o > iC := by omega
      simp [he, he', this]

theorem mapM_some {α β : Type} (f : α → Option β) (g : α → β) (l : List α) (h : ∀ x ∈ l, f x = some (g x)) :
    l.mapM f = some (l.map g) := by
  induction l with
  | nil => rfl
  | cons x l ih =>
    rw [List.mapM_cons, h x (by simp), ih fun y hy => h y (List.mem_cons_of_mem _ hy)]; rfl

/-- **C214.**  A cell of any other shape becomes a polyhedron: its stream lists its faces, in order, each with the
normal outwards. -/
theorem C214_polyhedra {P : Type} (M : Mesh P) (h : Proper M) (iC : Nat) (name : String) (vs fs : List Nat)
    (hs : M.shapes[iC]? = some (name, vs)) (hc : M.cells[iC]? = some fs) (hn : ∀ e, ¬ Named name e) :
    ∃ conn, cellOf M iC = some (.polyhedron, conn) ∧ parseStream conn = some (fs.map (outward M iC)) := by
  have hsup : supported name = none := by
    unfold supported
    by_cases h1 : name = "hex"
    · subst h1; exact (hn _ .hex).elim
    by_cases h2 : name = "tet"
    · subst h2; exact (hn _ .tet).elim
    by_cases h3 : name = "prism"
    · subst h3; exact (hn _ .prism).elim
    by_cases h4 : name = "pyr"
    · subst h4; exact (hn _ .pyr).elim
    simp [h1, h2, h3, h4]
  refine ⟨fs.length :: (fs.map (outward M iC)).flatMap fun v => v.length :: v, ?_, ?_⟩
  · rw [cellOf, hs, hc]
    simp only [hsup]
    rw [polyConn, mapM_some _ (outward M iC) fs fun i hi => faceOf_outward h hc hi]
    rfl
  · have := parse_flat (fs.map (outward M iC))
    rw [List.length_map] at this
    exact this

/-- **C214.**  The two cells of an internal face list it in opposite orders. -/
theorem C214_opposite {P : Type} (M : Mesh P) (h : Proper M) (i a b : Nat) (fa fb : List Nat)
    (ha : M.cells[a]? = some fa) (hb : M.cells[b]? = some fb) (ia : i ∈ fa) (ib : i ∈ fb) (hab : a ≠ b) :
    ∃ f, (faceOf M a i = some f ∧ faceOf M b i = some f.reverse) ∨
      (faceOf M a i = some f.reverse ∧ faceOf M b i = some f) := by
  rw [faceOf_outward h ha ia, faceOf_outward h hb ib]
  have h1 := h.faces a fa ha i ia
  have h2 := h.faces b fb hb i ib
  refine ⟨M.faces.getD i [], ?_⟩
  rw [outward, outward]
  by_cases hoa : M.owner[i]? = some a
  · have hob : M.owner[i]? ≠ some b := by rw [hoa]; simpa using hab
    rw [if_pos hoa, if_neg hob]; exact .inl ⟨rfl, rfl⟩
  · have hna := h1.resolve_left hoa
    have hob : M.owner[i]? = some b := by
      rcases h2 with h2 | h2
      · exact h2
      · rw [hna] at h2; exact (hab (Option.some.inj h2)).elim
    rw [if_neg hoa, if_pos hob]; exact .inr ⟨rfl, rfl⟩

/-- Two cells with one internal face. -/
def two : Mesh Nat :=
  ⟨[0, 0, 0, 0, 0], [[0, 1], [0, 2]], [("unknown", []), ("wedge", [])],
   [[0, 1, 2], [0, 1, 3], [2, 1, 4]], [0, 0, 1], [1], []⟩

theorem two_proper : Proper two := by
  refine ⟨rfl, by decide, ?_, ?_⟩
  · intro i o n ho hn
    match i with
    | 0 => simp [two] at ho hn; omega
    | i + 1 => simp [two] at hn
  · intro iC fs hc i hi
    match iC with
    | 0 =>
      simp [two] at hc; subst hc
      simp at hi; rcases hi with rfl | rfl <;> simp [two]
    | 1 =>
      simp [two] at hc; subst hc
      simp at hi; rcases hi with rfl | rfl <;> simp [two]
    | iC + 2 => simp [two] at hc

example : cellOf two 1 = some (.polyhedron, [2, 3, 2, 1, 0, 3, 2, 1, 4]) := by decide

end Verif.Foam
