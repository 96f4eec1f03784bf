import Verif.Mesh.Elem
/-
C38: connectivity validation and element deduction.
-/
namespace Verif.Mesh
open List

/-- number of nodes of the fixed-size elements -/
def nodes : Elem → Option Nat
  | .vertex => some 1 | .line => some 2 | .triangle => some 3 | .pixel => some 4 | .quad => some 4
  | .tetra => some 4 | .voxel => some 8 | .hexahedron => some 8 | .wedge => some 6 | .pyramid => some 5
  | .polygon => none | .polyhedron => none | .undefined => none

/-- the record of one face: the number of its vertices followed by the vertices -/
def faceRec (f : List Int) : List Int := (f.length : Int) :: f

/-- documented form of a connectivity list for an element type
(src/core/MimmoObject.hpp documentation, MimmoObject.cpp:330-345): the vertices; for a polygon preceded by their
number; for a polyhedron the number of faces, then for each face the number of its vertices and the vertices. -/
def Documented (t : Elem) (l : List Int) : Prop :=
  match t with
  | .polygon => ∃ vs : List Int, 2 ≤ vs.length ∧ l = (vs.length : Int) :: vs
  | .polyhedron => 9 ≤ l.length ∧ ∃ faces : List (List Int), l = (faces.length : Int) :: (faces.map faceRec).flatten
  | t => nodes t = some l.length

theorem faceWalk_faces (pre : List Int) (faces : List (List Int)) :
    faceWalk (pre ++ (faces.map faceRec).flatten) faces.length pre.length =
      (((pre ++ (faces.map faceRec).flatten).length : Int), 0) := by
  induction faces generalizing pre with
  | nil => simp [faceWalk]
  | cons f fs ih =>
    have hlt : (0 : Int) ≤ (pre.length : Int) ∧ (pre.length : Int) < ((pre ++ ((f :: fs).map faceRec).flatten).length : Int) := by
      constructor
      · omega
      · simp only [length_append, map_cons, flatten_cons, faceRec, length_cons]; omega
    rw [length_cons, faceWalk, if_pos hlt]
    have he : entry (pre ++ ((f :: fs).map faceRec).flatten) (pre.length : Int) = (f.length : Int) := by
      simp [entry, faceRec]
    rw [he]
    have h2 := ih (pre ++ faceRec f)
    have h3 : pre ++ faceRec f ++ (fs.map faceRec).flatten = pre ++ ((f :: fs).map faceRec).flatten := by simp
    rw [h3] at h2
    have h4 : (((pre ++ faceRec f).length : Nat) : Int) = (pre.length : Int) + ((f.length : Int) + 1) := by
      simp [faceRec]
    rw [← h4]
    exact h2

/-- if the walk from `pos` ends exactly at the end after `n` faces, the tail from `pos` is `n` face records -/
theorem faceWalk_inv (l : List Int) (hnn : ∀ x ∈ l, 0 ≤ x) : ∀ (n p : Nat), p ≤ l.length →
    faceWalk l n p = ((l.length : Int), 0) →
    ∃ faces : List (List Int), faces.length = n ∧ l.drop p = (faces.map faceRec).flatten := by
  intro n
  induction n with
  | zero =>
    intro p hp h
    simp only [faceWalk, Prod.mk.injEq] at h
    have : p = l.length := by omega
    exact ⟨[], rfl, by simp [this]⟩
  | succ n ih =>
    intro p hp h
    rw [faceWalk] at h
    by_cases hlt : (0 : Int) ≤ (p : Int) ∧ (p : Int) < (l.length : Int)
    · rw [if_pos hlt] at h
      have hp' : p < l.length := by omega
      have he : entry l (p : Int) = l[p] := by
        simp [entry, hp']
      have hx : 0 ≤ l[p] := hnn _ (getElem_mem hp')
      obtain ⟨k, hk⟩ := Int.eq_ofNat_of_zero_le hx
      rw [he, hk] at h
      have e1 : (p : Int) + ((k : Int) + 1) = ((p + (k + 1) : Nat) : Int) := by omega
      rw [e1] at h
      by_cases hle : p + (k + 1) ≤ l.length
      · obtain ⟨faces, hl, hd⟩ := ih _ hle h
        refine ⟨(l.drop (p + 1)).take k :: faces, by simp [hl], ?_⟩
        have hlen : ((l.drop (p + 1)).take k).length = k := by
          rw [length_take, length_drop]; omega
        rw [map_cons, flatten_cons, ← hd, faceRec, hlen]
        rw [drop_eq_getElem_cons hp', hk, cons_append]
        congr 1
        have : l.drop (p + (k + 1)) = (l.drop (p + 1)).drop k := by rw [drop_drop]; congr 1; omega
        rw [this, take_append_drop]
      · exfalso
        have : ∀ (m q : Nat), l.length < q → (faceWalk l m q).1 = q := by
          intro m
          induction m with
          | zero => intro q _; rfl
          | succ m _ =>
            intro q hq
            rw [faceWalk, if_neg (by omega)]
        have h5 := this n (p + (k + 1)) (by omega)
        rw [h] at h5
        simp only at h5
        omega
    · rw [if_neg hlt] at h
      simp at h

theorem entry_zero (x : Int) (l : List Int) : entry (x :: l) 0 = x := rfl

theorem polyhedronRecord_iff (l : List Int) (hne : l ≠ []) (hnn : ∀ x ∈ l, 0 ≤ x) :
    polyhedronRecord l = true ↔
      ∃ faces : List (List Int), l = (faces.length : Int) :: (faces.map faceRec).flatten := by
  obtain ⟨x, t, rfl⟩ := exists_cons_of_ne_nil hne
  have hx := hnn x (by simp)
  obtain ⟨k, rfl⟩ := Int.eq_ofNat_of_zero_le hx
  unfold polyhedronRecord
  rw [entry_zero, if_neg (by omega), Int.toNat_natCast]
  constructor
  · intro h
    simp only [Bool.and_eq_true, decide_eq_true_eq] at h
    have h' : faceWalk ((k : Int) :: t) k ((1 : Nat) : Int) = ((((k : Int) :: t).length : Int), 0) :=
      Prod.ext h.1 h.2
    obtain ⟨faces, hl, hd⟩ := faceWalk_inv ((k : Int) :: t) hnn k 1 (by simp) h'
    refine ⟨faces, ?_⟩
    rw [hl, ← hd]; simp
  · rintro ⟨faces, h⟩
    injection h with h1 h2
    have hk : k = faces.length := by omega
    subst hk
    have := faceWalk_faces [(faces.length : Int)] faces
    rw [h2]
    simp only [singleton_append, length_singleton] at this
    have h3 : faceWalk ((faces.length : Int) :: (faces.map faceRec).flatten) faces.length 1 =
        ((((faces.length : Int) :: (faces.map faceRec).flatten).length : Int), 0) := this
    simp [h3]

/-- C38: a connectivity list of non-negative entries is accepted for an element type exactly when it has the
documented form. -/
theorem C38_check_exact (t : Elem) (l : List Int) (hnn : ∀ x ∈ l, 0 ≤ x) :
    checkConn t l = true ↔ Documented t l := by
  cases t with
  | polygon =>
    simp only [checkConn, Documented]
    constructor
    · intro h
      split at h
      · cases h
      · next hlen =>
        simp only [decide_eq_true_eq] at h
        cases l with
        | nil => simp at hlen
        | cons x vs =>
          rw [entry_zero] at h
          simp only [length_cons] at hlen h
          refine ⟨vs, by omega, ?_⟩
          have : x = (vs.length : Int) := by omega
          rw [this]
    · rintro ⟨vs, h1, rfl⟩
      rw [if_neg (by simp; omega), entry_zero]
      simp
  | polyhedron =>
    simp only [checkConn, Documented]
    by_cases h : l.length < 9
    · rw [if_pos h]
      simp only [Bool.false_eq_true, false_iff]
      rintro ⟨h9, -⟩; omega
    · rw [if_neg h]
      have hne : l ≠ [] := by rintro rfl; simp at h
      rw [polyhedronRecord_iff l hne hnn]
      constructor
      · rintro ⟨f, hf⟩; exact ⟨by omega, f, hf⟩
      · rintro ⟨-, f, hf⟩; exact ⟨f, hf⟩
  | undefined => simp [checkConn, Documented, nodes]
  | _ => simp only [checkConn, Documented, nodes, Option.some.injEq, beq_iff_eq]; exact eq_comm

example : checkConn .polygon [5, 10, 11, 12, 13, 14] = true ∧
    checkConn .polyhedron [4, 3, 0, 1, 2, 3, 0, 1, 3, 3, 1, 2, 3, 3, 0, 2, 3] = true ∧
    (∀ x ∈ ([5, 10, 11, 12, 13, 14] : List Int), 0 ≤ x) := by decide

/-- Lists with negative entries are outside this: a backward jump in a polyhedron record is accepted. -/
theorem C38_negative_entry_fails : ∃ l : List Int, checkConn .polyhedron l = true ∧ ¬ Documented .polyhedron l := by
  refine ⟨[3, 4, 0, 0, 5, 0, -3, 0, 0, 0], by decide, ?_⟩
  rintro ⟨-, faces, h⟩
  simp only [cons.injEq] at h
  obtain ⟨hl, hf⟩ := h
  match faces, hl, hf with
  | [a, b, c], _, hf =>
    simp only [map_cons, map_nil, flatten_cons, flatten_nil, faceRec, cons_append, cons.injEq, append_nil] at hf
    obtain ⟨ha, hf⟩ := hf
    match a, ha, hf with
    | [_, _, _, _], _, hf =>
      simp only [cons_append, nil_append, cons.injEq] at hf
      omega

/-- C38: whenever an element is deduced from a list, the list is accepted for that element. -/
theorem C38_desume_coherent (type : Nat) (l : List Int) (h : desume type l ≠ .undefined) :
    checkConn (desume type l) l = true := by
  unfold desume at h ⊢
  split
  · -- surface
    by_cases h5 : l.length > 4 ∧ (l.length : Int) = entry l 0 + 1
    · simp only [if_pos h5]
      simp only [checkConn]
      rw [if_neg (by omega)]
      simpa using h5.2
    · simp only [if_neg h5] at h ⊢
      by_cases h4 : l.length = 4
      · simp [h4, checkConn]
      · by_cases h3 : l.length = 3
        · simp [h3, checkConn]
        · simp [h3, h4] at h
  · -- volume
    by_cases h9 : l.length > 8
    · simp only [if_pos h9] at h ⊢
      by_cases hp : polyhedronRecord l = true
      · simp only [if_pos hp, checkConn]
        rw [if_neg (by omega)]
        exact hp
      · simp only [if_neg hp] at h ⊢
        exact absurd (by simp [show ¬ l.length = 4 by omega, show ¬ l.length = 5 by omega,
          show ¬ l.length = 6 by omega, show ¬ l.length = 8 by omega]) h
    · simp only [if_neg h9] at h ⊢
      by_cases h6 : l.length = 6
      · simp [h6, checkConn]
      · by_cases h5 : l.length = 5
        · simp [h5, checkConn]
        · by_cases h8 : l.length = 8
          · simp [h8, checkConn]
          · by_cases h4 : l.length = 4
            · simp [h4, checkConn]
            · simp [h6, h5, h8, h4] at h
  · by_cases h1 : l.length = 1
    · simp [h1, checkConn]
    · simp [h1] at h
  · by_cases h2 : l.length = 2
    · simp [h2, checkConn]
    · simp [h2] at h
  · simp at h

example : desume 1 [5, 10, 11, 12, 13, 14] = .polygon ∧ desume 2 [0, 1, 2, 3, 4] = .pyramid ∧
    desume 1 [2, 2, 3, 4, 5] = .undefined := by decide

/-- element types a mesh of the given type can hold (src/core/MimmoObject.cpp:460-560) -/
def allowed (type : Nat) (t : Elem) : Prop :=
  match type with
  | 1 => t = .triangle ∨ t = .pixel ∨ t = .quad ∨ t = .polygon
  | 2 => t = .tetra ∨ t = .voxel ∨ t = .hexahedron ∨ t = .wedge ∨ t = .pyramid ∨ t = .polyhedron
  | 3 => t = .vertex
  | 4 => t = .line
  | _ => False

/-- C38, partial (full statement: for every documented list, including polygons with two or three vertices): a
list documented for an element of the mesh type gives an element with the same number of nodes — the element
itself, up to the grid types PIXEL and VOXEL, which are deduced as QUAD and HEXAHEDRON. -/
theorem C38_recognised_partial (type : Nat) (t : Elem) (l : List Int) (hnn : ∀ x ∈ l, 0 ≤ x) (ha : allowed type t)
    (hd : Documented t l) (hsmall : t = .polygon → 4 < l.length) :
    desume type l = (match t with | .pixel => .quad | .voxel => .hexahedron | t => t) := by
  have hc := (C38_check_exact t l hnn).2 hd
  unfold allowed at ha
  split at ha
  · rcases ha with rfl | rfl | rfl | rfl
    · simp only [checkConn, beq_iff_eq] at hc
      simp [desume, hc]
    · simp only [checkConn, beq_iff_eq] at hc
      simp [desume, hc]
    · simp only [checkConn, beq_iff_eq] at hc
      simp [desume, hc]
    · have := hsmall rfl
      simp only [checkConn] at hc
      rw [if_neg (by omega)] at hc
      simp only [decide_eq_true_eq] at hc
      simp only [desume]
      rw [if_pos ⟨this, hc⟩]
  · rcases ha with rfl | rfl | rfl | rfl | rfl | rfl
    · simp only [checkConn, beq_iff_eq] at hc
      simp [desume, hc]
    · simp only [checkConn, beq_iff_eq] at hc
      simp [desume, hc]
    · simp only [checkConn, beq_iff_eq] at hc
      simp [desume, hc]
    · simp only [checkConn, beq_iff_eq] at hc
      simp [desume, hc]
    · simp only [checkConn, beq_iff_eq] at hc
      simp [desume, hc]
    · simp only [checkConn] at hc
      split at hc
      · cases hc
      · next h9 =>
        simp only [desume]
        rw [if_pos (by omega), if_pos hc]
  · subst ha
    simp only [checkConn, beq_iff_eq] at hc
    simp [desume, hc]
  · subst ha
    simp only [checkConn, beq_iff_eq] at hc
    simp [desume, hc]
  · exact ha.elim

/-- C38 is false for small polygons: the record of a three-vertex polygon is taken for a quadrilateral whose
first vertex is 3. -/
theorem C38_small_polygon_fails : Documented .polygon [3, 7, 8, 9] ∧ desume 1 [3, 7, 8, 9] = .quad :=
  ⟨⟨[7, 8, 9], by decide, rfl⟩, by decide⟩

end Verif.Mesh
