import Verif.Vtu.Lemmas
import Batteries.Data.List.Perm
/-!
# C201, C204: what is written is read back
-/
namespace Verif.Vtu

variable {P : Type}

theorem flush_sound (rd : P → P) {M : Patch P} (h : Sound M) :
    (M.cells.all fun c => c.ids.all fun v => (M.verts.map Prod.fst).contains v) = true := by
  rw [List.all_eq_true]
  intro c hc
  rw [List.all_eq_true]
  intro v hv
  obtain ⟨vs, h1, _, h3⟩ := h.shape c hc
  exact List.contains_iff_mem.2 (h3 v ((nodes_ids h1 v).1 hv))

theorem written_nodup {M : Patch P} (h : Sound M) : ((written M).map Prod.fst).Nodup :=
  List.Nodup.sublist ((written_sub M).map _) h.verts

theorem getD_of_map {α : Type} (f : α → Int) {cs : List α} {k : Nat} {c : α} (h : cs[k]? = some c) :
    f c = (cs.map f).getD k 0 := by
  rw [List.getD_eq_getElem?_getD, List.getElem?_map, h]; rfl

/-- The arrays of a mesh with the entries `e` in the faces and the offsets `os`. -/
theorem decode_ok (rd : P → P) {M : Patch P} (h : Sound M) (e : Cell → List Int) (os fs : List Int)
    (R : Raw P) (h1 : R.points = (written M).map fun v => rd v.2) (h2 : R.offsets = offsetsFrom 0 M.cells)
    (h3 : R.types = M.cells.map Cell.ty) (h4 : R.conn = M.cells.flatMap fun c => c.ids.map (vtkId M))
    (h5 : R.vid = (written M).map Prod.fst) (h6 : R.cid = M.cells.map Cell.id)
    (h7 : R.pid = M.cells.map Cell.pid) (h8 : R.faceoffs = os) (h9 : R.faces = fs)
    (hf : FacesOk R (vtkId M) e M.cells 0 0) :
    decode R = .ok ⟨(written M).map fun v => (v.1, rd v.2), M.cells⟩ := by
  have hids : ∀ c ∈ M.cells, (c.ids.map (vtkId M)) ≠ [] := by
    intro c hc
    obtain ⟨vs, q1, q2, _⟩ := h.shape c hc
    simpa using nodes_nonempty q1 q2
  have hlen : R.offsets.length = M.cells.length := by rw [h2, offsetsFrom_length]
  have hv : R.vids = (written M).map Prod.fst := by
    rw [Raw.vids, h5, (written_nodup h).dedup, h1, if_pos (by simp)]
  rw [decode, if_neg, if_neg]
  · have hl : loop R R.vids R.offsets 0 0 0 = .ok M.cells := by
      rw [h2]
      refine loop_ok R R.vids (vtkId M) e M.cells 0 0 0 ?_ ?_ ?_ (by simp) hf ?_
      · intro c hc
        obtain ⟨vs, q1, q2, q3⟩ := h.shape c hc
        refine ⟨vs, q1, fun v hvm => ?_⟩
        rw [hv]
        exact mapVert_vtkId (mem_written hc ((nodes_ids q1 v).2 hvm) (q3 v hvm))
      · simpa using h3
      · simpa using h4
      · intro k c hk
        rw [hlen, h6, h7, h.cells.dedup]
        simp only [List.length_map, if_pos, Nat.zero_add]
        exact ⟨getD_of_map Cell.id hk, getD_of_map Cell.pid hk⟩
    show (do let cells ← loop R R.vids R.offsets 0 0 0
             Except.ok (⟨R.vids.zip R.points, cells⟩ : Patch P)) = _
    rw [hl]
    show Except.ok _ = _
    rw [hv, h1]
    congr 2
    generalize written M = w
    induction w with
    | nil => rfl
    | cons a w ih => simpa using ih
  · rw [h3]
    intro hc
    obtain ⟨c, hc, hu⟩ := List.mem_map.1 (List.contains_iff_mem.1 hc)
    exact h.types c hc hu
  · rw [hlen, h4]
    exact Nat.not_lt.2 (length_flatMap_le _ _ hids)

theorem faceEntries_ne (g : Int → Int) {c : Cell} {vs : List Int} (h : Nodes c vs) : faceEntries g c ≠ [] := by
  by_cases hp : c.ty = .polyhedron
  · cases h with
    | plain h1 h2 => exact (h2 hp).elim
    | polygon vs h1 h2 => rw [h1] at hp; exact absurd hp (by decide)
    | polyhedron L h1 h2 => simp [faceEntries, hp, h2]
  · simp [faceEntries, hp]

theorem read_flush (rd : P → P) {M : Patch P} (h : Sound M) {D : Doc P} (hD : flush rd M = some D) :
    read D = .ok ⟨(written M).map fun v => (v.1, rd v.2), M.cells⟩ := by
  rw [flush, if_pos (flush_sound rd h)] at hD
  have hD' := Option.some.inj hD
  subst hD'
  refine decode_ok rd h (faceEntries (vtkId M)) _ _ _ rfl rfl ?_ rfl rfl rfl rfl rfl rfl ?_
  · show (M.cells.map fun c => c.ty.num).map Ty.ofNum = _
    rw [List.map_map]
    exact List.map_congr_left fun c _ => ofNum_num c.ty
  · by_cases hn : needFaces M = true
    · right
      refine ⟨?_, by simp, ?_, ?_, ?_⟩
      · simp only [Raw.hasFaces, absorb, hn, if_true, Option.getD_some, decide_eq_true_eq,
          faceOffsetsFrom_length, offsetsFrom_length, true_and]
        exact length_flatMap_le _ _ fun c hc =>
          let ⟨vs, q, _⟩ := h.shape c hc
          faceEntries_ne _ q
      · simp only [absorb, hn, if_true, Option.getD_some, List.drop_zero]
        exact faceOffsetsFrom_ok _ _ 0 fun c hc =>
          let ⟨vs, q, _⟩ := h.shape c hc
          faceEntries_ne _ q
      · simp only [absorb, hn, if_true, Option.getD_some, List.drop_zero]
      · intro c _ hp
        simp [faceEntries, hp]
    · left
      intro c hc hp
      exact hn (List.any_eq_true.2 ⟨c, hc, by simpa using hp⟩)

/-- **C201.**  A mesh which is written and read back has the same cells, with their ids, types, vertices and
PIDs, in the same order, and the same vertices, with their ids and what is printed of their coordinates, in the
same order — those which belong to some cell. -/
theorem C201_used (rd : P → P) (M : Patch P) (h : Sound M) :
    ∃ (D : Doc P) (vs : List (Int × P)), flush rd M = some D ∧ read D = .ok ⟨vs.map fun v => (v.1, rd v.2), M.cells⟩ ∧
      vs.Sublist M.verts ∧
      ∀ v ∈ M.verts, v ∈ vs ↔ ∃ c ∈ M.cells, ∃ ns, Nodes c ns ∧ v.1 ∈ ns := by
  refine ⟨_, written M, by rw [flush, if_pos (flush_sound rd h)], ?_, written_sub M, ?_⟩
  · exact read_flush rd h (by rw [flush, if_pos (flush_sound rd h)])
  · intro v hv
    simp only [written, List.mem_filter, List.any_eq_true, List.contains_iff_mem]
    constructor
    · rintro ⟨_, c, hc, hi⟩
      obtain ⟨vs, q, _⟩ := h.shape c hc
      exact ⟨c, hc, vs, q, (nodes_ids q _).1 hi⟩
    · rintro ⟨c, hc, ns, q, hi⟩
      exact ⟨hv, c, hc, (nodes_ids q _).2 hi⟩

/-- **C201.**  The whole mesh, when every vertex belongs to some cell. -/
theorem C201_roundtrip_partial (rd : P → P) (M : Patch P) (h : Sound M)
    (hall : ∀ v ∈ M.verts, ∃ c ∈ M.cells, ∃ ns, Nodes c ns ∧ v.1 ∈ ns) :
    ∃ D, flush rd M = some D ∧ read D = .ok ⟨M.verts.map fun v => (v.1, rd v.2), M.cells⟩ := by
  obtain ⟨D, vs, h1, h2, h3, h4⟩ := C201_used rd M h
  refine ⟨D, h1, ?_⟩
  have hnd : M.verts.Nodup := List.Nodup.of_map _ h.verts
  have : vs = M.verts := h3.eq_of_length_le
    (List.subperm_of_subset hnd fun v hv => (h4 v hv).2 (hall v hv)).length_le
  rw [← this]; exact h2

/-- A polyhedron with the faces of a tetrahedron, a triangle and a polygon, with ids out of order. -/
def mixed : Patch Int where
  verts := [(10, 0), (4, 1), (7, 2), (2, 3), (5, 4)]
  cells := [⟨30, .triangle, [7, 10, 4], 2⟩,
    ⟨8, .polyhedron, [4, 3, 10, 4, 7, 3, 10, 4, 2, 3, 4, 7, 2, 3, 10, 7, 2], 1⟩,
    ⟨9, .polygon, [4, 2, 7, 4, 5], 0⟩]

theorem mixed_sound : Sound mixed where
  verts := by decide
  cells := by decide
  types := by decide
  shape := by
    intro c hc
    simp only [mixed, List.mem_cons, List.not_mem_nil, or_false] at hc
    rcases hc with rfl | rfl | rfl
    · exact ⟨_, .plain (by decide) (by decide), by decide, by decide⟩
    · exact ⟨_, .polyhedron [[10, 4, 7], [10, 4, 2], [4, 7, 2], [10, 7, 2]] rfl rfl, by decide, by decide⟩
    · exact ⟨_, .polygon [2, 7, 4, 5] rfl rfl, by decide, by decide⟩

example : ∃ D, flush id mixed = some D ∧ read D = .ok mixed := by
  refine C201_roundtrip_partial id mixed mixed_sound ?_
  intro v hv
  simp only [mixed, List.mem_cons, List.not_mem_nil, or_false] at hv
  rcases hv with rfl | rfl | rfl | rfl | rfl
  · exact ⟨_, .head _, _, .plain (by decide) (by decide), by decide⟩
  · exact ⟨_, .head _, _, .plain (by decide) (by decide), by decide⟩
  · exact ⟨_, .head _, _, .plain (by decide) (by decide), by decide⟩
  · exact ⟨_, .tail _ (.tail _ (.head _)), _, .polygon [2, 7, 4, 5] rfl rfl, by decide⟩
  · exact ⟨_, .tail _ (.tail _ (.head _)), _, .polygon [2, 7, 4, 5] rfl rfl, by decide⟩

/-- **C201, violated.**  A vertex which belongs to no cell is lost. -/
theorem C201_lone_fails : ∃ (M : Patch Int), Sound M ∧ ∃ D, flush id M = some D ∧
    ∃ M', read D = .ok M' ∧ M'.verts ≠ M.verts ∧ M'.cells = M.cells := by
  refine ⟨⟨[(0, 5), (1, 6), (2, 7), (3, 8)], [⟨0, .triangle, [0, 1, 3], 0⟩]⟩,
    ⟨by decide, by decide, by decide, ?_⟩, ?_⟩
  · intro c hc
    simp only [List.mem_cons, List.not_mem_nil, or_false] at hc
    subst hc
    exact ⟨_, .plain (by decide) (by decide), by decide, by decide⟩
  · exact ⟨_, rfl, ⟨[(0, 5), (1, 6), (3, 8)], [⟨0, .triangle, [0, 1, 3], 0⟩]⟩, rfl, by decide, rfl⟩

/-! ## Polyhedra in the files of other programs -/

/-- The file of a mesh in the convention of VTK: cells which are not polyhedra have no entry in the faces and
the offset `-1`.  The vertices are numbered by `g`. -/
def stdOffsets (k : Int) : List Cell → List Int
  | [] => []
  | c :: cs =>
    if c.ty = .polyhedron then (k + c.conn.length) :: stdOffsets (k + c.conn.length) cs
    else -1 :: stdOffsets k cs

def stdEntries (g : Int → Int) (c : Cell) : List Int :=
  if c.ty = .polyhedron then c.conn.take 1 ++ renumber g 0 c.conn.tail else []

/-- The file `D` with its faces in the convention of VTK. -/
def standard (M : Patch P) (D : Doc P) : Doc P :=
  { D with faces := some (M.cells.flatMap (stdEntries (vtkId M))), faceoffs := some (stdOffsets 0 M.cells) }

theorem stdEntries_length (g : Int → Int) {c : Cell} (h : c.ty = .polyhedron) :
    (stdEntries g c).length = c.conn.length := by
  rw [stdEntries, if_pos h, List.length_append, renumber_length]
  cases c.conn <;> simp; omega

theorem stdOffsets_length (cs : List Cell) : ∀ k, (stdOffsets k cs).length = cs.length := by
  induction cs with
  | nil => intro k; rfl
  | cons c cs ih => intro k; rw [stdOffsets]; split <;> simp [ih]

theorem stdOffsets_ok (g : Int → Int) (cs : List Cell)
    (h : ∀ c ∈ cs, c.ty = .polyhedron → c.conn ≠ []) :
    ∀ k : Nat, FaceOffs (stdEntries g) k cs (stdOffsets k cs) := by
  induction cs with
  | nil => exact fun k => .nil k
  | cons c cs ih =>
    intro k
    have hi := ih fun c hc => h c (List.mem_cons_of_mem _ hc)
    rw [stdOffsets]
    split
    · rename_i hp
      have hl := stdEntries_length g hp
      rw [← hl, ← Int.natCast_add]
      refine .cons ?_ (hi _)
      have hne := List.length_pos_iff.2 (h c (by simp) hp)
      exact List.length_pos_iff.1 (by omega)
    · rename_i hp
      exact .skip (by rw [stdEntries, if_neg hp]) hp (hi k)

/-- **C204.**  A mesh with its polyhedra in the convention of VTK is read as it is when the array of the faces
has at least as many entries as there are cells. -/
theorem C204_standard_partial (rd : P → P) (M : Patch P) (h : Sound M)
    (hlong : M.cells.length ≤ (M.cells.flatMap (stdEntries (vtkId M))).length) :
    ∃ D, flush rd M = some D ∧ read (standard M D) = read D ∧ ∃ M', read D = .ok M' := by
  obtain ⟨D, vs, h1, h2, h3, h4⟩ := C201_used rd M h
  refine ⟨D, h1, ?_, _, h2⟩
  have hD := h1
  rw [flush, if_pos (flush_sound rd h)] at hD
  have hD' := Option.some.inj hD
  rw [read_flush rd h h1]
  subst hD'
  refine decode_ok rd h (stdEntries (vtkId M)) _ _ _ rfl rfl ?_ rfl rfl rfl rfl rfl rfl ?_
  · show (M.cells.map fun c => c.ty.num).map Ty.ofNum = _
    rw [List.map_map]
    exact List.map_congr_left fun c _ => ofNum_num c.ty
  · right
    refine ⟨?_, by simp, ?_, by simp [absorb, standard], ?_⟩
    · simp only [Raw.hasFaces, absorb, standard, Option.getD_some, decide_eq_true_eq, stdOffsets_length,
        offsetsFrom_length, true_and]
      exact hlong
    · simp only [absorb, standard, Option.getD_some, List.drop_zero]
      refine stdOffsets_ok _ _ (fun c hc hp => ?_) 0
      obtain ⟨vs, q, _⟩ := h.shape c hc
      cases q with
      | plain h1 h2 => exact (h2 hp).elim
      | polygon vs h1 h2 => rw [h1] at hp; exact absurd hp (by decide)
      | polyhedron L h1 h2 => simp [h2]
    · intro c _ hp
      simp [stdEntries, hp]

example : ∃ D, flush id mixed = some D ∧ read (standard mixed D) = read D ∧ ∃ M', read D = .ok M' :=
  C204_standard_partial id mixed mixed_sound (by decide)

/-- Eighteen vertices, each a cell, and a polyhedron with the faces of a tetrahedron. -/
def crowd : Patch Int where
  verts := (List.range 18).map fun k => ((k : Int), (k : Int))
  cells := ((List.range 18).map fun k => ⟨(k : Int), .vertex, [(k : Int)], 0⟩) ++
    [⟨18, .polyhedron, [4, 3, 0, 1, 2, 3, 0, 1, 3, 3, 1, 2, 3, 3, 0, 2, 3], 0⟩]

/-- **C204, violated.**  A mesh in which few cells are polyhedra is refused in the convention of VTK. -/
theorem C204_few_fails : ∃ M : Patch Int, ∃ D, flush id M = some D ∧ read D = .ok M ∧
    read (standard M D) = .error .noFaces :=
  ⟨crowd, _, rfl, rfl, rfl⟩

end Verif.Vtu
