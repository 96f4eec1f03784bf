import Verif.Grid.Model
/-
C68: numbering of nodes and cells.
-/
namespace Verif.Grid
open Verif.Shape

/-- one step of the mixed-radix numbering -/
theorem radix {b i k : Int} (hb : 0 < b) (hi : 0 ≤ i) (hk : 0 ≤ k ∧ k < b) : (b * i + k).tmod b = k ∧ (b * i + k).tdiv b = i := by
  have hn : 0 ≤ b * i + k := Int.add_nonneg (Int.mul_nonneg hb.le hi) hk.1
  rw [Int.tmod_eq_emod_of_nonneg hn, Int.tdiv_eq_ediv_of_nonneg hn]
  constructor
  · rw [Int.add_comm, Int.add_mul_emod_self_left, Int.emod_eq_of_lt hk.1 hk.2]
  · rw [Int.add_comm, Int.add_mul_ediv_left _ _ (by omega), Int.ediv_eq_zero_of_lt hk.1 hk.2]; omega

theorem unradix {b n : Int} (hb : 0 < b) (hn : 0 ≤ n) : b * n.tdiv b + n.tmod b = n ∧ 0 ≤ n.tdiv b ∧ 0 ≤ n.tmod b ∧ n.tmod b < b := by
  rw [Int.tmod_eq_emod_of_nonneg hn, Int.tdiv_eq_ediv_of_nonneg hn]
  exact ⟨Int.mul_ediv_add_emod n b, Int.ediv_nonneg hn hb.le, Int.emod_nonneg _ (by omega), Int.emod_lt_of_pos _ hb⟩

/-- numbering of a box of `a × b × c` elements -/
theorem box_there {a b c i j k : Int} (hi : 0 ≤ i ∧ i < a) (hj : 0 ≤ j ∧ j < b) (hk : 0 ≤ k ∧ k < c) :
    (b * c * i + c * j + k).tmod c = k ∧ ((b * c * i + c * j + k).tdiv c).tmod b = j ∧ ((b * c * i + c * j + k).tdiv c).tdiv b = i ∧
      0 ≤ b * c * i + c * j + k ∧ b * c * i + c * j + k < a * b * c := by
  have hc : 0 < c := by omega
  have hb : 0 < b := by omega
  have e : b * c * i + c * j + k = c * (b * i + j) + k := by rw [Int.mul_add, ← Int.mul_assoc, Int.mul_comm c b]
  have hbi : 0 ≤ b * i + j := Int.add_nonneg (Int.mul_nonneg hb.le hi.1) hj.1
  obtain ⟨h1, h2⟩ := radix hc hbi hk
  obtain ⟨h3, h4⟩ := radix hb hi.1 hj
  rw [e, h1, h2, h3, h4]
  refine ⟨rfl, rfl, rfl, Int.add_nonneg (Int.mul_nonneg hc.le hbi) hk.1, ?_⟩
  have l1 : b * i + j + 1 ≤ b * a := by
    have : b * (i + 1) ≤ b * a := Int.mul_le_mul_of_nonneg_left (by omega) hb.le
    rw [Int.mul_add] at this; omega
  have l2 : c * (b * i + j + 1) ≤ c * (b * a) := Int.mul_le_mul_of_nonneg_left l1 hc.le
  have e2 : a * b * c = c * (b * a) := by rw [Int.mul_comm a b, Int.mul_comm]
  rw [Int.mul_add] at l2
  rw [e2]
  omega

theorem box_back {a b c n : Int} (hb : 0 < b) (hc : 0 < c) (hn : 0 ≤ n ∧ n < a * b * c) :
    b * c * ((n.tdiv c).tdiv b) + c * ((n.tdiv c).tmod b) + n.tmod c = n ∧ (0 ≤ (n.tdiv c).tdiv b ∧ (n.tdiv c).tdiv b < a) ∧
      (0 ≤ (n.tdiv c).tmod b ∧ (n.tdiv c).tmod b < b) ∧ (0 ≤ n.tmod c ∧ n.tmod c < c) := by
  obtain ⟨h1, h2, h3, h4⟩ := unradix hc hn.1
  obtain ⟨h5, h6, h7, h8⟩ := unradix hb h2
  have e : b * c * ((n.tdiv c).tdiv b) + c * ((n.tdiv c).tmod b) + n.tmod c = n := by
    rw [Int.mul_comm b c, Int.mul_assoc, ← Int.mul_add, h5, h1]
  refine ⟨e, ⟨h6, ?_⟩, ⟨h7, h8⟩, h3, h4⟩
  by_contra hge
  have : b * c * a ≤ b * c * ((n.tdiv c).tdiv b) := Int.mul_le_mul_of_nonneg_left (by omega) (Int.mul_nonneg hb.le hc.le)
  have h9 : 0 ≤ c * ((n.tdiv c).tmod b) := Int.mul_nonneg hc.le h7
  have e2 : a * b * c = b * c * a := by rw [Int.mul_assoc, Int.mul_comm]
  rw [e2] at hn
  omega

/-- the nodes and the cells of a mesh by their cartesian indices -/
def IsNode (g : Grid) (i j k : Int) : Prop := (0 ≤ i ∧ i ≤ g.nx) ∧ (0 ≤ j ∧ j ≤ g.ny) ∧ (0 ≤ k ∧ k ≤ g.nz)
def IsCell (g : Grid) (i j k : Int) : Prop := (0 ≤ i ∧ i < g.nx) ∧ (0 ≤ j ∧ j < g.ny) ∧ (0 ≤ k ∧ k < g.nz)

/-- C68: from the indices of a node to its number and back; the number is within the number of nodes. -/
theorem C68_node_there (g : Grid) {i j k : Int} (h : IsNode g i j k) :
    pointOf g (pointIndex g i j k) = some (i, j, k) ∧ 0 ≤ pointIndex g i j k ∧
      pointIndex g i j k < (g.nx + 1) * (g.ny + 1) * (g.nz + 1) := by
  obtain ⟨hi, hj, hk⟩ := h
  obtain ⟨h1, h2, h3, h4, h5⟩ := box_there (a := g.nx + 1) (b := g.ny + 1) (c := g.nz + 1) (i := i) (j := j) (k := k) (by omega) (by omega) (by omega)
  refine ⟨?_, h4, h5⟩
  unfold pointOf pointIndex
  rw [if_neg (by omega)]
  simp only [h1, h2, h3]
  rw [if_neg (by omega)]

/-- C68: from the number of a node to its indices and back. -/
theorem C68_node_back (g : Grid) (hy : 0 ≤ g.ny) (hz : 0 ≤ g.nz) {n : Int} (hn : 0 ≤ n ∧ n < (g.nx + 1) * (g.ny + 1) * (g.nz + 1)) :
    ∃ i j k, pointOf g n = some (i, j, k) ∧ IsNode g i j k ∧ pointIndex g i j k = n := by
  obtain ⟨h1, h2, h3, h4⟩ := box_back (a := g.nx + 1) (b := g.ny + 1) (c := g.nz + 1) (by omega) (by omega) hn
  refine ⟨_, _, _, ?_, ⟨?_, ?_, ?_⟩, h1⟩
  · unfold pointOf
    rw [if_neg (by omega)]
    simp only
    rw [if_neg (by omega)]
  · omega
  · omega
  · omega

/-- C68: the same for cells. -/
theorem C68_cell_there (g : Grid) {i j k : Int} (h : IsCell g i j k) :
    cellOf g (cellIndex g i j k) = some (i, j, k) ∧ 0 ≤ cellIndex g i j k ∧ cellIndex g i j k < g.nx * g.ny * g.nz := by
  obtain ⟨hi, hj, hk⟩ := h
  obtain ⟨h1, h2, h3, h4, h5⟩ := box_there (a := g.nx) (b := g.ny) (c := g.nz) (i := i) (j := j) (k := k) (by omega) (by omega) (by omega)
  refine ⟨?_, h4, h5⟩
  unfold cellOf cellIndex
  rw [if_neg (by omega)]
  simp only [h1, h2, h3]
  rw [if_neg (by omega)]

theorem C68_cell_back (g : Grid) (hy : 0 < g.ny) (hz : 0 < g.nz) {n : Int} (hn : 0 ≤ n ∧ n < g.nx * g.ny * g.nz) :
    ∃ i j k, cellOf g n = some (i, j, k) ∧ IsCell g i j k ∧ cellIndex g i j k = n := by
  obtain ⟨h1, h2, h3, h4⟩ := box_back (a := g.nx) (b := g.ny) (c := g.nz) (by omega) (by omega) hn
  refine ⟨_, _, _, ?_, ⟨?_, ?_, ?_⟩, h1⟩
  · unfold cellOf
    rw [if_neg (by omega)]
    simp only
    rw [if_neg (by omega)]
  · omega
  · omega
  · omega

/-- different nodes have different numbers -/
theorem pointIndex_inj (g : Grid) {i j k i' j' k' : Int} (h : IsNode g i j k) (h' : IsNode g i' j' k')
    (he : pointIndex g i j k = pointIndex g i' j' k') : i = i' ∧ j = j' ∧ k = k' := by
  have h1 := (C68_node_there g h).1
  rw [he, (C68_node_there g h').1] at h1
  simp only [Option.some.injEq, Prod.mk.injEq] at h1
  omega

/-- the vertices of a hexahedron in VTK order: bottom face counter-clockwise, then the top one -/
def vtkHexa : List (Int × Int × Int) :=
  [(0, 0, 0), (1, 0, 0), (1, 1, 0), (0, 1, 0), (0, 0, 1), (1, 0, 1), (1, 1, 1), (0, 1, 1)]

/-- C68: the vertices of a cell are the eight nodes around it, in the order of a VTK hexahedron, all different. -/
theorem C68_cell_vertices (g : Grid) {i j k : Int} (h : IsCell g i j k) :
    ∃ l, cellNeighsN g (cellIndex g i j k) = some l ∧ l.Nodup ∧
      l.map (pointOf g) = vtkHexa.map (fun d => some (i + d.1, j + d.2.1, k + d.2.2)) ∧
      ∀ n ∈ l, 0 ≤ n ∧ n < (g.nx + 1) * (g.ny + 1) * (g.nz + 1) := by
  have hh := h
  obtain ⟨hi, hj, hk⟩ := hh
  have hnode : ∀ d ∈ vtkHexa, IsNode g (i + d.1) (j + d.2.1) (k + d.2.2) := by
    intro d hd
    simp only [vtkHexa, List.mem_cons, List.not_mem_nil, or_false] at hd
    rcases hd with rfl | rfl | rfl | rfl | rfl | rfl | rfl | rfl <;> (dsimp only; exact ⟨by omega, by omega, by omega⟩)
  have hl : cellNeighs g i j k = vtkHexa.map (fun d => pointIndex g (i + d.1) (j + d.2.1) (k + d.2.2)) := by
    simp [cellNeighs, vtkHexa]
  refine ⟨cellNeighs g i j k, ?_, ?_, ?_, ?_⟩
  · unfold cellNeighsN; rw [(C68_cell_there g h).1]; rfl
  · rw [hl]
    refine List.Nodup.map_on ?_ (by decide)
    intro a ha b hb he
    have := pointIndex_inj g (hnode a ha) (hnode b hb) he
    ext <;> omega
  · rw [hl, List.map_map]
    apply List.map_congr_left
    intro d hd
    exact (C68_node_there g (hnode d hd)).1
  · rw [hl]
    intro n hn
    obtain ⟨d, hd, rfl⟩ := List.mem_map.1 hn
    exact (C68_node_there g (hnode d hd)).2

/-- a mesh of 2 × 3 × 4 cells, and its last cell -/
noncomputable def meshDim : Grid := setDimension new 3 4 5

example : IsCell meshDim 1 2 3 ∧ IsNode meshDim 2 3 4 ∧ (0 < meshDim.ny ∧ 0 < meshDim.nz) ∧
    ((0 : Int) ≤ 59 ∧ 59 < (meshDim.nx + 1) * (meshDim.ny + 1) * (meshDim.nz + 1)) := by
  simp [meshDim, setDimension, IsCell, IsNode]

end Verif.Grid
