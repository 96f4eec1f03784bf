import Verif.Grid.NumberProps
import Verif.Shape.LostProps
/-
C69 and C70: what a built mesh is, and location of points.
-/
namespace Verif.Grid
open Real Verif.Shape

/-- a mesh in the state left by `build` on the shape `s` -/
structure Made (g : Grid) (s : Shape) : Prop where
  shape : g.shape = some s
  nx : (dimLimit s.kind).1 - 1 ≤ g.nx
  ny : (dimLimit s.kind).2.1 - 1 ≤ g.ny
  nz : (dimLimit s.kind).2.2 - 1 ≤ g.nz
  dx : g.dx = s.span.x / g.nx
  dy : g.dy = s.span.y / g.ny
  dz : g.dz = s.span.z / g.nz
  xe : g.xedge = edges (localOrigin s).x g.dx g.nx
  ye : g.yedge = edges (localOrigin s).y g.dy g.ny
  ze : g.zedge = edges (localOrigin s).z g.dz g.nz
  xn : g.xnode = nodes (localOrigin s).x g.dx g.nx
  yn : g.ynode = nodes (localOrigin s).y g.dy g.ny
  zn : g.znode = nodes (localOrigin s).z g.dz g.nz

theorem made_build {g : Grid} {s : Shape} (h : g.shape = some s) : Made (build g).1 s := by
  obtain ⟨sh⟩ := g
  simp only at h
  subst h
  exact ⟨rfl, le_max_right _ _, le_max_right _ _, le_max_right _ _, rfl, rfl, rfl, rfl, rfl, rfl, rfl, rfl, rfl⟩

theorem Made.px {g : Grid} {s : Shape} (h : Made g s) : 1 ≤ g.nx := by
  have := h.nx; cases hk : s.kind <;> simp [dimLimit, hk] at this <;> omega
theorem Made.py {g : Grid} {s : Shape} (h : Made g s) : 1 ≤ g.ny := by
  have := h.ny; cases hk : s.kind <;> simp [dimLimit, hk] at this <;> omega
theorem Made.pz {g : Grid} {s : Shape} (h : Made g s) : 1 ≤ g.nz := by
  have := h.nz; cases hk : s.kind <;> simp [dimLimit, hk] at this <;> omega

theorem elem_edges (lo d : ℝ) {n i : Int} (hi : 0 ≤ i ∧ i ≤ n) : elem (edges lo d n) i = some (lo + i * d) := by
  obtain ⟨m, rfl⟩ := Int.eq_ofNat_of_zero_le hi.1
  unfold elem edges
  rw [if_neg (by omega)]
  simp only [Int.toNat_natCast, List.getElem?_map, Int.cast_natCast]
  rw [List.getElem?_range (by omega)]
  rfl

theorem elem_nodes (lo d : ℝ) {n i : Int} (hi : 0 ≤ i ∧ i < n) : elem (nodes lo d n) i = some (lo + i * d + 0.5 * d) := by
  obtain ⟨m, rfl⟩ := Int.eq_ofNat_of_zero_le hi.1
  unfold elem nodes
  rw [if_neg (by omega)]
  simp only [Int.toNat_natCast, List.getElem?_map, Int.cast_natCast]
  rw [List.getElem?_range (by omega)]
  rfl

theorem localPoint_made {g : Grid} {s : Shape} (h : Made g s) {i j k : Int} (hn : IsNode g i j k) :
    localPoint g i j k = some ⟨(localOrigin s).x + i * g.dx, (localOrigin s).y + j * g.dy, (localOrigin s).z + k * g.dz⟩ := by
  unfold localPoint
  rw [h.xe, h.ye, h.ze, elem_edges _ _ hn.1, elem_edges _ _ hn.2.1, elem_edges _ _ hn.2.2]
  rfl

theorem localCell_made {g : Grid} {s : Shape} (h : Made g s) {i j k : Int} (hn : IsCell g i j k) :
    localCell g i j k = some ⟨(localOrigin s).x + i * g.dx + 0.5 * g.dx, (localOrigin s).y + j * g.dy + 0.5 * g.dy,
      (localOrigin s).z + k * g.dz + 0.5 * g.dz⟩ := by
  unfold localCell
  rw [h.xn, h.yn, h.zn, elem_nodes _ _ hn.1, elem_nodes _ _ hn.2.1, elem_nodes _ _ hn.2.2]
  rfl

theorem localPointN_made {g : Grid} {s : Shape} (h : Made g s) {i j k : Int} (hn : IsNode g i j k) :
    localPointN g (pointIndex g i j k) = localPoint g i j k := by
  unfold localPointN; rw [(C68_node_there g hn).1]; rfl

theorem localCellN_made {g : Grid} {s : Shape} (h : Made g s) {i j k : Int} (hn : IsCell g i j k) :
    localCellN g (cellIndex g i j k) = localCell g i j k := by
  unfold localCellN; rw [(C68_cell_there g hn).1]; rfl

/-- the documented least numbers of nodes: two per direction, four along the angle of a cylinder, five and three along the angles
of a sphere -/
def Least : Kind → Int × Int × Int
  | .cube => (2, 2, 2)
  | .cylinder => (2, 4, 2)
  | .sphere => (2, 5, 3)
  | .wedge => (2, 2, 2)

/-- C69: the number of nodes is the one requested, or the least one if it is larger; the shape is not changed; without a shape
nothing happens. -/
theorem C69_dimensions (g : Grid) :
    (g.shape = none → build g = (g, false)) ∧
    (∀ s, g.shape = some s → ∀ a b c : Int, (build (setDimension g a b c)).2 = true ∧
      (build (setDimension g a b c)).1.shape = some s ∧
      getDimension (build (setDimension g a b c)).1 = (max a (Least s.kind).1, max b (Least s.kind).2.1, max c (Least s.kind).2.2)) := by
  constructor
  · intro h; unfold build; rw [h]
  · intro s h a b c
    obtain ⟨sh⟩ := g
    simp only at h
    subst h
    refine ⟨rfl, rfl, ?_⟩
    simp only [build, getDimension, setDimension, Prod.mk.injEq]
    cases s.kind <;> simp only [dimLimit, Least] <;> omega

example : (setShape new .sphere 0 0).shape ≠ none := by simp [setShape]

theorem frac_bounds {i n : Int} (h : 0 ≤ i ∧ i ≤ n) (hn : 1 ≤ n) : (0 : ℝ) ≤ i / n ∧ (i : ℝ) / n ≤ 1 := by
  have hn' : (0 : ℝ) < n := by exact_mod_cast (by omega : 0 < n)
  have h1 : (0 : ℝ) ≤ i := by exact_mod_cast h.1
  have h2 : (i : ℝ) ≤ n := by exact_mod_cast h.2
  exact ⟨div_nonneg h1 hn'.le, (div_le_one hn').2 h2⟩

/-- the coordinates of a node are the uniform parameters of the shape -/
theorem localPoint_uniform {g : Grid} {s : Shape} (h : Made g s) (hl : Limits s) {i j k : Int} (hn : IsNode g i j k) :
    localPoint g i j k = some (basicToLocal s ⟨i / g.nx, j / g.ny, k / g.nz⟩) := by
  rw [localPoint_made h hn, h.dx, h.dy, h.dz]
  congr 1
  have h1 := hl.2.spX
  rcases hk : s.kind
  · have h2 := hl.2.spY (.inl hk)
    have h3 := hl.2.spZ (by simp [hk])
    simp only [basicToLocal, hk, h1, h2, h3]; ext <;> simp <;> ring
  · have h3 := hl.2.spZ (by simp [hk])
    simp only [basicToLocal, hk, h1, h3]; ext <;> simp <;> ring
  · simp only [basicToLocal, hk, h1]; ext <;> simp <;> ring
  · have h2 := hl.2.spY (.inr hk)
    have h3 := hl.2.spZ (by simp [hk])
    simp only [basicToLocal, hk, h1, h2, h3]; ext <;> simp <;> ring

/-- C69: the nodes are equally spaced between the two ends of the shape, in each direction: node (i, j, k) has parameters
i/nx, j/ny, k/nz, so that it lies in the shape, and numbers and indices give the same node. -/
theorem C69_nodes {g : Grid} {s : Shape} (hg : g.shape = some s) (hr : Reach s) {i j k : Int} (hn : IsNode (build g).1 i j k) :
    let m := (build g).1
    localPoint m i j k = some (basicToLocal s ⟨i / m.nx, j / m.ny, k / m.nz⟩) ∧
    globalPoint m i j k = some (toWorld s (basicToLocal s ⟨i / m.nx, j / m.ny, k / m.nz⟩)) ∧
    (∀ p, globalPoint m i j k = some p → Solid s p) ∧
    localPointN m (pointIndex m i j k) = localPoint m i j k ∧ globalPointN m (pointIndex m i j k) = globalPoint m i j k := by
  intro m
  have hm : Made m s := made_build hg
  have h1 := localPoint_uniform hm (C64_bounded hr) hn
  have h2 : globalPoint m i j k = some (toWorld s (basicToLocal s ⟨i / m.nx, j / m.ny, k / m.nz⟩)) := by
    unfold globalPoint transfToGlobal; rw [h1, hm.shape]; rfl
  refine ⟨h1, h2, ?_, localPointN_made hm hn, ?_⟩
  · intro p hp
    rw [h2] at hp
    cases hp
    exact ⟨⟨i / m.nx, j / m.ny, k / m.nz⟩, frac_bounds hn.1 hm.px, frac_bounds hn.2.1 hm.py, frac_bounds hn.2.2 hm.pz, rfl⟩
  · unfold globalPointN globalPoint; rw [localPointN_made hm hn]

/-- the sphere with 5 × 5 × 3 nodes -/
example : Reach (basic .sphere) ∧ (setShapeCopy new (some (basic .sphere))).shape = some (basic .sphere) ∧
    IsNode (build (setShapeCopy new (some (basic .sphere)))).1 1 4 2 := by
  refine ⟨.new _, rfl, ?_⟩
  simp [build, setShapeCopy, IsNode, dimLimit, basic, new]

/-- sum of points -/
noncomputable def total (l : List V3) : V3 := ⟨(l.map V3.x).sum, (l.map V3.y).sum, (l.map V3.z).sum⟩

/-- C69: the centre of a cell is the mean of its eight vertices (in the coordinates of the shape). -/
theorem C69_centres {g : Grid} {s : Shape} (hg : g.shape = some s) {i j k : Int} (hc : IsCell (build g).1 i j k) :
    let m := (build g).1
    ∃ c ns vs, localCellN m (cellIndex m i j k) = some c ∧ localCell m i j k = some c ∧
      cellNeighsN m (cellIndex m i j k) = some ns ∧ ns.mapM (localPointN m) = some vs ∧ vs.length = 8 ∧ V3.scale 8 c = total vs ∧
      globalCell m i j k = some (toWorld s c) ∧ globalCellN m (cellIndex m i j k) = some (toWorld s c) := by
  intro m
  have hm : Made m s := made_build hg
  change IsCell m i j k at hc
  have hl := localCell_made hm hc
  have hlN := localCellN_made hm hc
  obtain ⟨hi, hj, hk⟩ := hc
  have pt : ∀ a b c : Int, 0 ≤ a ∧ a ≤ 1 → 0 ≤ b ∧ b ≤ 1 → 0 ≤ c ∧ c ≤ 1 → localPointN m (pointIndex m (i + a) (j + b) (k + c)) =
      some ⟨(localOrigin s).x + (i + a : Int) * m.dx, (localOrigin s).y + (j + b : Int) * m.dy, (localOrigin s).z + (k + c : Int) * m.dz⟩ := by
    intro a b c ha hb hc
    have hn : IsNode m (i + a) (j + b) (k + c) := ⟨by omega, by omega, by omega⟩
    rw [localPointN_made hm hn, localPoint_made hm hn]
  refine ⟨_, cellNeighs m i j k, vtkHexa.map (fun d => (⟨(localOrigin s).x + (i + d.1 : Int) * m.dx,
    (localOrigin s).y + (j + d.2.1 : Int) * m.dy, (localOrigin s).z + (k + d.2.2 : Int) * m.dz⟩ : V3)),
    by rw [hlN, hl], hl, ?_, ?_, ?_, ?_, ?_, ?_⟩
  · unfold cellNeighsN; rw [(C68_cell_there m ⟨hi, hj, hk⟩).1]; rfl
  · have e : cellNeighs m i j k = vtkHexa.map (fun d => pointIndex m (i + d.1) (j + d.2.1) (k + d.2.2)) := by simp [cellNeighs, vtkHexa]
    rw [e]
    have q : ∀ l : List (Int × Int × Int), (∀ d ∈ l, (0 ≤ d.1 ∧ d.1 ≤ 1) ∧ (0 ≤ d.2.1 ∧ d.2.1 ≤ 1) ∧ (0 ≤ d.2.2 ∧ d.2.2 ≤ 1)) →
        (l.map (fun d => pointIndex m (i + d.1) (j + d.2.1) (k + d.2.2))).mapM (localPointN m) = some (l.map (fun d =>
          (⟨(localOrigin s).x + (i + d.1 : Int) * m.dx, (localOrigin s).y + (j + d.2.1 : Int) * m.dy,
            (localOrigin s).z + (k + d.2.2 : Int) * m.dz⟩ : V3))) := by
      intro l
      induction l with
      | nil => intro _; rfl
      | cons d l ih =>
        intro hd
        obtain ⟨h1, h2, h3⟩ := hd d (by simp)
        rw [List.map_cons, List.mapM_cons, pt _ _ _ h1 h2 h3, ih (fun d h => hd d (by simp [h]))]
        rfl
    rw [q vtkHexa (by decide)]
  · simp [vtkHexa]
  · simp [vtkHexa, total, V3.scale]
    refine ⟨?_, ?_, ?_⟩ <;> ring
  · unfold globalCell transfToGlobal; rw [hl, hm.shape]; rfl
  · unfold globalCellN transfToGlobal; rw [hlN, hl, hm.shape]; rfl

example : IsCell (build (setShapeCopy new (some (basic .sphere)))).1 0 3 1 := by
  simp [build, setShapeCopy, IsCell, dimLimit, basic, new]

theorem mapM_some {α : Type} {f : Nat → Option α} {n : Nat} (h : ∀ i < n, (f i).isSome) :
    ∃ l, (List.range n).mapM f = some l ∧ l.length = n ∧ ∀ i < n, l[i]? = f i := by
  have key : ∀ l : List Nat, (∀ i ∈ l, (f i).isSome) → ∃ r, l.mapM f = some r ∧ r.length = l.length ∧
      ∀ i, ∀ h : i < l.length, r[i]? = f l[i] := by
    intro l
    induction l with
    | nil => intro _; exact ⟨[], rfl, rfl, fun i h => absurd h (by simp)⟩
    | cons a l ih =>
      intro hl
      obtain ⟨r, h1, h2, h3⟩ := ih (fun i hi => hl i (by simp [hi]))
      obtain ⟨v, hv⟩ := Option.isSome_iff_exists.1 (hl a (by simp))
      refine ⟨v :: r, by rw [List.mapM_cons, hv, h1]; rfl, by simp [h2], ?_⟩
      intro i hi
      cases i with
      | zero => simp [hv]
      | succ i => simpa using h3 i (by simpa using hi)
  obtain ⟨r, h1, h2, h3⟩ := key (List.range n) (fun i hi => h i (by simpa using hi))
  refine ⟨r, h1, by simpa using h2, fun i hi => ?_⟩
  have := h3 i (by simpa using hi)
  simpa using this

/-- C69: the lists of coordinates have one entry per node (cell), in the order of the numbers. -/
theorem C69_lists {g : Grid} {s : Shape} (hg : g.shape = some s) :
    let m := (build g).1
    (∃ l, localCoords m = some l ∧ (l.length : Int) = (m.nx + 1) * (m.ny + 1) * (m.nz + 1) ∧ ∀ n < l.length, l[n]? = localPointN m n) ∧
    (∃ l, globalCoords m = some l ∧ (l.length : Int) = (m.nx + 1) * (m.ny + 1) * (m.nz + 1) ∧ ∀ n < l.length, l[n]? = globalPointN m n) ∧
    (∃ l, localCentroids m = some l ∧ (l.length : Int) = m.nx * m.ny * m.nz ∧ ∀ n < l.length, l[n]? = localCellN m n) ∧
    (∃ l, globalCentroids m = some l ∧ (l.length : Int) = m.nx * m.ny * m.nz ∧ ∀ n < l.length, l[n]? = globalCellN m n) := by
  intro m
  have hm : Made m s := made_build hg
  have px := hm.px
  have py := hm.py
  have pz := hm.pz
  have hN : 0 ≤ (m.nx + 1) * (m.ny + 1) * (m.nz + 1) := Int.mul_nonneg (Int.mul_nonneg (by omega) (by omega)) (by omega)
  have hC : 0 ≤ m.nx * m.ny * m.nz := Int.mul_nonneg (Int.mul_nonneg (by omega) (by omega)) (by omega)
  have lp : ∀ n : Nat, n < ((m.nx + 1) * (m.ny + 1) * (m.nz + 1)).toNat → ∃ p, localPointN m n = some p := by
    intro n hn
    obtain ⟨i, j, k, -, h2, h3⟩ := C68_node_back m (by omega) (by omega) (n := n) (by omega)
    rw [← h3, localPointN_made hm h2, localPoint_made hm h2]; exact ⟨_, rfl⟩
  have lc : ∀ n : Nat, n < (m.nx * m.ny * m.nz).toNat → ∃ p, localCellN m n = some p := by
    intro n hn
    obtain ⟨i, j, k, -, h2, h3⟩ := C68_cell_back m (by omega) (by omega) (n := n) (by omega)
    rw [← h3, localCellN_made hm h2, localCell_made hm h2]; exact ⟨_, rfl⟩
  refine ⟨?_, ?_, ?_, ?_⟩
  · obtain ⟨l, h1, h2, h3⟩ := mapM_some (f := fun n => localPointN m (n : Nat)) (n := ((m.nx + 1) * (m.ny + 1) * (m.nz + 1)).toNat)
      (fun i hi => by obtain ⟨p, hp⟩ := lp i hi; rw [hp]; rfl)
    exact ⟨l, by unfold localCoords; exact h1, by omega, fun n hn => h3 n (by omega)⟩
  · obtain ⟨l, h1, h2, h3⟩ := mapM_some (f := fun n => globalPointN m (n : Nat)) (n := ((m.nx + 1) * (m.ny + 1) * (m.nz + 1)).toNat)
      (fun i hi => by
        obtain ⟨p, hp⟩ := lp i hi
        unfold globalPointN transfToGlobal; rw [hp, hm.shape]; rfl)
    exact ⟨l, by unfold globalCoords; exact h1, by omega, fun n hn => h3 n (by omega)⟩
  · obtain ⟨l, h1, h2, h3⟩ := mapM_some (f := fun n => localCellN m (n : Nat)) (n := (m.nx * m.ny * m.nz).toNat)
      (fun i hi => by obtain ⟨p, hp⟩ := lc i hi; rw [hp]; rfl)
    exact ⟨l, by unfold localCentroids; exact h1, by omega, fun n hn => h3 n (by omega)⟩
  · obtain ⟨l, h1, h2, h3⟩ := mapM_some (f := fun n => globalCellN m (n : Nat)) (n := (m.nx * m.ny * m.nz).toNat)
      (fun i hi => by
        obtain ⟨p, hp⟩ := lc i hi
        unfold globalCellN transfToGlobal; rw [hp, hm.shape]; rfl)
    exact ⟨l, by unfold globalCentroids; exact h1, by omega, fun n hn => h3 n (by omega)⟩

/-! ### Location -/

theorem Made.dpos {g : Grid} {s : Shape} (h : Made g s) (hp : Proper s) : 0 < g.dx ∧ 0 < g.dy ∧ 0 < g.dz := by
  have px : (0 : ℝ) < g.nx := by exact_mod_cast (by have := h.px; omega : 0 < g.nx)
  have py : (0 : ℝ) < g.ny := by exact_mod_cast (by have := h.py; omega : 0 < g.ny)
  have pz : (0 : ℝ) < g.nz := by exact_mod_cast (by have := h.pz; omega : 0 < g.nz)
  rw [h.dx, h.dy, h.dz, hp.limits.2.spX]
  exact ⟨div_pos one_pos px, div_pos hp.spY py, div_pos hp.spZ pz⟩

/-- one direction: the index is valid, and the interval contains the coordinate if this is within the range -/
theorem locate1_spec {p lo d : ℝ} {n : Int} (hd : 0 < d) (hn : 1 ≤ n) :
    (0 ≤ locate1 p lo d n ∧ locate1 p lo d n < n) ∧
    (lo ≤ p → p ≤ lo + n * d → lo + (locate1 p lo d n : ℝ) * d ≤ p ∧ p ≤ lo + ((locate1 p lo d n : ℝ) + 1) * d) := by
  constructor
  · unfold locate1; omega
  · intro h1 h2
    have hf0 : 0 ≤ ⌊(p - lo) / d⌋ := Int.floor_nonneg.2 (div_nonneg (by linarith) hd.le)
    have hle : (⌊(p - lo) / d⌋ : ℝ) ≤ (p - lo) / d := Int.floor_le _
    have hlt : (p - lo) / d < ⌊(p - lo) / d⌋ + 1 := Int.lt_floor_add_one _
    rw [le_div_iff₀ hd] at hle
    rw [div_lt_iff₀ hd] at hlt
    have hv : locate1 p lo d n = min (n - 1) ⌊(p - lo) / d⌋ := by unfold locate1; rw [max_eq_right hf0]
    rcases le_total ⌊(p - lo) / d⌋ (n - 1) with hc | hc
    · rw [hv, min_eq_right hc]; constructor <;> linarith
    · rw [hv, min_eq_left hc]
      have hc' : ((n - 1 : Int) : ℝ) ≤ ⌊(p - lo) / d⌋ := by exact_mod_cast hc
      have : ((n - 1 : Int) : ℝ) * d ≤ ⌊(p - lo) / d⌋ * d := mul_le_mul_of_nonneg_right hc' hd.le
      push_cast at this ⊢
      constructor <;> linarith

theorem locate_made {g : Grid} {s : Shape} (h : Made g s) (hp : Proper s) (p : V3) :
    locate g p = some (locate1 (toLocal s p).x (localOrigin s).x g.dx g.nx, locate1 (toLocal s p).y (localOrigin s).y g.dy g.ny,
      locate1 (toLocal s p).z (localOrigin s).z g.dz g.nz) := by
  obtain ⟨d1, d2, d3⟩ := h.dpos hp
  unfold locate
  rw [h.shape]
  simp only [Option.bind_eq_bind, Option.bind_some]
  rw [if_neg (by rintro (h | h | h) <;> linarith)]

/-- the box of cell (i, j, k), in the coordinates of the shape -/
def InCell (g : Grid) (i j k : Int) (q : V3) : Prop :=
  ∃ a b, localPoint g i j k = some a ∧ localPoint g (i + 1) (j + 1) (k + 1) = some b ∧ InB a b q

/-- C70: an existing cell for every point; if the coordinates of the point are within those of the shape, the cell contains it. -/
theorem C70_locate {g : Grid} {s : Shape} (hg : g.shape = some s) (hp : Proper s) (p : V3) :
    let m := (build g).1
    ∃ i j k, locate m p = some (i, j, k) ∧ IsCell m i j k ∧
      (InB (localOrigin s) (localOrigin s + s.span) (toLocal s p) → InCell m i j k (toLocal s p)) := by
  intro m
  have hm : Made m s := made_build hg
  obtain ⟨d1, d2, d3⟩ := hm.dpos hp
  have hx := locate1_spec (p := (toLocal s p).x) (lo := (localOrigin s).x) d1 hm.px
  have hy := locate1_spec (p := (toLocal s p).y) (lo := (localOrigin s).y) d2 hm.py
  have hz := locate1_spec (p := (toLocal s p).z) (lo := (localOrigin s).z) d3 hm.pz
  have hc : IsCell m _ _ _ := ⟨hx.1, hy.1, hz.1⟩
  refine ⟨_, _, _, locate_made hm hp p, hc, ?_⟩
  rintro ⟨b1, b2, b3⟩
  have nx0 : (m.nx : ℝ) ≠ 0 := by exact_mod_cast (by have := hm.px; omega : m.nx ≠ 0)
  have ny0 : (m.ny : ℝ) ≠ 0 := by exact_mod_cast (by have := hm.py; omega : m.ny ≠ 0)
  have nz0 : (m.nz : ℝ) ≠ 0 := by exact_mod_cast (by have := hm.pz; omega : m.nz ≠ 0)
  have ex : (m.nx : ℝ) * m.dx = s.span.x := by rw [hm.dx]; field_simp
  have ey : (m.ny : ℝ) * m.dy = s.span.y := by rw [hm.dy]; field_simp
  have ez : (m.nz : ℝ) * m.dz = s.span.z := by rw [hm.dz]; field_simp
  simp only [add_x, add_y, add_z] at b1 b2 b3
  have r1 := hx.2 b1.1 (by rw [ex]; exact b1.2)
  have r2 := hy.2 b2.1 (by rw [ey]; exact b2.2)
  have r3 := hz.2 b3.1 (by rw [ez]; exact b3.2)
  have n0 : IsNode m (locate1 (toLocal s p).x (localOrigin s).x m.dx m.nx) (locate1 (toLocal s p).y (localOrigin s).y m.dy m.ny)
      (locate1 (toLocal s p).z (localOrigin s).z m.dz m.nz) :=
    ⟨⟨hx.1.1, hx.1.2.le⟩, ⟨hy.1.1, hy.1.2.le⟩, ⟨hz.1.1, hz.1.2.le⟩⟩
  have n1 : IsNode m (locate1 (toLocal s p).x (localOrigin s).x m.dx m.nx + 1) (locate1 (toLocal s p).y (localOrigin s).y m.dy m.ny + 1)
      (locate1 (toLocal s p).z (localOrigin s).z m.dz m.nz + 1) :=
    ⟨⟨by have := hx.1.1; omega, by have := hx.1.2; omega⟩, ⟨by have := hy.1.1; omega, by have := hy.1.2; omega⟩,
      ⟨by have := hz.1.1; omega, by have := hz.1.2; omega⟩⟩
  refine ⟨_, _, localPoint_made hm n0, localPoint_made hm n1, ?_⟩
  push_cast
  exact ⟨r1, r2, r3⟩

/-- C70: a point of the shape with parameters t (away from axes, poles and seams, where the angles of a point are not unique) is
located in a cell whose parameters enclose t. -/
theorem C70_inside {g : Grid} {s : Shape} (hg : g.shape = some s) (hp : Proper s) {t : V3} (ht : InB ⟨0, 0, 0⟩ ⟨1, 1, 1⟩ t)
    (hr : Regular s (basicToLocal s t)) :
    let m := (build g).1
    ∃ i j k, locate m (toWorld s (basicToLocal s t)) = some (i, j, k) ∧ IsCell m i j k ∧
      ((i : ℝ) / m.nx ≤ t.x ∧ t.x ≤ (i + 1) / m.nx) ∧ ((j : ℝ) / m.ny ≤ t.y ∧ t.y ≤ (j + 1) / m.ny) ∧
      ((k : ℝ) / m.nz ≤ t.z ∧ t.z ≤ (k + 1) / m.nz) := by
  intro m
  have hm : Made m s := made_build hg
  obtain ⟨i, j, k, h1, h2, h3⟩ := C70_locate hg hp (toWorld s (basicToLocal s t))
  refine ⟨i, j, k, h1, h2, ?_⟩
  rw [C62_local_world_local_partial hp.frame hp.scaled (inLimits_of hp.limits) hr] at h3
  have hsp := hp.limits.2
  have px : (0 : ℝ) < m.nx := by exact_mod_cast (by have := hm.px; omega : 0 < m.nx)
  have py : (0 : ℝ) < m.ny := by exact_mod_cast (by have := hm.py; omega : 0 < m.ny)
  have pz : (0 : ℝ) < m.nz := by exact_mod_cast (by have := hm.pz; omega : 0 < m.nz)
  have sy := hp.spY
  have sz := hp.spZ
  have sx := hsp.spX
  -- coordinates from parameters
  have hb : basicToLocal s t = ⟨(localOrigin s).x + t.x * s.span.x, (localOrigin s).y + t.y * s.span.y, (localOrigin s).z + t.z * s.span.z⟩ := by
    rcases hk : s.kind
    · have h2 := hsp.spY (.inl hk)
      have h3 := hsp.spZ (by simp [hk])
      simp only [basicToLocal, hk, sx, h2, h3]; ext <;> simp <;> ring
    · have h3 := hsp.spZ (by simp [hk])
      simp only [basicToLocal, hk, sx, h3]; ext <;> simp <;> ring
    · simp only [basicToLocal, hk, sx]; ext <;> simp <;> ring
    · have h2 := hsp.spY (.inr hk)
      have h3 := hsp.spZ (by simp [hk])
      simp only [basicToLocal, hk, sx, h2, h3]; ext <;> simp <;> ring
  obtain ⟨t1, t2, t3⟩ := ht
  simp only at t1 t2 t3
  rw [hb] at h3
  obtain ⟨a, b, ha, hb', hin⟩ := h3 ⟨⟨by simp only [sx]; linarith, by simp only [add_x, sx]; linarith⟩,
    ⟨by simp only; nlinarith, by simp only [add_y]; nlinarith⟩, ⟨by simp only; nlinarith, by simp only [add_z]; nlinarith⟩⟩
  change IsCell m i j k at h2
  obtain ⟨ci, cj, ck⟩ := h2
  have e1 := localPoint_made hm (i := i) (j := j) (k := k) ⟨by omega, by omega, by omega⟩
  have e2 := localPoint_made hm (i := i + 1) (j := j + 1) (k := k + 1) ⟨by omega, by omega, by omega⟩
  have ea := Option.some.inj (e1.symm.trans ha)
  have eb := Option.some.inj (e2.symm.trans hb')
  subst ea
  subst eb
  obtain ⟨q1, q2, q3⟩ := hin
  simp only [hm.dx, hm.dy, hm.dz] at q1 q2 q3
  push_cast at q1 q2 q3
  have cancel : ∀ {a u sp n : ℝ}, 0 < sp → 0 < n → ((a * (sp / n) ≤ u * sp ↔ a / n ≤ u) ∧ (u * sp ≤ a * (sp / n) ↔ u ≤ a / n)) := by
    intro a u sp n hsp hn
    have e : a * (sp / n) = a / n * sp := by ring
    rw [e]
    exact ⟨mul_le_mul_iff_left₀ hsp, mul_le_mul_iff_left₀ hsp⟩
  have sx' : 0 < s.span.x := by rw [sx]; exact one_pos
  refine ⟨⟨?_, ?_⟩, ⟨?_, ?_⟩, ?_, ?_⟩
  · exact (cancel sx' px).1.1 (by linarith [q1.1])
  · exact (cancel sx' px).2.1 (by linarith [q1.2])
  · exact (cancel sy py).1.1 (by linarith [q2.1])
  · exact (cancel sy py).2.1 (by linarith [q2.2])
  · exact (cancel sz pz).1.1 (by linarith [q3.1])
  · exact (cancel sz pz).2.1 (by linarith [q3.2])

/-- a wedge and a point of it -/
example : Proper (basic .wedge) ∧ InB ⟨0, 0, 0⟩ ⟨1, 1, 1⟩ (⟨1 / 2, 1 / 3, 1⟩ : V3) ∧ Regular (basic .wedge) (basicToLocal (basic .wedge) ⟨1 / 2, 1 / 3, 1⟩) := by
  refine ⟨proper_basic _, ⟨by norm_num, by norm_num, by norm_num⟩, ?_⟩
  simp [Regular, basicToLocal, localOrigin, basic]

end Verif.Grid
