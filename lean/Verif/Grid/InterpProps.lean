import Verif.Grid.BuildProps
/-
C71: interpolation of data on the nodes or on the cells.
-/
namespace Verif.Grid
open Real Verif.Shape

/-! ### Specification: the piecewise linear function through samples at the integers -/

/-- linear between consecutive samples -/
noncomputable def lin (f : Int → ℝ) (p : ℝ) : ℝ := (1 - Int.fract p) * f ⌊p⌋ + Int.fract p * f (⌊p⌋ + 1)

/-- a position is moved into the range of `m` samples -/
noncomputable def clampTo (m : Int) (p : ℝ) : ℝ := max 0 (min ((m : ℝ) - 1) p)

/-- piecewise trilinear interpolation of samples at the integers, `m` samples per direction -/
noncomputable def trilinear (m : Int × Int × Int) (v : Int → Int → Int → ℝ) (p : V3) : ℝ :=
  lin (fun i => lin (fun j => lin (fun k => v i j k) (clampTo m.2.2 p.z)) (clampTo m.2.1 p.y)) (clampTo m.1 p.x)

theorem lin_int (f : Int → ℝ) (i : Int) : lin f i = f i := by simp [lin]

theorem lin_between (f : Int → ℝ) {i j : Int} {w p : ℝ} (hw : 0 ≤ w ∧ w ≤ 1) (hij : j = i ∨ j = i + 1 ∨ i = j + 1)
    (hp : (1 - w) * i + w * j = p) : lin f p = (1 - w) * f i + w * f j := by
  have gen : ∀ (i : Int) (w : ℝ), 0 ≤ w → w ≤ 1 → lin f (i + w) = (1 - w) * f i + w * f (i + 1) := by
    intro i w h0 h1
    rcases lt_or_eq_of_le h1 with h | h
    · have e1 : ⌊(i : ℝ) + w⌋ = i := by rw [Int.floor_eq_iff]; constructor <;> linarith
      have e2 : Int.fract ((i : ℝ) + w) = w := by rw [Int.fract, e1]; ring
      rw [lin, e1, e2]
    · subst h
      have : (i : ℝ) + 1 = ((i + 1 : Int) : ℝ) := by push_cast; ring
      rw [this, lin_int]; ring
  rcases hij with h | h | h
  · subst h
    have : p = j := by rw [← hp]; ring
    rw [this, lin_int]; ring
  · subst h
    have : p = i + w := by rw [← hp]; push_cast; ring
    rw [this, gen i w hw.1 hw.2]
  · subst h
    have : p = j + (1 - w) := by rw [← hp]; push_cast; ring
    rw [this, gen j (1 - w) (by linarith [hw.2]) (by linarith [hw.1])]; ring

theorem clampTo_range {m : Int} (hm : 1 ≤ m) (p : ℝ) : 0 ≤ clampTo m p ∧ clampTo m p ≤ ((m - 1 : Int) : ℝ) := by
  have : (1 : ℝ) ≤ m := by exact_mod_cast hm
  unfold clampTo
  push_cast
  refine ⟨le_max_left _ _, max_le (by linarith) (min_le_left _ _)⟩

theorem lin_range {f : Int → ℝ} {a b p : ℝ} {m : Int} (hp : 0 ≤ p ∧ p ≤ ((m - 1 : Int) : ℝ)) (hf : ∀ i, 0 ≤ i → i < m → a ≤ f i ∧ f i ≤ b) :
    a ≤ lin f p ∧ lin f p ≤ b := by
  have h0 : 0 ≤ ⌊p⌋ := Int.floor_nonneg.2 hp.1
  have h1 : ⌊p⌋ ≤ m - 1 := by
    have : (⌊p⌋ : ℝ) ≤ ((m - 1 : Int) : ℝ) := (Int.floor_le p).trans hp.2
    exact_mod_cast this
  have fr0 := Int.fract_nonneg p
  have fr1 := Int.fract_lt_one p
  have A := hf ⌊p⌋ h0 (by omega)
  rcases lt_or_eq_of_le h1 with h | h
  · have B := hf (⌊p⌋ + 1) (by omega) (by omega)
    unfold lin
    constructor <;> nlinarith
  · have : p = ((m - 1 : Int) : ℝ) := by
      apply le_antisymm hp.2
      have := Int.floor_le p
      rw [h] at this
      exact this
    have fz : Int.fract p = 0 := by rw [this]; simp
    unfold lin
    rw [fz]
    constructor <;> linarith

theorem trilinear_range {m : Int × Int × Int} (h1 : 1 ≤ m.1) (h2 : 1 ≤ m.2.1) (h3 : 1 ≤ m.2.2) {v : Int → Int → Int → ℝ} {a b : ℝ}
    (hv : ∀ i j k, 0 ≤ i → i < m.1 → 0 ≤ j → j < m.2.1 → 0 ≤ k → k < m.2.2 → a ≤ v i j k ∧ v i j k ≤ b) (p : V3) :
    a ≤ trilinear m v p ∧ trilinear m v p ≤ b := by
  refine lin_range (clampTo_range h1 _) (fun i hi hi' => ?_)
  refine lin_range (clampTo_range h2 _) (fun j hj hj' => ?_)
  exact lin_range (clampTo_range h3 _) (fun k hk hk' => hv i j k hi hi' hj hj' hk hk')

theorem clampTo_int {m i : Int} (hi : 0 ≤ i ∧ i < m) : clampTo m i = i := by
  have h0 : (0 : ℝ) ≤ i := by exact_mod_cast hi.1
  have h1 : (i : ℝ) ≤ m - 1 := by
    have : i ≤ m - 1 := by omega
    exact_mod_cast this
  unfold clampTo
  rw [min_eq_right h1, max_eq_right h0]

theorem trilinear_int {m : Int × Int × Int} {v : Int → Int → Int → ℝ} {i j k : Int} (hi : 0 ≤ i ∧ i < m.1) (hj : 0 ≤ j ∧ j < m.2.1)
    (hk : 0 ≤ k ∧ k < m.2.2) : trilinear m v ⟨i, j, k⟩ = v i j k := by
  unfold trilinear
  simp only [clampTo_int hi, clampTo_int hj, clampTo_int hk, lin_int]

/-! ### One direction of the code -/

theorem weight_range (p c d : ℝ) : 0 ≤ weight p c d ∧ weight p c d ≤ 1 := by
  unfold weight
  exact ⟨le_max_left _ _, max_le zero_le_one (min_le_left _ _)⟩

/-- the two indices and the weight of one direction -/
structure Pair (m : Int) (a b : Int) (t p : ℝ) : Prop where
  i : 0 ≤ a ∧ a < m
  j : 0 ≤ b ∧ b < m
  w : 0 ≤ t ∧ t ≤ 1
  near : b = a ∨ b = a + 1 ∨ a = b + 1
  eq : (1 - t) * a + t * b = clampTo m p

theorem pair_cell {x lo d : ℝ} {n : Int} (hd : 0 < d) (hn : 1 ≤ n) :
    let i := locate1 x lo d n
    let c := lo + i * d + 0.5 * d
    Pair n i (nextCell x c i n) (weight x c d) ((x - (lo + d / 2)) / d) := by
  intro i c
  have hi : 0 ≤ i ∧ i < n := (locate1_spec hd hn).1
  obtain ⟨y, hy⟩ : ∃ y, y = (x - lo) / d := ⟨_, rfl⟩
  have hx : x = lo + y * d := by rw [hy]; field_simp; ring
  have e1 : (x - c) / d = y - i - 1 / 2 := by
    rw [hx]; simp only [c]; field_simp; ring
  have e2 : (x - (lo + d / 2)) / d = y - 1 / 2 := by rw [hx]; field_simp; ring
  have hf1 : (⌊y⌋ : ℝ) ≤ y := Int.floor_le _
  have hf2 : y < ⌊y⌋ + 1 := Int.lt_floor_add_one _
  have hiv : i = min (n - 1) (max 0 ⌊y⌋) := by rw [hy]; rfl
  have hxc : x > c ↔ y > i + 1 / 2 := by
    constructor
    · intro h
      have : 0 < (x - c) / d := div_pos (by linarith) hd
      rw [e1] at this; linarith
    · intro h
      have : 0 < (x - c) / d := by rw [e1]; linarith
      have := (div_pos_iff_of_pos_right hd).1 this
      linarith
  have near : (nextCell x c i n = i ∨ nextCell x c i n = i + 1 ∨ i = nextCell x c i n + 1) ∧ 0 ≤ nextCell x c i n ∧ nextCell x c i n < n := by
    unfold nextCell; split <;> omega
  refine ⟨hi, near.2, weight_range _ _ _, near.1, ?_⟩
  rw [e2]
  have hn1 : ((n : ℝ) - 1) = ((n - 1 : Int) : ℝ) := by push_cast; ring
  have hn0 : (0 : ℝ) ≤ ((n - 1 : Int) : ℝ) := by exact_mod_cast (by omega : 0 ≤ n - 1)
  unfold clampTo
  rw [hn1]
  by_cases hgt : y > i + 1 / 2
  · have hnx : nextCell x c i n = min (i + 1) (n - 1) := by unfold nextCell; rw [if_pos (hxc.2 hgt)]
    rcases lt_or_ge (i + 1) n with h | h
    · -- in range
      have hfl : i = ⌊y⌋ := by
        rcases le_total 0 ⌊y⌋ with h0 | h0
        · omega
        · have : i = 0 := by omega
          have h00 : ⌊y⌋ < 1 := by omega
          have : (0 : ℝ) < y := by rw [this] at hgt; push_cast at hgt; linarith
          have : 0 ≤ ⌊y⌋ := Int.floor_nonneg.2 this.le
          omega
      rw [← hfl] at hf1 hf2
      have hw : weight x c d = y - i - 1 / 2 := by
        unfold weight; rw [e1, abs_of_pos (by linarith), min_eq_right (by linarith), max_eq_right (by linarith)]
      have hnn : (i : ℝ) + 1 ≤ ((n - 1 : Int) : ℝ) := by exact_mod_cast (by omega : i + 1 ≤ n - 1)
      have hi0 : (0 : ℝ) ≤ i := by exact_mod_cast hi.1
      rw [hnx, min_eq_left (by omega), hw, min_eq_right (by linarith), max_eq_right (by linarith)]
      push_cast; ring
    · have : i = n - 1 := by omega
      rw [hnx, min_eq_right (by omega), ← this]
      have hi0 : (0 : ℝ) ≤ i := by exact_mod_cast hi.1
      rw [min_eq_left (by linarith), max_eq_right hi0]; ring
  · have hnx : nextCell x c i n = max 0 (i - 1) := by unfold nextCell; rw [if_neg (fun h => hgt (hxc.1 h))]
    have hle : y ≤ i + 1 / 2 := not_lt.1 hgt
    rcases lt_or_ge 0 i with h | h
    · have hfl : i = ⌊y⌋ := by
        rcases le_total ⌊y⌋ (n - 1) with h0 | h0
        · omega
        · have e : i = n - 1 := by omega
          have : (⌊y⌋ : ℝ) < i + 1 := by linarith
          have : ⌊y⌋ < i + 1 := by exact_mod_cast this
          omega
      rw [← hfl] at hf1 hf2
      have hw : weight x c d = i + 1 / 2 - y := by
        unfold weight
        rw [e1, abs_of_nonpos (by linarith), min_eq_right (by linarith), max_eq_right (by linarith)]
        ring
      have h1 : (1 : ℝ) ≤ i := by exact_mod_cast (by omega : 1 ≤ i)
      have h2 : (i : ℝ) ≤ ((n - 1 : Int) : ℝ) := by exact_mod_cast (by omega : i ≤ n - 1)
      rw [hnx, max_eq_right (by omega : 0 ≤ i - 1), hw, min_eq_right (by linarith), max_eq_right (by linarith)]
      push_cast; ring
    · have : i = 0 := by omega
      rw [hnx, max_eq_left (by omega : i - 1 ≤ 0), this]
      rw [this] at hle
      push_cast at hle
      rw [max_eq_left (le_trans (min_le_right _ _) (by linarith))]; push_cast; ring

theorem pair_point {x lo d : ℝ} {n : Int} (hd : 0 < d) (hn : 1 ≤ n) :
    let i := locatePoint1 x lo d n
    let c := lo + i * d
    Pair (n + 1) i (nextPoint x c i n) (weight x c d) ((x - lo) / d) := by
  intro i c
  obtain ⟨y, hy⟩ : ∃ y, y = (x - lo) / d := ⟨_, rfl⟩
  have hx : x = lo + y * d := by rw [hy]; field_simp; ring
  have e1 : (x - c) / d = y - i := by
    rw [hx]; simp only [c]; field_simp; ring
  have hf1 : (⌊y⌋ : ℝ) ≤ y := Int.floor_le _
  have hf2 : y < ⌊y⌋ + 1 := Int.lt_floor_add_one _
  have hiv : i = max 0 (min n ⌊y⌋) := by rw [hy]; rfl
  have hi : 0 ≤ i ∧ i < n + 1 := by omega
  have hxc : x ≥ c ↔ y ≥ i := by
    constructor
    · intro h
      have : 0 ≤ (x - c) / d := div_nonneg (by linarith) hd.le
      rw [e1] at this; linarith
    · intro h
      have : 0 ≤ (x - c) / d := by rw [e1]; linarith
      have h2 := mul_nonneg this hd.le
      rw [div_mul_cancel₀ _ hd.ne'] at h2
      linarith
  have near : (nextPoint x c i n = i ∨ nextPoint x c i n = i + 1 ∨ i = nextPoint x c i n + 1) ∧ 0 ≤ nextPoint x c i n ∧ nextPoint x c i n < n + 1 := by
    unfold nextPoint; split <;> omega
  refine ⟨hi, near.2, weight_range _ _ _, near.1, ?_⟩
  rw [← hy]
  have hn1 : (((n + 1 : Int) : ℝ) - 1) = (n : ℝ) := by push_cast; ring
  have hn0 : (1 : ℝ) ≤ (n : ℝ) := by exact_mod_cast hn
  have hi0 : (0 : ℝ) ≤ i := by exact_mod_cast hi.1
  unfold clampTo
  rw [hn1]
  by_cases hge : y ≥ i
  · have hnx : nextPoint x c i n = min (i + 1) n := by unfold nextPoint; rw [if_pos (hxc.2 hge)]
    rcases lt_or_ge i n with h | h
    · have hfl : i = ⌊y⌋ := by
        have : i ≤ ⌊y⌋ := Int.le_floor.2 hge
        omega
      rw [← hfl] at hf1 hf2
      have hw : weight x c d = y - i := by
        unfold weight; rw [e1, abs_of_nonneg (by linarith), min_eq_right (by linarith), max_eq_right (by linarith)]
      have hnn : (i : ℝ) + 1 ≤ n := by exact_mod_cast (by omega : i + 1 ≤ n)
      rw [hnx, min_eq_left (by omega), hw, min_eq_right (by linarith), max_eq_right (by linarith)]
      push_cast; ring
    · have : i = n := by omega
      have hle : (n : ℝ) ≤ y := by rw [← this]; exact hge
      rw [hnx, min_eq_right (by omega), this, min_eq_left hle, max_eq_right (by linarith)]; ring
  · have hnx : nextPoint x c i n = max 0 (i - 1) := by unfold nextPoint; rw [if_neg (fun h => hge (hxc.1 h))]
    have hlt : y < i := not_le.1 hge
    have : ⌊y⌋ < i := Int.floor_lt.2 hlt
    have : i = 0 := by omega
    rw [hnx, max_eq_left (by omega : i - 1 ≤ 0), this]
    rw [this] at hlt
    push_cast at hlt
    rw [max_eq_left (le_trans (min_le_right _ _) hlt.le)]; push_cast; ring

/-! ### Three directions -/

theorem blend_pairs {m : Int × Int × Int} {ix jx iy jy iz jz : Int} {wx wy wz : ℝ} {p : V3} (hx : Pair m.1 ix jx wx p.x)
    (hy : Pair m.2.1 iy jy wy p.y) (hz : Pair m.2.2 iz jz wz p.z) {get : Int → Int → Int → Option ℝ} {v : Int → Int → Int → ℝ}
    (hv : ∀ i j k, 0 ≤ i → i < m.1 → 0 ≤ j → j < m.2.1 → 0 ≤ k → k < m.2.2 → get i j k = some (v i j k)) :
    (eight get ix jx iy jy iz jz).map (blend wx wy wz) = some (trilinear m v p) := by
  unfold eight
  rw [hv _ _ _ hx.i.1 hx.i.2 hy.i.1 hy.i.2 hz.i.1 hz.i.2, hv _ _ _ hx.i.1 hx.i.2 hy.j.1 hy.j.2 hz.i.1 hz.i.2,
    hv _ _ _ hx.j.1 hx.j.2 hy.i.1 hy.i.2 hz.i.1 hz.i.2, hv _ _ _ hx.j.1 hx.j.2 hy.j.1 hy.j.2 hz.i.1 hz.i.2,
    hv _ _ _ hx.i.1 hx.i.2 hy.i.1 hy.i.2 hz.j.1 hz.j.2, hv _ _ _ hx.i.1 hx.i.2 hy.j.1 hy.j.2 hz.j.1 hz.j.2,
    hv _ _ _ hx.j.1 hx.j.2 hy.i.1 hy.i.2 hz.j.1 hz.j.2, hv _ _ _ hx.j.1 hx.j.2 hy.j.1 hy.j.2 hz.j.1 hz.j.2]
  simp only [Option.bind_eq_bind, Option.bind_some, Option.map_some, blend, Option.some.injEq]
  unfold trilinear
  rw [lin_between _ hx.w hx.near hx.eq]
  simp only [lin_between _ hy.w hy.near hy.eq, lin_between _ hz.w hz.near hz.eq]
  simp only [Bool.false_eq_true, if_false, if_true]
  ring

theorem elem_data {data : List ℝ} {n : Int} (h0 : 0 ≤ n) (h1 : n < data.length) : elem data n = some (data.getD n.toNat 0) := by
  unfold elem
  rw [if_neg (by omega)]
  rw [List.getD_eq_getElem?_getD, List.getElem?_eq_getElem (by omega)]
  rfl

/-- position of a local coordinate among the samples: the node 0 is at `localOrigin`, the centre 0 half a cell further -/
noncomputable def nodePos (g : Grid) (s : Shape) (q : V3) : V3 :=
  ⟨(q.x - (localOrigin s).x) / g.dx, (q.y - (localOrigin s).y) / g.dy, (q.z - (localOrigin s).z) / g.dz⟩
noncomputable def cellPos (g : Grid) (s : Shape) (q : V3) : V3 :=
  ⟨(q.x - ((localOrigin s).x + g.dx / 2)) / g.dx, (q.y - ((localOrigin s).y + g.dy / 2)) / g.dy, (q.z - ((localOrigin s).z + g.dz / 2)) / g.dz⟩

/-- C71: the value at any point is the piecewise trilinear interpolation, with the nearest sample used outside. -/
theorem C71_points {g : Grid} {s : Shape} (hg : g.shape = some s) (hp : Proper s) (point : V3) {data : List ℝ} :
    let m := (build g).1
    (m.nx + 1) * (m.ny + 1) * (m.nz + 1) ≤ data.length →
    interpPoint m point data = some (trilinear (m.nx + 1, m.ny + 1, m.nz + 1) (fun i j k => data.getD (pointIndex m i j k).toNat 0)
      (nodePos m s (toLocal s point))) := by
  intro m hlen
  have hm : Made m s := made_build hg
  obtain ⟨d1, d2, d3⟩ := hm.dpos hp
  have px := pair_point (x := (toLocal s point).x) (lo := (localOrigin s).x) d1 hm.px
  have py := pair_point (x := (toLocal s point).y) (lo := (localOrigin s).y) d2 hm.py
  have pz := pair_point (x := (toLocal s point).z) (lo := (localOrigin s).z) d3 hm.pz
  rw [← blend_pairs (m := (m.nx + 1, m.ny + 1, m.nz + 1)) (p := nodePos m s (toLocal s point)) px py pz
    (get := fun i j k => elem data (pointIndex m i j k)) (v := fun i j k => data.getD (pointIndex m i j k).toNat 0)
    (fun i j k hi hi' hj hj' hk hk' => by
      dsimp only at hi hi' hj hj' hk hk'
      have := (C68_node_there m (i := i) (j := j) (k := k) ⟨⟨hi, by omega⟩, ⟨hj, by omega⟩, hk, by omega⟩).2
      exact elem_data this.1 (by omega))]
  have ex := elem_edges (localOrigin s).x m.dx (n := m.nx) ⟨px.i.1, by have := px.i.2; omega⟩
  have ey := elem_edges (localOrigin s).y m.dy (n := m.ny) ⟨py.i.1, by have := py.i.2; omega⟩
  have ez := elem_edges (localOrigin s).z m.dz (n := m.nz) ⟨pz.i.1, by have := pz.i.2; omega⟩
  unfold interpPoint
  rw [hm.shape]
  simp only [Option.bind_eq_bind, Option.bind_some]
  rw [if_neg (by rintro (h | h | h) <;> linarith), hm.xe, hm.ye, hm.ze, ex, ey, ez]
  simp only [Option.bind_some]
  generalize eight _ _ _ _ _ _ _ = r
  cases r <;> rfl

theorem C71_cells {g : Grid} {s : Shape} (hg : g.shape = some s) (hp : Proper s) (point : V3) {data : List ℝ} :
    let m := (build g).1
    m.nx * m.ny * m.nz ≤ data.length →
    interpCell m point data = some (trilinear (m.nx, m.ny, m.nz) (fun i j k => data.getD (cellIndex m i j k).toNat 0)
      (cellPos m s (toLocal s point))) := by
  intro m hlen
  have hm : Made m s := made_build hg
  obtain ⟨d1, d2, d3⟩ := hm.dpos hp
  have px := pair_cell (x := (toLocal s point).x) (lo := (localOrigin s).x) d1 hm.px
  have py := pair_cell (x := (toLocal s point).y) (lo := (localOrigin s).y) d2 hm.py
  have pz := pair_cell (x := (toLocal s point).z) (lo := (localOrigin s).z) d3 hm.pz
  rw [← blend_pairs (m := (m.nx, m.ny, m.nz)) (p := cellPos m s (toLocal s point)) px py pz
    (get := fun i j k => elem data (cellIndex m i j k)) (v := fun i j k => data.getD (cellIndex m i j k).toNat 0)
    (fun i j k hi hi' hj hj' hk hk' => by
      dsimp only at hi hi' hj hj' hk hk'
      have := (C68_cell_there m (i := i) (j := j) (k := k) ⟨⟨hi, by omega⟩, ⟨hj, by omega⟩, hk, by omega⟩).2
      exact elem_data this.1 (by omega))]
  have ex := elem_nodes (localOrigin s).x m.dx (n := m.nx) px.i
  have ey := elem_nodes (localOrigin s).y m.dy (n := m.ny) py.i
  have ez := elem_nodes (localOrigin s).z m.dz (n := m.nz) pz.i
  unfold interpCell
  rw [locate_made hm hp]
  have ht : transfToLocal m point = some (toLocal s point) := by unfold transfToLocal; rw [hm.shape]; rfl
  rw [ht]
  simp only [Option.bind_eq_bind, Option.bind_some]
  rw [hm.xn, hm.yn, hm.zn, ex, ey, ez]
  simp only [Option.bind_some]
  generalize eight _ _ _ _ _ _ _ = r
  cases r <;> rfl

theorem getD_mem {data : List ℝ} {a b : ℝ} (h : ∀ v ∈ data, a ≤ v ∧ v ≤ b) {n : Int} (h0 : 0 ≤ n) (h1 : n < data.length) :
    a ≤ data.getD n.toNat 0 ∧ data.getD n.toNat 0 ≤ b := by
  rw [List.getD_eq_getElem?_getD, List.getElem?_eq_getElem (by omega)]
  exact h _ (List.getElem_mem _)

/-- C71: the result exists and is within the range of the data. -/
theorem C71_range {g : Grid} {s : Shape} (hg : g.shape = some s) (hp : Proper s) (point : V3) {data : List ℝ} {a b : ℝ}
    (h : ∀ v ∈ data, a ≤ v ∧ v ≤ b) :
    let m := (build g).1
    ((m.nx + 1) * (m.ny + 1) * (m.nz + 1) ≤ data.length → ∃ r, interpPoint m point data = some r ∧ a ≤ r ∧ r ≤ b) ∧
    (m.nx * m.ny * m.nz ≤ data.length → ∃ r, interpCell m point data = some r ∧ a ≤ r ∧ r ≤ b) := by
  have hm : Made (build g).1 s := made_build hg
  have P := C71_points hg hp point (data := data)
  have Q := C71_cells hg hp point (data := data)
  dsimp only at P Q ⊢
  generalize (build g).1 = m at hm P Q ⊢
  have px := hm.px
  have py := hm.py
  have pz := hm.pz
  constructor
  · intro hl
    refine ⟨_, P hl, ?_⟩
    refine trilinear_range (by dsimp only; omega) (by dsimp only; omega) (by dsimp only; omega) (fun i j k hi hi' hj hj' hk hk' => ?_) _
    dsimp only at hi hi' hj hj' hk hk'
    have := (C68_node_there m (i := i) (j := j) (k := k) ⟨⟨hi, by omega⟩, ⟨hj, by omega⟩, hk, by omega⟩).2
    exact getD_mem h this.1 (by omega)
  · intro hl
    refine ⟨_, Q hl, ?_⟩
    refine trilinear_range (by dsimp only; omega) (by dsimp only; omega) (by dsimp only; omega) (fun i j k hi hi' hj hj' hk hk' => ?_) _
    dsimp only at hi hi' hj hj' hk hk'
    have := (C68_cell_there m (i := i) (j := j) (k := k) ⟨⟨hi, by omega⟩, ⟨hj, by omega⟩, hk, by omega⟩).2
    exact getD_mem h this.1 (by omega)

/-- C71: at a point with the coordinates of a node (of a centre) the result is the value given there. -/
theorem C71_samples {g : Grid} {s : Shape} (hg : g.shape = some s) (hp : Proper s) {point : V3} {data : List ℝ} {i j k : Int} :
    let m := (build g).1
    (IsNode m i j k → (m.nx + 1) * (m.ny + 1) * (m.nz + 1) ≤ data.length → localPoint m i j k = some (toLocal s point) →
      interpPoint m point data = elem data (pointIndex m i j k)) ∧
    (IsCell m i j k → m.nx * m.ny * m.nz ≤ data.length → localCell m i j k = some (toLocal s point) →
      interpCell m point data = elem data (cellIndex m i j k)) := by
  have hm : Made (build g).1 s := made_build hg
  have P := C71_points hg hp point (data := data)
  have Q := C71_cells hg hp point (data := data)
  dsimp only at P Q ⊢
  generalize (build g).1 = m at hm P Q ⊢
  obtain ⟨d1, d2, d3⟩ := hm.dpos hp
  constructor
  · intro hn hl hq
    rw [localPoint_made hm hn] at hq
    rw [P hl, ← Option.some.inj hq]
    have e : nodePos m s ⟨(localOrigin s).x + i * m.dx, (localOrigin s).y + j * m.dy, (localOrigin s).z + k * m.dz⟩ = ⟨i, j, k⟩ := by
      unfold nodePos; congr 1 <;> (field_simp; ring)
    rw [e, trilinear_int ⟨hn.1.1, by have := hn.1.2; dsimp only; omega⟩ ⟨hn.2.1.1, by have := hn.2.1.2; dsimp only; omega⟩
      ⟨hn.2.2.1, by have := hn.2.2.2; dsimp only; omega⟩]
    have := (C68_node_there m hn).2
    rw [elem_data this.1 (by omega)]
  · intro hn hl hq
    rw [localCell_made hm hn] at hq
    rw [Q hl, ← Option.some.inj hq]
    have e : cellPos m s ⟨(localOrigin s).x + i * m.dx + 0.5 * m.dx, (localOrigin s).y + j * m.dy + 0.5 * m.dy,
        (localOrigin s).z + k * m.dz + 0.5 * m.dz⟩ = ⟨i, j, k⟩ := by
      unfold cellPos; congr 1 <;> (field_simp; ring)
    rw [e, trilinear_int hn.1 hn.2.1 hn.2.2]
    have := (C68_cell_there m hn).2
    rw [elem_data this.1 (by omega)]

/-- C71: integer data are interpolated as real numbers and rounded to a nearest integer. -/
theorem C71_integers {g : Grid} {s : Shape} (hg : g.shape = some s) (hp : Proper s) (point : V3) {data : List Int} :
    let m := (build g).1
    ((m.nx + 1) * (m.ny + 1) * (m.nz + 1) ≤ data.length → ∃ n r, interpPointInt m point data = some n ∧
      interpPoint m point (data.map (fun (i : Int) => (i : ℝ))) = some r ∧ |(n : ℝ) - r| ≤ 1 / 2) ∧
    (m.nx * m.ny * m.nz ≤ data.length → ∃ n r, interpCellInt m point data = some n ∧
      interpCell m point (data.map (fun (i : Int) => (i : ℝ))) = some r ∧ |(n : ℝ) - r| ≤ 1 / 2) := by
  intro m
  have rd : ∀ r : ℝ, |((⌊r + 0.5⌋ : Int) : ℝ) - r| ≤ 1 / 2 := by
    intro r
    have h1 := Int.floor_le (r + 0.5)
    have h2 := Int.lt_floor_add_one (r + 0.5)
    rw [abs_le]; constructor <;> linarith
  constructor
  · intro hl
    have e := C71_points hg hp point (data := data.map (fun (i : Int) => (i : ℝ))) (by rw [List.length_map]; exact hl)
    refine ⟨_, _, ?_, e, rd _⟩
    unfold interpPointInt
    rw [e]; rfl
  · intro hl
    have e := C71_cells hg hp point (data := data.map (fun (i : Int) => (i : ℝ))) (by rw [List.length_map]; exact hl)
    refine ⟨_, _, ?_, e, rd _⟩
    unfold interpCellInt
    rw [e]; rfl

/-- a cube with 2 × 2 × 2 nodes and eight values -/
example : (setShapeCopy new (some (basic .cube))).shape = some (basic .cube) ∧ Proper (basic .cube) ∧
    (let m := (build (setShapeCopy new (some (basic .cube)))).1
     (m.nx + 1) * (m.ny + 1) * (m.nz + 1) ≤ ([0, 1, 2, 3, 4, 5, 6, 7] : List ℝ).length ∧ IsNode m 1 1 0 ∧ IsCell m 0 0 0) := by
  refine ⟨rfl, proper_basic _, ?_⟩
  simp [build, setShapeCopy, IsNode, IsCell, dimLimit, basic, new]

end Verif.Grid
