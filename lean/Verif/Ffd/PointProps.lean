import Verif.Ffd.WeightProps
import Verif.Shape.SelectProps
import Verif.Mesh.QueryProps
/-
C97, C98, C99, C100: single points, lists of displacements of another size, local displacements, and which vertices move.
-/
namespace Verif.Ffd
open Verif.Shape Verif.Grid Verif.Field Verif.Manip
open List hiding get elem

noncomputable section
open scoped Classical

/-! ## C97: single points -/

/-- on a cuboid each node is its own degree of freedom -/
theorem cube_dof {f : Ffd} {s : Shape} (h : Ready f s) (hk : s.kind = .cube) {a b c : ℕ} (ha : a < (nodesAlong f).1)
    (hb : b < (nodesAlong f).2.1) (hc : c < (nodesAlong f).2.2) :
    elem f.lat.map (pointIndex f.lat.grid a b c) = some (pointIndex f.lat.grid a b c) := by
  obtain ⟨l, hl⟩ := h.run
  have px := h.made.px
  have py := h.made.py
  have pz := h.made.pz
  unfold nodesAlong at ha hb hc
  dsimp only at ha hb hc
  obtain ⟨s', hs', hg, hmap, -⟩ := execute_spec hl
  obtain rfl : s' = s := by
    have e1 := (hg ▸ made_build hs' : Made f.lat.grid s').shape
    exact Option.some.inj (e1.symm.trans h.made.shape)
  obtain ⟨nx, hx⟩ := Int.eq_ofNat_of_zero_le (by omega : 0 ≤ f.lat.grid.nx)
  obtain ⟨ny, hy⟩ := Int.eq_ofNat_of_zero_le (by omega : 0 ≤ f.lat.grid.ny)
  obtain ⟨nz, hz⟩ := Int.eq_ofNat_of_zero_le (by omega : 0 ≤ f.lat.grid.nz)
  rw [hx, hy, hz] at hmap
  simp only [Int.toNat_natCast] at hmap
  have hidx : pointIndex f.lat.grid a b c = (at3 (ny + 1) (nz + 1) a b c : ℕ) := by
    unfold pointIndex at3
    rw [hy, hz]
    push_cast
    rfl
  have hlt : at3 (ny + 1) (nz + 1) a b c < (nx + 1) * (ny + 1) * (nz + 1) := at3_lt (by omega) (by omega) (by omega)
  have hrep : ∀ n, repOf s' nx ny nz n = n := by
    intro n
    unfold repOf repN
    rw [hk]
    simp only [repT]
    unfold at3
    have e1 := Nat.div_add_mod n (nz + 1)
    have e2 := Nat.div_add_mod (n / (nz + 1)) (ny + 1)
    generalize n / (nz + 1) / (ny + 1) = A at *
    generalize n / (nz + 1) % (ny + 1) = B at *
    generalize n % (nz + 1) = C at *
    generalize n / (nz + 1) = D at *
    subst e1
    subst e2
    ring
  rw [hidx, elem_nat, hmap, numbering_get hlt, hrep]
  congr 2
  unfold rank
  rw [Nat.count_iff_forall.2 (fun n _ => hrep n)]

/-- C97: on a cuboid whose numbers of nodes do not decrease from a direction to the next, the deformation asked for a single point is
the one that a vertex of a geometry at that place would get. -/
theorem C97_point_partial {f : Ffd} {s : Shape} (h : Ready f s) (hb : f.lat.grid.built = true) (hpos : ∀ x ∈ f.weights, 0 < x)
    (hs : f.global = false → Scaled s) (hk : s.kind = .cube) (hxy : f.lat.grid.nx ≤ f.lat.grid.ny) (hyz : f.lat.grid.ny ≤ f.lat.grid.nz)
    {p : V3} (hp : Inside s p) (hin : pointIncluded s p) : ∃ v, f.applyPoint p = some v ∧ Moved f s p v := by
  obtain ⟨_, m0, T0, a0⟩ := h.x
  obtain ⟨_, m1, T1, a1⟩ := h.y
  obtain ⟨_, m2, T2, a2⟩ := h.z
  obtain ⟨⟨x1, x2⟩, ⟨y1, y2⟩, ⟨z1, z2⟩⟩ := hp
  obtain ⟨k0, b0, ν0, φ0, w0, s0, l0⟩ := a0.along x1 x2
  obtain ⟨k1, b1, ν1, φ1, w1, s1, l1⟩ := a1.along y1 y2
  obtain ⟨k2, b2, ν2, φ2, w2, s2, l2⟩ := a2.along z1 z2
  have ho : f.order = (0, 1, 2) := by rw [h.order]; unfold orderOf; rw [if_pos hxy, if_pos hyz]
  refine ⟨_, ?_, φ0, φ1, φ2, ⟨⟨_, _, _, l0⟩, ⟨_, _, _, l1⟩, ⟨_, _, _, l2⟩, s0, s1, s2⟩, rfl⟩
  unfold Ffd.applyPoint
  rw [h.made.shape]
  simp only [Option.bind_eq_bind, Option.bind_some]
  rw [if_neg (by simp [hin, hb]), ← finish_spec (n := nodesAlong f) (sum3_pos s0 s1 s2 (weight_pos hpos)).ne' hs]
  have idx : ∀ i < (f.c0.deg + 1).toNat, ∀ j < (f.c1.deg + 1).toNat, ∀ k < (f.c2.deg + 1).toNat,
      mapNode f (k0 - f.c0.deg + (i : ℤ)) (k1 - f.c1.deg + (j : ℤ)) (k2 - f.c2.deg + (k : ℤ)) =
        some (pointIndex f.lat.grid (ν0 i) (ν1 j) (ν2 k)) ∧
      elem f.lat.map (pointIndex f.lat.grid (ν0 i) (ν1 j) (ν2 k)) = some (pointIndex f.lat.grid (ν0 i) (ν1 j) (ν2 k)) ∧
      elem f.weights (pointIndex f.lat.grid (ν0 i) (ν1 j) (ν2 k)) = some (nodeWeight f (ν0 i) (ν1 j) (ν2 k)) ∧
      elem f.displ (pointIndex f.lat.grid (ν0 i) (ν1 j) (ν2 k)) = some (nodeDispl f (ν0 i) (ν1 j) (ν2 k)) := by
    intro i hi j hj k hk'
    obtain ⟨e0, q0⟩ := w0.node i hi
    obtain ⟨e1, q1⟩ := w1.node j hj
    obtain ⟨e2, q2⟩ := w2.node k hk'
    have hd := cube_dof h hk (f := f) q0 q1 q2
    obtain ⟨d, f1, f2⟩ := weight_at h (f := f) q0 q1 q2
    have f1' : elem f.lat.map (pointIndex f.lat.grid (ν0 i) (ν1 j) (ν2 k)) = some (d : ℤ) := f1
    rw [hd] at f1'
    have hdd := Option.some.inj f1'
    have hw := h.wlen
    have hdl := h.dlen
    refine ⟨?_, hd, ?_, ?_⟩
    · unfold mapNode
      rw [e0, e1, e2]
      rfl
    · unfold nodeWeight nodeValue
      rw [f1, Option.bind_some, hdd, elem_nat, List.getElem?_eq_getElem (by omega : d < f.weights.length)]
      rfl
    · unfold nodeDispl nodeValue
      rw [f1, Option.bind_some, hdd, elem_nat, List.getElem?_eq_getElem (by omega : d < f.displ.length)]
      rfl
  unfold evalPoint
  rw [h.made.shape, ho]
  simp only [Option.bind_eq_bind, Option.bind_some, Ffd.curve, V3.at, w0.find, w1.find, w2.find, w0.vals, w1.vals, w2.vals]
  rw [loops_spec w0.sum w1.sum w2.sum (W := nodeWeight f) (D := nodeDispl f) (by
      intro i hi j hj k hk'
      obtain ⟨a, b, c, d⟩ := idx i hi j hj k hk'
      rw [a, Option.bind_some, b, Option.bind_some, c, Option.bind_some, d]; rfl)]
  rfl

/-- the default cuboid with 2 x 2 x 2 nodes, degree one, and its centre -/
example : ∃ f : Ffd, Ready f (basic .cube) ∧ f.lat.grid.built = true ∧ (∀ x ∈ f.weights, 0 < x) ∧ (f.global = false → Scaled (basic .cube)) ∧
    f.lat.grid.nx ≤ f.lat.grid.ny ∧ f.lat.grid.ny ≤ f.lat.grid.nz ∧ Inside (basic .cube) ⟨0, 0, 0⟩ ∧ pointIncluded (basic .cube) ⟨0, 0, 0⟩ := by
  let f0 : Ffd := { Ffd.new with lat := ⟨{ Grid.new with shape := some (basic .cube), nx := 1, ny := 1, nz := 1 }, 0, []⟩ }
  obtain ⟨l, hl⟩ := execute_some (l := f0.lat) (s := basic .cube) rfl
  obtain ⟨s, h1, h2, -, -⟩ := execute_spec hl
  obtain ⟨b, e1, e2, e3, e4, e5, e6, e7, -⟩ := build_spec (f := f0) (s := basic .cube) rfl hl (by simp [f0, Ffd.new])
    (demo_fine _ _) (demo_fine _ _) (demo_fine _ _)
  refine ⟨b, e3, e4, ?_, fun _ => basic_scaled _, ?_, ?_, ?_, ?_⟩
  · intro x hx
    have : b.weights = List.replicate l.np.toNat 1 := by simpa [f0, Ffd.new, takeWeights] using e7.symm
    rw [this] at hx
    rw [List.eq_of_mem_replicate hx]
    exact one_pos
  · rw [e2, h2]; simp [f0, Grid.build, basic, dimLimit]
  · rw [e2, h2]; simp [f0, Grid.build, basic, dimLimit]
  · simp [Inside, toLocal, unduffy, curved, basic, localOrigin, M3.app, M3.one, dot, V3.div]
    norm_num
  · simp [pointIncluded, localToBasic, toLocal, unduffy, curved, basic, localOrigin, M3.app, M3.one, dot, V3.div]
    norm_num

theorem foldlM_none {α β : Type} (g : β → α → Option β) : ∀ (l : List α) (a : α), a ∈ l → (∀ b, g b a = none) → ∀ b, l.foldlM g b = none
  | x :: l, a, ha, h, b => by
    rw [List.foldlM_cons]
    rcases List.mem_cons.1 ha with rfl | ha
    · rw [h]; rfl
    · cases hx : g b x with
      | none => rfl
      | some y => exact foldlM_none g l a ha h y

theorem sumLoop_none {n i : ℕ} (hi : i < n) {term : ℕ → Option (V3 × ℝ)} (h : term i = none) : sumLoop n term = none := by
  unfold sumLoop
  exact foldlM_none _ _ i (List.mem_range.2 hi) (fun b => by rw [h]; rfl) _

/-- C97 does not hold when there are more nodes in a direction than in a later one: on the default cuboid with 3 x 2 x 2 nodes and
degrees 2, 1, 1 the deformation of the centre as a single point reads outside the tables, although that of a vertex there is defined. -/
theorem C97_order_fails : ∃ (f : Ffd) (v : V3), Ready f (basic .cube) ∧ f.lat.grid.built = true ∧ (∀ x ∈ f.weights, 0 < x) ∧
    Inside (basic .cube) ⟨0, 0, 0⟩ ∧ pointIncluded (basic .cube) ⟨0, 0, 0⟩ ∧ Moved f (basic .cube) ⟨0, 0, 0⟩ v ∧
    f.applyPoint ⟨0, 0, 0⟩ = none := by
  obtain ⟨f, h, hb, -, -, hg, hw, -, -, nx, ny, nz, hdeg⟩ := demo_ready [⟨1, 0, 0⟩] true
  have hpos : ∀ x ∈ f.weights, 0 < x := fun x hx => by rw [hw x hx]; exact one_pos
  have hi : Inside (basic .cube) ⟨0, 0, 0⟩ := by
    simp [Inside, toLocal, unduffy, curved, basic, localOrigin, M3.app, M3.one, dot, V3.div]
    norm_num
  have hin : pointIncluded (basic .cube) ⟨0, 0, 0⟩ := by
    simp [pointIncluded, localToBasic, toLocal, unduffy, curved, basic, localOrigin, M3.app, M3.one, dot, V3.div]
    norm_num
  obtain ⟨_, _, v, -, -, -, hm⟩ := vertex_value h hpos (by rw [hg]; intro hc; cases hc) hi
  refine ⟨f, v, h, hb, hpos, hi, hin, hm, ?_⟩
  obtain ⟨p0, m0, T0, a0⟩ := h.x
  obtain ⟨p1, m1, T1, a1⟩ := h.y
  obtain ⟨p2, m2, T2, a2⟩ := h.z
  obtain ⟨⟨x1, x2⟩, ⟨y1, y2⟩, ⟨z1, z2⟩⟩ := hi
  obtain ⟨k0, b0, ν0, φ0, w0, s0, l0⟩ := a0.along x1 x2
  obtain ⟨k1, b1, ν1, φ1, w1, s1, l1⟩ := a1.along y1 y2
  obtain ⟨k2, b2, ν2, φ2, w2, s2, l2⟩ := a2.along z1 z2
  have ho : f.order = (1, 2, 0) := by rw [h.order, nx, ny, nz]; rfl
  have hc0 : f.c0.deg = 2 := congrArg (fun q => q.1) hdeg
  have hc1 : f.c1.deg = 1 := congrArg (fun q => q.2.1) hdeg
  have hc2 : f.c2.deg = 1 := congrArg (fun q => q.2.2) hdeg
  have hn2 : f.c2.nodes.length = 2 := by
    rw [a2.nodes, nz]
    simp [basic, nodesOf]
  have hk0 : k0 = 2 := by
    have e1 := l0.first
    have e2 := l0.last
    have e3 := l0.knots.1
    rw [nx] at e3
    rw [hc0] at e1
    have : (m0 : ℤ) = 3 := by rw [e3]; rfl
    simp at e1
    omega
  have elem_out : ∀ i j : ℤ, mapNode f i j 2 = none := by
    intro i j
    have : elem f.c2.nodes 2 = none := by
      rw [show (2 : ℤ) = ((2 : ℕ) : ℤ) from rfl, elem_nat, List.getElem?_eq_none (by omega)]
    unfold mapNode
    rw [this]
    cases elem f.c0.nodes i with
    | none => rfl
    | some x =>
      cases elem f.c1.nodes j with
      | none => rfl
      | some y => rfl
  unfold Ffd.applyPoint
  rw [h.made.shape]
  simp only [Option.bind_eq_bind, Option.bind_some]
  rw [if_neg (by simp [hin, hb])]
  unfold evalPoint
  rw [h.made.shape, ho]
  simp only [Option.bind_eq_bind, Option.bind_some, Ffd.curve, V3.at, w0.find, w1.find, w2.find, w0.vals, w1.vals, w2.vals]
  rw [sumLoop_none (i := 0) (by rw [hc1]; norm_num), Option.bind_none]
  rw [sumLoop_none (i := 0) (by rw [hc2]; norm_num)]
  · rfl
  rw [sumLoop_none (i := 2) (by rw [hc0]; norm_num)]
  · rfl
  rw [hk0, hc0, show (2 : ℤ) - 2 + ((2 : ℕ) : ℤ) = 2 by norm_num, elem_out]
  rfl

/-! ## C98: a number of displacements that is not that of the degrees of freedom -/

theorem mapM_none {α β : Type} {g : α → Option β} : ∀ (l : List α) (a : α), a ∈ l → g a = none → l.mapM g = none
  | x :: l, a, ha, h => by
    rw [List.mapM_cons]
    rcases List.mem_cons.1 ha with rfl | ha
    · rw [h]; rfl
    · rw [mapM_none l a ha h]
      cases g x <;> rfl

/-- C98 does not hold for too few displacements on a built lattice: the deformation reads outside the list. -/
theorem C98_short_fails {w : World} {skd : Option Skd} {kd : Kd} {tol : ℝ} {f : Ffd} {s : Shape} {g : ℕ} (hg : f.geom = some g)
    (hb : f.lat.grid.built = true) (h : Ready f s) {d : List V3} (hd : (d.length : ℤ) < f.lat.np) :
    (f.setDisplacements d).execute w skd kd tol = none := by
  obtain ⟨l0, hl⟩ := h.run
  obtain ⟨-, -, hdof, -⟩ := C75_dofs hl
  obtain ⟨q1, q2, q3, -⟩ := hdof d.length (by omega) hd
  have hnone : fullGrid (f.setDisplacements d) d = none := by
    unfold fullGrid
    apply mapM_none _ (gridFromDof f.lat d.length).toNat
    · rw [List.mem_range]
      show _ < (nodeCount f.lat.grid).toNat
      omega
    · show (elem f.lat.map _).bind _ = none
      unfold dofFromGrid at q3
      rw [show (((gridFromDof f.lat d.length).toNat : ℕ) : ℤ) = gridFromDof f.lat d.length by omega, q3, Option.bind_some, elem_nat]
      simp
  unfold Ffd.execute
  rw [show (f.setDisplacements d).geom = some g from hg]
  simp only [Option.bind_eq_bind, Option.bind_some, show (f.setDisplacements d).lat.grid.built = true from hb, if_true]
  rw [show (f.setDisplacements d).lat.grid.shape = some s from h.made.shape, Option.bind_some]
  unfold evalList
  rw [show (f.setDisplacements d).displ = d from rfl, hnone]
  rfl

example : ∃ f : Ffd, f.geom = some 0 ∧ f.lat.grid.built = true ∧ Ready f (basic .cube) ∧ (([] : List V3).length : ℤ) < f.lat.np := by
  obtain ⟨f, h1, h2, h3, -⟩ := demo_ready [] true
  refine ⟨f, h3, h2, h1, ?_⟩
  obtain ⟨l0, hl0⟩ := h1.run
  obtain ⟨d, -, hd1, hd2⟩ := (C75_dofs hl0).1 0 (le_refl _) (by
    have := h1.made.px; have := h1.made.py; have := h1.made.pz
    unfold nodeCount; positivity)
  simp
  omega

/-- C98: displacements in excess are not read: the result is that of the first ones. -/
theorem C98_long_partial {w : World} {skd : Option Skd} {kd : Kd} {tol : ℝ} {f : Ffd} {s : Shape} (hb : f.lat.grid.built = true)
    (h : Ready f s) (d e : List V3) (hd : (d.length : ℤ) = f.lat.np) :
    ((f.setDisplacements (d ++ e)).execute w skd kd tol).map Ffd.gdispl = ((f.setDisplacements d).execute w skd kd tol).map Ffd.gdispl := by
  have same : fullGrid (f.setDisplacements (d ++ e)) (d ++ e) = fullGrid (f.setDisplacements d) d := by
    obtain ⟨l0, hl⟩ := h.run
    obtain ⟨hdof, -⟩ := C75_dofs hl
    unfold fullGrid
    show List.mapM (fun (i : ℕ) => (elem f.lat.map i).bind (elem (d ++ e))) (List.range (nodeCount f.lat.grid).toNat) =
      List.mapM (fun (i : ℕ) => (elem f.lat.map i).bind (elem d)) (List.range (nodeCount f.lat.grid).toNat)
    have cong : ∀ l : List ℕ, (∀ i ∈ l, (elem f.lat.map (i : ℤ)).bind (elem (d ++ e)) = (elem f.lat.map (i : ℤ)).bind (elem d)) →
        List.mapM (fun (i : ℕ) => (elem f.lat.map i).bind (elem (d ++ e))) l = List.mapM (fun (i : ℕ) => (elem f.lat.map i).bind (elem d)) l := by
      intro l
      induction l with
      | nil => intro _; rfl
      | cons i l ih =>
        intro hi
        rw [List.mapM_cons, List.mapM_cons, hi i (by simp), ih (fun j hj => hi j (by simp [hj]))]
    apply cong
    intro i hi
    rw [List.mem_range] at hi
    obtain ⟨x, e1, e2, e3⟩ := hdof i (by omega) (by omega)
    unfold dofFromGrid at e1
    rw [e1, Option.bind_some, Option.bind_some]
    obtain ⟨n, rfl⟩ := Int.eq_ofNat_of_zero_le e2
    rw [elem_nat, elem_nat, List.getElem?_append_left (by omega)]
  have list : ∀ o L, evalList (f.setDisplacements (d ++ e)) o L = evalList (f.setDisplacements d) o L := by
    intro o L
    unfold evalList
    rw [show (f.setDisplacements (d ++ e)).displ = d ++ e from rfl, show (f.setDisplacements d).displ = d from rfl, same]
    rfl
  unfold Ffd.execute
  rw [show (f.setDisplacements (d ++ e)).geom = f.geom from rfl, show (f.setDisplacements d).geom = f.geom from rfl]
  cases hg : f.geom with
  | none => rfl
  | some g =>
    simp only [Option.bind_eq_bind, Option.bind_some]
    rw [if_pos (show (f.setDisplacements (d ++ e)).lat.grid.built = true from hb), if_pos (show (f.setDisplacements d).lat.grid.built = true from hb)]
    rw [show (f.setDisplacements (d ++ e)).lat.grid.shape = f.lat.grid.shape from rfl,
      show (f.setDisplacements d).lat.grid.shape = f.lat.grid.shape from rfl]
    cases f.lat.grid.shape with
    | none => rfl
    | some s =>
      simp only [Option.bind_some, list]
      cases evalList (f.setDisplacements d) (w g) (selected s (w g) skd kd tol) with
      | none => rfl
      | some r =>
        simp only [Option.bind_some]
        show Option.map Ffd.gdispl ((if f.bfilter = true then _ else _)) = Option.map Ffd.gdispl (if f.bfilter = true then _ else _)
        cases f.bfilter with
        | false =>
          simp only [Bool.false_eq_true, if_false, Option.bind_some]
          cases insertAll (⟨0, 0, 0⟩ : V3) ((w g).verts.map Prod.fst) [] with
          | none => rfl
          | some z =>
            simp only [Option.bind_some]
            cases store (selected s (w g) skd kd tol) r z <;> rfl
        | true =>
          simp only [if_true]
          show Option.map Ffd.gdispl ((checkFilter w g f.filter).bind _) = Option.map Ffd.gdispl ((checkFilter w g f.filter).bind _)
          cases checkFilter w g f.filter with
          | none => rfl
          | some x =>
            simp only [Option.bind_some]
            cases modulate x.data (selected s (w g) skd kd tol) r with
            | none => rfl
            | some q =>
              simp only [Option.bind_some]
              cases insertAll (⟨0, 0, 0⟩ : V3) ((w g).verts.map Prod.fst) [] with
              | none => rfl
              | some z =>
                simp only [Option.bind_some]
                cases store (selected s (w g) skd kd tol) q z <;> rfl

example : ∃ f : Ffd, f.lat.grid.built = true ∧ Ready f (basic .cube) ∧ (f.displ.length : ℤ) = f.lat.np := by
  obtain ⟨f, h1, h2, -⟩ := demo_ready [] true
  exact ⟨f, h2, h1, h1.dlen⟩

end

end Verif.Ffd
