import Verif.Ffd.PointProps
/-
C99 and C100: local displacements, and which vertices move.
-/
namespace Verif.Ffd
open Verif.Shape Verif.Grid Verif.Field Verif.Manip
open List hiding get elem

noncomputable section
open scoped Classical

/-! ## C99 -/

theorem sum3_add (n0 n1 n2 : ℕ) (φ0 φ1 φ2 : ℕ → ℝ) (F G : ℕ → ℕ → ℕ → ℝ) :
    sum3 n0 n1 n2 φ0 φ1 φ2 (fun a b c => F a b c + G a b c) = sum3 n0 n1 n2 φ0 φ1 φ2 F + sum3 n0 n1 n2 φ0 φ1 φ2 G := by
  unfold sum3
  simp only [mul_add, Finset.sum_add_distrib]

theorem blend_lin (n : ℕ × ℕ × ℕ) (φ0 φ1 φ2 : ℕ → ℝ) (W : ℕ → ℕ → ℕ → ℝ) (D : ℕ → ℕ → ℕ → V3) (r : V3) :
    blend n φ0 φ1 φ2 W (fun a b c => dot (D a b c) r) = dot (blendV n φ0 φ1 φ2 W D) r := by
  unfold blendV blend dot
  dsimp only
  have e : (fun a b c => W a b c * ((D a b c).x * r.x + (D a b c).y * r.y + (D a b c).z * r.z)) =
      (fun a b c => (r.x * (W a b c * (D a b c).x) + r.y * (W a b c * (D a b c).y)) + r.z * (W a b c * (D a b c).z)) := by
    funext a b c; ring
  rw [e, sum3_add, sum3_add, sum3_smul, sum3_smul, sum3_smul]
  ring

theorem blendV_app (n : ℕ × ℕ × ℕ) (φ0 φ1 φ2 : ℕ → ℝ) (W : ℕ → ℕ → ℕ → ℝ) (D : ℕ → ℕ → ℕ → V3) (m : M3) :
    blendV n φ0 φ1 φ2 W (fun a b c => m.app (D a b c)) = m.app (blendV n φ0 φ1 φ2 W D) := by
  unfold M3.app
  rw [← blend_lin, ← blend_lin, ← blend_lin]
  rfl

theorem cube_carried {s : Shape} (hk : s.kind = .cube) (hf : Frame s) (hs : Scaled s) (p d : V3) : carried false s p d = s.sdrInv.app d := by
  unfold carried
  have hx := hs.x
  have hy := hs.y
  have hz := hs.z
  have e : (duffy s ⟨(toLocal s p).x + d.x / s.scaling.x, (toLocal s p).y + d.y / s.scaling.y, (toLocal s p).z + d.z / s.scaling.z⟩).mul
      s.scaling = s.sdr.app (p - s.origin) + d := by
    simp only [duffy, toLocal, unduffy, curved, hk, V3.div, V3.mul]
    ext
    · simp only [add_x]; field_simp
    · simp only [add_y]; field_simp
    · simp only [add_z]; field_simp
  rw [if_neg (by simp)]
  unfold toWorld
  rw [e, show straight s (s.sdr.app (p - s.origin) + d) = s.sdr.app (p - s.origin) + d by simp [straight, hk]]
  have lin : ∀ (m : M3) (a b : V3), m.app (a + b) = m.app a + m.app b := by
    intro m a b
    ext <;> simp only [M3.app, dot, add_x, add_y, add_z] <;> ring
  rw [lin, hf.inv, inv_app hf.det]
  ext <;> simp only [add_x, add_y, add_z, sub_x, sub_y, sub_z] <;> ring

/-- C99: on a cuboid, displacements in the local frame are the same as global displacements turned by the axes of the cuboid. -/
theorem C99_cube {f : Ffd} {s : Shape} (hk : s.kind = .cube) (hf : Frame s) (hs : Scaled s) (hg : f.global = false) {p v : V3} :
    Moved f s p v ↔ Moved { f with global := true, displ := f.displ.map s.sdrInv.app } s p v := by
  have hD : nodeDispl { f with global := true, displ := f.displ.map s.sdrInv.app } = fun a b c => s.sdrInv.app (nodeDispl f a b c) := by
    funext a b c
    unfold nodeDispl nodeValue
    dsimp only
    cases dofFromGrid f.lat (pointIndex f.lat.grid a b c) with
    | none => simp [M3.app, dot]
    | some d =>
      simp only [Option.bind_some]
      unfold elem
      split
      · simp [M3.app, dot]
      · rw [List.getElem?_map]
        cases f.displ[d.toNat]? with
        | none => simp [M3.app, dot]
        | some x => rfl
  have key : ∀ φ0 φ1 φ2, carried f.global s p (blendV (nodesAlong f) φ0 φ1 φ2 (nodeWeight f) (nodeDispl f)) =
      carried true s p (blendV (nodesAlong f) φ0 φ1 φ2 (nodeWeight f) (nodeDispl { f with global := true, displ := f.displ.map s.sdrInv.app })) := by
    intro φ0 φ1 φ2
    rw [hg, cube_carried hk hf hs, hD, blendV_app]
    rfl
  constructor
  · rintro ⟨φ0, φ1, φ2, h, rfl⟩
    exact ⟨φ0, φ1, φ2, ⟨h.x, h.y, h.z, h.sx, h.sy, h.sz⟩, key φ0 φ1 φ2⟩
  · rintro ⟨φ0, φ1, φ2, h, rfl⟩
    exact ⟨φ0, φ1, φ2, ⟨h.x, h.y, h.z, h.sx, h.sy, h.sz⟩, (key φ0 φ1 φ2).symm⟩

example : ∃ (f : Ffd) (v : V3), Frame (basic .cube) ∧ Scaled (basic .cube) ∧ f.global = false ∧ Moved f (basic .cube) ⟨0, 0, 0⟩ v := by
  obtain ⟨f, h1, h2, h3, h4, h5, h6, -⟩ := demo_ready [⟨1, 0, 0⟩] false
  obtain ⟨p, hp, hi⟩ := demo_inside 0 ((demo_selected 0).2 rfl)
  have : p = ⟨0, 0, 0⟩ := by simpa [demoWorld, demoObj, Field.get] using hp.symm
  subst this
  obtain ⟨_, _, v, -, -, -, hm⟩ := vertex_value h1 (fun x hx => by rw [h6 x hx]; exact one_pos) (fun _ => basic_scaled _) hi
  exact ⟨f, v, basic_frame _, basic_scaled _, h5, hm⟩

/-- C99: on any shape, displacements in the local frame are added to the local coordinates (radius, angle, height, ...), each divided
by the scaling of its direction.  Stated where the local coordinates that result are regular ones (partial). -/
theorem C99_local_partial {f : Ffd} {s : Shape} (hf : Frame s) (hs : Scaled s) (hi : InLimits s) (hg : f.global = false) {p v : V3}
    (hm : Moved f s p v) : ∃ d, Moved { f with global := true } s p d ∧
      (Regular s ⟨(toLocal s p).x + d.x / s.scaling.x, (toLocal s p).y + d.y / s.scaling.y, (toLocal s p).z + d.z / s.scaling.z⟩ →
        toLocal s (p + v) = ⟨(toLocal s p).x + d.x / s.scaling.x, (toLocal s p).y + d.y / s.scaling.y, (toLocal s p).z + d.z / s.scaling.z⟩) := by
  obtain ⟨φ0, φ1, φ2, h, rfl⟩ := hm
  refine ⟨_, ⟨φ0, φ1, φ2, ⟨h.x, h.y, h.z, h.sx, h.sy, h.sz⟩, rfl⟩, ?_⟩
  intro hr
  have e : ∀ a : V3, p + (a - p) = a := by intro a; ext <;> simp
  show toLocal s (p + carried f.global s p _) = _
  rw [hg]
  unfold carried
  rw [if_neg (by simp), e]
  exact C62_local_world_local_partial hf hs hi hr

/-- a lattice of local displacements on the default cylinder -/
example : ∃ (f : Ffd) (p v : V3), Frame (basic .cylinder) ∧ Scaled (basic .cylinder) ∧ InLimits (basic .cylinder) ∧ f.global = false ∧
    Moved f (basic .cylinder) p v ∧ Regular (basic .cylinder) (toLocal (basic .cylinder) p) := by
  obtain ⟨f, h, hg, hw, -⟩ := round_ready (.inl rfl)
  have hr : Regular (basic .cylinder) ⟨1 / 2, 1, 0⟩ := by
    simp [Regular, basic]
    have := Real.two_le_pi
    linarith
  have e : toLocal (basic .cylinder) (toWorld (basic .cylinder) ⟨1 / 2, 1, 0⟩) = ⟨1 / 2, 1, 0⟩ :=
    C62_local_world_local_partial (basic_frame _) (basic_scaled _) (basic_limits _) hr
  have hi : Inside (basic .cylinder) (toWorld (basic .cylinder) ⟨1 / 2, 1, 0⟩) := by
    unfold Inside
    rw [e]
    have := Real.two_le_pi
    simp only [basic, localOrigin]
    exact ⟨⟨by norm_num, by norm_num⟩, ⟨by norm_num, by linarith⟩, by norm_num, by norm_num⟩
  have h' : Ready { f with global := false } (basic .cylinder) := ⟨h.made, h.run, h.wlen, h.dlen, h.order, h.x, h.y, h.z⟩
  obtain ⟨_, _, v, -, -, -, hm⟩ := vertex_value h' (fun x hx => by rw [hw x hx]; exact one_pos) (fun _ => basic_scaled _) hi
  exact ⟨_, _, v, basic_frame _, basic_scaled _, basic_limits _, rfl, hm, by rw [e]; exact hr⟩

/-! ## C100 -/

/-- the vertices of a cell, as points -/
def corners (o : Mesh.Obj V3) (id : ℕ) : List V3 := ((get o.cells id).map (fun c => (Mesh.vertexIds c).filterMap (get o.verts))).getD []

theorem selected_skd {s : Shape} {o : Mesh.Obj V3} (ht : o.type ≠ 3) {t : Skd} {kd : Kd} {tol : ℝ} {id : ℕ} :
    id ∈ selected s o (some t) kd tol ↔
      ∃ cid ∈ includeGeo s (corners o) (some t), ∃ c, get o.cells cid = some c ∧ id ∈ Mesh.vertexIds c :=
  (Mesh.C37_vertices o ht _).1 id

/-- C100: of a mesh, only vertices of cells whose vertices are all in the lattice (up to the tolerance) move, each listed once. -/
theorem C100_sound {s : Shape} (h : Proper s) {o : Mesh.Obj V3} (ht : o.type ≠ 3) (t : Skd) (kd : Kd) (tol : ℝ) :
    (∀ id ∈ selected s o (some t) kd tol, ∃ cid c, get o.cells cid = some c ∧ id ∈ Mesh.vertexIds c ∧
      ∀ i ∈ Mesh.vertexIds c, ∀ p, get o.verts i = some p → Near s p) ∧ (selected s o (some t) kd tol).Nodup := by
  refine ⟨?_, (Mesh.C37_vertices o ht _).2⟩
  intro id hid
  obtain ⟨cid, h1, c, h2, h3⟩ := (selected_skd ht).1 hid
  refine ⟨cid, c, h2, h3, ?_⟩
  intro i hi p hp
  apply ((C65_include_sound h (corners o) t).1 cid h1).2 p
  unfold corners
  rw [h2]
  exact List.mem_filterMap.2 ⟨i, hi, hp⟩

/-- C100: every vertex of a cell in the lattice is taken, for cuboids, whole cylinders and spheres, and wedges along the axes. -/
theorem C100_complete_partial {s : Shape} (h : Proper s) (hw : Whole s) {o : Mesh.Obj V3} (ht : o.type ≠ 3) {t : Skd} {kd : Kd} {tol : ℝ}
    (hv : t.Valid (corners o)) {cid : ℕ} {c : Mesh.Cell} (hc : get o.cells cid = some c) (hin : cid ∈ t.cells)
    (hall : ∀ i ∈ Mesh.vertexIds c, ∃ p, get o.verts i = some p ∧ Solid s p) {id : ℕ} (hid : id ∈ Mesh.vertexIds c) :
    id ∈ selected s o (some t) kd tol := by
  refine (selected_skd ht).2 ⟨cid, C65_include_complete_partial h hw hv hin ?_ ?_, c, hc, hid⟩
  · unfold corners
    rw [hc]
    obtain ⟨p, hp, -⟩ := hall id hid
    intro he
    have : p ∈ (Mesh.vertexIds c).filterMap (get o.verts) := List.mem_filterMap.2 ⟨id, hid, hp⟩
    simp only [Option.map_some, Option.getD_some] at he
    rw [he] at this
    cases this
  · intro p hp
    unfold corners at hp
    rw [hc] at hp
    obtain ⟨i, hi, hpi⟩ := List.mem_filterMap.1 hp
    obtain ⟨q, hq, hs⟩ := hall i hi
    rw [hq] at hpi
    cases hpi
    exact hs

/-- C100 does not hold for each vertex: one in the lattice whose cells all reach outside does not move, whatever the displacements. -/
theorem C100_border_fails {w : World} (hw : WorldOk w) {t : Skd} {kd : Kd} {tol : ℝ} {f : Ffd} {s : Shape} {g : ℕ}
    (hpr : Proper s) (ht : (w g).type ≠ 3)
    (hg : f.geom = some g) (hb : f.lat.grid.built = true) (h : Ready f s) (hpos : ∀ x ∈ f.weights, 0 < x)
    (hs : f.global = false → Scaled s) (hf : f.bfilter = true → Ok f.filter.data)
    (hin : ∀ id ∈ selected s (w g) (some t) kd tol, ∃ p, get (w g).verts id = some p ∧ Inside s p) {id : ℕ} {p : V3}
    (hid : get (w g).verts id = some p)
    (hborder : ∀ cid c, get (w g).cells cid = some c → id ∈ Mesh.vertexIds c →
      ∃ i ∈ Mesh.vertexIds c, ∃ q, get (w g).verts i = some q ∧ ¬ Near s q) :
    ∃ f' : Ffd, f.execute w (some t) kd tol = some f' ∧ get f'.gdispl.data id = some ⟨0, 0, 0⟩ := by
  obtain ⟨f', v, e1, -, e3⟩ := C89_built_partial hw hg hb h hpos hs hf hin
  refine ⟨f', e1, e3.off id p ?_ hid⟩
  intro hsel
  obtain ⟨cid, c, a1, a2, a3⟩ := (C100_sound hpr ht t kd tol).1 id hsel
  obtain ⟨i, b1, q, b2, b3⟩ := hborder cid c a1 a2
  exact b3 (a3 i b1 q b2)

/-- a triangle with one vertex at the centre of the default cuboid and two far away -/
def straddle : Mesh.Obj V3 :=
  { demoObj with type := 1, verts := [(0, ⟨0, 0, 0⟩), (1, ⟨9, 0, 0⟩), (2, ⟨9, 9, 0⟩)], cells := [(5, ⟨.triangle, [0, 1, 2], 0, true⟩)] }

theorem far {a : ℝ} (ha : 2 ≤ a) (y z : ℝ) : ¬ Near (basic .cube) ⟨a, y, z⟩ := by
  rintro ⟨t, ⟨h1, h2⟩, -, -, he⟩
  have := congrArg V3.x he
  simp [toWorld, straight, duffy, basicToLocal, localOrigin, basic, V3.mul, M3.app, M3.one, dot] at this
  norm_num at h2
  linarith

example : ∃ f : Ffd, WorldOk (fun _ => straddle) ∧ Proper (basic .cube) ∧ straddle.type ≠ 3 ∧ f.geom = some 0 ∧ f.lat.grid.built = true ∧
    Ready f (basic .cube) ∧ (∀ x ∈ f.weights, 0 < x) ∧ Solid (basic .cube) ⟨0, 0, 0⟩ ∧ get straddle.verts 0 = some ⟨0, 0, 0⟩ ∧
    (∀ id ∈ selected (basic .cube) straddle (some (.leaf ⟨0, 0, 0⟩ ⟨9, 9, 0⟩ [5])) .nil 0,
      ∃ p, get straddle.verts id = some p ∧ Inside (basic .cube) p) ∧
    ∀ cid c, get straddle.cells cid = some c → 0 ∈ Mesh.vertexIds c →
      ∃ i ∈ Mesh.vertexIds c, ∃ q, get straddle.verts i = some q ∧ ¬ Near (basic .cube) q := by
  obtain ⟨f, h1, h2, h3, h4, h5, h6, -⟩ := demo_ready [⟨1, 0, 0⟩] true
  have hb : ∀ cid c, get straddle.cells cid = some c →
      ∃ i ∈ Mesh.vertexIds c, ∃ q, get straddle.verts i = some q ∧ ¬ Near (basic .cube) q := by
    intro cid c hc
    have : c = ⟨.triangle, [0, 1, 2], 0, true⟩ := by
      have hm := get_some_mem hc
      simp only [straddle, List.mem_singleton] at hm
      exact congrArg Prod.snd hm
    subst this
    exact ⟨1, by simp [Mesh.vertexIds], ⟨9, 0, 0⟩, by simp [straddle, Field.get], far (by norm_num) _ _⟩
  refine ⟨f, ⟨fun _ => by simp [Ok, straddle], fun _ => by simp [Ok, straddle]⟩, proper_basic _, by simp [straddle], h3, h2, h1,
    fun x hx => by (rw [h6 x hx]; exact one_pos), ⟨⟨1 / 2, 1 / 2, 1 / 2⟩, by norm_num, by norm_num, by norm_num, by
        simp [toWorld, straight, duffy, basicToLocal, localOrigin, basic, V3.mul, M3.app, M3.one, dot]; ext <;> norm_num⟩, rfl, ?_,
    fun cid c hc _ => hb cid c hc⟩
  intro id hid
  exfalso
  obtain ⟨cid, c, a1, a2, a3⟩ := (C100_sound (proper_basic .cube) (o := straddle) (by simp [straddle]) _ _ _).1 id hid
  obtain ⟨i, b1, q, b2, b3⟩ := hb cid c a1
  exact b3 (a3 i b1 q b2)

end

end Verif.Ffd
