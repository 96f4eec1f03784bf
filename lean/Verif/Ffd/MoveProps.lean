import Verif.Ffd.Move
import Verif.Shape.CloudProps
/-
C89, C90, C91: the displacements that a lattice gives to a geometry.
-/
namespace Verif.Ffd
open Verif.Shape Verif.Grid Verif.Field Verif.Manip
open List hiding get elem

noncomputable section
open scoped Classical

/-- specification: a lattice that is not built yet and can be built: a shape, collected weights for existing degrees of freedom,
directions of positive length -/
structure Config (f : Ffd) (s : Shape) (l : Lattice) : Prop where
  shape : f.lat.grid.shape = some s
  run : Grid.execute f.lat = some l
  keys : ∀ e ∈ f.collect, 0 ≤ e.1 ∧ e.1 < l.np
  x : Fine (s.coord 0) (l.grid.nx + 1).toNat (degree l.grid.nx f.c0.deg).toNat s.span.x (localOrigin s).x
  y : Fine (s.coord 1) (l.grid.ny + 1).toNat (degree l.grid.ny f.c1.deg).toNat s.span.y (localOrigin s).y
  z : Fine (s.coord 2) (l.grid.nz + 1).toNat (degree l.grid.nz f.c2.deg).toNat s.span.z (localOrigin s).z

/-! A lattice on the default cuboid with 3 x 2 x 2 nodes and degrees 2, 1, 1, and a geometry whose vertex 0 is in it -/

/-- the lattice, not built -/
def demo (displ : List V3) (global : Bool) : Ffd :=
  { Ffd.new with lat := ⟨{ Grid.new with shape := some (basic .cube), nx := 2, ny := 1, nz := 1 }, 0, []⟩
                 c0 := { Curve.new with deg := 2 }
                 displ := displ
                 global := global
                 geom := some 0 }

theorem demo_fine (n p : ℕ) : Fine .clamped n p 1 (-0.5) := ⟨one_pos, by rintro (h | h) <;> cases h⟩

theorem demo_config (displ : List V3) (global : Bool) : ∃ l, Config (demo displ global) (basic .cube) l ∧ l.grid.nx = 2 ∧
    l.grid.ny = 1 ∧ l.grid.nz = 1 := by
  obtain ⟨l, hl⟩ := execute_some (l := (demo displ global).lat) (s := basic .cube) rfl
  obtain ⟨s, h1, h2, -, -⟩ := execute_spec hl
  refine ⟨l, ⟨rfl, hl, by simp [demo, Ffd.new], ?_, ?_, ?_⟩, ?_, ?_, ?_⟩
  · exact demo_fine _ _
  · exact demo_fine _ _
  · exact demo_fine _ _
  all_goals rw [h2]; simp [demo, Grid.build, basic, dimLimit]

/-- the lattice, built -/
theorem demo_ready (displ : List V3) (global : Bool) : ∃ f : Ffd, Ready f (basic .cube) ∧ f.lat.grid.built = true ∧ f.geom = some 0 ∧
    f.bfilter = false ∧ f.global = global ∧ (∀ x ∈ f.weights, x = 1) ∧ (∀ d ∈ f.displ, d ∈ displ ∨ d = ⟨0, 0, 0⟩) ∧
    f.displ = resize displ f.displ.length ⟨0, 0, 0⟩ ∧ f.lat.grid.nx = 2 ∧ f.lat.grid.ny = 1 ∧ f.lat.grid.nz = 1 ∧
    f.degrees = (2, 1, 1) := by
  obtain ⟨l, h, hx, hy, hz⟩ := demo_config displ global
  obtain ⟨b, e1, e2, e3, e4, e5, e6, e7, e8, e9, e10, e11, e12, -⟩ := build_spec h.shape h.run h.keys h.x h.y h.z
  refine ⟨b, e3, e4, by rw [e12]; rfl, by rw [e11]; rfl, by rw [e9]; rfl, ?_, ?_, ?_, by rw [e2, hx], by rw [e2, hy], by rw [e2, hz], ?_⟩
  · intro x hx
    have : b.weights = List.replicate l.np.toNat 1 := by
      simpa [demo, Ffd.new, takeWeights] using e7.symm
    rw [this] at hx
    exact List.eq_of_mem_replicate hx
  · intro d hd
    rw [e8] at hd
    unfold resize at hd
    rcases List.mem_append.1 hd with h | h
    · exact .inl (List.mem_of_mem_take h)
    · exact .inr (List.eq_of_mem_replicate h)
  · rw [e8, resize_length]; rfl
  · rw [e6, hx, hy, hz]; simp [degree, demo, Curve.new, Ffd.new]

/-- a tree with the vertex 0 of the geometry -/
def demoKd : Kd := .node ⟨0, 0, 0⟩ 0 .nil .nil

theorem demo_selected : ∀ id, id ∈ selected (basic .cube) (demoWorld 0) none demoKd 0 ↔ id = 0 := by
  intro id
  constructor
  · intro h
    obtain ⟨p, hp, -⟩ := (C67_include_sound (proper_basic .cube) 0 demoKd).1 id h
    simp [demoKd, Kd.points] at hp
    exact hp.2
  · rintro rfl
    have hv : demoKd.Valid 0 := by simp [demoKd, Kd.Valid, Kd.points]
    exact C67_include_complete_partial (proper_basic .cube) (by simp [Standard, basic]) (le_refl 0) hv (p := ⟨0, 0, 0⟩) (k := 0)
      (by simp [demoKd, Kd.points]) ⟨⟨1 / 2, 1 / 2, 1 / 2⟩, by norm_num, by norm_num, by norm_num, by
        simp [toWorld, straight, duffy, basicToLocal, localOrigin, basic, V3.mul, M3.app, M3.one, dot]; ext <;> norm_num⟩

theorem demo_inside : ∀ id ∈ selected (basic .cube) (demoWorld 0) none demoKd 0,
    ∃ p, get (demoWorld 0).verts id = some p ∧ Inside (basic .cube) p := by
  intro id hid
  rw [demo_selected] at hid
  subst hid
  refine ⟨⟨0, 0, 0⟩, rfl, ?_⟩
  simp [Inside, toLocal, unduffy, curved, basic, localOrigin, M3.app, M3.one, dot, V3.div]
  norm_num

/-- specification: what the deformation of the geometry `g` leaves in the displacements: `v` on the selected vertices, times the
filter, zero on the others, and nothing else -/
structure Result (w : World) (g : ℕ) (L : List ℕ) (c : ℕ → ℝ) (v : ℕ → V3) (d : Field ℕ V3) : Prop where
  geo : d.geo = some g
  loc : d.loc = .point
  ids : d.data.map Prod.fst = (w g).verts.map Prod.fst
  on : ∀ id p, id ∈ L → get (w g).verts id = some p → get d.data id = some (V3.scale (c id) (v id))
  off : ∀ id p, id ∉ L → get (w g).verts id = some p → get d.data id = some ⟨0, 0, 0⟩

/-- C89 (built lattice): `execute` gives to each selected vertex the NURBS combination of the displacements of the nodes at its place,
and zero to the other vertices. Partial: points accepted by the tolerance but not within the limits are left out. -/
theorem C89_built_partial {w : World} (hw : WorldOk w) {skd : Option Skd} {kd : Kd} {tol : ℝ} {f : Ffd} {s : Shape} {g : ℕ}
    (hg : f.geom = some g) (hb : f.lat.grid.built = true) (h : Ready f s) (hpos : ∀ x ∈ f.weights, 0 < x)
    (hs : f.global = false → Scaled s) (hf : f.bfilter = true → Ok f.filter.data)
    (hin : ∀ id ∈ selected s (w g) skd kd tol, ∃ p, get (w g).verts id = some p ∧ Inside s p) :
    ∃ (f' : Ffd) (v : ℕ → V3), f.execute w skd kd tol = some f' ∧
      (∀ id ∈ selected s (w g) skd kd tol, ∀ p, get (w g).verts id = some p → Moved f s p (v id)) ∧
      Result w g (selected s (w g) skd kd tol) (factor w g f) v f'.gdispl := by
  obtain ⟨f', v, h1, h2, h3, h4, h5, h6, -⟩ := execute_ready hw hg hb h hpos hs hf hin
  refine ⟨f', v, h1, h5, h2, h3, h4, ?_, ?_⟩
  · intro id p hid hp; rw [h6 id p hp, if_pos hid]
  · intro id p hid hp; rw [h6 id p hp, if_neg hid]

example : ∃ (f : Ffd) (s : Shape), WorldOk demoWorld ∧ f.geom = some 0 ∧ f.lat.grid.built = true ∧ Ready f s ∧ (∀ x ∈ f.weights, 0 < x) ∧
    (f.global = false → Scaled s) ∧ (f.bfilter = true → Ok f.filter.data) ∧
    (∀ id ∈ selected s (demoWorld 0) none demoKd 0, ∃ p, get (demoWorld 0).verts id = some p ∧ Inside s p) ∧
    0 ∈ selected s (demoWorld 0) none demoKd 0 := by
  obtain ⟨f, h1, h2, h3, h4, h5, h6, -⟩ := demo_ready [⟨1, 0, 0⟩] false
  exact ⟨f, basic .cube, demoWorld_ok, h3, h2, h1, fun x hx => by (rw [h6 x hx]; exact one_pos), fun _ => basic_scaled _,
    fun hc => by (rw [h4] at hc; cases hc), demo_inside, (demo_selected 0).2 rfl⟩

/-- C89: `execute` on a lattice not built yet builds it first, with the degrees within the number of cells, weights one where none was
given, and displacements zero where none was given. Partial: as above. -/
theorem C89_first_partial {w : World} (hw : WorldOk w) {skd : Option Skd} {kd : Kd} {tol : ℝ} {f : Ffd} {s : Shape} {l : Lattice} {g : ℕ}
    (hg : f.geom = some g) (hb : f.lat.grid.built = false) (h : Config f s l) (hpos : ∀ e ∈ f.collect, 0 < e.2)
    (hs : f.global = false → Scaled s) (hf : f.bfilter = true → Ok f.filter.data)
    (hin : ∀ id ∈ selected s (w g) skd kd tol, ∃ p, get (w g).verts id = some p ∧ Inside s p) :
    ∃ (b f' : Ffd) (v : ℕ → V3), f.build = some b ∧ f.execute w skd kd tol = some f' ∧ b.lat = l ∧
      b.degrees = (degree l.grid.nx f.c0.deg, degree l.grid.ny f.c1.deg, degree l.grid.nz f.c2.deg) ∧
      (∀ a b' c d : ℕ, dofFromGrid l (pointIndex l.grid a b' c) = some (d : ℤ) → (d : ℤ) < l.np →
        nodeDispl b a b' c = f.displ.getD d ⟨0, 0, 0⟩ ∧
        nodeWeight b a b' c = ((f.collect.filter (fun e => e.1 = (d : ℤ))).getLast?.map Prod.snd).getD 1) ∧
      (∀ id ∈ selected s (w g) skd kd tol, ∀ p, get (w g).verts id = some p → Moved b s p (v id)) ∧
      Result w g (selected s (w g) skd kd tol) (factor w g f) v f'.gdispl := by
  obtain ⟨b, e1, e2, e3, e4, e5, e6, e7, e8, e9, e10, e11, e12, -⟩ := build_spec h.shape h.run h.keys h.x h.y h.z
  have hnp := np_nonneg h.run
  obtain ⟨w', t1, t2, t3⟩ := takeWeights_spec f.collect (List.replicate l.np.toNat 1) (by
    intro e he
    obtain ⟨a1, a2⟩ := h.keys e he
    rw [length_replicate]
    exact ⟨a1, by omega⟩)
  rw [e7] at t1
  cases t1
  rw [length_replicate] at t2 t3
  have hpos' : ∀ x ∈ b.weights, 0 < x := by
    intro x hx
    obtain ⟨d, hd, rfl⟩ := List.mem_iff_getElem.1 hx
    have := t3 d (by omega)
    rw [List.getElem?_eq_getElem hd] at this
    rw [Option.some.inj this]
    cases hl : (f.collect.filter (fun e => e.1 = (d : ℤ))).getLast? with
    | none => simp [List.getD_eq_getElem?_getD, List.getElem?_replicate, show d < l.np.toNat by omega]
    | some e =>
      have := List.mem_of_getLast? hl
      rw [List.mem_filter] at this
      simpa using hpos e this.1
  obtain ⟨f', v, h1, h2, h3⟩ := C89_built_partial hw (f := b) (by rw [e12, hg]) e4 e3 hpos' (by rw [e9]; exact hs)
    (by rw [e11, e10]; exact hf) hin
  refine ⟨b, f', v, e1, ?_, e2, e6, ?_, h2, ?_⟩
  · rw [← h1]
    unfold Ffd.execute
    rw [hg, e12, hg]
    simp only [Option.bind_eq_bind, Option.bind_some, hb, Bool.false_eq_true, if_false, e4, if_true, e1]
  · intro a b' c d hd hlt
    unfold nodeDispl nodeWeight nodeValue
    rw [e2, hd, Option.bind_some, Option.bind_some, elem_nat, elem_nat, e8, resize_get _ _ (by omega), t3 d (by omega)]
    refine ⟨rfl, ?_⟩
    rw [Option.getD_some]
    congr 1
    simp [List.getD_eq_getElem?_getD, List.getElem?_replicate, show d < l.np.toNat by omega]
  · have : factor w g b = factor w g f := by funext id; unfold factor; rw [e10, e11]
    rw [← this]
    exact h3

example : ∃ l, Config (demo [⟨1, 0, 0⟩] false) (basic .cube) l ∧ (demo [⟨1, 0, 0⟩] false).geom = some 0 ∧
    (demo [⟨1, 0, 0⟩] false).lat.grid.built = false ∧ (∀ e ∈ (demo [⟨1, 0, 0⟩] false).collect, (0 : ℝ) < e.2) ∧
    (∀ id ∈ selected (basic .cube) (demoWorld 0) none demoKd 0, ∃ p, get (demoWorld 0).verts id = some p ∧ Inside (basic .cube) p) := by
  obtain ⟨l, h, -⟩ := demo_config [⟨1, 0, 0⟩] false
  exact ⟨l, h, rfl, rfl, by simp [demo, Ffd.new], demo_inside⟩

/-! ## C90: bounds -/

theorem node_mem {α : Type} {f : Ffd} {s : Shape} (h : Ready f s) {v : List α} (hv : (v.length : ℤ) = f.lat.np) (dflt : α) {a b c : ℕ}
    (ha : a < (nodesAlong f).1) (hb : b < (nodesAlong f).2.1) (hc : c < (nodesAlong f).2.2) : nodeValue f v dflt a b c ∈ v := by
  obtain ⟨l, -, -, hl⟩ := fullGrid_spec h hv
  obtain ⟨d, x, f1, f2, -⟩ := hl a b c ha hb hc
  unfold nodeValue
  rw [f1, Option.bind_some, f2, Option.getD_some]
  unfold elem at f2
  split at f2
  · cases f2
  · exact List.mem_of_getElem? f2

theorem sum3_mono {n0 n1 n2 : ℕ} {φ0 φ1 φ2 : ℕ → ℝ} (s0 : Shares n0 φ0) (s1 : Shares n1 φ1) (s2 : Shares n2 φ2)
    {F G : ℕ → ℕ → ℕ → ℝ} (h : ∀ a < n0, ∀ b < n1, ∀ c < n2, F a b c ≤ G a b c) :
    sum3 n0 n1 n2 φ0 φ1 φ2 F ≤ sum3 n0 n1 n2 φ0 φ1 φ2 G := by
  unfold sum3
  refine Finset.sum_le_sum fun a ha => Finset.sum_le_sum fun b hb => Finset.sum_le_sum fun c hc => ?_
  exact mul_le_mul_of_nonneg_left (h a (Finset.mem_range.1 ha) b (Finset.mem_range.1 hb) c (Finset.mem_range.1 hc))
    (mul_nonneg (mul_nonneg (s0.nonneg a) (s1.nonneg b)) (s2.nonneg c))

theorem sum3_smul (n0 n1 n2 : ℕ) (φ0 φ1 φ2 : ℕ → ℝ) (r : ℝ) (F : ℕ → ℕ → ℕ → ℝ) :
    sum3 n0 n1 n2 φ0 φ1 φ2 (fun a b c => r * F a b c) = r * sum3 n0 n1 n2 φ0 φ1 φ2 F := by
  unfold sum3
  simp only [Finset.mul_sum]
  exact Finset.sum_congr rfl fun a _ => Finset.sum_congr rfl fun b _ => Finset.sum_congr rfl fun c _ => by ring

theorem blend_bounds {n : ℕ × ℕ × ℕ} {φ0 φ1 φ2 : ℕ → ℝ} (s0 : Shares n.1 φ0) (s1 : Shares n.2.1 φ1) (s2 : Shares n.2.2 φ2)
    {W G : ℕ → ℕ → ℕ → ℝ} (hW : ∀ a b c, 0 < W a b c) {lo hi : ℝ}
    (h : ∀ a < n.1, ∀ b < n.2.1, ∀ c < n.2.2, lo ≤ G a b c ∧ G a b c ≤ hi) :
    lo ≤ blend n φ0 φ1 φ2 W G ∧ blend n φ0 φ1 φ2 W G ≤ hi := by
  have hp := sum3_pos s0 s1 s2 hW
  unfold blend
  constructor
  · rw [le_div_iff₀ hp, ← sum3_smul]
    exact sum3_mono s0 s1 s2 fun a ha b hb c hc => by
      rw [mul_comm]; exact mul_le_mul_of_nonneg_left (h a ha b hb c hc).1 (hW a b c).le
  · rw [div_le_iff₀ hp, ← sum3_smul]
    exact sum3_mono s0 s1 s2 fun a ha b hb c hc => by
      rw [mul_comm hi]; exact mul_le_mul_of_nonneg_left (h a ha b hb c hc).2 (hW a b c).le

/-- componentwise order -/
def Le (a b : V3) : Prop := a.x ≤ b.x ∧ a.y ≤ b.y ∧ a.z ≤ b.z

/-- C90: with global displacements, no component of the displacement of a point exceeds those of the nodes, or is below. -/
theorem C90_bounds {f : Ffd} {s : Shape} (h : Ready f s) (hpos : ∀ x ∈ f.weights, 0 < x) (hglob : f.global = true) {p v : V3}
    (hm : Moved f s p v) {lo hi : V3} (hd : ∀ d ∈ f.displ, Le lo d ∧ Le d hi) : Le lo v ∧ Le v hi := by
  obtain ⟨φ0, φ1, φ2, hs, rfl⟩ := hm
  have hW := weight_pos hpos
  have hD : ∀ a < (nodesAlong f).1, ∀ b < (nodesAlong f).2.1, ∀ c < (nodesAlong f).2.2,
      Le lo (nodeDispl f a b c) ∧ Le (nodeDispl f a b c) hi := fun a ha b hb c hc => hd _ (node_mem h h.dlen _ ha hb hc)
  unfold carried
  rw [hglob]
  simp only [if_true, blendV, Le]
  have bx := blend_bounds hs.sx hs.sy hs.sz hW (G := fun a b c => (nodeDispl f a b c).x) (lo := lo.x) (hi := hi.x)
    fun a ha b hb c hc => ⟨(hD a ha b hb c hc).1.1, (hD a ha b hb c hc).2.1⟩
  have bY := blend_bounds hs.sx hs.sy hs.sz hW (G := fun a b c => (nodeDispl f a b c).y) (lo := lo.y) (hi := hi.y)
    fun a ha b hb c hc => ⟨(hD a ha b hb c hc).1.2.1, (hD a ha b hb c hc).2.2.1⟩
  have bz := blend_bounds hs.sx hs.sy hs.sz hW (G := fun a b c => (nodeDispl f a b c).z) (lo := lo.z) (hi := hi.z)
    fun a ha b hb c hc => ⟨(hD a ha b hb c hc).1.2.2, (hD a ha b hb c hc).2.2.2⟩
  exact ⟨⟨bx.1, bY.1, bz.1⟩, ⟨bx.2, bY.2, bz.2⟩⟩

/-- the hypotheses hold on the default cuboid with one node displaced by (1, 0, 0) -/
example : ∃ (f : Ffd) (v : V3), Ready f (basic .cube) ∧ (∀ x ∈ f.weights, 0 < x) ∧ f.global = true ∧ Moved f (basic .cube) ⟨0, 0, 0⟩ v ∧
    ∀ d ∈ f.displ, Le ⟨0, 0, 0⟩ d ∧ Le d ⟨1, 0, 0⟩ := by
  obtain ⟨f, h1, h2, h3, h4, h5, h6, h7, -⟩ := demo_ready [⟨1, 0, 0⟩] true
  have hpos : ∀ x ∈ f.weights, 0 < x := fun x hx => by rw [h6 x hx]; exact one_pos
  obtain ⟨p, hp, hi⟩ := demo_inside 0 ((demo_selected 0).2 rfl)
  have : p = ⟨0, 0, 0⟩ := by simpa [demoWorld, demoObj, Field.get] using hp.symm
  subst this
  obtain ⟨_, _, v, -, -, -, hm⟩ := vertex_value h1 hpos (by rw [h5]; intro hc; cases hc) hi
  refine ⟨f, v, h1, hpos, h5, hm, ?_⟩
  intro d hd
  rcases h7 d hd with h | h
  · rw [List.mem_singleton.1 h]; simp [Le]
  · rw [h]; simp [Le]

theorem Le.eq {a b : V3} (h1 : Le a b) (h2 : Le b a) : a = b := by
  obtain ⟨a1, a2, a3⟩ := h1
  obtain ⟨b1, b2, b3⟩ := h2
  ext
  · exact le_antisymm a1 b1
  · exact le_antisymm a2 b2
  · exact le_antisymm a3 b3

theorem Le.refl (a : V3) : Le a a := ⟨le_refl _, le_refl _, le_refl _⟩

/-- displacements of the right number can be given to a built lattice -/
theorem ready_displ {f : Ffd} {s : Shape} (h : Ready f s) {d : List V3} (hd : d.length = f.displ.length) :
    Ready (f.setDisplacements d) s := ⟨h.made, h.run, h.wlen, by unfold Ffd.setDisplacements; rw [hd]; exact h.dlen, h.order, h.x, h.y, h.z⟩

/-- C90: with global displacements all equal, each selected vertex gets this displacement (times its filter), whatever degrees,
weights, shape and type of coordinates; the other vertices get zero. -/
theorem C90_translation_partial {w : World} (hw : WorldOk w) {skd : Option Skd} {kd : Kd} {tol : ℝ} {f : Ffd} {s : Shape} {g : ℕ}
    (hg : f.geom = some g) (hb : f.lat.grid.built = true) (h : Ready f s) (hpos : ∀ x ∈ f.weights, 0 < x)
    (hglob : f.global = true) (hf : f.bfilter = true → Ok f.filter.data)
    (hin : ∀ id ∈ selected s (w g) skd kd tol, ∃ p, get (w g).verts id = some p ∧ Inside s p) {t : V3}
    (hd : ∀ d ∈ f.displ, d = t) :
    ∃ f' : Ffd, f.execute w skd kd tol = some f' ∧ Result w g (selected s (w g) skd kd tol) (factor w g f) (fun _ => t) f'.gdispl := by
  obtain ⟨f', v, h1, h2, h3⟩ := C89_built_partial hw hg hb h hpos (by rw [hglob]; intro hc; cases hc) hf hin
  refine ⟨f', h1, h3.geo, h3.loc, h3.ids, ?_, h3.off⟩
  intro id p hid hp
  obtain ⟨b1, b2⟩ := C90_bounds h hpos hglob (h2 id hid p hp) (lo := t) (hi := t) (fun d hd' => by rw [hd d hd']; exact ⟨.refl t, .refl t⟩)
  rw [h3.on id p hid hp, Le.eq b2 b1]

/-- the same with all twelve displacements equal -/
example : ∃ f : Ffd, Ready f (basic .cube) ∧ f.geom = some 0 ∧ f.lat.grid.built = true ∧ (∀ x ∈ f.weights, 0 < x) ∧ f.global = true ∧
    f.displ ≠ [] ∧ ∀ d ∈ f.displ, d = ⟨1, 2, 3⟩ := by
  obtain ⟨f, h1, h2, h3, h4, h5, h6, h7, h8, -⟩ := demo_ready [] true
  have hlen : f.displ.length ≠ 0 := by
    have hl := h1.dlen
    obtain ⟨l0, hl0⟩ := h1.run
    obtain ⟨d, -, hd1, hd2⟩ := (C75_dofs hl0).1 0 (le_refl _) (by
      have := h1.made.px; have := h1.made.py; have := h1.made.pz
      unfold nodeCount; positivity)
    omega
  refine ⟨f.setDisplacements (List.replicate f.displ.length ⟨1, 2, 3⟩), ready_displ h1 (by simp), h3, h2,
    fun x hx => by (rw [h6 x hx]; exact one_pos), h5, ?_, fun d hd => List.eq_of_mem_replicate hd⟩
  unfold Ffd.setDisplacements
  intro he
  rw [List.replicate_eq_nil_iff] at he
  exact hlen he

theorem carried_zero {global : Bool} {s : Shape} {p : V3} (h : global = false → toWorld s (toLocal s p) = p) :
    carried global s p ⟨0, 0, 0⟩ = ⟨0, 0, 0⟩ := by
  unfold carried
  cases global with
  | true => rfl
  | false =>
    simp only [Bool.false_eq_true, if_false, zero_div, add_zero]
    rw [show (⟨(toLocal s p).x, (toLocal s p).y, (toLocal s p).z⟩ : V3) = toLocal s p from rfl, h rfl]
    ext <;> simp [HSub.hSub, Sub.sub]

/-- C90: without displacements of the nodes nothing moves, global or local (local ones: where the coordinates of the shape can be
inverted, that is everywhere but on the plane of a wedge). -/
theorem C90_still {f : Ffd} {s : Shape} (h : Ready f s) (hpos : ∀ x ∈ f.weights, 0 < x) (hfr : Frame s) (hsc : Scaled s) {p v : V3}
    (hp : ¬ EdgePlane s p) (hm : Moved f s p v) (hd : ∀ d ∈ f.displ, d = ⟨0, 0, 0⟩) : v = ⟨0, 0, 0⟩ := by
  obtain ⟨φ0, φ1, φ2, hs, rfl⟩ := hm
  have hD : ∀ a < (nodesAlong f).1, ∀ b < (nodesAlong f).2.1, ∀ c < (nodesAlong f).2.2, nodeDispl f a b c = ⟨0, 0, 0⟩ :=
    fun a ha b hb c hc => hd _ (node_mem h h.dlen _ ha hb hc)
  have zero : blendV (nodesAlong f) φ0 φ1 φ2 (nodeWeight f) (nodeDispl f) = ⟨0, 0, 0⟩ := by
    have key : ∀ π : V3 → ℝ, π ⟨0, 0, 0⟩ = 0 → blend (nodesAlong f) φ0 φ1 φ2 (nodeWeight f) (fun a b c => π (nodeDispl f a b c)) = 0 := by
      intro π hπ
      have := blend_bounds hs.sx hs.sy hs.sz (weight_pos hpos) (G := fun a b c => π (nodeDispl f a b c)) (lo := 0) (hi := 0)
        fun a ha b hb c hc => by rw [hD a ha b hb c hc, hπ]; exact ⟨le_refl _, le_refl _⟩
      exact le_antisymm this.2 this.1
    unfold blendV
    rw [key V3.x rfl, key V3.y rfl, key V3.z rfl]
  rw [zero]
  exact carried_zero (fun _ => C62_world_local_world_partial hfr hsc hp)

example : ∃ (f : Ffd) (v : V3), Ready f (basic .cube) ∧ (∀ x ∈ f.weights, 0 < x) ∧ Frame (basic .cube) ∧ Scaled (basic .cube) ∧
    ¬ EdgePlane (basic .cube) ⟨0, 0, 0⟩ ∧ Moved f (basic .cube) ⟨0, 0, 0⟩ v ∧ f.global = false ∧ ∀ d ∈ f.displ, d = ⟨0, 0, 0⟩ := by
  obtain ⟨f, h1, h2, h3, h4, h5, h6, h7, -⟩ := demo_ready [] false
  have hpos : ∀ x ∈ f.weights, 0 < x := fun x hx => by rw [h6 x hx]; exact one_pos
  obtain ⟨p, hp, hi⟩ := demo_inside 0 ((demo_selected 0).2 rfl)
  have : p = ⟨0, 0, 0⟩ := by simpa [demoWorld, demoObj, Field.get] using hp.symm
  subst this
  obtain ⟨_, _, v, -, -, -, hm⟩ := vertex_value h1 hpos (fun _ => basic_scaled _) hi
  exact ⟨f, v, h1, hpos, basic_frame _, basic_scaled _, fun h => by (have := h.1; simp [basic] at this), hm, h5,
    fun d hd => by simpa using h7 d hd⟩

/-! ## C91: the filter -/

/-- C91: with a filter, the displacement of every vertex is the one without filter times the value of the filter there (zero where a
usable filter has no value, one everywhere if the filter is not usable). -/
theorem C91_filter_partial {w : World} (hw : WorldOk w) {skd : Option Skd} {kd : Kd} {tol : ℝ} {f : Ffd} {s : Shape} {g : ℕ}
    (hg : f.geom = some g) (hb : f.lat.grid.built = true) (h : Ready f s) (hpos : ∀ x ∈ f.weights, 0 < x)
    (hs : f.global = false → Scaled s) (hin : ∀ id ∈ selected s (w g) skd kd tol, ∃ p, get (w g).verts id = some p ∧ Inside s p)
    {x : Field ℕ ℝ} (hx : Ok x.data) (hne : x.data ≠ []) (hno : f.bfilter = false) :
    ∃ f0 f1 : Ffd, f.execute w skd kd tol = some f0 ∧ (f.setFilter x).execute w skd kd tol = some f1 ∧
      ∀ id p, get (w g).verts id = some p → ∃ d, get f0.gdispl.data id = some d ∧
        get f1.gdispl.data id = some (V3.scale (weight w g x id) d) := by
  have hbx : (f.setFilter x).bfilter = true := by
    unfold Ffd.setFilter
    cases hd : x.data with
    | nil => exact absurd hd hne
    | cons a l => rfl
  have h' : Ready (f.setFilter x) s := ⟨h.made, h.run, h.wlen, h.dlen, h.order, h.x, h.y, h.z⟩
  obtain ⟨displ, ed, -⟩ := table_spec h h.dlen (⟨0, 0, 0⟩ : V3)
  obtain ⟨weig, ew, -⟩ := table_spec h h.wlen (1 : ℝ)
  obtain ⟨L, hL⟩ : ∃ L, L = selected s (w g) skd kd tol := ⟨_, rfl⟩
  rw [← hL] at hin
  let v : ℕ → V3 := fun id => ((get (w g).verts id).bind (evalVertex f displ weig)).getD ⟨0, 0, 0⟩
  have hv : ∀ id ∈ L, (get (w g).verts id).bind (evalVertex f displ weig) = some (v id) := by
    intro id hid
    obtain ⟨p, hp, hi⟩ := hin id hid
    obtain ⟨d', w', y, e1, e2, e3, -⟩ := vertex_value h hpos hs hi
    rw [ed] at e1; cases e1
    rw [ew] at e2; cases e2
    simp only [v, hp, Option.bind_some, e3, Option.getD_some]
  have hlist : evalList f (w g) L = some (L.map v) := by
    unfold evalList
    rw [ed, ew]
    exact mapM_some L v hv
  have hlist' : evalList (f.setFilter x) (w g) L = some (L.map v) := hlist
  have hz : insertAll (⟨0, 0, 0⟩ : V3) ((w g).verts.map Prod.fst) [] =
      some (((w g).verts.map Prod.fst).map (fun i => (i, (⟨0, 0, 0⟩ : V3)))) := by
    rw [insertAll_const _ _ _ (by have := hw.verts g; unfold Ok at this; simpa using this), nil_append]
  have hk : ∀ id ∈ L, ∃ y, get (((w g).verts.map Prod.fst).map (fun i => (i, (⟨0, 0, 0⟩ : V3)))) id = some y := by
    intro id hid
    obtain ⟨p, hp, -⟩ := hin id hid
    rw [get_const', if_pos (mem_ids.2 ⟨p, hp⟩)]
    exact ⟨_, rfl⟩
  obtain ⟨d0, a1, -, a3⟩ := store_spec v L _ hk
  obtain ⟨d1, b1, -, b3⟩ := store_spec (fun id => V3.scale (weight w g x id) (v id)) L _ hk
  obtain ⟨y, c1, -, -, -, c5, -⟩ := checkFilter_spec hw g hx
  have hmod : modulate y.data L (L.map v) = some (L.map (fun id => V3.scale (weight w g x id) (v id))) :=
    modulate_spec (c := weight w g x) v L (by
      intro id hid
      obtain ⟨p, hp, -⟩ := hin id hid
      exact c5 id p hp)
  have r0 : f.execute w skd kd tol = some { f with gdispl := ⟨some g, defaultName, .point, d0⟩ } := by
    unfold Ffd.execute
    rw [hg]
    simp only [Option.bind_eq_bind, Option.bind_some, hb, if_true]
    rw [h.made.shape]
    simp only [Option.bind_some, ← hL, hlist, hno, Bool.false_eq_true, if_false, hz, a1, hg]
  have r1 : (f.setFilter x).execute w skd kd tol =
      some { f.setFilter x with filter := y, gdispl := ⟨some g, defaultName, .point, d1⟩ } := by
    unfold Ffd.execute
    rw [show (f.setFilter x).geom = some g from hg]
    simp only [Option.bind_eq_bind, Option.bind_some, show (f.setFilter x).lat.grid.built = true from hb, if_true]
    rw [h'.made.shape]
    simp only [Option.bind_some, ← hL, hlist', hbx, if_true, show (f.setFilter x).filter = x from rfl, c1, hmod, hz, b1]
  refine ⟨_, _, r0, r1, ?_⟩
  intro id p hp
  simp only
  rw [a3, b3]
  by_cases hid : id ∈ L
  · rw [if_pos hid, if_pos hid]; exact ⟨_, rfl, rfl⟩
  · rw [if_neg hid, if_neg hid, get_const', if_pos (mem_ids.2 ⟨p, hp⟩)]
    refine ⟨_, rfl, ?_⟩
    simp [V3.scale]

example : ∃ f : Ffd, Ready f (basic .cube) ∧ f.bfilter = false ∧ Ok demoFilter.data ∧ demoFilter.data ≠ [] ∧
    Usable demoWorld 0 demoFilter ∧ weight demoWorld 0 demoFilter 0 = 0 ∧ weight demoWorld 0 demoFilter 4 = 1 / 2 := by
  obtain ⟨f, h1, -, -, h4, -⟩ := demo_ready [⟨1, 0, 0⟩] true
  have hu : Usable demoWorld 0 demoFilter := ⟨rfl, rfl, by simp [demoFilter, demoWorld, demoObj, Field.get]⟩
  refine ⟨f, h1, h4, by simp [Ok, demoFilter], by simp [demoFilter], hu, ?_, ?_⟩ <;> unfold Manip.weight <;> rw [if_pos hu] <;>
    simp [demoFilter, Field.get]

end

end Verif.Ffd
