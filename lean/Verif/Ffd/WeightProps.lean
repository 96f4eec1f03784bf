import Verif.Ffd.SeamProps
/-
C95 and C96: degrees and weights.
-/
namespace Verif.Ffd
open Verif.Shape Verif.Grid Verif.Field Verif.Manip
open List hiding get elem

noncomputable section
open scoped Classical

/-! ## C95 -/

/-- C95: after a build the degree of each direction is the one asked for if there are enough cells, otherwise the number of cells;
degrees below one become one.  The displacements given before are kept. -/
theorem C95_degrees {f : Ffd} {s : Shape} {l : Lattice} (d0 d1 d2 : ℤ) (h : Config (f.setDegrees d0 d1 d2) s l) :
    ∃ b e0 e1 e2, (f.setDegrees d0 d1 d2).build = some b ∧ b.degrees = (e0, e1, e2) ∧ Ready b s ∧
      (∀ d e n, (d, e, n) = (d0, e0, b.lat.grid.nx) ∨ (d, e, n) = (d1, e1, b.lat.grid.ny) ∨ (d, e, n) = (d2, e2, b.lat.grid.nz) →
        1 ≤ e ∧ e ≤ n ∧ (1 ≤ d → d ≤ n → e = d) ∧ (n ≤ d → e = n) ∧ (d ≤ 1 → e = 1)) ∧
      ∀ i : ℕ, (i : ℤ) < b.lat.np → b.displ[i]? = some (f.displ.getD i ⟨0, 0, 0⟩) := by
  obtain ⟨b, e1, e2, e3, e4, e5, e6, e7, e8, -⟩ := build_spec h.shape h.run h.keys h.x h.y h.z
  have hd : (f.setDegrees d0 d1 d2).degrees = (d0, d1, d2) := rfl
  refine ⟨b, _, _, _, e1, e6, e3, ?_, ?_⟩
  · have px := e3.made.px
    have py := e3.made.py
    have pz := e3.made.pz
    rw [← e2]
    simp only [Ffd.degrees, Prod.mk.injEq] at hd
    rw [hd.1, hd.2.1, hd.2.2]
    rintro d e n (hh | hh | hh) <;> simp only [Prod.mk.injEq] at hh <;> obtain ⟨rfl, rfl, rfl⟩ := hh <;> unfold degree <;> omega
  · intro i hi
    rw [e2] at hi
    rw [e8, resize_get _ _ (by omega)]
    rfl

/-- a lattice of 3 x 2 x 2 nodes with degrees (2, 1, 1) asked for -/
example : ∃ l, Config ((demo [⟨1, 0, 0⟩] true).setDegrees 2 1 1) (basic .cube) l := by
  obtain ⟨l, h, -⟩ := demo_config [⟨1, 0, 0⟩] true
  exact ⟨l, h⟩

/-! ## C96 -/

theorem weight_at {f : Ffd} {s : Shape} (h : Ready f s) {a b c : ℕ} (ha : a < (nodesAlong f).1) (hb : b < (nodesAlong f).2.1)
    (hc : c < (nodesAlong f).2.2) : ∃ d : ℕ, dofFromGrid f.lat (pointIndex f.lat.grid a b c) = some (d : ℤ) ∧ (d : ℤ) < f.lat.np := by
  obtain ⟨l, hl⟩ := h.run
  have px := h.made.px
  have py := h.made.py
  have pz := h.made.pz
  unfold nodesAlong at ha hb hc
  dsimp only at ha hb hc
  have hn := (C68_node_there f.lat.grid (i := a) (j := b) (k := c) ⟨by omega, by omega, by omega⟩).2
  obtain ⟨d, e1, e2, e3⟩ := (C75_dofs hl).1 _ hn.1 hn.2
  exact ⟨d.toNat, by rw [e1]; congr 1; omega, by omega⟩

/-- C96: multiplying all the weights by the same number changes no displacement. -/
theorem C96_scale {f : Ffd} {s : Shape} (h : Ready f s) {r : ℝ} (hr : r ≠ 0) {p v : V3} (hm : Moved f s p v) :
    Moved { f with weights := f.weights.map (fun x => r * x) } s p v := by
  obtain ⟨φ0, φ1, φ2, hs, rfl⟩ := hm
  refine ⟨φ0, φ1, φ2, ⟨hs.x, hs.y, hs.z, hs.sx, hs.sy, hs.sz⟩, ?_⟩
  have hW : ∀ a < (nodesAlong f).1, ∀ b < (nodesAlong f).2.1, ∀ c < (nodesAlong f).2.2,
      nodeWeight { f with weights := f.weights.map (fun x => r * x) } a b c = r * nodeWeight f a b c := by
    intro a ha b hb c hc
    obtain ⟨d, e, hd⟩ := weight_at h ha hb hc
    unfold nodeWeight nodeValue
    dsimp only
    have hl := h.wlen
    rw [e, Option.bind_some, Option.bind_some, elem_nat, elem_nat, List.getElem?_map, List.getElem?_eq_getElem (by omega : d < f.weights.length)]
    rfl
  have key : ∀ G : ℕ → ℕ → ℕ → ℝ, blend (nodesAlong f) φ0 φ1 φ2 (nodeWeight { f with weights := f.weights.map (fun x => r * x) }) G =
      blend (nodesAlong f) φ0 φ1 φ2 (nodeWeight f) G := by
    intro G
    unfold blend
    rw [sum3_congr (F := fun a b c => nodeWeight { f with weights := f.weights.map (fun x => r * x) } a b c * G a b c)
      (G := fun a b c => r * (nodeWeight f a b c * G a b c)) fun a ha b hb c hc _ _ _ => by rw [hW a ha b hb c hc, mul_assoc],
      sum3_congr (F := nodeWeight { f with weights := f.weights.map (fun x => r * x) })
      (G := fun a b c => r * nodeWeight f a b c) fun a ha b hb c hc _ _ _ => hW a ha b hb c hc, sum3_smul, sum3_smul,
      mul_div_mul_left _ _ hr]
  show carried f.global s p (blendV (nodesAlong f) φ0 φ1 φ2 (nodeWeight f) (nodeDispl f)) =
    carried f.global s p (blendV (nodesAlong f) φ0 φ1 φ2 (nodeWeight { f with weights := f.weights.map (fun x => r * x) }) (nodeDispl f))
  unfold blendV
  rw [key, key, key]

/-- the weights of the default cuboid times 5 -/
example : ∃ (f : Ffd) (v : V3), Ready f (basic .cube) ∧ (5 : ℝ) ≠ 0 ∧ Moved f (basic .cube) ⟨0, 0, 0⟩ v ∧ ∀ x ∈ f.weights, x = 1 := by
  obtain ⟨f, h1, h2, h3, h4, h5, h6, -⟩ := demo_ready [⟨1, 0, 0⟩] true
  obtain ⟨p, hp, hi⟩ := demo_inside 0 ((demo_selected 0).2 rfl)
  have : p = ⟨0, 0, 0⟩ := by simpa [demoWorld, demoObj, Field.get] using hp.symm
  subst this
  obtain ⟨_, _, v, -, -, -, hm⟩ := vertex_value h1 (fun x hx => by rw [h6 x hx]; exact one_pos) (by rw [h5]; intro hc; cases hc) hi
  exact ⟨f, v, h1, by norm_num, hm, h6⟩

/-- building again a lattice that was built gives the same nodes -/
theorem again {l0 l : Lattice} (h : Grid.execute l0 = some l) (bt : Bool) :
    Grid.execute { l with grid := { l.grid with built := bt } } = some l := by
  obtain ⟨s, hs, hg, -, -⟩ := execute_spec h
  have hm : Made l.grid s := hg ▸ made_build hs
  have key : (Grid.build { l.grid with built := bt }).1 = l.grid := by
    have e1 := hm.nx
    have e2 := hm.ny
    have e3 := hm.nz
    have e4 : l.grid.built = true := by rw [hg]; unfold Grid.build; rw [hs]
    unfold Grid.build
    dsimp only
    rw [hm.shape]
    dsimp only
    rw [max_eq_left e1, max_eq_left e2, max_eq_left e3, ← hm.dx, ← hm.dy, ← hm.dz, ← hm.xe, ← hm.ye, ← hm.ze, ← hm.xn, ← hm.yn,
      ← hm.zn, ← e4, ← hm.shape]
  unfold Grid.execute at h ⊢
  rw [← hg, hm.shape] at h
  dsimp only at h ⊢
  rw [key, hm.shape]
  exact h

/-- specification: the weight that `getWeights` gives for a node -/
def weightGot (f : Ffd) (a b c : ℕ) : Option ℝ := f.getWeights.bind (fun w => elem w (pointIndex f.lat.grid a b c))

theorem weightGot_spec {f : Ffd} {s : Shape} (h : Ready f s) {a b c d : ℕ} (ha : a < (nodesAlong f).1) (hb : b < (nodesAlong f).2.1)
    (hc : c < (nodesAlong f).2.2) (hd : dofFromGrid f.lat (pointIndex f.lat.grid a b c) = some (d : ℤ)) : weightGot f a b c = f.weights[d]? := by
  obtain ⟨w, e1, -, e3⟩ := fullGrid_spec h h.wlen
  obtain ⟨d', x, f1, f2, f3⟩ := e3 a b c ha hb hc
  unfold weightGot Ffd.getWeights
  rw [e1, Option.bind_some, f3, ← f2]
  rw [hd] at f1
  cases f1
  rw [elem_nat]

theorem putKey_get (l : List (ℤ × ℝ)) (i d : ℤ) (v : ℝ) :
    ((putKey l i v).filter (fun e => e.1 = d)).getLast? = if d = i then some (i, v) else (l.filter (fun e => e.1 = d)).getLast? := by
  unfold putKey
  rw [List.filter_append, List.filter_filter]
  by_cases h : d = i
  · subst h
    simp
  · rw [if_neg h]
    have e1 : ([(i, v)] : List (ℤ × ℝ)).filter (fun e => e.1 = d) = [] := by simp [Ne.symm h]
    rw [e1, append_nil]
    congr 1
    apply List.filter_congr
    intro e _
    by_cases he : e.1 = d
    · simp [he, h]
    · simp [he]

/-- specification: directions of positive length (along closed and mirrored ones, a first knot that is not confused with zero) -/
def Good (f : Ffd) (s : Shape) : Prop :=
  Fine (s.coord 0) (f.lat.grid.nx + 1).toNat (degree f.lat.grid.nx f.c0.deg).toNat s.span.x (localOrigin s).x ∧
  Fine (s.coord 1) (f.lat.grid.ny + 1).toNat (degree f.lat.grid.ny f.c1.deg).toNat s.span.y (localOrigin s).y ∧
  Fine (s.coord 2) (f.lat.grid.nz + 1).toNat (degree f.lat.grid.nz f.c2.deg).toNat s.span.z (localOrigin s).z

/-- what a build makes of the collected weights -/
theorem rebuilt {f : Ffd} {s : Shape} (h : Ready f s) (hgood : Good f s) (bt : Bool) (cl : List (ℤ × ℝ))
    (hcl : ∀ e ∈ cl, 0 ≤ e.1 ∧ e.1 < f.lat.np) :
    ∃ b : Ffd, Ffd.build { f with collect := cl, lat := { f.lat with grid := { f.lat.grid with built := bt } } } = some b ∧ b.lat = f.lat ∧
      Ready b s ∧ b.collect = [] ∧ b.displ = f.displ ∧ b.global = f.global ∧
      ∀ d : ℕ, (d : ℤ) < f.lat.np → b.weights[d]? = some (((cl.filter (fun e => e.1 = (d : ℤ))).getLast?.map Prod.snd).getD 1) := by
  obtain ⟨l0, hl0⟩ := h.run
  have hex : Grid.execute { f.lat with grid := { f.lat.grid with built := bt } } = some f.lat := again hl0 bt
  obtain ⟨b, e1, e2, e3, e4, e5, e6, e7, e8, e9, -⟩ := build_spec (s := s)
    (f := { f with collect := cl, lat := { f.lat with grid := { f.lat.grid with built := bt } } }) h.made.shape hex hcl
    hgood.1 hgood.2.1 hgood.2.2
  have hnp := np_nonneg hl0
  refine ⟨b, e1, e2, e3, e5, ?_, e9, ?_⟩
  · rw [e8]
    dsimp only
    have := h.dlen
    unfold resize
    rw [show f.lat.np.toNat = f.displ.length by omega]
    simp
  · intro d hd
    obtain ⟨w', t1, -, t3⟩ := takeWeights_spec cl (List.replicate f.lat.np.toNat 1) (by
      intro e he
      obtain ⟨a1, a2⟩ := hcl e he
      rw [length_replicate]
      exact ⟨a1, by omega⟩)
    rw [show ({ f with collect := cl, lat := { f.lat with grid := { f.lat.grid with built := bt } } } : Ffd).collect = cl from rfl, t1] at e7
    cases e7
    rw [length_replicate] at t3
    rw [t3 d (by omega)]
    congr 2
    simp [List.getD_eq_getElem?_getD, List.getElem?_replicate, show d < f.lat.np.toNat by omega]

/-- C96: on a lattice that was built, setting the weight of a node and building again gives this weight to the node (and to the nodes
that share its degree of freedom); the others get what a build without this setting would have given to them. -/
theorem C96_set {f : Ffd} {s : Shape} (h : Ready f s) (hgood : Good f s) (hcl : ∀ e ∈ f.collect, 0 ≤ e.1 ∧ e.1 < f.lat.np) (v : ℝ)
    {i j k : ℕ} (hi : i < (nodesAlong f).1) (hj : j < (nodesAlong f).2.1) (hk : k < (nodesAlong f).2.2) :
    ∃ f1 b b0 : Ffd, f.setWeight3 v i j k = some f1 ∧ f1.lat.grid.built = false ∧ f1.build = some b ∧ f.build = some b0 ∧ Ready b s ∧
      b.displ = f.displ ∧ b.lat = f.lat ∧
      ∀ i' j' k' : ℕ, i' < (nodesAlong f).1 → j' < (nodesAlong f).2.1 → k' < (nodesAlong f).2.2 →
        (SameDof f.lat (i', j', k') (i, j, k) → weightGot b i' j' k' = some v) ∧
        (¬ SameDof f.lat (i', j', k') (i, j, k) → weightGot b i' j' k' = weightGot b0 i' j' k' ∧ ∃ x, weightGot b i' j' k' = some x) := by
  obtain ⟨d, hd, hlt⟩ := weight_at h hi hj hk
  have hset : f.setWeight3 v i j k = some { f with collect := putKey f.collect d v, lat := { f.lat with grid := { f.lat.grid with built := false } } } := by
    unfold Ffd.setWeight3 Ffd.setWeight
    rw [hd]
    rfl
  obtain ⟨b, e1, e2, e3, e4, e5, e6, e7⟩ := rebuilt h hgood false (putKey f.collect d v) (by
    intro e he
    unfold putKey at he
    rcases List.mem_append.1 he with he | he
    · exact hcl e (List.mem_filter.1 he).1
    · rw [List.mem_singleton.1 he]; exact ⟨by omega, hlt⟩)
  obtain ⟨b0, q1, q2, q3, -, -, -, q7⟩ := rebuilt h hgood f.lat.grid.built f.collect hcl
  refine ⟨_, b, b0, hset, rfl, e1, q1, e3, e5, e2, ?_⟩
  intro i' j' k' hi' hj' hk'
  obtain ⟨d', hd', hlt'⟩ := weight_at h hi' hj' hk'
  have hn : nodesAlong b = nodesAlong f := by unfold nodesAlong; rw [e2]
  have hn0 : nodesAlong b0 = nodesAlong f := by unfold nodesAlong; rw [q2]
  rw [weightGot_spec e3 (by rw [hn]; exact hi') (by rw [hn]; exact hj') (by rw [hn]; exact hk') (by rw [e2]; exact hd'),
    weightGot_spec q3 (by rw [hn0]; exact hi') (by rw [hn0]; exact hj') (by rw [hn0]; exact hk') (by rw [q2]; exact hd'),
    e7 d' hlt', q7 d' hlt', putKey_get]
  have hsd : SameDof f.lat (i', j', k') (i, j, k) ↔ (d' : ℤ) = d := by
    unfold SameDof
    dsimp only
    rw [hd, hd']
    constructor
    · intro e; exact Option.some.inj e
    · intro e; rw [e]
  rw [hsd]
  constructor
  · intro e; rw [if_pos e]; rfl
  · intro e; rw [if_neg e]; exact ⟨rfl, _, rfl⟩

/-- the same lattice with nothing collected -/
example : ∃ f : Ffd, Ready f (basic .cube) ∧ Good f (basic .cube) ∧ (∀ e ∈ f.collect, 0 ≤ e.1 ∧ e.1 < f.lat.np) ∧
    nodesAlong f = (3, 2, 2) := by
  obtain ⟨l, h, hx, hy, hz⟩ := demo_config [] true
  obtain ⟨b, e1, e2, e3, e4, e5, -⟩ := build_spec h.shape h.run h.keys h.x h.y h.z
  refine ⟨b, e3, ⟨demo_fine _ _, demo_fine _ _, demo_fine _ _⟩, by rw [e5]; simp, ?_⟩
  unfold nodesAlong
  rw [e2, hx, hy, hz]
  rfl

/-- C96 does not hold over several builds: weights set before the last build are lost at the next one, where every node for which no
weight was set since gets weight one. -/
theorem C96_rebuild_fails {f : Ffd} {s : Shape} (h : Ready f s) (hgood : Good f s) (hcl : f.collect = []) :
    ∃ b : Ffd, f.build = some b ∧ ∀ i j k : ℕ, i < (nodesAlong f).1 → j < (nodesAlong f).2.1 → k < (nodesAlong f).2.2 →
      weightGot b i j k = some 1 := by
  obtain ⟨b, q1, q2, q3, -, -, -, q7⟩ := rebuilt h hgood f.lat.grid.built f.collect (by rw [hcl]; simp)
  refine ⟨b, q1, ?_⟩
  intro i j k hi hj hk
  obtain ⟨d, hd, hlt⟩ := weight_at h hi hj hk
  have hn : nodesAlong b = nodesAlong f := by unfold nodesAlong; rw [q2]
  rw [weightGot_spec q3 (by rw [hn]; exact hi) (by rw [hn]; exact hj) (by rw [hn]; exact hk) (by rw [q2]; exact hd), q7 d hlt, hcl]
  rfl

/-- a lattice where the weight of a node was set to 5 and then built, nothing being collected afterwards -/
example : ∃ f : Ffd, Ready f (basic .cube) ∧ Good f (basic .cube) ∧ f.collect = [] ∧ weightGot f 0 0 0 = some 5 := by
  obtain ⟨l, h, hx, hy, hz⟩ := demo_config [] true
  obtain ⟨b, e1, e2, e3, e4, e5, -⟩ := build_spec h.shape h.run h.keys h.x h.y h.z
  have hn : nodesAlong b = (3, 2, 2) := by unfold nodesAlong; rw [e2, hx, hy, hz]; rfl
  have hgood : Good b (basic .cube) := ⟨demo_fine _ _, demo_fine _ _, demo_fine _ _⟩
  obtain ⟨d, hd, hlt⟩ := weight_at e3 (a := 0) (b := 0) (c := 0) (by rw [hn]; norm_num) (by rw [hn]; norm_num) (by rw [hn]; norm_num)
  obtain ⟨b', q1, q2, q3, q4, -, -, q7⟩ := rebuilt e3 hgood false [((d : ℤ), 5)] (by
    intro e he; rw [List.mem_singleton.1 he]; exact ⟨by omega, hlt⟩)
  have hn' : nodesAlong b' = (3, 2, 2) := by unfold nodesAlong at hn ⊢; rw [q2]; exact hn
  refine ⟨b', q3, ⟨demo_fine _ _, demo_fine _ _, demo_fine _ _⟩, q4, ?_⟩
  rw [weightGot_spec q3 (d := d) (by rw [hn']; norm_num) (by rw [hn']; norm_num) (by rw [hn']; norm_num) (by rw [q2]; exact hd), q7 d hlt]
  simp

/-- C96 does not hold before the first build: setting the weight of any node of a new lattice is undefined. -/
theorem C96_first_fails {f : Ffd} (h : f.lat.map = []) (v : ℝ) (index : ℤ) : f.setWeight v index = none := by
  unfold Ffd.setWeight dofFromGrid elem
  rw [h]
  split <;> simp

example : Ffd.new.lat.map = [] ∧ (demo [] true).lat.map = [] := ⟨rfl, rfl⟩

end

end Verif.Ffd
