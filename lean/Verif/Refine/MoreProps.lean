import Verif.Refine.GreenProps
/-
Red-green refinement: no hanging vertices, outlines, sizes, several refinements, cases.
-/
namespace Verif.Refine
open Verif.Field Verif.Mesh
open List hiding get get_of_mem

variable {P : Type}

/-- C151: no hanging vertices: after the refinement no cell spans an edge that was cut. -/
theorem C151_no_hanging {mean : List P → P} {active : List Nat} {o o' : Obj P} {w : Nat → Nat → Nat} (h : TriMesh o)
    (hc : Conforming mean active o o' w) {p q : Nat} (hpq : p ≠ q) (hp : has o.verts p = true) (hq : has o.verts q = true)
    (hcut : Cut o.cells active p q) : ∀ c ∈ o'.cells, ¬ (p ∈ c.2.conn ∧ q ∈ c.2.conn) := by
  rintro c hcm ⟨h1, h2⟩
  have := hc.cells.mem_iff.1 (mem_map_of_mem hcm)
  obtain ⟨e, he, hk⟩ := mem_flatMap.1 this
  obtain ⟨a, b, d, hcn, n1, n2, n3, _⟩ := tri_conn h he
  have s0 : side e.2 0 = (a, b) := by simp [side, hcn]
  have s1 : side e.2 1 = (b, d) := by simp [side, hcn]
  have s2 : side e.2 2 = (d, a) := by simp [side, hcn]
  have w0 := hc.new e he 0 (by omega)
  have w1 := hc.new e he 1 (by omega)
  have w2 := hc.new e he 2 (by omega)
  rw [s0] at w0
  rw [s1] at w1
  rw [s2] at w2
  have cl01 : Cut o.cells active a b → Cut o.cells active b d → Cut o.cells active d a := by
    have := fun h1 h2 => Cut.close (active := active) (f := 0) (f' := 1) (f'' := 2) he (by omega) (by omega) (by omega) (by omega) h1 h2
    rwa [s0, s1, s2] at this
  have cl02 : Cut o.cells active a b → Cut o.cells active d a → Cut o.cells active b d := by
    have := fun h1 h2 => Cut.close (active := active) (f := 0) (f' := 2) (f'' := 1) he (by omega) (by omega) (by omega) (by omega) h1 h2
    rwa [s0, s1, s2] at this
  have cl12 : Cut o.cells active b d → Cut o.cells active d a → Cut o.cells active a b := by
    have := fun h1 h2 => Cut.close (active := active) (f := 1) (f' := 2) (f'' := 0) he (by omega) (by omega) (by omega) (by omega) h1 h2
    rwa [s0, s1, s2] at this
  have old : ∀ x, has o.verts x = false → p ≠ x ∧ q ≠ x :=
    fun x hx => ⟨fun hh => (by rw [← hh, hp] at hx; cases hx), fun hh => (by rw [← hh, hq] at hx; cases hx)⟩
  have sym : ∀ {x y}, Cut o.cells active x y → Cut o.cells active y x := Cut.symm
  -- the three edges
  have e0 : (p = a ∧ q = b ∨ p = b ∧ q = a) → Cut o.cells active a b := by
    rintro (⟨rfl, rfl⟩ | ⟨rfl, rfl⟩)
    · exact hcut
    · exact hcut.symm
  have e1 : (p = b ∧ q = d ∨ p = d ∧ q = b) → Cut o.cells active b d := by
    rintro (⟨rfl, rfl⟩ | ⟨rfl, rfl⟩)
    · exact hcut
    · exact hcut.symm
  have e2 : (p = d ∧ q = a ∨ p = a ∧ q = d) → Cut o.cells active d a := by
    rintro (⟨rfl, rfl⟩ | ⟨rfl, rfl⟩)
    · exact hcut
    · exact hcut.symm
  simp only [kids, hcn] at hk
  split at hk
  · next hall =>
    have o0 := old _ (w0 hall.1)
    have o1 := old _ (w1 hall.2.1)
    have o2 := old _ (w2 hall.2.2)
    obtain ⟨t, ht, hx⟩ := mem_map.1 hk
    simp only [← hx, tri] at h1 h2
    simp only [quarter, mem_cons, not_mem_nil, or_false] at ht
    rcases ht with rfl | rfl | rfl | rfl <;> simp at h1 h2 <;> grind
  · next hall =>
    split at hk
    · next k0 =>
      have o0 := old _ (w0 k0)
      have : ¬ Cut o.cells active b d := fun k1 => hall ⟨k0, k1, cl01 k0 k1⟩
      have : ¬ Cut o.cells active d a := fun k2 => hall ⟨k0, cl02 k0 k2, k2⟩
      simp only [map_cons, map_nil, mem_cons, not_mem_nil, or_false] at hk
      rcases hk with hx | hx <;> simp [hx, tri] at h1 h2 <;> grind
    · next k0 =>
      split at hk
      · next k1 =>
        have o1 := old _ (w1 k1)
        have : ¬ Cut o.cells active d a := fun k2 => k0 (cl12 k1 k2)
        simp only [map_cons, map_nil, mem_cons, not_mem_nil, or_false] at hk
        rcases hk with hx | hx <;> simp [hx, tri] at h1 h2 <;> grind
      · next k1 =>
        split at hk
        · next k2 =>
          have o2 := old _ (w2 k2)
          simp only [map_cons, map_nil, mem_cons, not_mem_nil, or_false] at hk
          rcases hk with hx | hx <;> simp [hx, tri] at h1 h2 <;> grind
        · next k2 =>
          rw [mem_singleton] at hk
          rw [hk, hcn] at h1 h2
          simp at h1 h2
          grind

/-- C151: the active cells become four triangles each -/
theorem C151_active {w : Nat → Nat} {active : List Nat} {o : Obj P} (h : TriMesh o) {e : Nat × Cell} (he : e ∈ o.cells)
    (ha : e.1 ∈ active) : kids (Cut o.cells active) w e.2 = quarters w e.2 := by
  obtain ⟨a, b, d, hcn, -⟩ := tri_conn h he
  have k0 : Cut o.cells active a b := by
    have := Cut.active (f := 0) he ha (by omega); simpa [side, hcn] using this
  have k1 : Cut o.cells active b d := by
    have := Cut.active (f := 1) he ha (by omega); simpa [side, hcn] using this
  have k2 : Cut o.cells active d a := by
    have := Cut.active (f := 2) he ha (by omega); simpa [side, hcn] using this
  simp [kids, quarters, hcn, k0, k1, k2]

/-- C151: what a triangle is replaced by has its outline, with the new vertices inserted in the sides that are cut -/
theorem C151_outline (a b c x y z p q : Nat) :
    ((quarter a b c x y z).map (net p q)).sum = net p q [a, x, b, y, c, z] ∧
    ([[x, b, c], [x, c, a]].map (net p q)).sum = net p q [a, x, b, c] ∧
    ([[y, c, a], [y, a, b]].map (net p q)).sum = net p q [a, b, y, c] ∧
    ([[z, a, b], [z, b, c]].map (net p q)).sum = net p q [a, b, c, z] := by
  simp only [quarter, net, map_cons, map_nil, sum_cons, sum_nil, cons_append, nil_append, zipWith_cons_cons, zipWith_nil_right]
  have h1 := sgn_swap p q x y
  have h2 := sgn_swap p q y z
  have h3 := sgn_swap p q x z
  have h4 := sgn_swap p q c x
  have h5 := sgn_swap p q a y
  have h6 := sgn_swap p q b z
  omega

/-- C150: the result is the only one -/
theorem C150_unique {g : Gen P} {mean : List P → P} {T : Topo} {ord active : List Nat} {o o1 o2 : Obj P}
    (h1 : RedGreen g mean T ord active o o1) (h2 : RedGreen g mean T ord active o o2) : o1 = o2 := by
  obtain ⟨m, r1, s1⟩ := h1
  obtain ⟨m', r2, s2⟩ := h2
  have := runs_det r1 r2
  injection this with this
  subst this
  rw [s1] at s2
  injection s2

/-- repeated red-green refinement of all cells, src/geohandlers/RefineGeometry.cpp:197-205; adjacencies, interfaces and
the order of the tags are those of each mesh -/
inductive RedGreens (g : Gen P) (mean : List P → P) (T : Obj P → Topo) (ord : Obj P → List Nat) : Nat → Obj P → Obj P → Prop
  | zero (o : Obj P) : RedGreens g mean T ord 0 o o
  | succ {k : Nat} {o o1 o' : Obj P} : RedGreen g mean (T o) (ord o) (cellIds o) o o1 → RedGreens g mean T ord k o1 o' →
      RedGreens g mean T ord (k + 1) o o'

theorem quarters_length {o : Obj P} (h : TriMesh o) (w : Nat → Nat → Nat) :
    (o.cells.flatMap fun e => quarters (w e.1) e.2).length = 4 * o.cells.length := by
  rw [length_flatMap]
  have : o.cells.map (fun e => (quarters (w e.1) e.2).length) = o.cells.map fun _ => 4 := by
    apply map_congr_left
    intro e he
    obtain ⟨a, b, d, hcn, -⟩ := tri_conn h he
    simp [quarters, hcn, quarter]
  rw [this]
  generalize o.cells = l
  induction l with
  | nil => rfl
  | cons a l ih => simp only [map_cons, sum_cons, length_cons, ih]; omega

/-- C150: `k` refinements of a surface of triangles succeed and give `4 ^ k` times as many triangles, all with the
PIDs there were; the old vertices stay where they are. -/
theorem C150_size {g : Gen P} (hg : GenOk g) {mean : List P → P} (hm : Symm mean) {T : Obj P → Topo} {ord : Obj P → List Nat}
    (hT : ∀ o, TriMesh o → Wired (T o) o.cells) (ho : ∀ o, (ord o).Perm (cellIds o)) :
    ∀ (k : Nat) {o : Obj P}, TriMesh o → TreeOk o →
      ∃ o', RedGreens g mean T ord k o o' ∧ o'.cells.length = 4 ^ k * o.cells.length ∧ TriMesh o' ∧ TreeOk o' ∧
        o'.pids = o.pids ∧ ∃ vs, o'.verts = o.verts ++ vs := by
  intro k
  induction k with
  | zero =>
    intro o h ht
    exact ⟨o, .zero o, by simp, h, ht, rfl, [], by simp⟩
  | succ k ih =>
    intro o h ht
    obtain ⟨o1, w, h1, h2, h3, h4, _⟩ := C150_redgreen hg hm h ht (hT o h) (ho o)
    obtain ⟨o', i1, i2, i3, i4, i5, vs', i6⟩ := ih h3 h4
    obtain ⟨vs, hv, _⟩ := h2.verts
    refine ⟨o', .succ h1 i1, ?_, i3, i4, i5.trans h2.pids, vs ++ vs', by rw [i6, hv, append_assoc]⟩
    have := h2.cells.length_eq
    rw [length_map, quarters_length h] at this
    rw [i2, this, Nat.pow_succ, Nat.mul_assoc]

theorem C150_size_only {g : Gen P} (hg : GenOk g) {mean : List P → P} (hm : Symm mean) {T : Obj P → Topo}
    {ord : Obj P → List Nat} (hT : ∀ o, TriMesh o → Wired (T o) o.cells) (ho : ∀ o, (ord o).Perm (cellIds o)) {k : Nat}
    {o o' : Obj P} (h : TriMesh o) (ht : TreeOk o) (hr : RedGreens g mean T ord k o o') :
    o'.cells.length = 4 ^ k * o.cells.length := by
  obtain ⟨o2, h1, h2, -⟩ := C150_size hg hm hT ho k h ht
  have : ∀ {k : Nat} {o a b : Obj P}, RedGreens g mean T ord k o a → RedGreens g mean T ord k o b → a = b := by
    intro k o a b ha
    induction ha with
    | zero => intro hb; cases hb; rfl
    | succ r _ ih => intro hb; cases hb with
      | succ r' hb => rw [C150_unique r' r] at hb; exact ih hb
  rw [this hr h1]; exact h2

/-! A case: two triangles with a common side -/

/-- vertices 0 to 3; the cells 0, 1, 2 and 2, 1, 3 -/
def demoTri : Obj Int :=
  { demo with
    verts := [(0, 0), (1, 10), (2, 20), (3, 30)]
    cells := [(4, ⟨.triangle, [0, 1, 2], 2, true⟩), (7, ⟨.triangle, [2, 1, 3], -5, true⟩)]
    pids := [2, -5], names := [(2, "b"), (-5, "")] }

/-- its adjacencies and interfaces -/
def demoTopo : Topo where
  nbrs id f := if id = 4 ∧ f = 1 then [7] else if id = 7 ∧ f = 0 then [4] else []
  itf id f := if id = 4 then f else if f = 0 then 1 else f + 2
  owner i := if i ≤ 2 then 4 else 7
  ownerFace i := if i ≤ 2 then i else i - 2
  neighFace i := if i = 1 then 0 else 9
  ends i := if i = 0 then [0, 1] else if i = 1 then [1, 2] else if i = 2 then [2, 0] else if i = 3 then [1, 3] else [3, 2]

theorem demoTri_mesh : TriMesh demoTri ∧ TreeOk demoTri := by
  refine ⟨⟨⟨rfl, by unfold Ok; decide, by unfold Ok; decide, ?_, ?_, by decide⟩, ?_⟩, ⟨by decide, by decide⟩⟩
  · intro c hc
    simp only [demoTri, mem_cons, not_mem_nil, or_false] at hc
    rcases hc with rfl | rfl <;> exact ⟨by decide, by decide⟩
  · intro c hc
    simp only [demoTri, mem_cons, not_mem_nil, or_false] at hc
    rcases hc with rfl | rfl <;> exact ⟨by unfold InRange; decide, by decide, by decide⟩
  · intro c hc
    simp only [demoTri, mem_cons, not_mem_nil, or_false] at hc
    rcases hc with rfl | rfl <;> exact ⟨by decide, by decide⟩

theorem face_cases {f : Nat} (h : f < 3) : f = 0 ∨ f = 1 ∨ f = 2 := by omega

theorem demoTopo_sound : Sound demoTopo demoTri.cells := by
  have hm : ∀ e ∈ demoTri.cells, e = (4, ⟨.triangle, [0, 1, 2], 2, true⟩) ∨ e = (7, ⟨.triangle, [2, 1, 3], -5, true⟩) := by
    intro e he
    simpa [demoTri] using he
  have hg : ∀ id c, get demoTri.cells id = some c → (id, c) = (4, ⟨.triangle, [0, 1, 2], 2, true⟩) ∨
      (id, c) = (7, ⟨.triangle, [2, 1, 3], -5, true⟩) := fun id c h => hm _ (get_some_mem h)
  refine ⟨⟨?_, ?_⟩, ?_, ?_, ?_, ?_⟩
  · intro id c f hc hf n hn
    rcases hg id c hc with h | h <;> injection h with h1 h2 <;> subst h1 <;> rcases face_cases hf with rfl | rfl | rfl <;>
      simp [demoTopo] at hn <;> subst hn <;> decide
  · intro id c f hc hf
    rcases hg id c hc with h | h <;> injection h with h1 h2 <;> subst h1 <;> subst h2 <;>
      rcases face_cases hf with rfl | rfl | rfl <;> decide
  · intro e he e' he' f f' hf hf'
    rcases hm e he with rfl | rfl <;> rcases hm e' he' with rfl | rfl <;> rcases face_cases hf with rfl | rfl | rfl <;>
      rcases face_cases hf' with rfl | rfl | rfl <;> decide
  · intro e he f hf n
    have hn : has demoTri.cells n = true ↔ n = 4 ∨ n = 7 := by
      rw [has_iff]; simp [demoTri]
    rw [hn]
    constructor
    · intro h
      rcases hm e he with rfl | rfl <;> rcases face_cases hf with rfl | rfl | rfl <;> simp [demoTopo] at h <;> subst h
      · exact ⟨by decide, by decide, 0, by decide, by decide⟩
      · exact ⟨by decide, by decide, 1, by decide, by decide⟩
    · rintro ⟨hne, hn | hn, f', hf', hi⟩ <;> subst hn <;> rcases hm e he with rfl | rfl <;>
        rcases face_cases hf with rfl | rfl | rfl <;> rcases face_cases hf' with rfl | rfl | rfl <;> simp [demoTopo] at *
  · intro e he f hf
    rcases hm e he with rfl | rfl <;> rcases face_cases hf with rfl | rfl | rfl <;> decide
  · intro e he f hf n hn
    rcases hm e he with rfl | rfl <;> rcases face_cases hf with rfl | rfl | rfl <;> simp [demoTopo] at hn <;> subst hn <;> decide

/-- mean of two numbers -/
def demoMean (l : List Int) : Int := l.sum / l.length

theorem demoMean_symm : Symm demoMean := fun a b => by simp [demoMean, Int.add_comm]

/-- the hypotheses of C150 and C151 are met: all cells; and one active cell, whose neighbour is cut in two -/
example : TriMesh demoTri ∧ TreeOk demoTri ∧ Sound demoTopo demoTri.cells ∧ GenOk demoGen ∧ Symm demoMean ∧
    (∀ i ∈ [4], has demoTri.cells i = true) ∧ [7, 4].Perm (cellIds demoTri) ∧ Cut demoTri.cells [4] 1 2 :=
  ⟨demoTri_mesh.1, demoTri_mesh.2, demoTopo_sound, demoGen_ok, demoMean_symm, by decide, by decide,
    Cut.active (e := (4, ⟨.triangle, [0, 1, 2], 2, true⟩)) (f := 1) (by decide) (by decide) (by decide)⟩

/-- the tags after one step from cell 4 -/
def demoMarks : Marks := [0, 1, 2].foldl (visitFace demoTopo 4) { marks [4] with queue := [] }

example : ∃ o', RedGreen demoGen demoMean demoTopo [7, 4] [4] demoTri o' ∧
    o'.verts = [(0, 0), (1, 10), (2, 20), (3, 30), (4, 5), (5, 15), (6, 10)] ∧
    o'.cells.map (fun c => (c.2.conn, c.2.pid)) = [([5, 1, 3], -5), ([5, 3, 2], -5), ([4, 5, 6], 2), ([1, 5, 4], 2),
      ([2, 6, 5], 2), ([0, 4, 6], 2)] := by
  have hs : ordered demoMarks.edges = [0, 1, 2] := mergeSort_of_pairwise (by decide)
  have hx : ∀ r, split demoGen demoMean demoTopo [7, 4] demoMarks (updateInt (updateAdj demoTri)) = r ↔
      ((addMiddles demoGen demoMean demoTopo [0, 1, 2] (updateInt (updateAdj demoTri), [])).bind fun s =>
        (splitLoop demoGen demoTopo demoMarks s.2 [7, 4] (s.1, [])).bind fun r =>
          update (setUnsyncAll (delCells (destroyInt r.1) r.2))) = r := by
    intro r; unfold split; rw [hs]
  refine ⟨_, ⟨demoMarks, .next rfl (.done rfl), (hx _).2 (Option.some_get (by decide)).symm⟩, by decide, by decide⟩

/-! A side with three cells -/

/-- three cells at the edge 0-1 -/
def demoBook : Obj Int :=
  { demo with
    verts := [(0, 0), (1, 10), (2, 20), (3, 30), (4, 40)]
    cells := [(0, ⟨.triangle, [0, 1, 2], 1, true⟩), (1, ⟨.triangle, [0, 1, 3], 1, true⟩), (2, ⟨.triangle, [0, 1, 4], 1, true⟩)]
    pids := [1], names := [(1, "")] }

/-- adjacencies and interfaces as bitpit builds them: one interface for each pair of cells (20: cells 0 and 1, 21:
cells 0 and 2, 22: cells 1 and 2), the first one of a face is its oldest -/
def bookTopo : Topo where
  nbrs id f := if f = 0 then [0, 1, 2].filter (fun n => n != id) else []
  itf id f := if f = 0 then (if id = 2 then 21 else 20) else 3 * id + f
  owner i := if i = 22 then 1 else if i ≥ 20 then 0 else i / 3
  ownerFace i := if i ≥ 20 then 0 else i % 3
  neighFace _ := 0
  ends i := if i ≥ 20 then [0, 1] else if i % 3 = 1 then [1, i / 3 + 2] else [i / 3 + 2, 0]

theorem demoBook_mesh : TriMesh demoBook ∧ TreeOk demoBook ∧ Wired bookTopo demoBook.cells := by
  refine ⟨⟨⟨rfl, by unfold Ok; decide, by unfold Ok; decide, ?_, ?_, by decide⟩, ?_⟩, ⟨by decide, by decide⟩, ⟨?_, ?_⟩⟩
  · intro c hc
    simp only [demoBook, mem_cons, not_mem_nil, or_false] at hc
    rcases hc with rfl | rfl | rfl <;> exact ⟨by decide, by decide⟩
  · intro c hc
    simp only [demoBook, mem_cons, not_mem_nil, or_false] at hc
    rcases hc with rfl | rfl | rfl <;> exact ⟨by unfold InRange; decide, by decide, by decide⟩
  · intro c hc
    simp only [demoBook, mem_cons, not_mem_nil, or_false] at hc
    rcases hc with rfl | rfl | rfl <;> exact ⟨by decide, by decide⟩
  · intro id c f hc hf n hn
    have hn' : n ∈ [0, 1, 2] := by
      simp only [bookTopo] at hn
      split at hn
      · exact (mem_filter.1 hn).1
      · cases hn
    simp only [mem_cons, not_mem_nil, or_false] at hn'
    rcases hn' with rfl | rfl | rfl <;> decide
  · intro id c f hc hf
    have := get_some_mem hc
    simp only [demoBook, mem_cons, not_mem_nil, or_false] at this
    rcases this with h | h | h <;> injection h with h1 h2 <;> subst h1 <;> subst h2 <;>
      rcases face_cases hf with rfl | rfl | rfl <;> decide

/-- C151 fails where three cells meet at a side, if the interfaces are one for each pair of cells: cells with the same
side get different new vertices on it, so that the surface is no longer connected there. -/
theorem C151_three_cells_fails {g : Gen Int} (hg : GenOk g) : ∃ o' w, RedGreen g demoMean bookTopo [0, 1, 2] (cellIds demoBook)
    demoBook o' ∧ Quartered demoMean bookTopo demoBook o' w ∧ w 0 0 = w 1 0 ∧ w 0 0 ≠ w 2 0 ∧
      get o'.verts (w 0 0) = get o'.verts (w 2 0) := by
  obtain ⟨o', w, h1, h2, -⟩ := C150_redgreen hg demoMean_symm demoBook_mesh.1 demoBook_mesh.2.1 demoBook_mesh.2.2
    (ord := [0, 1, 2]) (by decide)
  refine ⟨o', w, h1, h2, ?_, ?_, ?_⟩
  · exact (h2.shared 0 0 1 0 (by decide) (by decide) (by decide) (by decide)).2 (by decide)
  · intro h
    exact absurd ((h2.shared 0 0 2 0 (by decide) (by decide) (by decide) (by decide)).1 h) (by decide)
  · rw [h2.pos 0 ⟨.triangle, [0, 1, 2], 1, true⟩ 0 0 10 (by decide) (by decide) (by decide) (by decide),
      h2.pos 2 ⟨.triangle, [0, 1, 4], 1, true⟩ 0 0 10 (by decide) (by decide) (by decide) (by decide)]

end Verif.Refine
