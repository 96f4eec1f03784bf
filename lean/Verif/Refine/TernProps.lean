import Verif.Refine.Basic
/-
Ternary refinement: what it does to a surface.
-/
namespace Verif.Refine
open Verif.Field Verif.Mesh
open List hiding get get_of_mem

variable {P : Type}

/-- specification: the triangles between a point and the sides of a closed ring, in the order of the ring -/
def fan (v : Nat) (ring : List Nat) : List (List Nat) :=
  zipWith (fun a b => [v, a, b]) ring (ring.tail ++ ring.head?.toList)

theorem fanOf_eq (v : Nat) (ring : List Nat) : fanOf v ring = fan v ring := by
  unfold fanOf fan
  match ring with
  | [] => rfl
  | r :: l =>
    apply List.ext_getElem
    · simp
    · intro i h1 h2
      simp only [length_map, length_range, length_cons] at h1
      simp only [getElem_map, getElem_range, getElem_zipWith, length_cons, tail_cons, head?_cons, Option.toList_some]
      have e1 : i % (l.length + 1) = i := Nat.mod_eq_of_lt h1
      have e2 : (r :: l).getD i 0 = (r :: l)[i] := by
        rw [getD_eq_getElem?_getD, getElem?_eq_getElem (by simpa using h1)]; rfl
      rw [e1, e2]
      congr 2
      by_cases h : i = l.length
      · subst h
        simp
      · have h3 : i < l.length := by omega
        rw [Nat.mod_eq_of_lt (by omega), getElem_append_left h3, getD_eq_getElem?_getD,
          getElem?_eq_getElem (by simp; omega)]
        simp

theorem fan_three {v : Nat} {ring : List Nat} : ∀ t ∈ fan v ring, t.length = 3 := by
  intro t ht
  unfold fan at ht
  obtain ⟨i, hi, rfl⟩ := List.mem_iff_getElem.1 ht
  simp

theorem fan_length (v : Nat) (ring : List Nat) : (fan v ring).length = ring.length := by
  unfold fan
  match ring with
  | [] => rfl
  | r :: l => simp

theorem fan_verts {v : Nat} {ring : List Nat} : ∀ t ∈ fan v ring, ∀ w ∈ t, w = v ∨ w ∈ ring := by
  intro t ht w hw
  unfold fan at ht
  obtain ⟨i, hi, rfl⟩ := List.mem_iff_getElem.1 ht
  simp only [getElem_zipWith, mem_cons, not_mem_nil, or_false] at hw
  rcases hw with rfl | rfl | rfl
  · exact Or.inl rfl
  · exact Or.inr (getElem_mem _)
  · refine Or.inr ?_
    match ring with
    | [] => simp at hi
    | r :: l =>
      have := getElem_mem (l := l ++ [r]) (n := i) (by simp at hi ⊢; omega)
      simp only [mem_append, mem_singleton] at this
      simp only [tail_cons, head?_cons, Option.toList_some]
      rcases this with h | h
      · exact mem_cons_of_mem _ h
      · rw [h]; simp

theorem surf_ring {c : Cell} (h : SurfCell c) : 2 ≤ (vertexIds c).length := by
  have h2 := h.2
  have hel := h.1
  simp only [mem_cons, not_mem_nil, or_false] at hel
  rcases hel with he | he | he | he
  · rw [he] at h2
    simp only [checkConn, length_map, beq_iff_eq] at h2
    simp only [vertexIds, he]
    omega
  · obtain ⟨a, b, d, e, hc⟩ := four_conn h (Or.inl he)
    simp [vertexIds, he, hc]
  · obtain ⟨a, b, d, e, hc⟩ := four_conn h (Or.inr he)
    simp [vertexIds, he, hc]
  · obtain ⟨n, r, s, ring, hc, hn⟩ := polygon_conn h he
    simp only [vertexIds, he, hc, tail_cons, length_cons]
    omega

/-- what is needed of a cell to refine it -/
structure Ready (o : Obj P) (e : Nat × Cell) : Prop where
  here : get o.cells e.1 = some e.2
  ring : vertexIds e.2 ≠ []
  pid : Known o e.2.pid
  verts : ∀ v ∈ vertexIds e.2, has o.verts v = true

/-- the cells made from a list of cells and of new vertices -/
def fans (l : Data Cell) (vs : Data P) : List Cell :=
  (l.zip vs).flatMap fun e => (fan e.2.1 (vertexIds e.1.2)).map (tri e.1.2.pid)

theorem ternaryLoop_spec {g : Gen P} (hg : GenOk g) {bary : Obj P → Nat → P} (hl : LocalTo bary) {o : Obj P} :
    ∀ (l : Data Cell), (∀ e ∈ l, Ready o e) → ∀ (s : Obj P) (del : List Nat) (vs0 : Data P) (cs0 : Data Cell),
      Grows o s vs0 cs0 →
      ∃ s' vs cs, ternaryLoop g bary (l.map Prod.fst) (s, del) = some (s', (l.map Prod.fst).foldl insSet del) ∧
        Grows s s' vs cs ∧ vs.map Prod.snd = l.map (fun e => bary o e.1) ∧ cs.map Prod.snd = fans l vs := by
  intro l
  induction l with
  | nil =>
    intro _ s del vs0 cs0 h
    exact ⟨s, [], [], rfl, Grows.refl h.okv h.okc, rfl, rfl⟩
  | cons e l ih =>
    intro hr s del vs0 cs0 h
    have re := hr e (by simp)
    have hv : (vertexIds e.2).all (fun v => has s.verts v) = true := by
      rw [all_eq_true]
      exact fun v hv => h.has_vert (re.verts v hv)
    have hbary : bary s e.1 = bary o e.1 := by
      refine hl s o e.1 e.2 (h.get_cell re.here) re.here ?_
      intro v hv
      have := re.verts v hv
      rw [has_eq_isSome, Option.isSome_iff_exists] at this
      obtain ⟨p, hp⟩ := this
      rw [hp, h.get_vert hp]
    have g1 := newVertex_grows hg h.okv h.okc (bary s e.1)
    obtain ⟨cs1, g2, c2⟩ := newTris_grows hg (pid := e.2.pid) (fanOf (g.vert s.verts) (vertexIds e.2)) g1.okv g1.okc
      ((h.trans g1).known re.pid) (by rw [fanOf_eq]; exact fan_three)
    have g12 := g1.trans g2
    obtain ⟨s', vs, cs, e1, e2, e3, e4⟩ := ih (fun x hx => hr x (by simp [hx]))
      (newTris g e.2.pid (newVertex g s (bary s e.1)) (fanOf (g.vert s.verts) (vertexIds e.2))) (insSet del e.1) _ _
      (h.trans g12)
    refine ⟨s', _, _, ?_, g12.trans e2, ?_, ?_⟩
    · rw [map_cons, ternaryLoop, ternaryCell]
      simp only [h.get_cell re.here, hv, if_true, if_neg re.ring, Option.bind_some, foldl_cons]
      exact e1
    · simp only [append_nil, singleton_append, map_cons, e3, hbary]
    · simp only [nil_append, append_nil, map_append, c2, e4, fanOf_eq]
      simp [fans]

/-- C149: the result of one ternary refinement.  `vs` are the new vertices, one for each old cell, in the order of the
cells. -/
structure Ternary (bary : Obj P → Nat → P) (o o' : Obj P) (vs : Data P) : Prop where
  /-- old vertices as they were, one new vertex for each cell at its centroid -/
  verts : o'.verts = o.verts ++ vs
  middle : vs.map Prod.snd = o.cells.map (fun c => bary o c.1)
  /-- the cells are the triangles between the new vertex of a cell and the sides of the cell, with its PID -/
  cells : o'.cells.map Prod.snd = fans o.cells vs
  /-- no id of an old cell is used again -/
  ids : ∀ c ∈ o'.cells, has o.cells c.1 = false
  pids : o'.pids = o.pids
  names : o'.names = o.names

theorem ready_of {o : Obj P} (h : SurfOk o) : ∀ e ∈ o.cells, Ready o e := by
  intro e he
  have hc := h.comp
  unfold complete at hc
  rw [all_eq_true] at hc
  refine ⟨get_of_mem h.cells he, ?_, h.pids e he, ?_⟩
  · have := surf_ring (h.surf e he)
    intro h0
    rw [h0] at this
    simp at this
  · have := hc e he
    rw [all_eq_true] at this
    exact this

theorem filter_all_out (d : Data Cell) (l : List Nat) (h : ∀ e ∈ d, e.1 ∈ l) :
    d.filter (fun c => !l.contains c.1) = [] := by
  rw [filter_eq_nil_iff]
  intro e he
  simp [h e he]

theorem fans_mem {l : Data Cell} {vs : Data P} {c : Cell} (h : c ∈ fans l vs) :
    ∃ e v t, e ∈ l ∧ v ∈ vs ∧ t ∈ fan v.1 (vertexIds e.2) ∧ c = tri e.2.pid t := by
  unfold fans at h
  obtain ⟨x, hx, hc⟩ := mem_flatMap.1 h
  obtain ⟨t, ht, rfl⟩ := mem_map.1 hc
  have := of_mem_zip (a := x.1) (b := x.2) hx
  exact ⟨x.1, x.2, t, this.1, this.2, ht, rfl⟩

/-- C149: on a surface in order the ternary refinement of all cells succeeds and gives exactly the fans around the
centroids; the result is again a surface in order, of triangles only, with everything derived up to date. -/
theorem C149_ternary {g : Gen P} (hg : GenOk g) {bary : Obj P → Nat → P} (hl : LocalTo bary) {o : Obj P} (h : SurfOk o)
    (ht : TreeOk o) :
    ∃ o' vs, ternary g bary (cellIds o) o = some o' ∧ Ternary bary o o' vs ∧ SurfOk o' ∧ TreeOk o' ∧ Fresh o' ∧
      (∀ c ∈ o'.cells, c.2.elem = .triangle) := by
  obtain ⟨s, vs, cs, e1, e2, e3, e4⟩ := ternaryLoop_spec hg hl o.cells (ready_of h) o [] [] [] (Grows.refl h.verts h.cells)
  have hdel := delCells_grown e2 (ids := (o.cells.map Prod.fst).foldl insSet [])
    (fun i hi => (has_iff _ _).2 (by simpa [mem_foldl_insSet] using hi))
  rw [filter_all_out _ _ (fun e he => by
    rw [mem_foldl_insSet]; exact Or.inr (mem_map_of_mem he)), nil_append] at hdel
  have hcells : ∀ c ∈ cs, ∃ e v t, e ∈ o.cells ∧ v ∈ vs ∧ t ∈ fan v.1 (vertexIds e.2) ∧ c.2 = tri e.2.pid t := by
    intro c hc
    apply fans_mem
    rw [← e4]; exact mem_map_of_mem hc
  have hcomp : ∀ c ∈ cs, ∀ v ∈ vertexIds c.2, has s.verts v = true := by
    intro c hc v hv
    obtain ⟨e, w, t, he, hw, htm, hct⟩ := hcells c hc
    rw [hct] at hv
    rcases fan_verts t htm v hv with rfl | h'
    · rw [has_iff, e2.verts, map_append, mem_append]
      exact Or.inr (mem_map_of_mem hw)
    · exact e2.has_vert ((ready_of h e he).verts v h')
  obtain ⟨r, r1, r2, r3, r4, r5, r6, r7, r8, r9⟩ := finish (o := delCells s ((o.cells.map Prod.fst).foldl insSet []))
    (treeOk_of ht e2.tree.type e2.tree.tree e2.tree.skd) (by
      unfold complete
      rw [hdel, all_eq_true]
      intro c hc
      rw [all_eq_true]
      exact hcomp c hc)
  rw [hdel] at r4
  have hokc : Ok cs := by
    have := e2.okc
    rw [e2.cells] at this
    unfold Ok at *
    rw [map_append, nodup_append] at this
    exact this.2.1
  refine ⟨r, vs, ?_, ⟨?_, e3, ?_, ?_, ?_, ?_⟩, ⟨?_, ?_, ?_, ?_, ?_, r9⟩, r8, r7, ?_⟩
  · unfold ternary cellIds
    rw [e1]
    exact r1
  · rw [r3]; exact e2.verts
  · rw [r4]; exact e4
  · rw [r4]
    intro c hc
    apply has_false_of
    intro hm
    have := e2.okc
    rw [e2.cells] at this
    unfold Ok at this
    rw [map_append, nodup_append] at this
    exact this.2.2 _ hm _ (mem_map_of_mem hc) rfl
  · rw [r5]; exact e2.pids
  · rw [r6]; exact e2.names
  · rw [r2]; exact e2.tree.type.trans h.type
  · rw [r3]; exact e2.okv
  · rw [r4]; exact hokc
  · rw [r4]
    intro c hc
    obtain ⟨e, w, t, he, hw, htm, hct⟩ := hcells c hc
    rw [hct]
    exact ⟨by simp [tri], by simp [tri, checkConn, fan_three t htm]⟩
  · rw [r4, r5, r6]
    intro c hc
    obtain ⟨e, w, t, he, hw, htm, hct⟩ := hcells c hc
    rw [hct]
    have hp : (delCells s ((o.cells.map Prod.fst).foldl insSet [])).pids = o.pids := e2.pids
    have hn : (delCells s ((o.cells.map Prod.fst).foldl insSet [])).names = o.names := e2.names
    rw [hp, hn]
    exact h.pids e he
  · rw [r4]
    intro c hc
    obtain ⟨e, w, t, he, hw, htm, hct⟩ := hcells c hc
    rw [hct]; rfl

/-! Number of cells and vertices -/

theorem fans_length : ∀ (l : Data Cell) (vs : Data P), vs.length = l.length →
    (fans l vs).length = (l.map fun e => (vertexIds e.2).length).sum := by
  intro l
  induction l with
  | nil => intro vs _; rfl
  | cons e l ih =>
    intro vs hv
    match vs with
    | [] => simp at hv
    | v :: vs =>
      have := ih vs (by simpa using hv)
      simp only [fans] at this
      simp only [fans, zip_cons_cons, flatMap_cons, length_append, length_map, map_cons, sum_cons, fan_length, this]

/-- repeated ternary refinement, src/geohandlers/RefineGeometry.cpp:197-205 -/
def ternaries (g : Gen P) (bary : Obj P → Nat → P) : Nat → Obj P → Option (Obj P)
  | 0, o => some o
  | k + 1, o => (ternary g bary (cellIds o) o).bind (ternaries g bary k)

theorem ternary_size {bary : Obj P → Nat → P} {o o' : Obj P} {vs : Data P} (h : Ternary bary o o' vs) :
    o'.cells.length = (o.cells.map fun e => (vertexIds e.2).length).sum ∧ o'.verts.length = o.verts.length + o.cells.length := by
  have hl : vs.length = o.cells.length := by
    have := congrArg List.length h.middle
    simpa using this
  constructor
  · have := congrArg List.length h.cells
    rw [length_map] at this
    rw [this, fans_length _ _ hl]
  · rw [h.verts, length_append, hl]

theorem sum_three : ∀ (l : Data Cell), (∀ e ∈ l, (vertexIds e.2).length = 3) →
    (l.map fun e => (vertexIds e.2).length).sum = 3 * l.length := by
  intro l
  induction l with
  | nil => intro _; rfl
  | cons e l ih =>
    intro h
    rw [map_cons, sum_cons, ih (fun x hx => h x (by simp [hx])), h e (by simp), length_cons]
    omega

/-- C149: sizes of the result of one refinement: as many cells as the old cells have sides, one new vertex for each
old cell; after further refinements, three times as many cells each time. -/
theorem C149_size {g : Gen P} (hg : GenOk g) {bary : Obj P → Nat → P} (hl : LocalTo bary) :
    ∀ (k : Nat) {o : Obj P}, SurfOk o → TreeOk o →
      ∃ o', ternaries g bary (k + 1) o = some o' ∧
        o'.cells.length = 3 ^ k * (o.cells.map fun e => (vertexIds e.2).length).sum ∧
        2 * o'.verts.length = 2 * o.verts.length + 2 * o.cells.length +
          (3 ^ k - 1) * (o.cells.map fun e => (vertexIds e.2).length).sum ∧
        SurfOk o' ∧ TreeOk o' ∧ (∀ c ∈ o'.cells, c.2.elem = .triangle) := by
  intro k
  induction k with
  | zero =>
    intro o h ht
    obtain ⟨o', vs, h1, h2, h3, h4, _, h6⟩ := C149_ternary hg hl h ht
    have hs := ternary_size h2
    refine ⟨o', by simp [ternaries, h1], by rw [hs.1]; simp, by rw [hs.2]; simp; omega, h3, h4, h6⟩
  | succ k ih =>
    intro o h ht
    obtain ⟨o1, vs, h1, h2, h3, h4, _, h6⟩ := C149_ternary hg hl h ht
    have hs := ternary_size h2
    obtain ⟨o', i1, i2, i3, i4, i5, i6⟩ := ih h3 h4
    have h33 : (o1.cells.map fun e => (vertexIds e.2).length).sum = 3 * o1.cells.length := by
      apply sum_three
      intro e he
      have ht := h6 e he
      have hh := (h3.surf e he).2
      rw [ht] at hh
      simp only [checkConn, length_map, beq_iff_eq] at hh
      simpa [vertexIds, ht] using hh
    refine ⟨o', ?_, ?_, ?_, i4, i5, i6⟩
    · rw [ternaries, h1]; exact i1
    · rw [i2, h33, hs.1, Nat.pow_succ, Nat.mul_assoc]
    · rw [i3, h33, hs.2, hs.1]
      generalize (o.cells.map fun e => (vertexIds e.2).length).sum = n
      have hp : 1 ≤ 3 ^ k := Nat.one_le_pow _ _ (by omega)
      obtain ⟨m, hm⟩ : ∃ m, 3 ^ k = m + 1 := ⟨3 ^ k - 1, by omega⟩
      have e1 : 3 ^ (k + 1) = 3 * m + 3 := by rw [Nat.pow_succ, hm]; omega
      rw [hm, e1]
      have a1 : m + 1 - 1 = m := by omega
      have a2 : 3 * m + 3 - 1 = 3 * m + 2 := by omega
      rw [a1, a2, Nat.add_mul]
      have a3 : m * (3 * n) = 3 * m * n := by rw [← Nat.mul_assoc, Nat.mul_comm m 3]
      omega

/-! The outline -/

/-- C149: the triangles that replace a cell have together the outline of its ring of vertices, with its orientation:
the inner edges cancel.  For a pixel the ring in the stored order is not the outline of the cell: see
`C149_pixel_fails`. -/
theorem C149_outline_partial (v a b : Nat) (ring : List Nat) : ((fan v ring).map (net a b)).sum = net a b ring := by
  match ring with
  | [] => rfl
  | r :: l =>
    simp only [fan, tail_cons, head?_cons, Option.toList_some]
    rw [fan_sum a b v (r :: l) (l ++ [r]) (by simp)]
    simp only [net, map_append, Verif.Mesh.sum_append_int, map_cons, map_nil, sum_cons, sum_nil]
    omega

/-- C149 is false for the outline of pixels, whose connectivity is stored row by row -/
theorem C149_pixel_fails : ∃ p q r s a b : Nat, ∀ v, v ∉ [p, q, r, s] →
    ((fan v (vertexIds ⟨.pixel, [p, q, r, s], 0, true⟩)).map (net a b)).sum ≠ net a b [p, q, s, r] :=
  ⟨0, 1, 2, 3, 1, 2, fun v _ => by
    rw [C149_outline_partial]; decide⟩

/-! A case that meets the hypotheses -/

/-- ids one above the largest in use -/
def demoGen : Gen Int where
  vert vs := (vs.map Prod.fst).foldl max 0 + 1
  cell _ cs := (cs.map Prod.fst).foldl max 0 + 1

theorem foldl_max_le : ∀ (l : List Nat) (n : Nat), n ≤ l.foldl max n ∧ ∀ x ∈ l, x ≤ l.foldl max n := by
  intro l
  induction l with
  | nil => intro n; simp
  | cons a l ih =>
    intro n
    have := ih (max n a)
    constructor
    · simp only [foldl_cons]; omega
    · intro x hx
      rcases mem_cons.1 hx with rfl | hx
      · simp only [foldl_cons]; omega
      · exact this.2 x hx

theorem above {α : Type} (d : Data α) : has d ((d.map Prod.fst).foldl max 0 + 1) = false := by
  apply has_false_of
  intro h
  have := (foldl_max_le (d.map Prod.fst) 0).2 _ h
  omega

theorem demoGen_ok : GenOk demoGen := ⟨fun vs => above vs, fun _ cs => above cs⟩

/-- mean position of the vertices of a cell, in whole numbers -/
def demoBary (o : Obj Int) (id : Nat) : Int :=
  match get o.cells id with
  | none => 0
  | some c => ((vertexIds c).map fun v => (get o.verts v).getD 0).sum / (vertexIds c).length

theorem demoBary_local : LocalTo demoBary := by
  intro o1 o2 id c h1 h2 h
  unfold demoBary
  rw [h1, h2]
  simp only
  rw [map_congr_left (fun v hv => by rw [h v hv])]

example : SurfOk demoSurf ∧ TreeOk demoSurf ∧ demoSurf.cells ≠ [] ∧
    (∃ o', ternary demoGen demoBary (cellIds demoSurf) demoSurf = some o' ∧ o'.cells.length = 12 ∧
      o'.verts = demoSurf.verts ++ [(8, 25), (9, 28), (10, 10)]) := by
  refine ⟨⟨rfl, by unfold Ok; decide, by unfold Ok; decide, ?_, ?_, by decide⟩, ⟨by decide, by decide⟩, by decide, ?_⟩
  · intro c hc
    simp only [demoSurf, mem_cons, not_mem_nil, or_false] at hc
    rcases hc with rfl | rfl | rfl <;> exact ⟨by decide, by decide⟩
  · intro c hc
    simp only [demoSurf, mem_cons, not_mem_nil, or_false] at hc
    rcases hc with rfl | rfl | rfl <;> exact ⟨by unfold InRange; decide, by decide, by decide⟩
  · refine ⟨(ternary demoGen demoBary (cellIds demoSurf) demoSurf).get (by decide), by simp, by decide, by decide⟩

end Verif.Refine
