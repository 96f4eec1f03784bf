import Verif.Create.CurveProps
/-
C145: the mesh of a curve, and what happens without enough points
-/
namespace Verif.Create
open Verif.Shape Verif.Field Verif.Mesh
open List hiding get get_of_mem

noncomputable section

/-- the cell of a line -/
def lineCell (e : Nat × Nat) : Cell := ⟨.line, [e.1, e.2], 0, true⟩

theorem line_fillable (e : Nat × Nat) : Fillable (lineCell e) := by
  refine ⟨by simp [lineCell], ?_, by simp [lineCell, toInt32], rfl⟩
  simp [lineCell, checkConn]

theorem Through.congr {r : Raw} {W : List Nat} {verts : Data V3} {fs fs' : Data ℝ} {fv fv' : Data V3} {cells : List (Nat × Nat)} {nodes : List (Nat × ℝ)}
    (h : Through r W verts fs fv cells nodes) (hs : ∀ j, get fs' j = get fs j) (hv : ∀ j, get fv' j = get fv j) :
    Through r W verts fs' fv' cells nodes := by
  have : ∀ v, valOf verts fs' fv' v = valOf verts fs fv v := by intro v; unfold valOf; rw [hs, hv]
  exact { h with between := by intro x hx; rw [this]; exact h.between x hx }

theorem fill_same {α : Type} (init : α) {ids : List Nat} {d : Data α} (hok : ids.Nodup) (hk : d.map Prod.fst = ids) (j : Nat) :
    get (fillField init ids d) j = get d j := by
  rw [(fillField_spec init ids (raw := d) (by unfold Ok; rw [hk]; exact hok)).2 j, ← hk]
  simp only [mem_keys_iff]
  cases get d j <;> simp

theorem baseCells_walk {np : Nat} {closed : Bool} (h : 1 ≤ baseCells np closed) : 1 ≤ np ∧ (np = 1 → closed = true) := by
  unfold baseCells at h
  cases closed <;> simp at h ⊢ <;> omega

/-- the mesh of the lines `cells`, numbered from 0 -/
structure LinesOf (m : Obj V3) (cells : List (Nat × Nat)) : Prop where
  type : m.type = 4
  ids : m.cells.map Prod.fst = range cells.length
  cell : m.cells.map Prod.snd = cells.map lineCell

/-- **C145**: with at least two points, or one of a closed curve, the curve is made.  It goes through the raw points in their order, back to the
first if closed; it has as many lines as asked, or as needed; each vertex added lies between its neighbours and has interpolated values; the
longest lines have been split. -/
theorem C145_curve {pop : Pop} (hg : GoodPop pop) (c : Curve) (hp : Ok c.raw.points) (hb : 1 ≤ baseCells c.raw.points.length c.closed) :
    ∃ c' m cells nodes, c.execute pop = some c' ∧ c'.result = some m ∧ Fresh m ∧ LinesOf m cells ∧
      Through c.raw (walk c.closed (c.raw.points.map Prod.fst)) m.verts c'.scalarOut c'.vectorOut cells nodes ∧
      (cells.length : Int) = max c.nCells (baseCells c.raw.points.length c.closed) ∧
      (m.verts.length : Int) = c.raw.points.length + (cells.length - baseCells c.raw.points.length c.closed) ∧
      c'.scalarOut.map Prod.fst = m.verts.map Prod.fst ∧ c'.vectorOut.map Prod.fst = m.verts.map Prod.fst ∧
      c'.raw = c.raw ∧ c'.closed = c.closed ∧ c'.nCells = cells.length := by
  obtain ⟨h1, h2⟩ := baseCells_walk hb
  have hne : c.raw.points.map Prod.fst ≠ [] := by
    intro h
    have := congrArg length h
    simp only [length_map, length_nil] at this
    omega
  have hlen := length_walk (closed := c.closed) hne
  have hlen2 : ((walk c.closed (c.raw.points.map Prod.fst)).length : Int) = baseCells c.raw.points.length c.closed + 1 := by
    rw [hlen, length_map]
    unfold baseCells
    cases c.closed <;> simp
  obtain ⟨v, u, l, hw⟩ : ∃ v u l, walk c.closed (c.raw.points.map Prod.fst) = v :: u :: l := by
    cases e : walk c.closed (c.raw.points.map Prod.fst) with
    | nil => rw [e] at hlen2; simp at hlen2; omega
    | cons v l =>
      cases l with
      | nil => rw [e] at hlen2; simp at hlen2; omega
      | cons u l => exact ⟨v, u, l, rfl⟩
  rw [hw] at hlen2
  simp only [length_cons] at hlen2
  generalize hf : (max 0 (max c.nCells (baseCells c.raw.points.length c.closed) - baseCells c.raw.points.length c.closed)).toNat = f
  have hf' : (f : Int) = max c.nCells (baseCells c.raw.points.length c.closed) - baseCells c.raw.points.length c.closed := by omega
  obtain ⟨s, nodes, hs, o1, o2, o3, o4, o5, ht⟩ := refined hg hp hw f
  have hcs : Ok (s.conn.map fun e => (e.1, (⟨.line, [e.2.1, e.2.2], 0, true⟩ : Cell))) := by
    unfold Ok
    rw [map_map]
    have : (Prod.fst ∘ fun e : Nat × (Nat × Nat) => (e.1, (⟨.line, [e.2.1, e.2.2], 0, true⟩ : Cell))) = Prod.fst := rfl
    rw [this, o5]
    exact nodup_range
  have hmem : ∀ v ∈ nodes, v.1 ∈ s.points.map Prod.fst := by
    intro x hx
    obtain ⟨_, _, _, _, _, _, _, _, _, _, _, hv⟩ := ht.between x hx
    rw [mem_keys_iff, (valOf_some.1 hv).1]; rfl
  have hends : ∀ e ∈ s.conn.map Prod.snd, e.1 ∈ s.points.map Prod.fst ∧ e.2 ∈ s.points.map Prod.fst := by
    intro e he
    obtain ⟨p, hp, rfl⟩ := mem_map.1 (ht.lines.subset he)
    have := of_mem_zip hp
    exact ⟨hmem _ this.1, hmem _ (mem_of_mem_tail this.2)⟩
  obtain ⟨o, r, ho, hr, t1, t2, t3, -, t5, -, -⟩ := filled (t := 4) (by omega) (by omega) o1 hcs
    (by
      intro e he
      obtain ⟨x, -, rfl⟩ := mem_map.1 he
      exact line_fillable x.2)
    (by
      intro e he w hwv
      obtain ⟨x, hx, rfl⟩ := mem_map.1 he
      have hw' : w = x.2.1 ∨ w = x.2.2 := by simpa [vertexIds] using hwv
      have := hends x.2 (mem_map_of_mem hx)
      rcases hw' with rfl | rfl
      · exact this.1
      · exact this.2)
  have hverts : (fillCells (fillVerts o s.points) (s.conn.map fun e => (e.1, (⟨.line, [e.2.1, e.2.2], 0, true⟩ : Cell)))).verts = s.points := by
    rw [← (update_mesh hr).verts, t2]
  have hcl : (s.conn.map Prod.snd).length = l.length + 1 + f := by
    have := congrArg length o5
    simpa using this
  refine ⟨{ c with
      nCells := max c.nCells (baseCells c.raw.points.length c.closed)
      result := some r
      scalarOut := fillField 0 (s.points.map Prod.fst) s.scalar
      vectorOut := fillField ⟨0, 0, 0⟩ (s.points.map Prod.fst) s.vector },
    r, s.conn.map Prod.snd, nodes, ?_, rfl, t5, ⟨t1, ?_, ?_⟩, ?_, ?_, ?_, ?_, ?_, rfl, rfl, ?_⟩
  · have hs' : refineObject pop c.raw.points (c.raw.points.map fun e => (e.1, (get c.raw.scalar e.1).getD 0))
        (c.raw.points.map fun e => (e.1, (get c.raw.vector e.1).getD ⟨0, 0, 0⟩))
        (number ((walk c.closed (c.raw.points.map Prod.fst)).zip (walk c.closed (c.raw.points.map Prod.fst)).tail)) f = some s := hs
    simp only [Curve.execute, lines_eq hne, Option.bind_eq_bind, Option.bind_some, hf, hs', ho, hr, hverts]
  · rw [t3, map_map, hcl, ← o5]; rfl
  · rw [t3, map_map, map_map]; rfl
  · rw [t2, hw]
    exact ht.congr (fun j => fill_same 0 o1 o2 j) (fun j => fill_same ⟨0, 0, 0⟩ o1 o3 j)
  · rw [hcl]; push_cast; omega
  · rw [t2, o4, hcl]; push_cast; omega
  · rw [t2]; exact (fillField_spec 0 _ (raw := s.scalar) (by unfold Ok; rw [o2]; exact o1)).1
  · rw [t2]; exact (fillField_spec ⟨0, 0, 0⟩ _ (raw := s.vector) (by unfold Ok; rw [o3]; exact o1)).1
  · simp only; rw [hcl]; push_cast; omega

/-- **C145**: one point of an open curve and no number of lines asked: the point, no line -/
theorem C145_point {pop : Pop} (c : Curve) {id : Nat} {p : V3} (hp : c.raw.points = [(id, p)]) (ho : c.closed = false) (hn : c.nCells ≤ 0) :
    ∃ c' m, c.execute pop = some c' ∧ c'.result = some m ∧ m.type = 4 ∧ m.verts = [(id, p)] ∧ m.cells = [] ∧
      get c'.scalarOut id = some ((get c.raw.scalar id).getD 0) ∧ get c'.vectorOut id = some ((get c.raw.vector id).getD ⟨0, 0, 0⟩) := by
  obtain ⟨o, r, h1, hr, t1, t2, t3, -⟩ := filled (P := V3) (t := 4) (by omega) (by omega) (vs := [(id, p)]) (cs := []) (by simp [Ok]) (by simp [Ok])
    (by simp) (by simp)
  have hv : (fillCells (fillVerts o [(id, p)]) []).verts = [(id, p)] := by rw [← (update_mesh hr).verts, t2]
  refine ⟨{ c with
    nCells := max c.nCells 0
    result := some r
    scalarOut := fillField 0 [id] [(id, (get c.raw.scalar id).getD 0)]
    vectorOut := fillField ⟨0, 0, 0⟩ [id] [(id, (get c.raw.vector id).getD ⟨0, 0, 0⟩)] }, r, ?_, rfl, t1, t2, t3, ?_, ?_⟩
  · have e0 : baseCells 1 false = 0 := rfl
    have e1 : (max 0 (max c.nCells 0 - 0)).toNat = 0 := by omega
    simp only [Curve.execute, hp, ho, length_cons, length_nil, lines, map_cons, map_nil, tail_cons, zip_nil_right, number, zipIdx_nil,
      Option.bind_eq_bind, Option.bind_some, Nat.zero_add, e0, e1, refineObject, if_true, h1, hr, hv, Bool.false_eq_true, if_false]
  · simp [fillField, has, setAt, Verif.Field.get]
  · simp [fillField, has, setAt, Verif.Field.get]

/-- **C145 fails**: without points, and with the settings of a new block, the block does not warn only: it takes the top of an empty queue
(undefined behaviour).  The same with one point of an open curve when lines are asked; a closed curve without points steps before the first. -/
theorem C145_few_points_fails {pop : Pop} (hg : GoodPop pop) :
    ({} : Curve).execute pop = none ∧
    (∀ (c : Curve), c.raw.points = [] → c.closed = false → -1 < c.nCells → c.execute pop = none) ∧
    (∀ (c : Curve), c.raw.points = [] → c.closed = true → c.execute pop = none) ∧
    (∀ (c : Curve) (e : Nat × V3), c.raw.points = [e] → c.closed = false → 0 < c.nCells → c.execute pop = none) := by
  have loop : ∀ (n : Nat) (st : Refine), st.queue = [] → refineLoop pop (n + 1) st = none := by
    intro n st h
    simp [refineLoop, refineStep, h, hg.nil]
  have hA : ∀ (c : Curve), c.raw.points = [] → c.closed = false → -1 < c.nCells → c.execute pop = none := by
    intro c hp ho hn
    obtain ⟨k, hk⟩ : ∃ k, (max 0 (max c.nCells (baseCells 0 false) - baseCells 0 false)).toNat = k + 1 := by
      have e0 : baseCells 0 false = -1 := rfl
      rw [e0]
      exact ⟨(max 0 (max c.nCells (-1) - -1)).toNat - 1, by omega⟩
    simp only [Curve.execute, hp, ho, length_nil, lines, map_nil, tail_nil, zip_nil_right, number, zipIdx_nil, Option.bind_eq_bind,
      Option.bind_some, Bool.false_eq_true, if_false, hk, refineObject, Nat.add_one_ne_zero, lengths]
    rw [loop k _ rfl]
    rfl
  refine ⟨hA {} rfl rfl (by decide), hA, ?_, ?_⟩
  · intro c hp ho
    simp [Curve.execute, hp, ho, lines]
  · intro c e hp ho hn
    obtain ⟨k, hk⟩ : ∃ k, (max 0 (max c.nCells (baseCells 1 false) - baseCells 1 false)).toNat = k + 1 := by
      have e0 : baseCells 1 false = 0 := rfl
      rw [e0]
      exact ⟨(max 0 (max c.nCells 0 - 0)).toNat - 1, by omega⟩
    simp only [Curve.execute, hp, ho, length_nil, length_cons, lines, map_cons, map_nil, tail_cons, zip_nil_right, number, zipIdx_nil,
      Option.bind_eq_bind, Option.bind_some, Bool.false_eq_true, if_false, hk, refineObject, Nat.add_one_ne_zero, lengths, Nat.zero_add]
    rw [loop k _ rfl]
    rfl

/-- **C145 fails**: a block used again with fewer points keeps the number of lines of the first time as if it had been asked: whatever the
two lists of points, the second curve has at least as many lines as the first -/
theorem C145_again_fails {pop : Pop} (hg : GoodPop pop) (c : Curve) (hp : Ok c.raw.points) (hb : 1 ≤ baseCells c.raw.points.length c.closed)
    (r : Raw) (hr : Ok r.points) (hb' : 1 ≤ baseCells r.points.length c.closed) :
    ∃ c' c'' m' m'', c.execute pop = some c' ∧ ({ c' with raw := r } : Curve).execute pop = some c'' ∧ c'.result = some m' ∧
      c''.result = some m'' ∧ m'.cells.length ≤ m''.cells.length := by
  obtain ⟨c', m', cells, -, e1, e2, -, l1, -, n1, -, -, -, -, k1, k2⟩ := C145_curve hg c hp hb
  obtain ⟨c'', m'', cells', -, f1, f2, -, l2, -, n2, -⟩ := C145_curve hg { c' with raw := r } hr (by simpa [k1] using hb')
  refine ⟨c', c'', m', m'', e1, f1, e2, f2, ?_⟩
  have a := congrArg length l1.ids
  have b := congrArg length l2.ids
  simp only [length_map, length_range] at a b n2
  omega

/-- **C145**: setters change their setting only; a copy makes the same curve; `clear` brings back the settings of a new block -/
theorem C145_settings (c : Curve) (n : Int) (b : Bool) (pop : Pop) :
    (c.setNCells n).nCells = n ∧ (c.setNCells n).raw = c.raw ∧ (c.setNCells n).closed = c.closed ∧
    (c.setClosedLoop b).closed = b ∧ (c.setClosedLoop b).raw = c.raw ∧ (c.setClosedLoop b).nCells = c.nCells ∧
    c.copy.execute pop = c.execute pop ∧ c.copy.scalarOut = [] ∧ c.copy.vectorOut = [] ∧ c.clear = {} :=
  ⟨rfl, rfl, rfl, rfl, rfl, rfl, rfl, rfl, rfl, rfl⟩

/-- three points and five lines asked, open and closed -/
example (b : Bool) : ∃ pop, GoodPop pop ∧ Ok (number [(⟨0, 0, 0⟩ : V3), ⟨1, 0, 0⟩, ⟨1, 4, 0⟩]) ∧
    1 ≤ baseCells (number [(⟨0, 0, 0⟩ : V3), ⟨1, 0, 0⟩, ⟨1, 4, 0⟩]).length b ∧
    (∃ c' m, ({ raw := { points := number [⟨0, 0, 0⟩, ⟨1, 0, 0⟩, ⟨1, 4, 0⟩] }, nCells := 5, closed := b } : Curve).execute pop = some c' ∧
      c'.result = some m ∧ m.cells.length = 5) := by
  obtain ⟨pop, hg⟩ := goodPop_exists
  have hb : 1 ≤ baseCells (number [(⟨0, 0, 0⟩ : V3), ⟨1, 0, 0⟩, ⟨1, 4, 0⟩]).length b := by cases b <;> decide
  refine ⟨pop, hg, ok_number _, hb, ?_⟩
  obtain ⟨c', m, cells, -, e1, e2, -, l1, -, n1, -⟩ := C145_curve hg
    { raw := { points := number [⟨0, 0, 0⟩, ⟨1, 0, 0⟩, ⟨1, 4, 0⟩] }, nCells := 5, closed := b } (ok_number _) hb
  refine ⟨c', m, e1, e2, ?_⟩
  have a := congrArg length l1.ids
  simp only [length_map, length_range] at a
  have : (baseCells (number [(⟨0, 0, 0⟩ : V3), ⟨1, 0, 0⟩, ⟨1, 4, 0⟩]).length b) ≤ 5 := by cases b <;> decide
  simp only at n1
  omega

end
end Verif.Create
