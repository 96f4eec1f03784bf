import Verif.Create.Model
/-
C144: a point cloud has exactly the raw points, with their values
-/
namespace Verif.Create
open Verif.Shape Verif.Field Verif.Mesh
open List hiding get get_of_mem

theorem fold_fields {α : Type} : ∀ (raw d : Data α), Ok raw →
    (raw.foldl (fun d e => if has d e.1 then setAt d e.1 e.2 else d) d).map Prod.fst = d.map Prod.fst ∧
    ∀ j, get (raw.foldl (fun d e => if has d e.1 then setAt d e.1 e.2 else d) d) j = (get d j).map fun x => (get raw j).getD x
  | [], d, _ => by
    refine ⟨rfl, fun j => ?_⟩
    have : get ([] : Data α) j = none := rfl
    rw [this]
    cases h : get d j <;> simp [h]
  | e :: raw, d, hok => by
    unfold Ok at hok
    rw [map_cons, nodup_cons] at hok
    obtain ⟨h1, h2⟩ := fold_fields raw (if has d e.1 then setAt d e.1 e.2 else d) hok.2
    have hn : get raw e.1 = none := get_none_of_has (has_false_of hok.1)
    simp only [foldl_cons]
    refine ⟨by rw [h1]; split <;> simp [keys_setAt], fun j => ?_⟩
    rw [h2 j, get_cons]
    by_cases hj : e.1 = j
    · subst hj
      rw [hn, has_eq_isSome]
      cases hd : get d e.1 with
      | none => simp [hd]
      | some x => simp [get_setAt, hd]
    · rw [if_neg hj]
      split
      · rw [get_setAt, if_neg (Ne.symm hj)]
      · rfl

theorem fillField_spec {α : Type} (init : α) (ids : List Nat) {raw : Data α} (hok : Ok raw) :
    (fillField init ids raw).map Prod.fst = ids ∧
    ∀ j, get (fillField init ids raw) j = if j ∈ ids then some ((get raw j).getD init) else none := by
  obtain ⟨h1, h2⟩ := fold_fields raw (ids.map fun id => (id, init)) hok
  refine ⟨by unfold fillField; rw [h1]; simp [Function.comp_def], fun j => ?_⟩
  unfold fillField
  rw [h2 j, get_const]
  split <;> rfl

theorem mem_keys_iff {α : Type} {d : Data α} {j : Nat} : j ∈ d.map Prod.fst ↔ (get d j).isSome = true := by
  rw [← has_iff, has_eq_isSome]

/-- the cell of a point -/
def spot (id : Nat) : Cell := ⟨.vertex, [id], 0, true⟩

theorem spot_fillable (id : Nat) : Fillable (spot id) := by
  refine ⟨by simp [spot], ?_, by simp [spot, toInt32], rfl⟩
  simp [spot, checkConn]

theorem addPoint_eq (o : Obj V3) (e : Nat × V3) : addPoint o e = fillCells (fillVerts o [e]) [(e.1, spot e.1)] := rfl

theorem cloud_spec : ∀ (ps : Data V3) (o : Obj V3), Ok (o.verts ++ ps) → o.cells.map Prod.fst = o.verts.map Prod.fst → Fresh o → TreeOk o →
    (ps.foldl addPoint o).verts = o.verts ++ ps ∧ (ps.foldl addPoint o).cells = o.cells ++ ps.map (fun e => (e.1, spot e.1)) ∧
    (ps.foldl addPoint o).type = o.type ∧ Fresh (ps.foldl addPoint o) ∧ TreeOk (ps.foldl addPoint o)
  | [], o, _, _, hf, ht => by simp [hf, ht]
  | e :: ps, o, hok, hk, hf, ht => by
    have hok1 : Ok (o.verts ++ [e]) := by
      unfold Ok at hok ⊢
      have : o.verts ++ e :: ps = (o.verts ++ [e]) ++ ps := by simp
      rw [this, map_append] at hok
      exact hok.of_append_left
    obtain ⟨v1, v2, v3, -, -, -, v5, v6⟩ := fillVerts_spec [e] o hok1 hf ht
    obtain ⟨c1, c2, c3, -, -, c5, c6⟩ := fillCells_spec [(e.1, spot e.1)] (fillVerts o [e])
      (by rw [v2]; unfold Ok at hok1 ⊢; simpa [hk] using hok1) (by simpa using spot_fillable e.1) v5 v6
    have := cloud_spec ps (addPoint o e) (by rw [addPoint_eq, c2, v1]; simpa using hok)
      (by rw [addPoint_eq, c1, c2, v1, v2]; simp [hk]) (by rw [addPoint_eq]; exact c5) (by rw [addPoint_eq]; exact c6)
    simp only [foldl_cons]
    obtain ⟨t1, t2, t3, t4, t5⟩ := this
    refine ⟨?_, ?_, ?_, t4, t5⟩
    · rw [t1, addPoint_eq, c2, v1]; simp
    · rw [t2, addPoint_eq, c1, v2]; simp
    · rw [t3, addPoint_eq, c3, v3]

/-- a mesh `r` is the point cloud of the points `ps`: a vertex for each of them, in its place and with its id; on each vertex a cell with
the same id -/
structure IsCloud (ps : Data V3) (r : Obj V3) : Prop where
  type : r.type = 3
  verts : ∀ id, get r.verts id = get ps id
  cells : ∀ id c, get r.cells id = some c ↔ (∃ p, get ps id = some p) ∧ c.elem = .vertex ∧ c.conn = [id] ∧ c.pid = 0 ∧ c.interior = true
  numVerts : r.verts.length = ps.length
  numCells : r.cells.length = ps.length

/-- a field `d` has a value for each point of `ps` and for nothing else: the one of `raw`, or `dflt` -/
def FieldOn {α : Type} (ps : Data V3) (raw : Data α) (dflt : α) (d : Data α) : Prop :=
  d.length = ps.length ∧ ∀ id, get d id = (get ps id).map fun _ => (get raw id).getD dflt

theorem get_spots (ps : Data V3) (id : Nat) : get (ps.map fun e => (e.1, spot e.1)) id = (get ps id).map fun _ => spot id := by
  induction ps with
  | nil => rfl
  | cons e ps ih =>
    rw [map_cons, get_cons, get_cons, ih]
    by_cases h : e.1 = id
    · subst h; simp
    · simp [h]

/-- **C144**: for all raw data the cloud is made: the points, with their ids, and no other; the fields have the values given for the ids of
the points and zero for the others -/
theorem C144_cloud (c : Cloud) (hp : Ok c.raw.points) (hs : Ok c.raw.scalar) (hv : Ok c.raw.vector) :
    ∃ c' r, c.execute = some c' ∧ c'.result = some r ∧ IsCloud c.raw.points r ∧ Fresh r ∧
      FieldOn c.raw.points c.raw.scalar 0 c'.scalarOut ∧ FieldOn c.raw.points c.raw.vector ⟨0, 0, 0⟩ c'.vectorOut ∧ c'.raw = c.raw := by
  obtain ⟨o, -, ho, -⟩ := filled (P := V3) (t := 3) (by omega) (by omega) (vs := []) (cs := []) (by simp [Ok]) (by simp [Ok])
    (by simp) (by simp)
  have e : o.verts = [] ∧ o.cells = [] ∧ o.type = 3 := by
    unfold ctor at ho
    simp only at ho
    rw [if_neg (by omega)] at ho
    injection ho with ho
    subst ho
    exact ⟨rfl, rfl, rfl⟩
  obtain ⟨e1, e2, e3⟩ := e
  obtain ⟨v1, c1, t1, f1, k1⟩ := cloud_spec c.raw.points o (by rw [e1]; exact hp) (by rw [e1, e2]; rfl) (fresh_ctor ho) (treeOk_ctor ho)
  rw [e1] at v1
  rw [e2] at c1
  simp only [nil_append] at v1 c1
  have hcm : complete (c.raw.points.foldl addPoint o) = true := by
    unfold complete
    rw [c1, v1]
    simp only [all_eq_true]
    intro e he v hvv
    obtain ⟨x, hx, rfl⟩ := mem_map.1 he
    have : v = x.1 := by simpa [vertexIds, spot] using hvv
    rw [this]
    exact (has_iff _ _).2 (mem_map_of_mem hx)
  obtain ⟨r, hr⟩ := update_succeeds k1 hcm
  have em := update_mesh hr
  refine ⟨{ c with
      result := some r
      scalarOut := fillField 0 (c.raw.points.map Prod.fst) c.raw.scalar
      vectorOut := fillField ⟨0, 0, 0⟩ (c.raw.points.map Prod.fst) c.raw.vector },
    r, ?_, rfl, ⟨?_, ?_, ?_, ?_, ?_⟩, fresh_update f1 hr, ?_, ?_, rfl⟩
  · simp only [Cloud.execute, ho, Option.bind_eq_bind, Option.bind_some, hr, v1]
  · rw [em.type, t1, e3]
  · intro id; rw [em.verts, v1]
  · intro id x
    rw [em.cells, c1, get_spots]
    constructor
    · intro h
      obtain ⟨p, hp, rfl⟩ := Option.map_eq_some_iff.1 h
      exact ⟨⟨p, hp⟩, rfl, rfl, rfl, rfl⟩
    · rintro ⟨⟨p, hp⟩, h1, h2, h3, h4⟩
      rw [hp]
      obtain ⟨a, b, d, i⟩ := x
      simp_all [spot]
  · rw [em.verts, v1]
  · rw [em.cells, c1, length_map]
  · obtain ⟨f, g⟩ := fillField_spec (0 : ℝ) (c.raw.points.map Prod.fst) hs
    refine ⟨by have := congrArg length f; simpa using this, fun id => ?_⟩
    rw [g id]
    simp only [mem_keys_iff]
    cases h : get c.raw.points id <;> simp
  · obtain ⟨f, g⟩ := fillField_spec (⟨0, 0, 0⟩ : V3) (c.raw.points.map Prod.fst) hv
    refine ⟨by have := congrArg length f; simpa using this, fun id => ?_⟩
    rw [g id]
    simp only [mem_keys_iff]
    cases h : get c.raw.points id <;> simp

theorem get_number {α : Type} (l : List α) (i : Nat) : get (number l) i = l[i]? := by
  have : ∀ (l : List α) (k i : Nat), get ((l.zipIdx k).map fun e => (e.2, e.1)) i = if k ≤ i then l[i - k]? else none := by
    intro l
    induction l with
    | nil => intro k i; simp [Verif.Field.get]
    | cons a l ih =>
      intro k i
      rw [zipIdx_cons, map_cons, get_cons, ih]
      by_cases h : k = i
      · subst h; simp
      · rw [if_neg h]
        by_cases h2 : k ≤ i
        · rw [if_pos h2, if_pos (by omega)]
          have : i - k = (i - (k + 1)) + 1 := by omega
          rw [this, getElem?_cons_succ]
        · rw [if_neg h2, if_neg (by omega)]
  have h := this l 0 i
  rw [if_pos (Nat.zero_le i)] at h
  exact h

theorem ok_number {α : Type} (l : List α) : Ok (number l) := by
  unfold Ok number
  have : (map Prod.fst (map (fun e : α × Nat => (e.2, e.1)) (l.zipIdx 0))) = range' 0 l.length := by
    rw [map_map]
    have : (Prod.fst ∘ fun e : α × Nat => (e.2, e.1)) = Prod.snd := rfl
    rw [this]
    exact zipIdx_map_snd 0 l
  rw [this]
  exact nodup_range'

theorem length_number {α : Type} (l : List α) : (number l).length = l.length := by simp [number]

/-- **C144**: with plain lists the `i`-th point is vertex `i`; values past the last point are ignored and missing ones are zero -/
theorem C144_lists (c : Cloud) (ps : List V3) (ss : List ℝ) (vs : List V3) :
    ∃ c' r, ({ c with raw := ⟨number ps, number ss, number vs⟩ } : Cloud).execute = some c' ∧ c'.result = some r ∧
      (∀ i, get r.verts i = ps[i]?) ∧ r.verts.length = ps.length ∧
      (∀ i, i < ps.length → get c'.scalarOut i = some (ss[i]?.getD 0) ∧ get c'.vectorOut i = some (vs[i]?.getD ⟨0, 0, 0⟩)) ∧
      (∀ i, ps.length ≤ i → get c'.scalarOut i = none ∧ get c'.vectorOut i = none) := by
  obtain ⟨c', r, h1, h2, h3, -, h5, h6, -⟩ :=
    C144_cloud { c with raw := ⟨number ps, number ss, number vs⟩ } (ok_number _) (ok_number _) (ok_number _)
  refine ⟨c', r, h1, h2, ?_, ?_, ?_, ?_⟩
  · intro i; rw [h3.verts]; exact get_number ps i
  · rw [h3.numVerts]; exact length_number ps
  · intro i hi
    have a := h5.2 i
    have b := h6.2 i
    simp only [get_number] at a b
    rw [getElem?_eq_getElem hi] at a b
    exact ⟨a, b⟩
  · intro i hi
    have a := h5.2 i
    have b := h6.2 i
    simp only [get_number] at a b
    rw [getElem?_eq_none hi] at a b
    exact ⟨a, b⟩

/-- **C144**: no pointer, no change; a copy gives the same cloud; after `clear` nothing of the past is left: the next cloud is empty -/
theorem C144_settings (c : Cloud) (r : Raw) :
    r.setPoints none = r ∧ r.setScalar none = r ∧ r.setVector none = r ∧
    (∀ d, (r.setPoints (some d)).points = d ∧ (r.setPoints (some d)).scalar = r.scalar ∧ (r.setPoints (some d)).vector = r.vector) ∧
    (∀ d, (r.setScalar (some d)).scalar = d ∧ (r.setScalar (some d)).points = r.points ∧ (r.setScalar (some d)).vector = r.vector) ∧
    (∀ d, (r.setVector (some d)).vector = d ∧ (r.setVector (some d)).points = r.points ∧ (r.setVector (some d)).scalar = r.scalar) ∧
    c.copy.execute = c.execute ∧ c.copy.scalarOut = [] ∧ c.copy.vectorOut = [] ∧
    (∃ c' m, c.clear.execute = some c' ∧ c'.result = some m ∧ m.verts = [] ∧ m.cells = [] ∧ c'.scalarOut = [] ∧ c'.vectorOut = []) := by
  refine ⟨rfl, rfl, rfl, fun _ => ⟨rfl, rfl, rfl⟩, fun _ => ⟨rfl, rfl, rfl⟩, fun _ => ⟨rfl, rfl, rfl⟩, rfl, rfl, rfl, ?_⟩
  obtain ⟨c', m, h1, h2, h3, -, h5, h6, -⟩ := C144_cloud c.clear (by simp [Cloud.clear, Ok]) (by simp [Cloud.clear, Ok]) (by simp [Cloud.clear, Ok])
  exact ⟨c', m, h1, h2, length_eq_zero_iff.1 h3.numVerts, length_eq_zero_iff.1 h3.numCells, length_eq_zero_iff.1 h5.1, length_eq_zero_iff.1 h6.1⟩

/-- two points, with ids that are not consecutive; a value for one of them and one for no point -/
example : Ok ([(7, ⟨0, 0, 0⟩), (3, ⟨1, 0, 0⟩)] : Data V3) ∧ Ok ([(3, 5), (4, 6)] : Data ℝ) := by
  simp [Ok]

end Verif.Create
