import Verif.FvSel.Model
import Verif.Select.SubProps
/-
C180: the boundary mesh of a mesh is made of its border faces.
-/
namespace Verif.FvSel
open Verif.Field Verif.Mesh Verif.Select
open List hiding get

variable {P : Type}

/-! ### Specification -/

/-- the face `f`, at position `k` of the cell `id`, belongs to no other cell -/
def Border (T : Topo) (o : Obj P) (id k : Nat) (d : Cell) (f : Face) : Prop :=
  get o.cells id = some d ∧ (T.faces d)[k]? = some f ∧
    ∀ id' d' g, get o.cells id' = some d' → id' ≠ id → g ∈ T.faces d' → ¬ ∀ v, v ∈ f.verts ↔ v ∈ g.verts

/-- `r` is made of the border faces of `o` -/
structure BoundaryOf (T : Topo) (o r : Obj P) : Prop where
  type : r.type = boundaryType o.type
  cells : ∀ i c, get r.cells i = some c ↔ ∃ id k d f, Border T o id k d f ∧ i = T.num id k ∧ c = f.cell d.pid
  verts : ∀ v p, get r.verts v = some p ↔ (∃ id k d f, Border T o id k d f ∧ v ∈ f.verts) ∧ get o.verts v = some p
  pids : ∀ p, p ∈ r.pids ↔ ∃ id k d f, Border T o id k d f ∧ d.pid = p
  once : Ok r.verts ∧ Ok r.cells

/-- the faces of the cells of a mesh are elements on vertices of their cell, and interfaces have different ids -/
structure Faces (T : Topo) (o : Obj P) : Prop where
  coherent : ∀ id d, get o.cells id = some d → ∀ f ∈ T.faces d, f.conn ≠ [] ∧ checkConn f.elem (f.conn.map Int.ofNat) = true ∧ f.verts ≠ [] ∧ ∀ v ∈ f.verts, v ∈ vertexIds d
  inj : ∀ id k id' k', T.num id k = T.num id' k' → id = id' ∧ k = k'

/-! ### Border faces -/

theorem same_iff (a b : List Nat) : sameVerts a b = true ↔ ∀ v, v ∈ a ↔ v ∈ b := by
  unfold sameVerts
  simp only [Bool.and_eq_true, all_eq_true, decide_eq_true_eq]
  exact ⟨fun h v => ⟨h.1 v, h.2 v⟩, fun h => ⟨fun v => (h v).1, fun v => (h v).2⟩⟩

theorem border_iff (T : Topo) {o : Obj P} (ho : Ok o.cells) (id : Nat) (f : Face) : isBorder T o id f = true ↔
    ∀ id' d' g, get o.cells id' = some d' → id' ≠ id → g ∈ T.faces d' → ¬ ∀ v, v ∈ f.verts ↔ v ∈ g.verts := by
  unfold isBorder
  simp only [all_eq_true, Bool.or_eq_true, beq_iff_eq, Bool.not_eq_true']
  constructor
  · intro h id' d' g hd hne hg hs
    rcases h (id', d') (get_some_mem hd) with h | h
    · exact hne h
    · have := h g hg
      rw [(same_iff _ _).2 hs] at this
      cases this
  · intro h c hc
    by_cases he : c.1 = id
    · exact Or.inl he
    · refine Or.inr fun g hg => ?_
      cases hs : sameVerts f.verts g.verts with
      | false => rfl
      | true => exact absurd ((same_iff _ _).1 hs) (h c.1 c.2 g (get_of_mem ho hc) he hg)

theorem mem_border (T : Topo) {o : Obj P} (ht : o.type ≠ 3) (ho : Ok o.cells) (e : Nat × Nat × Cell × Face) :
    e ∈ borderFaces T o ↔ Border T o e.1 e.2.1 e.2.2.1 e.2.2.2 := by
  unfold borderFaces Border
  rw [if_neg ht]
  simp only [mem_flatMap, mem_map, mem_filter]
  constructor
  · rintro ⟨c, hc, f, ⟨hf, hb⟩, rfl⟩
    refine ⟨get_of_mem ho hc, ?_, (border_iff T ho _ _).1 hb⟩
    have := mem_zipIdx_iff_getElem?.1 hf
    simpa using this
  · rintro ⟨h1, h2, h3⟩
    refine ⟨(e.1, e.2.2.1), get_some_mem h1, (e.2.2.2, e.2.1), ⟨mem_zipIdx_iff_getElem?.2 (by simpa using h2), (border_iff T ho _ _).2 h3⟩, rfl⟩

/-- the cell of the boundary mesh made of a border face -/
def record (T : Topo) (e : Nat × Nat × Cell × Face) : Nat × Cell := (T.num e.1 e.2.1, e.2.2.2.cell e.2.2.1.pid)

theorem border_nodup (T : Topo) {o : Obj P} (ho : Ok o.cells) (hf : Faces T o) : Ok ((borderFaces T o).map (record T)) := by
  unfold Ok
  rw [map_map]
  unfold borderFaces
  split
  · simp
  · rw [map_flatMap]
    unfold Ok at ho
    rw [nodup_flatMap]
    constructor
    · intro c _
      rw [map_map, Nodup, pairwise_map]
      have hz : (((T.faces c.2).zipIdx).filter fun f => isBorder T o c.1 f.1).Pairwise fun a b => a.2 ≠ b.2 := by
        apply Pairwise.filter
        have : ((T.faces c.2).zipIdx.map Prod.snd).Nodup := by
          rw [zipIdx_map_snd]
          exact nodup_range'
        rw [Nodup, pairwise_map] at this
        exact this
      refine hz.imp fun h he => h ?_
      exact (hf.inj _ _ _ _ he).2
    · rw [Nodup, pairwise_map] at ho
      refine ho.imp fun {a b} hab => ?_
      intro x hx hy
      simp only [mem_map, mem_filter] at hx hy
      obtain ⟨y, ⟨f, _, rfl⟩, rfl⟩ := hx
      obtain ⟨y', ⟨f', _, rfl⟩, h⟩ := hy
      exact hab (hf.inj _ _ _ _ h).1.symm

/-! ### The boundary mesh -/

/-- the border faces as a mesh on the vertices of the mesh -/
def shell (T : Topo) (o : Obj P) : Obj P := { o with cells := (borderFaces T o).map (record T) }

theorem shell_good {T : Topo} {o : Obj P} (ht : o.type ≠ 3) (ho : Good o) (hf : Faces T o) : Good (shell T o) := by
  have h : ∀ i c, get (shell T o).cells i = some c → ∃ e ∈ borderFaces T o, record T e = (i, c) := by
    intro i c hc
    have := get_some_mem hc
    rw [shell, mem_map] at this
    exact this
  refine ⟨ho.verts, border_nodup T ho.cells hf, ?_, ?_, ?_⟩
  · intro i c hc v hv
    obtain ⟨e, he, hr⟩ := h i c hc
    obtain ⟨h1, h2, -⟩ := (mem_border T ht ho.cells e).1 he
    have hc' : c = e.2.2.2.cell e.2.2.1.pid := by rw [record] at hr; exact (Prod.mk.inj hr).2.symm
    subst hc'
    exact ho.complete e.1 _ h1 v ((hf.coherent e.1 _ h1 _ (mem_of_getElem? h2)).2.2.2 v hv)
  · intro i c hc
    obtain ⟨e, he, hr⟩ := h i c hc
    obtain ⟨h1, -, -⟩ := (mem_border T ht ho.cells e).1 he
    have hc' : c = e.2.2.2.cell e.2.2.1.pid := by rw [record] at hr; exact (Prod.mk.inj hr).2.symm
    subst hc'
    exact ho.pid e.1 e.2.2.1 h1
  · intro i c hc
    obtain ⟨e, he, hr⟩ := h i c hc
    have hc' : c = e.2.2.2.cell e.2.2.1.pid := by rw [record] at hr; exact (Prod.mk.inj hr).2.symm
    subst hc'
    rfl

theorem addFaces_eq {T : Topo} {o : Obj P} (ht : o.type ≠ 3) (ho : Good o) (hf : Faces T o) : ∀ (l : List (Nat × Nat × Cell × Face)),
    (∀ e ∈ l, e ∈ borderFaces T o) → ∀ t : Obj P, addCells (shell T o) (l.map fun e => T.num e.1 e.2.1) t = some (addFaces T l t) := by
  intro l
  induction l with
  | nil => intro _ t; rfl
  | cons e l ih =>
    intro hl t
    have he := hl e mem_cons_self
    have hg : get (shell T o).cells (T.num e.1 e.2.1) = some (e.2.2.2.cell e.2.2.1.pid) := by
      have : record T e ∈ (shell T o).cells := mem_map.2 ⟨e, he, rfl⟩
      exact get_of_mem (border_nodup T ho.cells hf) this
    obtain ⟨h1, h2, -⟩ := (mem_border T ht ho.cells e).1 he
    obtain ⟨h3, h4, -⟩ := hf.coherent e.1 _ h1 _ (mem_of_getElem? h2)
    rw [map_cons, addCells, hg, Option.bind_some, ih (fun e he => hl e (mem_cons_of_mem _ he)), addFaces]
    congr 2
    unfold addConnectedCell addCell
    rw [if_neg h3]
    by_cases hh : (some (T.num e.1 e.2.1)).any (fun i => has t.cells i) = true
    · rw [if_pos hh, if_pos hh]
    · rw [if_neg hh, if_neg hh, if_neg (by rw [h4]; simp)]
      rfl

theorem get_orphans (o : Obj P) (v : Nat) : get (deleteOrphans o).verts v = if (o.cells.any fun c => decide (v ∈ vertexIds c.2)) = true then get o.verts v else none :=
  get_filter (fun v => o.cells.any fun c => decide (v ∈ vertexIds c.2)) o.verts v

theorem update_tree {t r : Obj P} (h : NoTree t) (hu : update t = some r) : NoTree r := by
  have h1 : (stepInt (stepAdj t)).skd = t.skd := by
    rw [(keep_stepInt _).1]
    unfold stepAdj
    split
    · exact (keep_updateAdj t).1
    · rfl
  have h2 : stepSkd (stepInt (stepAdj t)) = some (stepInt (stepAdj t)) := by
    unfold stepSkd
    rw [h1]
    rcases h with h | h <;> simp [h]
  have h3 : update t = some (stepPC (stepBBox (stepInfo (stepKd (stepInt (stepAdj t)))))) := by
    unfold update; rw [h2]; rfl
  rw [hu] at h3
  have h4 : r = stepPC (stepBBox (stepInfo (stepKd (stepInt (stepAdj t))))) := Option.some.inj h3
  have k1 : ∀ u : Obj P, (stepKd u).skd = u.skd := by
    intro u; unfold stepKd buildKd cleanKd; (repeat' split) <;> rfl
  have k2 : ∀ u : Obj P, (stepInfo u).skd = u.skd := by
    intro u; unfold stepInfo buildInfo; split <;> rfl
  have k3 : ∀ u : Obj P, (stepBBox u).skd = u.skd := by
    intro u; unfold stepBBox; split <;> rfl
  have k4 : ∀ u : Obj P, (stepPC u).skd = u.skd := by
    intro u
    unfold stepPC buildPC
    split
    · simp only
      split
      · rfl
      · split <;> rfl
    · rfl
  unfold NoTree at h ⊢
  rw [h4, k4, k3, k2, k1, h1]
  exact h

theorem boundary_tree {T : Topo} {o : Obj P} (ht : o.type = 1 ∨ o.type = 2 ∨ o.type = 4) (ho : Good o) (hf : Faces T o) :
    ∃ r, boundaryMesh T o = some r ∧ BoundaryOf T o r ∧ NoTree r := by
  have h3 : o.type ≠ 3 := by omega
  have hk : 1 ≤ boundaryType o.type ∧ boundaryType o.type ≤ 4 := by rcases ht with h | h | h <;> simp [boundaryType, h]
  obtain ⟨t0, c1, c2, c3, c4, c5, c6, c7⟩ := ctor_spec (P := P) hk.1 hk.2
  have hbv : ∀ v, v ∈ borderVertices T o ↔ ∃ id k d f, Border T o id k d f ∧ v ∈ f.verts := by
    intro v
    unfold borderVertices
    rw [mem_distinct, mem_flatMap]
    constructor
    · rintro ⟨e, he, hv⟩
      exact ⟨_, _, _, _, (mem_border T h3 ho.cells e).1 he, hv⟩
    · rintro ⟨id, k, d, f, h, hv⟩
      exact ⟨(id, k, d, f), (mem_border T h3 ho.cells _).2 h, hv⟩
  have hvx : ∀ i ∈ borderVertices T o, has o.verts i = true := by
    intro i hi
    obtain ⟨id, k, d, f, h, hv⟩ := (hbv i).1 hi
    exact ho.complete id d h.1 i ((hf.coherent id d h.1 f (mem_of_getElem? h.2.1)).2.2.2 i hv)
  obtain ⟨t1, d1, d2, d3, d4, d5, d6, d7, d8, d9⟩ := addVerts_spec o (borderVertices T o) t0 hvx (by simp [c3, Ok]) (by intro v p; simp [c3, Field.get])
  have hp : Part (shell T o) t1 (fun _ => False) := by
    refine ⟨?_, by rw [d2]; simp [c4, Ok], ?_, ?_, ?_⟩
    · intro id c; rw [d2]; simp [c4, Field.get]
    · intro p; rw [d4]; simp [c5]
    · intro p; rw [d4]; simp [c5]
    · unfold NoTree at c7 ⊢; rw [d7]; exact c7
  have hin : ∀ i ∈ (borderFaces T o).map fun e => T.num e.1 e.2.1, has (shell T o).cells i = true := by
    intro i hi
    rw [has_iff]
    obtain ⟨e, he, rfl⟩ := mem_map.1 hi
    exact mem_map.2 ⟨record T e, mem_map.2 ⟨e, he, rfl⟩, rfl⟩
  obtain ⟨t2, e1, e2, e3, e4, e5⟩ := addCells_spec (shell T o) (shell_good h3 ho hf) _ t1 _ hin hp
  rw [addFaces_eq h3 ho hf _ (fun _ h => h)] at e1
  have e1 := Option.some.inj e1
  subst e1
  have hcell : ∀ i c, get (addFaces T (borderFaces T o) t1).cells i = some c ↔ ∃ id k d f, Border T o id k d f ∧ i = T.num id k ∧ c = f.cell d.pid := by
    intro i c
    rw [e5.cells]
    constructor
    · rintro ⟨-, h⟩
      obtain ⟨e, he, hr⟩ := mem_map.1 (get_some_mem h)
      obtain ⟨r1, r2⟩ := Prod.mk.inj hr
      exact ⟨_, _, _, _, (mem_border T h3 ho.cells e).1 he, r1.symm, r2.symm⟩
    · rintro ⟨id, k, d, f, h, rfl, rfl⟩
      have he := (mem_border T h3 ho.cells (id, k, d, f)).2 h
      refine ⟨Or.inr (mem_map.2 ⟨_, he, rfl⟩), ?_⟩
      exact get_of_mem (e := record T (id, k, d, f)) (border_nodup T ho.cells hf) (mem_map.2 ⟨_, he, rfl⟩)
  have hno : NoTree (deleteOrphans (addFaces T (borderFaces T o) t1)) := e5.notree
  obtain ⟨r, u1, u2, u3⟩ := update_noTree hno
  refine ⟨r, ?_, ⟨?_, ?_, ?_, ?_, ?_⟩, update_tree hno u1⟩
  · unfold boundaryMesh
    rw [c1, Option.bind_some, d1, Option.bind_some]
    exact u1
  · rw [u2.type]
    show (addFaces T (borderFaces T o) t1).type = _
    rw [e3, d3, c2]
  · rw [u2.cells]
    exact hcell
  · intro v p
    rw [u2.verts, get_orphans]
    have hany : (((addFaces T (borderFaces T o) t1).cells.any fun c => decide (v ∈ vertexIds c.2)) = true) ↔ ∃ id k d f, Border T o id k d f ∧ v ∈ f.verts := by
      rw [any_eq_true]
      constructor
      · rintro ⟨c, hc, hv⟩
        obtain ⟨id, k, d, f, h, -, h2⟩ := (hcell c.1 c.2).1 (get_of_mem e5.once hc)
        rw [h2] at hv
        exact ⟨id, k, d, f, h, of_decide_eq_true hv⟩
      · rintro ⟨id, k, d, f, h, hv⟩
        exact ⟨_, get_some_mem ((hcell _ _).2 ⟨id, k, d, f, h, rfl, rfl⟩), decide_eq_true hv⟩
    by_cases hb : ∃ id k d f, Border T o id k d f ∧ v ∈ f.verts
    · rw [if_pos (hany.2 hb), e2, d9]
      exact ⟨fun h => ⟨hb, h.1⟩, fun h => ⟨h.2, Or.inl ((hbv v).2 hb)⟩⟩
    · rw [if_neg (fun h => hb (hany.1 h))]
      exact ⟨fun h => absurd h (by simp), fun h => absurd h.1 hb⟩
  · intro p
    rw [u2.pids]
    show p ∈ (addFaces T (borderFaces T o) t1).pids ↔ _
    rw [e5.pids]
    constructor
    · rintro ⟨i, c, hi, hc, rfl⟩
      obtain ⟨id, k, d, f, h, -, rfl⟩ := (hcell i c).1 ((e5.cells i c).2 ⟨hi, hc⟩)
      exact ⟨id, k, d, f, h, rfl⟩
    · rintro ⟨id, k, d, f, h, rfl⟩
      obtain ⟨h1, h2⟩ := (e5.cells _ _).1 ((hcell _ _).2 ⟨id, k, d, f, h, rfl, rfl⟩)
      exact ⟨_, _, h1, h2, rfl⟩
  · rw [u2.verts, u2.cells]
    refine ⟨?_, e5.once⟩
    have : Ok (addFaces T (borderFaces T o) t1).verts := by rw [e2]; exact d8
    exact this.sublist (filter_sublist.map _)

/-- **C180.** The boundary mesh of a surface, volume or curve: one cell, with the id of its interface and the PID of its owner, for each face that belongs to a
single cell, on exactly the vertices of these faces, with their ids and coordinates; the PIDs are those of the owners. The
boundary of a volume is a surface, that of a surface is a curve, that of a curve is a point cloud. -/
theorem C180_boundary {T : Topo} {o : Obj P} (ht : o.type = 1 ∨ o.type = 2 ∨ o.type = 4) (ho : Good o) (hf : Faces T o) :
    ∃ r, boundaryMesh T o = some r ∧ BoundaryOf T o r ∧ (o.type = 2 ∧ r.type = 1 ∨ o.type = 1 ∧ r.type = 4 ∨ o.type = 4 ∧ r.type = 3) := by
  obtain ⟨r, h1, h2, -⟩ := boundary_tree ht ho hf
  refine ⟨r, h1, h2, ?_⟩
  rw [h2.type]
  rcases ht with h | h | h <;> simp [boundaryType, h]

/-- **C180.** Border cells and vertices are those of border faces, each listed once; point clouds have none. -/
theorem C180_lists {T : Topo} {o : Obj P} (ho : Ok o.cells) :
    (o.type ≠ 3 → (∀ id, id ∈ borderCells T o ↔ ∃ k d f, Border T o id k d f) ∧ ∀ v, v ∈ borderVertices T o ↔ ∃ id k d f, Border T o id k d f ∧ v ∈ f.verts) ∧
    (borderCells T o).Nodup ∧ (borderVertices T o).Nodup ∧ (o.type = 3 → borderCells T o = [] ∧ borderVertices T o = []) := by
  refine ⟨fun h3 => ⟨?_, ?_⟩, nodup_distinct _, nodup_distinct _, fun h => by simp [borderCells, borderVertices, borderFaces, h, distinct]⟩
  · intro id
    unfold borderCells
    rw [mem_distinct, mem_map]
    constructor
    · rintro ⟨e, he, rfl⟩
      exact ⟨_, _, _, (mem_border T h3 ho e).1 he⟩
    · rintro ⟨k, d, f, h⟩
      exact ⟨(id, k, d, f), (mem_border T h3 ho _).2 h, rfl⟩
  · intro v
    unfold borderVertices
    rw [mem_distinct, mem_flatMap]
    constructor
    · rintro ⟨e, he, hv⟩
      exact ⟨_, _, _, _, (mem_border T h3 ho e).1 he, hv⟩
    · rintro ⟨id, k, d, f, h, hv⟩
      exact ⟨(id, k, d, f), (mem_border T h3 ho _).2 h, hv⟩

/-- **C180.** A mesh without border faces, such as a closed surface, has an empty boundary mesh. -/
theorem C180_closed {T : Topo} {o r : Obj P} (h : BoundaryOf T o r) (hc : ∀ id k d f, ¬ Border T o id k d f) : r.cells = [] ∧ r.verts = [] ∧ r.pids = [] := by
  refine ⟨?_, ?_, ?_⟩
  · rw [eq_nil_iff_forall_not_mem]
    intro c hm
    obtain ⟨id, k, d, f, hb, -⟩ := (h.cells c.1 c.2).1 (get_of_mem h.once.2 hm)
    exact hc id k d f hb
  · rw [eq_nil_iff_forall_not_mem]
    intro v hm
    obtain ⟨⟨id, k, d, f, hb, -⟩, -⟩ := (h.verts v.1 v.2).1 (get_of_mem h.once.1 hm)
    exact hc id k d f hb
  · rw [eq_nil_iff_forall_not_mem]
    intro p hm
    obtain ⟨id, k, d, f, hb, -⟩ := (h.pids p).1 hm
    exact hc id k d f hb

/-! ### Two quadrilaterals -/

/-- faces of polygons: their edges; a numbering of interfaces -/
def planar : Topo where
  faces := fun c => (range c.conn.length).map fun k => ⟨.line, [c.conn.getD k 0, c.conn.getD ((k + 1) % c.conn.length) 0]⟩
  num := fun id k => Nat.pair id k

def blank (type : Nat) (verts : Data Int) (cells : Data Cell) (pids : List Int) : Obj Int :=
  { type := type, verts := verts, cells := cells, pids := pids, names := pids.map fun p => (p, ""), tree := true
    kd := ⟨.none, none⟩, skd := ⟨.none, none⟩, adj := ⟨.none, none⟩, int := ⟨.none, none⟩
    info := ⟨.none, none⟩, bbox := ⟨.none, none⟩, pc := ⟨.none, none⟩ }

/-- quadrilaterals 0 1 4 3 and 1 2 5 4 side by side, of PIDs 5 and 6 -/
def pair : Obj Int := blank 1 [(0, 0), (1, 1), (2, 2), (3, 3), (4, 4), (5, 5)] [(0, ⟨.quad, [0, 1, 4, 3], 5, true⟩), (1, ⟨.quad, [1, 2, 5, 4], 6, true⟩)] [5, 6]

theorem good_of {o : Obj Int} (hv : Ok o.verts) (hc : Ok o.cells) (h1 : ∀ c ∈ o.cells, ∀ v ∈ vertexIds c.2, has o.verts v = true)
    (h2 : ∀ c ∈ o.cells, -2147483648 ≤ c.2.pid ∧ c.2.pid < 2147483648) (h3 : ∀ c ∈ o.cells, c.2.interior = true) : Good o :=
  ⟨hv, hc, fun id c h => h1 (id, c) (get_some_mem h), fun id c h => h2 (id, c) (get_some_mem h), fun id c h => h3 (id, c) (get_some_mem h)⟩

theorem faces_of {o : Obj Int} (h : ∀ c ∈ o.cells, ∀ f ∈ planar.faces c.2, f.conn ≠ [] ∧ checkConn f.elem (f.conn.map Int.ofNat) = true ∧ f.verts ≠ [] ∧ ∀ v ∈ f.verts, v ∈ vertexIds c.2) :
    Faces planar o :=
  ⟨fun id d hd => h (id, d) (get_some_mem hd), fun _ _ _ _ h => Nat.pair_eq_pair.1 h⟩

theorem pair_good : Good pair := good_of (by unfold Ok; decide) (by unfold Ok; decide) (by decide) (by decide) (by decide)

theorem pair_faces : Faces planar pair := faces_of (by decide)

example : Good pair ∧ Faces planar pair ∧ (pair.type = 1 ∨ pair.type = 2 ∨ pair.type = 4) ∧
    (boundaryMesh planar pair).map (fun r => (r.type, r.verts.length, r.cells.length, r.pids)) = some (4, 6, 6, [5, 6]) ∧
    borderCells planar pair = [0, 1] ∧ borderVertices planar pair = [0, 1, 4, 3, 2, 5] :=
  ⟨pair_good, pair_faces, by decide, by decide, by decide, by decide⟩

/-- a closed curve of two lines: no border vertex -/
def ring : Obj Int := blank 4 [(0, 0), (1, 1)] [(0, ⟨.line, [0, 1], 0, true⟩), (1, ⟨.line, [1, 0], 0, true⟩)] [0]

def ends : Topo where
  faces := fun c => c.conn.map fun v => ⟨.vertex, [v]⟩
  num := fun id k => Nat.pair id k

example : ∀ id k d f, ¬ Border ends ring id k d f := by
  intro id k d f h
  have := (mem_border ends (o := ring) (by decide) (by unfold Ok; decide) (id, k, d, f)).2 h
  have he : borderFaces ends ring = [] := by decide
  rw [he] at this
  cases this

end Verif.FvSel
