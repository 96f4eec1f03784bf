import Verif.FvSel.BorderProps
/-
C181: bulk and boundary patches of a selection.  C182: the internal boundary.
-/
namespace Verif.FvSel
open Verif.Field Verif.Mesh Verif.Select
open List hiding get

variable {P σ : Type}

/-! ### Specification -/

/-- the cells of `b` in `S` all of whose vertices belong to `vol` -/
structure Trimmed (b vol r : Obj P) (S : Nat → Prop) : Prop where
  type : r.type = b.type
  cells : ∀ id c, get r.cells id = some c ↔ S id ∧ get b.cells id = some c ∧ ∀ v ∈ vertexIds c, has vol.verts v = true
  verts : ∀ v p, get r.verts v = some p ↔ (∃ id c, get r.cells id = some c ∧ v ∈ vertexIds c) ∧ get b.verts v = some p
  once : Ok r.verts ∧ Ok r.cells

/-- the border faces of `vol` that have a vertex outside `bnd` -/
structure Inner (T : Topo) (vol bnd r : Obj P) : Prop where
  type : r.type = boundaryType vol.type
  cells : ∀ i c, get r.cells i = some c ↔ ∃ id k d f, Border T vol id k d f ∧ i = T.num id k ∧ c = f.cell d.pid ∧ ∃ v ∈ f.verts, has bnd.verts v = false
  verts : ∀ v p, get r.verts v = some p ↔ (∃ i c, get r.cells i = some c ∧ v ∈ vertexIds c) ∧ get vol.verts v = some p
  once : Ok r.verts ∧ Ok r.cells

/-! ### Lemmas -/

theorem get_delete (o : Obj P) (l : List Nat) (i : Nat) : get (deleteCells o l).cells i = if l.contains i = true then none else get o.cells i := by
  have := get_filter (fun i => ! l.contains i) o.cells i
  rw [show (deleteCells o l).cells = o.cells.filter fun c => ! l.contains c.1 from rfl, this]
  cases l.contains i <;> simp

theorem unsync_mesh (o : Obj P) : (setUnsyncAll o).cells = o.cells ∧ (setUnsyncAll o).verts = o.verts ∧ (setUnsyncAll o).type = o.type ∧ (setUnsyncAll o).pids = o.pids :=
  ⟨rfl, rfl, rfl, rfl⟩

theorem unsync_tree {o : Obj P} (h : NoTree o) : NoTree (setUnsyncAll o) := by
  unfold NoTree at h ⊢
  rcases h with h | h <;> simp [setUnsyncAll, cleanPC, h, Status.cap]

/-- cells taken away, then vertices, then the update -/
theorem prune_spec {o : Obj P} (hn : NoTree o) (hv : Ok o.verts) (hc : Ok o.cells) (l : List Nat) :
    ∃ r, update (deleteOrphans (deleteCells (setUnsyncAll o) l)) = some r ∧ r.type = o.type ∧ r.pids = o.pids ∧ Ok r.verts ∧ Ok r.cells ∧ NoTree r ∧
      (∀ i c, get r.cells i = some c ↔ get o.cells i = some c ∧ i ∉ l) ∧
      ∀ v p, get r.verts v = some p ↔ (∃ i c, get r.cells i = some c ∧ v ∈ vertexIds c) ∧ get o.verts v = some p := by
  have hno : NoTree (deleteOrphans (deleteCells (setUnsyncAll o) l)) := unsync_tree hn
  obtain ⟨r, u1, u2, u3⟩ := update_noTree hno
  have hok : Ok (deleteCells (setUnsyncAll o) l).cells := hc.sublist (filter_sublist.map _)
  have hcell : ∀ i c, get r.cells i = some c ↔ get o.cells i = some c ∧ i ∉ l := by
    intro i c
    rw [u2.cells]
    show get (deleteCells (setUnsyncAll o) l).cells i = some c ↔ _
    rw [get_delete]
    by_cases h : i ∈ l <;> simp [h, (unsync_mesh o).1]
  refine ⟨r, u1, u2.type, u2.pids, ?_, ?_, update_tree hno u1, hcell, ?_⟩
  · rw [u2.verts]
    exact hv.sublist (filter_sublist.map _)
  · rw [u2.cells]
    exact hok
  · intro v p
    have hany : (((deleteCells (setUnsyncAll o) l).cells.any fun c => decide (v ∈ vertexIds c.2)) = true) ↔ ∃ i c, get r.cells i = some c ∧ v ∈ vertexIds c := by
      rw [any_eq_true, u2.cells]
      constructor
      · rintro ⟨c, hm, hvc⟩
        exact ⟨c.1, c.2, get_of_mem hok hm, of_decide_eq_true hvc⟩
      · rintro ⟨i, c, hg, hvc⟩
        exact ⟨(i, c), get_some_mem hg, decide_eq_true hvc⟩
    rw [u2.verts, get_orphans]
    by_cases hb : ∃ i c, get r.cells i = some c ∧ v ∈ vertexIds c
    · rw [if_pos (hany.2 hb)]
      exact ⟨fun h => ⟨hb, h⟩, fun h => h.2⟩
    · rw [if_neg fun h => hb (hany.1 h)]
      exact ⟨fun h => absurd h (by simp), fun h => absurd h.1 hb⟩

theorem sub_good {o r : Obj P} {S : Nat → Prop} (ho : Good o) (h : SubMesh o r S) : Good r := by
  refine ⟨h.once.1, h.once.2, ?_, ?_, ?_⟩
  · intro id c hc v hv
    obtain ⟨h1, h2⟩ := (h.cells id c).1 hc
    have := ho.complete id c h2 v hv
    rw [has_eq_isSome] at this ⊢
    obtain ⟨p, hp⟩ := Option.isSome_iff_exists.1 this
    rw [(h.verts v p).2 ⟨⟨id, c, h1, h2, hv⟩, hp⟩]
    rfl
  · exact fun id c hc => ho.pid id c ((h.cells id c).1 hc).2
  · exact fun id c hc => ho.interior id c ((h.cells id c).1 hc).2

theorem sub_faces {T : Topo} {o r : Obj P} {S : Nat → Prop} (hf : Faces T o) (h : SubMesh o r S) : Faces T r :=
  ⟨fun id d hd => hf.coherent id d ((h.cells id d).1 hd).2, hf.inj⟩

theorem cleanUp_spec {b vol bp : Obj P} {S : Nat → Prop} (hb : Good b) (h3 : b.type ≠ 3) (hne : ∀ id c, get b.cells id = some c → vertexIds c ≠ []) (h : SubMesh b bp S)
    (hn : NoTree bp) : ∃ r, cleanUp vol bp = some r ∧ Trimmed b vol r S ∧ NoTree r ∧ r.pids = bp.pids := by
  have hg := sub_good hb h
  have hsv : ∀ i, i ∈ cellFromVertices bp ((bp.verts.map Prod.fst).filter fun v => has vol.verts v) true ↔
      ∃ c, get bp.cells i = some c ∧ ∀ v ∈ vertexIds c, has vol.verts v = true := by
    intro i
    rw [(C37_cells bp (by rw [h.type]; exact h3) h.once.2 _).1]
    constructor
    · rintro ⟨c, hc, -, hv⟩
      exact ⟨c, hc, fun v hm => (mem_filter.1 (hv v hm)).2⟩
    · rintro ⟨c, hc, hv⟩
      refine ⟨c, hc, hne i c ((h.cells i c).1 hc).2, fun v hm => mem_filter.2 ⟨?_, hv v hm⟩⟩
      exact (has_iff _ _).1 (hg.complete i c hc v hm)
  have hdel : ∀ i, i ∈ ((cellIds bp).filter fun i => ! (cellFromVertices bp ((bp.verts.map Prod.fst).filter fun v => has vol.verts v) true).contains i) ↔
      ∃ c, get bp.cells i = some c ∧ ¬ ∀ v ∈ vertexIds c, has vol.verts v = true := by
    intro i
    rw [mem_filter]
    simp only [Bool.not_eq_true', contains_eq_mem, decide_eq_false_iff_not, hsv]
    constructor
    · rintro ⟨h1, h2⟩
      have : has bp.cells i = true := (has_iff _ _).2 h1
      rw [has_eq_isSome] at this
      obtain ⟨c, hc⟩ := Option.isSome_iff_exists.1 this
      exact ⟨c, hc, fun hv => h2 ⟨c, hc, hv⟩⟩
    · rintro ⟨c, hc, hv⟩
      refine ⟨mem_map.2 ⟨_, get_some_mem hc, rfl⟩, ?_⟩
      rintro ⟨c', hc', hv'⟩
      rw [hc] at hc'
      cases hc'
      exact hv hv'
  unfold cleanUp
  simp only
  by_cases he : ((cellIds bp).filter fun i => ! (cellFromVertices bp ((bp.verts.map Prod.fst).filter fun v => has vol.verts v) true).contains i) = []
  · rw [he] at hdel ⊢
    refine ⟨bp, rfl, ⟨h.type, ?_, ?_, h.once⟩, hn, rfl⟩
    · intro id c
      rw [h.cells]
      refine ⟨fun hc => ⟨hc.1, hc.2, ?_⟩, fun hc => ⟨hc.1, hc.2.1⟩⟩
      by_cases hv : ∀ v ∈ vertexIds c, has vol.verts v = true
      · exact hv
      · have := (hdel id).2 ⟨c, (h.cells id c).2 hc, hv⟩
        cases this
    · intro v p
      rw [h.verts]
      constructor
      · rintro ⟨⟨id, c, h1, h2, h3⟩, hp⟩
        exact ⟨⟨id, c, (h.cells id c).2 ⟨h1, h2⟩, h3⟩, hp⟩
      · rintro ⟨⟨id, c, h1, h2⟩, hp⟩
        obtain ⟨h3, h4⟩ := (h.cells id c).1 h1
        exact ⟨⟨id, c, h3, h4, h2⟩, hp⟩
  · rw [if_neg (by rw [List.isEmpty_iff]; exact he)]
    obtain ⟨r, r1, r2, r3, r4, r5, r6, r7, r8⟩ := prune_spec hn h.once.1 h.once.2
      ((cellIds bp).filter fun i => ! (cellFromVertices bp ((bp.verts.map Prod.fst).filter fun v => has vol.verts v) true).contains i)
    refine ⟨r, r1, ⟨r2.trans h.type, ?_, ?_, r4, r5⟩, r6, r3⟩
    · intro id c
      rw [r7, hdel, h.cells]
      constructor
      · rintro ⟨⟨h1, h2⟩, hv⟩
        refine ⟨h1, h2, ?_⟩
        by_cases hv' : ∀ v ∈ vertexIds c, has vol.verts v = true
        · exact hv'
        · exact absurd ⟨c, (h.cells id c).2 ⟨h1, h2⟩, hv'⟩ hv
      · rintro ⟨h1, h2, hv⟩
        refine ⟨⟨h1, h2⟩, ?_⟩
        rintro ⟨c', hc', hv'⟩
        obtain ⟨-, h3⟩ := (h.cells id c').1 hc'
        rw [h2] at h3
        cases h3
        exact hv' hv
    · intro v p
      rw [r8, h.verts]
      constructor
      · rintro ⟨h1, -, h2⟩
        exact ⟨h1, h2⟩
      · rintro ⟨⟨id, c, h1, h2⟩, hp⟩
        obtain ⟨h3, h4⟩ := (h.cells id c).1 ((r7 id c).1 h1).1
        exact ⟨⟨id, c, h1, h2⟩, ⟨id, c, h3, h4, h2⟩, hp⟩

theorem internal_spec {T : Topo} {vol bnd : Obj P} (ht : vol.type = 1 ∨ vol.type = 2) (hg : Good vol) (hf : Faces T vol) :
    ∃ r, internal T vol bnd = some r ∧ Inner T vol bnd r ∧ ∀ p, p ∈ r.pids ↔ ∃ id k d f, Border T vol id k d f ∧ d.pid = p := by
  obtain ⟨b, b1, b2, b3⟩ := boundary_tree (by omega) hg hf
  have hb3 : b.type ≠ 3 := by rw [b2.type]; rcases ht with h | h <;> simp [boundaryType, h]
  obtain ⟨r, r1, r2, r3, r4, r5, r6, r7, r8⟩ := prune_spec b3 b2.once.1 b2.once.2 (cellFromVertices b (bnd.verts.map Prod.fst) true)
  have hdel : ∀ i, i ∈ cellFromVertices b (bnd.verts.map Prod.fst) true ↔ ∃ c, get b.cells i = some c ∧ vertexIds c ≠ [] ∧ ∀ v ∈ vertexIds c, has bnd.verts v = true := by
    intro i
    rw [(C37_cells b hb3 b2.once.2 _).1]
    simp only [has_iff]
  refine ⟨r, ?_, ⟨r2.trans b2.type, ?_, ?_, r4, r5⟩, ?_⟩
  · unfold internal
    rw [b1]
    exact r1
  · intro i c
    rw [r7, hdel, b2.cells]
    constructor
    · rintro ⟨⟨id, k, d, f, h1, h2, h3⟩, hv⟩
      refine ⟨id, k, d, f, h1, h2, h3, ?_⟩
      by_cases hx : ∃ v ∈ f.verts, has bnd.verts v = false
      · exact hx
      · refine absurd ⟨c, (b2.cells i c).2 ⟨id, k, d, f, h1, h2, h3⟩, ?_, ?_⟩ hv
        · rw [h3]
          exact (hf.coherent id d h1.1 f (mem_of_getElem? h1.2.1)).2.2.1
        · intro v hm
          rw [h3] at hm
          cases hh : has bnd.verts v with
          | true => rfl
          | false => exact absurd ⟨v, hm, hh⟩ hx
    · rintro ⟨id, k, d, f, h1, h2, h3, v, hm, hx⟩
      refine ⟨⟨id, k, d, f, h1, h2, h3⟩, ?_⟩
      rintro ⟨c', hc', -, hv⟩
      rw [(b2.cells i c).2 ⟨id, k, d, f, h1, h2, h3⟩] at hc'
      cases hc'
      have := hv v (by rw [h3]; exact hm)
      rw [hx] at this
      cases this
  · intro v p
    rw [r8, b2.verts]
    constructor
    · rintro ⟨h1, -, h2⟩
      exact ⟨h1, h2⟩
    · rintro ⟨⟨i, c, h1, h2⟩, hp⟩
      obtain ⟨id, k, d, f, h3, -, h5⟩ := (b2.cells i c).1 ((r7 i c).1 h1).1
      exact ⟨⟨i, c, h1, h2⟩, ⟨id, k, d, f, h3, by rw [h5] at h2; exact h2⟩, hp⟩
  · intro p
    rw [r3]
    exact b2.pids p

/-! ### The block -/

/-- what is asked of the meshes and of the engine: a bulk and a boundary mesh in good order, of the topologies of the block, an engine that selects existing
cells, and no two vertices of the selected cells at nearly the same place -/
structure Linked (close : P → P → Prop) (clean : Obj P → Data P × Data Cell) (sel : σ → Bool → Obj P → List Nat) (T : Topo) (w : World P σ) (s : Fv P) (g b e : Nat) : Prop where
  geo : s.geo = some g
  bnd : s.bnd = some b
  engine : s.engine = some e
  types : ((w.obj g).type = 2 ∧ (w.obj b).type = 1) ∨ ((w.obj g).type = 1 ∧ (w.obj b).type = 4)
  bulk : Good (w.obj g)
  boundary : Good (w.obj b)
  faces : Faces T (w.obj g)
  nonempty : ∀ id c, get (w.obj b).cells id = some c → vertexIds c ≠ []
  clean : ∀ t, ∃ m, Cleaned close t.verts t.cells (clean t).1 (clean t).2 m
  exist : ∀ k ∈ [g, b], ∀ i ∈ sel (w.eng e).set (w.eng e).dual (w.obj k), has (w.obj k).cells i = true
  far : ∀ k ∈ [g, b], ∀ v v' p q, v ≠ v' → v ∈ vertexFromCells (w.obj k) (sel (w.eng e).set (w.eng e).dual (w.obj k)) →
    v' ∈ vertexFromCells (w.obj k) (sel (w.eng e).set (w.eng e).dual (w.obj k)) → get (w.obj k).verts v = some p → get (w.obj k).verts v' = some q → ¬ close p q

theorem run_spec {close : P → P → Prop} {clean : Obj P → Data P × Data Cell} {sel : σ → Bool → Obj P → List Nat} {e : Engine σ} {o : Obj P}
    (hclean : ∀ t, ∃ m, Cleaned close t.verts t.cells (clean t).1 (clean t).2 m) (ho : Good o) (ht : o.type = 1 ∨ o.type = 2 ∨ o.type = 4)
    (hex : ∀ i ∈ sel e.set e.dual o, has o.cells i = true)
    (hfar : ∀ v w p q, v ≠ w → v ∈ vertexFromCells o (sel e.set e.dual o) → w ∈ vertexFromCells o (sel e.set e.dual o) → get o.verts v = some p →
      get o.verts w = some q → ¬ close p q) : ∃ r, e.run clean sel o = some r ∧ SubMesh o r (· ∈ sel e.set e.dual o) ∧ NoTree r := by
  obtain ⟨r, h1, h2⟩ := C101_exact hclean ho ht _ hex hfar
  obtain ⟨t, b1, b2, b3⟩ := buildSub_spec ho ht _ hex
  obtain ⟨-, -, -, -, -, -, h7⟩ := cleanGeometry_spec t (clean t).1 (clean t).2 b3
  refine ⟨r, h1, h2, update_tree h7 ?_⟩
  rw [execute, b1] at h1
  exact h1

theorem execute_spec {close : P → P → Prop} {clean : Obj P → Data P × Data Cell} {sel : σ → Bool → Obj P → List Nat} {T : Topo} {w : World P σ} {s : Fv P} {g b e : Nat}
    (h : Linked close clean sel T w s g b e) : ∃ vol bp ip, s.execute clean sel T w = some ({ s with volPatch := some vol, bndPatch := some bp, intPatch := some ip },
      ! coherent T (w.obj g) (w.obj b)) ∧ SubMesh (w.obj g) vol (· ∈ sel (w.eng e).set (w.eng e).dual (w.obj g)) ∧
      Trimmed (w.obj b) vol bp (· ∈ sel (w.eng e).set (w.eng e).dual (w.obj b)) ∧ Inner T vol bp ip ∧
      (∀ p, p ∈ ip.pids ↔ ∃ id k d f, Border T vol id k d f ∧ d.pid = p) ∧
      ∀ p, p ∈ bp.pids ↔ ∃ id c, id ∈ sel (w.eng e).set (w.eng e).dual (w.obj b) ∧ get (w.obj b).cells id = some c ∧ c.pid = p := by
  have ht := h.types
  obtain ⟨vol, v1, v2, v3⟩ := run_spec (e := w.eng e) h.clean h.bulk (by omega) (h.exist g (by simp)) (h.far g (by simp))
  obtain ⟨bp, p1, p2, p3⟩ := run_spec (e := w.eng e) h.clean h.boundary (by omega) (h.exist b (by simp)) (h.far b (by simp))
  obtain ⟨bq, q1, q2, q3, q4⟩ := cleanUp_spec (vol := vol) h.boundary (by omega) h.nonempty p2 p3
  obtain ⟨ip, i1, i2, i3⟩ := internal_spec (bnd := bq) (by rw [v2.type]; omega) (sub_good h.bulk v2) (sub_faces h.faces v2)
  refine ⟨vol, bq, ip, ?_, v2, q2, i2, i3, ?_⟩
  · unfold Fv.execute
    rw [h.geo, h.bnd, h.engine]
    simp only
    rw [v1, Option.bind_some, p1, Option.bind_some, q1, Option.bind_some, i1]
    rfl
  · rw [q4]
    exact p2.pids

/-- **C181.** The bulk patch is exactly the part of the bulk mesh that the engine selects; the boundary patch consists of exactly the cells that the engine selects
in the boundary mesh and whose vertices all belong to the bulk patch, on exactly their vertices, with ids and coordinates of the boundary mesh. -/
theorem C181_patches {close : P → P → Prop} {clean : Obj P → Data P × Data Cell} {sel : σ → Bool → Obj P → List Nat} {T : Topo} {w : World P σ} {s : Fv P} {g b e : Nat}
    (h : Linked close clean sel T w s g b e) : ∃ r warn vol bp, s.execute clean sel T w = some (r, warn) ∧ r.volPatch = some vol ∧ r.bndPatch = some bp ∧
      SubMesh (w.obj g) vol (· ∈ sel (w.eng e).set (w.eng e).dual (w.obj g)) ∧ Trimmed (w.obj b) vol bp (· ∈ sel (w.eng e).set (w.eng e).dual (w.obj b)) ∧
      (∀ v, has bp.verts v = true → has vol.verts v = true) := by
  obtain ⟨vol, bp, ip, h1, h2, h3, -⟩ := execute_spec h
  refine ⟨_, _, vol, bp, h1, rfl, rfl, h2, h3, ?_⟩
  intro v hv
  rw [has_eq_isSome] at hv
  obtain ⟨p, hp⟩ := Option.isSome_iff_exists.1 hv
  obtain ⟨⟨id, c, hc, hm⟩, -⟩ := (h3.verts v p).1 hp
  exact ((h3.cells id c).1 hc).2.2 v hm

/-- **C181.** Without bulk, boundary or engine an exception is thrown. -/
theorem C181_missing {clean : Obj P → Data P × Data Cell} {sel : σ → Bool → Obj P → List Nat} {T : Topo} {w : World P σ} {s : Fv P}
    (h : s.geo = none ∨ s.bnd = none ∨ s.engine = none) : s.execute clean sel T w = none := by
  unfold Fv.execute
  rcases h with h | h | h
  · rw [h]
  · cases hg : s.geo <;> rw [h]
  · cases hg : s.geo <;> cases hb : s.bnd <;> rw [h]

/-- **C181.** There is a warning unless bulk and boundary are both empty or both not, and every vertex of the boundary is on the border of the bulk. -/
theorem C181_warning {close : P → P → Prop} {clean : Obj P → Data P × Data Cell} {sel : σ → Bool → Obj P → List Nat} {T : Topo} {w : World P σ} {s : Fv P} {g b e : Nat}
    (h : Linked close clean sel T w s g b e) : ∃ r warn, s.execute clean sel T w = some (r, warn) ∧
      (warn = false ↔ (((w.obj g).verts = [] ∨ (w.obj g).cells = []) ↔ ((w.obj b).verts = [] ∨ (w.obj b).cells = [])) ∧
        ∀ v p, get (w.obj b).verts v = some p → ∃ id k d f, Border T (w.obj g) id k d f ∧ v ∈ f.verts) := by
  obtain ⟨vol, bp, ip, h1, -⟩ := execute_spec h
  refine ⟨_, _, h1, ?_⟩
  have h3 : (w.obj g).type ≠ 3 := by rcases h.types with ⟨h, -⟩ | ⟨h, -⟩ <;> omega
  have hl := ((C180_lists (T := T) (o := w.obj g) h.bulk.cells).1 h3).2
  rw [Bool.not_eq_false']
  unfold coherent
  have he : ∀ o : Obj P, ((o.verts.isEmpty || o.cells.isEmpty) = true) ↔ (o.verts = [] ∨ o.cells = []) := by
    intro o
    rw [Bool.or_eq_true, List.isEmpty_iff, List.isEmpty_iff]
  have hv : ((w.obj b).verts.map Prod.fst).all (fun v => decide (v ∈ borderVertices T (w.obj g))) = true ↔
      ∀ v p, get (w.obj b).verts v = some p → ∃ id k d f, Border T (w.obj g) id k d f ∧ v ∈ f.verts := by
    rw [all_eq_true]
    constructor
    · intro ha v p hp
      exact (hl v).1 (of_decide_eq_true (ha v (mem_map.2 ⟨(v, p), get_some_mem hp, rfl⟩)))
    · intro ha v hm
      obtain ⟨e, he, rfl⟩ := mem_map.1 hm
      exact decide_eq_true ((hl _).2 (ha e.1 e.2 (get_of_mem h.boundary.verts he)))
  have hee : ((w.obj g).verts.isEmpty || (w.obj g).cells.isEmpty) = ((w.obj b).verts.isEmpty || (w.obj b).cells.isEmpty) ↔
      (((w.obj g).verts = [] ∨ (w.obj g).cells = []) ↔ ((w.obj b).verts = [] ∨ (w.obj b).cells = [])) := by
    rw [← he, ← he, Bool.eq_iff_iff]
  by_cases hc : ((w.obj g).verts.isEmpty || (w.obj g).cells.isEmpty) = ((w.obj b).verts.isEmpty || (w.obj b).cells.isEmpty)
  · simp only [hc, ne_eq, not_true_eq_false, if_false]
    exact ⟨fun h => ⟨hee.1 hc, hv.1 h⟩, fun h => hv.2 h.2⟩
  · simp only [ne_eq, hc, not_false_eq_true, if_true]
    exact ⟨fun h => absurd h (by decide), fun h => absurd (hee.2 h.1) hc⟩

/-- **C181.** A face on the border of the bulk mesh is on the border of the bulk patch as soon as its cell is selected. -/
theorem C181_border {T : Topo} {o vol : Obj P} {S : Nat → Prop} (h : SubMesh o vol S) {id k : Nat} {d : Cell} {f : Face} (hb : Border T o id k d f) (hs : S id) :
    Border T vol id k d f := by
  refine ⟨(h.cells id d).2 ⟨hs, hb.1⟩, hb.2.1, ?_⟩
  intro id' d' g' hd
  exact hb.2.2 id' d' g' ((h.cells id' d').1 hd).2

/-- **C182.** The internal boundary consists of exactly the border faces of the bulk patch that have a vertex outside the boundary patch, each with the id of its
interface and the PID of its cell, on exactly their vertices. -/
theorem C182_internal {close : P → P → Prop} {clean : Obj P → Data P × Data Cell} {sel : σ → Bool → Obj P → List Nat} {T : Topo} {w : World P σ} {s : Fv P} {g b e : Nat}
    (h : Linked close clean sel T w s g b e) : ∃ r warn vol bp ip, s.execute clean sel T w = some (r, warn) ∧ r.volPatch = some vol ∧ r.bndPatch = some bp ∧
      r.intPatch = some ip ∧ Inner T vol bp ip := by
  obtain ⟨vol, bp, ip, h1, -, -, h2, -⟩ := execute_spec h
  exact ⟨_, _, vol, bp, ip, h1, rfl, rfl, rfl, h2⟩

/-- **C182.** No cell of the internal boundary has the vertices of a cell of the boundary patch. -/
theorem C182_disjoint {T : Topo} {b vol bp ip : Obj P} {S : Nat → Prop} (hb : Good b) (h1 : Trimmed b vol bp S) (h2 : Inner T vol bp ip) {i j : Nat} {c d : Cell}
    (hc : get ip.cells i = some c) (hd : get bp.cells j = some d) : ¬ ∀ v, v ∈ vertexIds c ↔ v ∈ vertexIds d := by
  intro hs
  obtain ⟨id, k, d', f, -, -, rfl, v, hv, hx⟩ := (h2.cells i c).1 hc
  have hm := (hs v).1 hv
  obtain ⟨-, h4, -⟩ := (h1.cells j d).1 hd
  have := hb.complete j d h4 v hm
  rw [has_eq_isSome] at this
  obtain ⟨p, hp⟩ := Option.isSome_iff_exists.1 this
  have := (h1.verts v p).2 ⟨⟨j, d, hd, hm⟩, hp⟩
  rw [has_eq_isSome, this] at hx
  cases hx

/-- **C182.** Partially: where a border face of the bulk patch with all its vertices in the boundary patch is a cell of the boundary patch, the internal boundary
consists of exactly the border faces that are not in the boundary patch. -/
theorem C182_exact_partial {T : Topo} {b vol bp ip : Obj P} {S : Nat → Prop} (hb : Good b) (h1 : Trimmed b vol bp S) (h2 : Inner T vol bp ip)
    (hfull : ∀ id k d f, Border T vol id k d f → (∀ v ∈ f.verts, has bp.verts v = true) → ∃ j c, get bp.cells j = some c ∧ ∀ v, v ∈ f.verts ↔ v ∈ vertexIds c)
    (i : Nat) (c : Cell) : get ip.cells i = some c ↔ ∃ id k d f, Border T vol id k d f ∧ i = T.num id k ∧ c = f.cell d.pid ∧
      ¬ ∃ j c', get bp.cells j = some c' ∧ ∀ v, v ∈ f.verts ↔ v ∈ vertexIds c' := by
  constructor
  · intro hc
    obtain ⟨id, k, d, f, a1, a2, a3, a4⟩ := (h2.cells i c).1 hc
    refine ⟨id, k, d, f, a1, a2, a3, ?_⟩
    rintro ⟨j, c', hj, hs⟩
    exact C182_disjoint hb h1 h2 hc hj (by rw [a3]; exact hs)
  · rintro ⟨id, k, d, f, a1, a2, a3, a4⟩
    refine (h2.cells i c).2 ⟨id, k, d, f, a1, a2, a3, ?_⟩
    by_cases hx : ∃ v ∈ f.verts, has bp.verts v = false
    · exact hx
    · refine absurd (hfull id k d f a1 fun v hm => ?_) a4
      cases hh : has bp.verts v with
      | true => rfl
      | false => exact absurd ⟨v, hm, hh⟩ hx

/-- an engine that selects the cells that lie in a region, as the ones with shapes do -/
def byRegion (R : Nat → Bool) (dual : Bool) (o : Obj P) : List Nat := (o.cells.filter fun c => ((vertexIds c.2).all R) != dual).map Prod.fst

/-- **C182.** With a region, and without the option of the complement, no face of the border of the bulk mesh gets into the internal boundary, when each of these
faces is a cell of the boundary mesh. -/
theorem C182_region {T : Topo} {o b vol bp ip : Obj P} {R : Nat → Bool} (ho : Good o) (hb : Good b) (hf : Faces T o)
    (hcover : ∀ id k d f, Border T o id k d f → ∃ j c, get b.cells j = some c ∧ ∀ v, v ∈ f.verts ↔ v ∈ vertexIds c)
    (h0 : SubMesh o vol (· ∈ byRegion R false o)) (h1 : Trimmed b vol bp (· ∈ byRegion R false b)) (h2 : Inner T vol bp ip) {i : Nat} {c : Cell}
    (hc : get ip.cells i = some c) : ¬ ∃ id k d f, Border T o id k d f ∧ ∀ v, v ∈ f.verts ↔ v ∈ vertexIds c := by
  rintro ⟨id, k, d, f, hbo, hs⟩
  obtain ⟨j, c', hj, hs'⟩ := hcover id k d f hbo
  obtain ⟨id2, k2, d2, f2, a1, a2, rfl, v, hv, hx⟩ := (h2.cells i c).1 hc
  obtain ⟨b1, b2⟩ := (h0.cells id2 d2).1 a1.1
  have hR : ∀ v ∈ vertexIds d2, R v = true := by
    obtain ⟨x, hx, hxe⟩ := mem_map.1 b1
    obtain ⟨hxm, hxr⟩ := mem_filter.1 hx
    have hxg := get_of_mem ho.cells hxm
    rw [hxe, b2] at hxg
    have hxd := Option.some.inj hxg
    rw [hxd]
    simpa using hxr
  have hsub : ∀ v ∈ vertexIds c', v ∈ vertexIds d2 := by
    intro v hv
    exact (hf.coherent id2 d2 b2 f2 (mem_of_getElem? a1.2.1)).2.2.2 v ((hs v).1 ((hs' v).2 hv))
  have hjb : get bp.cells j = some c' := by
    refine (h1.cells j c').2 ⟨?_, hj, ?_⟩
    · refine mem_map.2 ⟨(j, c'), mem_filter.2 ⟨get_some_mem hj, ?_⟩, rfl⟩
      simp only [bne_iff_ne, ne_eq, Bool.not_eq_false, all_eq_true]
      exact fun v hv => hR v (hsub v hv)
    · intro v hv
      exact (sub_good ho h0).complete id2 d2 a1.1 v (hsub v hv)
  exact C182_disjoint hb h1 h2 hc hjb fun v => (hs v).symm.trans (hs' v)

/-! ### Two quadrilaterals, and five triangles -/

/-- a line on two vertices -/
def seg (a b : Nat) (pid : Int) : Cell := ⟨.line, [a, b], pid, true⟩

/-- the border of `pair` -/
def pairEdges : Obj Int := blank 4 [(0, 0), (1, 1), (2, 2), (3, 3), (4, 4), (5, 5)]
  [(0, seg 0 1 5), (1, seg 1 2 6), (2, seg 2 5 6), (3, seg 5 4 6), (4, seg 4 3 5), (5, seg 3 0 5)] [5, 6]

/-- triangles 0 1 4, 2 3 5, 1 2 6, 1 6 4 and 2 5 6 -/
def fan : Obj Int := blank 1 [(0, 0), (1, 1), (2, 2), (3, 3), (4, 4), (5, 5), (6, 6)]
  [(0, ⟨.triangle, [0, 1, 4], 1, true⟩), (1, ⟨.triangle, [2, 3, 5], 1, true⟩), (2, ⟨.triangle, [1, 2, 6], 1, true⟩), (3, ⟨.triangle, [1, 6, 4], 1, true⟩),
   (4, ⟨.triangle, [2, 5, 6], 1, true⟩)] [1]

/-- the border of `fan` -/
def fanEdges : Obj Int := blank 4 [(0, 0), (1, 1), (2, 2), (3, 3), (4, 4), (5, 5), (6, 6)]
  [(0, seg 0 1 1), (1, seg 1 2 1), (2, seg 2 3 7), (3, seg 3 5 1), (4, seg 5 6 1), (5, seg 6 4 1), (6, seg 4 0 1)] [1, 7]

/-- a block on a bulk and a boundary mesh, with a region -/
def world (o b : Obj Int) (R : List Nat) (dual : Bool) : World Int (Nat → Bool) := ⟨fun i => if i = 0 then o else b, fun _ => ⟨R.contains, dual⟩⟩

def block : Fv Int := { topo := 2, geo := some 0, bnd := some 1, engine := some 0 }

/-- no coincident vertices -/
def keepAll (t : Obj Int) : Data Int × Data Cell := (t.verts, t.cells)

theorem keep_cleaned (t : Obj Int) : ∃ m, Cleaned (fun _ _ => False) t.verts t.cells (keepAll t).1 (keepAll t).2 m := by
  refine ⟨[], ?_, ?_, by simp⟩
  · simp [keepAll]
  · simp [keepAll, renumber_nil]

theorem linked_of {o b : Obj Int} (R : List Nat) (dual : Bool) (h1 : o.type = 1) (h2 : b.type = 4) (ho : Good o) (hb : Good b) (hf : Faces planar o)
    (hne : ∀ c ∈ b.cells, vertexIds c.2 ≠ []) : Linked (fun _ _ => False) keepAll byRegion planar (world o b R dual) block 0 1 0 := by
  refine ⟨rfl, rfl, rfl, Or.inr ⟨h1, h2⟩, ho, hb, hf, fun id c hc => hne (id, c) (get_some_mem hc), keep_cleaned, ?_, fun _ _ _ _ _ _ _ _ _ _ _ h => h⟩
  intro k _ i hi
  obtain ⟨c, hc, rfl⟩ := mem_map.1 hi
  exact (has_iff _ _).2 (mem_map.2 ⟨c, (mem_filter.1 hc).1, rfl⟩)

theorem pairEdges_good : Good pairEdges := good_of (by unfold Ok; decide) (by unfold Ok; decide) (by decide) (by decide) (by decide)
theorem fan_good : Good fan := good_of (by unfold Ok; decide) (by unfold Ok; decide) (by decide) (by decide) (by decide)
theorem fanEdges_good : Good fanEdges := good_of (by unfold Ok; decide) (by unfold Ok; decide) (by decide) (by decide) (by decide)
theorem fan_faces : Faces planar fan := faces_of (by decide)

theorem pair_linked (R : List Nat) (dual : Bool) : Linked (fun _ _ => False) keepAll byRegion planar (world pair pairEdges R dual) block 0 1 0 :=
  linked_of R dual rfl rfl pair_good pairEdges_good pair_faces (by decide)

theorem fan_linked (R : List Nat) (dual : Bool) : Linked (fun _ _ => False) keepAll byRegion planar (world fan fanEdges R dual) block 0 1 0 :=
  linked_of R dual rfl rfl fan_good fanEdges_good fan_faces (by decide)

/-- ids of bulk, boundary and internal cells, and whether there was a warning -/
def summary (r : Option (Fv Int × Bool)) : Option (List Nat × List (List Nat) × List (List Nat) × Bool) :=
  r.bind fun r => r.1.volPatch.bind fun v => r.1.bndPatch.bind fun b => r.1.intPatch.map fun i => (cellIds v, b.cells.map (fun c => c.2.conn), i.cells.map (fun c => c.2.conn), r.2)

/-- four quadrilaterals around the vertex 4 -/
def square : Obj Int := blank 1 [(0, 0), (1, 1), (2, 2), (3, 3), (4, 4), (5, 5), (6, 6), (7, 7), (8, 8)]
  [(0, ⟨.quad, [0, 1, 4, 3], 5, true⟩), (1, ⟨.quad, [1, 2, 5, 4], 6, true⟩), (2, ⟨.quad, [3, 4, 7, 6], 5, true⟩), (3, ⟨.quad, [4, 5, 8, 7], 6, true⟩)] [5, 6]

/-- the border of `square` -/
def squareEdges : Obj Int := blank 4 [(0, 0), (1, 1), (2, 2), (3, 3), (5, 5), (6, 6), (7, 7), (8, 8)]
  [(0, seg 0 1 5), (1, seg 1 2 6), (2, seg 2 5 6), (3, seg 5 8 6), (4, seg 8 7 6), (5, seg 7 6 5), (6, seg 6 3 5), (7, seg 3 0 5)] [5, 6]

theorem square_good : Good square := good_of (by unfold Ok; decide) (by unfold Ok; decide) (by decide) (by decide) (by decide)
theorem squareEdges_good : Good squareEdges := good_of (by unfold Ok; decide) (by unfold Ok; decide) (by decide) (by decide) (by decide)
theorem square_faces : Faces planar square := faces_of (by decide)

theorem square_linked (R : List Nat) (dual : Bool) : Linked (fun _ _ => False) keepAll byRegion planar (world square squareEdges R dual) block 0 1 0 :=
  linked_of R dual rfl rfl square_good squareEdges_good square_faces (by decide)

example : Linked (fun _ _ => False) keepAll byRegion planar (world square squareEdges [0, 1, 3, 4, 6, 7] false) block 0 1 0 ∧
    summary (block.execute keepAll byRegion planar (world square squareEdges [0, 1, 3, 4, 6, 7] false)) =
      some ([0, 2], [[0, 1], [7, 6], [6, 3], [3, 0]], [[1, 4], [4, 7]], false) := ⟨square_linked _ _, by decide +kernel⟩

example : ∀ id k d f, Border planar square id k d f → ∃ j c, get squareEdges.cells j = some c ∧ ∀ v, v ∈ f.verts ↔ v ∈ vertexIds c := by
  intro id k d f h
  have hm := (mem_border planar (o := square) (by decide) square_good.cells (id, k, d, f)).2 h
  have key : ∀ e ∈ borderFaces planar square, ∃ c ∈ squareEdges.cells, sameVerts e.2.2.2.verts (vertexIds c.2) = true := by decide +kernel
  obtain ⟨c, hc, hs⟩ := key _ hm
  exact ⟨c.1, c.2, get_of_mem squareEdges_good.cells hc, (same_iff _ _).1 hs⟩

theorem summary_spec {s : Fv Int} {vol bp ip : Obj Int} {warn : Bool} {x : List Nat × List (List Nat) × List (List Nat) × Bool}
    (h : summary (some ({ s with volPatch := some vol, bndPatch := some bp, intPatch := some ip }, warn)) = some x) :
    x = (cellIds vol, bp.cells.map (fun c => c.2.conn), ip.cells.map (fun c => c.2.conn), warn) := (Option.some.inj h).symm

/-- **C181.** Violated: the boundary patch can have cells that are not faces of cells of the bulk patch, when their vertices belong to other selected cells. -/
theorem C181_outside_fails : ∃ (w : World Int (Nat → Bool)) (s : Fv Int) (vol bp : Obj Int), Linked (fun _ _ => False) keepAll byRegion planar w s 0 1 0 ∧
    coherent planar (w.obj 0) (w.obj 1) = true ∧ (∃ r, s.execute keepAll byRegion planar w = some (r, false) ∧ r.volPatch = some vol ∧ r.bndPatch = some bp) ∧
    ∃ j c, get bp.cells j = some c ∧ ∀ id d, get vol.cells id = some d → ∀ f ∈ planar.faces d, ¬ ∀ v, v ∈ f.verts ↔ v ∈ vertexIds c := by
  have hl := fan_linked [0, 1, 2, 3, 4, 5] false
  obtain ⟨vol, bp, ip, h1, h2, h3, -⟩ := execute_spec hl
  have hco : coherent planar ((world fan fanEdges [0, 1, 2, 3, 4, 5] false).obj 0) ((world fan fanEdges [0, 1, 2, 3, 4, 5] false).obj 1) = true := by decide +kernel
  rw [hco] at h1
  refine ⟨_, block, vol, bp, hl, hco, ⟨_, h1, rfl, rfl⟩, 1, seg 1 2 1, ?_, ?_⟩
  · refine (h3.cells 1 _).2 ⟨by decide +kernel, by decide, ?_⟩
    intro v hv
    have hs : ∀ v ∈ vertexIds (seg 1 2 1), ∃ c ∈ fan.cells, c.1 ∈ byRegion ([0, 1, 2, 3, 4, 5] : List Nat).contains false fan ∧ v ∈ vertexIds c.2 := by decide +kernel
    obtain ⟨c, hc, hi, hvc⟩ := hs v hv
    exact (sub_good fan_good h2).complete c.1 c.2 ((h2.cells _ _).2 ⟨hi, get_of_mem fan_good.cells hc⟩) v hvc
  · intro id d hd f hf hs
    obtain ⟨hi, hg⟩ := (h2.cells id d).1 hd
    have key : ∀ c ∈ fan.cells, c.1 ∈ byRegion ([0, 1, 2, 3, 4, 5] : List Nat).contains false fan → ∀ f ∈ planar.faces c.2, sameVerts f.verts (vertexIds (seg 1 2 1)) = false := by
      decide +kernel
    have := key (id, d) (get_some_mem hg) hi f hf
    rw [(same_iff _ _).2 hs] at this
    cases this

/-- **C181.** Violated: the boundary patch lists PIDs of cells that were taken away. -/
theorem C181_pids_fails : ∃ (w : World Int (Nat → Bool)) (s : Fv Int) (bp : Obj Int), Linked (fun _ _ => False) keepAll byRegion planar w s 0 1 0 ∧
    (∃ r, s.execute keepAll byRegion planar w = some (r, false) ∧ r.bndPatch = some bp) ∧ ∃ p ∈ bp.pids, ∀ j c, get bp.cells j = some c → c.pid ≠ p := by
  have hl := fan_linked [0, 1, 2, 3, 4] false
  obtain ⟨vol, bp, ip, h1, h2, h3, -, -, h5⟩ := execute_spec hl
  have hco : coherent planar ((world fan fanEdges [0, 1, 2, 3, 4] false).obj 0) ((world fan fanEdges [0, 1, 2, 3, 4] false).obj 1) = true := by decide +kernel
  rw [hco] at h1
  refine ⟨_, block, bp, hl, ⟨_, h1, rfl⟩, 7, (h5 7).2 ⟨2, seg 2 3 7, by decide +kernel, by decide, rfl⟩, ?_⟩
  intro j c hc hp
  obtain ⟨h6, h7, h8⟩ := (h3.cells j c).1 hc
  have key : ∀ c ∈ fanEdges.cells, c.2.pid = 7 → 3 ∈ vertexIds c.2 := by decide
  have h3v := h8 3 (key (j, c) (get_some_mem h7) hp)
  rw [has_eq_isSome] at h3v
  obtain ⟨p, hp⟩ := Option.isSome_iff_exists.1 h3v
  obtain ⟨⟨id, d, hi, hd, hm⟩, -⟩ := (h2.verts 3 p).1 hp
  have key2 : ∀ c ∈ fan.cells, c.1 ∈ byRegion ([0, 1, 2, 3, 4] : List Nat).contains false fan → 3 ∉ vertexIds c.2 := by decide +kernel
  exact key2 (id, d) (get_some_mem hd) hi hm

/-- **C182.** Violated: faces that the selection cuts are missing from the internal boundary when all their vertices are on the boundary patch, as on meshes of one
layer of cells. -/
theorem C182_strip_fails : ∃ (w : World Int (Nat → Bool)) (s : Fv Int) (vol bp ip : Obj Int), Linked (fun _ _ => False) keepAll byRegion planar w s 0 1 0 ∧
    (∃ r, s.execute keepAll byRegion planar w = some (r, false) ∧ r.volPatch = some vol ∧ r.bndPatch = some bp ∧ r.intPatch = some ip) ∧
    (∃ id k d f, Border planar vol id k d f ∧ ¬ ∃ j c, get bp.cells j = some c ∧ ∀ v, v ∈ f.verts ↔ v ∈ vertexIds c) ∧ ip.cells = [] := by
  have hl := pair_linked [0, 1, 3, 4] false
  obtain ⟨vol, bp, ip, h1, h2, h3, h4, -⟩ := execute_spec hl
  have hco : coherent planar ((world pair pairEdges [0, 1, 3, 4] false).obj 0) ((world pair pairEdges [0, 1, 3, 4] false).obj 1) = true := by decide +kernel
  rw [hco] at h1
  have hs : summary (block.execute keepAll byRegion planar (world pair pairEdges [0, 1, 3, 4] false)) = some ([0], [[0, 1], [4, 3], [3, 0]], [], false) := by decide +kernel
  rw [h1] at hs
  have hx := summary_spec hs
  refine ⟨_, block, vol, bp, ip, hl, ⟨_, h1, rfl, rfl, rfl⟩, ⟨0, 1, ⟨.quad, [0, 1, 4, 3], 5, true⟩, ⟨.line, [1, 4]⟩, ⟨?_, by decide, ?_⟩, ?_⟩, ?_⟩
  · exact (h2.cells 0 _).2 ⟨by decide +kernel, by decide⟩
  · intro id' d' g hd hne _
    obtain ⟨hi, -⟩ := (h2.cells id' d').1 hd
    have : id' ∈ [0] := by
      have he : byRegion ((world pair pairEdges [0, 1, 3, 4] false).eng 0).set ((world pair pairEdges [0, 1, 3, 4] false).eng 0).dual
        ((world pair pairEdges [0, 1, 3, 4] false).obj 0) = [0] := by decide +kernel
      rw [he] at hi
      exact hi
    exact absurd (mem_singleton.1 this) hne
  · rintro ⟨j, c, hc, hs⟩
    obtain ⟨-, hg, -⟩ := (h3.cells j c).1 hc
    have key : ∀ c ∈ pairEdges.cells, sameVerts [1, 4] (vertexIds c.2) = false := by decide
    exact absurd ((same_iff [1, 4] (vertexIds c)).2 hs) (by rw [key (j, c) (get_some_mem hg)]; decide)
  · have := (Prod.mk.inj (Prod.mk.inj (Prod.mk.inj hx).2).2).1
    simpa using this.symm

/-- **C182.** Violated with an engine for the complement of a region: faces of the border of the bulk mesh get into the internal boundary. -/
theorem C182_complement_fails : ∃ (w : World Int (Nat → Bool)) (s : Fv Int) (ip : Obj Int), Linked (fun _ _ => False) keepAll byRegion planar w s 0 1 0 ∧
    (∃ r, s.execute keepAll byRegion planar w = some (r, false) ∧ r.intPatch = some ip) ∧
    ∃ i c id k d f, get ip.cells i = some c ∧ Border planar (w.obj 0) id k d f ∧ ∀ v, v ∈ f.verts ↔ v ∈ vertexIds c := by
  have hl := pair_linked [0, 1, 2] true
  obtain ⟨vol, bp, ip, h1, h2, h3, h4, -⟩ := execute_spec hl
  have hco : coherent planar ((world pair pairEdges [0, 1, 2] true).obj 0) ((world pair pairEdges [0, 1, 2] true).obj 1) = true := by decide +kernel
  rw [hco] at h1
  have hb : Border planar pair 0 0 ⟨.quad, [0, 1, 4, 3], 5, true⟩ ⟨.line, [0, 1]⟩ :=
    (mem_border planar (o := pair) (by decide) pair_good.cells (0, 0, _, _)).1 (by decide +kernel)
  refine ⟨_, block, ip, hl, ⟨_, h1, rfl⟩, planar.num 0 0, _, 0, 0, _, _, (h4.cells _ _).2 ⟨0, 0, _, _, C181_border h2 hb (by decide +kernel), rfl, rfl, 1, by decide, ?_⟩,
    hb, fun v => Iff.rfl⟩
  cases hh : has bp.verts 1 with
  | false => rfl
  | true =>
    rw [has_eq_isSome] at hh
    obtain ⟨p, hp⟩ := Option.isSome_iff_exists.1 hh
    obtain ⟨⟨j, c, hc, hm⟩, -⟩ := (h3.verts 1 p).1 hp
    obtain ⟨hi, hg, -⟩ := (h3.cells j c).1 hc
    have key : ∀ c ∈ pairEdges.cells, c.1 ∈ byRegion ([0, 1, 2] : List Nat).contains true pairEdges → 1 ∉ vertexIds c.2 := by decide +kernel
    exact absurd hm (key (j, c) (get_some_mem hg) hi)

/-- **C182.** Violated: the internal boundary lists PIDs of faces that were taken away. -/
theorem C182_pids_fails : ∃ (w : World Int (Nat → Bool)) (s : Fv Int) (ip : Obj Int), Linked (fun _ _ => False) keepAll byRegion planar w s 0 1 0 ∧
    (∃ r, s.execute keepAll byRegion planar w = some (r, false) ∧ r.intPatch = some ip) ∧ ip.cells = [] ∧ ip.pids ≠ [] := by
  have hl := pair_linked [0, 1, 2, 3, 4, 5] false
  obtain ⟨vol, bp, ip, h1, h2, h3, h4, h5, -⟩ := execute_spec hl
  have hco : coherent planar ((world pair pairEdges [0, 1, 2, 3, 4, 5] false).obj 0) ((world pair pairEdges [0, 1, 2, 3, 4, 5] false).obj 1) = true := by decide +kernel
  rw [hco] at h1
  have hs : summary (block.execute keepAll byRegion planar (world pair pairEdges [0, 1, 2, 3, 4, 5] false)) =
    some ([0, 1], [[0, 1], [1, 2], [2, 5], [5, 4], [4, 3], [3, 0]], [], false) := by decide +kernel
  rw [h1] at hs
  have hx := summary_spec hs
  have hb : Border planar pair 0 0 ⟨.quad, [0, 1, 4, 3], 5, true⟩ ⟨.line, [0, 1]⟩ :=
    (mem_border planar (o := pair) (by decide) pair_good.cells (0, 0, _, _)).1 (by decide +kernel)
  refine ⟨_, block, ip, hl, ⟨_, h1, rfl⟩, ?_, ?_⟩
  · have := (Prod.mk.inj (Prod.mk.inj (Prod.mk.inj hx).2).2).1
    simpa using this.symm
  · have := (h5 5).2 ⟨0, 0, _, _, C181_border h2 hb (by decide +kernel), rfl⟩
    exact ne_nil_of_mem this

end Verif.FvSel
