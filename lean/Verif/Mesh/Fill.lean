import Verif.Mesh.SyncProps
/-
Filling of a new mesh: vertices and cells with given ids, as the blocks that create a mesh do
(src/utils/ProjSegmentOnSurface.cpp:278-300, src/iogeneric/CreatePointCloud.cpp, src/iogeneric/Create3DCurve.cpp, …).
-/
namespace Verif.Mesh
open Verif.Field
open List hiding get get_of_mem

variable {P : Type}

/-- `addVertex` for each vertex, with its id -/
def fillVerts (o : Obj P) (vs : Data P) : Obj P := vs.foldl (fun o e => (addVertex o 0 e.2 (some e.1)).1) o

/-- `addConnectedCell` for each cell, with its id -/
def fillCells (o : Obj P) (cs : Data Cell) : Obj P :=
  cs.foldl (fun o e => (addConnectedCell o 0 e.2.conn e.2.elem e.2.pid (some e.1)).1) o

/-- a cell that is accepted and kept as it is -/
structure Fillable (c : Cell) : Prop where
  conn : c.conn ≠ []
  check : checkConn c.elem (c.conn.map Int.ofNat) = true
  pid : toInt32 c.pid = c.pid
  interior : c.interior = true

theorem has_false_of {α : Type} {d : Data α} {i : Nat} (h : i ∉ d.map Prod.fst) : has d i = false := by
  cases e : has d i with
  | false => rfl
  | true => exact absurd ((has_iff d i).1 e) h

theorem fillVerts_spec : ∀ (vs : Data P) (o : Obj P), Ok (o.verts ++ vs) → Fresh o → TreeOk o →
    (fillVerts o vs).verts = o.verts ++ vs ∧ (fillVerts o vs).cells = o.cells ∧ (fillVerts o vs).type = o.type ∧
    (fillVerts o vs).pids = o.pids ∧ (fillVerts o vs).names = o.names ∧ (fillVerts o vs).tol = o.tol ∧
    Fresh (fillVerts o vs) ∧ TreeOk (fillVerts o vs)
  | [], o, _, hf, ht => by simp [fillVerts, hf, ht]
  | e :: vs, o, hok, hf, ht => by
    have h0 : has o.verts e.1 = false := by
      apply has_false_of
      unfold Ok at hok
      simp only [map_append, map_cons, nodup_append, nodup_cons] at hok
      intro hm
      exact hok.2.2 _ hm _ mem_cons_self rfl
    have ha : addVertex o 0 e.2 (some e.1) = addVertex.put o e.2 e.1 := by simp [addVertex, h0]
    have hf' : Fresh (addVertex.put o e.2 e.1).1 := by
      have := fresh_addVertex hf e.1 e.2 (some e.1) h0
      have hb : addVertex o e.1 e.2 (some e.1) = addVertex.put o e.2 e.1 := by simp [addVertex, h0]
      rwa [hb] at this
    have ht' : TreeOk (addVertex.put o e.2 e.1).1 := treeOk_of ht rfl rfl Iff.rfl
    have := fillVerts_spec vs (addVertex.put o e.2 e.1).1 (by simpa [addVertex.put] using hok) hf' ht'
    have hs : fillVerts o (e :: vs) = fillVerts (addVertex.put o e.2 e.1).1 vs := by
      simp only [fillVerts, foldl_cons, ha]
    rw [hs]
    simpa [addVertex.put] using this

theorem fillCells_spec : ∀ (cs : Data Cell) (o : Obj P), Ok (o.cells ++ cs) → (∀ e ∈ cs, Fillable e.2) → Fresh o → TreeOk o →
    (fillCells o cs).cells = o.cells ++ cs ∧ (fillCells o cs).verts = o.verts ∧ (fillCells o cs).type = o.type ∧
    (fillCells o cs).pids = (cs.map fun e => e.2.pid).foldl insSet o.pids ∧ (fillCells o cs).tol = o.tol ∧
    Fresh (fillCells o cs) ∧ TreeOk (fillCells o cs)
  | [], o, _, _, hf, ht => by simp [fillCells, hf, ht]
  | e :: cs, o, hok, hc, hf, ht => by
    have h0 : has o.cells e.1 = false := by
      apply has_false_of
      unfold Ok at hok
      simp only [map_append, map_cons, nodup_append, nodup_cons] at hok
      intro hm
      exact hok.2.2 _ hm _ mem_cons_self rfl
    obtain ⟨c1, c2, c3, c4⟩ := hc e mem_cons_self
    have ha : (addConnectedCell o 0 e.2.conn e.2.elem e.2.pid (some e.1)).1 = putCell o e.2.elem e.2.conn e.2.pid e.1 := by
      simp [addConnectedCell, c1, h0, c2]
    have hcell : (putCell o e.2.elem e.2.conn e.2.pid e.1).cells = o.cells ++ [e] := by
      rw [putCell_cells h0, c3]
      have : (⟨e.2.elem, e.2.conn, e.2.pid, true⟩ : Cell) = e.2 := by rw [← c4]
      rw [this]
    have htr : (putCell o e.2.elem e.2.conn e.2.pid e.1).tree = o.tree := by
      simp only [putCell, setPIDCell, unsyncCell]; split <;> rfl
    have hsk : (putCell o e.2.elem e.2.conn e.2.pid e.1).skd.st = o.skd.st.cap := by
      simp only [putCell, setPIDCell, unsyncCell]; split <;> rfl
    have htol : (putCell o e.2.elem e.2.conn e.2.pid e.1).tol = o.tol := by
      simp only [putCell, setPIDCell, unsyncCell]; split <;> rfl
    have := fillCells_spec cs (putCell o e.2.elem e.2.conn e.2.pid e.1) (by rw [hcell]; simpa using hok)
      (fun x hx => hc x (mem_cons_of_mem _ hx)) (fresh_putCell hf ..)
      (treeOk_of ht (putCell_type ..) htr (by rw [hsk]; exact cap_notSupported _))
    have hs : fillCells o (e :: cs) = fillCells (putCell o e.2.elem e.2.conn e.2.pid e.1) cs := by
      simp only [fillCells, foldl_cons, ha]
    rw [hs]
    simpa [hcell, putCell_verts, putCell_type, putCell_pids, htol] using this

theorem treeOk_ctor {t : Int} {o : Obj P} (h : ctor t = some o) : TreeOk o := by
  unfold ctor at h
  simp only at h
  split at h
  · cases h
  · injection h with h
    subst h
    constructor
    · simp only
      split <;> simp_all
    · intro h3; simpa using h3

/-- a new mesh with vertices and cells that are complete: exactly they, everything derived up to date -/
theorem filled {t : Int} (h1 : 1 ≤ t) (h4 : t ≤ 4) {vs : Data P} {cs : Data Cell} (hv : Ok vs) (hc : Ok cs)
    (hf : ∀ e ∈ cs, Fillable e.2) (hm : ∀ e ∈ cs, ∀ v ∈ vertexIds e.2, v ∈ vs.map Prod.fst) :
    ∃ o r, ctor t = some o ∧ update (fillCells (fillVerts o vs) cs) = some r ∧ r.type = t.toNat ∧ r.verts = vs ∧ r.cells = cs ∧
      r.pids = distinct (cs.map fun e => e.2.pid) ∧ Fresh r ∧ TreeOk r ∧ complete r = true := by
  have hmax : max t 1 = t := by omega
  obtain ⟨o, ho⟩ : ∃ o : Obj P, ctor t = some o := by
    unfold ctor
    rw [hmax]
    simp only
    rw [if_neg (by omega)]
    exact ⟨_, rfl⟩
  have e : o.verts = [] ∧ o.cells = [] ∧ o.type = t.toNat ∧ o.pids = [] := by
    unfold ctor at ho
    rw [hmax] at ho
    simp only at ho
    rw [if_neg (by omega)] at ho
    injection ho with ho
    subst ho
    exact ⟨rfl, rfl, rfl, rfl⟩
  obtain ⟨e1, e2, e3, e4⟩ := e
  obtain ⟨v1, v2, v3, v4, -, -, v5, v6⟩ := fillVerts_spec vs o (by rw [e1]; exact hv) (fresh_ctor ho) (treeOk_ctor ho)
  obtain ⟨c1, c2, c3, c4, -, c5, c6⟩ := fillCells_spec cs (fillVerts o vs) (by rw [v2, e2]; exact hc) hf v5 v6
  have hcm : complete (fillCells (fillVerts o vs) cs) = true := by
    unfold complete
    rw [c1, v2, e2, c2, v1, e1]
    simp only [nil_append, all_eq_true]
    intro e he v hvv
    exact (has_iff _ _).2 (hm e he v hvv)
  obtain ⟨r, hr⟩ := update_succeeds c6 hcm
  have em := update_mesh hr
  have et := st_update hr
  refine ⟨o, r, ho, hr, ?_, ?_, ?_, ?_, fresh_update c5 hr, treeOk_of c6 et.type et.tree et.skd, ?_⟩
  · rw [em.type, c3, v3, e3]
  · rw [em.verts, c2, v1, e1]; rfl
  · rw [em.cells, c1, v2, e2]; rfl
  · rw [em.pids, c4, v4, e4]; rfl
  · unfold complete at hcm ⊢
    rw [em.cells, em.verts]; exact hcm

end Verif.Mesh
