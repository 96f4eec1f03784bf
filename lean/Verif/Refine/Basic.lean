import Verif.Refine.Model
import Verif.Mesh.Fill
import Verif.Mesh.TriProps
/-
Facts on the insertions of the refinement, and the notions its properties are stated with.
-/
namespace Verif.Refine
open Verif.Field Verif.Mesh
open List hiding get get_of_mem

variable {P : Type}

/-- bitpit gives new ids -/
structure GenOk (g : Gen P) : Prop where
  vert : ∀ vs, has vs (g.vert vs) = false
  cell : ∀ vs cs, has cs (g.cell vs cs) = false

/-- a triangle of a mesh -/
def tri (pid : Int) (t : List Nat) : Cell := ⟨.triangle, t, pid, true⟩

/-- a PID that the mesh knows -/
def Known (o : Obj P) (pid : Int) : Prop := InRange pid ∧ pid ∈ o.pids ∧ o.names.any (fun e => e.1 == pid) = true

/-- `o'` is `o` with more vertices and cells -/
structure Grows (o o' : Obj P) (vs : Data P) (cs : Data Cell) : Prop where
  verts : o'.verts = o.verts ++ vs
  cells : o'.cells = o.cells ++ cs
  okv : Ok o'.verts
  okc : Ok o'.cells
  pids : o'.pids = o.pids
  names : o'.names = o.names
  tree : SameTree o o'
  tol : o'.tol = o.tol

theorem Grows.refl {o : Obj P} (hv : Ok o.verts) (hc : Ok o.cells) : Grows o o [] [] :=
  ⟨by simp, by simp, hv, hc, rfl, rfl, SameTree.refl o, rfl⟩

theorem Grows.trans {o o' o'' : Obj P} {vs vs' : Data P} {cs cs' : Data Cell} (h : Grows o o' vs cs)
    (h' : Grows o' o'' vs' cs') : Grows o o'' (vs ++ vs') (cs ++ cs') :=
  ⟨by rw [h'.verts, h.verts, append_assoc], by rw [h'.cells, h.cells, append_assoc], h'.okv, h'.okc,
    h'.pids.trans h.pids, h'.names.trans h.names, h.tree.trans h'.tree, h'.tol.trans h.tol⟩

theorem Grows.get_cell {o o' : Obj P} {vs : Data P} {cs : Data Cell} (h : Grows o o' vs cs) {id : Nat} {c : Cell}
    (hc : get o.cells id = some c) : get o'.cells id = some c := by
  rw [h.cells, get_append, hc]; rfl

theorem Grows.get_vert {o o' : Obj P} {vs : Data P} {cs : Data Cell} (h : Grows o o' vs cs) {id : Nat} {p : P}
    (hc : get o.verts id = some p) : get o'.verts id = some p := by
  rw [h.verts, get_append, hc]; rfl

theorem Grows.has_vert {o o' : Obj P} {vs : Data P} {cs : Data Cell} (h : Grows o o' vs cs) {id : Nat}
    (hc : has o.verts id = true) : has o'.verts id = true := by
  rw [has_eq_isSome, Option.isSome_iff_exists] at hc ⊢
  obtain ⟨p, hp⟩ := hc
  exact ⟨p, h.get_vert hp⟩

theorem Grows.known {o o' : Obj P} {vs : Data P} {cs : Data Cell} (h : Grows o o' vs cs) {pid : Int} (hc : Known o pid) :
    Known o' pid := by
  unfold Known at *
  rw [h.pids, h.names]; exact hc

theorem newVertex_grows {g : Gen P} (hg : GenOk g) {o : Obj P} (hv : Ok o.verts) (hc : Ok o.cells) (p : P) :
    Grows o (newVertex g o p) [(g.vert o.verts, p)] [] := by
  refine ⟨rfl, by simp [newVertex, addVertex, addVertex.put], ok_append hv (hg.vert _), hc, rfl, rfl, st_addVertex .., rfl⟩

theorem newTri_grows {g : Gen P} (hg : GenOk g) {o : Obj P} (hv : Ok o.verts) (hc : Ok o.cells) {pid : Int}
    (hp : Known o pid) {t : List Nat} (ht : t.length = 3) :
    Grows o (newTri g pid o t) [] [(g.cell o.verts o.cells, tri pid t)] := by
  have hfree := hg.cell o.verts o.cells
  have hadd : newTri g pid o t = putCell o .triangle t pid (g.cell o.verts o.cells) := by
    have hne : t ≠ [] := by intro h; rw [h] at ht; cases ht
    unfold newTri addConnectedCell
    rw [if_neg hne, if_neg (by simp), if_neg (by simp [checkConn, ht])]
    rfl
  have hcells := putCell_cells hfree .triangle t pid
  have e1 : (putCell o .triangle t pid (g.cell o.verts o.cells)).pids = o.pids ∧
      (putCell o .triangle t pid (g.cell o.verts o.cells)).names = o.names := by
    unfold putCell setPIDCell
    split
    · exact ⟨by simp [unsyncCell, insSet, hp.2.1], by simp [unsyncCell, insName, hp.2.2]⟩
    · exact ⟨rfl, rfl⟩
  rw [hadd]
  refine ⟨by rw [putCell_verts]; simp, ?_, by rw [putCell_verts]; exact hv, ?_, e1.1, e1.2, st_putCell .., ?_⟩
  · rw [hcells, toInt32_id hp.1]; rfl
  · rw [hcells]; exact ok_append hc hfree
  · simp only [putCell, setPIDCell, unsyncCell]; split <;> rfl

theorem newTris_grows {g : Gen P} (hg : GenOk g) {pid : Int} : ∀ (ts : List (List Nat)) {o : Obj P}, Ok o.verts → Ok o.cells →
    Known o pid → (∀ t ∈ ts, t.length = 3) →
    ∃ cs, Grows o (newTris g pid o ts) [] cs ∧ cs.map Prod.snd = ts.map (tri pid) := by
  intro ts
  induction ts with
  | nil => intro o hv hc _ _; exact ⟨[], Grows.refl hv hc, rfl⟩
  | cons t ts ih =>
    intro o hv hc hp ht
    have h1 := newTri_grows hg hv hc hp (ht t (by simp))
    obtain ⟨cs, h2, h3⟩ := ih h1.okv h1.okc (h1.known hp) (fun t h => ht t (by simp [h]))
    exact ⟨_ :: cs, h1.trans h2, by rw [map_cons, h3]; rfl⟩

/-! The end of a refinement: old cells deleted, everything recomputed -/

theorem contains_false_of {l : List Nat} {i : Nat} (h : i ∉ l) : l.contains i = false := by simpa using h

/-- deletion of cells of the old part -/
theorem delCells_grown {o o' : Obj P} {vs : Data P} {cs : Data Cell} (h : Grows o o' vs cs) {ids : List Nat}
    (hi : ∀ i ∈ ids, has o.cells i = true) :
    (delCells o' ids).cells = o.cells.filter (fun c => !ids.contains c.1) ++ cs := by
  unfold delCells
  simp only [h.cells, filter_append]
  congr 1
  rw [filter_eq_self]
  intro e he
  have hok := h.okc
  rw [h.cells] at hok
  unfold Ok at hok
  rw [map_append, nodup_append] at hok
  have : e.1 ∉ ids := by
    intro hm
    have := (has_iff _ _).1 (hi _ hm)
    exact hok.2.2 _ this _ (mem_map_of_mem he) rfl
  simp [this]

/-- `update` after `setUnsyncAll` on a complete mesh -/
theorem finish {o : Obj P} (ht : TreeOk o) (hc : complete o = true) :
    ∃ r, update (setUnsyncAll o) = some r ∧ r.type = o.type ∧ r.verts = o.verts ∧ r.cells = o.cells ∧ r.pids = o.pids ∧
      r.names = o.names ∧ Fresh r ∧ TreeOk r ∧ complete r = true := by
  have ht' : TreeOk (setUnsyncAll o) := treeOk_of ht rfl rfl (cap_notSupported _)
  have hc' : complete (setUnsyncAll o) = true := hc
  obtain ⟨r, hr⟩ := update_succeeds ht' hc'
  have em := update_mesh hr
  have et := st_update hr
  refine ⟨r, hr, em.type, em.verts, em.cells, em.pids, em.names, fresh_update (fresh_setUnsyncAll o) hr,
    treeOk_of ht' et.type et.tree et.skd, ?_⟩
  unfold complete at hc ⊢
  rw [em.cells, em.verts]; exact hc

end Verif.Refine
