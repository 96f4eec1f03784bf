import Verif.Mesh.DegrLemmas
/-
C30 (no stale structure is reported as up to date), C31 (`update`), C32 (availability of the skd-tree).
-/
namespace Verif.Mesh
open Verif.Field
open List hiding get

variable {P : Type}

/-- C30's condition: a structure reported as up to date was computed from the present vertices and cells -/
structure Fresh (o : Obj P) : Prop where
  kd : o.kd.st = .sync → o.kd.val = some o.verts
  skd : o.skd.st = .sync → o.skd.val = some (shapes o) ∧ complete o = true
  adj : o.adj.st = .sync → o.adj.val = some (topo o)
  int : o.int.st = .sync → o.int.val = some (topo o)
  info : o.info.st = .sync → o.info.val = some (cellIds o)
  bbox : o.bbox.st = .sync → o.bbox.val = some o.verts
  pc : o.pc.st = .sync → o.pc.val = some (topo o)

theorem cap_ne_sync (s : Status) : s.cap ≠ .sync := by cases s <;> simp [Status.cap]

/-- the operations of the public interface that change the mesh or its structures.  With `rp = false`,
`resetPatch` is not applied to point clouds. -/
inductive Step [DecidableEq P] (rp : Bool) : Obj P → Obj P → Prop
  | addVertex {o} (gen p idtag) : has o.verts gen = false → Step rp o (addVertex o gen p idtag).1
  | modifyVertex {o} (p id) : Step rp o (modifyVertex o p id).1
  | addConnectedCell {o} (gen conn t pid idtag) : has o.cells gen = false →
      Step rp o (addConnectedCell o gen conn t pid idtag).1
  | addCell {o} (gen c idtag) : has o.cells gen = false → Step rp o (addCell o gen c idtag).1
  | setPIDCell {o} (id pid) : Step rp o (setPIDCell o id pid)
  | setPIDVec {o} (l) : Step rp o (setPIDVec o l)
  | setPIDMap {o} (m) : Step rp o (setPIDMap o m)
  | setPIDName {o} (p s) : Step rp o (setPIDName o p s).1
  | resyncPID {o} : Step rp o (resyncPID o)
  | buildSkd {o o'} : buildSkd o = some o' → Step rp o o'
  | cleanSkd {o o'} : cleanSkd o = some o' → Step rp o o'
  | buildKd {o} : Step rp o (buildKd o)
  | cleanKd {o} : Step rp o (cleanKd o)
  | buildInfo {o} : Step rp o (buildInfo o)
  | cleanInfo {o} : Step rp o (cleanInfo o)
  | cleanBBox {o} : Step rp o (cleanBBox o)
  | updateAdj {o} : Step rp o (updateAdj o)
  | updateInt {o} : Step rp o (updateInt o)
  | destroyAdj {o} : Step rp o (destroyAdj o)
  | destroyInt {o} : Step rp o (destroyInt o)
  | buildPC {o} : Step rp o (buildPC o)
  | cleanPC {o} : Step rp o (cleanPC o)
  | setUnsyncAll {o} : Step rp o (setUnsyncAll o)
  | update {o o'} : update o = some o' → Step rp o o'
  | resetPatch {o o'} : rp = true ∨ o.type ≠ 3 → resetPatch o = some o' → Step rp o o'
  | cleanGeometry {o} (vs cs) : Ok vs → Ok cs → (o.verts.length = vs.length → vs = o.verts ∧ cs = o.cells) →
      Step rp o (cleanGeometry o vs cs)
  /-- changes made directly on the patch, followed by `setUnsyncAll` as its documentation prescribes -/
  | external {o} (vs cs) : Ok vs → Ok cs →
      Step rp o (Verif.Mesh.setUnsyncAll { o with verts := vs, cells := cs })
  | triangulate {o o'} (bary) : triangulate bary o = some o' → Step rp o o'
  /-- on meshes of triangles, quadrilaterals, tetrahedra, pyramids, wedges, hexahedra, vertices, lines -/
  | degrade {o o'} (fill) : (∀ c ∈ o.cells, Canon o.type c.2) → degrade o fill = some o' → Step rp o o'

/-- objects obtained from a constructor by any number of operations -/
inductive Reach [DecidableEq P] (rp : Bool) : Obj P → Prop
  | ctor {o} (type) : ctor type = some o → Reach rp o
  | ctorPatch {o} (type vs cs a i) : Ok vs → Ok cs → ctorPatch type vs cs a i = some o → Reach rp o
  | step {o o'} : Reach rp o → Step rp o o' → Reach rp o'

/-! Lemmas about the views -/

theorem topo_putPid (o : Obj P) (id : Nat) (p : Int) : topo { o with cells := putPid o.cells id p } = topo o := by
  simp only [topo, putPid, map_map]
  apply map_congr_left
  intro c _
  simp only [Function.comp]
  split <;> rfl

theorem cellIds_putPid (o : Obj P) (id : Nat) (p : Int) : cellIds { o with cells := putPid o.cells id p } = cellIds o := by
  simp only [cellIds, putPid_keys]

/-- `shapes` and `complete` depend on the cells only through id, element and connectivity -/
theorem shapes_of_topo {o o' : Obj P} (hv : o'.verts = o.verts) (ht : topo o' = topo o) :
    shapes o' = shapes o ∧ complete o' = complete o := by
  have vid : ∀ c c' : Cell, c.elem = c'.elem → c.conn = c'.conn → vertexIds c = vertexIds c' := by
    intro c c' h1 h2
    unfold vertexIds
    rw [h1, h2]
  constructor
  · have h1 : ∀ o : Obj P, shapes o =
        (topo o).map (fun e => (e.1, e.2.1, (vertexIds ⟨e.2.1, e.2.2, 0, true⟩).map (get o.verts))) := by
      intro o
      simp only [shapes, topo, map_map]
      apply map_congr_left
      intro c _
      simp only [Function.comp]
      rw [vid c.2 ⟨c.2.elem, c.2.conn, 0, true⟩ rfl rfl]
    rw [h1, h1, ht, hv]
  · have h1 : ∀ o : Obj P, complete o =
        (topo o).all (fun e => (vertexIds ⟨e.2.1, e.2.2, 0, true⟩).all (fun v => has o.verts v)) := by
      intro o
      simp only [complete, topo, all_map]
      congr 1
    rw [h1, h1, ht, hv]

theorem fresh_of_same {o o' : Obj P} (h : Fresh o) (hv : o'.verts = o.verts) (ht : topo o' = topo o)
    (hi : cellIds o' = cellIds o) (hkd : o'.kd = o.kd) (hskd : o'.skd = o.skd) (hadj : o'.adj = o.adj)
    (hint : o'.int = o.int) (hinfo : o'.info = o.info) (hbb : o'.bbox = o.bbox) (hpc : o'.pc = o.pc) : Fresh o' := by
  obtain ⟨hs, hc⟩ := shapes_of_topo hv ht
  constructor
  · rw [hkd, hv]; exact h.kd
  · rw [hskd, hs, hc]; exact h.skd
  · rw [hadj, ht]; exact h.adj
  · rw [hint, ht]; exact h.int
  · rw [hinfo, hi]; exact h.info
  · rw [hbb, hv]; exact h.bbox
  · rw [hpc, ht]; exact h.pc

theorem cellIds_of_topo {o o' : Obj P} (h : topo o' = topo o) : cellIds o' = cellIds o := by
  have : ∀ o : Obj P, cellIds o = (topo o).map Prod.fst := by
    intro o; simp [cellIds, topo, Function.comp_def]
  rw [this, this, h]

theorem setPIDCell_topo (o : Obj P) (id : Nat) (pid : Int) : topo (setPIDCell o id pid) = topo o := by
  unfold setPIDCell
  split
  · exact topo_putPid o id _
  · rfl

theorem fresh_setPIDCell {o : Obj P} (h : Fresh o) (id : Nat) (pid : Int) : Fresh (setPIDCell o id pid) := by
  have ht := setPIDCell_topo o id pid
  refine fresh_of_same h ?_ ht (cellIds_of_topo ht) ?_ ?_ ?_ ?_ ?_ ?_ ?_ <;> unfold setPIDCell <;> split <;> rfl

theorem shapes_append {o : Obj P} (hc : complete o = true) {i : Nat} (hi : has o.verts i = false) (p : P) :
    ∀ o' : Obj P, o'.verts = o.verts ++ [(i, p)] → o'.cells = o.cells → shapes o' = shapes o ∧ complete o' = true := by
  intro o' hv hcs
  unfold complete at hc
  rw [all_eq_true] at hc
  constructor
  · unfold shapes
    rw [hv, hcs]
    apply map_congr_left
    intro c hcm
    have := hc c hcm
    rw [all_eq_true] at this
    congr 2
    apply map_congr_left
    intro v hvm
    have hv' := this v hvm
    rw [get_append, get_single]
    rw [has_eq_isSome] at hv'
    cases hg : get o.verts v with
    | none => rw [hg] at hv'; cases hv'
    | some q => simp
  · unfold complete
    rw [hv, hcs, all_eq_true]
    intro c hcm
    have := hc c hcm
    rw [all_eq_true] at this ⊢
    intro v hvm
    have := this v hvm
    rw [has_iff] at this ⊢
    rw [map_append, mem_append]
    exact Or.inl this

theorem fresh_addVertex {o : Obj P} (h : Fresh o) (gen : Nat) (p : P) (idtag : Option Nat)
    (hg : has o.verts gen = false) : Fresh (addVertex o gen p idtag).1 := by
  have key : ∀ i, has o.verts i = false → Fresh (addVertex.put o p i).1 := by
    intro i hi
    constructor
    · exact fun hs => absurd hs (cap_ne_sync _)
    · intro hs
      obtain ⟨h1, h2⟩ := h.skd hs
      obtain ⟨h3, h4⟩ := shapes_append h2 hi p (addVertex.put o p i).1 rfl rfl
      exact ⟨h1.trans (congrArg some h3.symm), h4⟩
    · exact h.adj
    · exact h.int
    · exact fun hs => absurd hs (cap_ne_sync _)
    · exact fun hs => absurd hs (cap_ne_sync _)
    · exact fun hs => absurd hs (cap_ne_sync _)
  unfold addVertex
  split
  · split
    · exact h
    · next i hi => exact key _ (by simpa using hi)
  · exact key _ hg

theorem fresh_modifyVertex {o : Obj P} (h : Fresh o) (p : P) (id : Nat) : Fresh (modifyVertex o p id).1 := by
  unfold modifyVertex
  split
  · constructor
    · exact fun hs => absurd hs (cap_ne_sync _)
    · exact fun hs => absurd hs (cap_ne_sync _)
    · exact h.adj
    · exact h.int
    · exact fun hs => absurd hs (cap_ne_sync _)
    · exact fun hs => absurd hs (cap_ne_sync _)
    · exact h.pc
  · exact h

theorem fresh_putCell {o : Obj P} (h : Fresh o) (t : Elem) (conn : List Nat) (pid : Int) (i : Nat) :
    Fresh (putCell o t conn pid i) := by
  have hv := putCell_verts o t conn pid i
  have hkd : (putCell o t conn pid i).kd = o.kd := by
    simp only [putCell, setPIDCell, unsyncCell]; split <;> rfl
  have hbb : (putCell o t conn pid i).bbox = o.bbox := by
    simp only [putCell, setPIDCell, unsyncCell]; split <;> rfl
  constructor
  · rw [hv, hkd]; exact h.kd
  · exact fun hs => absurd hs (cap_ne_sync _)
  · exact fun hs => absurd hs (cap_ne_sync _)
  · exact fun hs => absurd hs (cap_ne_sync _)
  · exact fun hs => absurd hs (cap_ne_sync _)
  · rw [hv, hbb]; exact h.bbox
  · exact fun hs => absurd hs (cap_ne_sync _)

theorem fresh_addConnectedCell {o : Obj P} (h : Fresh o) (gen : Nat) (conn : List Nat) (t : Elem) (pid : Int)
    (idtag : Option Nat) : Fresh (addConnectedCell o gen conn t pid idtag).1 := by
  unfold addConnectedCell
  split
  · exact h
  · split
    · exact h
    · split
      · exact h
      · exact fresh_putCell h ..

theorem fresh_addCell {o : Obj P} (h : Fresh o) (gen : Nat) (c : Cell) (idtag : Option Nat) :
    Fresh (addCell o gen c idtag).1 := by
  unfold addCell
  split
  · exact h
  · exact fresh_putCell h ..

theorem setPIDVec_topo (o : Obj P) (l : List Int) : topo (setPIDVec o l) = topo o := by
  unfold setPIDVec
  split
  · rfl
  · next hl =>
    simp only [topo, map_map]
    have h1 : (o.cells.zip l).map ((fun c => (c.1, c.2.elem, c.2.conn)) ∘
        fun e => (e.1.1, ({ e.1.2 with pid := toInt32 e.2 } : Cell))) =
        ((o.cells.zip l).map (fun e => e.1)).map (fun c => (c.1, c.2.elem, c.2.conn)) := by
      rw [map_map]; rfl
    rw [h1]
    congr 1
    exact map_fst_zip (by omega)

theorem setPIDMap_topo (o : Obj P) (m : List (Nat × Int)) : topo (setPIDMap o m) = topo o := by
  have h1 : ∀ (m : List (Nat × Int)) (cs : Data Cell) (ps : List Int),
      (m.foldl putEntry (cs, ps)).1.map (fun c => (c.1, c.2.elem, c.2.conn)) =
        cs.map (fun c => (c.1, c.2.elem, c.2.conn)) := by
    intro m
    induction m with
    | nil => intro cs ps; rfl
    | cons e m ih =>
      intro cs ps
      rw [foldl_cons]
      have hp : (putEntry (cs, ps) e).1.map (fun c => (c.1, c.2.elem, c.2.conn)) =
          cs.map (fun c => (c.1, c.2.elem, c.2.conn)) := by
        unfold putEntry
        split
        · simp only [putPid, map_map]
          apply map_congr_left
          intro c _
          simp only [Function.comp]
          split <;> rfl
        · rfl
      exact (ih (putEntry (cs, ps) e).1 (putEntry (cs, ps) e).2).trans hp
  unfold setPIDMap
  split
  · rfl
  · exact h1 m o.cells []

theorem fresh_buildSkd {o o' : Obj P} (h : Fresh o) (hb : buildSkd o = some o') : Fresh o' := by
  unfold buildSkd at hb
  split at hb
  · injection hb with hb; subst hb; exact h
  · split at hb
    · injection hb with hb; subst hb; exact h
    · split at hb
      · cases hb
      · split at hb
        · cases hb
        · next hc =>
          injection hb with hb; subst hb
          exact ⟨h.kd, fun _ => ⟨rfl, by
            have hc' : complete o = true := by simpa using hc
            exact hc'⟩, h.adj, h.int, h.info, h.bbox, h.pc⟩

theorem fresh_cleanSkd {o o' : Obj P} (h : Fresh o) (hb : cleanSkd o = some o') : Fresh o' := by
  unfold cleanSkd at hb
  split at hb
  · injection hb with hb; subst hb; exact h
  · split at hb
    · cases hb
    · injection hb with hb; subst hb
      exact ⟨h.kd, fun hs => absurd hs (cap_ne_sync _), h.adj, h.int, h.info, h.bbox, h.pc⟩

theorem fresh_buildKd {o : Obj P} (h : Fresh o) : Fresh (buildKd o) := by
  unfold buildKd
  split
  · exact h
  · split
    · exact h
    · exact ⟨fun _ => rfl, h.skd, h.adj, h.int, h.info, h.bbox, h.pc⟩

theorem fresh_updateAdj {o : Obj P} (h : Fresh o) : Fresh (updateAdj o) := by
  unfold updateAdj
  split
  · exact h
  · exact h
  · exact ⟨h.kd, h.skd, fun _ => rfl, h.int, h.info, h.bbox, h.pc⟩

theorem fresh_updateInt {o : Obj P} (h : Fresh o) : Fresh (updateInt o) := by
  unfold updateInt
  simp only
  have h1 : Fresh (if o.adj.st ≠ .sync then updateAdj o else o) := by
    split
    · exact fresh_updateAdj h
    · exact h
  revert h1
  generalize (if o.adj.st ≠ .sync then updateAdj o else o) = o1
  intro h1
  cases o1.int.st with
  | notSupported => exact h1
  | sync => exact h1
  | none => exact ⟨h1.kd, h1.skd, h1.adj, fun _ => rfl, h1.info, h1.bbox, h1.pc⟩
  | unsync => exact ⟨h1.kd, h1.skd, h1.adj, fun _ => rfl, h1.info, h1.bbox, h1.pc⟩

theorem fresh_cleanPC {o : Obj P} (h : Fresh o) : Fresh (cleanPC o) :=
  ⟨h.kd, h.skd, h.adj, h.int, h.info, h.bbox, fun hs => absurd hs (cap_ne_sync _)⟩

theorem fresh_buildPC {o : Obj P} (h : Fresh o) : Fresh (buildPC o) := by
  have h1 := fresh_cleanPC h
  unfold buildPC
  simp only
  split
  · exact h1
  · split
    · exact ⟨h1.kd, h1.skd, h1.adj, h1.int, h1.info, h1.bbox, fun _ => rfl⟩
    · exact h1

/-- after `setUnsyncAll` nothing is reported as up to date -/
theorem setUnsyncAll_none (o : Obj P) : (setUnsyncAll o).kd.st ≠ .sync ∧ (setUnsyncAll o).skd.st ≠ .sync ∧
    (setUnsyncAll o).adj.st ≠ .sync ∧ (setUnsyncAll o).int.st ≠ .sync ∧ (setUnsyncAll o).info.st ≠ .sync ∧
    (setUnsyncAll o).bbox.st ≠ .sync ∧ (setUnsyncAll o).pc.st ≠ .sync :=
  ⟨cap_ne_sync _, cap_ne_sync _, cap_ne_sync _, cap_ne_sync _, cap_ne_sync _, by simp [setUnsyncAll, cleanPC],
    cap_ne_sync _⟩

theorem fresh_setUnsyncAll (o : Obj P) : Fresh (setUnsyncAll o) := by
  obtain ⟨h1, h2, h3, h4, h5, h6, h7⟩ := setUnsyncAll_none o
  exact ⟨fun h => absurd h h1, fun h => absurd h h2, fun h => absurd h h3, fun h => absurd h h4, fun h => absurd h h5,
    fun h => absurd h h6, fun h => absurd h h7⟩

theorem fresh_update {o o' : Obj P} (h : Fresh o) (hu : update o = some o') : Fresh o' := by
  unfold update at hu
  simp only [Option.map_eq_some_iff] at hu
  obtain ⟨o1, h1, rfl⟩ := hu
  have a1 : Fresh (stepAdj o) := by
    unfold stepAdj; split
    · exact fresh_updateAdj h
    · exact h
  have a2 : Fresh (stepInt (stepAdj o)) := by
    unfold stepInt; split
    · exact fresh_updateInt a1
    · exact a1
  have a3 : Fresh o1 := by
    unfold stepSkd at h1; split at h1
    · exact fresh_buildSkd a2 h1
    · injection h1 with h1; subst h1; exact a2
  have a4 : Fresh (stepKd o1) := by
    unfold stepKd; split
    · exact fresh_buildKd a3
    · exact a3
  have a5 : ∀ o : Obj P, Fresh o → Fresh (stepInfo o) := by
    intro o h
    unfold stepInfo; split
    · exact ⟨h.kd, h.skd, h.adj, h.int, fun _ => rfl, h.bbox, h.pc⟩
    · exact h
  have a6 : ∀ o : Obj P, Fresh o → Fresh (stepBBox o) := by
    intro o h
    unfold stepBBox; split
    · exact ⟨h.kd, h.skd, h.adj, h.int, h.info, fun _ => rfl, h.pc⟩
    · exact h
  have a7 : ∀ o : Obj P, Fresh o → Fresh (stepPC o) := by
    intro o h
    unfold stepPC; split
    · exact fresh_buildPC h
    · exact h
  exact a7 _ (a6 _ (a5 _ a4))

theorem fresh_resetPatch {o o' : Obj P} (hr : resetPatch o = some o') : Fresh o' := by
  unfold resetPatch at hr
  simp only [Option.map_eq_some_iff] at hr
  obtain ⟨o1, h1, rfl⟩ := hr
  have h2 : o1.adj.st = .none ∧ o1.int.st = .none := by
    unfold cleanSkd at h1
    split at h1
    · injection h1 with h1; subst h1; exact ⟨rfl, rfl⟩
    · split at h1
      · cases h1
      · injection h1 with h1; subst h1; exact ⟨rfl, rfl⟩
  exact ⟨by simp, by simp, by simp [h2.1], by simp [h2.2], by simp, by simp, by simp⟩

/-! `triangulate` -/

/-- only the bounding box matters inside the loop; its status is always that of the present vertices -/
def BBoxFresh (o : Obj P) : Prop := o.bbox.st = .sync → o.bbox.val = some o.verts

theorem bbox_addConnectedCell {o : Obj P} (h : BBoxFresh o) (gen : Nat) (conn : List Nat) (t : Elem) (pid : Int)
    (idtag : Option Nat) : BBoxFresh (addConnectedCell o gen conn t pid idtag).1 := by
  have hp : ∀ i, BBoxFresh (putCell o t conn pid i) := by
    intro i
    have hbb : (putCell o t conn pid i).bbox = o.bbox := by
      simp only [putCell, setPIDCell, unsyncCell]; split <;> rfl
    unfold BBoxFresh
    rw [putCell_verts, hbb]; exact h
  unfold addConnectedCell
  split
  · exact h
  · split
    · exact h
    · split
      · exact h
      · exact hp _

theorem bbox_addTris : ∀ (ts : List (List Nat)) (o : Obj P) (pid : Int) (n : Nat), BBoxFresh o →
    BBoxFresh (addTris o pid n ts).1 := by
  intro ts
  induction ts with
  | nil => intro o pid n h; exact h
  | cons t ts ih => intro o pid n h; exact ih _ _ _ (bbox_addConnectedCell h 0 t .triangle pid (some n))

theorem bbox_triStep (bary : Obj P → Nat → P) {s s' : Obj P × Nat × Nat} (id : Nat) (h : BBoxFresh s.1)
    (hs : triStep bary s id = some s') : BBoxFresh s'.1 := by
  have hav : BBoxFresh (addVertex s.1 0 (bary s.1 id) (some s.2.2)).1 := by
    unfold addVertex
    simp only
    split
    · exact h
    · exact fun hs => absurd hs (cap_ne_sync _)
  unfold triStep at hs
  split at hs
  · cases hs
  · split at hs
    · injection hs with hs; subst hs; exact bbox_addTris _ _ _ _ h
    · injection hs with hs; subst hs; exact bbox_addTris _ _ _ _ h
    · injection hs with hs; subst hs; exact bbox_addTris _ _ _ _ hav
    · injection hs with hs; subst hs; exact h
    · cases hs

theorem bbox_triLoop (bary : Obj P → Nat → P) : ∀ (ids : List Nat) {s s' : Obj P × Nat × Nat}, BBoxFresh s.1 →
    triLoop bary ids s = some s' → BBoxFresh s'.1 := by
  intro ids
  induction ids with
  | nil => intro s s' h hs; injection hs with hs; subst hs; exact h
  | cons id ids ih =>
    intro s s' h hs
    rw [triLoop, Option.bind_eq_some_iff] at hs
    obtain ⟨s1, h1, h2⟩ := hs
    exact ih (bbox_triStep bary id h h1) h2

theorem fresh_triangulateBody (bary : Obj P → Nat → P) {o o' : Obj P} (h : Fresh o)
    (ht : triangulateBody bary o = some o') : Fresh o' := by
  unfold triangulateBody at ht
  split at ht
  · cases ht
  · split at ht
    · injection ht with ht; subst ht; exact h
    · rw [Option.map_eq_some_iff] at ht
      obtain ⟨s, hs, rfl⟩ := ht
      have hb := bbox_triLoop bary _ (s := (o, _, _)) h.bbox hs
      exact ⟨fun h => absurd h (cap_ne_sync _), fun h => absurd h (cap_ne_sync _),
        fun h => absurd h (cap_ne_sync _), fun h => absurd h (cap_ne_sync _),
        fun h => absurd h (cap_ne_sync _), hb, fun h => absurd h (cap_ne_sync _)⟩

/-! `degradeDegenerateElements` -/

theorem degr_ins [DecidableEq P] (o : Obj P) : ∀ (cs : List (Nat × Cell)) {s s' : Degr},
    cs.foldlM (degrStep o) s = some s' → (s.del = [] → s.ins = []) → (s'.del = [] → s'.ins = []) := by
  intro cs
  induction cs with
  | nil => intro s s' hs h; injection hs with hs; subst hs; exact h
  | cons c cs ih =>
    intro s s' hs h
    rw [foldlM_cons] at hs
    simp only [Option.bind_eq_bind, Option.bind_eq_some_iff] at hs
    obtain ⟨s1, h1, h2⟩ := hs
    refine ih h2 ?_
    unfold degrStep at h1
    split at h1
    · cases h1
    · simp only at h1
      split at h1
      · injection h1 with h1; subst h1; simp
      · injection h1 with h1; subst h1; exact h

theorem bbox_addAll : ∀ (l : List (Nat × Cell)) (o : Obj P),
    (l.foldl (fun o c => (addCell o 0 c.2 (some c.1)).1) o).verts = o.verts ∧
    (l.foldl (fun o c => (addCell o 0 c.2 (some c.1)).1) o).bbox = o.bbox := by
  intro l
  induction l with
  | nil => intro o; exact ⟨rfl, rfl⟩
  | cons c l ih =>
    intro o
    have h1 : (addCell o 0 c.2 (some c.1)).1.verts = o.verts ∧ (addCell o 0 c.2 (some c.1)).1.bbox = o.bbox := by
      unfold addCell
      split
      · exact ⟨rfl, rfl⟩
      · refine ⟨putCell_verts .., ?_⟩
        simp only [putCell, setPIDCell, unsyncCell]
        split <;> rfl
    rw [foldl_cons]
    exact ⟨(ih _).1.trans h1.1, (ih _).2.trans h1.2⟩

theorem fresh_degradeBody [DecidableEq P] {o o' : Obj P} (h : Fresh o) (fill : Bool)
    (hc : ∀ c ∈ o.cells, Canon o.type c.2) (hd : degradeBody o fill = some o') : Fresh o' := by
  unfold degradeBody at hd
  rw [Option.map_eq_some_iff] at hd
  obtain ⟨s, hs, rfl⟩ := hd
  have hcol := degr_collapse o o.cells hc hs (Or.inl rfl)
  have hins := degr_ins o o.cells hs (fun _ => rfl)
  by_cases hdel : s.del = []
  · have hv : s.vmap = [] := by
      rcases hcol with h | h
      · exact h
      · exact absurd hdel h
    have e : o.cells.filter (fun c => ! s.del.contains c.1) = o.cells := by
      rw [hdel]; simp
    simp only [hins hdel, hv, e, if_true, foldl_nil]
    rw [if_pos hdel]
    exact h
  · simp only
    rw [if_neg hdel]
    refine ⟨fun h => absurd h (cap_ne_sync _), fun h => absurd h (cap_ne_sync _),
      fun h => absurd h (cap_ne_sync _), fun h => absurd h (cap_ne_sync _),
      fun h => absurd h (cap_ne_sync _), ?_, fun h => absurd h (cap_ne_sync _)⟩
    have hb := bbox_addAll s.ins { o with cells := o.cells.filter (fun c => ! s.del.contains c.1) }
    simp only [unsyncTri, unsyncCell]
    split
    · rw [hb.1, hb.2]; exact h.bbox
    · simp only [hb.1, hb.2]; exact h.bbox

/-! ### C30 -/

theorem fresh_step [DecidableEq P] {rp : Bool} {o o' : Obj P} (h : Fresh o) (hs : Step rp o o') : Fresh o' := by
  cases hs with
  | addVertex gen p idtag hg => exact fresh_addVertex h gen p idtag hg
  | modifyVertex p id => exact fresh_modifyVertex h p id
  | addConnectedCell => exact fresh_addConnectedCell h ..
  | addCell => exact fresh_addCell h ..
  | setPIDCell id pid => exact fresh_setPIDCell h id pid
  | setPIDVec l =>
    have ht := setPIDVec_topo o l
    refine fresh_of_same h ?_ ht (cellIds_of_topo ht) ?_ ?_ ?_ ?_ ?_ ?_ ?_ <;>
      simp only [Verif.Mesh.setPIDVec] <;> split <;> rfl
  | setPIDMap m =>
    have ht := setPIDMap_topo o m
    refine fresh_of_same h ?_ ht (cellIds_of_topo ht) ?_ ?_ ?_ ?_ ?_ ?_ ?_ <;>
      simp only [Verif.Mesh.setPIDMap] <;> split <;> rfl
  | setPIDName p s =>
    have ht : topo (setPIDName o p s).1 = topo o := by
      simp only [Verif.Mesh.setPIDName]; split <;> rfl
    refine fresh_of_same h ?_ ht (cellIds_of_topo ht) ?_ ?_ ?_ ?_ ?_ ?_ ?_ <;>
      simp only [Verif.Mesh.setPIDName] <;> split <;> rfl
  | resyncPID => exact fresh_of_same h rfl rfl rfl rfl rfl rfl rfl rfl rfl rfl
  | buildSkd hb => exact fresh_buildSkd h hb
  | cleanSkd hb => exact fresh_cleanSkd h hb
  | buildKd => exact fresh_buildKd h
  | cleanKd => exact ⟨fun hs => absurd hs (cap_ne_sync _), h.skd, h.adj, h.int, h.info, h.bbox, h.pc⟩
  | buildInfo => exact ⟨h.kd, h.skd, h.adj, h.int, fun _ => rfl, h.bbox, h.pc⟩
  | cleanInfo => exact ⟨h.kd, h.skd, h.adj, h.int, fun hs => absurd hs (cap_ne_sync _), h.bbox, h.pc⟩
  | cleanBBox => exact ⟨h.kd, h.skd, h.adj, h.int, h.info, fun hs => absurd hs (cap_ne_sync _), h.pc⟩
  | updateAdj => exact fresh_updateAdj h
  | updateInt => exact fresh_updateInt h
  | destroyAdj => exact ⟨h.kd, h.skd, by simp [Verif.Mesh.destroyAdj], h.int, h.info, h.bbox, h.pc⟩
  | destroyInt => exact ⟨h.kd, h.skd, h.adj, by simp [Verif.Mesh.destroyInt], h.info, h.bbox, h.pc⟩
  | buildPC => exact fresh_buildPC h
  | cleanPC => exact fresh_cleanPC h
  | setUnsyncAll => exact fresh_setUnsyncAll o
  | update hu => exact fresh_update h hu
  | resetPatch _ hr => exact fresh_resetPatch hr
  | cleanGeometry vs cs _ _ hsame =>
    unfold Verif.Mesh.cleanGeometry
    simp only
    split
    · next hl =>
      obtain ⟨rfl, rfl⟩ := hsame hl
      exact h
    · exact fresh_setUnsyncAll _
  | external vs cs _ _ => exact fresh_setUnsyncAll _
  | triangulate bary ht =>
    unfold Verif.Mesh.triangulate at ht
    rw [Option.bind_eq_some_iff] at ht
    obtain ⟨o1, h1, h2⟩ := ht
    exact fresh_update (fresh_triangulateBody bary h h1) h2
  | degrade fill hc hd =>
    unfold Verif.Mesh.degrade at hd
    rw [Option.bind_eq_some_iff] at hd
    obtain ⟨o1, h1, h2⟩ := hd
    exact fresh_update (fresh_degradeBody h fill hc h1) h2

theorem fresh_ctor {type : Int} {o : Obj P} (h : ctor type = some o) : Fresh o := by
  unfold ctor at h
  simp only at h
  split at h
  · cases h
  · injection h with h; subst h
    refine ⟨by simp, ?_, by simp, by simp, fun _ => rfl, by simp, by simp⟩
    intro hs
    simp only at hs
    split at hs <;> cases hs

theorem fresh_ctorPatch {type : Int} {vs : Data P} {cs : Data Cell} {a i : Bool} {o : Obj P}
    (h : ctorPatch type vs cs a i = some o) : Fresh o := by
  unfold ctorPatch at h
  simp only at h
  split at h
  · cases h
  · split at h
    · cases h
    · injection h with h; subst h
      refine ⟨by simp, ?_, ?_, ?_, fun _ => rfl, by simp, by simp⟩
      · intro hs; simp only at hs; split at hs <;> cases hs
      · intro hs; simp only at hs; split at hs <;> cases hs
      · intro hs; simp only at hs; split at hs <;> cases hs

/-- C30, partial (full statement: also for `swap`, see `C30_swap_fails`, and for `degradeDegenerateElements`
on meshes with polygons or polyhedra, see `C30_degrade_fails`): in every object obtained from a constructor by any sequence of edits, builds, cleans, updates,
triangulations and removals of degenerate elements, a structure reported as up to date was computed from the present vertices and cells. -/
theorem C30_fresh_partial [DecidableEq P] {rp : Bool} {o : Obj P} (r : Reach rp o) : Fresh o := by
  induction r with
  | ctor type h => exact fresh_ctor h
  | ctorPatch type vs cs a i _ _ h => exact fresh_ctorPatch h
  | step _ hs ih => exact fresh_step ih hs

/-- a history with both trees and the adjacencies up to date -/
def demoBuilt : Obj Int :=
  { demo with
    kd := ⟨.sync, some demo.verts⟩, skd := ⟨.sync, some (shapes demo)⟩, adj := ⟨.sync, some (topo demo)⟩
    bbox := ⟨.unsync, none⟩, names := [(1, ""), (2, "")] }

theorem demoBuilt_reach : Reach false demoBuilt := by
  have h0 : ctorPatch 1 demo.verts demo.cells true false = some
      { demo with adj := ⟨.unsync, none⟩, bbox := ⟨.unsync, none⟩, names := [(1, ""), (2, "")] } := by decide
  refine .step (.step (.step (.ctorPatch 1 demo.verts demo.cells true false ?_ ?_ h0) .updateAdj) .buildKd)
    (.buildSkd ?_)
  · unfold Ok; decide
  · unfold Ok; decide
  · decide

example : demoBuilt.kd.st = .sync ∧ demoBuilt.skd.st = .sync ∧ demoBuilt.adj.st = .sync ∧
    demoBuilt.info.st = .sync ∧ (modifyVertex demoBuilt 5 7).1.kd.st = .unsync := by decide

/-- C30 is false for `swap`: the object given as argument keeps its numbering, reported as up to date, although it
now holds the other mesh. -/
theorem C30_swap_fails : ∃ a x : Obj Int, Reach false a ∧ Reach false x ∧ ¬ Fresh (swap a x).2 := by
  refine ⟨demoBuilt, { demo with verts := [], cells := [], pids := [], names := [], info := ⟨.sync, some []⟩ },
    demoBuilt_reach, .ctor 1 (by decide), ?_⟩
  intro h
  have := h.info (by decide)
  revert this; decide

/-- C30 is false for `degradeDegenerateElements`: here no cell is deleted although a vertex is collapsed (a
six-vertex polygon with two vertices in the same place, whose first distinct id is taken for a vertex count); the
connectivity changes, and the adjacencies stay reported as up to date. -/
theorem C30_degrade_fails : ∃ o o' : Obj Int, Reach false o ∧ degrade o false = some o' ∧ ¬ Fresh o' := by
  let cs : Data Cell := [(0, ⟨.polygon, [6, 4, 10, 11, 12, 13, 14], 0, true⟩)]
  let vs : Data Int := [(4, 40), (10, 100), (11, 110), (12, 120), (13, 130), (14, 100)]
  let o0 : Obj Int := { demo with
    verts := vs, cells := cs, pids := [0], names := [(0, "")], info := ⟨.sync, some [0]⟩
    adj := ⟨.unsync, none⟩, bbox := ⟨.unsync, none⟩ }
  have h0 : ctorPatch 1 vs cs true false = some o0 := by decide
  refine ⟨updateAdj o0, (degrade (updateAdj o0) false).get (by decide),
    .step (.ctorPatch 1 vs cs true false (by unfold Ok; decide) (by unfold Ok; decide) h0) .updateAdj, by simp, ?_⟩
  intro h
  have := h.adj (by decide)
  revert this; decide

/-! ### C32 -/

/-- C32's condition: the tree is supported exactly for meshes that are not point clouds, and allocated then -/
structure TreeOk (o : Obj P) : Prop where
  supported : o.skd.st = .notSupported ↔ o.type = 3
  allocated : o.type ≠ 3 → o.tree = true

/-- operations leave type, allocation and support of the tree as they are -/
theorem treeOk_of {o o' : Obj P} (h : TreeOk o) (ht : o'.type = o.type) (htr : o'.tree = o.tree)
    (hs : o'.skd.st = .notSupported ↔ o.skd.st = .notSupported) : TreeOk o' :=
  ⟨by rw [hs, ht]; exact h.supported, by rw [ht, htr]; exact h.allocated⟩

theorem cap_notSupported (s : Status) : s.cap = .notSupported ↔ s = .notSupported := by cases s <;> simp [Status.cap]

/-- same type, tree and support -/
structure SameTree (o o' : Obj P) : Prop where
  type : o'.type = o.type
  tree : o'.tree = o.tree
  skd : o'.skd.st = .notSupported ↔ o.skd.st = .notSupported

theorem SameTree.refl (o : Obj P) : SameTree o o := ⟨rfl, rfl, Iff.rfl⟩

theorem SameTree.trans {o o' o'' : Obj P} (h : SameTree o o') (h' : SameTree o' o'') : SameTree o o'' :=
  ⟨h'.type.trans h.type, h'.tree.trans h.tree, h'.skd.trans h.skd⟩

theorem st_setPIDCell (o : Obj P) (id : Nat) (pid : Int) : SameTree o (setPIDCell o id pid) := by
  unfold setPIDCell; split <;> exact ⟨rfl, rfl, Iff.rfl⟩

theorem st_putCell (o : Obj P) (t : Elem) (conn : List Nat) (pid : Int) (i : Nat) :
    SameTree o (putCell o t conn pid i) := by
  have h1 := st_setPIDCell { o with cells := o.cells ++ [(i, (⟨t, conn, 0, true⟩ : Cell))] } i pid
  exact ⟨h1.type, h1.tree, (cap_notSupported _).trans h1.skd⟩

theorem st_addConnectedCell (o : Obj P) (gen : Nat) (conn : List Nat) (t : Elem) (pid : Int) (idtag : Option Nat) :
    SameTree o (addConnectedCell o gen conn t pid idtag).1 := by
  unfold addConnectedCell
  split
  · exact .refl o
  · split
    · exact .refl o
    · split
      · exact .refl o
      · exact st_putCell ..

theorem st_addCell (o : Obj P) (gen : Nat) (c : Cell) (idtag : Option Nat) : SameTree o (addCell o gen c idtag).1 := by
  unfold addCell
  split
  · exact .refl o
  · exact st_putCell ..

theorem st_addVertex (o : Obj P) (gen : Nat) (p : P) (idtag : Option Nat) : SameTree o (addVertex o gen p idtag).1 := by
  unfold addVertex
  split
  · split
    · exact .refl o
    · exact ⟨rfl, rfl, Iff.rfl⟩
  · exact ⟨rfl, rfl, Iff.rfl⟩

theorem st_buildSkd {o o' : Obj P} (hb : buildSkd o = some o') : SameTree o o' := by
  unfold buildSkd at hb
  split at hb
  · injection hb with hb; subst hb; exact .refl o
  · next hn =>
    split at hb
    · injection hb with hb; subst hb; exact .refl o
    · split at hb
      · cases hb
      · split at hb
        · cases hb
        · injection hb with hb; subst hb
          exact ⟨rfl, rfl, ⟨fun h => (by cases h), fun h => absurd h hn⟩⟩

theorem st_cleanSkd {o o' : Obj P} (hb : cleanSkd o = some o') : SameTree o o' := by
  unfold cleanSkd at hb
  split at hb
  · injection hb with hb; subst hb; exact .refl o
  · split at hb
    · cases hb
    · injection hb with hb; subst hb
      exact ⟨rfl, rfl, cap_notSupported _⟩

theorem st_update {o o' : Obj P} (hu : update o = some o') : SameTree o o' := by
  have hm := update_mesh hu
  refine ⟨hm.type, hm.tree, ?_⟩
  unfold update at hu
  simp only [Option.map_eq_some_iff] at hu
  obtain ⟨o1, h1, rfl⟩ := hu
  have b1 : (stepAdj o).skd = o.skd := by
    unfold stepAdj updateAdj
    split
    · split <;> rfl
    · rfl
  have b2 : ∀ o : Obj P, (stepInt o).skd = o.skd := by
    intro o
    have : (updateAdj o).skd = o.skd := by unfold updateAdj; split <;> rfl
    unfold stepInt updateInt
    split
    · simp only
      split <;> split <;> first | rfl | exact this
    · rfl
  have b3 : o1.skd.st = .notSupported ↔ (stepInt (stepAdj o)).skd.st = .notSupported := by
    unfold stepSkd at h1
    split at h1
    · exact (st_buildSkd h1).skd
    · injection h1 with h1; subst h1; exact Iff.rfl
  have b4 : ∀ o : Obj P, (stepKd o).skd = o.skd := by
    intro o
    unfold stepKd buildKd
    split
    · split
      · rfl
      · split <;> rfl
    · rfl
  have b5 : ∀ o : Obj P, (stepInfo o).skd = o.skd := by
    intro o; unfold stepInfo; split <;> rfl
  have b6 : ∀ o : Obj P, (stepBBox o).skd = o.skd := by
    intro o; unfold stepBBox; split <;> rfl
  have b7 : ∀ o : Obj P, (stepPC o).skd = o.skd := by
    intro o; unfold stepPC buildPC cleanPC
    split
    · simp only
      split
      · rfl
      · split <;> rfl
    · rfl
  rw [b7, b6, b5, b4, b3, b2, b1]

theorem st_addTris : ∀ (ts : List (List Nat)) (o : Obj P) (pid : Int) (n : Nat), SameTree o (addTris o pid n ts).1 := by
  intro ts
  induction ts with
  | nil => intro o pid n; exact .refl o
  | cons t ts ih => intro o pid n; exact (st_addConnectedCell o 0 t .triangle pid (some n)).trans (ih _ _ _)

theorem st_delCell (o : Obj P) (id : Nat) : SameTree o (delCell o id) := ⟨rfl, rfl, Iff.rfl⟩

theorem st_triStep (bary : Obj P → Nat → P) {s s' : Obj P × Nat × Nat} (id : Nat)
    (hs : triStep bary s id = some s') : SameTree s.1 s'.1 := by
  unfold triStep at hs
  split at hs
  · cases hs
  · split at hs
    · injection hs with hs; subst hs; exact (st_delCell _ _).trans (st_addTris _ _ _ _)
    · injection hs with hs; subst hs; exact (st_delCell _ _).trans (st_addTris _ _ _ _)
    · injection hs with hs; subst hs
      exact (st_addVertex _ _ _ _).trans ((st_delCell _ _).trans (st_addTris _ _ _ _))
    · injection hs with hs; subst hs; exact .refl _
    · cases hs

theorem st_triLoop (bary : Obj P → Nat → P) : ∀ (ids : List Nat) {s s' : Obj P × Nat × Nat},
    triLoop bary ids s = some s' → SameTree s.1 s'.1 := by
  intro ids
  induction ids with
  | nil => intro s s' hs; injection hs with hs; subst hs; exact .refl _
  | cons id ids ih =>
    intro s s' hs
    rw [triLoop, Option.bind_eq_some_iff] at hs
    obtain ⟨s1, h1, h2⟩ := hs
    exact (st_triStep bary id h1).trans (ih h2)

theorem st_triangulateBody (bary : Obj P → Nat → P) {o o' : Obj P} (ht : triangulateBody bary o = some o') :
    SameTree o o' := by
  unfold triangulateBody at ht
  split at ht
  · cases ht
  · split at ht
    · injection ht with ht; subst ht; exact .refl o
    · rw [Option.map_eq_some_iff] at ht
      obtain ⟨s, hs, rfl⟩ := ht
      have h1 := st_triLoop bary _ hs
      exact ⟨h1.type, h1.tree, (cap_notSupported _).trans h1.skd⟩

theorem st_addAll : ∀ (l : List (Nat × Cell)) (o : Obj P),
    SameTree o (l.foldl (fun o c => (addCell o 0 c.2 (some c.1)).1) o) := by
  intro l
  induction l with
  | nil => intro o; exact .refl o
  | cons c l ih => intro o; exact (st_addCell o 0 c.2 (some c.1)).trans (ih _)

theorem st_degradeBody [DecidableEq P] {o o' : Obj P} (fill : Bool) (hd : degradeBody o fill = some o') :
    SameTree o o' := by
  unfold degradeBody at hd
  rw [Option.map_eq_some_iff] at hd
  obtain ⟨s, hs, rfl⟩ := hd
  have h1 := st_addAll s.ins { o with cells := o.cells.filter (fun c => ! s.del.contains c.1) }
  have h2 : SameTree o (s.ins.foldl (fun o c => (addCell o 0 c.2 (some c.1)).1)
    { o with cells := o.cells.filter (fun c => ! s.del.contains c.1) }) := ⟨h1.type, h1.tree, h1.skd⟩
  have h3 : ∀ q : Obj P, SameTree o q → SameTree o (if s.del = [] then q else unsyncTri q) := by
    intro q hq
    split
    · exact hq
    · exact ⟨hq.type, hq.tree, (cap_notSupported _).trans hq.skd⟩
  apply h3
  split
  · exact h2
  · exact ⟨h2.type, h2.tree, h2.skd⟩

theorem treeOk_step [DecidableEq P] {o o' : Obj P} (h : TreeOk o) (hs : Step false o o') : TreeOk o' := by
  have fin : SameTree o o' → TreeOk o' := fun s => treeOk_of h s.type s.tree s.skd
  have triv : o'.type = o.type → o'.tree = o.tree → o'.skd = o.skd → TreeOk o' :=
    fun h1 h2 h3 => treeOk_of h h1 h2 (by rw [h3])
  have capd : o'.type = o.type → o'.tree = o.tree → o'.skd.st = o.skd.st.cap → TreeOk o' :=
    fun h1 h2 h3 => treeOk_of h h1 h2 (by rw [h3]; exact cap_notSupported _)
  cases hs with
  | addVertex => exact fin (st_addVertex ..)
  | modifyVertex p id =>
    apply fin
    unfold modifyVertex
    split
    · exact ⟨rfl, rfl, cap_notSupported _⟩
    · exact .refl o
  | addConnectedCell => exact fin (st_addConnectedCell ..)
  | addCell => exact fin (st_addCell ..)
  | setPIDCell => exact fin (st_setPIDCell ..)
  | setPIDVec l => apply fin; simp only [Verif.Mesh.setPIDVec]; split <;> exact ⟨rfl, rfl, Iff.rfl⟩
  | setPIDMap m => apply fin; simp only [Verif.Mesh.setPIDMap]; split <;> exact ⟨rfl, rfl, Iff.rfl⟩
  | setPIDName p s => apply fin; simp only [Verif.Mesh.setPIDName]; split <;> exact ⟨rfl, rfl, Iff.rfl⟩
  | resyncPID => exact triv rfl rfl rfl
  | buildSkd hb => exact fin (st_buildSkd hb)
  | cleanSkd hb => exact fin (st_cleanSkd hb)
  | buildKd => apply fin; unfold buildKd; split
               · exact .refl o
               · split <;> exact ⟨rfl, rfl, Iff.rfl⟩
  | cleanKd => exact triv rfl rfl rfl
  | buildInfo => exact triv rfl rfl rfl
  | cleanInfo => exact triv rfl rfl rfl
  | cleanBBox => exact triv rfl rfl rfl
  | updateAdj => apply fin; unfold updateAdj; split <;> exact ⟨rfl, rfl, Iff.rfl⟩
  | updateInt =>
    have hm := same_updateInt o
    apply treeOk_of h hm.type hm.tree
    have : (updateAdj o).skd = o.skd := by unfold updateAdj; split <;> rfl
    have : (updateInt o).skd = o.skd := by
      unfold updateInt
      simp only
      split <;> split <;> first | rfl | exact this
    rw [this]
  | destroyAdj => exact triv rfl rfl rfl
  | destroyInt => exact triv rfl rfl rfl
  | buildPC =>
    apply fin; unfold buildPC cleanPC; simp only; split
    · exact ⟨rfl, rfl, Iff.rfl⟩
    · split <;> exact ⟨rfl, rfl, Iff.rfl⟩
  | cleanPC => exact triv rfl rfl rfl
  | setUnsyncAll => exact capd rfl rfl rfl
  | update hu => exact fin (st_update hu)
  | resetPatch ht hr =>
    have ht : o.type ≠ 3 := by
      rcases ht with ht | ht
      · cases ht
      · exact ht
    unfold resetPatch at hr
    simp only [Option.map_eq_some_iff] at hr
    obtain ⟨o1, h1, rfl⟩ := hr
    have hst := st_cleanSkd h1
    refine ⟨⟨fun h => (by cases h), fun h' => ?_⟩, fun _ => ?_⟩
    · exact absurd (hst.type.symm.trans h') ht
    · exact hst.tree.trans (h.allocated ht)
  | cleanGeometry vs cs =>
    unfold Verif.Mesh.cleanGeometry
    simp only
    split
    · exact ⟨h.supported, h.allocated⟩
    · exact treeOk_of h rfl rfl (cap_notSupported _)
  | external vs cs => exact capd rfl rfl rfl
  | triangulate bary ht =>
    unfold Verif.Mesh.triangulate at ht
    rw [Option.bind_eq_some_iff] at ht
    obtain ⟨o1, h1, h2⟩ := ht
    exact fin ((st_triangulateBody bary h1).trans (st_update h2))
  | degrade fill _ hd =>
    unfold Verif.Mesh.degrade at hd
    rw [Option.bind_eq_some_iff] at hd
    obtain ⟨o1, h1, h2⟩ := hd
    exact fin ((st_degradeBody fill h1).trans (st_update h2))

/-- C32, partial (full statement: for every constructor and every operation; see `C32_list_constructor_fails` and
`C32_reset_fails`): for objects built from a type or from an existing patch, along any sequence of operations that
does not reset the patch of a point cloud, the skd-tree is reported as supported exactly when the mesh is not a
point cloud, and it is allocated then. -/
theorem C32_support_partial [DecidableEq P] {o : Obj P} (r : Reach false o) : TreeOk o := by
  induction r with
  | ctor type h =>
    unfold ctor at h
    simp only at h
    split at h
    · cases h
    · injection h with h; subst h
      constructor
      · simp only; split <;> simp_all
      · intro ht; simpa using ht
  | ctorPatch type vs cs a i _ _ h =>
    unfold ctorPatch at h
    simp only at h
    split at h
    · cases h
    · split at h
      · cases h
      · injection h with h; subst h
        constructor
        · simp only; split <;> simp_all
        · intro ht; simpa using ht
  | step _ hs ih => exact treeOk_step ih hs

/-- C32: asking for the tree then never touches a missing tree, and on a mesh that is not a point cloud it leaves
an up-to-date tree. -/
theorem C32_build_partial [DecidableEq P] {o : Obj P} (r : Reach false o) (hc : complete o = true) :
    ∃ o', buildSkd o = some o' ∧ (o.type ≠ 3 → o'.skd.st = .sync ∧ o'.skd.val = some (shapes o)) := by
  have ht := C32_support_partial r
  have hf := C30_fresh_partial r
  by_cases h3 : o.type = 3
  · refine ⟨o, ?_, fun h => absurd h3 h⟩
    unfold buildSkd
    rw [if_pos (ht.supported.2 h3)]
  · have hn : ¬ o.skd.st = .notSupported := fun h => h3 (ht.supported.1 h)
    by_cases hs : o.skd.st = .sync
    · refine ⟨o, ?_, fun _ => ⟨hs, (hf.skd hs).1⟩⟩
      unfold buildSkd
      rw [if_neg hn, if_pos hs]
    · refine ⟨{ o with skd := ⟨.sync, some (shapes o)⟩ }, ?_, fun _ => ⟨rfl, rfl⟩⟩
      unfold buildSkd
      rw [if_neg hn, if_neg hs, if_neg (by simp [ht.allocated h3]), if_neg (by simp [hc])]

example : TreeOk demoBuilt ∧ complete demoBuilt = true := ⟨C32_support_partial demoBuilt_reach, by decide⟩

/-- C32 is false for the constructor from vertices and connectivity: a surface built this way reports the tree as
unsupported and never builds it; a point cloud reports it as supported and asking for it is a null dereference. -/
theorem C32_list_constructor_fails :
    (∃ o : Obj Int, ctorLists 1 [10, 20, 30] (some [[0, 1, 2]]) id = some o ∧ o.type = 1 ∧
      o.skd.st = .notSupported ∧ buildSkd o = some o) ∧
    (∃ o : Obj Int, ctorLists 3 [10] (some [[0]]) id = some o ∧ o.type = 3 ∧
      o.skd.st ≠ .notSupported ∧ buildSkd o = none) := by
  constructor
  · refine ⟨(ctorLists 1 [10, 20, 30] (some [[0, 1, 2]]) id).get (by decide), by simp, by decide, by decide, by decide⟩
  · refine ⟨(ctorLists 3 [10] (some [[0]]) id).get (by decide), by simp, by decide, by decide, by decide⟩

/-- The same constructor dereferences its connectivity pointer also when it is the default null pointer. -/
theorem C32_list_constructor_null_fails : (ctorLists 3 [10] none id : Option (Obj Int)) = none := by decide

/-- C32 is false after `resetPatch` of a point cloud: the tree is then reported as supported, and asking for it, or
resetting again, is a null dereference. -/
theorem C32_reset_fails : ∃ o o' : Obj Int, Reach false o ∧ o.type = 3 ∧ resetPatch o = some o' ∧
    o'.skd.st ≠ .notSupported ∧ buildSkd o' = none ∧ resetPatch o' = none := by
  refine ⟨(ctor 3).get (by decide), (resetPatch ((ctor 3).get (by decide))).get (by decide),
    .ctor 3 (by simp), by decide, by simp, by decide, by decide, by decide⟩

/-! ### C31 -/

/-- further facts about reachable objects: only the skd-tree can be unsupported, the type is one of four, and a
point cloud never has a point connectivity -/
structure Sane (o : Obj P) : Prop where
  type : 1 ≤ o.type ∧ o.type ≤ 4
  kd : o.kd.st ≠ .notSupported
  adj : o.adj.st ≠ .notSupported
  int : o.int.st ≠ .notSupported
  info : o.info.st ≠ .notSupported
  bbox : o.bbox.st ≠ .notSupported
  pc : o.pc.st ≠ .notSupported
  cloud : o.type = 3 → o.pc.st = .none

/-- only `skd` may differ in an uncontrolled way -/
theorem cap_ne_ns {s : Status} (h : s ≠ .notSupported) : s.cap ≠ .notSupported := by
  cases s <;> simp_all [Status.cap]

theorem cap_none {s : Status} (h : s = .none) : s.cap = .none := by subst h; rfl

/-- C31: after `update` no structure is stale — except a kd-tree of a mesh without vertices, see
`C31_empty_mesh_fails`. -/
theorem C31_no_stale_partial {o o' : Obj P} (hs : Sane o) (hu : update o = some o') :
    o'.adj.st ≠ .unsync ∧ o'.int.st ≠ .unsync ∧ o'.skd.st ≠ .unsync ∧ (o.verts ≠ [] → o'.kd.st ≠ .unsync) ∧
    o'.info.st ≠ .unsync ∧ o'.bbox.st = .sync ∧ o'.pc.st ≠ .unsync := by
  have hm := update_mesh hu
  unfold update at hu
  simp only [Option.map_eq_some_iff] at hu
  obtain ⟨o1, h1, rfl⟩ := hu
  -- adjacencies and interfaces
  have A : (stepInt (stepAdj o)).adj.st ≠ .unsync ∧ (stepInt (stepAdj o)).int.st ≠ .unsync := by
    have hadj : (stepAdj o).adj.st ≠ .unsync ∧ (stepAdj o).int = o.int := by
      unfold stepAdj updateAdj
      split
      · next h => rw [h]; simp
      · next h => exact ⟨h, rfl⟩
    revert hadj
    generalize stepAdj o = p
    rintro ⟨ha, hi⟩
    unfold stepInt
    split
    · next hpi =>
      have hq : ∀ q : Obj P, q = (if p.adj.st ≠ .sync then updateAdj p else p) →
          q.adj.st ≠ .unsync ∧ q.int.st = .unsync := by
        rintro q rfl
        unfold updateAdj
        split
        · cases hpa : p.adj.st <;> simp_all
        · exact ⟨ha, hpi⟩
      unfold updateInt
      simp only
      have hq' := hq _ rfl
      revert hq'
      generalize (if p.adj.st ≠ .sync then updateAdj p else p) = q
      rintro ⟨h1, h2⟩
      split
      · next h => rw [h2] at h; cases h
      · next h => rw [h2] at h; cases h
      · exact ⟨h1, by simp⟩
    · next hpi => exact ⟨ha, hpi⟩
  -- tree
  have B : o1.adj = (stepInt (stepAdj o)).adj ∧ o1.int = (stepInt (stepAdj o)).int ∧ o1.skd.st ≠ .unsync ∧
      o1.kd = (stepInt (stepAdj o)).kd ∧ o1.pc = (stepInt (stepAdj o)).pc := by
    unfold stepSkd at h1
    split at h1
    · next hsk =>
      unfold buildSkd at h1
      rw [if_neg (by simp [hsk]), if_neg (by simp [hsk])] at h1
      split at h1
      · cases h1
      · split at h1
        · cases h1
        · injection h1 with h1; subst h1; simp
    · next hsk => injection h1 with h1; subst h1; exact ⟨rfl, rfl, hsk, rfl, rfl⟩
  have C : ∀ p : Obj P, (stepKd p).adj = p.adj ∧ (stepKd p).int = p.int ∧ (stepKd p).skd = p.skd ∧
      (stepKd p).info = p.info ∧ (stepKd p).pc = p.pc ∧ (p.verts ≠ [] → (stepKd p).kd.st ≠ .unsync) := by
    intro p
    unfold stepKd buildKd
    split
    · next hk =>
      split
      · next hv => exact ⟨rfl, rfl, rfl, rfl, rfl, fun h => absurd hv h⟩
      · rw [if_neg (by simp [hk])]; exact ⟨rfl, rfl, rfl, rfl, rfl, by simp⟩
    · next hk => exact ⟨rfl, rfl, rfl, rfl, rfl, fun _ => hk⟩
  have D : ∀ p : Obj P, (stepInfo p).adj = p.adj ∧ (stepInfo p).int = p.int ∧ (stepInfo p).skd = p.skd ∧
      (stepInfo p).kd = p.kd ∧ (stepInfo p).pc = p.pc ∧ (stepInfo p).info.st ≠ .unsync := by
    intro p
    unfold stepInfo
    split
    · exact ⟨rfl, rfl, rfl, rfl, rfl, by simp [buildInfo]⟩
    · next h => exact ⟨rfl, rfl, rfl, rfl, rfl, h⟩
  have E : ∀ p : Obj P, (stepBBox p).adj = p.adj ∧ (stepBBox p).int = p.int ∧ (stepBBox p).skd = p.skd ∧
      (stepBBox p).kd = p.kd ∧ (stepBBox p).pc = p.pc ∧ (stepBBox p).info = p.info ∧ (stepBBox p).bbox.st = .sync := by
    intro p
    unfold stepBBox
    split
    · exact ⟨rfl, rfl, rfl, rfl, rfl, rfl, rfl⟩
    · next h => exact ⟨rfl, rfl, rfl, rfl, rfl, rfl, by simpa using h⟩
  have G : ∀ p : Obj P, (stepPC p).adj = p.adj ∧ (stepPC p).int = p.int ∧ (stepPC p).skd = p.skd ∧
      (stepPC p).kd = p.kd ∧ (stepPC p).info = p.info ∧ (stepPC p).bbox = p.bbox ∧
      ((p.type = 1 ∨ p.type = 2 ∨ p.type = 4) ∨ p.pc.st ≠ .unsync → (stepPC p).pc.st ≠ .unsync) := by
    intro p
    unfold stepPC buildPC cleanPC
    split
    · next h =>
      simp only
      split
      · next h3 =>
        refine ⟨rfl, rfl, rfl, rfl, rfl, rfl, ?_⟩
        rintro (h' | h')
        · omega
        · exact absurd h h'
      · split
        · exact ⟨rfl, rfl, rfl, rfl, rfl, rfl, by simp⟩
        · next hno =>
          refine ⟨rfl, rfl, rfl, rfl, rfl, rfl, ?_⟩
          rintro (h' | h')
          · exact absurd h' hno
          · exact absurd h h'
    · next h => exact ⟨rfl, rfl, rfl, rfl, rfl, rfl, fun _ => h⟩
  have hverts : o1.verts = o.verts :=
    (same_stepSkd h1).verts.trans ((same_stepInt _).verts.trans (same_stepAdj _).verts)
  have g := G (stepBBox (stepInfo (stepKd o1)))
  have e := E (stepInfo (stepKd o1))
  have d := D (stepKd o1)
  have c := C o1
  refine ⟨?_, ?_, ?_, ?_, ?_, ?_, ?_⟩
  · rw [g.1, e.1, d.1, c.1, B.1]; exact A.1
  · rw [g.2.1, e.2.1, d.2.1, c.2.1, B.2.1]; exact A.2
  · rw [g.2.2.1, e.2.2.1, d.2.2.1, c.2.2.1]; exact B.2.2.1
  · intro hv
    rw [g.2.2.2.1, e.2.2.2.1, d.2.2.2.1]
    exact c.2.2.2.2.2 (by rw [hverts]; exact hv)
  · rw [g.2.2.2.2.1, e.2.2.2.2.2.1]; exact d.2.2.2.2.2
  · rw [g.2.2.2.2.2.1]; exact e.2.2.2.2.2.2
  · apply g.2.2.2.2.2.2
    have hpc : (stepBBox (stepInfo (stepKd o1))).pc = (stepInt (stepAdj o)).pc := by
      rw [e.2.2.2.2.1, d.2.2.2.2.1, c.2.2.2.2.1, B.2.2.2.2]
    have hpc0 : (stepInt (stepAdj o)).pc = o.pc := by
      have u : ∀ p : Obj P, (updateAdj p).pc = p.pc := by
        intro p; unfold updateAdj; split <;> rfl
      have a : (stepAdj o).pc = o.pc := by
        unfold stepAdj; split
        · exact u o
        · rfl
      have b : ∀ p : Obj P, (stepInt p).pc = p.pc := by
        intro p; unfold stepInt updateInt; split
        · simp only
          split <;> split <;> first | rfl | exact u p
        · rfl
      rw [b, a]
    have htype : (stepBBox (stepInfo (stepKd o1))).type = o.type :=
      ((same_stepBBox _).type.trans ((same_stepInfo _).type.trans (same_stepKd _).type)).trans
        ((same_stepSkd h1).type.trans ((same_stepInt _).type.trans (same_stepAdj _).type))
    by_cases h3 : o.type = 3
    · right
      rw [hpc, hpc0, hs.cloud h3]; simp
    · left
      rw [htype]
      have := hs.type
      omega

/-- what every operation keeps of `Sane` -/
structure Keeps (o o' : Obj P) : Prop where
  type : o'.type = o.type
  kd : o.kd.st ≠ .notSupported → o'.kd.st ≠ .notSupported
  adj : o.adj.st ≠ .notSupported → o'.adj.st ≠ .notSupported
  int : o.int.st ≠ .notSupported → o'.int.st ≠ .notSupported
  info : o.info.st ≠ .notSupported → o'.info.st ≠ .notSupported
  bbox : o.bbox.st ≠ .notSupported → o'.bbox.st ≠ .notSupported
  pc : o.pc.st ≠ .notSupported → o'.pc.st ≠ .notSupported
  cloud : o.type = 3 → o.pc.st = .none → o'.pc.st = .none

theorem Keeps.refl (o : Obj P) : Keeps o o := ⟨rfl, id, id, id, id, id, id, fun _ => id⟩

theorem Keeps.trans {o o' o'' : Obj P} (h : Keeps o o') (h' : Keeps o' o'') : Keeps o o'' :=
  ⟨h'.type.trans h.type, h'.kd ∘ h.kd, h'.adj ∘ h.adj, h'.int ∘ h.int, h'.info ∘ h.info, h'.bbox ∘ h.bbox, h'.pc ∘ h.pc,
    fun t n => h'.cloud (h.type.trans t) (h.cloud t n)⟩

theorem Keeps.sane {o o' : Obj P} (h : Keeps o o') (s : Sane o) : Sane o' :=
  ⟨by rw [h.type]; exact s.type, h.kd s.kd, h.adj s.adj, h.int s.int, h.info s.info, h.bbox s.bbox, h.pc s.pc,
    fun t => by rw [h.type] at t; exact h.cloud t (s.cloud t)⟩

/-- structures left alone -/
theorem keeps_eq {o o' : Obj P} (t : o'.type = o.type) (h1 : o'.kd = o.kd) (h2 : o'.adj = o.adj) (h3 : o'.int = o.int)
    (h4 : o'.info = o.info) (h5 : o'.bbox = o.bbox) (h6 : o'.pc = o.pc) : Keeps o o' := by
  constructor <;> simp_all

theorem kp_setPIDCell (o : Obj P) (id : Nat) (pid : Int) : Keeps o (setPIDCell o id pid) := by
  unfold setPIDCell; split <;> exact keeps_eq rfl rfl rfl rfl rfl rfl rfl

theorem kp_unsyncCell (o : Obj P) : Keeps o (unsyncCell o) :=
  ⟨rfl, id, cap_ne_ns, cap_ne_ns, cap_ne_ns, id, cap_ne_ns, fun _ => cap_none⟩

theorem kp_putCell (o : Obj P) (t : Elem) (conn : List Nat) (pid : Int) (i : Nat) : Keeps o (putCell o t conn pid i) := by
  have h1 : Keeps o ({ o with cells := o.cells ++ [(i, (⟨t, conn, 0, true⟩ : Cell))] } : Obj P) :=
    keeps_eq rfl rfl rfl rfl rfl rfl rfl
  exact (h1.trans (kp_setPIDCell _ i pid)).trans (kp_unsyncCell _)

theorem kp_addConnectedCell (o : Obj P) (gen : Nat) (conn : List Nat) (t : Elem) (pid : Int) (idtag : Option Nat) :
    Keeps o (addConnectedCell o gen conn t pid idtag).1 := by
  unfold addConnectedCell
  split
  · exact .refl o
  · split
    · exact .refl o
    · split
      · exact .refl o
      · exact kp_putCell ..

theorem kp_addCell (o : Obj P) (gen : Nat) (c : Cell) (idtag : Option Nat) : Keeps o (addCell o gen c idtag).1 := by
  unfold addCell
  split
  · exact .refl o
  · exact kp_putCell ..

theorem kp_addVertex (o : Obj P) (gen : Nat) (p : P) (idtag : Option Nat) : Keeps o (addVertex o gen p idtag).1 := by
  have h : ∀ i, Keeps o (addVertex.put o p i).1 := fun i =>
    ⟨rfl, cap_ne_ns, id, id, cap_ne_ns, cap_ne_ns, cap_ne_ns, fun _ => cap_none⟩
  unfold addVertex
  split
  · split
    · exact .refl o
    · exact h _
  · exact h _

theorem kp_buildSkd {o o' : Obj P} (hb : buildSkd o = some o') : Keeps o o' := by
  unfold buildSkd at hb
  split at hb
  · injection hb with hb; subst hb; exact .refl o
  · split at hb
    · injection hb with hb; subst hb; exact .refl o
    · split at hb
      · cases hb
      · split at hb
        · cases hb
        · injection hb with hb; subst hb; exact keeps_eq rfl rfl rfl rfl rfl rfl rfl

theorem kp_cleanSkd {o o' : Obj P} (hb : cleanSkd o = some o') : Keeps o o' := by
  unfold cleanSkd at hb
  split at hb
  · injection hb with hb; subst hb; exact .refl o
  · split at hb
    · cases hb
    · injection hb with hb; subst hb; exact keeps_eq rfl rfl rfl rfl rfl rfl rfl

theorem kp_buildKd (o : Obj P) : Keeps o (buildKd o) := by
  unfold buildKd
  split
  · exact .refl o
  · split
    · exact .refl o
    · exact ⟨rfl, fun _ => by simp, id, id, id, id, id, fun _ => id⟩

theorem kp_updateAdj (o : Obj P) : Keeps o (updateAdj o) := by
  unfold updateAdj
  split
  · exact .refl o
  · exact .refl o
  · exact ⟨rfl, id, fun _ => by simp, id, id, id, id, fun _ => id⟩

theorem kp_updateInt (o : Obj P) : Keeps o (updateInt o) := by
  have h1 : Keeps o (if o.adj.st ≠ .sync then updateAdj o else o) := by
    split
    · exact kp_updateAdj o
    · exact .refl o
  unfold updateInt
  simp only
  revert h1
  generalize (if o.adj.st ≠ .sync then updateAdj o else o) = q
  intro h1
  refine h1.trans ?_
  split
  · exact .refl q
  · exact .refl q
  · exact ⟨rfl, id, id, fun _ => by simp, id, id, id, fun _ => id⟩

theorem kp_cleanPC (o : Obj P) : Keeps o (cleanPC o) := ⟨rfl, id, id, id, id, id, cap_ne_ns, fun _ => cap_none⟩

theorem kp_buildPC (o : Obj P) : Keeps o (buildPC o) := by
  refine (kp_cleanPC o).trans ?_
  unfold buildPC
  simp only
  split
  · exact .refl _
  · next h3 =>
    split
    · exact ⟨rfl, id, id, id, id, id, fun _ => by simp, fun t _ => absurd t h3⟩
    · exact .refl _

theorem kp_setUnsyncAll (o : Obj P) : Keeps o (setUnsyncAll o) :=
  ⟨rfl, cap_ne_ns, cap_ne_ns, cap_ne_ns, cap_ne_ns, fun _ => by simp [setUnsyncAll, cleanPC], cap_ne_ns,
    fun _ => cap_none⟩

theorem kp_update {o o' : Obj P} (hu : update o = some o') : Keeps o o' := by
  unfold update at hu
  simp only [Option.map_eq_some_iff] at hu
  obtain ⟨o1, h1, rfl⟩ := hu
  have a1 : Keeps o (stepAdj o) := by
    unfold stepAdj; split
    · exact kp_updateAdj o
    · exact .refl o
  have a2 : ∀ o : Obj P, Keeps o (stepInt o) := by
    intro o; unfold stepInt; split
    · exact kp_updateInt o
    · exact .refl o
  have a3 : Keeps (stepInt (stepAdj o)) o1 := by
    unfold stepSkd at h1; split at h1
    · exact kp_buildSkd h1
    · injection h1 with h1; subst h1; exact .refl _
  have a4 : ∀ o : Obj P, Keeps o (stepKd o) := by
    intro o; unfold stepKd; split
    · exact kp_buildKd o
    · exact .refl o
  have a5 : ∀ o : Obj P, Keeps o (stepInfo o) := by
    intro o; unfold stepInfo; split
    · exact ⟨rfl, id, id, id, fun _ => by simp [buildInfo], id, id, fun _ => id⟩
    · exact .refl o
  have a6 : ∀ o : Obj P, Keeps o (stepBBox o) := by
    intro o; unfold stepBBox; split
    · exact ⟨rfl, id, id, id, id, fun _ => by simp, id, fun _ => id⟩
    · exact .refl o
  have a7 : ∀ o : Obj P, Keeps o (stepPC o) := by
    intro o; unfold stepPC; split
    · exact kp_buildPC o
    · exact .refl o
  exact ((((((a1.trans (a2 _)).trans a3).trans (a4 _)).trans (a5 _)).trans (a6 _)).trans (a7 _))

theorem kp_addTris : ∀ (ts : List (List Nat)) (o : Obj P) (pid : Int) (n : Nat), Keeps o (addTris o pid n ts).1 := by
  intro ts
  induction ts with
  | nil => intro o pid n; exact .refl o
  | cons t ts ih => intro o pid n; exact (kp_addConnectedCell o 0 t .triangle pid (some n)).trans (ih _ _ _)

theorem kp_delCell (o : Obj P) (id : Nat) : Keeps o (delCell o id) := keeps_eq rfl rfl rfl rfl rfl rfl rfl

theorem kp_triStep (bary : Obj P → Nat → P) {s s' : Obj P × Nat × Nat} (id : Nat)
    (hs : triStep bary s id = some s') : Keeps s.1 s'.1 := by
  unfold triStep at hs
  split at hs
  · cases hs
  · split at hs
    · injection hs with hs; subst hs; exact (kp_delCell _ _).trans (kp_addTris _ _ _ _)
    · injection hs with hs; subst hs; exact (kp_delCell _ _).trans (kp_addTris _ _ _ _)
    · injection hs with hs; subst hs
      exact (kp_addVertex _ _ _ _).trans ((kp_delCell _ _).trans (kp_addTris _ _ _ _))
    · injection hs with hs; subst hs; exact .refl _
    · cases hs

theorem kp_triLoop (bary : Obj P → Nat → P) : ∀ (ids : List Nat) {s s' : Obj P × Nat × Nat},
    triLoop bary ids s = some s' → Keeps s.1 s'.1 := by
  intro ids
  induction ids with
  | nil => intro s s' hs; injection hs with hs; subst hs; exact .refl _
  | cons id ids ih =>
    intro s s' hs
    rw [triLoop, Option.bind_eq_some_iff] at hs
    obtain ⟨s1, h1, h2⟩ := hs
    exact (kp_triStep bary id h1).trans (ih h2)

theorem kp_triangulateBody (bary : Obj P → Nat → P) {o o' : Obj P} (ht : triangulateBody bary o = some o') :
    Keeps o o' := by
  unfold triangulateBody at ht
  split at ht
  · cases ht
  · split at ht
    · injection ht with ht; subst ht; exact .refl o
    · rw [Option.map_eq_some_iff] at ht
      obtain ⟨s, hs, rfl⟩ := ht
      refine (kp_triLoop bary _ hs).trans ?_
      exact ⟨rfl, cap_ne_ns, cap_ne_ns, cap_ne_ns, cap_ne_ns, id, cap_ne_ns, fun _ => cap_none⟩

theorem kp_addAll : ∀ (l : List (Nat × Cell)) (o : Obj P),
    Keeps o (l.foldl (fun o c => (addCell o 0 c.2 (some c.1)).1) o) := by
  intro l
  induction l with
  | nil => intro o; exact .refl o
  | cons c l ih => intro o; exact (kp_addCell o 0 c.2 (some c.1)).trans (ih _)

theorem kp_degradeBody [DecidableEq P] {o o' : Obj P} (fill : Bool) (hd : degradeBody o fill = some o') :
    Keeps o o' := by
  unfold degradeBody at hd
  rw [Option.map_eq_some_iff] at hd
  obtain ⟨s, hs, rfl⟩ := hd
  have h0 : Keeps o { o with cells := o.cells.filter (fun c => ! s.del.contains c.1) } :=
    keeps_eq rfl rfl rfl rfl rfl rfl rfl
  have h2 := h0.trans (kp_addAll s.ins { o with cells := o.cells.filter (fun c => ! s.del.contains c.1) })
  have h3 : ∀ q : Obj P, Keeps o q → Keeps o (if s.del = [] then q else unsyncTri q) := by
    intro q hq
    split
    · exact hq
    · exact hq.trans ⟨rfl, cap_ne_ns, cap_ne_ns, cap_ne_ns, cap_ne_ns, id, cap_ne_ns, fun _ => cap_none⟩
  apply h3
  split
  · exact h2
  · exact h2.trans (keeps_eq rfl rfl rfl rfl rfl rfl rfl)

theorem keeps_step [DecidableEq P] {rp : Bool} {o o' : Obj P} (hs : Step rp o o') : Keeps o o' := by
  cases hs with
  | addVertex => exact kp_addVertex ..
  | modifyVertex p id =>
    unfold modifyVertex
    split
    · exact ⟨rfl, cap_ne_ns, _root_.id, _root_.id, cap_ne_ns, cap_ne_ns, _root_.id, fun _ => _root_.id⟩
    · exact .refl o
  | addConnectedCell => exact kp_addConnectedCell ..
  | addCell => exact kp_addCell ..
  | setPIDCell => exact kp_setPIDCell ..
  | setPIDVec l => simp only [Verif.Mesh.setPIDVec]; split <;> exact keeps_eq rfl rfl rfl rfl rfl rfl rfl
  | setPIDMap m => simp only [Verif.Mesh.setPIDMap]; split <;> exact keeps_eq rfl rfl rfl rfl rfl rfl rfl
  | setPIDName p s => simp only [Verif.Mesh.setPIDName]; split <;> exact keeps_eq rfl rfl rfl rfl rfl rfl rfl
  | resyncPID => exact keeps_eq rfl rfl rfl rfl rfl rfl rfl
  | buildSkd hb => exact kp_buildSkd hb
  | cleanSkd hb => exact kp_cleanSkd hb
  | buildKd => exact kp_buildKd o
  | cleanKd => exact ⟨rfl, cap_ne_ns, id, id, id, id, id, fun _ => id⟩
  | buildInfo => exact ⟨rfl, id, id, id, fun _ => by simp [Verif.Mesh.buildInfo], id, id, fun _ => id⟩
  | cleanInfo => exact ⟨rfl, id, id, id, cap_ne_ns, id, id, fun _ => id⟩
  | cleanBBox => exact ⟨rfl, id, id, id, id, cap_ne_ns, id, fun _ => id⟩
  | updateAdj => exact kp_updateAdj o
  | updateInt => exact kp_updateInt o
  | destroyAdj => exact ⟨rfl, id, fun _ => by simp [Verif.Mesh.destroyAdj], id, id, id, id, fun _ => id⟩
  | destroyInt => exact ⟨rfl, id, id, fun _ => by simp [Verif.Mesh.destroyInt], id, id, id, fun _ => id⟩
  | buildPC => exact kp_buildPC o
  | cleanPC => exact kp_cleanPC o
  | setUnsyncAll => exact kp_setUnsyncAll o
  | update hu => exact kp_update hu
  | resetPatch _ hr =>
    unfold resetPatch at hr
    simp only [Option.map_eq_some_iff] at hr
    obtain ⟨o1, h1, rfl⟩ := hr
    have k := kp_cleanSkd h1
    exact ⟨k.type, fun _ => by simp, fun _ => k.adj (by simp), fun _ => k.int (by simp), fun _ => by simp,
      fun _ => by simp, fun _ => by simp, fun _ _ => rfl⟩
  | cleanGeometry vs cs =>
    unfold Verif.Mesh.cleanGeometry
    simp only
    split
    · exact keeps_eq rfl rfl rfl rfl rfl rfl rfl
    · exact Keeps.trans (o' := { o with verts := vs, cells := cs }) (keeps_eq rfl rfl rfl rfl rfl rfl rfl) (kp_setUnsyncAll _)
  | external vs cs => exact Keeps.trans (o' := { o with verts := vs, cells := cs }) (keeps_eq rfl rfl rfl rfl rfl rfl rfl) (kp_setUnsyncAll _)
  | triangulate bary ht =>
    unfold Verif.Mesh.triangulate at ht
    rw [Option.bind_eq_some_iff] at ht
    obtain ⟨o1, h1, h2⟩ := ht
    exact (kp_triangulateBody bary h1).trans (kp_update h2)
  | degrade fill _ hd =>
    unfold Verif.Mesh.degrade at hd
    rw [Option.bind_eq_some_iff] at hd
    obtain ⟨o1, h1, h2⟩ := hd
    exact (kp_degradeBody fill h1).trans (kp_update h2)

theorem reach_sane [DecidableEq P] {rp : Bool} {o : Obj P} (r : Reach rp o) : Sane o := by
  induction r with
  | ctor type h =>
    unfold ctor at h
    simp only at h
    split at h
    · cases h
    · injection h with h; subst h
      refine ⟨?_, by simp, by simp, by simp, by simp, by simp, by simp, fun _ => rfl⟩
      simp only
      omega
  | ctorPatch type vs cs a i _ _ h =>
    unfold ctorPatch at h
    simp only at h
    split at h
    · cases h
    · split at h
      · cases h
      · injection h with h; subst h
        refine ⟨?_, by simp, ?_, ?_, by simp, by simp, by simp, fun _ => rfl⟩
        · simp only
          omega
        · simp only; split <;> simp
        · simp only; split <;> simp
  | step _ hs ih => exact (keeps_step hs).sane ih

theorem update_succeeds {o : Obj P} (ht : TreeOk o) (hc : complete o = true) : ∃ o', update o = some o' := by
  have hm : SameMesh o (stepInt (stepAdj o)) := (same_stepAdj o).trans (same_stepInt _)
  have hsk : (stepInt (stepAdj o)).skd = o.skd := by
    have u : ∀ p : Obj P, (updateAdj p).skd = p.skd := by
      intro p; unfold updateAdj; split <;> rfl
    have a : (stepAdj o).skd = o.skd := by
      unfold stepAdj; split
      · exact u o
      · rfl
    have b : ∀ p : Obj P, (stepInt p).skd = p.skd := by
      intro p; unfold stepInt updateInt; split
      · simp only
        split <;> split <;> first | rfl | exact u p
      · rfl
    rw [b, a]
  have hcomp : complete (stepInt (stepAdj o)) = true := by
    have : complete (stepInt (stepAdj o)) = complete o := by
      unfold complete; rw [hm.verts, hm.cells]
    rw [this]; exact hc
  unfold update
  suffices h : ∃ o1, stepSkd (stepInt (stepAdj o)) = some o1 by
    obtain ⟨o1, h1⟩ := h
    exact ⟨_, by rw [h1]; rfl⟩
  unfold stepSkd
  split
  · next hu =>
    have h3 : o.type ≠ 3 := by
      intro h3
      rw [hsk, ht.supported.2 h3] at hu
      cases hu
    unfold buildSkd
    rw [if_neg (by rw [hu]; simp), if_neg (by rw [hu]; simp),
      if_neg (by rw [hm.tree, ht.allocated h3]; simp), if_neg (by simp [hcomp])]
    exact ⟨_, rfl⟩
  · exact ⟨_, rfl⟩

/-- C31: `update` succeeds on every object whose cells only use vertices of the mesh, reached without resetting the
patch of a point cloud. -/
theorem C31_succeeds [DecidableEq P] {o : Obj P} (r : Reach false o) (hc : complete o = true) :
    ∃ o', update o = some o' := update_succeeds (C32_support_partial r) hc

/-- C31: what was never requested stays unbuilt, the adjacencies excepted when the interfaces were stale (they need
them); the bounding box is always computed. -/
theorem C31_none_stays {o o' : Obj P} (hu : update o = some o') :
    (o.adj.st = .none → o.int.st ≠ .unsync → o'.adj.st = .none) ∧ (o.int.st = .none → o'.int.st = .none) ∧
    (o.skd.st = .none → o'.skd.st = .none) ∧ (o.kd.st = .none → o'.kd.st = .none) ∧
    (o.info.st = .none → o'.info.st = .none) ∧ (o.pc.st = .none → o'.pc.st = .none) := by
  unfold update at hu
  simp only [Option.map_eq_some_iff] at hu
  obtain ⟨o1, h1, rfl⟩ := hu
  have U : ∀ p : Obj P, (updateAdj p).int = p.int ∧ (updateAdj p).skd = p.skd ∧ (updateAdj p).kd = p.kd ∧
      (updateAdj p).info = p.info ∧ (updateAdj p).pc = p.pc := by
    intro p; unfold updateAdj; split <;> exact ⟨rfl, rfl, rfl, rfl, rfl⟩
  have A : (stepAdj o).int = o.int ∧ (stepAdj o).skd = o.skd ∧ (stepAdj o).kd = o.kd ∧
      (stepAdj o).info = o.info ∧ (stepAdj o).pc = o.pc ∧ (o.adj.st = .none → (stepAdj o).adj = o.adj) := by
    unfold stepAdj
    split
    · next h =>
      obtain ⟨u1, u2, u3, u4, u5⟩ := U o
      exact ⟨u1, u2, u3, u4, u5, fun h' => by rw [h'] at h; cases h⟩
    · exact ⟨rfl, rfl, rfl, rfl, rfl, fun _ => rfl⟩
  have B : ∀ p : Obj P, (stepInt p).skd = p.skd ∧ (stepInt p).kd = p.kd ∧ (stepInt p).info = p.info ∧
      (stepInt p).pc = p.pc ∧ (p.int.st = .none → (stepInt p).int = p.int) ∧
      (p.int.st ≠ .unsync → (stepInt p).adj = p.adj) := by
    intro p
    obtain ⟨u1, u2, u3, u4, u5⟩ := U p
    unfold stepInt
    split
    · next h =>
      refine ⟨?_, ?_, ?_, ?_, fun h' => (by rw [h'] at h; cases h), fun h' => absurd h h'⟩ <;>
        unfold updateInt <;> simp only <;> split <;> split <;> first | rfl | assumption
    · exact ⟨rfl, rfl, rfl, rfl, fun _ => rfl, fun _ => rfl⟩
  have C : o1.adj = (stepInt (stepAdj o)).adj ∧ o1.int = (stepInt (stepAdj o)).int ∧
      o1.kd = (stepInt (stepAdj o)).kd ∧ o1.info = (stepInt (stepAdj o)).info ∧ o1.pc = (stepInt (stepAdj o)).pc ∧
      ((stepInt (stepAdj o)).skd.st = .none → o1.skd = (stepInt (stepAdj o)).skd) := by
    unfold stepSkd at h1
    split at h1
    · next hsk =>
      unfold buildSkd at h1
      rw [if_neg (by simp [hsk]), if_neg (by simp [hsk])] at h1
      split at h1
      · cases h1
      · split at h1
        · cases h1
        · injection h1 with h1; subst h1
          exact ⟨rfl, rfl, rfl, rfl, rfl, fun h' => by rw [h'] at hsk; cases hsk⟩
    · injection h1 with h1; subst h1; exact ⟨rfl, rfl, rfl, rfl, rfl, fun _ => rfl⟩
  have D : ∀ p : Obj P, (stepKd p).adj = p.adj ∧ (stepKd p).int = p.int ∧ (stepKd p).skd = p.skd ∧
      (stepKd p).info = p.info ∧ (stepKd p).pc = p.pc ∧ (p.kd.st = .none → (stepKd p).kd = p.kd) := by
    intro p
    unfold stepKd buildKd
    split
    · next h =>
      split
      · exact ⟨rfl, rfl, rfl, rfl, rfl, fun _ => rfl⟩
      · split
        · exact ⟨rfl, rfl, rfl, rfl, rfl, fun _ => rfl⟩
        · exact ⟨rfl, rfl, rfl, rfl, rfl, fun h' => by rw [h'] at h; cases h⟩
    · exact ⟨rfl, rfl, rfl, rfl, rfl, fun _ => rfl⟩
  have E : ∀ p : Obj P, (stepInfo p).adj = p.adj ∧ (stepInfo p).int = p.int ∧ (stepInfo p).skd = p.skd ∧
      (stepInfo p).kd = p.kd ∧ (stepInfo p).pc = p.pc ∧ (p.info.st = .none → (stepInfo p).info = p.info) := by
    intro p
    unfold stepInfo
    split
    · next h => exact ⟨rfl, rfl, rfl, rfl, rfl, fun h' => by rw [h'] at h; cases h⟩
    · exact ⟨rfl, rfl, rfl, rfl, rfl, fun _ => rfl⟩
  have F : ∀ p : Obj P, (stepBBox p).adj = p.adj ∧ (stepBBox p).int = p.int ∧ (stepBBox p).skd = p.skd ∧
      (stepBBox p).kd = p.kd ∧ (stepBBox p).pc = p.pc ∧ (stepBBox p).info = p.info := by
    intro p
    unfold stepBBox
    split <;> exact ⟨rfl, rfl, rfl, rfl, rfl, rfl⟩
  have G : ∀ p : Obj P, (stepPC p).adj = p.adj ∧ (stepPC p).int = p.int ∧ (stepPC p).skd = p.skd ∧
      (stepPC p).kd = p.kd ∧ (stepPC p).info = p.info ∧ (p.pc.st = .none → (stepPC p).pc = p.pc) := by
    intro p
    unfold stepPC buildPC cleanPC
    split
    · next h =>
      simp only
      split
      · exact ⟨rfl, rfl, rfl, rfl, rfl, fun h' => by rw [h'] at h; cases h⟩
      · split <;> exact ⟨rfl, rfl, rfl, rfl, rfl, fun h' => by rw [h'] at h; cases h⟩
    · exact ⟨rfl, rfl, rfl, rfl, rfl, fun _ => rfl⟩
  obtain ⟨a1, a2, a3, a4, a5, a6⟩ := A
  obtain ⟨b1, b2, b3, b4, b5, b6⟩ := B (stepAdj o)
  obtain ⟨c1, c2, c3, c4, c5, c6⟩ := C
  obtain ⟨d1, d2, d3, d4, d5, d6⟩ := D o1
  obtain ⟨e1, e2, e3, e4, e5, e6⟩ := E (stepKd o1)
  obtain ⟨f1, f2, f3, f4, f5, f6⟩ := F (stepInfo (stepKd o1))
  obtain ⟨g1, g2, g3, g4, g5, g6⟩ := G (stepBBox (stepInfo (stepKd o1)))
  refine ⟨fun h h' => ?_, fun h => ?_, fun h => ?_, fun h => ?_, fun h => ?_, fun h => ?_⟩
  · rw [g1, f1, e1, d1, c1, b6 (by rw [a1]; exact h'), a6 h]; exact h
  · rw [g2, f2, e2, d2, c2, b5 (by rw [a1]; exact h), a1]; exact h
  · rw [g3, f3, e3, d3, c6 (by rw [b1, a2]; exact h), b1, a2]; exact h
  · rw [g4, f4, e4, d6 (by rw [c3, b2, a3]; exact h), c3, b2, a3]; exact h
  · rw [g5, f6, e6 (by rw [d4, c4, b3, a4]; exact h), d4, c4, b3, a4]; exact h
  · rw [g6 (by rw [f5, e5, d5, c5, b4, a5]; exact h), f5, e5, d5, c5, b4, a5]; exact h

/-- C31, together with C30: after `update` of a reachable object everything requested is up to date *and* computed
from the present mesh. -/
theorem C31_up_to_date_partial [DecidableEq P] {rp : Bool} {o o' : Obj P} (r : Reach rp o) (hu : update o = some o') :
    Fresh o' ∧ SameMesh o o' ∧ o'.bbox.val = some o.verts ∧ o'.adj.st ≠ .unsync ∧ o'.int.st ≠ .unsync ∧
    o'.skd.st ≠ .unsync ∧ (o.verts ≠ [] → o'.kd.st ≠ .unsync) ∧ o'.info.st ≠ .unsync ∧ o'.pc.st ≠ .unsync := by
  have hf := fresh_update (C30_fresh_partial r) hu
  have hm := update_mesh hu
  obtain ⟨h1, h2, h3, h4, h5, h6, h7⟩ := C31_no_stale_partial (reach_sane r) hu
  exact ⟨hf, hm, (hf.bbox h6).trans (congrArg some hm.verts), h1, h2, h3, h4, h5, h7⟩

/-- an object with several stale structures -/
def demoStale : Obj Int := (modifyVertex (addConnectedCell demoBuilt 99 [0, 1, 2] .triangle 4 (some 10)).1 77 0).1

theorem demoStale_reach : Reach false demoStale :=
  .step (.step demoBuilt_reach (.addConnectedCell 99 [0, 1, 2] .triangle 4 (some 10) (by decide))) (.modifyVertex 77 0)

example : demoStale.skd.st = .unsync ∧ demoStale.kd.st = .unsync ∧ demoStale.adj.st = .unsync ∧
    demoStale.info.st = .unsync ∧ demoStale.int.st = .none ∧ complete demoStale = true ∧
    demoStale.verts ≠ [] := by decide

/-- C31 is false for a mesh without vertices: after removing all vertices through the patch (and `setUnsyncAll`), a
kd-tree that had been built stays stale whatever the number of updates. -/
theorem C31_empty_mesh_fails : ∃ o : Obj Int, Reach false o ∧
    ∃ o', update o = some o' ∧ o'.kd.st = .unsync ∧ o'.kd.val ≠ some o'.verts := by
  refine ⟨setUnsyncAll { demoBuilt with verts := [], cells := [] }, .step demoBuilt_reach (.external [] [] ?_ ?_),
    (update (setUnsyncAll { demoBuilt with verts := [], cells := [] })).get (by decide), by simp, by decide, by decide⟩
  · unfold Ok; decide
  · unfold Ok; decide

/-- C31 is false for stale interfaces without adjacencies: the never requested adjacencies are built. -/
theorem C31_interfaces_fails : ∃ o : Obj Int, Reach false o ∧ o.adj.st = .none ∧
    ∃ o', update o = some o' ∧ o'.adj.st = .sync := by
  refine ⟨setUnsyncAll (destroyAdj (updateInt demoBuilt)), .step (.step (.step demoBuilt_reach .updateInt) .destroyAdj)
    .setUnsyncAll, by decide, (update (setUnsyncAll (destroyAdj (updateInt demoBuilt)))).get (by decide), by simp, by decide⟩

end Verif.Mesh
