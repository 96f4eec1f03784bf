import Verif.Utils.MirrorRunProps

/-!
C131: projected patches.  Theorems about `Verif.Utils.Patch`.
-/

namespace Verif.Utils
open List hiding get get_of_mem
open Verif.Shape Verif.Manip Verif.Mesh Verif.Field Verif.Rbf
noncomputable section

/-! ### Specification -/

/-- the mesh of `r` is the mesh of `o` with every vertex at `f` of its old position -/
structure MovedBy (f : V3 → V3) (o r : Obj V3) : Prop where
  type : r.type = o.type
  cells : r.cells = o.cells
  ids : r.verts.map Prod.fst = o.verts.map Prod.fst
  moved : ∀ id p, get o.verts id = some p → get r.verts id = some (f p)

/-- search trees of `r` that were asked for are there and describe its mesh -/
structure TreesAsked (skd kd : Bool) (r : Obj V3) : Prop where
  cells : skd = true → r.type ≠ 3 → r.skd.st = .sync ∧ r.skd.val = some (shapes r)
  points : kd = true → r.verts ≠ [] → r.kd.st = .sync ∧ r.kd.val = some r.verts

/-- a mesh that can be moved: caches up to date, distinct ids, no missing vertex -/
structure GoodPatch (o : Obj V3) : Prop where
  fresh : Fresh o
  tree : TreeOk o
  complete : complete o = true
  ok : Ok o.verts

/-- a mesh that can be copied -/
structure GoodCopy (o : Obj V3) : Prop where
  patch : GoodPatch o
  low : 1 ≤ o.type
  high : o.type ≤ 4
  elems : ∀ c ∈ o.cells, refused o.type c.2.elem = false
  names : (o.names.map Prod.fst).Nodup
  kd : o.kd.st = .sync → o.verts ≠ []
  pc : o.type = 3 → o.pc.st ≠ .sync

/-! ### Helpers -/

theorem fresh_cleanInfo {o : Obj V3} (h : Fresh o) : Fresh (cleanInfo o) :=
  ⟨h.kd, h.skd, h.adj, h.int, fun e => absurd e (cap_ne_sync _), h.bbox, h.pc⟩

theorem fresh_moveAll (f : V3 → V3) {o : Obj V3} (h : Fresh o) : Fresh (moveAll f o) := by
  unfold moveAll
  generalize o.verts = l
  induction l generalizing o with
  | nil => exact h
  | cons e l ih => exact ih (fresh_modifyVertex h _ _)

theorem complete_of {o o' : Obj V3} (hc : o'.cells = o.cells) (hv : o'.verts.map Prod.fst = o.verts.map Prod.fst) :
    complete o' = complete o := by
  unfold complete
  rw [hc]
  have : ∀ v, has o'.verts v = has o.verts v := by
    intro v
    have := has_iff o'.verts v
    have h2 := has_iff o.verts v
    rw [Bool.eq_iff_iff, this, h2, hv]
  simp only [this]

theorem moved_of_map {f : V3 → V3} {o r : Obj V3} (h1 : r.type = o.type) (h2 : r.cells = o.cells)
    (h3 : r.verts = o.verts.map (fun x => (x.1, f x.2))) : MovedBy f o r where
  type := h1
  cells := h2
  ids := by rw [h3, map_map]; rfl
  moved := by
    intro id p hp
    rw [h3]
    have := get_mapv f o.verts id
    rw [hp] at this
    exact this

theorem project_obj (sf : Surface) {surf o : Obj V3} (hs : GoodSurface surf) (ho : GoodPatch o) :
    ∃ r, projectObj sf surf o = some r ∧ MovedBy (sf.proj surf) o r ∧ GoodPatch r ∧ r.pids = o.pids ∧ r.names = o.names := by
  obtain ⟨x, hx⟩ := good_skd hs
  obtain ⟨m1, m2, m3, m4, m5, m6, m7⟩ := move_all (sf.proj surf) ho.ok
  have hm := moved_of_map (f := sf.proj surf) m3 m2 m1
  have ht : TreeOk (cleanInfo (moveAll (sf.proj surf) o)) := treeOk_of ho.tree m3 m6 m7
  have hc : complete (cleanInfo (moveAll (sf.proj surf) o)) = true := by
    rw [complete_of (o := o) (o' := cleanInfo (moveAll (sf.proj surf) o)) m2 hm.ids]; exact ho.complete
  obtain ⟨r, hr⟩ := update_succeeds ht hc
  have e := update_mesh hr
  have et := st_update hr
  refine ⟨r, ?_, ?_, ?_, e.pids.trans m4, e.names.trans m5⟩
  · unfold projectObj; rw [hx]; exact hr
  · exact ⟨e.type.trans m3, e.cells.trans m2, by rw [e.verts]; exact hm.ids, by
      intro id p hp; rw [e.verts]; exact hm.moved id p hp⟩
  · refine ⟨fresh_update (fresh_cleanInfo (fresh_moveAll _ ho.fresh)) hr, treeOk_of ht et.type et.tree et.skd, ?_, ?_⟩
    · rw [complete_of (o := cleanInfo (moveAll (sf.proj surf) o)) e.cells (by rw [e.verts])]; exact hc
    · unfold Ok; rw [e.verts]; show ((moveAll _ o).verts.map Prod.fst).Nodup; rw [hm.ids]; exact ho.ok

theorem build_trees (skd kd : Bool) {o : Obj V3} (ho : GoodPatch o) :
    ∃ r, buildTrees skd kd o = some r ∧ SameMesh o r ∧ TreesAsked skd kd r := by
  have h1 : ∃ x, (if skd = true then buildSkd o else some o) = some x ∧ SameMesh o x ∧ Fresh x ∧
      (skd = true → o.type ≠ 3 → x.skd.st = .sync) := by
    cases skd with
    | false => exact ⟨o, rfl, SameMesh.refl o, ho.fresh, by simp⟩
    | true =>
      obtain ⟨x, hx⟩ := good_skd ⟨ho.tree, ho.complete⟩
      refine ⟨x, by simpa using hx, same_buildSkd hx, fresh_buildSkd ho.fresh hx, ?_⟩
      intro _ h3
      have hn : o.skd.st ≠ .notSupported := fun e => h3 (ho.tree.supported.1 e)
      unfold buildSkd at hx
      rw [if_neg hn] at hx
      split at hx
      · rename_i hs; injection hx with hx; subst hx; exact hs
      · split at hx
        · cases hx
        · split at hx
          · cases hx
          · injection hx with hx; subst hx; rfl
  obtain ⟨x, hx, hm, hf, hs⟩ := h1
  have key : ∀ r : Obj V3, r = (if kd = true then Mesh.buildKd x else x) → SameMesh x r ∧ Fresh r ∧ r.skd = x.skd ∧
      (kd = true → r.verts ≠ [] → r.kd.st = .sync) := by
    intro r hr
    cases kd with
    | false => subst hr; exact ⟨SameMesh.refl _, hf, rfl, by simp⟩
    | true =>
      simp only [if_true] at hr
      subst hr
      refine ⟨same_buildKd x, fresh_buildKd hf, ?_, ?_⟩
      · unfold Mesh.buildKd cleanKd; split
        · rfl
        · split <;> rfl
      · intro _ hv
        rw [(same_buildKd x).verts] at hv
        unfold Mesh.buildKd
        rw [if_neg hv]
        split
        · assumption
        · rfl
  obtain ⟨k1, k2, k3, k4⟩ := key _ rfl
  refine ⟨_, by unfold buildTrees; rw [hx]; rfl, hm.trans k1, ?_, ?_⟩
  · intro h1 h2
    have : o.type ≠ 3 := by rw [← (hm.trans k1).type]; exact h2
    have hss := hs h1 this
    rw [← k3] at hss
    exact ⟨hss, (k2.skd hss).1⟩
  · intro h1 h2
    have := k4 h1 h2
    exact ⟨this, k2.kd this⟩

theorem MovedBy.congr {f : V3 → V3} {o o' r r' : Obj V3} (h : MovedBy f o r) (e : SameMesh r r')
    (h1 : o'.type = o.type) (h2 : o'.cells = o.cells) (h3 : o'.verts = o.verts) : MovedBy f o' r' :=
  ⟨by rw [e.type, h.type, h1], by rw [e.cells, h.cells, h2], by rw [e.verts, h.ids, h3], by
    intro id p hp; rw [e.verts]; rw [h3] at hp; exact h.moved id p hp⟩

/-! ### C131 -/

/-- **C131** (a patch of its own): the returned mesh has the vertices, ids and cells of the target, every vertex at its
projection on the surface; the trees asked for are built; no mesh of the program changes. -/
theorem C131_projected (sf : Surface) (w : World) (s : Patch) {g t : Nat} (hg : s.geom = some g) (ht : s.target = some t)
    (ho : s.onTarget = false) (hs : GoodSurface (w g)) (hp : GoodCopy (w t)) :
    ∃ s' r, s.execute sf w = some (s', w) ∧ s'.projected w = some r ∧ MovedBy (sf.proj (w g)) (w t) r ∧
      TreesAsked s.skd s.kd r := by
  have hskd : (w t).type = 3 → (w t).skd.st ≠ .sync := by
    intro h3; rw [hp.patch.tree.supported.2 h3]; simp
  obtain ⟨c, c1, c2, c3, c4, -, -, -, -, -, -, -, c5, c6⟩ := C60_clone_partial hp.patch.fresh hp.low hp.high hp.elems hp.names
    hskd hp.kd hp.pc
  have hc : GoodPatch c := ⟨c5, c6, by rw [complete_of c4 (by rw [c3])]; exact hp.patch.complete, by
    unfold Ok; rw [c3]; exact hp.patch.ok⟩
  obtain ⟨r, r1, r2, r3, -⟩ := project_obj sf hs hc
  obtain ⟨q, q1, q2, q3⟩ := build_trees s.skd s.kd r3
  refine ⟨{ s with result := some (.inr q) }, q, ?_, rfl, r2.congr q2 c2.symm c4.symm c3.symm, q3⟩
  unfold Patch.execute
  rw [hg, ht]
  simp only [ho, Bool.false_eq_true, if_false, c1, r1, q1, Option.bind_some, Option.map_some]

/-- **C131** (on the target): the target itself is moved, and returned; every other mesh stays. -/
theorem C131_on_target (sf : Surface) (w : World) (s : Patch) {g t : Nat} (hg : s.geom = some g) (ht : s.target = some t)
    (ho : s.onTarget = true) (hs : GoodSurface (w g)) (hp : GoodPatch (w t)) :
    ∃ s' w', s.execute sf w = some (s', w') ∧ s'.projected w' = some (w' t) ∧ MovedBy (sf.proj (w g)) (w t) (w' t) ∧
      (w' t).pids = (w t).pids ∧ (w' t).names = (w t).names ∧ TreesAsked s.skd s.kd (w' t) ∧ ∀ h, h ≠ t → w' h = w h := by
  obtain ⟨r, r1, r2, r3, r4, r5⟩ := project_obj sf hs hp
  obtain ⟨q, q1, q2, q3⟩ := build_trees s.skd s.kd r3
  refine ⟨{ s with result := some (.inl t) }, fun h => if h = t then q else w h, ?_, rfl, ?_, ?_, ?_, ?_, ?_⟩
  · unfold Patch.execute
    rw [hg, ht]
    simp only [ho, if_true, r1, q1, Option.bind_some, Option.map_some]
  · simp only [if_true]; exact r2.congr q2 rfl rfl rfl
  · simp only [if_true]; rw [q2.pids, r4]
  · simp only [if_true]; rw [q2.names, r5]
  · simp only [if_true]; exact q3
  · intro h hh; simp only [if_neg hh]

/-- **C131** (again): on a target that is not the surface, with a projection that leaves projected points where they are, a
second execution leaves every vertex of the target where the first one put it. -/
theorem C131_again (sf : Surface) (w : World) (s : Patch) {g t : Nat} (hg : s.geom = some g) (ht : s.target = some t)
    (hne : g ≠ t) (ho : s.onTarget = true) (hs : GoodSurface (w g)) (hp : GoodPatch (w t))
    (hi : ∀ p, sf.proj (w g) (sf.proj (w g) p) = sf.proj (w g) p) :
    ∃ s' w' s'' w'', s.execute sf w = some (s', w') ∧ s'.execute sf w' = some (s'', w'') ∧
      ∀ id p, get (w' t).verts id = some p → get (w'' t).verts id = some p := by
  obtain ⟨r, r1, r2, r3, r4, r5⟩ := project_obj sf hs hp
  obtain ⟨q, q1, q2, q3⟩ := build_trees s.skd s.kd r3
  have e1 : s.execute sf w = some ({ s with result := some (.inl t) }, fun h => if h = t then q else w h) := by
    unfold Patch.execute
    rw [hg, ht]
    simp only [ho, if_true, r1, q1, Option.bind_some, Option.map_some]
  have hq : GoodPatch q := by
    have hf : Fresh q := by
      unfold buildTrees at q1
      rw [Option.map_eq_some_iff] at q1
      obtain ⟨x, hx, rfl⟩ := q1
      have : Fresh x := by
        split at hx
        · exact fresh_buildSkd r3.fresh hx
        · injection hx with hx; rw [← hx]; exact r3.fresh
      split
      · exact fresh_buildKd this
      · exact this
    have hst : SameTree r q := by
      unfold buildTrees at q1
      rw [Option.map_eq_some_iff] at q1
      obtain ⟨x, hx, rfl⟩ := q1
      have : SameTree r x := by
        split at hx
        · exact st_buildSkd hx
        · injection hx with hx; rw [← hx]; exact SameTree.refl r
      split
      · refine this.trans ?_
        unfold Mesh.buildKd cleanKd; split
        · exact SameTree.refl x
        · split
          · exact SameTree.refl x
          · exact ⟨rfl, rfl, Iff.rfl⟩
      · exact this
    refine ⟨hf, treeOk_of r3.tree hst.type hst.tree hst.skd, ?_, ?_⟩
    · rw [complete_of q2.cells (by rw [q2.verts])]; exact r3.complete
    · unfold Ok; rw [q2.verts]; exact r3.ok
  obtain ⟨s'', w'', f1, -, f2, -⟩ := C131_on_target sf (fun h => if h = t then q else w h) { s with result := some (.inl t) }
    (g := g) (t := t) hg ht ho (by simp only [if_neg hne]; exact hs) (by simp only [if_true]; exact hq)
  refine ⟨_, _, s'', w'', e1, f1, ?_⟩
  intro id p hp'
  have := f2.moved id p hp'
  rw [this]
  simp only [if_neg hne]
  simp only [if_true] at hp'
  have hr : has r.verts id = true := by
    rw [← q2.verts]
    rw [has_eq_isSome, hp']; rfl
  have h0 : has (w t).verts id = true := by rw [has_iff, ← r2.ids, ← has_iff]; exact hr
  rw [has_iff, mem_map] at h0
  obtain ⟨⟨i, y⟩, hy, rfl⟩ := h0
  have hy' := Verif.Mesh.get_of_mem hp.ok hy
  have := r2.moved _ _ hy'
  rw [q2.verts, this] at hp'
  injection hp' with hp'
  rw [← hp', hi]

/-- **C131** (settings): a null mesh and a mesh of the wrong kind are ignored; the topology reported is that of the patch. -/
theorem C131_settings (w : World) (s : Patch) (h : Nat) :
    s.setPatch w none = s ∧ s.setGeometry w none = s ∧ ((w h).type = 2 → s.setPatch w (some h) = s) ∧
    ((w h).type ≠ 1 → s.setGeometry w (some h) = s) ∧ ((w h).type = 1 → (s.setGeometry w (some h)).geom = some h) ∧
    ((w h).type ≠ 2 → (s.setPatch w (some h)).target = some h) ∧
    ((w h).type = 3 → (s.setPatch w (some h)).topo = 0) ∧ ((w h).type = 4 → (s.setPatch w (some h)).topo = 1) ∧
    ((w h).type = 1 → (s.setPatch w (some h)).topo = 2) := by
  refine ⟨rfl, rfl, ?_, ?_, ?_, ?_, ?_, ?_, ?_⟩ <;> intro e <;> simp [Patch.setPatch, Patch.setGeometry, e]

/-- **C131** (missing input): without a surface, the exception.  Missing: without a patch (`C131_no_patch_fails`) -/
theorem C131_missing_partial (sf : Surface) (w : World) (s : Patch) (h : s.geom = none) : s.execute sf w = none := by
  unfold Patch.execute; rw [h]

/-- **C131** fails without a patch: `execute` with a surface alone dereferences a null pointer (the message for a failed
projection is never reached), whatever the surface. -/
theorem C131_no_patch_fails (sf : Surface) (w : World) (h : Nat) :
    (Patch.new.setGeometry w (some h)).execute sf w = none := by
  by_cases h1 : (w h).type = 1 <;> simp [Patch.execute, Patch.setGeometry, Patch.new, h1]

theorem demo_goodCopy : GoodCopy demoObj where
  patch := ⟨⟨by simp [demoObj], by simp [demoObj], by simp [demoObj], by simp [demoObj], fun _ => rfl, by simp [demoObj],
    by simp [demoObj]⟩, ⟨by simp [demoObj], by simp [demoObj]⟩, by decide, demoWorld_ok.1 0⟩
  low := by simp [demoObj]
  high := by simp [demoObj]
  elems := by simp [demoObj, refused]
  names := by simp [demoObj]
  kd := by simp [demoObj]
  pc := by simp [demoObj]

theorem demo_goodSurface : GoodSurface (demoWorld 0) := ⟨demo_goodCopy.patch.tree, demo_goodCopy.patch.complete⟩

/-- projection on the plane `z = 1` -/
def demoFlat : Surface := ⟨fun _ p => ⟨p.x, p.y, 1⟩, fun _ => 1⟩

/-- a patch to project on another mesh, trees asked for -/
def demoPatch (b : Bool) : Patch := ⟨some 0, some 1, 2, b, true, true, none⟩

example : ∃ s' r, (demoPatch false).execute demoFlat demoWorld = some (s', demoWorld) ∧ s'.projected demoWorld = some r ∧
    get r.verts 4 = some ⟨1, 0, 1⟩ ∧ r.skd.st = .sync := by
  obtain ⟨s', r, h1, h2, h3, h4⟩ := C131_projected demoFlat demoWorld (demoPatch false) (g := 0) (t := 1) rfl rfl rfl
    demo_goodSurface demo_goodCopy
  exact ⟨s', r, h1, h2, h3.moved 4 ⟨1, 0, 0⟩ (by simp [demoWorld, demoObj, Verif.Field.get]),
    (h4.cells rfl (by rw [h3.type]; simp [demoWorld, demoObj])).1⟩

example : ∃ s' w' s'' w'', (demoPatch true).execute demoFlat demoWorld = some (s', w') ∧ s'.execute demoFlat w' = some (s'', w'') ∧
    ∀ id p, get (w' 1).verts id = some p → get (w'' 1).verts id = some p :=
  C131_again demoFlat demoWorld (demoPatch true) (g := 0) (t := 1) rfl rfl (by decide) rfl demo_goodSurface demo_goodCopy.patch
    (fun _ => rfl)

example : (demoWorld 0).type = 1 ∧ (cloudWorld 0).type = 3 := ⟨rfl, rfl⟩

end
end Verif.Utils
