import Verif.Select.WithField
import Verif.Select.SubProps
import Verif.Recon.ExtractProps
/-
C155: the selection that carries a scalar field.
-/
namespace Verif.Select
open Verif.Field Verif.Mesh Verif.Recon
open List hiding get get_of_mem

variable {P α : Type}

theorem obj_new (w : World P) (n : Nat) (r : Obj P) (intf : List Nat) : (addObj w n r intf).obj n = r ∧ (addObj w n r intf).intf n = intf := by
  simp [addObj]

theorem obj_old (w : World P) {n i : Nat} (r : Obj P) (intf : List Nat) (h : i ≠ n) :
    (addObj w n r intf).obj i = w.obj i ∧ (addObj w n r intf).intf i = w.intf i := by simp [addObj, h]

theorem sound_add {w : World P} {n g : Nat} {r : Obj P} {intf : List Nat} {f : Field Nat α} (hn : g ≠ n) (h : Sound w f g) :
    Sound (addObj w n r intf) f g := by
  refine ⟨h.1, h.2.1, fun e he => ?_⟩
  have := h.2.2 e he
  unfold On at this ⊢
  rw [(obj_old w r intf hn).1, (obj_old w r intf hn).2]
  exact this

/-- the run once the patch is there -/
theorem carry {clean : Obj P → Data P × Data Cell} {s : Carrier α} {w : World P} {n g : Nat} {intf ex : List Nat} {r : Obj P}
    (hg : s.geo = some g) (hn : g ≠ n) (hs : Sound w s.field g) (he : Select.execute clean (w.obj g) s.topo ex = some r)
    (hl : r.type = 3 → s.field.loc = .point) (hv : Ok r.verts) (hc : Ok r.cells) (hi : intf.Nodup) :
    ∃ s', s.execute clean w n intf ex = (s', addObj w n r intf, true) ∧ s'.geo = some g ∧ s'.patch = some n ∧ s'.topo = s.topo ∧
      s'.field.geo = some n ∧ s'.field.loc = s.field.loc ∧ Ok s'.field.data ∧
      ∀ j v, get s'.field.data j = some v ↔ On (addObj w n r intf) n s.field.loc j ∧ get s.field.data j = some v := by
  obtain ⟨e, h1, h2, h3, h4, h5⟩ := C108_id ((((({} : Ext α).setGeometry (some n)).setMode 1).setField (some s.field)))
    (addObj w n r intf) n g rfl rfl (sound_add hn hs)
    ⟨by rw [(obj_new w n r intf).1]; exact hv, by rw [(obj_new w n r intf).1]; exact hc, by rw [(obj_new w n r intf).2]; exact hi⟩
  refine ⟨{ s with patch := some n, field := e.result }, ?_, hg, rfl, rfl, h2, h3, h4, h5⟩
  unfold Carrier.execute
  simp only [hg, he]
  rw [if_neg (by simp [hs.1]), if_neg (by rintro ⟨a, b⟩; exact b (hl a))]
  simp only [h1]

/-- C155: on a surface, a volume or a curve, with a field of the linked geometry, the run succeeds; the patch is a new object, the selected
part of the mesh (vertices at nearly the same place are merged), no other object changes; the field given back belongs
to the patch, has the location it had, and holds the value it had at every selected cell, at every vertex of the patch
or at every interface of the patch, nowhere else. -/
theorem C155_mesh {close : P → P → Prop} {clean : Obj P → Data P × Data Cell}
    (hclean : ∀ t, ∃ m, Cleaned close t.verts t.cells (clean t).1 (clean t).2 m) {s : Carrier α} {w : World P} {n g : Nat} {intf ex : List Nat}
    (hg : s.geo = some g) (hn : g ≠ n) (htopo : s.topo = (w.obj g).type) (ho : Good (w.obj g))
    (ht : (w.obj g).type = 1 ∨ (w.obj g).type = 2 ∨ (w.obj g).type = 4) (hex : ∀ i ∈ ex, has (w.obj g).cells i = true)
    (hs : Sound w s.field g) (hi : intf.Nodup) :
    ∃ (s' : Carrier α) (w' : World P) (m : List (Nat × Nat)), s.execute clean w n intf ex = (s', w', true) ∧ s'.geo = some g ∧ s'.patch = some n ∧
      (∀ i, i ≠ n → w'.obj i = w.obj i) ∧ SubMeshUpTo close (w.obj g) (w'.obj n) (· ∈ ex) m ∧
      s'.field.geo = some n ∧ s'.field.loc = s.field.loc ∧
      (s.field.loc = .cell → ∀ j v, get s'.field.data j = some v ↔ j ∈ ex ∧ get s.field.data j = some v) ∧
      (s.field.loc = .point → ∀ j v, get s'.field.data j = some v ↔
        (∃ id c, id ∈ ex ∧ get (w.obj g).cells id = some c ∧ j ∈ vertexIds c) ∧ (∀ e ∈ m, e.1 ≠ j) ∧ get s.field.data j = some v) ∧
      (s.field.loc = .interface → ∀ j v, get s'.field.data j = some v ↔ j ∈ intf ∧ get s.field.data j = some v) := by
  obtain ⟨r, m, h1, h2⟩ := C101_merged hclean ho ht ex hex
  rw [← htopo] at h1
  obtain ⟨s', e, a1, a2, -, a3, a4, -, a5⟩ := carry (intf := intf) hg hn hs h1 (by rw [h2.type]; omega) h2.once.1 h2.once.2 hi
  have hnew := obj_new w n r intf
  refine ⟨s', _, m, e, a1, a2, fun i h => (obj_old w r intf h).1, by rw [hnew.1]; exact h2, a3, a4, ?_, ?_, ?_⟩
  · intro hl j v
    rw [a5, hl]
    refine and_congr_left fun hv => ?_
    simp only [On, hnew.1]
    constructor
    · rintro ⟨c, hc⟩
      exact ((h2.cells j c).1 (get_of_mem h2.once.2 hc)).1
    · intro hj
      obtain ⟨c, hc⟩ := Option.isSome_iff_exists.1 ((has_eq_isSome _ _).symm.trans (hex j hj))
      exact ⟨_, get_some_mem ((h2.cells j _).2 ⟨hj, c, hc, rfl⟩)⟩
  · intro hl j v
    rw [a5, hl, ← and_assoc]
    refine and_congr_left fun hv => ?_
    simp only [On, hnew.1]
    constructor
    · rintro ⟨p, hp⟩
      obtain ⟨b1, -, b3⟩ := (h2.verts j p).1 (get_of_mem h2.once.1 hp)
      exact ⟨b1, b3⟩
    · rintro ⟨⟨id, c, b1, b2, b4⟩, b3⟩
      obtain ⟨p, hp⟩ := Option.isSome_iff_exists.1 ((has_eq_isSome _ _).symm.trans (ho.complete id c b2 j b4))
      exact ⟨p, get_some_mem ((h2.verts j p).2 ⟨⟨id, c, b1, b2, b4⟩, hp, b3⟩)⟩
  · intro hl j v
    rw [a5, hl]
    simp only [On, hnew.2]

/-- C155: on a point cloud, with a field on its points, the patch holds the selected points and the field given back their values. -/
theorem C155_cloud {close : P → P → Prop} {clean : Obj P → Data P × Data Cell}
    (hclean : ∀ t, ∃ m, Cleaned close t.verts t.cells (clean t).1 (clean t).2 m) {s : Carrier α} {w : World P} {n g : Nat} {intf ex : List Nat}
    (hg : s.geo = some g) (hn : g ≠ n) (htopo : s.topo = (w.obj g).type) (ht : (w.obj g).type = 3) (hex : ∀ i ∈ ex, has (w.obj g).verts i = true)
    (hs : Sound w s.field g) (hl : s.field.loc = .point) (hi : intf.Nodup) :
    ∃ (s' : Carrier α) (w' : World P) (m : List (Nat × Nat)), s.execute clean w n intf ex = (s', w', true) ∧ s'.geo = some g ∧ s'.patch = some n ∧
      (∀ i, i ≠ n → w'.obj i = w.obj i) ∧
      (∀ v p, get (w'.obj n).verts v = some p ↔ v ∈ ex ∧ get (w.obj g).verts v = some p ∧ ∀ e ∈ m, e.1 ≠ v) ∧
      (∀ e ∈ m, ∃ p q, e.1 ≠ e.2 ∧ get (w.obj g).verts e.1 = some p ∧ get (w.obj g).verts e.2 = some q ∧ close p q) ∧
      s'.field.geo = some n ∧ s'.field.loc = .point ∧
      ∀ j v, get s'.field.data j = some v ↔ j ∈ ex ∧ (∀ e ∈ m, e.1 ≠ j) ∧ get s.field.data j = some v := by
  obtain ⟨r, m, h1, h2, h3, -, -, h4, h5, h6⟩ := execute_cloud hclean ht ex hex
  rw [← htopo] at h1
  obtain ⟨s', e, a1, a2, -, a3, a4, -, a5⟩ := carry (intf := intf) hg hn hs h1 (fun _ => hl) h6 (by rw [h3]; simp [Ok]) hi
  have hnew := obj_new w n r intf
  refine ⟨s', _, m, e, a1, a2, fun i h => (obj_old w r intf h).1, by rw [hnew.1]; exact h4, ?_, a3, by rw [a4, hl], ?_⟩
  · intro e he
    obtain ⟨-, -, b1, -, p, q, b2, b3, b4⟩ := h5 e he
    exact ⟨p, q, b1, b2, b3, b4⟩
  · intro j v
    rw [a5, hl, ← and_assoc]
    refine and_congr_left fun hv => ?_
    simp only [On, hnew.1]
    constructor
    · rintro ⟨p, hp⟩
      obtain ⟨b1, -, b3⟩ := (h4 j p).1 (get_of_mem h6 hp)
      exact ⟨b1, b3⟩
    · rintro ⟨b1, b3⟩
      obtain ⟨p, hp⟩ := Option.isSome_iff_exists.1 ((has_eq_isSome _ _).symm.trans (hex j b1))
      exact ⟨p, get_some_mem ((h4 j p).2 ⟨b1, hp, b3⟩)⟩

/-- C155: without a geometry, without a field or with a field of another geometry the run stops; the field is as it was. -/
theorem C155_refused (clean : Obj P → Data P × Data Cell) (s : Carrier α) (w : World P) (n : Nat) (intf ex : List Nat)
    (h : s.geo = none ∨ s.field.geo ≠ s.geo) : (s.execute clean w n intf ex).2.2 = false ∧
      (s.execute clean w n intf ex).1.field = s.field := by
  unfold Carrier.execute
  cases hg : s.geo with
  | none => exact ⟨rfl, rfl⟩
  | some g =>
    rw [hg] at h
    simp only
    cases Select.execute clean (w.obj g) s.topo ex with
    | none => exact ⟨rfl, rfl⟩
    | some r => simp [h.resolve_left (by simp)]

/-- C155: null geometries and null fields are ignored; the last ones given count; a cleared block has nothing -/
theorem C155_settings (s : Carrier α) (w : World P) (g : Nat) (f : Field Nat α) : s.setGeometry w none = s ∧ s.setField none = s ∧
    (s.setGeometry w (some g)).geo = some g ∧ (s.setGeometry w (some g)).topo = (w.obj g).type ∧
    (s.setGeometry w (some g)).field = s.field ∧ (s.setField (some f)).field = f ∧ (s.setField (some f)).geo = s.geo ∧
    s.clear.geo = none ∧ s.clear.patch = none ∧ s.clear.field.data = [] := ⟨rfl, rfl, rfl, rfl, rfl, rfl, rfl, rfl, rfl, rfl⟩

/-- C155 fails for repeated runs: after a run that carried the field, every further run without a new `setField`
stops with an exception, whatever is selected. -/
theorem C155_twice_fails {clean : Obj P → Data P × Data Cell} {s s' : Carrier α} {w w' : World P} {n g : Nat} {intf ex : List Nat}
    (hn : g ≠ n) (hg : s.geo = some g) (h : s.execute clean w n intf ex = (s', w', true)) (hf : s'.field.geo = some n)
    (clean' : Obj P → Data P × Data Cell) (n' : Nat) (intf' ex' : List Nat) : (s'.execute clean' w' n' intf' ex').2.2 = false := by
  apply (C155_refused clean' s' w' n' intf' ex' (Or.inr ?_)).1
  have : s'.geo = some g := by
    unfold Carrier.execute at h
    simp only [hg] at h
    split at h
    · cases h
    · split at h
      · cases h
      · split at h
        · rw [← (Prod.mk.inj h).1]
        · split at h
          · cases h
          · rw [← (Prod.mk.inj h).1]
  rw [this, hf]
  simp [Ne.symm hn]

/-- C155 fails for fields with an id that is not in the geometry (and, the same, for fields without location): the run
succeeds, all values are lost, and the field given back belongs to no geometry. -/
theorem C155_lost_fails {clean : Obj P → Data P × Data Cell} {s : Carrier α} {w : World P} {n g : Nat} {intf ex : List Nat} {r : Obj P}
    (hg : s.geo = some g) (hn : g ≠ n) (hf : s.field.geo = some g) (he : Select.execute clean (w.obj g) s.topo ex = some r) (ht : r.type ≠ 3)
    (hx : ∃ e ∈ s.field.data, ¬ On w g s.field.loc e.1) :
    ∃ s' w', s.execute clean w n intf ex = (s', w', true) ∧ s'.field.data = [] ∧ s'.field.geo = none := by
  obtain ⟨e, he1, he2⟩ := hx
  have hne : s.field.data.isEmpty = false := by
    cases hd : s.field.data with
    | nil => rw [hd] at he1; cases he1
    | cons a l => rfl
  have hco : idsCoherent (resolve (addObj w n r intf) s.field) = false := by
    unfold idsCoherent resolve
    simp only [hf, Option.map_some, hne, Bool.false_eq_true, if_false]
    cases hl : s.field.loc with
    | undefined => rfl
    | point =>
      rw [hl] at he2
      simp only [geoOf, (obj_old w r intf hn).1]
      rw [all_eq_false]
      refine ⟨e, he1, ?_⟩
      simp only [contains_iff_mem, mem_map, not_exists, not_and]
      rintro ⟨i, p⟩ hp rfl
      exact he2 ⟨p, hp⟩
    | cell =>
      rw [hl] at he2
      simp only [geoOf, (obj_old w r intf hn).1, cellIds]
      rw [all_eq_false]
      refine ⟨e, he1, ?_⟩
      simp only [contains_iff_mem, mem_map, not_exists, not_and]
      rintro ⟨i, p⟩ hp rfl
      exact he2 ⟨p, hp⟩
    | interface =>
      rw [hl] at he2
      simp only [geoOf, (obj_old w r intf hn).2]
      rw [all_eq_false]
      exact ⟨e, he1, by simpa [On] using he2⟩
  refine ⟨{ s with patch := some n, field := make none .undefined }, addObj w n r intf, ?_, rfl, rfl⟩
  unfold Carrier.execute
  simp only [hg, he]
  rw [if_neg (by simp [hf]), if_neg (by simp [ht])]
  simp [Ext.execute, Ext.extract, Ext.setGeometry, Ext.setMode, Ext.setField, hf, hco]

/-- C155 fails for point clouds with a field that is not on the points: the run succeeds, but the field given back is still the one of the
linked geometry. -/
theorem C155_cloud_fails {clean : Obj P → Data P × Data Cell} {s : Carrier α} {w : World P} {n g : Nat} {intf ex : List Nat} {r : Obj P}
    (hg : s.geo = some g) (hf : s.field.geo = some g) (he : Select.execute clean (w.obj g) s.topo ex = some r) (ht : r.type = 3)
    (hl : s.field.loc ≠ .point) :
    (s.execute clean w n intf ex).2.2 = true ∧ (s.execute clean w n intf ex).1.patch = some n ∧
      (s.execute clean w n intf ex).1.field.geo = some g := by
  unfold Carrier.execute
  simp only [hg, he]
  rw [if_neg (by simp [hf]), if_pos ⟨ht, hl⟩]
  exact ⟨rfl, rfl, hf⟩

/-- the strip, with a field on its points -/
def stripWorld : World Int := ⟨fun _ => strip, fun _ => [], fun _ _ => [], fun _ _ _ => []⟩

def stripField : Field Nat Nat := { (make (some 0) .point : Field Nat Nat) with data := [(0, 5), (7, 6), (8, 9)] }

def stripBlock : Carrier Nat := (({} : Carrier Nat).setGeometry stripWorld (some 0)).setField (some stripField)

/-- the hypotheses of `C155_mesh`; vertex 8 is merged into vertex 2, which has no value -/
example : stripBlock.geo = some 0 ∧ (0 : Nat) ≠ 1 ∧ stripBlock.topo = (stripWorld.obj 0).type ∧ Good (stripWorld.obj 0) ∧
    (∀ i ∈ [9, 6], has (stripWorld.obj 0).cells i = true) ∧ Sound stripWorld stripBlock.field 0 ∧
    ((stripBlock.execute cleanStrip stripWorld 1 [] [9, 6]).1.field.data, (stripBlock.execute cleanStrip stripWorld 1 [] [9, 6]).1.field.geo) =
      ([(0, 5), (7, 6)], some 1) ∧
    ((stripBlock.execute cleanStrip stripWorld 1 [] [6]).1.field.data, (stripBlock.execute cleanStrip stripWorld 1 [] [6]).1.field.geo) =
      ([(7, 6), (8, 9)], some 1) := by
  refine ⟨rfl, by decide, rfl, strip_good, by decide, ⟨rfl, by decide, ?_⟩, by decide +kernel, by decide +kernel⟩
  intro e he
  simp only [stripBlock, Carrier.setField, stripField, mem_cons, not_mem_nil, or_false] at he
  rcases he with rfl | rfl | rfl
  · exact ⟨10, by decide⟩
  · exact ⟨70, by decide⟩
  · exact ⟨30, by decide⟩

/-- a cloud with the same points, linked to the same field -/
def cloudWorld : World Int := ⟨fun _ => { strip with type := 3, cells := [], pids := [], names := [], tree := false }, fun _ => [], fun _ _ => [],
  fun _ _ _ => []⟩

example : (((({} : Carrier Nat).setGeometry cloudWorld (some 0)).setField (some stripField)).execute cleanStrip cloudWorld 1 [] [8, 0]).1.field.data =
    [(8, 9), (0, 5)] := by decide +kernel

end Verif.Select
