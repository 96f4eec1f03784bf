import Verif.Recon.Extract
import Verif.Mesh.QueryProps
/-
C108, C109: what extraction of a field gives, and which settings of the block survive.
-/
namespace Verif.Recon
open List hiding get
open Verif.Field Verif.Mesh

variable {P α : Type}

/-! ### Specification -/

/-- `j` is a vertex, cell or interface of the geometry -/
def On (w : World P) (g : Nat) : Loc → Nat → Prop
  | .point, j => ∃ p, (j, p) ∈ (w.obj g).verts
  | .cell, j => ∃ c, (j, c) ∈ (w.obj g).cells
  | .interface, j => j ∈ w.intf g
  | .undefined, _ => False

/-- no two entities of a geometry have the same id -/
def Distinct (w : World P) (g : Nat) : Prop :=
  Ok (w.obj g).verts ∧ Ok (w.obj g).cells ∧ (w.intf g).Nodup

/-- all ids of the field are ids of its geometry, and it has a location -/
def Sound (w : World P) (f : Field Nat α) (g : Nat) : Prop :=
  f.geo = some g ∧ f.loc ≠ .undefined ∧ ∀ e ∈ f.data, On w g f.loc e.1

theorem coherent_of_sound {w : World P} {f : Field Nat α} {g : Nat} (h : Sound w f g) :
    idsCoherent (resolve w f) = true := by
  obtain ⟨h1, h2, h3⟩ := h
  unfold idsCoherent resolve
  simp only [h1, Option.map_some]
  split
  · rfl
  · cases hl : f.loc with
    | undefined => exact absurd hl h2
    | point =>
      rw [hl] at h3
      simp only [all_eq_true, contains_iff_mem, geoOf]
      intro e he
      obtain ⟨p, hp⟩ := h3 e he
      exact mem_map.2 ⟨_, hp, rfl⟩
    | cell =>
      rw [hl] at h3
      simp only [all_eq_true, contains_iff_mem, geoOf, cellIds]
      intro e he
      obtain ⟨p, hp⟩ := h3 e he
      exact mem_map.2 ⟨_, hp, rfl⟩
    | interface =>
      rw [hl] at h3
      simp only [all_eq_true, contains_iff_mem, geoOf]
      intro e he
      exact h3 e he

theorem extract_spec (s : Ext α) (w : World P) (t g : Nat) (ht : s.geo = some t) (hs : Sound w s.field g)
    (hn : (s.ids w t g s.field.loc).Nodup) :
    ∃ r, s.execute w = some r ∧ r.result.geo = some (if s.mode = .pid then g else t) ∧
      r.result.loc = s.field.loc ∧ r.field = s.field ∧ r.geo = s.geo ∧ r.mode = s.mode ∧ Ok r.result.data ∧
      ∀ j v, get r.result.data j = some v ↔ j ∈ s.ids w t g s.field.loc ∧ get s.field.data j = some v := by
  obtain ⟨r, e, ok, hr⟩ := copyIds_spec s.field.data (s.ids w t g s.field.loc) [] hn (by simp [Ok])
    (by simp [has])
  refine ⟨{ s with result := { Field.clear s.result with
      loc := s.field.loc, data := r, geo := some (if s.mode = .pid then g else t) } }, ?_, rfl, rfl, rfl, rfl, rfl, ok, ?_⟩
  · simp only [Ext.execute, Ext.extract, ht, hs.1, coherent_of_sound hs, Bool.not_true, Bool.false_eq_true, if_false,
      if_neg hs.2.1, e, Option.map_some]
  · intro j v
    have := hr j
    simp only [Field.get, find?_nil, Option.map_none, Option.none_or] at this
    simp only [Field.get, this]
    by_cases hj : j ∈ s.ids w t g s.field.loc <;> simp [hj]

/-! ### C108: what is extracted -/

/-- C108, ID mode: the extracted field belongs to the target geometry, has the location of the source and holds exactly
the values of the source at the ids of the target. -/
theorem C108_id (s : Ext α) (w : World P) (t g : Nat) (hm : s.mode = .id) (ht : s.geo = some t) (hs : Sound w s.field g)
    (hd : Distinct w t) :
    ∃ r, s.execute w = some r ∧ r.result.geo = some t ∧ r.result.loc = s.field.loc ∧ Ok r.result.data ∧
      ∀ j v, get r.result.data j = some v ↔ On w t s.field.loc j ∧ get s.field.data j = some v := by
  have hids : ∀ j, j ∈ s.ids w t g s.field.loc ↔ On w t s.field.loc j := by
    intro j
    unfold Ext.ids
    rw [hm]
    cases s.field.loc <;> simp [On, cellIds]
  have hn : (s.ids w t g s.field.loc).Nodup := by
    unfold Ext.ids
    rw [hm]
    obtain ⟨h1, h2, h3⟩ := hd
    cases s.field.loc
    · simp
    · exact h1
    · exact h2
    · exact h3
  obtain ⟨r, h1, h2, h3, -, -, -, h4, h5⟩ := extract_spec s w t g ht hs hn
  refine ⟨r, h1, by simp [h2, hm], h3, h4, fun j v => ?_⟩
  rw [h5, hids]

theorem mem_commonPids (a b : Obj P) (p : Int) : p ∈ commonPids a b ↔ p ∈ a.pids ∧ p ∈ b.pids := by
  simp only [commonPids, mem_filter, mem_distinct, mem_append, Bool.and_eq_true, decide_eq_true_eq]
  constructor
  · rintro ⟨-, h1, h2⟩; exact ⟨h2, h1⟩
  · rintro ⟨h1, h2⟩; exact ⟨.inl h1, h2, h1⟩

theorem mem_extractPIDs (o : Obj P) (ps : List Int) (j : Nat) :
    j ∈ extractPIDs o ps ↔ ∃ c, (j, c) ∈ o.cells ∧ c.pid ∈ ps ∧ c.pid ∈ o.pids := by
  simp only [extractPIDs, mem_flatMap, extractPID]
  constructor
  · rintro ⟨p, hp, hj⟩
    by_cases h : p ∈ o.pids
    · rw [if_pos h] at hj
      simp only [mem_map, mem_filter, decide_eq_true_eq] at hj
      obtain ⟨⟨i, c⟩, ⟨h1, h2⟩, rfl⟩ := hj
      simp only at h2
      exact ⟨c, h1, by rw [h2]; exact hp, by rw [h2]; exact h⟩
    · rw [if_neg h] at hj; simp at hj
  · rintro ⟨c, h1, h2, h3⟩
    refine ⟨c.pid, h2, ?_⟩
    rw [if_pos h3]
    exact mem_map.2 ⟨(j, c), by simp [h1], rfl⟩

theorem nodup_extractPIDs (o : Obj P) (hok : Ok o.cells) : ∀ (ps : List Int), ps.Nodup → (extractPIDs o ps).Nodup := by
  intro ps
  induction ps with
  | nil => intro _; simp [extractPIDs]
  | cons p ps ih =>
    intro h
    rw [nodup_cons] at h
    have hs : extractPIDs o (p :: ps) = extractPID o p ++ extractPIDs o ps := by simp [extractPIDs]
    rw [hs, nodup_append]
    refine ⟨?_, ih h.2, ?_⟩
    · unfold extractPID
      split
      · exact Nodup.sublist (Sublist.map _ filter_sublist) hok
      · simp
    · intro a ha b hb hab
      subst hab
      obtain ⟨c, hc, hp, -⟩ := (mem_extractPIDs o ps a).1 hb
      have ha' : a ∈ extractPIDs o [p] := by simpa [extractPIDs] using ha
      obtain ⟨c', hc', hp', -⟩ := (mem_extractPIDs o [p] a).1 ha'
      have h1 := get_of_mem hok hc
      have h2 := get_of_mem hok hc'
      rw [h1] at h2
      simp only [Option.some.injEq] at h2
      subst h2
      simp only [mem_singleton] at hp'
      rw [hp'] at hp
      exact h.1 hp

/-- C108, PID mode, values on cells: the extracted field belongs to the geometry of the source and holds exactly the
values of the source on the cells whose PID both geometries list. -/
theorem C108_pid_cells (s : Ext α) (w : World P) (t g : Nat) (hm : s.mode = .pid) (ht : s.geo = some t)
    (hs : Sound w s.field g) (hd : Distinct w g) (hl : s.field.loc = .cell) :
    ∃ r, s.execute w = some r ∧ r.result.geo = some g ∧ r.result.loc = .cell ∧ Ok r.result.data ∧
      ∀ j v, get r.result.data j = some v ↔
        (∃ c, (j, c) ∈ (w.obj g).cells ∧ c.pid ∈ (w.obj g).pids ∧ c.pid ∈ (w.obj t).pids) ∧
        get s.field.data j = some v := by
  have hids : s.ids w t g s.field.loc = extractPIDs (w.obj g) (commonPids (w.obj t) (w.obj g)) := by
    unfold Ext.ids; rw [hm, hl]
  have hn : (s.ids w t g s.field.loc).Nodup := by
    rw [hids]
    exact nodup_extractPIDs _ hd.2.1 _ (Nodup.sublist filter_sublist (nodup_distinct _))
  obtain ⟨r, h1, h2, h3, -, -, -, h4, h5⟩ := extract_spec s w t g ht hs hn
  refine ⟨r, h1, by simp [h2, hm], by rw [h3, hl], h4, fun j v => ?_⟩
  rw [h5, hids, mem_extractPIDs]
  constructor
  · rintro ⟨⟨c, hc, hp, hq⟩, hv⟩
    exact ⟨⟨c, hc, hq, ((mem_commonPids _ _ _).1 hp).1⟩, hv⟩
  · rintro ⟨⟨c, hc, hp, hq⟩, hv⟩
    exact ⟨⟨c, hc, (mem_commonPids _ _ _).2 ⟨hq, hp⟩, hp⟩, hv⟩

/-- C108, PID mode, values on vertices: exactly the values of the source on the vertices of the cells whose PID both
geometries list (for a point cloud, which has no cells to speak of, see `C108_cloud_pid_fails`). -/
theorem C108_pid_points_partial (s : Ext α) (w : World P) (t g : Nat) (hm : s.mode = .pid) (ht : s.geo = some t)
    (hs : Sound w s.field g) (hd : Distinct w g) (hl : s.field.loc = .point) (hc : (w.obj g).type ≠ 3) :
    ∃ r, s.execute w = some r ∧ r.result.geo = some g ∧ r.result.loc = .point ∧ Ok r.result.data ∧
      ∀ j v, get r.result.data j = some v ↔
        (∃ id c, (id, c) ∈ (w.obj g).cells ∧ j ∈ vertexIds c ∧ c.pid ∈ (w.obj g).pids ∧ c.pid ∈ (w.obj t).pids) ∧
        get s.field.data j = some v := by
  have hids : s.ids w t g s.field.loc =
      vertexFromCells (w.obj g) (extractPIDs (w.obj g) (commonPids (w.obj t) (w.obj g))) := by
    unfold Ext.ids; rw [hm, hl]
  obtain ⟨hv1, hv2⟩ := C37_vertices (w.obj g) hc (extractPIDs (w.obj g) (commonPids (w.obj t) (w.obj g)))
  obtain ⟨r, h1, h2, h3, -, -, -, h4, h5⟩ := extract_spec s w t g ht hs (by rw [hids]; exact hv2)
  refine ⟨r, h1, by simp [h2, hm], by rw [h3, hl], h4, fun j v => ?_⟩
  rw [h5, hids, hv1]
  constructor
  · rintro ⟨⟨id, hid, c, hc1, hc2⟩, hv⟩
    obtain ⟨c', hc', hp, hq⟩ := (mem_extractPIDs _ _ _).1 hid
    have := get_of_mem hd.2.1 hc'
    rw [hc1] at this
    simp only [Option.some.injEq] at this
    subst this
    exact ⟨⟨id, c, hc', hc2, hq, ((mem_commonPids _ _ _).1 hp).1⟩, hv⟩
  · rintro ⟨⟨id, c, hc1, hc2, hp, hq⟩, hv⟩
    exact ⟨⟨id, (mem_extractPIDs _ _ _).2 ⟨c, hc1, (mem_commonPids _ _ _).2 ⟨hq, hp⟩, hp⟩, c, get_of_mem hd.2.1 hc1, hc2⟩, hv⟩

/-- C108, proximity mode, partial: the extracted field belongs to the target; on cells it holds exactly the values the
source has at the ids of the target cells found close.  Full statement: the value of the close source cell, whatever its
id; `C108_mapping_fails`. -/
theorem C108_mapping_partial (s : Ext α) (w : World P) (t g : Nat) (hm : s.mode = .mapping) (ht : s.geo = some t)
    (hs : Sound w s.field g) (hl : s.field.loc = .cell) (hn : (w.near g t s.tol).Nodup) :
    ∃ r, s.execute w = some r ∧ r.result.geo = some t ∧ r.result.loc = .cell ∧ Ok r.result.data ∧
      ∀ j v, get r.result.data j = some v ↔ j ∈ w.near g t s.tol ∧ get s.field.data j = some v := by
  have hids : s.ids w t g s.field.loc = w.near g t s.tol := by unfold Ext.ids; rw [hm, hl]
  obtain ⟨r, h1, h2, h3, -, -, -, h4, h5⟩ := extract_spec s w t g ht hs (by rw [hids]; exact hn)
  refine ⟨r, h1, by simp [h2, hm], by rw [h3, hl], h4, fun j v => ?_⟩
  rw [h5, hids]

/-- C108, refused inputs: without a target, or with a source that has no geometry or ids foreign to it, the block runs
without complaint to its caller and is left exactly as it was. -/
theorem C108_refused (s : Ext α) (w : World P)
    (h : s.geo = none ∨ s.field.geo = none ∨
      ∃ g, s.field.geo = some g ∧ ∃ e ∈ s.field.data, ¬ On w g s.field.loc e.1) : s.execute w = some s := by
  unfold Ext.execute Ext.extract
  rcases h with h | h | ⟨g, hg, e, he, hn⟩
  · simp [h]
  · rw [h]
    cases s.geo <;> rfl
  · cases ht : s.geo with
    | none => simp
    | some t =>
      have hc : idsCoherent (resolve w s.field) = false := by
        unfold idsCoherent resolve
        simp only [hg, Option.map_some]
        have hne : s.field.data.isEmpty = false := by
          cases hd : s.field.data with
          | nil => rw [hd] at he; simp at he
          | cons a l => rfl
        simp only [hne, Bool.false_eq_true, if_false]
        cases hl : s.field.loc with
        | undefined => rfl
        | _ =>
          rw [hl] at hn
          simp only [all_eq_false, contains_iff_mem, geoOf, cellIds]
          refine ⟨e, he, ?_⟩
          intro hm
          apply hn
          simpa [On] using hm
      simp [hg, hc]

/-! concrete cases -/

/-- a geometry with nothing derived built -/
def bare (type : Nat) (verts : Data Nat) (cells : Data Cell) (pids : List Int) : Obj Nat :=
  { type := type, verts := verts, cells := cells, pids := pids, names := [], tree := true
    kd := ⟨.none, none⟩, skd := ⟨.none, none⟩, adj := ⟨.none, none⟩, int := ⟨.none, none⟩
    info := ⟨.none, none⟩, bbox := ⟨.none, none⟩, pc := ⟨.none, none⟩ }

/-- two triangles with PIDs 1 and 2 -/
def plate : Obj Nat :=
  bare 1 [(0, 0), (1, 0), (2, 0), (3, 0)]
    [(0, ⟨.triangle, [0, 1, 2], 1, true⟩), (1, ⟨.triangle, [1, 2, 3], 2, true⟩)] [1, 2]

/-- two triangles with PIDs 2 and 7 -/
def piece : Obj Nat :=
  bare 1 [(1, 0), (2, 0), (3, 0), (9, 0)]
    [(1, ⟨.triangle, [1, 2, 3], 2, true⟩), (5, ⟨.triangle, [2, 3, 9], 7, true⟩)] [2, 7]

/-- a cloud -/
def dots : Obj Nat :=
  bare 3 [(0, 0), (1, 0)] [(0, ⟨.vertex, [0], 0, true⟩), (1, ⟨.vertex, [1], 0, true⟩)] [0]

def world : World Nat :=
  ⟨fun g => if g = 0 then plate else if g = 1 then piece else dots, fun _ => [4, 6], fun _ _ => [6],
    fun _ _ _ => [5]⟩

def onCells : Field Nat Nat := { (make (some 0) .cell : Field Nat Nat) with data := [(0, 10), (1, 11)] }
def onPoints : Field Nat Nat := { (make (some 0) .point : Field Nat Nat) with data := [(0, 10), (1, 11), (3, 13)] }

theorem sound_onCells : Sound world onCells 0 := by
  refine ⟨rfl, by decide, ?_⟩
  intro e he
  simp only [onCells, mem_cons, not_mem_nil, or_false] at he
  rcases he with rfl | rfl
  · exact ⟨⟨.triangle, [0, 1, 2], 1, true⟩, by decide⟩
  · exact ⟨⟨.triangle, [1, 2, 3], 2, true⟩, by decide⟩

theorem sound_onPoints : Sound world onPoints 0 := by
  refine ⟨rfl, by decide, ?_⟩
  intro e he
  simp only [onPoints, mem_cons, not_mem_nil, or_false] at he
  rcases he with rfl | rfl | rfl <;> exact ⟨0, by decide⟩

theorem distinct_world : Distinct world 0 ∧ Distinct world 1 :=
  ⟨⟨by unfold Ok; decide, by unfold Ok; decide, by decide⟩, ⟨by unfold Ok; decide, by unfold Ok; decide, by decide⟩⟩

example : ({ geo := some 1, field := onCells } : Ext Nat).mode = .id ∧ Sound world onCells 0 ∧ Distinct world 1 ∧
    (({ geo := some 1, field := onCells } : Ext Nat).execute world).map (·.result.data) = some [(1, 11)] :=
  ⟨rfl, sound_onCells, distinct_world.2, by decide⟩

example : Sound world onCells 0 ∧ Distinct world 0 ∧
    (({ geo := some 1, field := onCells, mode := .pid } : Ext Nat).execute world).map (·.result.data) = some [(1, 11)] :=
  ⟨sound_onCells, distinct_world.1, by decide⟩

example : Sound world onPoints 0 ∧ Distinct world 0 ∧ (world.obj 0).type ≠ 3 ∧
    (({ geo := some 1, field := onPoints, mode := .pid } : Ext Nat).execute world).map (·.result.data) =
      some [(1, 11), (3, 13)] :=
  ⟨sound_onPoints, distinct_world.1, by decide, by decide⟩

example : Sound world onCells 0 ∧ (world.near 0 1 (1 / 100000000)).Nodup :=
  ⟨sound_onCells, by decide⟩

example : ∃ e ∈ ({ onCells with data := [(0, 1), (8, 2)] } : Field Nat Nat).data, ¬ On world 0 .cell e.1 := by
  refine ⟨(8, 2), by decide, ?_⟩
  rintro ⟨c, hc⟩
  have : (8 : Nat) ∈ (world.obj 0).cells.map Prod.fst := mem_map.2 ⟨_, hc, rfl⟩
  revert this
  decide

/-- C108: a refused extraction is not visible in the result, which is the one of the previous run. -/
theorem C108_stale_fails : ∃ (s : Ext Nat) (r r' : Ext Nat),
    s.execute world = some r ∧ r.result.data ≠ [] ∧
    (r.setField (some { onCells with data := [(0, 1), (8, 2)] })).execute world = some r' ∧
    r'.result = r.result :=
  ⟨{ geo := some 1, field := onCells }, _, _, rfl, by decide, rfl, rfl⟩

/-- C108: with proximity, a target cell that is close to the source but has another id gets no value. -/
theorem C108_mapping_fails : ∃ (s : Ext Nat) (r : Ext Nat),
    s.mode = .mapping ∧ s.geo = some 1 ∧ Sound world s.field 0 ∧ s.field.loc = .cell ∧ world.near 0 1 s.tol = [5] ∧
    s.execute world = some r ∧ r.result.data = [] :=
  ⟨{ geo := some 1, field := onCells, mode := .mapping }, _, rfl, rfl, sound_onCells, rfl, rfl, rfl, by decide⟩

/-- C108: on a point cloud the PID mode extracts no value on points, though its cells have a common PID. -/
theorem C108_cloud_pid_fails : ∃ (s : Ext Nat) (r : Ext Nat),
    s.mode = .pid ∧ s.geo = some 2 ∧ Sound world s.field 2 ∧ s.field.data ≠ [] ∧ (world.obj 2).pids = [0] ∧
    s.execute world = some r ∧ r.result.data = [] := by
  refine ⟨{ geo := some 2, field := { onPoints with geo := some 2, data := [(0, 5)] }, mode := .pid }, _, rfl, rfl,
    ⟨rfl, by decide, ?_⟩, by decide, by decide, rfl, by decide⟩
  intro e he
  simp only [mem_cons, not_mem_nil, or_false] at he
  subst he
  exact ⟨0, by decide⟩

/-! ### C109: settings -/

/-- C109: a mode in 1..3 is adopted, any other number changes nothing; the mode read back is the last one adopted. -/
theorem C109_mode (s : Ext α) (m : Int) :
    (1 ≤ m → m ≤ 3 → (s.setMode m).mode.code = m) ∧ (¬ (1 ≤ m ∧ m ≤ 3) → s.setMode m = s) := by
  unfold Ext.setMode
  constructor
  · intro h1 h2
    rw [if_neg (by omega)]
    rcases (by omega : m = 1 ∨ m = 2 ∨ m = 3) with rfl | rfl | rfl <;> rfl
  · intro h
    rw [if_pos (by omega)]

example : (({} : Ext Nat).setMode 3).mode = .mapping ∧ (({} : Ext Nat).setMode 4).mode = .id := by decide

/-- C109: whatever tolerance is set, the one in force is at least 1e-12, and it is the given one from there on. -/
theorem C109_tolerance (s : Ext α) (t : Rat) :
    1 / 1000000000000 ≤ (s.setTolerance t).tol ∧ (1 / 1000000000000 ≤ t → (s.setTolerance t).tol = t) ∧
    (s.setTolerance t).mode = s.mode := by
  unfold Ext.setTolerance
  simp only [Rat.max_def]
  refine ⟨?_, ?_, ?_⟩ <;> grind

/-- C109, partial: a block that was saved and loaded again has the tolerance that was written, if the mode was the
proximity one.  Full statement: the loaded block has the same mode as well; `C109_xml_fails`. -/
theorem C109_xml_partial (six : Rat → Rat) (s : Ext α) (hm : s.mode = .mapping) (ht : 1 / 1000000000000 ≤ six s.tol) :
    ((({} : Ext α).absorb (s.flush six))).tol = six s.tol := by
  simp only [Ext.flush, Ext.absorb, hm, if_true]
  exact (C109_tolerance _ _).2.1 ht

/-- C109: the mode of extraction is written to XML but never read: every loaded block extracts by ID, and an explicit
mode in a section changes nothing. -/
theorem C109_xml_fails : (∀ (six : Rat → Rat) (s : Ext α), (({} : Ext α).absorb (s.flush six)).mode = .id) ∧
    (∀ (s : Ext α) (m : Int), s.absorb ⟨some m, none⟩ = s) := by
  refine ⟨fun six s => ?_, fun s m => rfl⟩
  simp only [Ext.flush, Ext.absorb]
  split <;> rfl

/-- C109: clearing forgets geometry, source and result but keeps mode and tolerance. -/
theorem C109_clear (s : Ext α) (w : World P) : s.clear.mode = s.mode ∧ s.clear.tol = s.tol ∧ s.clear.result.data = [] ∧
    s.clear.execute w = some s.clear :=
  ⟨rfl, rfl, rfl, C108_refused _ w (.inl rfl)⟩

example : (({ mode := .pid, geo := some 1, field := onCells } : Ext Nat).clear).mode = .pid := rfl

end Verif.Recon
