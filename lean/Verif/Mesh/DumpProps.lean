import Verif.Mesh.Dump
import Verif.Mesh.SyncProps
/-
C43 (dump and restore), C60 (clone), and C30/C32 for `reset`, `restore` and `clone`.
-/
namespace Verif.Mesh
open Verif.Field
open List hiding get

variable {P : Type}

theorem resetPatch_some {o : Obj P} (ht : TreeOk o) : ∃ o', resetPatch o = some o' ∧ o'.type = o.type ∧ o'.tree = o.tree ∧
    o'.verts = [] ∧ o'.cells = [] ∧ o'.pids = o.pids ∧ o'.names = o.names ∧ o'.tol = o.tol := by
  unfold resetPatch cleanSkd
  by_cases h : o.skd.st = .notSupported
  · simp only [h, if_true, Option.map_some]
    exact ⟨_, rfl, rfl, rfl, rfl, rfl, rfl, rfl, rfl⟩
  · have : o.tree = true := ht.allocated (fun h3 => h (ht.supported.2 h3))
    simp only [h, if_false, this, Option.map_some]
    exact ⟨_, rfl, rfl, this.symm ▸ rfl, rfl, rfl, rfl, rfl, rfl⟩

/-- `reset` of an object in order: an empty object of the type asked for -/
theorem reset_some {o : Obj P} (ht : TreeOk o) (type : Int) (h1 : 1 ≤ type) (h4 : type ≤ 4) :
    ∃ o', reset o type = some o' ∧ (o'.type : Int) = type ∧ o'.verts = [] ∧ o'.cells = [] ∧ o'.pids = o.pids ∧
      o'.names = o.names ∧ o'.tol = o.tol ∧ TreeOk o' ∧ o'.kd = ⟨.none, none⟩ ∧ (o'.skd.st = .notSupported ∨ o'.skd.st = .none) := by
  obtain ⟨o1, e1, e2, e3, e4, e5, e6, e7, e8⟩ := resetPatch_some ht
  unfold reset
  rw [e1, Option.map_some]
  have hle : ¬ (max 0 type).toNat > 4 := by omega
  simp only [hle, if_false]
  refine ⟨_, rfl, ?_, e4, e5, e6, e7, e8, ⟨?_, ?_⟩, rfl, ?_⟩
  · simp only; omega
  · simp only; split <;> simp_all
  · intro hne
    simp only at hne ⊢
    rw [if_pos (by omega)]
  · simp only; split <;> simp

/-- C32: `reset` leaves the support of the tree in order. -/
theorem C32_reset_partial {o o' : Obj P} (ht : TreeOk o) {type : Int} (h1 : 1 ≤ type) (h4 : type ≤ 4)
    (h : reset o type = some o') : (o'.skd.st = .notSupported ↔ o'.type = 3) ∧ (o'.type ≠ 3 → o'.tree = true) := by
  obtain ⟨o2, e, _, _, _, _, _, _, t, _⟩ := reset_some ht type h1 h4
  rw [h] at e; injection e with e; subst e
  exact ⟨t.supported, t.allocated⟩

/-- C32: an unknown type above 4 gives an empty surface. -/
theorem C32_reset_unknown_type {o o' : Obj P} (ht : TreeOk o) {type : Int} (h4 : 4 < type)
    (h : reset o type = some o') : o'.type = 1 ∧ o'.verts = [] ∧ o'.cells = [] ∧ o'.tree = true := by
  obtain ⟨o1, e1, e2, e3, e4, e5, e6, e7, e8⟩ := resetPatch_some ht
  unfold reset at h
  rw [e1, Option.map_some] at h
  have hle : (max 0 type).toNat > 4 := by omega
  simp only [hle, if_true] at h
  injection h with h
  subst h
  exact ⟨rfl, e4, e5, by simp⟩

theorem readPids_spec : ∀ (l : List (Int × String)) (s : List Int × List (Int × String)),
    (∀ p, p ∈ (l.foldl readPids s).1 ↔ p ∈ s.1 ∨ p ∈ l.map Prod.fst) ∧
    (∀ p, nameOf (l.foldl readPids s).2 p = (nameOf s.2 p).or (nameOf l p)) := by
  intro l
  induction l with
  | nil => intro s; simp [nameOf]
  | cons e l ih =>
    intro s
    rw [foldl_cons]
    obtain ⟨i1, i2⟩ := ih (readPids s e)
    refine ⟨fun p => ?_, fun p => ?_⟩
    · rw [i1]; simp only [readPids, mem_insSet, map_cons, mem_cons]; grind
    · rw [i2]
      simp only [readPids, insName]
      by_cases ha : s.2.any (fun x => x.1 == e.1) = true
      · rw [if_pos ha]
        by_cases hp : e.1 = p
        · subst hp
          have : (nameOf s.2 e.1).isSome = true := by
            unfold nameOf
            rw [Option.isSome_map, find?_isSome]
            rw [any_eq_true] at ha
            exact ha
          rw [Option.isSome_iff_exists] at this
          obtain ⟨x, hx⟩ := this
          rw [hx]; rfl
        · congr 1
          unfold nameOf
          rw [find?_cons, beq_eq_false_iff_ne.2 hp]
      · rw [if_neg ha]
        have hn : nameOf s.2 e.1 = none := by
          unfold nameOf
          rw [Option.map_eq_none_iff, find?_eq_none]
          simp only [any_eq_true, not_exists, not_and] at ha
          exact ha
        unfold nameOf at hn ⊢
        rw [find?_append, find?_cons, find?_cons]
        by_cases hp : e.1 = p
        · subst hp
          rw [Option.map_eq_none_iff] at hn
          simp [hn]
        · rw [beq_eq_false_iff_ne.2 hp]
          simp

theorem zip_fst_snd {α β : Type} : ∀ l : List (α × β), (l.map Prod.fst).zip (l.map Prod.snd) = l := by
  intro l
  induction l with
  | nil => rfl
  | cons e l ih => simp only [map_cons, zip_cons_cons, ih]

theorem nameOf_resync (o : Obj P) (p : Int) (s : String) :
    nameOf (resyncPID o).names p = some s ↔ (p ∈ (resyncPID o).pids ∧ s = (nameOf o.names p).getD "") := by
  unfold resyncPID nameOf
  simp only
  generalize distinct (o.cells.map (fun c => c.2.pid)) = l
  induction l with
  | nil => simp
  | cons a l ih =>
    rw [map_cons, find?_cons]
    by_cases h : a = p
    · subst h
      simp only [beq_self_eq_true, Option.map_some, Option.some.injEq, mem_cons, true_or, true_and]
      exact eq_comm
    · rw [beq_eq_false_iff_ne.2 h]
      simp only [mem_cons]
      rw [ih]
      have : p ≠ a := Ne.symm h
      simp [this]

/-- C43 for any target: mesh type, vertices, cells and the three statuses are those dumped; the trees of the target
are gone; the PIDs and names dumped are added to those of the target, whose names prevail. -/
theorem C43_restore_partial {o x : Obj P} (ht : TreeOk x) (h1 : 1 ≤ o.type) (h4 : o.type ≤ 4)
    (hpc : o.pc.st ≠ .sync ∨ o.type ≠ 3) :
    ∃ r, restore x (dump o).1 = some r ∧ r.type = o.type ∧ r.verts = o.verts ∧ r.cells = o.cells ∧
      r.adj.st = o.adj.st ∧ r.int.st = o.int.st ∧ r.pc.st = o.pc.st ∧ r.kd.st = .none ∧ r.skd.st ≠ .sync ∧
      (∀ p, p ∈ r.pids ↔ p ∈ x.pids ∨ ∃ c ∈ o.cells, c.2.pid = p) ∧
      (∀ p, nameOf r.names p = (nameOf x.names p).or (nameOf (resyncPID o).names p)) ∧ TreeOk r ∧ Fresh r := by
  obtain ⟨o1, e1, e2, e3, e4, e5, e6, e7, e8, e9, e10⟩ := reset_some ht ((dump o).1.type) (by simp [dump, resyncPID]; omega)
    (by simp [dump, resyncPID]; omega)
  have htype : o1.type = o.type := by
    have : ((dump o).1.type) = (o.type : Int) := rfl
    rw [this] at e2; omega
  unfold restore
  rw [e1, Option.map_some]
  have hz : (dump o).1.pid.zip (dump o).1.sspid = (resyncPID o).names := zip_fst_snd _
  rw [hz]
  have hr := readPids_spec (resyncPID o).names (x.pids, x.names)
  have hmem : ∀ p, p ∈ (resyncPID o).names.map Prod.fst ↔ ∃ c ∈ o.cells, c.2.pid = p := by
    intro p
    simp only [resyncPID, map_map]
    rw [show (Prod.fst ∘ fun p => (p, (nameOf o.names p).getD "")) = (fun p : Int => p) from rfl, map_id']
    rw [mem_distinct, mem_map]
  by_cases hs : o.pc.st = .sync
  · have ht3 : o.type ≠ 3 := by rcases hpc with h | h; exact absurd hs h; exact h
    have hb : o1.type = 1 ∨ o1.type = 2 ∨ o1.type = 4 := by omega
    have hd : (dump o).1.pc = .sync := hs
    refine ⟨_, rfl, ?_⟩
    have hb3 : ¬ o1.type = 3 := by omega
    simp only [hd, if_true, buildPC, cleanPC, hb3, hb, if_false, e5, e6]
    refine ⟨htype, rfl, rfl, rfl, rfl, hs.symm, by rw [e9], ?_, ?_, ?_, ⟨e8.supported, e8.allocated⟩, ?_⟩
    · rcases e10 with h | h <;> rw [h] <;> simp
    · intro p; rw [hr.1, hmem]
    · intro p; rw [hr.2]
    · refine ⟨by simp [e9], ?_, ?_, ?_, fun _ => rfl, fun _ => rfl, fun _ => rfl⟩
      · intro h; rcases e10 with h' | h' <;> simp [h'] at h
      · intro h; simp only at h ⊢; simp [h]; rfl
      · intro h; simp only at h ⊢; simp [h]; rfl
  · have hd : (dump o).1.pc ≠ .sync := hs
    refine ⟨_, rfl, ?_⟩
    simp only [hd, if_false, e5, e6]
    refine ⟨htype, rfl, rfl, rfl, rfl, rfl, by rw [e9], ?_, ?_, ?_, ⟨e8.supported, e8.allocated⟩, ?_⟩
    · rcases e10 with h | h <;> rw [h] <;> simp
    · intro p; rw [hr.1, hmem]
    · intro p; rw [hr.2]
    · refine ⟨by simp [e9], ?_, ?_, ?_, fun _ => rfl, fun _ => rfl, fun h => absurd h hd⟩
      · intro h; rcases e10 with h' | h' <;> simp [h'] at h
      · intro h; simp only at h ⊢; simp [h]; rfl
      · intro h; simp only at h ⊢; simp [h]; rfl

/-- C43 for a target without PIDs (a new object): PIDs and names are exactly those dumped. -/
theorem C43_new_target {o x : Obj P} (ht : TreeOk x) (hp : x.pids = []) (hn : x.names = []) (h1 : 1 ≤ o.type)
    (h4 : o.type ≤ 4) (hpc : o.pc.st ≠ .sync ∨ o.type ≠ 3) :
    ∃ r, restore x (dump o).1 = some r ∧ r.type = o.type ∧ r.verts = o.verts ∧ r.cells = o.cells ∧
      r.adj.st = o.adj.st ∧ r.int.st = o.int.st ∧ r.pc.st = o.pc.st ∧
      (∀ p, p ∈ r.pids ↔ ∃ c ∈ o.cells, c.2.pid = p) ∧
      (∀ p s, nameOf r.names p = some s ↔ (∃ c ∈ o.cells, c.2.pid = p) ∧ s = (nameOf o.names p).getD "") := by
  obtain ⟨r, e1, e2, e3, e4, e5, e6, e7, _, _, e8, e9, _⟩ := C43_restore_partial ht h1 h4 hpc
  refine ⟨r, e1, e2, e3, e4, e5, e6, e7, fun p => by rw [e8, hp]; simp, fun p s => ?_⟩
  rw [e9, hn]
  have : (nameOf ([] : List (Int × String)) p) = none := rfl
  rw [this, Option.none_or, nameOf_resync]
  have : p ∈ (resyncPID o).pids ↔ ∃ c ∈ o.cells, c.2.pid = p := by
    simp only [resyncPID, mem_distinct, mem_map]
  rw [this]

/-- two objects in order, of different types, the target with PIDs of its own -/
def demoTarget : Obj Int :=
  { demo with type := 3, cells := [], pids := [2, 99], names := [(2, "old"), (99, "left")],
              skd := ⟨.notSupported, .none⟩, tree := false }

example : TreeOk demoTarget ∧ 1 ≤ demo.type ∧ demo.type ≤ 4 ∧ (demo.pc.st ≠ .sync ∨ demo.type ≠ 3) ∧
    ∃ x : Obj Int, ctor 2 = some x ∧ TreeOk x ∧ x.pids = [] ∧ x.names = [] := by
  refine ⟨⟨by decide, by decide⟩, by decide, by decide, by decide, ?_⟩
  cases h : (ctor 2 : Option (Obj Int)) with
  | none => exact absurd h (by decide)
  | some x =>
    have : (ctor 2 : Option (Obj Int)).any (fun x => decide ((x.skd.st = .notSupported ↔ x.type = 3) ∧
      (x.type ≠ 3 → x.tree = true) ∧ x.pids = [] ∧ x.names = [])) = true := by decide
    rw [h] at this
    simp only [Option.any_some, decide_eq_true_eq] at this
    exact ⟨x, rfl, ⟨this.1, this.2.1⟩, this.2.2.1, this.2.2.2⟩

/-- C43 does not hold for a target with PIDs: those it had before survive, though no cell carries them, and the name a
PID had in the target is kept instead of the one dumped. -/
theorem C43_used_target_fails : (∀ c ∈ demo.cells, c.2.pid ≠ 99) ∧ nameOf demo.names 2 = some "b" ∧
    ∃ r, restore demoTarget (dump demo).1 = some r ∧ 99 ∈ r.pids ∧ nameOf r.names 2 = some "old" := by
  refine ⟨by decide, by decide, ?_⟩
  cases h : restore demoTarget (dump demo).1 with
  | none => exact absurd h (by decide)
  | some r =>
    have : (restore demoTarget (dump demo).1).any (fun r => decide (99 ∈ r.pids ∧ nameOf r.names 2 = some "old")) = true := by
      decide
    rw [h] at this
    simp only [Option.any_some, decide_eq_true_eq] at this
    exact ⟨r, rfl, this.1, this.2⟩

/-! ### C60 -/

theorem setName_fold : ∀ (l : List (Int × String)) (r : Obj P), (l.map Prod.fst).Nodup →
    let r' := l.foldl (fun r e => (setPIDName r e.1 e.2).1) r
    r' = { r with names := r'.names } ∧
    (∀ p, nameOf r'.names p = (nameOf r.names p).map (fun s => (nameOf l p).getD s)) := by
  intro l
  induction l with
  | nil => intro r _; exact ⟨rfl, fun p => by
      simp only [foldl_nil]
      cases nameOf r.names p <;> rfl⟩
  | cons e l ih =>
    intro r hn
    rw [map_cons, nodup_cons] at hn
    obtain ⟨i1, i2⟩ := ih (setPIDName r e.1 e.2).1 hn.2
    dsimp only at i1 i2 ⊢
    rw [foldl_cons]
    have hs : (setPIDName r e.1 e.2).1 = { r with names := (setPIDName r e.1 e.2).1.names } := by
      unfold setPIDName; split <;> rfl
    refine ⟨i1.trans (by rw [hs]), fun p => ?_⟩
    rw [i2]
    have hx : nameOf (setPIDName r e.1 e.2).1.names p = (nameOf r.names p).map (fun s => if e.1 = p then e.2 else s) := by
      unfold setPIDName
      split
      · simp only [nameOf]
        generalize r.names = ns
        induction ns with
        | nil => rfl
        | cons a ns ihn =>
          rw [map_cons, find?_cons, find?_cons]
          by_cases ha : a.1 = e.1
          · rw [if_pos ha]
            by_cases hp : e.1 = p
            · subst hp; simp [ha]
            · have : a.1 ≠ p := by rw [ha]; exact hp
              simp only [beq_eq_false_iff_ne.2 this, beq_eq_false_iff_ne.2 hp]
              exact ihn
          · rw [if_neg ha]
            by_cases hp : a.1 = p
            · have : ¬ e.1 = p := fun h => ha (hp.trans h.symm)
              simp [hp, this]
            · simp only [beq_eq_false_iff_ne.2 hp]
              exact ihn
      · next hno =>
        simp only [nameOf]
        by_cases hp : e.1 = p
        · subst hp
          have : r.names.find? (fun x => x.1 == e.1) = none := by
            rw [find?_eq_none]; intro x hx h; exact hno (any_eq_true.2 ⟨x, hx, h⟩)
          rw [this]; rfl
        · simp only [hp, if_false, Option.map_map]
          cases (find? (fun e => e.1 == p) r.names) <;> rfl
    rw [hx, Option.map_map]
    congr 1
    funext s
    simp only [Function.comp_apply]
    by_cases hp : e.1 = p
    · subst hp
      have : nameOf l e.1 = none := by
        unfold nameOf
        rw [Option.map_eq_none_iff, find?_eq_none]
        intro x hx h
        exact hn.1 (mem_map.2 ⟨x, hx, by simpa using h⟩)
      rw [this]
      simp [nameOf]
    · rw [if_neg hp]
      simp only [nameOf, find?_cons, beq_eq_false_iff_ne.2 hp]

/-- C60, objects whose elements suit their type: the clone has the same type, vertices, cells; its PIDs are those in
use, with the names they have in the original; the trees and the point connectivity built in the original are built;
adjacencies and interfaces are present when they are in the original; nothing is stale.  (The clone of the patch is a
deep copy made by bitpit; later changes of one object are not seen by the other.)  Missing: tolerance, PIDs listed
but not in use, objects with elements of another kind. -/
theorem C60_clone_partial {o : Obj P} (hf : Fresh o) (h1 : 1 ≤ o.type) (h4 : o.type ≤ 4)
    (hel : ∀ c ∈ o.cells, refused o.type c.2.elem = false) (hnn : (o.names.map Prod.fst).Nodup)
    (hskd : o.type = 3 → o.skd.st ≠ .sync) (hkd : o.kd.st = .sync → o.verts ≠ []) (hpc : o.type = 3 → o.pc.st ≠ .sync) :
    ∃ r, clone o = some r ∧ r.type = o.type ∧ r.verts = o.verts ∧ r.cells = o.cells ∧
      (∀ p, p ∈ r.pids ↔ ∃ c ∈ o.cells, c.2.pid = p) ∧
      (∀ p s, nameOf r.names p = some s ↔ (∃ c ∈ o.cells, c.2.pid = p) ∧ s = (nameOf o.names p).getD "") ∧
      (r.kd.st = .sync ↔ o.kd.st = .sync) ∧ (r.skd.st = .sync ↔ o.skd.st = .sync) ∧ (r.pc.st = .sync ↔ o.pc.st = .sync) ∧
      (r.adj.st = .none ↔ o.adj.st = .none) ∧ (r.int.st = .none ↔ o.int.st = .none) ∧ Fresh r ∧ TreeOk r := by
  have ht : (max (o.type : Int) 1).toNat = o.type := by omega
  have hany : o.cells.any (fun c => refused o.type c.2.elem) = false := by
    rw [any_eq_false]; intro c hc; simp [hel c hc]
  let r0 : Obj P := {
    type := o.type, verts := o.verts, cells := o.cells
    pids := distinct (o.cells.map (fun c => c.2.pid))
    names := (distinct (o.cells.map (fun c => c.2.pid))).map (fun p => (p, ""))
    tree := o.type != 3
    kd := ⟨.none, none⟩, skd := ⟨if o.type = 3 then .notSupported else .none, none⟩
    adj := ⟨if decide (o.adj.st ≠ .none) then .unsync else .none, none⟩
    int := ⟨if decide (o.int.st ≠ .none) then .unsync else .none, none⟩
    info := ⟨.sync, some (o.cells.map Prod.fst)⟩, bbox := ⟨.unsync, none⟩, pc := ⟨.none, none⟩ }
  have hc : ctorPatch o.type o.verts o.cells (o.adj.st ≠ .none) (o.int.st ≠ .none) = some r0 := by
    unfold ctorPatch
    simp only [ht, hany]
    rw [if_neg (by omega)]
    rfl
  obtain ⟨s1, s2⟩ := setName_fold o.names (resyncPID r0) hnn
  generalize hr1 : o.names.foldl (fun r e => (setPIDName r e.1 e.2).1) (resyncPID r0) = r1 at s1 s2
  have hpids : r1.pids = distinct (o.cells.map (fun c => c.2.pid)) := by rw [s1]; rfl
  have hnames : ∀ p s, nameOf r1.names p = some s ↔ (∃ c ∈ o.cells, c.2.pid = p) ∧ s = (nameOf o.names p).getD "" := by
    intro p s
    rw [s2, Option.map_eq_some_iff]
    have hm : p ∈ (resyncPID r0).pids ↔ ∃ c ∈ o.cells, c.2.pid = p := by
      simp only [resyncPID, mem_distinct, mem_map]; rfl
    have hemp : (nameOf r0.names p).getD "" = "" := by
      show (nameOf ((distinct (o.cells.map (fun c => c.2.pid))).map (fun p => (p, ""))) p).getD "" = ""
      generalize distinct (o.cells.map (fun c => c.2.pid)) = l
      unfold nameOf
      induction l with
      | nil => rfl
      | cons a l ih =>
        rw [map_cons, find?_cons]
        cases h : (a == p) with
        | true => rfl
        | false => exact ih
    constructor
    · rintro ⟨x, hx, rfl⟩
      rw [nameOf_resync] at hx
      rw [hm] at hx
      exact ⟨hx.1, by rw [hx.2, hemp]⟩
    · rintro ⟨hp, rfl⟩
      exact ⟨"", (nameOf_resync _ _ _).2 ⟨hm.2 hp, hemp.symm⟩, rfl⟩
  have hv1 : r1.verts = o.verts := by rw [s1]; rfl
  have hc1 : r1.cells = o.cells := by rw [s1]; rfl
  have ht1 : r1.type = o.type := by rw [s1]; rfl
  have htree1 : r1.tree = (o.type != 3) := by rw [s1]; rfl
  have hkd1 : r1.kd = ⟨.none, none⟩ := by rw [s1]; rfl
  have hskd1 : r1.skd = ⟨if o.type = 3 then .notSupported else .none, none⟩ := by rw [s1]; rfl
  have hadj1 : r1.adj = ⟨if decide (o.adj.st ≠ .none) then .unsync else .none, none⟩ := by rw [s1]; rfl
  have hint1 : r1.int = ⟨if decide (o.int.st ≠ .none) then .unsync else .none, none⟩ := by rw [s1]; rfl
  have hinfo1 : r1.info = ⟨.sync, some (o.cells.map Prod.fst)⟩ := by rw [s1]; rfl
  have hbb1 : r1.bbox = ⟨.unsync, none⟩ := by rw [s1]; rfl
  have hpc1 : r1.pc = ⟨.none, none⟩ := by rw [s1]; rfl
  let r2 : Obj P := if o.kd.st = Status.sync then { r1 with kd := ⟨.sync, some r1.verts⟩ } else r1
  have hr2 : (if o.kd.st = Status.sync then buildKd r1 else r1) = r2 := by
    show _ = (if o.kd.st = Status.sync then { r1 with kd := ⟨.sync, some r1.verts⟩ } else r1)
    split
    · next h =>
      unfold buildKd
      rw [if_neg (by rw [hv1]; exact hkd h), if_neg (by rw [hkd1]; simp)]
      rfl
    · rfl
  have hr2p : r2 = { r1 with kd := r2.kd } := by
    show (if o.kd.st = Status.sync then { r1 with kd := ⟨.sync, some r1.verts⟩ } else r1) = _
    show _ = { r1 with kd := (if o.kd.st = Status.sync then { r1 with kd := ⟨.sync, some r1.verts⟩ } else r1 : Obj P).kd }
    split <;> rfl
  have hkd2 : (r2.kd.st = .sync ↔ o.kd.st = .sync) ∧ (r2.kd.st = .sync → r2.kd.val = some o.verts) := by
    have : r2.kd = if o.kd.st = Status.sync then ⟨.sync, some o.verts⟩ else ⟨.none, none⟩ := by
      show (if o.kd.st = Status.sync then { r1 with kd := ⟨.sync, some r1.verts⟩ } else r1 : Obj P).kd = _
      split
      · rw [hv1]
      · exact hkd1
    rw [this]
    split
    · next h => exact ⟨by simp [h], fun _ => rfl⟩
    · next h => exact ⟨by simp [h], by simp⟩
  have hcomp : o.skd.st = .sync → complete r2 = true := by
    intro h
    have := (hf.skd h).2
    rw [hr2p]
    unfold complete at this ⊢
    simp only [hc1, hv1]
    exact this
  let r3 : Obj P := if o.skd.st = Status.sync then { r2 with skd := ⟨.sync, some (shapes r2)⟩ } else r2
  have hskdst : r2.skd = ⟨if o.type = 3 then .notSupported else .none, none⟩ := by rw [hr2p]; exact hskd1
  have hr3 : (if o.skd.st = Status.sync then buildSkd r2 else some r2) = some r3 := by
    show _ = some (if o.skd.st = Status.sync then { r2 with skd := ⟨.sync, some (shapes r2)⟩ } else r2)
    split
    · next h =>
      have h3 : o.type ≠ 3 := fun h3 => hskd h3 h
      have htr : r2.tree = true := by rw [hr2p]; simp [htree1, h3]
      unfold buildSkd
      rw [hskdst]
      simp only [h3, if_false, htr, hcomp h]
      rfl
    · rfl
  have hr3p : r3 = { r2 with skd := r3.skd } := by
    show (if o.skd.st = Status.sync then { r2 with skd := ⟨.sync, some (shapes r2)⟩ } else r2) = _
    show _ = { r2 with skd := (if o.skd.st = Status.sync then { r2 with skd := ⟨.sync, some (shapes r2)⟩ } else r2 : Obj P).skd }
    split <;> rfl
  have hskd3 : (r3.skd.st = .sync ↔ o.skd.st = .sync) ∧ (r3.skd.st = .sync → r3.skd.val = some (shapes r2)) ∧
      (r3.skd.st = .notSupported ↔ o.type = 3) := by
    have : r3.skd = if o.skd.st = Status.sync then ⟨.sync, some (shapes r2)⟩ else ⟨if o.type = 3 then .notSupported else .none, none⟩ := by
      show (if o.skd.st = Status.sync then { r2 with skd := ⟨.sync, some (shapes r2)⟩ } else r2 : Obj P).skd = _
      split
      · rfl
      · exact hskdst
    rw [this]
    by_cases h : o.skd.st = .sync
    · rw [if_pos h]
      exact ⟨by simp [h], fun _ => rfl, by simp; exact fun h3 => hskd h3 h⟩
    · rw [if_neg h]
      refine ⟨by simp only [h, iff_false]; split <;> simp, ?_, ?_⟩
      · simp only; split <;> simp
      · simp only; split <;> simp [*]
  have ht3 : r3.type = o.type := by rw [hr3p, hr2p]; exact ht1
  let r4 : Obj P := if o.pc.st = Status.sync then { r3 with pc := ⟨.sync, some (topo r3)⟩ } else r3
  have hr4 : (if o.pc.st = Status.sync then buildPC r3 else r3) = r4 := by
    show _ = (if o.pc.st = Status.sync then { r3 with pc := ⟨.sync, some (topo r3)⟩ } else r3)
    split
    · next h =>
      have h3 : o.type ≠ 3 := fun h3 => hpc h3 h
      unfold buildPC cleanPC
      simp only [ht3, h3, if_false]
      rw [if_pos (by omega)]
      rfl
    · rfl
  have hr4p : r4 = { r3 with pc := r4.pc } := by
    show (if o.pc.st = Status.sync then { r3 with pc := ⟨.sync, some (topo r3)⟩ } else r3) = _
    show _ = { r3 with pc := (if o.pc.st = Status.sync then { r3 with pc := ⟨.sync, some (topo r3)⟩ } else r3 : Obj P).pc }
    split <;> rfl
  have hpc4 : (r4.pc.st = .sync ↔ o.pc.st = .sync) ∧ (r4.pc.st = .sync → r4.pc.val = some (topo r3)) := by
    have : r4.pc = if o.pc.st = Status.sync then ⟨.sync, some (topo r3)⟩ else ⟨.none, none⟩ := by
      show (if o.pc.st = Status.sync then { r3 with pc := ⟨.sync, some (topo r3)⟩ } else r3 : Obj P).pc = _
      split
      · rfl
      · rw [hr3p, hr2p]; exact hpc1
    rw [this]
    split
    · next h => exact ⟨by simp [h], fun _ => rfl⟩
    · next h => exact ⟨by simp [h], by simp⟩
  have hclone : clone o = some r4 := by
    unfold clone
    rw [hc, Option.bind_some]
    simp only [hr1, hr2, hr3, Option.map_some, hr4]
  have all : r4 = { r1 with kd := r2.kd, skd := r3.skd, pc := r4.pc } := by
    rw [hr4p]; rw [hr3p]; rw [hr2p]
  have hshape : shapes r2 = shapes r4 := by rw [all, hr2p]; rfl
  have htopo : topo r3 = topo r4 := by rw [all, hr3p, hr2p]; rfl
  have e : r4.type = o.type ∧ r4.verts = o.verts ∧ r4.cells = o.cells ∧ r4.pids = r1.pids ∧ r4.names = r1.names ∧
      r4.tree = r1.tree ∧ r4.kd = r2.kd ∧ r4.skd = r3.skd ∧ r4.adj = r1.adj ∧ r4.int = r1.int ∧ r4.info = r1.info ∧
      r4.bbox = r1.bbox := by
    rw [all]; exact ⟨ht1, hv1, hc1, rfl, rfl, rfl, rfl, rfl, rfl, rfl, rfl, rfl⟩
  obtain ⟨t1, t2, t3, t4, t5, t6, t7, t8, t9, t10, t11, t12⟩ := e
  refine ⟨r4, hclone, t1, t2, t3, ?_, ?_, ?_, ?_, hpc4.1, ?_, ?_, ⟨?_, ?_, ?_, ?_, ?_, ?_, ?_⟩, ⟨?_, ?_⟩⟩
  · intro p; rw [t4, hpids, mem_distinct, mem_map]
  · intro p s; rw [t5]; exact hnames p s
  · rw [t7]; exact hkd2.1
  · rw [t8]; exact hskd3.1
  · rw [t9, hadj1]; by_cases h : o.adj.st = .none <;> simp [h]
  · rw [t10, hint1]; by_cases h : o.int.st = .none <;> simp [h]
  · intro h; rw [t7] at h ⊢; rw [t2]; exact hkd2.2 h
  · intro h
    rw [t8] at h ⊢
    refine ⟨by rw [← hshape]; exact hskd3.2.1 h, ?_⟩
    have := hcomp (hskd3.1.1 h)
    unfold complete at this ⊢
    rw [t2, t3]
    rw [hr2p] at this
    simp only [hc1, hv1] at this
    exact this
  · intro h; rw [t9, hadj1] at h; split at h <;> simp at h
  · intro h; rw [t10, hint1] at h; split at h <;> simp at h
  · intro _; rw [t11, hinfo1]; unfold cellIds; rw [t3]
  · intro h; rw [t12, hbb1] at h; simp at h
  · intro h; rw [← htopo]; exact hpc4.2 h
  · rw [t8, t1]; exact hskd3.2.2
  · intro h; rw [t1] at h; rw [t6, htree1]; simpa using h

example : Fresh demoBuilt ∧ 1 ≤ demoBuilt.type ∧ demoBuilt.type ≤ 4 ∧
    (∀ c ∈ demoBuilt.cells, refused demoBuilt.type c.2.elem = false) ∧ (demoBuilt.names.map Prod.fst).Nodup ∧
    demoBuilt.kd.st = .sync ∧ demoBuilt.skd.st = .sync ∧ demoBuilt.verts ≠ [] ∧ demoBuilt.type ≠ 3 :=
  ⟨C30_fresh_partial demoBuilt_reach, by decide, by decide, by decide, by decide, by decide, by decide, by decide, by decide⟩

/-- C60 does not hold for the tolerance: the clone has the default one. -/
theorem C60_tolerance_fails : ∃ o r : Obj Int, clone o = some r ∧ r.tol ≠ o.tol := by
  refine ⟨{ demo with tol := 5 }, ?_⟩
  cases h : clone { demo with tol := 5 } with
  | none => exact absurd h (by decide)
  | some r =>
    have : (clone { demo with tol := 5 }).any (fun r => decide (r.tol ≠ 5)) = true := by decide
    rw [h] at this
    exact ⟨r, rfl, by simpa using this⟩

/-- C60 does not hold for PIDs listed in the original that no cell carries: they and their names are lost. -/
theorem C60_listed_pids_fails : ∃ o r : Obj Int, clone o = some r ∧ 7 ∈ o.pids ∧ 7 ∉ r.pids := by
  refine ⟨{ demo with pids := [1, 2, 7], names := [(1, "a"), (2, "b"), (7, "c")] }, ?_⟩
  cases h : clone { demo with pids := [1, 2, 7], names := [(1, "a"), (2, "b"), (7, "c")] } with
  | none => exact absurd h (by decide)
  | some r =>
    have : (clone { demo with pids := [1, 2, 7], names := [(1, "a"), (2, "b"), (7, "c")] }).any
        (fun r => decide (7 ∉ r.pids)) = true := by decide
    rw [h] at this
    exact ⟨r, rfl, by decide, by simpa using this⟩

/-- C60 does not hold for a surface object to which an element of another kind was added (which the API accepts): the
clone throws. -/
theorem C60_other_element_fails : ∃ o : Obj Int, (addConnectedCell demo 12 [0, 1] .line 0 none).2 = some 12 ∧
    o = (addConnectedCell demo 12 [0, 1] .line 0 none).1 ∧ clone o = none :=
  ⟨_, by decide, rfl, by decide⟩

end Verif.Mesh
