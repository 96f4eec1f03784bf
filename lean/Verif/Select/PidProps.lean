import Verif.Select.SubProps
import Verif.Shape.CloudProps
/-
C102: the dual selection is the complement.  C103: selection by PID returns what was last asked.
-/
namespace Verif.Select
open Verif.Field Verif.Mesh
open List hiding get

variable {P : Type}

/-! ### The state after synchronisation -/

theorem mem_activePIDs (s : Pid) (b : Bool) (p : Int) : p ∈ s.activePIDs b ↔ (p, b) ∈ s.active := by
  unfold Pid.activePIDs
  simp only [mem_map, mem_filter, beq_iff_eq]
  constructor
  · rintro ⟨⟨q, c⟩, ⟨h, rfl⟩, rfl⟩; exact h
  · intro h; exact ⟨(p, b), ⟨h, rfl⟩, rfl⟩

theorem sync_active (s : Pid) (p : Int) : (p, true) ∈ s.sync.active ↔
    (p, true) ∈ s.active ∨ ((∃ b, (p, b) ∈ s.active) ∧ (-1 ∈ s.set ∨ p ∈ s.set)) := by
  unfold Pid.sync
  by_cases h : -1 ∈ s.set
  · rw [if_pos h]
    simp only [mem_map, Prod.mk.injEq, and_true]
    constructor
    · rintro ⟨⟨q, b⟩, hq, rfl⟩; exact Or.inr ⟨⟨b, hq⟩, Or.inl h⟩
    · rintro (hq | ⟨⟨b, hq⟩, -⟩) <;> exact ⟨_, hq, rfl⟩
  · rw [if_neg h]
    simp only [mem_map, h, false_or]
    constructor
    · rintro ⟨⟨q, b⟩, hq, he⟩
      by_cases hm : q ∈ s.set
      · simp only [if_pos hm, Prod.mk.injEq, and_true] at he
        subst he; exact Or.inr ⟨⟨b, hq⟩, hm⟩
      · simp only [if_neg hm] at he
        rw [he] at hq; exact Or.inl hq
    · rintro (hq | ⟨⟨b, hq⟩, hm⟩)
      · refine ⟨_, hq, ?_⟩
        split <;> rfl
      · exact ⟨_, hq, by simp [hm]⟩

theorem sync_dual (s : Pid) : s.sync.dual = s.dual := by
  unfold Pid.sync; split <;> rfl

theorem mem_extractPID {o : Obj P} (ho : Ok o.cells) (p : Int) (id : Nat) :
    id ∈ extractPID o p ↔ p ∈ o.pids ∧ ∃ c, get o.cells id = some c ∧ c.pid = p := by
  unfold extractPID
  by_cases hp : p ∈ o.pids
  · rw [if_pos hp]
    simp only [mem_map, mem_filter, decide_eq_true_eq, hp, true_and]
    constructor
    · rintro ⟨⟨i, c⟩, ⟨h, h'⟩, rfl⟩; exact ⟨c, get_of_mem ho h, h'⟩
    · rintro ⟨c, h, h'⟩; exact ⟨(id, c), ⟨get_some_mem h, h'⟩, rfl⟩
  · rw [if_neg hp]; simp [hp]

/-- the cells with an active PID -/
def Active (s : Pid) (o : Obj P) (id : Nat) : Prop :=
  ∃ c, get o.cells id = some c ∧ c.pid ∈ o.pids ∧ (c.pid, true) ∈ s.sync.active

/-- what `extractSelection` returns, for every state and geometry -/
theorem extract_spec (s : Pid) {o : Obj P} (ho : Ok o.cells) :
    ∃ r, (s.extract o).2 = some r ∧ r.Pairwise (· < ·) ∧
      ∀ id, id ∈ r ↔ has o.cells id = true ∧ (Active s o id ↔ s.dual = false) := by
  unfold Pid.extract
  simp only [sync_dual]
  obtain ⟨ex, hex⟩ : ∃ ex, ex = distinct ((s.sync.activePIDs true).flatMap (extractPID o)) := ⟨_, rfl⟩
  have hmem : ∀ id, id ∈ ex ↔ Active s o id := by
    intro id
    rw [hex, mem_distinct, mem_flatMap]
    constructor
    · rintro ⟨p, h1, h2⟩
      obtain ⟨h3, c, h4, rfl⟩ := (mem_extractPID ho p id).1 h2
      exact ⟨c, h4, h3, (mem_activePIDs _ _ _).1 h1⟩
    · rintro ⟨c, h1, h2, h3⟩
      exact ⟨c.pid, (mem_activePIDs _ _ _).2 h3, (mem_extractPID ho _ id).2 ⟨h2, c, h1, rfl⟩⟩
  have hnd : ex.Nodup := by rw [hex]; exact nodup_distinct _
  have hids : ∀ id, id ∈ cellIds o ↔ has o.cells id = true := fun id => (has_iff o.cells id).symm
  have hsub : ∀ id ∈ ex, id ∈ cellIds o := by
    intro id h
    obtain ⟨c, h1, -⟩ := (hmem id).1 h
    rw [hids, has_eq_isSome, h1]; rfl
  rw [← hex]
  cases hd : s.dual with
  | false =>
    obtain ⟨s1, s2, -⟩ := Shape.sorted_lt hnd
    refine ⟨Shape.sorted ex, by simp, s1, fun id => ?_⟩
    rw [s2, hmem]
    simp only [iff_true]
    constructor
    · intro h; exact ⟨(hids id).1 (hsub id ((hmem id).2 h)), h⟩
    · exact And.right
  | true =>
    have hcn : (cellIds o).Nodup := ho
    obtain ⟨r, r1, r2, r3⟩ := Shape.complement_spec hcn hnd hsub
    by_cases hl : (cellIds o).length = ex.length
    · refine ⟨[], by simp [hl], by simp, fun id => ?_⟩
      have hfull := subset_full hnd hsub (by omega)
      simp only [not_mem_nil, false_iff, not_and, Bool.true_eq_false, iff_false, not_not]
      intro h; exact (hmem id).1 (hfull id ((hids id).2 h))
    · refine ⟨r, by simp [hl, r1], r2, fun id => ?_⟩
      rw [r3, hids, hmem]
      simp

/-- C102: with the dual option, a selection by PID returns exactly the cells that it does not return
without; both are in increasing order and never fail. -/
theorem C102_pid (s : Pid) {o : Obj P} (ho : Ok o.cells) :
    ∃ a b, ({ s with dual := false }.extract o).2 = some a ∧ ({ s with dual := true }.extract o).2 = some b ∧
      a.Pairwise (· < ·) ∧ b.Pairwise (· < ·) ∧
      ∀ id, (id ∈ a ∨ id ∈ b ↔ has o.cells id = true) ∧ ¬ (id ∈ a ∧ id ∈ b) := by
  obtain ⟨a, a1, a2, a3⟩ := extract_spec { s with dual := false } ho
  obtain ⟨b, b1, b2, b3⟩ := extract_spec { s with dual := true } ho
  have hA : ∀ d id, Active { s with dual := d } o id ↔ Active s o id := by
    intro d id
    have : ({ s with dual := d } : Pid).sync.active = s.sync.active := by unfold Pid.sync; split <;> rfl
    unfold Active; rw [this]
  refine ⟨a, b, a1, b1, a2, b2, fun id => ?_⟩
  rw [a3, b3, hA false, hA true]
  simp only [iff_true, Bool.true_eq_false, iff_false]
  constructor
  · constructor
    · rintro (h | h) <;> exact h.1
    · intro h
      by_cases h' : Active s o id
      · exact Or.inl ⟨h, h'⟩
      · exact Or.inr ⟨h, h'⟩
  · rintro ⟨h1, h2⟩; exact h2.2 h1.2

example : Ok strip.cells ∧
    ({ set := [1], active := [(1, false), (2, false), (3, false)], dual := true } : Pid).extract strip =
      (({ set := [1], active := [(1, true), (2, false), (3, false)], dual := true } : Pid), some [9]) := by
  refine ⟨by unfold Ok; decide, ?_⟩
  have hs : ({ set := [1], active := [(1, false), (2, false), (3, false)], dual := true } : Pid).sync =
    ({ set := [1], active := [(1, true), (2, false), (3, false)], dual := true } : Pid) := by decide
  obtain ⟨r, r1, r2, r3⟩ := extract_spec ({ set := [1], active := [(1, false), (2, false), (3, false)], dual := true } : Pid)
    (o := strip) (by unfold Ok; decide)
  have h1 : (({ set := [1], active := [(1, false), (2, false), (3, false)], dual := true } : Pid).extract strip).1 =
    ({ set := [1], active := [(1, true), (2, false), (3, false)], dual := true } : Pid) := by unfold Pid.extract; exact hs
  refine Prod.ext h1 ?_
  unfold Pid.extract
  rw [hs]
  simp only [show distinct ((Pid.activePIDs ({ set := [1], active := [(1, true), (2, false), (3, false)], dual := true } : Pid) true).flatMap
    (extractPID strip)) = [4, 6] by decide]
  simp [cellIds, strip, Shape.complement, Shape.sorted, List.mergeSort, Shape.mergeOut]

/-- C102: over meshes with cells, a selection by a shape with the dual option returns exactly the cells not returned
without it. -/
theorem C102_shape (s : Shape.Shape) (verts : Nat → List Shape.V3) {cells : List Nat} (hn : cells.Nodup)
    (tree : Option Shape.Skd) (ht : ∀ t, tree = some t → t.cells.Perm cells) (kd : Shape.Kd) (tol : ℝ) {topo : Nat} (h3 : topo ≠ 3) :
    ∃ a b, extractShape s false topo verts cells tree kd tol = some a ∧ extractShape s true topo verts cells tree kd tol = some b ∧
      ∀ id, (id ∈ a ∨ id ∈ b ↔ id ∈ cells) ∧ ¬ (id ∈ a ∧ id ∈ b) := by
  unfold extractShape
  simp only [if_neg h3, Bool.false_eq_true, if_false, if_true]
  cases tree with
  | none =>
    obtain ⟨h1, r, h2, -, h4⟩ := Shape.C66_no_tree (s := s) verts hn
    refine ⟨_, r, rfl, h2, fun id => ?_⟩
    rw [h1, h4]; simp
  | some t =>
    obtain ⟨r, h2, -, h4⟩ := Shape.C66_exclude_geometry (s := s) verts hn (ht t rfl)
    refine ⟨_, r, rfl, h2, fun id => ?_⟩
    rw [h4]
    have hsub : id ∈ Shape.includeGeo s verts (some t) → id ∈ cells := by
      intro h
      have hc := Shape.include_count s verts t id
      have h1 : 0 < (Shape.includeGeo s verts (some t)).count id := count_pos_iff.2 h
      exact ((ht t rfl).mem_iff).1 (count_pos_iff.1 (by omega))
    constructor
    · constructor
      · rintro (h | h)
        · exact hsub h
        · exact h.1
      · intro h
        by_cases h' : id ∈ Shape.includeGeo s verts (some t)
        · exact Or.inl h'
        · exact Or.inr ⟨h, h'⟩
    · rintro ⟨h, h'⟩; exact h'.2 h

example : [8, 3, 5].Nodup ∧ (1 ≠ 3) ∧ ∀ t, some (Shape.Skd.two ⟨0, 0, 0⟩ ⟨1, 1, 1⟩ (.leaf ⟨0, 0, 0⟩ ⟨1, 1, 1⟩ [3]) (.leaf ⟨0, 0, 0⟩ ⟨1, 1, 1⟩ [5, 8])) = some t →
    t.cells.Perm [8, 3, 5] := by
  refine ⟨by decide, by decide, ?_⟩
  rintro t h
  cases h
  simp only [Shape.Skd.cells]; decide

/-- C102 does not hold for point clouds and shapes: the dual selection compares the points with the ids of the cells.
A cloud without cells: the dual selection is empty when no point is in the shape, and fails otherwise. -/
theorem C102_cloud_fails (s : Shape.Shape) (verts : Nat → List Shape.V3) (tree : Option Shape.Skd) (kd : Shape.Kd) (tol : ℝ) :
    ∃ a, extractShape s false 3 verts [] tree kd tol = some a ∧
      (a = [] → extractShape s true 3 verts [] tree kd tol = some []) ∧
      (a ≠ [] → extractShape s true 3 verts [] tree kd tol = none) := by
  refine ⟨_, rfl, ?_, ?_⟩
  · intro h
    obtain ⟨r, h1, h2⟩ := (Shape.C67_exclude_fails s tol [] (by simp) kd).1 h
    have : r = [] := by
      cases r with
      | nil => rfl
      | cons x r => exact absurd ((h2 x).1 (by simp)) (by simp)
    subst this
    exact h1
  · intro h
    exact (Shape.C67_exclude_fails s tol [] (by simp) kd).2 (length_pos_iff.2 h)

/-! ### C103 -/

/-- what the user asks, call by call; `whole`: the last call that counts was "all" -/
structure Want where
  whole : Bool
  mem : Int → Prop

/-- the calls; `exec` is an execution of the block -/
inductive Call
  | set (i : Int)
  | remove (i : Int)
  | exec
deriving DecidableEq

/-- a negative index stands for all PIDs; a PID set after "all" starts a new list -/
def Want.step (w : Want) : Call → Want
  | .set i => if i < 0 then ⟨true, fun _ => True⟩ else if w.whole then ⟨false, fun p => p = i⟩ else ⟨false, fun p => w.mem p ∨ p = i⟩
  | .remove i => if i < 0 then ⟨false, fun _ => False⟩ else ⟨false, fun p => w.mem p ∧ p ≠ i⟩
  | .exec => w

/-- the block, on a geometry that does not change -/
def Pid.step (o : Obj P) (s : Pid) : Call → Pid
  | .set i => s.setPID i
  | .remove i => s.removePID i
  | .exec => (s.extract o).1

/-- the calls for which the block does what is asked; `ran`: it has been executed -/
def Fine (w : Want) (ran : Bool) : Call → Prop
  | .set i => -1 ≤ i ∧ (ran = true → w.whole = true → i = -1)
  | .remove i => ran = false ∧ (i < 0 ∨ (0 < i ∧ w.whole = false))
  | .exec => True

/-- histories of fine calls -/
inductive Hist (o : Obj P) : Want → Bool → Pid → Prop
  | start (dual : Bool) : Hist o ⟨false, fun _ => False⟩ false (({ dual := dual } : Pid).setGeometry o)
  | call {w : Want} {ran : Bool} {s : Pid} (c : Call) : Hist o w ran s → Fine w ran c →
      Hist o (w.step c) (ran || decide (c = .exec)) (s.step o c)

/-- the invariant: `set` holds what is asked, as far as the geometry knows it -/
structure Inv (o : Obj P) (w : Want) (ran : Bool) (s : Pid) : Prop where
  keys : ∀ p, (∃ b, (p, b) ∈ s.active) ↔ p ∈ o.pids
  all : -1 ∈ s.set → w.whole = true
  wholeAll : w.whole = true → ∀ p, w.mem p
  wholeSet : w.whole = true → ran = false → -1 ∈ s.set
  mem : ¬ -1 ∈ s.set → ∀ p ∈ o.pids, p ∈ s.set ↔ w.mem p
  active : ∀ p, (p, true) ∈ s.active → w.mem p
  fresh : ran = false → ∀ p, (p, true) ∉ s.active

theorem mem_insActive (l : List (Int × Bool)) (p q : Int) (b : Bool) :
    (q, b) ∈ insActive l p ↔ (q, b) ∈ l ∨ (q = p ∧ b = false ∧ ∀ c, (p, c) ∉ l) := by
  unfold insActive
  by_cases h : l.any (fun e => e.1 == p) = true
  · rw [if_pos h]
    rw [any_eq_true] at h
    obtain ⟨⟨x, c⟩, h1, h2⟩ := h
    simp at h2; subst h2
    constructor
    · exact Or.inl
    · rintro (h | ⟨-, -, h⟩)
      · exact h
      · exact absurd h1 (h c)
  · rw [if_neg h]
    have h' : ∀ c, (p, c) ∉ l := by
      intro c hc; apply h; rw [any_eq_true]; exact ⟨_, hc, by simp⟩
    simp only [mem_append, mem_singleton, Prod.mk.injEq]
    constructor
    · rintro (h1 | h1)
      · exact Or.inl h1
      · exact Or.inr ⟨h1.1, h1.2, h'⟩
    · rintro (h1 | ⟨h1, h2, -⟩)
      · exact Or.inl h1
      · exact Or.inr ⟨h1, h2⟩

theorem insActive_fold : ∀ (ps : List Int) (l : List (Int × Bool)),
    (∀ q, (∃ b, (q, b) ∈ ps.foldl insActive l) ↔ (∃ b, (q, b) ∈ l) ∨ q ∈ ps) ∧
    (∀ q, (q, true) ∈ ps.foldl insActive l ↔ (q, true) ∈ l) := by
  intro ps
  induction ps with
  | nil => intro l; simp
  | cons p ps ih =>
    intro l
    obtain ⟨i1, i2⟩ := ih (insActive l p)
    refine ⟨fun q => ?_, fun q => ?_⟩
    · rw [foldl_cons, i1, mem_cons]
      constructor
      · rintro (⟨b, h⟩ | h)
        · rcases (mem_insActive l p q b).1 h with h | ⟨h, -, -⟩
          · exact Or.inl ⟨b, h⟩
          · exact Or.inr (Or.inl h)
        · exact Or.inr (Or.inr h)
      · rintro (⟨b, h⟩ | h | h)
        · exact Or.inl ⟨b, (mem_insActive l p q b).2 (Or.inl h)⟩
        · subst h
          by_cases hq : ∃ c, (q, c) ∈ l
          · obtain ⟨c, hc⟩ := hq; exact Or.inl ⟨c, (mem_insActive l q q c).2 (Or.inl hc)⟩
          · refine Or.inl ⟨false, (mem_insActive l q q false).2 (Or.inr ⟨rfl, rfl, fun c hc => hq ⟨c, hc⟩⟩)⟩
        · exact Or.inr h
    · rw [foldl_cons, i2, mem_insActive]
      simp

theorem sync_keys (s : Pid) (p : Int) : (∃ b, (p, b) ∈ s.sync.active) ↔ ∃ b, (p, b) ∈ s.active := by
  unfold Pid.sync
  by_cases h : -1 ∈ s.set
  · rw [if_pos h]
    simp only [mem_map, Prod.mk.injEq]
    constructor
    · rintro ⟨b, ⟨q, c⟩, hq, rfl, -⟩; exact ⟨c, hq⟩
    · rintro ⟨b, hb⟩; exact ⟨true, (p, b), hb, rfl, rfl⟩
  · rw [if_neg h]
    simp only [mem_map]
    constructor
    · rintro ⟨b, ⟨q, c⟩, hq, he⟩
      have : q = p := by
        by_cases hm : q ∈ s.set
        · simp only [if_pos hm, Prod.mk.injEq] at he; exact he.1
        · simp only [if_neg hm, Prod.mk.injEq] at he; exact he.1
      subst this; exact ⟨c, hq⟩
    · rintro ⟨b, hb⟩
      by_cases hm : p ∈ s.set
      · exact ⟨true, (p, b), hb, by simp [hm]⟩
      · exact ⟨b, (p, b), hb, by simp [hm]⟩

theorem sync_set (s : Pid) (p : Int) : p ∈ s.sync.set ↔ (∃ b, (p, b) ∈ s.active) ∧ (-1 ∈ s.set ∨ p ∈ s.set) := by
  unfold Pid.sync
  by_cases h : -1 ∈ s.set
  · rw [if_pos h]
    simp only [mem_distinct, mem_map, h, true_or, and_true]
    constructor
    · rintro ⟨⟨q, b⟩, hq, rfl⟩; exact ⟨b, hq⟩
    · rintro ⟨b, hb⟩; exact ⟨(p, b), hb, rfl⟩
  · rw [if_neg h]
    simp only [mem_filter, h, false_or, any_eq_true, beq_iff_eq]
    constructor
    · rintro ⟨h1, ⟨q, b⟩, hq, rfl⟩; exact ⟨⟨b, hq⟩, h1⟩
    · rintro ⟨⟨b, hb⟩, h1⟩; exact ⟨h1, (p, b), hb, rfl⟩

theorem hist_inv {o : Obj P} (ht : o.type ≠ 3) (hpos : ∀ p ∈ o.pids, 0 ≤ p) {w : Want} {ran : Bool} {s : Pid}
    (h : Hist o w ran s) : Inv o w ran s := by
  induction h with
  | start dual =>
    have hs : (({ dual := dual } : Pid).setGeometry o) = { dual := dual, active := o.pids.foldl insActive [] } := by
      unfold Pid.setGeometry; rw [if_neg ht]
    obtain ⟨h1, h2⟩ := insActive_fold o.pids []
    rw [hs]
    refine ⟨fun p => ?_, ?_, ?_, ?_, ?_, ?_, ?_⟩
    · rw [h1]; simp
    · simp
    · simp
    · simp
    · simp
    · intro p; rw [h2]; simp
    · intro _ p; rw [h2]; simp
  | @call w ran s c _ hf ih =>
    have hneg : (-1 : Int) ∉ o.pids := fun h => by have := hpos _ h; omega
    cases c with
    | set i =>
      obtain ⟨f1, f2⟩ := hf
      have hact : (s.setPID i).active = s.active := rfl
      have hset : ∀ p, p ∈ (s.setPID i).set ↔ (p ∈ s.set ∧ ¬ (-1 ∈ s.set ∨ (s.set ≠ [] ∧ i = -1))) ∨ p = i := by
        intro p
        unfold Pid.setPID
        rw [mem_insSet]
        by_cases hc : -1 ∈ s.set ∨ (s.set ≠ [] ∧ i = -1)
        · rw [if_pos hc]; simp [hc]
        · rw [if_neg hc]; simp [hc]
      simp only [Pid.step, Want.step, reduceCtorEq, decide_false, Bool.or_false]
      by_cases hi : i < 0
      · rw [if_pos hi]
        have hi1 : i = -1 := by omega
        refine ⟨by rw [hact]; exact ih.keys, fun _ => rfl, fun _ _ => trivial, fun _ _ => (hset _).2 (Or.inr hi1.symm), ?_, fun _ _ => trivial,
          by rw [hact]; exact ih.fresh⟩
        intro hn; exact absurd ((hset _).2 (Or.inr hi1.symm)) hn
      · rw [if_neg hi]
        have hi1 : i ≠ -1 := by omega
        by_cases hw : w.whole = true
        · rw [if_pos hw]
          have hr : ran = false := by
            cases hr : ran with
            | false => rfl
            | true => exact absurd (f2 hr hw) hi1
          have hall := ih.wholeSet hw hr
          refine ⟨by rw [hact]; exact ih.keys, ?_, by simp, by simp, ?_, ?_, by rw [hact]; exact ih.fresh⟩
          · intro h
            rcases (hset _).1 h with ⟨-, h'⟩ | h'
            · exact absurd (Or.inl hall) h'
            · exact absurd h'.symm hi1
          · intro _ p _
            rw [hset]
            constructor
            · rintro (⟨-, h'⟩ | h')
              · exact absurd (Or.inl hall) h'
              · exact h'
            · exact Or.inr
          · intro p hp; exact absurd hp (ih.fresh hr p)
        · rw [if_neg hw]
          have hn : -1 ∉ s.set := fun h => hw (ih.all h)
          refine ⟨by rw [hact]; exact ih.keys, ?_, by simp, by simp, ?_, ?_, by rw [hact]; exact ih.fresh⟩
          · intro h
            rcases (hset _).1 h with ⟨h', -⟩ | h'
            · exact absurd h' hn
            · exact absurd h'.symm hi1
          · intro _ p hp
            rw [hset]
            have := ih.mem hn p hp
            simp only
            rw [← this]
            simp [hn, hi1]
          · intro p hp; exact Or.inl (ih.active p hp)
    | remove i =>
      obtain ⟨f1, f2⟩ := hf
      subst f1
      have hact : (s.removePID i).active = s.active := by unfold Pid.removePID; split <;> rfl
      simp only [Pid.step, Want.step, reduceCtorEq, decide_false, Bool.or_false]
      have hnoact := ih.fresh rfl
      by_cases hi : i < 0
      · rw [if_pos hi]
        have hset : (s.removePID i).set = [] := by unfold Pid.removePID; rw [if_neg (by omega)]
        refine ⟨by rw [hact]; exact ih.keys, by simp [hset], by simp, by simp, by simp [hset], ?_, by rw [hact]; exact fun _ => hnoact⟩
        rw [hact]; intro p hp; exact absurd hp (hnoact p)
      · rw [if_neg hi]
        rcases f2 with f2 | ⟨f2, f3⟩
        · exact absurd f2 hi
        have hn : -1 ∉ s.set := fun h => by have := ih.all h; rw [f3] at this; cases this
        have hset : (s.removePID i).set = s.set.filter (fun p => p ≠ i) := by
          unfold Pid.removePID; rw [if_pos (by omega)]
        have hmem : ∀ p, p ∈ (s.removePID i).set ↔ p ∈ s.set ∧ p ≠ i := by intro p; rw [hset]; simp
        refine ⟨by rw [hact]; exact ih.keys, ?_, by simp, by simp, ?_, ?_, by rw [hact]; exact fun _ => hnoact⟩
        · intro h; exact absurd ((hmem _).1 h).1 hn
        · intro _ p hp; rw [hmem, ih.mem hn p hp]
        · rw [hact]; intro p hp; exact absurd hp (hnoact p)
    | exec =>
      have hst : (s.step o .exec) = s.sync := by simp only [Pid.step, Pid.extract]
      rw [hst]
      simp only [Want.step, decide_true, Bool.or_true]
      refine ⟨fun p => by rw [sync_keys]; exact ih.keys p, ?_, ih.wholeAll, by simp, ?_, ?_, by simp⟩
      · intro h
        rw [sync_set, ih.keys] at h
        exact absurd h.1 hneg
      · intro _ p hp
        rw [sync_set, ih.keys]
        simp only [hp, true_and]
        by_cases hn : -1 ∈ s.set
        · simp only [hn, true_or, true_iff]; exact ih.wholeAll (ih.all hn) p
        · simp only [hn, false_or]; exact ih.mem hn p hp
      · intro p hp
        rw [sync_active, ih.keys] at hp
        rcases hp with hp | ⟨hp, hn | hm⟩
        · exact ih.active p hp
        · exact ih.wholeAll (ih.all hn) p
        · by_cases hn : -1 ∈ s.set
          · exact ih.wholeAll (ih.all hn) p
          · exact (ih.mem hn p hp).1 hm

theorem hist_dual {o : Obj P} {w : Want} {ran : Bool} {s : Pid} (h : Hist o w ran s) (c : Call) : (s.step o c).dual = s.dual := by
  cases c with
  | set i => rfl
  | remove i => simp only [Pid.step, Pid.removePID]; split <;> rfl
  | exec => simp only [Pid.step, Pid.extract]; exact sync_dual s

/-- C103, partial (full statement: for every sequence of calls and executions, on any geometries): the selection is made
of the cells whose PID was asked (of the others with the dual option).  Missing, because false: an index below -1,
removing PID 0, removing a PID from "all", removing a PID or replacing "all" after an execution, and changing the
geometry. -/
theorem C103_asked_partial {o : Obj P} (ht : o.type ≠ 3) (ho : Ok o.cells) (hl : PidsListed o) (hpos : ∀ p ∈ o.pids, 0 ≤ p)
    {w : Want} {ran : Bool} {s : Pid} (h : Hist o w ran s) :
    ∃ r, (s.extract o).2 = some r ∧ r.Pairwise (· < ·) ∧
      ∀ id, id ∈ r ↔ ∃ c, get o.cells id = some c ∧ (w.mem c.pid ↔ s.dual = false) := by
  have hi := hist_inv ht hpos h
  obtain ⟨r, r1, r2, r3⟩ := extract_spec s ho
  refine ⟨r, r1, r2, fun id => ?_⟩
  rw [r3]
  have key : ∀ c, get o.cells id = some c → (Active s o id ↔ w.mem c.pid) := by
    intro c hc
    have hp : c.pid ∈ o.pids := hl (id, c) (get_some_mem hc)
    constructor
    · rintro ⟨c', hc', -, h3⟩
      rw [hc] at hc'; simp at hc'; subst hc'
      rw [sync_active] at h3
      rcases h3 with h3 | ⟨-, hn | hm⟩
      · exact hi.active _ h3
      · exact hi.wholeAll (hi.all hn) _
      · by_cases hn : -1 ∈ s.set
        · exact hi.wholeAll (hi.all hn) _
        · exact (hi.mem hn _ hp).1 hm
    · intro hw
      refine ⟨c, hc, hp, ?_⟩
      rw [sync_active]
      refine Or.inr ⟨(hi.keys _).2 hp, ?_⟩
      by_cases hn : -1 ∈ s.set
      · exact Or.inl hn
      · exact Or.inr ((hi.mem hn _ hp).2 hw)
  constructor
  · rintro ⟨h1, h2⟩
    rw [has_eq_isSome] at h1
    obtain ⟨c, hc⟩ := Option.isSome_iff_exists.1 h1
    exact ⟨c, hc, by rw [← key c hc]; exact h2⟩
  · rintro ⟨c, hc, h2⟩
    exact ⟨by rw [has_eq_isSome, hc]; rfl, by rw [key c hc]; exact h2⟩

/-- PIDs 1 and 2 asked, 2 removed, an execution, then 3 asked -/
example : strip.type ≠ 3 ∧ Ok strip.cells ∧ PidsListed strip ∧ (∀ p ∈ strip.pids, 0 ≤ p) ∧
    ∃ w s, Hist strip w true s ∧ w.mem 1 ∧ w.mem 3 ∧ ¬ w.mem 2 := by
  refine ⟨by decide, by unfold Ok; decide, by unfold PidsListed; decide, by decide, ?_⟩
  have h1 := Hist.call (.set 1) (Hist.start (o := strip) false) (by simp [Fine])
  have h2 := Hist.call (.set 2) h1 (by simp [Fine])
  have h3 := Hist.call (.remove 2) h2 (by simp [Fine, Want.step])
  have h4 := Hist.call .exec h3 (by simp [Fine])
  have h5 := Hist.call (.set 3) h4 (by simp [Fine, Want.step])
  exact ⟨_, _, h5, by simp [Want.step], by simp [Want.step], by simp [Want.step]⟩

/-- C103 does not hold for removals after an execution: a PID removed then stays selected, for every geometry and
state. -/
theorem C103_remove_after_fails (s : Pid) (o : Obj P) (p q : Int) (hp : (p, true) ∈ (s.extract o).1.active) :
    (p, true) ∈ (((s.extract o).1.removePID q).extract o).1.active := by
  have h : ((s.extract o).1.removePID q).active = (s.extract o).1.active := by unfold Pid.removePID; split <;> rfl
  show (p, true) ∈ ((s.extract o).1.removePID q).sync.active
  rw [sync_active, h]
  exact Or.inl hp

/-- so the cells of that PID are still returned -/
theorem C103_still_selected_fails (s : Pid) {o : Obj P} (ho : Ok o.cells) (hd : s.dual = false) (q : Int) {r : List Nat}
    (hr : (s.extract o).2 = some r) :
    ∃ r', (((s.extract o).1.removePID q).extract o).2 = some r' ∧ ∀ id ∈ r, id ∈ r' := by
  obtain ⟨r0, a1, -, a3⟩ := extract_spec s ho
  rw [hr] at a1; cases a1
  obtain ⟨r', b1, -, b3⟩ := extract_spec ((s.extract o).1.removePID q) ho
  have hd' : ((s.extract o).1.removePID q).dual = false := by
    have h1 : (s.extract o).1.dual = s.dual := sync_dual s
    unfold Pid.removePID; split <;> rw [← hd, ← h1]
  refine ⟨r', b1, fun id hid => ?_⟩
  obtain ⟨i1, i2⟩ := (a3 id).1 hid
  rw [b3, hd']
  refine ⟨i1, iff_of_true ?_ rfl⟩
  obtain ⟨c, c1, c2, c3⟩ := i2.2 hd
  exact ⟨c, c1, c2, C103_remove_after_fails s o c.pid q c3⟩

example : ∃ r, ((({} : Pid).setGeometry strip).setPID 1).dual = false ∧ (((({} : Pid).setGeometry strip).setPID 1).extract strip).2 = some r ∧ 4 ∈ r := by
  obtain ⟨r, r1, -, r3⟩ := extract_spec ((({} : Pid).setGeometry strip).setPID 1) (o := strip) (by unfold Ok; decide)
  refine ⟨r, by decide, r1, (r3 4).2 ⟨by decide, ?_⟩⟩
  refine iff_of_true ⟨⟨.triangle, [0, 1, 2], 1, true⟩, by decide, by decide, by decide⟩ (by decide)

/-- C103 does not hold for PID 0: removing it removes everything that was asked. -/
theorem C103_zero_fails (s : Pid) : (s.removePID 0).set = [] := by simp [Pid.removePID]

/-- C103 does not hold for "all but one": removing a PID after asking for all has no effect. -/
theorem C103_all_but_fails (s : Pid) (p : Int) (hp : 0 < p) : ((s.setPID (-1)).removePID p).set = (s.setPID (-1)).set := by
  have h : (s.setPID (-1)).set = [-1] := by
    unfold Pid.setPID
    by_cases h1 : -1 ∈ s.set
    · simp [h1, insSet]
    · by_cases h2 : s.set = []
      · simp [h2, insSet]
      · simp [h2, insSet]
  unfold Pid.removePID
  rw [if_pos (by omega)]
  simp only [h]
  simp
  omega

/-- C103 does not hold for negative indices other than -1, which the documentation takes as "all": such a PID is looked
for as it is, so nothing is added to the selection on a geometry without negative PIDs. -/
theorem C103_negative_fails {o : Obj P} (ht : o.type ≠ 3) (ho : Ok o.cells) (hpos : ∀ p ∈ o.pids, 0 ≤ p) (i : Int) (hi : i < -1) :
    (((({} : Pid).setGeometry o).setPID i).extract o).2 = some [] := by
  obtain ⟨r, r1, -, r3⟩ := extract_spec ((({} : Pid).setGeometry o).setPID i) ho
  rw [r1]
  cases r with
  | nil => rfl
  | cons x r =>
    obtain ⟨-, h⟩ := (r3 x).1 (by simp)
    have hs : (({} : Pid).setGeometry o).setPID i = { set := [i], active := o.pids.foldl insActive [] } := by
      unfold Pid.setGeometry Pid.setPID
      rw [if_neg ht]; simp [insSet]
    obtain ⟨c, -, c2, c3⟩ := h.2 (by rw [hs])
    rw [hs, sync_active] at c3
    obtain ⟨h1, h2⟩ := insActive_fold o.pids []
    simp only at c3
    rw [h2] at c3
    have := hpos _ c2
    rcases c3 with c3 | ⟨-, c3 | c3⟩ <;> simp at c3 <;> omega

example : strip.type ≠ 3 ∧ Ok strip.cells ∧ (∀ p ∈ strip.pids, 0 ≤ p) ∧ (-5 : Int) < -1 := by
  refine ⟨by decide, by unfold Ok; decide, by decide, by decide⟩

/-- C103 does not hold when the geometry is replaced: a PID asked, absent from the first geometry executed on, is
forgotten, and not selected on a second geometry that has it. -/
theorem C103_geometry_fails {a b : Obj P} (hta : a.type ≠ 3) (htb : b.type ≠ 3) (hb : Ok b.cells) (p : Int) (hp : 0 ≤ p) (ha : p ∉ a.pids) :
    ∃ r, ((((((({} : Pid).setGeometry a).setPID p).extract a).1).setGeometry b).extract b).2 = some r ∧
      ∀ id c, get b.cells id = some c → c.pid = p → id ∉ r := by
  obtain ⟨s, hs⟩ : ∃ s, s = ((((({} : Pid).setGeometry a).setPID p).extract a).1).setGeometry b := ⟨_, rfl⟩
  rw [← hs]
  obtain ⟨r, r1, -, r3⟩ := extract_spec s hb
  refine ⟨r, r1, fun id c hc hpid hid => ?_⟩
  have h0 : (({} : Pid).setGeometry a).setPID p = { set := [p], active := a.pids.foldl insActive [] } := by
    unfold Pid.setGeometry Pid.setPID
    rw [if_neg hta]; simp [insSet]
  obtain ⟨k1, k2⟩ := insActive_fold a.pids []
  obtain ⟨t, ht⟩ : ∃ t, t = ({ set := [p], active := a.pids.foldl insActive [] } : Pid).sync := ⟨_, rfl⟩
  have hst : s = { t with active := b.pids.foldl insActive t.active } := by
    rw [hs, h0, ht]
    unfold Pid.setGeometry
    rw [if_neg htb]; rfl
  have htset : ∀ q, q ∉ t.set := by
    intro q hq
    rw [ht, sync_set, k1] at hq
    simp at hq
    obtain ⟨h1, h2 | h2⟩ := hq
    · omega
    · subst h2; exact ha h1
  have htact : (p, true) ∉ t.active := by
    intro h
    rw [ht, sync_active, k1] at h
    simp only [k2] at h
    simp at h
    exact ha h
  have hdual : s.dual = false := by rw [hst, ht]; exact sync_dual _
  obtain ⟨m1, m2⟩ := insActive_fold b.pids t.active
  have h1 := ((r3 id).1 hid).2.2 hdual
  obtain ⟨c', c1, c2, c3⟩ := h1
  rw [hc] at c1; simp at c1; subst c1
  rw [hpid, hst, sync_active] at c3
  simp only at c3
  rw [m2] at c3
  rcases c3 with c3 | ⟨-, c3 | c3⟩
  · exact htact c3
  · exact htset _ c3
  · exact htset _ c3

example : strip.type ≠ 3 ∧ Ok strip.cells ∧ (0 : Int) ≤ 1 ∧ (1 : Int) ∉ ({ strip with cells := [], pids := [] } : Obj Int).pids := by
  refine ⟨by decide, by unfold Ok; decide, by decide, by decide⟩

end Verif.Select
