import Verif.Kern.Model
/-
C232: the pair of meshes of the blocks for OpenFOAM.
-/
namespace Verif.Kern

/-- the pairs of the documentation: a volume with a surface, a surface with a curve -/
def Admitted (b f : Obj) : Prop := (b.type = 2 ∧ f.type = 1) ∨ (b.type = 1 ∧ f.type = 4)

/-- the types of a MimmoObject -/
def Known (o : Obj) : Prop := 1 ≤ o.type ∧ o.type ≤ 4

theorem pairKey_iff {b f : Obj} (hb : Known b) (hf : Known f) : pairKey b.type f.type = true ↔ Admitted b f := by
  obtain ⟨t, _, _, _⟩ := b
  obtain ⟨u, _, _, _⟩ := f
  obtain ⟨h1, h2⟩ := hb
  obtain ⟨h3, h4⟩ := hf
  simp only at h1 h2 h3 h4
  have ht : t = 1 ∨ t = 2 ∨ t = 3 ∨ t = 4 := by omega
  have hu : u = 1 ∨ u = 2 ∨ u = 3 ∨ u = 4 := by omega
  rcases ht with rfl | rfl | rfl | rfl <;> rcases hu with rfl | rfl | rfl | rfl <;> simp [Admitted] <;> decide

/-- C232: with both meshes given, the block is built if and only if the pair is one of the documentation, and it holds them. -/
theorem C232_make_partial {b f : Obj} (hb : Known b) (hf : Known f) (w : Bool) :
    (Admitted b f → ∃ k, make (some b) (some f) w = .done k ∧ k.bulk = some b ∧ k.boundary = some f ∧ k.write = w) ∧
    (¬ Admitted b f → make (some b) (some f) w = .throws) := by
  constructor
  · intro h
    have hk := (pairKey_iff hb hf).2 h
    refine ⟨setBoundary (some f) (setBulk (some b) (fresh w)), by simp [make, hk], ?_⟩
    rcases h with ⟨h1, h2⟩ | ⟨h1, h2⟩ <;> simp [setBoundary, setBulk, h1, h2, fresh]
  · intro h
    have hk : pairKey b.type f.type = false := by
      rw [← Bool.not_eq_true]; exact fun hh => h ((pairKey_iff hb hf).1 hh)
    simp [make, hk]

example : Known ⟨2, true, [(5, true), (6, false)], [0]⟩ ∧ Known ⟨1, false, [], [5]⟩ ∧
    Admitted ⟨2, true, [(5, true), (6, false)], [0]⟩ ⟨1, false, [], [5]⟩ := by simp [Known, Admitted]

/-- C232 does not hold if one mesh alone is given: the message for a null mesh is only for two null meshes, and the null one is
dereferenced. -/
theorem C232_half_fails (o : Obj) (w : Bool) : make none none w = .throws ∧ make (some o) none w = .undefined ∧
    make none (some o) w = .undefined := by simp [make]

/-- the setters -/
inductive Op where
  | bulk (o : Option Obj) | boundary (o : Option Obj) | check

def run (k : Kernel) : Op → Kernel
  | .bulk o => setBulk o k
  | .boundary o => setBoundary o k
  | .check => (check k).2

/-- what a block was given last and could take -/
def lastOf (ok : Obj → Prop) [DecidablePred ok] (gave : Op → Option Obj) (start : Option Obj) : List Op → Option Obj
  | [] => start
  | op :: ops => lastOf ok gave (match gave op with | some o => if ok o then some o else start | none => start) ops

def gaveBulk : Op → Option Obj | .bulk o => o | _ => none
def gaveBoundary : Op → Option Obj | .boundary o => o | _ => none

theorem check_keeps (k : Kernel) : (check k).2 = k := by
  unfold check
  split
  · rfl
  · split
    · rfl
    · split
      · rfl
      · split <;> rfl

/-- C232: whatever the order of the calls, the block holds the last volume or surface given as bulk and the last surface or curve given as
boundary; null meshes and other types are ignored. -/
theorem C232_last : ∀ (ops : List Op) (k : Kernel),
    (ops.foldl run k).bulk = lastOf (fun o => o.type = 2 ∨ o.type = 1) gaveBulk k.bulk ops ∧
    (ops.foldl run k).boundary = lastOf (fun o => o.type = 1 ∨ o.type = 4) gaveBoundary k.boundary ops
  | [], k => ⟨rfl, rfl⟩
  | op :: ops, k => by
    have h := C232_last ops (run k op)
    simp only [List.foldl_cons, lastOf]
    rw [h.1, h.2]
    cases op with
    | check => simp only [run, check_keeps, gaveBulk, gaveBoundary, and_self]
    | bulk o =>
      cases o with
      | none => simp only [run, setBulk, gaveBulk, gaveBoundary, and_self]
      | some b =>
        by_cases hb : b.type = 2 ∨ b.type = 1
        · have : ¬ (b.type ≠ 2 ∧ b.type ≠ 1) := by omega
          simp only [run, setBulk, if_neg this, gaveBulk, gaveBoundary, if_pos hb, and_self]
        · have : b.type ≠ 2 ∧ b.type ≠ 1 := by omega
          simp only [run, setBulk, if_pos this, gaveBulk, gaveBoundary, if_neg hb, and_self]
    | boundary o =>
      cases o with
      | none => simp only [run, setBoundary, gaveBulk, gaveBoundary, and_self]
      | some b =>
        by_cases hb : b.type = 1 ∨ b.type = 4
        · have : ¬ (b.type ≠ 1 ∧ b.type ≠ 4) := by omega
          simp only [run, setBoundary, if_neg this, gaveBulk, gaveBoundary, if_pos hb, and_self]
        · have : b.type ≠ 1 ∧ b.type ≠ 4 := by omega
          simp only [run, setBoundary, if_pos this, gaveBulk, gaveBoundary, if_neg hb, and_self]

example : lastOf (fun o => o.type = 2 ∨ o.type = 1) gaveBulk none
    [.bulk (some ⟨2, true, [], [1]⟩), .boundary (some ⟨1, true, [], []⟩), .bulk (some ⟨3, true, [], []⟩), .check] = some ⟨2, true, [], [1]⟩ := by
  decide

theorem sort_iff {a b : List Nat} (ha : a.Nodup) (hb : b.Nodup) : sort a = sort b ↔ ∀ x, x ∈ a ↔ x ∈ b := by
  have pa : (sort a).Perm a := List.mergeSort_perm _ _
  have pb : (sort b).Perm b := List.mergeSort_perm _ _
  constructor
  · intro h x
    rw [← pa.mem_iff, ← pb.mem_iff, h]
  · intro h
    have hp : (sort a).Perm (sort b) := pa.trans (((List.perm_ext_iff_of_nodup ha hb).2 h).trans pb.symm)
    have sa : (sort a).Pairwise (fun x y => x ≤ y) := by
      have := List.pairwise_mergeSort (le := fun a b : Nat => decide (a ≤ b)) (by simp; omega) (by simp; omega) a
      simpa [sort] using this
    have sb : (sort b).Pairwise (fun x y => x ≤ y) := by
      have := List.pairwise_mergeSort (le := fun a b : Nat => decide (a ≤ b)) (by simp; omega) (by simp; omega) b
      simpa [sort] using this
    exact hp.eq_of_pairwise (fun x y _ _ h1 h2 => Nat.le_antisymm h1 h2) sa sb

/-- C232: the meshes are coherent if and only if there is a bulk and, where there is a boundary, the pair is one of the documentation, the
interfaces are in sync, and the cells of the boundary are exactly the border interfaces of the bulk. -/
theorem C232_coherent {k : Kernel} (hb : ∀ b, k.bulk = some b → Known b) (hf : ∀ f, k.boundary = some f → Known f ∧ f.cells.Nodup) :
    (check k).1 = true ↔ ∃ b, k.bulk = some b ∧ ∀ f, k.boundary = some f →
      b.sync = true ∧ Admitted b f ∧ ∀ id, (id, true) ∈ b.interfaces ↔ id ∈ f.cells := by
  unfold check
  cases hk : k.bulk with
  | none => simp
  | some b =>
    cases hq : k.boundary with
    | none => simp
    | some f =>
      have hp := pairKey_iff (hb b hk) (hf f hq).1
      have hs := sort_iff (List.nodup_dedup ((b.interfaces.filter (·.2)).map (·.1))) (hf f hq).2
      have hm : ∀ id, id ∈ ((b.interfaces.filter (·.2)).map (·.1)).dedup ↔ (id, true) ∈ b.interfaces := by
        intro id
        simp [List.mem_dedup]
      simp only [Option.some.injEq, exists_eq_left', forall_eq']
      cases hy : b.sync with
      | false => simp
      | true =>
        cases hz : pairKey b.type f.type with
        | false =>
          rw [hz] at hp
          have : ¬ Admitted b f := fun h => by simpa using hp.2 h
          simp [this]
        | true =>
          simp only [Bool.not_true, Bool.false_eq_true, if_false, decide_eq_true_eq, true_and]
          rw [hs]
          simp only [hm]
          exact ⟨fun h => ⟨hp.1 hz, h⟩, fun h => h.2⟩

example : (check ⟨true, ".", "", some ⟨2, true, [(5, true), (6, false), (3, true)], [0]⟩, some ⟨1, false, [], [3, 5]⟩, false, true⟩).1 = true := by
  rw [C232_coherent (by simp [Known]) (by simp [Known])]
  refine ⟨_, rfl, ?_⟩
  simp [Admitted]
  omega

/-- C232 does not hold without a boundary: the documentation has one created, whereas none is there after the check. -/
theorem C232_created_fails {k : Kernel} {b : Obj} (hb : k.bulk = some b) (hf : k.boundary = none) :
    (check k).1 = true ∧ (check k).2.boundary = none := by
  simp [check, hb, hf]

example : (setBulk (some ⟨2, true, [], []⟩) (fresh true)).boundary = none := rfl

/-- C232, copies: the settings come along; the documentation says no mesh is copied, but the bulk is shared and the boundary lost, so that
a copy of an incoherent pair passes the check. -/
theorem C232_copy_fails (k : Kernel) : (copy k).write = k.write ∧ (copy k).path = k.path ∧ (copy k).overwrite = k.overwrite ∧
    (copy k).pointsOnly = k.pointsOnly ∧ (copy k).bulk = k.bulk ∧ (copy k).boundary = none ∧
    (∀ b, k.bulk = some b → (check (copy k)).1 = true) := by
  refine ⟨rfl, rfl, rfl, rfl, rfl, rfl, fun b hb => ?_⟩
  simp [check, copy, copyKernel, hb]

example : (check ⟨true, ".", "", some ⟨2, true, [], []⟩, some ⟨4, true, [], []⟩, false, true⟩).1 = false := by decide

end Verif.Kern
