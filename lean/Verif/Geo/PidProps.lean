import Verif.Geo.Model
import Verif.Select.SubProps
/-!
# C227: the execution of a reader, writer or converter of geometries, and the reference PID
-/
namespace Verif.Geo

open Verif.Mesh Verif.Select

variable {P T : Type}

/-! ## Specification -/

/-- `g` is `o` with `r` added to the PID of every cell; the PIDs which are listed are those of the cells, with the names of
before. -/
structure Shifted (o : Obj P) (r : Nat) (g : Obj P) : Prop where
  verts : g.verts = o.verts
  cells : g.cells = o.cells.map fun c => (c.1, { c.2 with pid := c.2.pid + (r : Int) })
  pids : ∀ p, p ∈ g.pids ↔ ∃ c ∈ o.cells, p = c.2.pid + r
  names : ∀ c ∈ o.cells, nameOf g.names (c.2.pid + (r : Int)) = some ((nameOf o.names c.2.pid).getD "")

/-- The PIDs of the cells are listed (not all must be), and with the reference they are still numbers of the machine. -/
def Fine (o : Obj P) (r : Nat) : Prop := (o.pids = [] → o.cells = []) ∧ ∀ c ∈ o.cells, InRange (c.2.pid + (r : Int))

/-! ## Proofs -/

theorem names_fold (f : Int → String) (l : List Int) (t : Obj P) (h : ∀ p ∈ l, t.names.any (fun e => e.1 == p) = true) :
    let r := l.foldl (fun t p => (setPIDName t p (f p)).1) t
    r.verts = t.verts ∧ r.cells = t.cells ∧ r.pids = t.pids ∧
    ∀ p, nameOf r.names p = if p ∈ l then some (f p) else nameOf t.names p := by
  induction l generalizing t with
  | nil => simp
  | cons p l ih =>
    obtain ⟨⟨a1, a2, -, a4, -, -⟩, a7, a8⟩ := setName_spec t p (f p)
    obtain ⟨b1, b2, b3, b4⟩ := ih (setPIDName t p (f p)).1 (fun q hq => by rw [a7]; exact h q (by simp [hq]))
    refine ⟨b1.trans a1, b2.trans a2, b3.trans a4, fun q => ?_⟩
    rw [List.foldl_cons, b4, a8]
    by_cases hq : q ∈ l
    · simp [hq]
    · by_cases hqp : q = p
      · subst hqp; simp [h q (by simp)]
      · simp [hq, hqp]

theorem compact_length (o : Obj P) (h : o.pids = [] → o.cells = []) : compactPID o = o.cells.map fun c => c.2.pid := by
  unfold compactPID
  split
  · next hp => rw [h hp]; rfl
  · rfl

theorem zip_map_self {α β γ : Type} (l : List α) (f : α → β) (g : α × β → γ) :
    ((l.zip (l.map f)).map g) = l.map fun a => g (a, f a) := by
  induction l with
  | nil => rfl
  | cons a l ih => simp [ih]

/-- **C227.**  The reference PID is added to the PID of every cell; names follow. -/
theorem C227_shift_partial (r : Nat) (o : Obj P) (h : Fine o r) : Shifted o r (addRef r o) := by
  have hc := compact_length o h.1
  have hset : setPIDVec o ((compactPID o).map (· + (r : Int))) =
      { o with
        cells := o.cells.map fun c => (c.1, { c.2 with pid := c.2.pid + (r : Int) })
        pids := distinct (o.cells.map fun c => c.2.pid + (r : Int))
        names := (distinct (o.cells.map fun c => c.2.pid + (r : Int))).map fun p => (p, "") } := by
    unfold setPIDVec
    rw [hc, if_neg (by simp)]
    have e1 : ((o.cells.map fun c => c.2.pid).map (· + (r : Int))) = o.cells.map fun c => c.2.pid + (r : Int) := by
      rw [List.map_map]; rfl
    rw [e1, zip_map_self]
    congr 1
    apply List.map_congr_left
    intro c hcm
    simp only
    rw [toInt32_id (h.2 c hcm)]
  unfold addRef
  simp only [hset]
  have hany : ∀ p ∈ distinct (o.cells.map fun c => c.2.pid + (r : Int)),
      ((distinct (o.cells.map fun c => c.2.pid + (r : Int))).map fun p => (p, "")).any (fun e => e.1 == p) = true := by
    intro p hp
    rw [List.any_eq_true]
    exact ⟨(p, ""), List.mem_map.2 ⟨p, hp, rfl⟩, by simp⟩
  obtain ⟨b1, b2, b3, b4⟩ := names_fold (fun p => (nameOf o.names (p - r)).getD "")
    (distinct (o.cells.map fun c => c.2.pid + (r : Int)))
    { o with
        cells := o.cells.map fun c => (c.1, { c.2 with pid := c.2.pid + (r : Int) })
        pids := distinct (o.cells.map fun c => c.2.pid + (r : Int))
        names := (distinct (o.cells.map fun c => c.2.pid + (r : Int))).map fun p => (p, "") } hany
  refine ⟨b1, b2, ?_, ?_⟩
  · intro p
    rw [b3, mem_distinct, List.mem_map]
    exact ⟨fun ⟨c, hc, e⟩ => ⟨c, hc, e.symm⟩, fun ⟨c, hc, e⟩ => ⟨c, hc, e.symm⟩⟩
  · intro c hcm
    rw [b4, if_pos ((mem_distinct _ _).2 (List.mem_map.2 ⟨c, hcm, rfl⟩))]
    have : c.2.pid + (r : Int) - r = c.2.pid := by omega
    rw [this]

theorem shifted_again {o g : Obj P} {r : Nat} (ho : Fine o r) (h : Shifted o r g) : Shifted o r (addRef 0 g) := by
  have hg : Fine g 0 := by
    constructor
    · intro he
      rw [h.cells]
      cases hoc : o.cells with
      | nil => rfl
      | cons c l =>
        have := (h.pids (c.2.pid + (r : Int))).2 ⟨c, by rw [hoc]; simp, rfl⟩
        rw [he] at this
        cases this
    · intro c hc
      rw [h.cells] at hc
      obtain ⟨d, hd, rfl⟩ := List.mem_map.1 hc
      simpa using ho.2 d hd
  have h0 := C227_shift_partial 0 g hg
  refine ⟨h0.verts.trans h.verts, ?_, ?_, ?_⟩
  · rw [h0.cells, h.cells, List.map_map]
    apply List.map_congr_left
    intro c _
    simp [Function.comp]
  · intro p
    rw [h0.pids, h.cells]
    constructor
    · rintro ⟨c, hc, rfl⟩
      obtain ⟨d, hd, rfl⟩ := List.mem_map.1 hc
      exact ⟨d, hd, by simp⟩
    · rintro ⟨d, hd, rfl⟩
      exact ⟨_, List.mem_map.2 ⟨d, hd, rfl⟩, by simp⟩
  · intro c hc
    have hm : (c.1, { c.2 with pid := c.2.pid + (r : Int) }) ∈ g.cells := by
      rw [h.cells]; exact List.mem_map.2 ⟨c, hc, rfl⟩
    have := h0.names _ hm
    simp only [Int.natCast_zero, Int.add_zero] at this
    rw [this, h.names c hc]
    rfl

/-- **C227.**  A reader (or converter) takes its geometry from the file for the reading, with the reference PID added once,
and fails if there is no file; a writer takes the geometry which is linked; a writer or converter writes that geometry, and
only there; afterwards the reference PID is zero. -/
theorem C227_execute_partial (files : Info → Option (Obj P)) (m : Mode) (s : Settings T) (geo : Option (Obj P)) (o : Obj P)
    (ho : (if m = .write then geo else files s.rinfo) = some o) (hf : Fine o s.refPID) :
    ∃ g, execute files (setIOMode m s) geo = (0, .done (some g) (if m = .read then none else some (s.winfo, g))) ∧
      Shifted o s.refPID g := by
  have h1 := C227_shift_partial s.refPID o hf
  cases m with
  | read =>
    simp only [reduceCtorEq, if_false] at ho
    refine ⟨_, ?_, h1⟩
    simp [execute, setIOMode, ho]
  | write =>
    simp only [if_true] at ho
    refine ⟨_, ?_, h1⟩
    simp [execute, setIOMode, ho]
  | convert =>
    simp only [reduceCtorEq, if_false] at ho
    refine ⟨_, ?_, shifted_again hf h1⟩
    simp [execute, setIOMode, ho]

theorem C227_missing (files : Info → Option (Obj P)) (m : Mode) (hm : m ≠ .write) (s : Settings T) (geo : Option (Obj P))
    (h : files s.rinfo = none) : execute files (setIOMode m s) geo = (s.refPID, .notFound) := by
  cases m with
  | read => simp [execute, setIOMode, h]
  | write => exact absurd rfl hm
  | convert => simp [execute, setIOMode, h]

/-- **C227, violated.**  A writer without geometry, which should say that the writing is not done, uses a null pointer. -/
theorem C227_null_fails (files : Info → Option (Obj P)) (s : Settings T) :
    execute files (setIOMode .write s) none = (s.refPID, .null) := by
  simp [execute, setIOMode]

/-- **C227, violated.**  When no PID is listed the reference is ignored. -/
theorem C227_unlisted_fails (r : Nat) (o : Obj P) (h : o.pids = []) (hc : o.cells ≠ []) : addRef r o = o := by
  have : compactPID o = [] := by rw [compactPID, if_pos h]
  unfold addRef
  rw [this]
  have e : setPIDVec o (([] : List Int).map (· + (r : Int))) = o := by
    unfold setPIDVec
    rw [if_pos (by
      intro hl
      exact hc (List.length_eq_zero_iff.1 hl.symm))]
  simp only [e, h, List.foldl_nil]

/-- **C227, violated.**  The maximum of the reference PID, 30000, is not enforced. -/
theorem C227_limit_fails (p : Int) (h : 30000 < p) (s : Settings T) :
    ((setReferencePID p s).refPID : Int) = p ∧ 30000 < (setReferencePID p s).refPID := by
  have : max 0 p = p := by omega
  simp only [setReferencePID, this]
  omega

example : Fine { demo with cells := [(4, ⟨.triangle, [0, 1, 2], 1, true⟩), (9, ⟨.triangle, [1, 2, 7], 0, true⟩)], pids := [0, 1] }
    100 ∧ (demo.cells ≠ [] ∧ { demo with pids := [] }.pids = []) := by
  refine ⟨⟨by simp, ?_⟩, by decide, rfl⟩
  unfold InRange
  decide

/-- Negative references are none. -/
theorem C227_negative (p : Int) (h : p ≤ 0) (s : Settings T) : (setReferencePID p s).refPID = 0 := by
  have : max 0 p = 0 := by omega
  simp [setReferencePID, this]

end Verif.Geo
