import Verif.Mesh.Query
/-
C33 (insertions never overwrite), C34 (PID bookkeeping), C35 (extraction by PID).
-/
namespace Verif.Mesh
open Verif.Field
open List hiding get

section sets
variable {α : Type} [DecidableEq α]

theorem mem_insSet (l : List α) (p x : α) : x ∈ insSet l p ↔ x ∈ l ∨ x = p := by
  unfold insSet
  by_cases h : p ∈ l
  · rw [if_pos h]
    constructor
    · exact Or.inl
    · rintro (h' | rfl) <;> assumption
  · rw [if_neg h]; simp

theorem nodup_insSet {l : List α} (h : l.Nodup) (p : α) : (insSet l p).Nodup := by
  unfold insSet
  by_cases hp : p ∈ l
  · rw [if_pos hp]; exact h
  · rw [if_neg hp, nodup_append]
    refine ⟨h, by simp, ?_⟩
    intro a ha b hb
    simp at hb; subst hb
    rintro rfl; exact hp ha

theorem mem_foldl_insSet (l : List α) : ∀ (s : List α) (x : α), x ∈ l.foldl insSet s ↔ x ∈ s ∨ x ∈ l := by
  induction l with
  | nil => simp
  | cons a l ih => intro s x; rw [foldl_cons, ih, mem_insSet]; simp [or_assoc]

theorem nodup_foldl_insSet (l : List α) : ∀ {s : List α}, s.Nodup → (l.foldl insSet s).Nodup := by
  induction l with
  | nil => intro s h; exact h
  | cons a l ih => intro s h; exact ih (nodup_insSet h a)

theorem mem_distinct (l : List α) (x : α) : x ∈ distinct l ↔ x ∈ l := by
  simp [distinct, mem_foldl_insSet]

theorem nodup_distinct (l : List α) : (distinct l).Nodup := nodup_foldl_insSet l (by simp)
end sets

variable {P : Type}

/-! ### C33 -/

/-- C33, vertices: an id in use is refused and nothing changes; otherwise exactly one vertex is added, under the
requested id (or an unused one), and everything else stays. -/
theorem C33_addVertex (o : Obj P) (gen : Nat) (p : P) (idtag : Option Nat)
    (hgen : has o.verts gen = false) (hok : Ok o.verts) :
    (∀ i, idtag = some i → has o.verts i = true → addVertex o gen p idtag = (o, none)) ∧
    ((∀ i, idtag = some i → has o.verts i = false) → ∃ i o', addVertex o gen p idtag = (o', some i) ∧
      (∀ t, idtag = some t → i = t) ∧ has o.verts i = false ∧
      get o'.verts i = some p ∧ (∀ j, j ≠ i → get o'.verts j = get o.verts j) ∧ Ok o'.verts ∧
      o'.cells = o.cells ∧ o'.type = o.type ∧ o'.pids = o.pids ∧ o'.names = o.names) := by
  have key : ∀ i, has o.verts i = false → ∃ o', addVertex.put o p i = (o', some i) ∧
      get o'.verts i = some p ∧ (∀ j, j ≠ i → get o'.verts j = get o.verts j) ∧ Ok o'.verts ∧
      o'.cells = o.cells ∧ o'.type = o.type ∧ o'.pids = o.pids ∧ o'.names = o.names := by
    intro i hi
    refine ⟨_, rfl, ?_, ?_, ok_append hok hi, rfl, rfl, rfl, rfl⟩
    · have : get o.verts i = none := by
        have := has_eq_isSome o.verts i
        rw [hi] at this
        cases h : get o.verts i with
        | none => rfl
        | some v => rw [h] at this; simp at this
      simp only [get_append, this, get_single, if_true, Option.none_or]
    · intro j hj
      simp only [get_append, get_single, if_neg (Ne.symm hj), Option.or_none]
  constructor
  · rintro i rfl hi
    simp [addVertex, hi]
  · intro h
    cases idtag with
    | none =>
      obtain ⟨o', h1, h2⟩ := key gen hgen
      exact ⟨gen, o', h1, by simp, hgen, h2⟩
    | some i =>
      have hi := h i rfl
      obtain ⟨o', h1, h2⟩ := key i hi
      exact ⟨i, o', by simp [addVertex, hi, h1], by simp, hi, h2⟩

theorem get_none_of_has {α : Type} {d : Data α} {i : Nat} (h : has d i = false) : get d i = none := by
  have := has_eq_isSome d i
  rw [h] at this
  cases h' : get d i with
  | none => rfl
  | some v => rw [h'] at this; simp at this

theorem get_of_mem {α : Type} {d : Data α} (hok : Ok d) {e : Nat × α} (h : e ∈ d) : get d e.1 = some e.2 := by
  induction d with
  | nil => cases h
  | cons f d ih =>
    unfold Ok at hok
    rw [map_cons, nodup_cons] at hok
    rw [get_cons]
    rcases mem_cons.1 h with rfl | h
    · simp
    · have : ¬ f.1 = e.1 := by
        intro he; apply hok.1; rw [he]; exact mem_map_of_mem h
      rw [if_neg this]
      exact ih hok.2 h

theorem putPid_keys (d : Data Cell) (i : Nat) (p : Int) : (putPid d i p).map Prod.fst = d.map Prod.fst := by
  simp only [putPid, map_map]
  apply map_congr_left
  intro c _
  simp only [Function.comp]
  split <;> rfl

theorem get_putPid (d : Data Cell) (i : Nat) (p : Int) (j : Nat) :
    get (putPid d i p) j = if j = i then (get d j).map (fun c => { c with pid := p }) else get d j := by
  induction d with
  | nil => simp [putPid, Verif.Field.get]
  | cons c d ih =>
    have : putPid (c :: d) i p = (if c.1 = i then (c.1, { c.2 with pid := p }) else c) :: putPid d i p := rfl
    rw [this, get_cons, get_cons, ih]
    by_cases hc : c.1 = i
    · rw [if_pos hc]
      by_cases hj : j = i
      · subst hj; simp [hc]
      · have : ¬ c.1 = j := by omega
        simp [this, hj]
    · rw [if_neg hc]
      by_cases hcj : c.1 = j
      · have : ¬ j = i := by omega
        simp [hcj, this]
      · simp [hcj]

theorem putPid_fresh {d : Data Cell} {i : Nat} (h : has d i = false) (p : Int) : putPid d i p = d := by
  unfold putPid
  have : ∀ c ∈ d, (if c.1 = i then (c.1, { c.2 with pid := p }) else c) = c := by
    intro c hc
    rw [if_neg]
    rintro rfl
    have : has d c.1 = true := (has_iff d c.1).2 (mem_map_of_mem hc)
    rw [h] at this; cases this
  rw [map_congr_left this, map_id']

theorem putCell_cells {o : Obj P} {i : Nat} (h : has o.cells i = false) (t : Elem) (conn : List Nat) (pid : Int) :
    (putCell o t conn pid i).cells = o.cells ++ [(i, ⟨t, conn, toInt32 pid, true⟩)] := by
  have h2 : has (o.cells ++ [(i, (⟨t, conn, 0, true⟩ : Cell))]) i = true := by
    rw [has_iff]; simp
  simp only [putCell, setPIDCell, unsyncCell, h2, if_true]
  have : putPid (o.cells ++ [(i, (⟨t, conn, 0, true⟩ : Cell))]) i (toInt32 pid) =
      putPid o.cells i (toInt32 pid) ++ putPid [(i, (⟨t, conn, 0, true⟩ : Cell))] i (toInt32 pid) := by
    simp [putPid]
  rw [this, putPid_fresh h]
  simp [putPid]

theorem putCell_pids (o : Obj P) (t : Elem) (conn : List Nat) (pid : Int) (i : Nat) :
    (putCell o t conn pid i).pids = insSet o.pids pid := by
  have h2 : has (o.cells ++ [(i, (⟨t, conn, 0, true⟩ : Cell))]) i = true := by
    rw [has_iff]; simp
  simp only [putCell, setPIDCell, unsyncCell, h2, if_true]

theorem putCell_verts (o : Obj P) (t : Elem) (conn : List Nat) (pid : Int) (i : Nat) :
    (putCell o t conn pid i).verts = o.verts := by
  simp only [putCell, setPIDCell, unsyncCell]; split <;> rfl

theorem putCell_type (o : Obj P) (t : Elem) (conn : List Nat) (pid : Int) (i : Nat) :
    (putCell o t conn pid i).type = o.type := by
  simp only [putCell, setPIDCell, unsyncCell]; split <;> rfl

theorem getD_free {o : Obj P} {gen : Nat} {idtag : Option Nat} (hgen : has o.cells gen = false)
    (h : ∀ i, idtag = some i → has o.cells i = false) : has o.cells (idtag.getD gen) = false := by
  cases idtag with
  | none => exact hgen
  | some i => exact h i rfl

theorem any_free {o : Obj P} {idtag : Option Nat} (h : ∀ i, idtag = some i → has o.cells i = false) :
    idtag.any (fun i => has o.cells i) = false := by
  cases idtag with
  | none => rfl
  | some i => simpa using h i rfl

/-- what "exactly one cell is added" means -/
def AddsCell (o o' : Obj P) (i : Nat) (c : Cell) : Prop :=
  has o.cells i = false ∧ get o'.cells i = some c ∧ (∀ j, j ≠ i → get o'.cells j = get o.cells j) ∧ Ok o'.cells ∧
  o'.verts = o.verts ∧ o'.type = o.type

theorem addsCell_put {o : Obj P} (hok : Ok o.cells) {i : Nat} (hi : has o.cells i = false) (t : Elem)
    (conn : List Nat) (pid : Int) : AddsCell o (putCell o t conn pid i) i ⟨t, conn, toInt32 pid, true⟩ := by
  refine ⟨hi, ?_, ?_, ?_, putCell_verts .., putCell_type ..⟩
  · rw [putCell_cells hi, get_append, get_none_of_has hi, get_single]; simp
  · intro j hj
    rw [putCell_cells hi, get_append, get_single, if_neg (Ne.symm hj), Option.or_none]
  · rw [putCell_cells hi]; exact ok_append hok hi

/-- C33, cells: `addConnectedCell` refuses an empty list, an id in use and an incoherent list, changing nothing;
otherwise exactly one cell is added, under the requested id (or an unused one), and everything else stays. -/
theorem C33_addConnectedCell (o : Obj P) (gen : Nat) (conn : List Nat) (t : Elem) (pid : Int) (idtag : Option Nat)
    (hgen : has o.cells gen = false) (hok : Ok o.cells) :
    ((conn = [] ∨ (∃ i, idtag = some i ∧ has o.cells i = true) ∨ checkConn t (conn.map Int.ofNat) = false) →
      addConnectedCell o gen conn t pid idtag = (o, none)) ∧
    (conn ≠ [] → (∀ i, idtag = some i → has o.cells i = false) → checkConn t (conn.map Int.ofNat) = true →
      ∃ i o', addConnectedCell o gen conn t pid idtag = (o', some i) ∧ (∀ t, idtag = some t → i = t) ∧
        AddsCell o o' i ⟨t, conn, toInt32 pid, true⟩) := by
  constructor
  · rintro (rfl | ⟨i, rfl, hi⟩ | h)
    · simp [addConnectedCell]
    · unfold addConnectedCell
      split
      · rfl
      · simp [hi]
    · unfold addConnectedCell
      split
      · rfl
      · split
        · rfl
        · simp only [h, if_true]
  · intro h1 h2 h3
    have hf := getD_free hgen h2
    refine ⟨idtag.getD gen, putCell o t conn pid (idtag.getD gen), ?_, ?_, addsCell_put hok hf t conn pid⟩
    · unfold addConnectedCell
      rw [if_neg h1, any_free h2, if_neg (by simp), h3, if_neg (by simp)]
    · rintro t rfl; rfl

/-- C33, cells: the same for `addCell`. -/
theorem C33_addCell (o : Obj P) (gen : Nat) (c : Cell) (idtag : Option Nat)
    (hgen : has o.cells gen = false) (hok : Ok o.cells) :
    (∀ i, idtag = some i → has o.cells i = true → addCell o gen c idtag = (o, none)) ∧
    ((∀ i, idtag = some i → has o.cells i = false) →
      ∃ i o', addCell o gen c idtag = (o', some i) ∧ (∀ t, idtag = some t → i = t) ∧
        AddsCell o o' i ⟨c.elem, c.conn, toInt32 c.pid, true⟩) := by
  constructor
  · rintro i rfl hi
    simp [addCell, hi]
  · intro h2
    have hf := getD_free hgen h2
    refine ⟨idtag.getD gen, putCell o c.elem c.conn c.pid (idtag.getD gen), ?_, ?_,
      addsCell_put hok hf c.elem c.conn c.pid⟩
    · unfold addCell
      rw [any_free h2, if_neg (by simp)]
    · rintro t rfl; rfl

/-- a small surface used in the examples: two cells, ids with holes, PIDs 1 and 2 -/
def demo : Obj Int :=
  { type := 1, verts := [(0, 10), (1, 20), (2, 30), (7, 70)]
    cells := [(4, ⟨.triangle, [0, 1, 2], 1, true⟩), (9, ⟨.quad, [0, 1, 2, 7], 2, true⟩)]
    pids := [1, 2], names := [(1, "a"), (2, "b")], tree := true
    kd := ⟨.none, none⟩, skd := ⟨.none, none⟩, adj := ⟨.none, none⟩, int := ⟨.none, none⟩
    info := ⟨.sync, some [4, 9]⟩, bbox := ⟨.none, none⟩, pc := ⟨.none, none⟩ }

example : has demo.verts 8 = false ∧ Ok demo.verts ∧ has demo.verts 7 = true ∧
    (addVertex demo 8 99 (some 7)).2 = none ∧ (addVertex demo 8 99 none).2 = some 8 := by
  refine ⟨by decide, by unfold Ok; decide, by decide, by decide, by decide⟩

example : has demo.cells 5 = false ∧ Ok demo.cells ∧ (addConnectedCell demo 5 [1, 2, 7] .triangle 3 none).2 = some 5 ∧
    (addConnectedCell demo 5 [1, 2, 7] .triangle 3 (some 9)).2 = none ∧
    (addConnectedCell demo 5 [1, 2, 7] .quad 3 none).2 = none ∧
    (addCell demo 5 ⟨.triangle, [1, 2, 7], 3, true⟩ (some 4)).2 = none := by
  refine ⟨by decide, by unfold Ok; decide, by decide, by decide, by decide, by decide⟩

/-! ### C34 -/

/-- `long` values that fit an `int` -/
def InRange (p : Int) : Prop := -2147483648 ≤ p ∧ p < 2147483648

theorem toInt32_id {p : Int} (h : InRange p) : toInt32 p = p := by
  unfold InRange at h
  unfold toInt32
  rw [Int.bmod_eq_of_le] <;> omega

theorem toInt32_range (p : Int) : InRange (toInt32 p) := by
  unfold InRange toInt32
  have h1 := Int.le_bmod (x := p) (m := 4294967296) (by omega)
  have h2 := Int.bmod_lt (x := p) (m := 4294967296) (by omega)
  omega

/-- every PID carried by a cell is in the list -/
def PidsListed (o : Obj P) : Prop := ∀ c ∈ o.cells, c.2.pid ∈ o.pids

/-- C34, partial (full statement: for every `long` PID): a PID set on a cell and fitting an `int` is read back
from that cell, is in the list, and the other cells keep theirs. -/
theorem C34_readback_partial (o : Obj P) (id : Nat) (pid : Int) (hr : InRange pid) (h : has o.cells id = true) :
    (get (setPIDCell o id pid).cells id).map (·.pid) = some pid ∧ pid ∈ (setPIDCell o id pid).pids ∧
    (∀ j, j ≠ id → get (setPIDCell o id pid).cells j = get o.cells j) ∧
    (∀ q ∈ o.pids, q ∈ (setPIDCell o id pid).pids) := by
  simp only [setPIDCell, h, if_true]
  refine ⟨?_, ?_, ?_, ?_⟩
  · rw [get_putPid, if_pos rfl, toInt32_id hr]
    have := has_eq_isSome o.cells id
    rw [h] at this
    cases hg : get o.cells id with
    | none => rw [hg] at this; simp at this
    | some c => simp
  · rw [mem_insSet]; exact Or.inr rfl
  · intro j hj
    rw [get_putPid, if_neg hj]
  · intro q hq; rw [mem_insSet]; exact Or.inl hq

example : InRange 7 ∧ has demo.cells 9 = true ∧ ((get (setPIDCell demo 9 7).cells 9).map (·.pid)) = some 7 := by
  refine ⟨by unfold InRange; omega, by decide, by decide⟩

/-- C34 is false for PIDs beyond the range of `int`: the cell gets another PID, which is not in the list. -/
theorem C34_range_fails : PidsListed demo ∧ has demo.cells 9 = true ∧
    (get (setPIDCell demo 9 4294967301).cells 9).map (·.pid) = some 5 ∧ ¬ PidsListed (setPIDCell demo 9 4294967301) := by
  refine ⟨by unfold PidsListed; decide, by decide, by decide, ?_⟩
  unfold PidsListed; decide

/-- C34 is false for `setPID` with a map that leaves a cell out: the PID of that cell is no longer listed. -/
theorem C34_map_fails : PidsListed demo ∧ ¬ PidsListed (setPIDMap demo [(4, 8)]) := by
  refine ⟨by unfold PidsListed; decide, ?_⟩
  unfold PidsListed; decide

/-- C34: after `resyncPID` the list is exactly the set of PIDs in use, without repetition; PIDs in use keep their
names; the cells are untouched. -/
theorem C34_resync (o : Obj P) :
    (∀ p, p ∈ (resyncPID o).pids ↔ ∃ c ∈ o.cells, c.2.pid = p) ∧ (resyncPID o).pids.Nodup ∧
    (resyncPID o).cells = o.cells ∧
    (resyncPID o).names.map Prod.fst = (resyncPID o).pids ∧
    (∀ p s, p ∈ (resyncPID o).pids → nameOf o.names p = some s → (p, s) ∈ (resyncPID o).names) := by
  refine ⟨?_, nodup_distinct _, rfl, ?_, ?_⟩
  · intro p
    simp only [resyncPID, mem_distinct, mem_map]
  · simp only [resyncPID, map_map]
    exact map_id' _
  · intro p s hp hs
    simp only [resyncPID] at hp ⊢
    exact mem_map.2 ⟨p, hp, by simp [hs]⟩

example : (resyncPID (setPIDMap demo [(4, 8)])).pids = [8, 2] := by decide

/-- operations on PIDs and insertions -/
inductive PidOp (P : Type) where
  | cell (id : Nat) (pid : Int)
  | vec (l : List Int)
  | map (m : List (Nat × Int))
  | name (pid : Int) (s : String)
  | resync
  | addVertex (gen : Nat) (p : P) (idtag : Option Nat)
  | addConnectedCell (gen : Nat) (conn : List Nat) (t : Elem) (pid : Int) (idtag : Option Nat)
  | addCell (gen : Nat) (c : Cell) (idtag : Option Nat)

/-- effect of an operation -/
def pidStep (o : Obj P) : PidOp P → Obj P
  | .cell id pid => setPIDCell o id pid
  | .vec l => setPIDVec o l
  | .map m => setPIDMap o m
  | .name pid s => (setPIDName o pid s).1
  | .resync => resyncPID o
  | .addVertex gen p idtag => (Verif.Mesh.addVertex o gen p idtag).1
  | .addConnectedCell gen conn t pid idtag => (Verif.Mesh.addConnectedCell o gen conn t pid idtag).1
  | .addCell gen c idtag => (Verif.Mesh.addCell o gen c idtag).1

/-- the operations covered: PIDs fit an `int`, a map of PIDs names every cell, generated ids are unused -/
def PidGuard (o : Obj P) : PidOp P → Prop
  | .cell _ pid => InRange pid
  | .vec l => ∀ p ∈ l, InRange p
  | .map m => (∀ e ∈ m, InRange e.2) ∧ ∀ c ∈ o.cells, c.1 ∈ m.map Prod.fst
  | .name _ _ => True
  | .resync => True
  | .addVertex _ _ _ => True
  | .addConnectedCell gen _ _ pid _ => InRange pid ∧ has o.cells gen = false
  | .addCell gen c _ => InRange c.pid ∧ has o.cells gen = false

/-- a run of such operations -/
inductive PidRun : Obj P → Obj P → Prop
  | refl (o) : PidRun o o
  | step {o o'} (op) : PidRun o o' → PidGuard o' op → PidRun o (pidStep o' op)

theorem putEntry_spec : ∀ (m : List (Nat × Int)) (cs : Data Cell) (ps : List Int), (∀ e ∈ m, InRange e.2) →
    (∀ p ∈ ps, p ∈ (m.foldl putEntry (cs, ps)).2) ∧
    ∀ c ∈ (m.foldl putEntry (cs, ps)).1, (c ∈ cs ∧ c.1 ∉ m.map Prod.fst) ∨ c.2.pid ∈ (m.foldl putEntry (cs, ps)).2 := by
  intro m
  induction m with
  | nil => intro cs ps _; exact ⟨fun p hp => hp, fun c hc => Or.inl ⟨hc, by simp⟩⟩
  | cons e m ih =>
    intro cs ps hr
    have hre := hr e (by simp)
    rw [foldl_cons]
    by_cases hh : has cs e.1 = true
    · have he : putEntry (cs, ps) e = (putPid cs e.1 (toInt32 e.2), insSet ps e.2) := by
        simp [putEntry, hh]
      rw [he]
      obtain ⟨i1, i2⟩ := ih (putPid cs e.1 (toInt32 e.2)) (insSet ps e.2) (fun x hx => hr x (by simp [hx]))
      refine ⟨fun p hp => i1 p ((mem_insSet ..).2 (Or.inl hp)), ?_⟩
      intro c hc
      rcases i2 c hc with ⟨h1, h2⟩ | h
      · simp only [putPid, mem_map] at h1
        obtain ⟨c0, hc0, rfl⟩ := h1
        by_cases h0 : c0.1 = e.1
        · right
          have h3 := i1 e.2 ((mem_insSet ..).2 (Or.inr rfl))
          simp only [h0, if_true]
          have h4 : toInt32 e.2 = e.2 := toInt32_id hre
          exact (congrArg (fun x => x ∈ _) h4).mpr h3
        · left
          simp only [if_neg h0] at h2 ⊢
          refine ⟨hc0, ?_⟩
          rw [map_cons, mem_cons]
          rintro (h | h)
          · exact h0 h
          · exact h2 h
      · exact Or.inr h
    · have he : putEntry (cs, ps) e = (cs, ps) := by
        simp [putEntry, hh]
      rw [he]
      obtain ⟨i1, i2⟩ := ih cs ps (fun x hx => hr x (by simp [hx]))
      refine ⟨i1, ?_⟩
      intro c hc
      rcases i2 c hc with ⟨h1, h2⟩ | h
      · left
        refine ⟨h1, ?_⟩
        rw [map_cons, mem_cons]
        rintro (h | h)
        · exact hh ((has_iff ..).2 (by rw [← h]; exact mem_map_of_mem h1))
        · exact h2 h
      · exact Or.inr h

theorem pidStep_listed {o : Obj P} (h : PidsListed o) (op : PidOp P) (hg : PidGuard o op) :
    PidsListed (pidStep o op) := by
  cases op with
  | cell id pid =>
    simp only [pidStep, setPIDCell]
    by_cases hh : has o.cells id = true
    · rw [if_pos hh]
      intro c hc
      simp only [putPid, mem_map] at hc
      obtain ⟨c0, hc0, rfl⟩ := hc
      simp only
      rw [mem_insSet]
      by_cases h0 : c0.1 = id
      · rw [if_pos h0]; right; exact toInt32_id hg
      · rw [if_neg h0]; left; exact h c0 hc0
    · rw [if_neg hh]; exact h
  | vec l =>
    simp only [pidStep, setPIDVec]
    by_cases hl : l.length ≠ o.cells.length
    · rw [if_pos hl]; exact h
    · rw [if_neg hl]
      intro c hc
      simp only [mem_map] at hc
      obtain ⟨e, he, rfl⟩ := hc
      simp only
      rw [mem_distinct]
      have := (of_mem_zip he).2
      rw [toInt32_id (hg _ this)]; exact this
  | map m =>
    simp only [pidStep, setPIDMap]
    by_cases hl : o.cells = []
    · rw [if_pos hl]; exact h
    · rw [if_neg hl]
      intro c hc
      simp only at hc ⊢
      rcases (putEntry_spec m o.cells [] hg.1).2 c hc with ⟨h1, h2⟩ | h1
      · exact absurd (hg.2 c h1) h2
      · exact h1
  | name pid s =>
    simp only [pidStep, setPIDName]
    split <;> exact h
  | resync =>
    intro c hc
    exact ((C34_resync o).1 _).2 ⟨c, hc, rfl⟩
  | addVertex gen p idtag =>
    simp only [pidStep, Verif.Mesh.addVertex, addVertex.put]
    split
    · split <;> exact h
    · exact h
  | addConnectedCell gen conn t pid idtag =>
    simp only [pidStep, Verif.Mesh.addConnectedCell]
    split
    · exact h
    · split
      · exact h
      · next hne hany =>
        split
        · exact h
        · have hf : has o.cells (idtag.getD gen) = false := by
            cases idtag with
            | none => exact hg.2
            | some i => simpa using hany
          intro c hc
          simp only at hc ⊢
          rw [putCell_cells hf] at hc
          rw [putCell_pids, mem_insSet]
          rcases mem_append.1 hc with hc | hc
          · exact Or.inl (h c hc)
          · simp only [mem_singleton] at hc
            subst hc
            exact Or.inr (toInt32_id hg.1)
  | addCell gen c idtag =>
    simp only [pidStep, Verif.Mesh.addCell]
    split
    · exact h
    · next hany =>
      have hf : has o.cells (idtag.getD gen) = false := by
        cases idtag with
        | none => exact hg.2
        | some i => simpa using hany
      intro c' hc
      simp only at hc ⊢
      rw [putCell_cells hf] at hc
      rw [putCell_pids, mem_insSet]
      rcases mem_append.1 hc with hc | hc
      · exact Or.inl (h c' hc)
      · simp only [mem_singleton] at hc
        subst hc
        exact Or.inr (toInt32_id hg.1)

/-- C34, partial (full statement: for every PID and every map of PIDs; see `C34_range_fails`, `C34_map_fails`):
along any run of PID operations and insertions with PIDs that fit an `int` and complete maps, every PID carried
by a cell is in the list. -/
theorem C34_listed_partial {o o' : Obj P} (h : PidsListed o) (r : PidRun o o') : PidsListed o' := by
  induction r with
  | refl => exact h
  | step op _ hg ih => exact pidStep_listed ih op hg

example : PidRun demo (pidStep (pidStep demo (.map [(4, 8), (9, 3)])) (.addCell 5 ⟨.triangle, [1, 2, 7], 6, true⟩ none)) :=
  .step _ (.step _ (.refl _) (by
    refine ⟨?_, by decide⟩
    intro e he
    simp only [mem_cons, not_mem_nil, or_false] at he
    rcases he with rfl | rfl <;> exact ⟨by decide, by decide⟩))
    ⟨⟨by decide, by decide⟩, by decide⟩

/-- C34: `setPID` with a list in the order of the cells gives each cell its PID (`int` range), and the list of
PIDs is exactly the set of given ones. -/
theorem C34_setPID_list_partial (o : Obj P) (l : List Int) (hl : l.length = o.cells.length) (hr : ∀ p ∈ l, InRange p) :
    (setPIDVec o l).cells.map (fun c => c.2.pid) = l ∧
    (setPIDVec o l).cells.map (fun c => (c.1, c.2.elem, c.2.conn)) = o.cells.map (fun c => (c.1, c.2.elem, c.2.conn)) ∧
    (∀ p, p ∈ (setPIDVec o l).pids ↔ p ∈ l) := by
  have : ¬ l.length ≠ o.cells.length := by omega
  simp only [setPIDVec, if_neg this]
  refine ⟨?_, ?_, fun p => mem_distinct l p⟩
  · rw [map_map]
    have h1 : (o.cells.zip l).map ((fun c => c.2.pid) ∘ fun e => (e.1.1, ({ e.1.2 with pid := toInt32 e.2 } : Cell))) =
        (o.cells.zip l).map (fun e => e.2) := by
      apply map_congr_left
      intro e he
      exact toInt32_id (hr _ (of_mem_zip he).2)
    rw [h1]
    exact map_snd_zip (by omega)
  · rw [map_map]
    have h1 : (o.cells.zip l).map ((fun c => (c.1, c.2.elem, c.2.conn)) ∘
        fun e => (e.1.1, ({ e.1.2 with pid := toInt32 e.2 } : Cell))) =
        ((o.cells.zip l).map (fun e => e.1)).map (fun c => (c.1, c.2.elem, c.2.conn)) := by
      rw [map_map]; rfl
    rw [h1]
    congr 1
    exact map_fst_zip (by omega)

example : (setPIDVec demo [5, 6]).cells.map (fun c => c.2.pid) = [5, 6] := by decide

/-! ### C35 -/

theorem flatMap_filter_perm {α : Type} (key : α → Int) : ∀ (ps : List Int) (cs : List α), ps.Nodup →
    (∀ c ∈ cs, key c ∈ ps) → (ps.flatMap (fun p => cs.filter (fun c => key c = p))).Perm cs := by
  intro ps
  induction ps with
  | nil =>
    intro cs _ h
    cases cs with
    | nil => simp
    | cons c cs => exact absurd (h c (by simp)) (by simp)
  | cons p ps ih =>
    intro cs hn h
    rw [flatMap_cons]
    rw [nodup_cons] at hn
    have h1 := ih (cs.filter (fun c => !decide (key c = p))) hn.2 (by
      intro c hc
      simp only [mem_filter, Bool.not_eq_true', decide_eq_false_iff_not] at hc
      have := h c hc.1
      simp only [mem_cons] at this
      exact this.resolve_left hc.2)
    have h2 : ps.flatMap (fun q => (cs.filter (fun c => !decide (key c = p))).filter (fun c => key c = q)) =
        ps.flatMap (fun q => cs.filter (fun c => key c = q)) := by
      rw [flatMap_def, flatMap_def]
      congr 1
      apply map_congr_left
      intro q hq
      rw [filter_filter]
      apply filter_congr
      intro c _
      by_cases hk : key c = q
      · have : ¬ q = p := by rintro rfl; exact hn.1 hq
        simp [hk, this]
      · simp [hk]
    rw [h2] at h1
    have h3 : (cs.filter (fun c => decide (key c = p)) ++ cs.filter (fun c => !decide (key c = p))).Perm cs :=
      filter_append_perm _ _
    exact (Perm.append_left _ h1).trans h3

/-- the PID list is in order: no repetition, and every PID of a cell is listed -/
def InOrder (o : Obj P) : Prop := o.pids.Nodup ∧ PidsListed o

/-- C35: extracting PID by PID over all listed PIDs returns every cell exactly once. -/
theorem C35_partition (o : Obj P) (h : InOrder o) : (extractPIDs o o.pids).Perm (cellIds o) := by
  have h1 := flatMap_filter_perm (fun c : Nat × Cell => c.2.pid) o.pids o.cells h.1 h.2
  have h2 : extractPIDs o o.pids = (o.pids.flatMap (fun p => o.cells.filter (fun c => c.2.pid = p))).map Prod.fst := by
    unfold extractPIDs
    rw [map_flatMap, flatMap_def, flatMap_def]
    congr 1
    apply map_congr_left
    intro p hp
    simp [extractPID, hp]
  rw [h2]
  exact h1.map _

/-- C35: a cell is extracted under exactly the PID it carries. -/
theorem C35_exact (o : Obj P) (hok : Ok o.cells) (h : InOrder o) (p : Int) (id : Nat) :
    id ∈ extractPID o p ↔ ∃ c, get o.cells id = some c ∧ c.pid = p := by
  unfold extractPID
  constructor
  · intro hm
    split at hm
    · simp only [mem_map, mem_filter, decide_eq_true_eq] at hm
      obtain ⟨c, ⟨hc, hp⟩, rfl⟩ := hm
      exact ⟨c.2, get_of_mem hok hc, hp⟩
    · simp at hm
  · rintro ⟨c, hc, rfl⟩
    have hm := get_some_mem hc
    rw [if_pos (h.2 _ hm)]
    simp only [mem_map, mem_filter, decide_eq_true_eq]
    exact ⟨(id, c), ⟨hm, rfl⟩, rfl⟩

theorem lookup_pushTo (m : List (Int × List Nat)) (p : Int) (id : Nat) (q : Int) :
    lookupPID (pushTo m p id) q = if q = p then some ((lookupPID m q).getD [] ++ [id]) else lookupPID m q := by
  have hcons : ∀ (e : Int × List Nat) (m : List (Int × List Nat)) (q : Int),
      lookupPID (e :: m) q = if e.1 = q then some e.2 else lookupPID m q := by
    intro e m q
    unfold lookupPID
    rw [find?_cons]
    by_cases h : e.1 = q
    · simp [h]
    · rw [beq_eq_false_iff_ne.2 h, if_neg h]
  unfold pushTo
  split
  · next hany =>
    induction m with
    | nil => simp at hany
    | cons e m ih =>
      rw [map_cons, hcons, hcons]
      by_cases he : e.1 = p
      · by_cases hq : q = p
        · subst hq; simp [he]
        · have : ¬ p = q := Ne.symm hq
          simp only [he, if_true, this, if_false, hq]
          -- the rest of the map agrees at `q`
          clear ih hany
          induction m with
          | nil => rfl
          | cons f m ih2 =>
            rw [map_cons, hcons, hcons]
            by_cases hf : f.1 = p
            · simp only [hf, if_true, this, if_false]; exact ih2
            · simp only [hf, if_false]
              split
              · rfl
              · exact ih2
      · have hany' : m.any (fun e => e.1 == p) = true := by simpa [he] using hany
        have := ih hany'
        simp only [he, if_false]
        by_cases heq : e.1 = q
        · have : ¬ q = p := by rintro rfl; exact he heq
          simp [heq, this]
        · simp only [heq, if_false]; exact this
  · next hany =>
    induction m with
    | nil =>
      simp only [nil_append]
      rw [hcons]
      by_cases hq : q = p
      · subst hq; simp [lookupPID]
      · have : ¬ p = q := Ne.symm hq
        simp [this, hq]
    | cons e m ih =>
      have he : ¬ e.1 = p := by
        intro h; apply hany; simp [h]
      have hany' : ¬ m.any (fun e => e.1 == p) = true := by
        intro h; apply hany; simp [h]
      rw [cons_append, hcons, hcons, ih hany']
      by_cases heq : e.1 = q
      · have : ¬ q = p := by rintro rfl; exact he heq
        simp [heq, this]
      · simp only [heq, if_false]

/-- C35: the subdivision maps each listed PID to the cells extracted for it, and has no other keys. -/
theorem C35_subdivision (o : Obj P) (h : InOrder o) (p : Int) :
    lookupPID (subdivision o) p = if p ∈ o.pids then some (extractPID o p) else none := by
  have gen : ∀ (cs : Data Cell) (m : List (Int × List Nat)) (p : Int),
      lookupPID (cs.foldl (fun m c => pushTo m c.2.pid c.1) m) p =
        (if ∃ c ∈ cs, c.2.pid = p then
          some ((lookupPID m p).getD [] ++ (cs.filter (fun c => c.2.pid = p)).map Prod.fst)
         else lookupPID m p) := by
    intro cs
    induction cs with
    | nil => intro m p; simp
    | cons c cs ih =>
      intro m p
      rw [foldl_cons, ih, lookup_pushTo]
      by_cases hc : c.2.pid = p
      · have h1 : ∃ x ∈ c :: cs, x.2.pid = p := ⟨c, by simp, hc⟩
        rw [if_pos h1, if_pos hc.symm]
        simp only [Option.getD_some]
        by_cases h2 : ∃ x ∈ cs, x.2.pid = p
        · rw [if_pos h2, filter_cons_of_pos (by simp [hc])]; simp
        · rw [if_neg h2, filter_cons_of_pos (by simp [hc])]
          have : cs.filter (fun c => decide (c.2.pid = p)) = [] := by
            rw [filter_eq_nil_iff]; intro x hx hp; exact h2 ⟨x, hx, by simpa using hp⟩
          rw [this]; simp
      · rw [if_neg (Ne.symm hc), filter_cons_of_neg (by simp [hc])]
        have : (∃ x ∈ c :: cs, x.2.pid = p) ↔ ∃ x ∈ cs, x.2.pid = p := by
          constructor
          · rintro ⟨x, hx, hp⟩
            rcases mem_cons.1 hx with rfl | hx
            · exact absurd hp hc
            · exact ⟨x, hx, hp⟩
          · rintro ⟨x, hx, hp⟩; exact ⟨x, by simp [hx], hp⟩
        simp only [this]
  unfold subdivision
  by_cases hp0 : o.pids = []
  · rw [if_pos hp0, hp0]; simp [lookupPID]
  · rw [if_neg hp0, gen]
    have h0 : lookupPID (o.pids.map (fun p => (p, ([] : List Nat)))) p = if p ∈ o.pids then some [] else none := by
      generalize o.pids = l
      induction l with
      | nil => simp [lookupPID]
      | cons a l ih =>
        unfold lookupPID at ih ⊢
        rw [map_cons, find?_cons]
        by_cases ha : a = p
        · simp [ha]
        · have h1 : ¬ p = a := Ne.symm ha
          simp only [ha, beq_eq_false_iff_ne.2 ha, mem_cons, h1, false_or]
          exact ih
    rw [h0]
    by_cases hp : p ∈ o.pids
    · rw [if_pos hp]
      simp only [extractPID, if_pos hp, Option.getD_some, nil_append]
      split
      · rfl
      · next hne =>
        have : o.cells.filter (fun c => decide (c.2.pid = p)) = [] := by
          rw [filter_eq_nil_iff]; intro x hx hp; exact hne ⟨x, hx, by simpa using hp⟩
        rw [this]; rfl
    · have : ¬ ∃ c ∈ o.cells, c.2.pid = p := by
        rintro ⟨c, hc, rfl⟩
        exact hp (h.2 c hc)
      rw [if_neg this, if_neg hp, if_neg hp]

example : InOrder demo ∧ Ok demo.cells ∧ extractPID demo 2 = [9] ∧ extractPIDs demo demo.pids = [4, 9] ∧
    subdivision demo = [(1, [4]), (2, [9])] := by
  refine ⟨⟨by decide, by unfold PidsListed; decide⟩, by unfold Ok; decide, by decide, by decide, by decide⟩

/-- C35 needs the list to be in order: after a partial `setPID` map a cell is extracted under no listed PID. -/
theorem C35_needs_order : ¬ (extractPIDs (setPIDMap demo [(4, 8)]) (setPIDMap demo [(4, 8)]).pids).Perm
    (cellIds (setPIDMap demo [(4, 8)])) := by decide

end Verif.Mesh
