import Verif.Select.Model
import Verif.Mesh.QueryProps
/-
C101: the patch of a selection block is the selected part of the mesh.
-/
namespace Verif.Select
open Verif.Field Verif.Mesh
open List hiding get

variable {P : Type}

/-- what bitpit's removal of coincident vertices does: some vertices are replaced by others at (nearly) the same place,
in the cells too; nothing else changes -/
def Cleaned (close : P → P → Prop) (vs : Data P) (cs : Data Cell) (vs' : Data P) (cs' : Data Cell) (m : List (Nat × Nat)) : Prop :=
  vs' = vs.filter (fun v => ! m.any (fun e => e.1 == v.1)) ∧
  cs' = cs.map (fun c => (c.1, renumber m c.2)) ∧
  ∀ e ∈ m, e.1 ≠ e.2 ∧ m.any (fun e' => e'.1 == e.2) = false ∧
    ∃ p q, get vs e.1 = some p ∧ get vs e.2 = some q ∧ close p q

/-- a mesh in good order: distinct ids, cells on existing vertices, PIDs that fit and interior cells (serial) -/
structure Good (o : Obj P) : Prop where
  verts : Ok o.verts
  cells : Ok o.cells
  complete : ∀ id c, get o.cells id = some c → ∀ v ∈ vertexIds c, has o.verts v = true
  pid : ∀ id c, get o.cells id = some c → InRange c.pid
  interior : ∀ id c, get o.cells id = some c → c.interior = true

/-- `r` is the part of `o` made of the cells in `S` -/
structure SubMesh (o r : Obj P) (S : Nat → Prop) : Prop where
  type : r.type = o.type
  cells : ∀ id c, get r.cells id = some c ↔ S id ∧ get o.cells id = some c
  verts : ∀ v p, get r.verts v = some p ↔
    (∃ id c, S id ∧ get o.cells id = some c ∧ v ∈ vertexIds c) ∧ get o.verts v = some p
  pids : ∀ p, p ∈ r.pids ↔ ∃ id c, S id ∧ get o.cells id = some c ∧ c.pid = p
  names : ∀ p ∈ r.pids, nameOf r.names p = some ((nameOf o.names p).getD "")
  tol : r.tol = o.tol
  once : Ok r.verts ∧ Ok r.cells

theorem addVertex_some (t : Obj P) (p : P) (i : Nat) :
    (addVertex t 0 p (some i)).1.verts = (if has t.verts i then t.verts else t.verts ++ [(i, p)]) ∧
    (addVertex t 0 p (some i)).1.cells = t.cells ∧ (addVertex t 0 p (some i)).1.type = t.type ∧
    (addVertex t 0 p (some i)).1.pids = t.pids ∧ (addVertex t 0 p (some i)).1.names = t.names ∧
    (addVertex t 0 p (some i)).1.tol = t.tol ∧
    ((addVertex t 0 p (some i)).1.skd = t.skd) := by
  unfold addVertex
  by_cases h : has t.verts i = true
  · simp [h]
  · simp [h, addVertex.put]

theorem addVerts_spec (o : Obj P) : ∀ (l : List Nat) (t : Obj P), (∀ i ∈ l, has o.verts i = true) → Ok t.verts →
    (∀ v p, get t.verts v = some p → get o.verts v = some p) →
    ∃ r, addVerts o l t = some r ∧ r.cells = t.cells ∧ r.type = t.type ∧ r.pids = t.pids ∧ r.names = t.names ∧
      r.tol = t.tol ∧ r.skd = t.skd ∧ Ok r.verts ∧
      ∀ v p, get r.verts v = some p ↔ get o.verts v = some p ∧ (v ∈ l ∨ has t.verts v = true) := by
  intro l
  induction l with
  | nil =>
    intro t _ ht hs
    refine ⟨t, rfl, rfl, rfl, rfl, rfl, rfl, rfl, ht, fun v p => ⟨fun h => ⟨hs v p h, Or.inr ?_⟩, ?_⟩⟩
    · rw [has_eq_isSome, h]; rfl
    · rintro ⟨h, h' | h'⟩
      · cases h'
      · rw [has_eq_isSome] at h'
        obtain ⟨q, hq⟩ := Option.isSome_iff_exists.1 h'
        rw [hq]; rw [hs v q hq] at h; exact h
  | cons i l ih =>
    intro t hl ht hs
    have hi := hl i (by simp)
    rw [has_eq_isSome] at hi
    obtain ⟨p, hp⟩ := Option.isSome_iff_exists.1 hi
    obtain ⟨a1, a2, a3, a4, a5, a6, a7⟩ := addVertex_some t p i
    have hok : Ok (addVertex t 0 p (some i)).1.verts := by
      rw [a1]; split
      · exact ht
      · next h => exact ok_append ht (by simpa using h)
    have hsub : ∀ v q, get (addVertex t 0 p (some i)).1.verts v = some q → get o.verts v = some q := by
      intro v q
      rw [a1]; split
      · exact hs v q
      · rw [get_append]
        cases hv : get t.verts v with
        | some q' => intro h; simp at h; subst h; exact hs v q' hv
        | none =>
          rw [get_single]
          intro h
          by_cases hiv : i = v
          · subst hiv; simp at h; subst h; exact hp
          · simp [hiv] at h
    obtain ⟨r, h1, h2, h3, h4, h5, h6, h7, h8, h9⟩ := ih _ (fun j hj => hl j (by simp [hj])) hok hsub
    refine ⟨r, ?_, h2.trans a2, h3.trans a3, h4.trans a4, h5.trans a5, h6.trans a6, h7.trans a7, h8, ?_⟩
    · rw [addVerts, hp]; exact h1
    · intro v q
      rw [h9]
      have : has (addVertex t 0 p (some i)).1.verts v = true ↔ has t.verts v = true ∨ v = i := by
        rw [a1]; split
        · next h => constructor
                    · exact Or.inl
                    · rintro (h' | rfl) <;> assumption
        · rw [has_iff, has_iff]; simp
      rw [this, mem_cons]
      grind

theorem addCell_some (t : Obj P) (ht : Ok t.cells) (c : Cell) (i : Nat) (hi : InRange c.pid) (hin : c.interior = true) :
    (addCell t 0 c (some i)).1.cells = (if has t.cells i then t.cells else t.cells ++ [(i, c)]) ∧
    (addCell t 0 c (some i)).1.verts = t.verts ∧ (addCell t 0 c (some i)).1.type = t.type ∧
    (addCell t 0 c (some i)).1.pids = (if has t.cells i then t.pids else insSet t.pids c.pid) ∧
    (addCell t 0 c (some i)).1.names = (if has t.cells i then t.names else insName t.names c.pid "") ∧
    (addCell t 0 c (some i)).1.tol = t.tol ∧
    ((addCell t 0 c (some i)).1.skd = { t.skd with st := t.skd.st.cap } ∨ (addCell t 0 c (some i)).1.skd = t.skd) := by
  unfold addCell
  by_cases h : has t.cells i = true
  · simp [h]
  · have h' : has t.cells i = false := by simpa using h
    simp only [Option.any_some, h', Bool.false_eq_true, if_false, Option.getD_some]
    refine ⟨?_, ?_, ?_, ?_, ?_, ?_, Or.inl ?_⟩
    · rw [putCell_cells h', toInt32_id hi, ← hin]
    · exact putCell_verts ..
    · exact putCell_type ..
    · rw [putCell_pids]
    · simp [putCell, unsyncCell, setPIDCell, has]
    · simp [putCell, unsyncCell, setPIDCell, has]
    · simp [putCell, unsyncCell, setPIDCell, has]

/-- no search tree to rebuild -/
def NoTree (t : Obj P) : Prop := t.skd.st = .none ∨ t.skd.st = .notSupported

/-- the copied cells so far -/
structure Part (o t : Obj P) (S : Nat → Prop) : Prop where
  cells : ∀ id c, get t.cells id = some c ↔ S id ∧ get o.cells id = some c
  once : Ok t.cells
  pids : ∀ p, p ∈ t.pids ↔ ∃ id c, S id ∧ get o.cells id = some c ∧ c.pid = p
  names : ∀ p ∈ t.pids, t.names.any (fun e => e.1 == p) = true
  notree : NoTree t

theorem any_insName (l : List (Int × String)) (p q : Int) (s : String) :
    (insName l p s).any (fun e => e.1 == q) = true ↔ l.any (fun e => e.1 == q) = true ∨ q = p := by
  unfold insName
  by_cases h : l.any (fun e => e.1 == p) = true
  · rw [if_pos h]
    constructor
    · exact Or.inl
    · rintro (h' | rfl)
      · exact h'
      · exact h
  · rw [if_neg h, any_append, Bool.or_eq_true]
    constructor
    · rintro (h' | h')
      · exact Or.inl h'
      · right; simp at h'; exact h'.symm
    · rintro (h' | rfl)
      · exact Or.inl h'
      · right; simp

theorem addCells_spec (o : Obj P) (ho : Good o) : ∀ (l : List Nat) (t : Obj P) (S : Nat → Prop), (∀ i ∈ l, has o.cells i = true) →
    Part o t S →
    ∃ r, addCells o l t = some r ∧ r.verts = t.verts ∧ r.type = t.type ∧ r.tol = t.tol ∧
      Part o r (fun i => S i ∨ i ∈ l) := by
  intro l
  induction l with
  | nil =>
    intro t S _ ht
    refine ⟨t, rfl, rfl, rfl, rfl, ?_⟩
    have : (fun i => S i ∨ i ∈ ([] : List Nat)) = S := by funext i; simp
    rw [this]; exact ht
  | cons i l ih =>
    intro t S hl ht
    have hi := hl i (by simp)
    rw [has_eq_isSome] at hi
    obtain ⟨c, hc⟩ := Option.isSome_iff_exists.1 hi
    obtain ⟨a1, a2, a3, a4, a5, a6, a7⟩ := addCell_some t ht.once c i (ho.pid i c hc) (ho.interior i c hc)
    have hpart : Part o (addCell t 0 c (some i)).1 (fun j => S j ∨ j = i) := by
      have htree : NoTree (addCell t 0 c (some i)).1 := by
        have := ht.notree
        unfold NoTree at this ⊢
        rcases a7 with h | h <;> rw [h]
        · rcases this with h' | h' <;> simp [h', Status.cap]
        · exact this
      by_cases hh : has t.cells i = true
      · simp only [hh, if_true] at a1 a4 a5
        have hS : S i := by
          rw [has_eq_isSome] at hh
          obtain ⟨d, hd⟩ := Option.isSome_iff_exists.1 hh
          exact ((ht.cells i d).1 hd).1
        have : (fun j => S j ∨ j = i) = S := by
          funext j; apply propext; constructor
          · rintro (h | rfl) <;> assumption
          · exact Or.inl
        rw [this]
        refine ⟨by rw [a1]; exact ht.cells, by rw [a1]; exact ht.once, by rw [a4]; exact ht.pids, ?_, htree⟩
        rw [a4, a5]; exact ht.names
      · have hf : has t.cells i = false := by simpa using hh
        simp only [hf, Bool.false_eq_true, if_false] at a1 a4 a5
        refine ⟨?_, by rw [a1]; exact ok_append ht.once hf, ?_, ?_, htree⟩
        · intro id d
          rw [a1, get_append]
          cases hg : get t.cells id with
          | some d' =>
            have h1 := (ht.cells id d').1 hg
            simp only [Option.some_or, Option.some.injEq]
            constructor
            · rintro rfl; exact ⟨Or.inl h1.1, h1.2⟩
            · rintro ⟨-, h⟩; rw [h1.2] at h; simpa using h
          | none =>
            rw [Option.none_or, get_single]
            constructor
            · intro h
              by_cases hid : i = id
              · subst hid; simp at h; subst h; exact ⟨Or.inr rfl, hc⟩
              · simp [hid] at h
            · rintro ⟨h | rfl, h'⟩
              · have := (ht.cells id d).2 ⟨h, h'⟩; rw [hg] at this; cases this
              · simp; rw [hc] at h'; simpa using h'
        · intro p
          rw [a4, mem_insSet, ht.pids]
          constructor
          · rintro (⟨id, d, h1, h2, h3⟩ | rfl)
            · exact ⟨id, d, Or.inl h1, h2, h3⟩
            · exact ⟨i, c, Or.inr rfl, hc, rfl⟩
          · rintro ⟨id, d, h1 | rfl, h2, h3⟩
            · exact Or.inl ⟨id, d, h1, h2, h3⟩
            · rw [hc] at h2; right; simp at h2; subst h2; exact h3.symm
        · intro p
          rw [a4, a5, mem_insSet, any_insName]
          rintro (h | h)
          · exact Or.inl (ht.names p h)
          · exact Or.inr h
    obtain ⟨r, h1, h2, h3, h4, h5⟩ := ih _ _ (fun j hj => hl j (by simp [hj])) hpart
    refine ⟨r, ?_, h2.trans a2, h3.trans a3, h4.trans a6, ?_⟩
    · rw [addCells, hc]; exact h1
    · have : (fun j => S j ∨ j ∈ i :: l) = (fun j => (S j ∨ j = i) ∨ j ∈ l) := by
        funext j; simp [or_assoc]
      rw [this]; exact h5

/-- `setPIDName` -/
theorem setName_spec (t : Obj P) (p : Int) (s : String) :
    ((setPIDName t p s).1.verts = t.verts ∧ (setPIDName t p s).1.cells = t.cells ∧ (setPIDName t p s).1.type = t.type ∧
     (setPIDName t p s).1.pids = t.pids ∧ (setPIDName t p s).1.tol = t.tol ∧ (setPIDName t p s).1.skd = t.skd) ∧
    (∀ q, (setPIDName t p s).1.names.any (fun e => e.1 == q) = t.names.any (fun e => e.1 == q)) ∧
    (∀ q, nameOf (setPIDName t p s).1.names q =
      if q = p ∧ t.names.any (fun e => e.1 == p) = true then some s else nameOf t.names q) := by
  unfold setPIDName
  by_cases h : t.names.any (fun e => e.1 == p) = true
  · rw [if_pos h]
    refine ⟨⟨rfl, rfl, rfl, rfl, rfl, rfl⟩, ?_, ?_⟩
    · intro q
      simp only [any_map]
      congr 1
      funext e
      by_cases he : e.1 = p <;> simp [he]
    · intro q
      simp only [h, and_true]
      generalize hl : t.names = l at h
      clear hl
      induction l with
      | nil => simp at h
      | cons e l ih =>
        unfold nameOf at ih ⊢
        by_cases he : e.1 = p
        · by_cases hq : q = p
          · subst hq; simp [he]
          · have : ∀ l : List (Int × String), (l.map (fun e => if e.1 = p then (p, s) else e)).find? (fun e => e.1 == q) = l.find? (fun e => e.1 == q) := by
              intro l
              induction l with
              | nil => rfl
              | cons e l ih =>
                by_cases he : e.1 = p
                · simp [he, Ne.symm hq, ih]
                · by_cases heq : e.1 = q
                  · simp [he, heq, hq]
                  · simp [he, heq, ih]
            rw [this, if_neg hq]
        · have h' : l.any (fun e => e.1 == p) = true := by simpa [he] using h
          by_cases heq : e.1 = q
          · have hqp : q ≠ p := fun h => he (heq.trans h)
            simp [hqp, heq]
          · have := ih h'
            simp only [map_cons, if_neg he]
            rw [find?_cons_of_neg (by simpa using heq), find?_cons_of_neg (by simpa using heq)]
            exact this
  · rw [if_neg h]
    refine ⟨⟨rfl, rfl, rfl, rfl, rfl, rfl⟩, fun _ => rfl, fun q => ?_⟩
    rw [if_neg (by simp [h])]

theorem copyNames_spec (o t : Obj P) (hn : ∀ p ∈ t.pids, t.names.any (fun e => e.1 == p) = true) :
    (copyNames o t).verts = t.verts ∧ (copyNames o t).cells = t.cells ∧ (copyNames o t).type = t.type ∧
    (copyNames o t).pids = t.pids ∧ (copyNames o t).tol = t.tol ∧ (copyNames o t).skd = t.skd ∧
    ∀ p ∈ t.pids, nameOf (copyNames o t).names p = some ((nameOf o.names p).getD "") := by
  have key : ∀ (l : List Int) (t : Obj P), (∀ p ∈ l, t.names.any (fun e => e.1 == p) = true) →
      let r := l.foldl (fun t p => (setPIDName t p ((nameOf o.names p).getD "")).1) t
      r.verts = t.verts ∧ r.cells = t.cells ∧ r.type = t.type ∧ r.pids = t.pids ∧ r.tol = t.tol ∧ r.skd = t.skd ∧
      (∀ p, nameOf r.names p = if p ∈ l then some ((nameOf o.names p).getD "") else nameOf t.names p) := by
    intro l
    induction l with
    | nil => intro t _; simp
    | cons p l ih =>
      intro t hl
      obtain ⟨⟨a1, a2, a3, a4, a5, a6⟩, a7, a8⟩ := setName_spec t p ((nameOf o.names p).getD "")
      obtain ⟨b1, b2, b3, b4, b5, b6, b7⟩ := ih (setPIDName t p ((nameOf o.names p).getD "")).1
        (fun q hq => by rw [a7]; exact hl q (by simp [hq]))
      refine ⟨b1.trans a1, b2.trans a2, b3.trans a3, b4.trans a4, b5.trans a5, b6.trans a6, ?_⟩
      intro q
      rw [foldl_cons, b7, a8]
      by_cases hq : q ∈ l
      · simp [hq]
      · by_cases hqp : q = p
        · subst hqp; simp [hl q (by simp)]
        · simp [hq, hqp]
  obtain ⟨b1, b2, b3, b4, b5, b6, b7⟩ := key t.pids t hn
  refine ⟨b1, b2, b3, b4, b5, b6, fun p hp => ?_⟩
  have := b7 p
  rw [if_pos hp] at this
  exact this

theorem ctor_spec {k : Nat} (h1 : 1 ≤ k) (h4 : k ≤ 4) : ∃ t : Obj P, ctor (k : Int) = some t ∧ t.type = k ∧ t.verts = [] ∧
    t.cells = [] ∧ t.pids = [] ∧ t.names = [] ∧ NoTree t := by
  have hk : ((max (k : Int) 1).toNat) = k := by omega
  unfold ctor
  simp only [hk]
  rw [if_neg (by omega)]
  refine ⟨_, rfl, rfl, rfl, rfl, rfl, rfl, ?_⟩
  unfold NoTree
  by_cases h3 : k = 3 <;> simp [h3]

theorem keep_updateAdj (t : Obj P) : (updateAdj t).skd = t.skd ∧ (updateAdj t).tol = t.tol := by
  unfold updateAdj; split <;> exact ⟨rfl, rfl⟩

theorem keep_updateInt (t : Obj P) : (updateInt t).skd = t.skd ∧ (updateInt t).tol = t.tol := by
  obtain ⟨u, hu, h⟩ : ∃ u, u = (if t.adj.st ≠ .sync then updateAdj t else t) ∧ u.skd = t.skd ∧ u.tol = t.tol := by
    refine ⟨_, rfl, ?_⟩
    split
    · exact keep_updateAdj t
    · exact ⟨rfl, rfl⟩
  unfold updateInt
  rw [← hu]
  simp only
  rw [← h.1, ← h.2]
  split <;> exact ⟨rfl, rfl⟩

theorem keep_stepInt (t : Obj P) : (stepInt t).skd = t.skd ∧ (stepInt t).tol = t.tol := by
  unfold stepInt
  split
  · exact keep_updateInt t
  · exact ⟨rfl, rfl⟩

theorem update_noTree {t : Obj P} (h : NoTree t) : ∃ r, update t = some r ∧ SameMesh t r ∧ r.tol = t.tol := by
  have h1 : (stepInt (stepAdj t)).skd = t.skd ∧ (stepInt (stepAdj t)).tol = t.tol := by
    rw [(keep_stepInt _).1, (keep_stepInt _).2]
    unfold stepAdj
    split
    · exact keep_updateAdj t
    · exact ⟨rfl, rfl⟩
  have h2 : stepSkd (stepInt (stepAdj t)) = some (stepInt (stepAdj t)) := by
    unfold stepSkd
    rw [h1.1]
    rcases h with h | h <;> simp [h]
  have h3 : update t = some (stepPC (stepBBox (stepInfo (stepKd (stepInt (stepAdj t)))))) := by
    unfold update; rw [h2]; rfl
  refine ⟨_, h3, update_mesh h3, ?_⟩
  rw [← h1.2]
  generalize stepInt (stepAdj t) = u
  have k1 : ∀ u : Obj P, (stepKd u).tol = u.tol := by
    intro u; unfold stepKd buildKd cleanKd; (repeat' split) <;> rfl
  have k2 : ∀ u : Obj P, (stepInfo u).tol = u.tol := by
    intro u; unfold stepInfo buildInfo; split <;> rfl
  have k3 : ∀ u : Obj P, (stepBBox u).tol = u.tol := by
    intro u; unfold stepBBox; split <;> rfl
  have k4 : ∀ u : Obj P, (stepPC u).tol = u.tol := by
    intro u
    unfold stepPC buildPC
    split
    · simp only
      split
      · rfl
      · split <;> rfl
    · rfl
  rw [k4, k3, k2, k1]

theorem cleanGeometry_spec (t : Obj P) (vs : Data P) (cs : Data Cell) (h : NoTree t) :
    (cleanGeometry t vs cs).verts = vs ∧ (cleanGeometry t vs cs).cells = cs ∧ (cleanGeometry t vs cs).type = t.type ∧
    (cleanGeometry t vs cs).pids = t.pids ∧ (cleanGeometry t vs cs).names = t.names ∧ (cleanGeometry t vs cs).tol = t.tol ∧
    NoTree (cleanGeometry t vs cs) := by
  unfold cleanGeometry
  simp only
  split
  · exact ⟨rfl, rfl, rfl, rfl, rfl, rfl, h⟩
  · refine ⟨rfl, rfl, rfl, rfl, rfl, rfl, ?_⟩
    unfold NoTree at h ⊢
    rcases h with h | h <;> simp [setUnsyncAll, cleanPC, h, Status.cap]

theorem renumFaces_nil : ∀ (n : Nat) (l : List Nat), renumFaces [] n l = l := by
  intro n
  induction n with
  | zero => intro l; rfl
  | succ n ih =>
    intro l
    cases l with
    | nil => rfl
    | cons k l =>
      have h : ∀ l : List Nat, l.map (renumId []) = l := by
        intro l; induction l with
        | nil => rfl
        | cons a l ih => rw [map_cons, ih]; rfl
      rw [renumFaces, ih, h, take_append_drop]

theorem renumber_nil (c : Cell) : renumber [] c = c := by
  have h : ∀ l : List Nat, l.map (renumId []) = l := by
    intro l; induction l with
    | nil => rfl
    | cons a l ih => rw [map_cons, ih]; rfl
  obtain ⟨e, conn, pid, int⟩ := c
  unfold renumber
  cases e <;> simp only [h] <;> cases conn <;> simp [h, renumFaces_nil]

/-- `r` is the part of `o` made of the cells in `S`, in which the vertices listed in `m` have been replaced by others
at nearly the same place -/
structure SubMeshUpTo (close : P → P → Prop) (o r : Obj P) (S : Nat → Prop) (m : List (Nat × Nat)) : Prop where
  type : r.type = o.type
  cells : ∀ id c, get r.cells id = some c ↔ S id ∧ ∃ d, get o.cells id = some d ∧ c = renumber m d
  verts : ∀ v p, get r.verts v = some p ↔
    (∃ id c, S id ∧ get o.cells id = some c ∧ v ∈ vertexIds c) ∧ get o.verts v = some p ∧ ∀ e ∈ m, e.1 ≠ v
  pids : ∀ p, p ∈ r.pids ↔ ∃ id c, S id ∧ get o.cells id = some c ∧ c.pid = p
  names : ∀ p ∈ r.pids, nameOf r.names p = some ((nameOf o.names p).getD "")
  tol : r.tol = o.tol
  once : Ok r.verts ∧ Ok r.cells
  merged : ∀ e ∈ m, e.1 ≠ e.2 ∧ (∀ e' ∈ m, e'.1 ≠ e.2) ∧ ∃ p q, get o.verts e.1 = some p ∧ get o.verts e.2 = some q ∧ close p q ∧
    (∃ id c, S id ∧ get o.cells id = some c ∧ e.1 ∈ vertexIds c) ∧ (∃ id c, S id ∧ get o.cells id = some c ∧ e.2 ∈ vertexIds c)

theorem ok_map_snd {α β : Type} {d : Data α} (h : Ok d) (f : Nat × α → β) : Ok (d.map (fun e => (e.1, f e))) := by
  unfold Ok at h ⊢
  rw [map_map]
  exact h

theorem get_map_snd {α β : Type} (d : Data α) (f : α → β) (id : Nat) :
    get (d.map (fun e => (e.1, f e.2))) id = (get d id).map f := by
  induction d with
  | nil => rfl
  | cons e d ih =>
    rw [map_cons, get_cons, get_cons, ih]
    by_cases h : e.1 = id <;> simp [h]

/-- the patch before cleaning is the selected part of the mesh -/
theorem buildSub_spec {o : Obj P} (ho : Good o) (ht : o.type = 1 ∨ o.type = 2 ∨ o.type = 4) (ex : List Nat)
    (hex : ∀ i ∈ ex, has o.cells i = true) :
    ∃ t, buildSub o o.type ex = some t ∧ SubMesh o t (· ∈ ex) ∧ NoTree t := by
  obtain ⟨t0, c1, c2, c3, c4, c5, c6, c7⟩ := ctor_spec (P := P) (k := o.type) (by omega) (by omega)
  have h3 : o.type ≠ 3 := by omega
  obtain ⟨hv, hvn⟩ := C37_vertices o h3 ex
  have hvx : ∀ i ∈ vertexFromCells o ex, has o.verts i = true := by
    intro i hi
    obtain ⟨id, -, c, hc, hm⟩ := (hv i).1 hi
    exact ho.complete id c hc i hm
  obtain ⟨t1, d1, d2, d3, d4, d5, d6, d7, d8, d9⟩ := addVerts_spec o (vertexFromCells o ex) { t0 with tol := o.tol } hvx
    (by simp [c3, Ok]) (by intro v p; simp [c3, Field.get])
  have hp : Part o t1 (fun _ => False) := by
    refine ⟨?_, by rw [d2]; simp [c4, Ok], ?_, ?_, ?_⟩
    · intro id c; rw [d2]; simp [c4, Field.get]
    · intro p; rw [d4]; simp [c5]
    · intro p; rw [d4]; simp [c5]
    · unfold NoTree at c7 ⊢; rw [d7]; exact c7
  obtain ⟨t2, e1, e2, e3, e4, e5⟩ := addCells_spec o ho ex t1 _ hex hp
  have hS : (fun i => False ∨ i ∈ ex) = (· ∈ ex) := by funext i; simp
  rw [hS] at e5
  obtain ⟨f1, f2, f3, f4, f5, f6, f7⟩ := copyNames_spec o t2 e5.names
  refine ⟨copyNames o t2, ?_, ?_, ?_⟩
  · unfold buildSub
    rw [c1]
    simp only [Option.bind_some]
    rw [if_pos h3, d1]
    simp only [Option.bind_some]
    rw [e1]; rfl
  · refine ⟨by rw [f3, e3, d3]; exact c2, ?_, ?_, ?_, ?_, by rw [f5, e4, d6], ?_⟩
    · rw [f2]; exact e5.cells
    · intro v p
      rw [f1, e2, d9, hv]
      constructor
      · rintro ⟨h, ⟨id, h1, c, h2, h3⟩ | h⟩
        · exact ⟨⟨id, c, h1, h2, h3⟩, h⟩
        · simp [c3, has] at h
      · rintro ⟨⟨id, c, h1, h2, h3⟩, h⟩
        exact ⟨h, Or.inl ⟨id, h1, c, h2, h3⟩⟩
    · rw [f4]; exact e5.pids
    · rw [f4]; exact f7
    · rw [f1, f2, e2]; exact ⟨d8, e5.once⟩
  · have := e5.notree
    unfold NoTree at this ⊢; rw [f6]; exact this

/-- C101: whatever is selected, the patch holds exactly the selected cells with their ids, element types, connectivity,
PIDs and PID names, and exactly their vertices with their ids and coordinates; vertices of the selection lying at nearly
the same place are merged, everywhere. -/
theorem C101_merged {close : P → P → Prop} {clean : Obj P → Data P × Data Cell}
    (hclean : ∀ t, ∃ m, Cleaned close t.verts t.cells (clean t).1 (clean t).2 m)
    {o : Obj P} (ho : Good o) (ht : o.type = 1 ∨ o.type = 2 ∨ o.type = 4) (ex : List Nat) (hex : ∀ i ∈ ex, has o.cells i = true) :
    ∃ r m, execute clean o o.type ex = some r ∧ SubMeshUpTo close o r (· ∈ ex) m := by
  obtain ⟨t, b1, b2, b3⟩ := buildSub_spec ho ht ex hex
  obtain ⟨m, g1, g2, g3⟩ := hclean t
  obtain ⟨h1, h2, h3, h4, h5, h6, h7⟩ := cleanGeometry_spec t (clean t).1 (clean t).2 b3
  obtain ⟨r, u1, u2, u3⟩ := update_noTree h7
  refine ⟨r, m, ?_, ?_⟩
  · unfold execute; rw [b1]; exact u1
  · refine ⟨by rw [u2.type, h3]; exact b2.type, ?_, ?_, ?_, ?_, by rw [u3, h6]; exact b2.tol, ?_, ?_⟩
    · intro id c
      rw [u2.cells, h2, g2, get_map_snd]
      constructor
      · intro h
        obtain ⟨d, hd, rfl⟩ := Option.map_eq_some_iff.1 h
        obtain ⟨i1, i2⟩ := (b2.cells id d).1 hd
        exact ⟨i1, d, i2, rfl⟩
      · rintro ⟨i1, d, i2, rfl⟩
        rw [(b2.cells id d).2 ⟨i1, i2⟩]; rfl
    · intro v p
      rw [u2.verts, h1, g1]
      have := get_filter (fun i => ! m.any (fun e => e.1 == i)) t.verts v
      rw [this]
      by_cases hm : m.any (fun e => e.1 == v) = true
      · simp only [hm, Bool.not_true, Bool.false_eq_true, if_false]
        constructor
        · intro h; cases h
        · rintro ⟨-, -, h⟩
          rw [any_eq_true] at hm
          obtain ⟨e, he, he'⟩ := hm
          exact absurd (by simpa using he') (h e he)
      · simp only [hm, Bool.not_false, if_true]
        rw [b2.verts]
        constructor
        · rintro ⟨i1, i2⟩
          refine ⟨i1, i2, fun e he heq => hm ?_⟩
          rw [any_eq_true]; exact ⟨e, he, by simpa using heq⟩
        · rintro ⟨i1, i2, -⟩; exact ⟨i1, i2⟩
    · rw [u2.pids, h4]; exact b2.pids
    · rw [u2.pids, u2.names, h4, h5]; exact b2.names
    · rw [u2.verts, u2.cells, h1, h2, g1, g2]
      constructor
      · exact (b2.once.1.sublist (filter_sublist.map _))
      · exact ok_map_snd b2.once.2 (fun e => renumber m e.2)
    · intro e he
      obtain ⟨i1, i2, p, q, i3, i4, i5⟩ := g3 e he
      obtain ⟨j1, j2⟩ := (b2.verts _ _).1 i3
      obtain ⟨k1, k2⟩ := (b2.verts _ _).1 i4
      refine ⟨i1, ?_, p, q, j2, k2, i5, j1, k1⟩
      intro e' he' heq
      rw [any_eq_false] at i2
      exact i2 e' he' (by simpa using heq)

/-- C101: when no two vertices of the selected cells lie at nearly the same place, the patch is exactly the selected part
of the mesh. -/
theorem C101_exact {close : P → P → Prop} {clean : Obj P → Data P × Data Cell}
    (hclean : ∀ t, ∃ m, Cleaned close t.verts t.cells (clean t).1 (clean t).2 m)
    {o : Obj P} (ho : Good o) (ht : o.type = 1 ∨ o.type = 2 ∨ o.type = 4) (ex : List Nat) (hex : ∀ i ∈ ex, has o.cells i = true)
    (hfar : ∀ v w p q, v ≠ w → v ∈ vertexFromCells o ex → w ∈ vertexFromCells o ex → get o.verts v = some p →
      get o.verts w = some q → ¬ close p q) :
    ∃ r, execute clean o o.type ex = some r ∧ SubMesh o r (· ∈ ex) := by
  obtain ⟨r, m, h1, h2⟩ := C101_merged hclean ho ht ex hex
  have hv := (C37_vertices o (by omega) ex).1
  have hm : m = [] := by
    cases m with
    | nil => rfl
    | cons e m =>
      obtain ⟨i1, -, p, q, i2, i3, i4, ⟨a, c, a1, a2, a3⟩, ⟨b, d, b1, b2, b3⟩⟩ := h2.merged e (by simp)
      exact absurd i4 (hfar e.1 e.2 p q i1 ((hv _).2 ⟨a, a1, c, a2, a3⟩) ((hv _).2 ⟨b, b1, d, b2, b3⟩) i2 i3)
  subst hm
  refine ⟨r, h1, h2.type, ?_, ?_, h2.pids, h2.names, h2.tol, h2.once⟩
  · intro id c
    rw [h2.cells]
    simp [renumber_nil]
  · intro v p
    rw [h2.verts]
    simp

theorem execute_cloud {close : P → P → Prop} {clean : Obj P → Data P × Data Cell}
    (hclean : ∀ t, ∃ m, Cleaned close t.verts t.cells (clean t).1 (clean t).2 m)
    {o : Obj P} (ht : o.type = 3) (ex : List Nat) (hex : ∀ i ∈ ex, has o.verts i = true) :
    ∃ (r : Obj P) (m : List (Nat × Nat)), execute clean o o.type ex = some r ∧ r.type = 3 ∧ r.cells = [] ∧ r.pids = [] ∧ r.tol = o.tol ∧
      (∀ v p, get r.verts v = some p ↔ v ∈ ex ∧ get o.verts v = some p ∧ ∀ e ∈ m, e.1 ≠ v) ∧
      (∀ e ∈ m, e.1 ∈ ex ∧ e.2 ∈ ex ∧ e.1 ≠ e.2 ∧ (∀ e' ∈ m, e'.1 ≠ e.2) ∧
        ∃ p q, get o.verts e.1 = some p ∧ get o.verts e.2 = some q ∧ close p q) ∧ Ok r.verts := by
  obtain ⟨t0, c1, c2, c3, c4, c5, c6, c7⟩ := ctor_spec (P := P) (k := o.type) (by omega) (by omega)
  obtain ⟨t1, d1, d2, d3, d4, d5, d6, d7, d8, d9⟩ := addVerts_spec o ex { t0 with tol := o.tol } hex
    (by simp [c3, Ok]) (by intro v p; simp [c3, Field.get])
  have hp1 : t1.pids = [] := d4.trans c5
  obtain ⟨f1, f2, f3, f4, f5, f6, f7⟩ := copyNames_spec o t1 (by rw [hp1]; simp)
  have hn : NoTree (copyNames o t1) := by
    unfold NoTree at c7 ⊢; rw [f6, d7]; exact c7
  generalize hT : copyNames o t1 = T at *
  have hb : buildSub o o.type ex = some T := by
    unfold buildSub
    rw [c1]
    simp only [Option.bind_some]
    rw [if_neg (by simp [ht]), d1, ← hT]; rfl
  obtain ⟨m, g1, g2, g3⟩ := hclean T
  obtain ⟨h1, h2, h3, h4, h5, h6, h7⟩ := cleanGeometry_spec T (clean T).1 (clean T).2 hn
  obtain ⟨r, u1, u2, u3⟩ := update_noTree h7
  have hTv : ∀ v p, get T.verts v = some p ↔ v ∈ ex ∧ get o.verts v = some p := by
    intro v p
    rw [f1, d9]
    simp only [c3, has, any_nil, Bool.false_eq_true, or_false]
    exact And.comm
  refine ⟨r, m, ?_, ?_, ?_, ?_, ?_, ?_, ?_, ?_⟩
  · unfold execute; rw [hb]; exact u1
  · rw [u2.type, h3, f3, d3]; exact c2.trans ht
  · rw [u2.cells, h2, g2, f2, d2]
    simp only [c4, map_nil]
  · rw [u2.pids, h4, f4, hp1]
  · rw [u3, h6, f5, d6]
  · intro v p
    rw [u2.verts, h1, g1]
    have := get_filter (fun i => ! m.any (fun e => e.1 == i)) T.verts v
    rw [this]
    by_cases hm : m.any (fun e => e.1 == v) = true
    · simp only [hm, Bool.not_true, Bool.false_eq_true, if_false]
      constructor
      · intro h; cases h
      · rintro ⟨-, -, h⟩
        rw [any_eq_true] at hm
        obtain ⟨e, he, he'⟩ := hm
        exact absurd (by simpa using he') (h e he)
    · simp only [hm, Bool.not_false, if_true]
      rw [hTv]
      constructor
      · rintro ⟨i1, i2⟩
        refine ⟨i1, i2, fun e he heq => hm ?_⟩
        rw [any_eq_true]; exact ⟨e, he, by simpa using heq⟩
      · rintro ⟨i1, i2, -⟩; exact ⟨i1, i2⟩
  · intro e he
    obtain ⟨i1, i2, p, q, i3, i4, i5⟩ := g3 e he
    obtain ⟨j1, j2⟩ := (hTv _ _).1 i3
    obtain ⟨k1, k2⟩ := (hTv _ _).1 i4
    refine ⟨j1, k1, i1, ?_, p, q, j2, k2, i5⟩
    intro e' he' heq
    rw [any_eq_false] at i2
    exact i2 e' he' (by simpa using heq)
  · rw [u2.verts, h1, g1]
    exact Nodup.sublist (filter_sublist.map _) (by rw [f1]; exact d8)

/-- C101: for a point cloud the patch holds exactly the selected points, with their ids and coordinates (those lying at
nearly the same place being merged), and no cell. -/
theorem C101_cloud {close : P → P → Prop} {clean : Obj P → Data P × Data Cell}
    (hclean : ∀ t, ∃ m, Cleaned close t.verts t.cells (clean t).1 (clean t).2 m)
    {o : Obj P} (ht : o.type = 3) (ex : List Nat) (hex : ∀ i ∈ ex, has o.verts i = true) :
    ∃ (r : Obj P) (m : List (Nat × Nat)), execute clean o o.type ex = some r ∧ r.type = 3 ∧ r.cells = [] ∧ r.pids = [] ∧ r.tol = o.tol ∧
      (∀ v p, get r.verts v = some p ↔ v ∈ ex ∧ get o.verts v = some p ∧ ∀ e ∈ m, e.1 ≠ v) ∧
      ∀ e ∈ m, e.1 ∈ ex ∧ e.2 ∈ ex ∧ e.1 ≠ e.2 ∧ (∀ e' ∈ m, e'.1 ≠ e.2) ∧
        ∃ p q, get o.verts e.1 = some p ∧ get o.verts e.2 = some q ∧ close p q := by
  obtain ⟨r, m, h1, h2, h3, h4, h5, h6, h7, -⟩ := execute_cloud hclean ht ex hex
  exact ⟨r, m, h1, h2, h3, h4, h5, h6, h7⟩

/-- a surface of three cells; the vertices 2 and 8 are at the same place -/
def strip : Obj Int :=
  { type := 1, verts := [(0, 10), (1, 20), (2, 30), (7, 70), (8, 30)]
    cells := [(4, ⟨.triangle, [0, 1, 2], 1, true⟩), (9, ⟨.quad, [0, 1, 2, 7], 2, true⟩), (6, ⟨.polygon, [3, 1, 7, 8], 1, true⟩)]
    pids := [1, 2, 3], names := [(1, "a"), (2, "b"), (3, "")], tree := true
    kd := ⟨.none, none⟩, skd := ⟨.none, none⟩, adj := ⟨.none, none⟩, int := ⟨.none, none⟩
    info := ⟨.sync, some [4, 9, 6]⟩, bbox := ⟨.none, none⟩, pc := ⟨.none, none⟩, tol := 3 }

theorem strip_good : Good strip := by
  have h : ∀ (Q : Nat → Cell → Prop), (∀ c ∈ strip.cells, Q c.1 c.2) → ∀ id c, get strip.cells id = some c → Q id c :=
    fun Q hQ id c hc => hQ (id, c) (get_some_mem hc)
  refine ⟨by unfold Ok; decide, by unfold Ok; decide, h _ ?_, h _ ?_, h _ ?_⟩
  · decide
  · simp [strip, InRange]
  · decide

/-- an instance of the cleaning: it merges vertex 8 into vertex 2 when both are there -/
def cleanStrip (t : Obj Int) : Data Int × Data Cell :=
  let m := if get t.verts 8 = some 30 ∧ get t.verts 2 = some 30 then [(8, 2)] else []
  (t.verts.filter (fun v => ! m.any (fun e => e.1 == v.1)), t.cells.map (fun c => (c.1, renumber m c.2)))

example : Good strip ∧ (strip.type = 1 ∨ strip.type = 2 ∨ strip.type = 4) ∧ (∀ i ∈ [9, 6], has strip.cells i = true) ∧
    (∀ t : Obj Int, ∃ m, Cleaned (fun a b => a = b) t.verts t.cells (cleanStrip t).1 (cleanStrip t).2 m) ∧
    (execute cleanStrip strip 1 [9, 6]).map (fun r => (r.verts.map Prod.fst, r.cells.map (fun c => (c.1, c.2.conn)), r.names)) =
      some ([0, 1, 2, 7], [(9, [0, 1, 2, 7]), (6, [3, 1, 7, 2])], [(2, "b"), (1, "a")]) ∧
    (∀ v w p q, v ≠ w → v ∈ vertexFromCells strip [4] → w ∈ vertexFromCells strip [4] → get strip.verts v = some p →
      get strip.verts w = some q → ¬ p = q) := by
  refine ⟨strip_good, by decide, by decide, ?_, by decide, ?_⟩
  · intro t
    refine ⟨if get t.verts 8 = some 30 ∧ get t.verts 2 = some 30 then [(8, 2)] else [], rfl, rfl, ?_⟩
    split
    · next h =>
      intro e he
      simp only [mem_singleton] at he
      subst he
      exact ⟨by decide, by decide, 30, 30, h.1, h.2, rfl⟩
    · intro e he; cases he
  · have hm : vertexFromCells strip [4] = [0, 1, 2] := by decide
    intro v w p q hvw hv hw
    rw [hm] at hv hw
    simp only [mem_cons, not_mem_nil, or_false] at hv hw
    rcases hv with rfl | rfl | rfl <;> rcases hw with rfl | rfl | rfl <;>
      simp_all [strip, Field.get] <;> omega

/-- a point cloud of three points, two of which are selected -/
example : ({ strip with type := 3, cells := [], pids := [] } : Obj Int).type = 3 ∧
    (∀ i ∈ [7, 0], has ({ strip with type := 3, cells := [], pids := [] } : Obj Int).verts i = true) := by decide

end Verif.Select
