import Verif.Mesh.SyncProps
/-
C39: triangulation of a surface mesh.
-/
namespace Verif.Mesh
open Verif.Field
open List hiding get

variable {P : Type}

/-! Specification: the triangles that replace a cell -/

/-- the triangles that replace a cell: a fan from the first vertex for quadrilaterals, a fan from the new vertex `v`
along the ring of a polygon (stored after its size); a triangle is kept -/
def pieces (v : Nat) (c : Cell) : List (List Nat) :=
  match c.elem, c.conn with
  | .quad, [a, b, d, e] => [[a, b, d], [a, d, e]]
  | .pixel, [a, b, d, e] => [[a, b, d], [a, d, e]]
  | .polygon, _ :: r :: ring => zipWith (fun a b => [v, a, b]) (r :: ring) (ring ++ [r])
  | _, _ => []

/-- cells of a surface with a coherent connectivity -/
def SurfCell (c : Cell) : Prop :=
  c.elem ∈ [Elem.triangle, .quad, .pixel, .polygon] ∧ checkConn c.elem (c.conn.map Int.ofNat) = true

theorem polygon_conn {c : Cell} (h : SurfCell c) (he : c.elem = .polygon) : ∃ n r s ring, c.conn = n :: r :: s :: ring ∧
    n = ring.length + 2 := by
  obtain ⟨_, h2⟩ := h
  rw [he] at h2
  simp only [checkConn, length_map] at h2
  split at h2
  · cases h2
  · next hl =>
    match hc : c.conn with
    | [] => simp [hc] at hl
    | [_] => simp [hc] at hl
    | [_, _] => simp [hc] at hl
    | n :: r :: s :: ring =>
      refine ⟨n, r, s, ring, rfl, ?_⟩
      rw [hc] at h2
      simp [entry] at h2
      omega

theorem four_conn {c : Cell} (h : SurfCell c) (he : c.elem = .quad ∨ c.elem = .pixel) : ∃ a b d e, c.conn = [a, b, d, e] := by
  obtain ⟨_, h2⟩ := h
  have hl : c.conn.length = 4 := by
    rcases he with he | he <;> rw [he] at h2 <;> simpa [checkConn] using h2
  match hc : c.conn with
  | [a, b, d, e] => exact ⟨a, b, d, e, rfl⟩
  | [] | [_] | [_, _] | [_, _, _] | _ :: _ :: _ :: _ :: _ :: _ => simp [hc] at hl

theorem polyTris_eq {c : Cell} (h : SurfCell c) (he : c.elem = .polygon) (v : Nat) : polyTris v c.conn = pieces v c := by
  obtain ⟨n, r, s, ring, hc, hn⟩ := polygon_conn h he
  unfold polyTris pieces
  rw [he, hc]
  simp only
  apply List.ext_getElem
  · simp
  · intro i h1 h2
    simp only [length_map, length_range, length_cons] at h1
    have hi : i < ring.length + 2 := by omega
    simp only [getElem_map, getElem_range, getElem_zipWith, length_cons]
    have hm : i % (ring.length + 1 + 1 + 1 - 1) = i := Nat.mod_eq_of_lt (by omega)
    rw [hm]
    congr 1
    have e1 : (n :: r :: s :: ring).getD (1 + i) 0 = (r :: s :: ring)[i]'(by simp; omega) := by
      rw [Nat.add_comm, List.getD_cons_succ, List.getD_eq_getElem?_getD, List.getElem?_eq_getElem (by simp; omega)]
      rfl
    rw [e1]
    congr 2
    by_cases hlast : i = ring.length + 1
    · subst hlast
      have : (ring.length + 1 + 1) % (ring.length + 1 + 1 + 1 - 1) = 0 := by
        have : ring.length + 1 + 1 + 1 - 1 = ring.length + 1 + 1 := by omega
        rw [this]; exact Nat.mod_self _
      rw [this]
      simp
    · have : (i + 1) % (ring.length + 1 + 1 + 1 - 1) = i + 1 := Nat.mod_eq_of_lt (by omega)
      rw [this, getElem_append_left (by simp; omega)]
      rw [Nat.add_comm, List.getD_cons_succ, List.getD_cons_succ, List.getD_eq_getElem?_getD,
        List.getElem?_eq_getElem (by simp; omega)]
      rfl

theorem quadTris_eq {c : Cell} (h : SurfCell c) (he : c.elem = .quad ∨ c.elem = .pixel) (v : Nat) :
    quadTris c.conn = pieces v c := by
  obtain ⟨a, b, d, e, hc⟩ := four_conn h he
  unfold quadTris pieces
  rcases he with he | he <;> rw [he, hc] <;> rfl

theorem pieces_three (v : Nat) (c : Cell) : ∀ t ∈ pieces v c, t.length = 3 := by
  intro t ht
  unfold pieces at ht
  split at ht
  · simp at ht; rcases ht with rfl | rfl <;> rfl
  · simp at ht; rcases ht with rfl | rfl <;> rfl
  · obtain ⟨i, hi, rfl⟩ := List.mem_iff_getElem.1 ht
    simp
  · cases ht

/-- the triangles only use vertices of the cell and the new vertex -/
theorem pieces_verts (v : Nat) (c : Cell) : ∀ t ∈ pieces v c, ∀ w ∈ t, w ∈ vertexIds c ∨ (c.elem = .polygon ∧ w = v) := by
  intro t ht w hw
  unfold pieces at ht
  split at ht
  · next he hc => rw [vertexIds, he, hc]; simp at ht ⊢; rcases ht with rfl | rfl <;> simp at hw <;> grind
  · next he hc => rw [vertexIds, he, hc]; simp at ht ⊢; rcases ht with rfl | rfl <;> simp at hw <;> grind
  · next n r ring he hc =>
    rw [vertexIds, he, hc]
    simp only [tail_cons]
    obtain ⟨i, hi, rfl⟩ := List.mem_iff_getElem.1 ht
    simp only [getElem_zipWith, mem_cons, not_mem_nil, or_false] at hw
    rcases hw with rfl | rfl | rfl
    · exact Or.inr ⟨trivial, rfl⟩
    · exact Or.inl (getElem_mem _)
    · refine Or.inl ?_
      have := getElem_mem (l := ring ++ [r]) (n := i) (by simp at hi ⊢; omega)
      simp only [mem_append, mem_singleton] at this
      rcases this with h | h
      · exact mem_cons_of_mem _ h
      · rw [h]; simp
  · cases ht

/-! The effect of one cell -/

/-- new cells with successive ids -/
def newCells (n : Nat) (pid : Int) (ts : List (List Nat)) : Data Cell :=
  (ts.zipIdx n).map (fun e => (e.2, ⟨.triangle, e.1, pid, true⟩))

theorem get_newCells (pid : Int) : ∀ (ts : List (List Nat)) (n j : Nat), get (newCells n pid ts) j =
    if n ≤ j then (ts[j - n]?).map (fun t => (⟨.triangle, t, pid, true⟩ : Cell)) else none := by
  intro ts
  induction ts with
  | nil => intro n j; simp [newCells, Verif.Field.get]
  | cons t ts ih =>
    intro n j
    have h1 : newCells n pid (t :: ts) = (n, ⟨.triangle, t, pid, true⟩) :: newCells (n + 1) pid ts := by
      simp [newCells]
    rw [h1, get_cons, ih]
    by_cases h : n = j
    · subst h; simp
    · by_cases h2 : n + 1 ≤ j
      · have : j - n = (j - (n + 1)) + 1 := by omega
        simp only [if_neg h, if_pos h2, if_pos (by omega : n ≤ j), this, getElem?_cons_succ]
      · simp only [if_neg h, if_neg h2, if_neg (by omega : ¬ n ≤ j)]

/-- ids below a bound -/
def Below {α : Type} (d : Data α) (n : Nat) : Prop := ∀ e ∈ d, e.1 < n

theorem below_has {α : Type} {d : Data α} {n : Nat} (h : Below d n) {j : Nat} (hj : n ≤ j) : has d j = false := by
  rw [← Bool.not_eq_true, has_iff, mem_map]
  rintro ⟨e, he, rfl⟩
  have := h e he
  omega

theorem below_get {α : Type} {d : Data α} {n : Nat} (h : Below d n) {j : Nat} (hj : n ≤ j) : get d j = none :=
  get_none_of_has (below_has h hj)

theorem below_newCells {d : Data Cell} {n : Nat} (h : Below d n) (pid : Int) (ts : List (List Nat)) :
    Below (d ++ newCells n pid ts) (n + ts.length) := by
  intro e he
  rw [mem_append] at he
  rcases he with he | he
  · have := h e he; omega
  · unfold newCells at he
    obtain ⟨x, hx, rfl⟩ := mem_map.1 he
    have := List.mem_zipIdx hx
    simp only
    omega

theorem addTris_spec : ∀ (ts : List (List Nat)) (o : Obj P) (pid : Int) (n : Nat), Below o.cells n →
    (∀ t ∈ ts, t.length = 3) →
    (addTris o pid n ts).1.cells = o.cells ++ newCells n (toInt32 pid) ts ∧ (addTris o pid n ts).2 = n + ts.length ∧
    (addTris o pid n ts).1.verts = o.verts ∧
    (pid ∈ o.pids → o.names.any (fun e => e.1 == pid) = true →
      (addTris o pid n ts).1.pids = o.pids ∧ (addTris o pid n ts).1.names = o.names) := by
  intro ts
  induction ts with
  | nil => intro o pid n _ _; simp [addTris, newCells]
  | cons t ts ih =>
    intro o pid n hb ht
    have hfree := below_has hb (Nat.le_refl n)
    have hadd : (addConnectedCell o 0 t .triangle pid (some n)).1 = putCell o .triangle t pid n := by
      have h3 := ht t (by simp)
      have hne : t ≠ [] := by intro h; rw [h] at h3; cases h3
      unfold addConnectedCell
      rw [if_neg hne, if_neg (by simp [hfree]), if_neg (by simp [checkConn, h3])]
      rfl
    have hcells := putCell_cells hfree .triangle t pid
    have h1 : newCells n (toInt32 pid) (t :: ts) =
        (n, ⟨.triangle, t, toInt32 pid, true⟩) :: newCells (n + 1) (toInt32 pid) ts := by
      simp [newCells]
    have hb' : Below (putCell o .triangle t pid n).cells (n + 1) := by
      rw [hcells]
      intro e he
      simp only [mem_append, mem_singleton] at he
      rcases he with he | rfl
      · have := hb e he; omega
      · simp
    obtain ⟨i1, i2, i3, i4⟩ := ih (putCell o .triangle t pid n) pid (n + 1) hb' (fun t h => ht t (by simp [h]))
    rw [addTris, hadd]
    refine ⟨?_, ?_, ?_, ?_⟩
    · rw [i1, hcells, h1]; simp
    · rw [i2]; simp; omega
    · rw [i3, putCell_verts]
    · intro hp hn
      have e1 : (putCell o .triangle t pid n).pids = o.pids ∧ (putCell o .triangle t pid n).names = o.names := by
        unfold putCell setPIDCell
        split
        · exact ⟨by simp [unsyncCell, insSet, hp], by simp [unsyncCell, insName, hn]⟩
        · exact ⟨rfl, rfl⟩
      obtain ⟨j1, j2⟩ := i4 (by rw [e1.1]; exact hp) (by rw [e1.2]; exact hn)
      exact ⟨j1.trans e1.1, j2.trans e1.2⟩

theorem get_delCell (o : Obj P) (id j : Nat) : get (delCell o id).cells j = if j = id then none else get o.cells j := by
  have := get_filter (fun i => decide (i ≠ id)) o.cells j
  unfold delCell
  simp only [decide_eq_true_eq] at this ⊢
  by_cases h : j = id
  · rw [if_pos h]; rw [if_neg (by simpa using h)] at this; exact this
  · rw [if_neg h]; rw [if_pos (by simpa using h)] at this; exact this

theorem below_delCell {o : Obj P} {n : Nat} (h : Below o.cells n) (id : Nat) : Below (delCell o id).cells n :=
  fun e he => h e (List.mem_filter.1 he).1

/-- state after the treatment of a cell that is not a triangle -/
structure Replaced (bary : Obj P → Nat → P) (s s' : Obj P × Nat × Nat) (id : Nat) (c : Cell) : Prop where
  cells : ∀ j, get s'.1.cells j = (if j = id then none else get s.1.cells j).or
    (get (newCells s.2.1 c.pid (pieces s.2.2 c)) j)
  below : Below s'.1.cells s'.2.1
  nc : s'.2.1 = s.2.1 + (pieces s.2.2 c).length
  poly : c.elem = .polygon → s'.1.verts = s.1.verts ++ [(s.2.2, bary s.1 id)] ∧ s'.2.2 = s.2.2 + 1
  other : c.elem ≠ .polygon → s'.1.verts = s.1.verts ∧ s'.2.2 = s.2.2
  pids : s'.1.pids = s.1.pids
  names : s'.1.names = s.1.names

theorem triStep_spec (bary : Obj P → Nat → P) (s : Obj P × Nat × Nat) (id : Nat) {c : Cell}
    (hc : get s.1.cells id = some c) (hsurf : SurfCell c) (hr : InRange c.pid) (hb : Below s.1.cells s.2.1)
    (hv : Below s.1.verts s.2.2) (hp : c.pid ∈ s.1.pids) (hn : s.1.names.any (fun e => e.1 == c.pid) = true) :
    (c.elem = .triangle → triStep bary s id = some s) ∧
    (c.elem ≠ .triangle → ∃ s', triStep bary s id = some s' ∧ Replaced bary s s' id c) := by
  constructor
  · intro he
    unfold triStep
    rw [hc]; simp only [he]
  · intro he
    have four : c.elem = .quad ∨ c.elem = .pixel → ∃ s', triStep bary s id = some s' ∧ Replaced bary s s' id c := by
      intro hq
      obtain ⟨h1, h2, h3, h4⟩ := addTris_spec (quadTris c.conn) (delCell s.1 id) c.pid s.2.1 (below_delCell hb id)
        (by rw [quadTris_eq hsurf hq s.2.2]; exact pieces_three _ _)
      obtain ⟨h5, h6⟩ := h4 hp hn
      refine ⟨_, by unfold triStep; rw [hc]; rcases hq with hq | hq <;> simp only [hq] <;> rfl, ?_⟩
      rw [quadTris_eq hsurf hq s.2.2, toInt32_id hr] at *
      refine ⟨?_, ?_, h2, fun h => ?_, fun _ => ⟨h3, rfl⟩, h5, h6⟩
      · intro j
        rw [h1, get_append, get_delCell]
      · rw [h1, h2]; exact below_newCells (below_delCell hb id) _ _
      · rcases hq with hq | hq <;> rw [hq] at h <;> cases h
    have hel := hsurf.1
    simp only [mem_cons, not_mem_nil, or_false] at hel
    rcases hel with h | h | h | h
    · exact absurd h he
    · exact four (Or.inl h)
    · exact four (Or.inr h)
    · have hadd : (addVertex s.1 0 (bary s.1 id) (some s.2.2)).1 =
          (addVertex.put s.1 (bary s.1 id) s.2.2).1 := by
        unfold addVertex; simp only; rw [if_neg (by simp [below_has hv (Nat.le_refl _)])]
      obtain ⟨h1, h2, h3, h4⟩ := addTris_spec (polyTris s.2.2 c.conn)
        (delCell (addVertex s.1 0 (bary s.1 id) (some s.2.2)).1 id) c.pid s.2.1
        (by rw [hadd]; exact below_delCell (o := (addVertex.put s.1 (bary s.1 id) s.2.2).1) hb id)
        (by rw [polyTris_eq hsurf h s.2.2]; exact pieces_three _ _)
      obtain ⟨h5, h6⟩ := h4 (by rw [hadd]; exact hp) (by rw [hadd]; exact hn)
      refine ⟨_, by unfold triStep; rw [hc]; simp only [h]; rfl, ?_⟩
      rw [polyTris_eq hsurf h s.2.2, toInt32_id hr, hadd] at *
      refine ⟨?_, ?_, h2, fun _ => ⟨h3, rfl⟩, fun h' => absurd h h', h5, h6⟩
      · intro j
        rw [h1, get_append, get_delCell]; rfl
      · rw [h1, h2]
        exact below_newCells (below_delCell (o := (addVertex.put s.1 (bary s.1 id) s.2.2).1) hb id) _ _

/-! The loop -/

/-- effect of the loop on the cells `ids`: `f id` is the first id given to the pieces of the cell `id`, `g id` the new
vertex of the polygon `id`, `b id` its position -/
structure Split (b : Nat → P) (ids : List Nat) (s s' : Obj P × Nat × Nat) (f g : Nat → Nat) : Prop where
  old : ∀ j, j < s.2.1 → (j ∉ ids → get s'.1.cells j = get s.1.cells j) ∧
    (∀ c, j ∈ ids → get s.1.cells j = some c → get s'.1.cells j = if c.elem = .triangle then some c else none)
  new : ∀ j, s.2.1 ≤ j → ∀ d, get s'.1.cells j = some d ↔ ∃ id ∈ ids, ∃ c, get s.1.cells id = some c ∧
    ∃ k t, (pieces (g id) c)[k]? = some t ∧ j = f id + k ∧ d = ⟨.triangle, t, c.pid, true⟩
  range : ∀ id ∈ ids, ∀ c, get s.1.cells id = some c → c.elem ≠ .triangle →
    s.2.1 ≤ f id ∧ f id + (pieces (g id) c).length ≤ s'.2.1
  disj : ∀ id ∈ ids, ∀ id' ∈ ids, id ≠ id' → ∀ c c', get s.1.cells id = some c → get s.1.cells id' = some c' →
    c.elem ≠ .triangle → c'.elem ≠ .triangle →
    f id + (pieces (g id) c).length ≤ f id' ∨ f id' + (pieces (g id') c').length ≤ f id
  oldv : ∀ w, w < s.2.2 → get s'.1.verts w = get s.1.verts w
  newv : ∀ w, s.2.2 ≤ w → ∀ p, get s'.1.verts w = some p ↔ ∃ id ∈ ids, ∃ c, get s.1.cells id = some c ∧
    c.elem = .polygon ∧ w = g id ∧ p = b id
  rangev : ∀ id ∈ ids, ∀ c, get s.1.cells id = some c → c.elem = .polygon → s.2.2 ≤ g id ∧ g id < s'.2.2
  disjv : ∀ id ∈ ids, ∀ id' ∈ ids, id ≠ id' → ∀ c c', get s.1.cells id = some c → get s.1.cells id' = some c' →
    c.elem = .polygon → c'.elem = .polygon → g id ≠ g id'
  nc : s.2.1 ≤ s'.2.1
  nv : s.2.2 ≤ s'.2.2
  pids : s'.1.pids = s.1.pids
  names : s'.1.names = s.1.names

theorem pieces_triangle {c : Cell} (h : c.elem = .triangle) (v : Nat) : pieces v c = [] := by
  unfold pieces; rw [h]

theorem triLoop_spec (bary : Obj P → Nat → P) (b : Nat → P) : ∀ (ids : List Nat) (s : Obj P × Nat × Nat), ids.Nodup →
    Below s.1.cells s.2.1 → Below s.1.verts s.2.2 →
    (∀ id ∈ ids, ∃ c, get s.1.cells id = some c ∧ SurfCell c ∧ InRange c.pid ∧ c.pid ∈ s.1.pids ∧
      s.1.names.any (fun e => e.1 == c.pid) = true ∧ ∀ v ∈ vertexIds c, has s.1.verts v = true) →
    (∀ o1 id c, id ∈ ids → get s.1.cells id = some c → get o1.cells id = some c →
      (∀ v ∈ vertexIds c, get o1.verts v = get s.1.verts v) → bary o1 id = b id) →
    ∃ s' f g, triLoop bary ids s = some s' ∧ Split b ids s s' f g := by
  intro ids
  induction ids with
  | nil =>
    intro s _ hb hv _ _
    refine ⟨s, id, id, rfl, ?_⟩
    constructor
    · intro j _; exact ⟨fun _ => rfl, fun c h => by cases h⟩
    · intro j hj d; rw [below_get hb hj]; simp
    · intro id h; cases h
    · intro id h; cases h
    · intro w _; rfl
    · intro w hw p; rw [below_get hv hw]; simp
    · intro id h; cases h
    · intro id h; cases h
    · exact Nat.le_refl _
    · exact Nat.le_refl _
    · rfl
    · rfl
  | cons id ids ih =>
    intro s hnd hb hv hall hloc
    obtain ⟨hid, hnd'⟩ := nodup_cons.1 hnd
    obtain ⟨c, hc, hsurf, hr, hp, hn, hcv⟩ := hall id (by simp)
    obtain ⟨hT, hR⟩ := triStep_spec bary s id hc hsurf hr hb hv hp hn
    by_cases he : c.elem = .triangle
    · obtain ⟨s', f, g, h1, h2⟩ := ih s hnd' hb hv (fun i hi => hall i (by simp [hi]))
        (fun o1 i c hi => hloc o1 i c (by simp [hi]))
      refine ⟨s', f, g, by rw [triLoop, hT he]; exact h1, ?_⟩
      have hne : ∀ d, get s.1.cells id = some d → d = c := by
        intro d hd; rw [hc] at hd; injection hd with hd; exact hd.symm
      constructor
      · intro j hj
        obtain ⟨g1, g2⟩ := h2.old j hj
        refine ⟨fun hj' => g1 (fun h => hj' (by simp [h])), ?_⟩
        intro d hd hd'
        by_cases hji : j ∈ ids
        · exact g2 d hji hd'
        · have : j = id := by
            rcases mem_cons.1 hd with h | h
            · exact h
            · exact absurd h hji
          subst this
          rw [g1 hji, hd', hne d hd', if_pos he]
      · intro j hj d
        rw [h2.new j hj d]
        constructor
        · rintro ⟨i, hi, r⟩; exact ⟨i, by simp [hi], r⟩
        · rintro ⟨i, hi, c', hc', k, t, hk, r⟩
          rcases mem_cons.1 hi with rfl | hi
          · rw [hne c' hc', pieces_triangle he] at hk; simp at hk
          · exact ⟨i, hi, c', hc', k, t, hk, r⟩
      · intro i hi c' hc' hc''
        rcases mem_cons.1 hi with rfl | hi
        · exact absurd (hne c' hc' ▸ he) hc''
        · exact h2.range i hi c' hc' hc''
      · intro i hi i' hi' hii c1 c2 g1 g2 g3 g4
        rcases mem_cons.1 hi with rfl | hi
        · exact absurd (hne c1 g1 ▸ he) g3
        · rcases mem_cons.1 hi' with rfl | hi'
          · exact absurd (hne c2 g2 ▸ he) g4
          · exact h2.disj i hi i' hi' hii c1 c2 g1 g2 g3 g4
      · exact h2.oldv
      · intro w hw p
        rw [h2.newv w hw p]
        constructor
        · rintro ⟨i, hi, r⟩; exact ⟨i, by simp [hi], r⟩
        · rintro ⟨i, hi, c', hc', hpoly, r⟩
          rcases mem_cons.1 hi with rfl | hi
          · rw [hne c' hc', he] at hpoly; cases hpoly
          · exact ⟨i, hi, c', hc', hpoly, r⟩
      · intro i hi c' hc' hpoly
        rcases mem_cons.1 hi with rfl | hi
        · rw [hne c' hc', he] at hpoly; cases hpoly
        · exact h2.rangev i hi c' hc' hpoly
      · intro i hi i' hi' hii c1 c2 g1 g2 g3 g4
        rcases mem_cons.1 hi with rfl | hi
        · rw [hne c1 g1, he] at g3; cases g3
        · rcases mem_cons.1 hi' with rfl | hi'
          · rw [hne c2 g2, he] at g4; cases g4
          · exact h2.disjv i hi i' hi' hii c1 c2 g1 g2 g3 g4
      · exact h2.nc
      · exact h2.nv
      · exact h2.pids
      · exact h2.names
    · obtain ⟨s1, hs1, R⟩ := hR he
      have hidlt : id < s.2.1 := by
        by_cases h : id < s.2.1
        · exact h
        · rw [below_get hb (by omega)] at hc; cases hc
      -- cells of `ids` in the new state
      have hsame : ∀ i, i ≠ id → i < s.2.1 → get s1.1.cells i = get s.1.cells i := by
        intro i hi hlt
        rw [R.cells, if_neg hi, get_newCells, if_neg (by omega)]
        simp
      have hltc : ∀ i c', get s.1.cells i = some c' → i < s.2.1 := by
        intro i c' h'
        by_cases h : i < s.2.1
        · exact h
        · rw [below_get hb (by omega)] at h'; cases h'
      have hsame' : ∀ i ∈ ids, get s1.1.cells i = get s.1.cells i := by
        intro i hi
        obtain ⟨c', hc', _⟩ := hall i (by simp [hi])
        exact hsame i (fun h => hid (h ▸ hi)) (hltc i c' hc')
      have hnv : s.2.2 ≤ s1.2.2 := by
        by_cases hpoly : c.elem = .polygon
        · rw [(R.poly hpoly).2]; omega
        · rw [(R.other hpoly).2]; omega
      have hvold : ∀ w, w < s.2.2 → get s1.1.verts w = get s.1.verts w := by
        intro w hw
        by_cases hpoly : c.elem = .polygon
        · rw [(R.poly hpoly).1, get_append, get_single, if_neg (by omega)]; simp
        · rw [(R.other hpoly).1]
      have hvlt : ∀ w, has s.1.verts w = true → w < s.2.2 := by
        intro w hw
        by_cases h : w < s.2.2
        · exact h
        · rw [below_has hv (by omega)] at hw; cases hw
      have hv1 : Below s1.1.verts s1.2.2 := by
        by_cases hpoly : c.elem = .polygon
        · rw [(R.poly hpoly).1, (R.poly hpoly).2]
          intro e he'
          rcases mem_append.1 he' with h | h
          · have := hv e h; omega
          · rw [mem_singleton] at h; subst h; simp
        · rw [(R.other hpoly).1, (R.other hpoly).2]; exact hv
      obtain ⟨s', f, g, h1, h2⟩ := ih s1 hnd' R.below hv1
        (by
          intro i hi
          obtain ⟨c', g1, g2, g3, g4, g5, g6⟩ := hall i (by simp [hi])
          refine ⟨c', by rw [hsame' i hi]; exact g1, g2, g3, by rw [R.pids]; exact g4, by rw [R.names]; exact g5, ?_⟩
          intro v hv'
          have := g6 v hv'
          rw [has_eq_isSome, hvold v (hvlt v this), ← has_eq_isSome]; exact this)
        (by
          intro o1 i c' hi hc' ho1 hvs
          have hc'' : get s.1.cells i = some c' := by rw [← hsame' i hi]; exact hc'
          refine hloc o1 i c' (by simp [hi]) hc'' ho1 ?_
          intro v hv'
          rw [hvs v hv']
          obtain ⟨c2, g1, _, _, _, _, g6⟩ := hall i (by simp [hi])
          rw [hc''] at g1; injection g1 with g1; subst g1
          exact hvold v (hvlt v (g6 v hv')))
      refine ⟨s', fun i => if i = id then s.2.1 else f i, fun i => if i = id then s.2.2 else g i,
        by rw [triLoop, hs1]; exact h1, ?_⟩
      have hne : ∀ d, get s.1.cells id = some d → d = c := by
        intro d hd; rw [hc] at hd; injection hd with hd; exact hd.symm
      have hni : ∀ i ∈ ids, i ≠ id := fun i hi h => hid (h ▸ hi)
      have hnc : s.2.1 ≤ s1.2.1 := by rw [R.nc]; omega
      constructor
      · intro j hj
        obtain ⟨g1, g2⟩ := h2.old j (by omega)
        constructor
        · intro hj'
          rw [mem_cons, not_or] at hj'
          rw [g1 hj'.2, hsame j hj'.1 hj]
        · intro d hd hd'
          rcases mem_cons.1 hd with rfl | hd
          · rw [g1 hid, R.cells, if_pos rfl, get_newCells, if_neg (by omega), hne d hd', if_neg he]; rfl
          · exact g2 d hd (by rw [hsame' j hd]; exact hd')
      · intro j hj d
        by_cases hlt : j < s1.2.1
        · have hj1 : j ∉ ids := by
            intro h
            obtain ⟨c', hc', _⟩ := hall j (by simp [h])
            have := hltc j c' hc'
            omega
          rw [(h2.old j hlt).1 hj1, R.cells, if_neg (by omega), below_get hb hj, Option.none_or, get_newCells, if_pos hj]
          constructor
          · intro h
            rw [Option.map_eq_some_iff] at h
            obtain ⟨t, ht, hd⟩ := h
            exact ⟨id, by simp, c, hc, j - s.2.1, t, by simpa using ht, by simp; omega, hd.symm⟩
          · rintro ⟨i, hi, c', hc', k, t, hk, hjk, hd⟩
            rcases mem_cons.1 hi with rfl | hi
            · simp only [if_true] at hk hjk
              rw [hne c' hc'] at hk hd
              rw [Option.map_eq_some_iff]
              refine ⟨t, ?_, hd.symm⟩
              rw [hjk, Nat.add_sub_cancel_left]; exact hk
            · exfalso
              rw [if_neg (hni i hi)] at hk hjk
              have hne' : c'.elem ≠ .triangle := by
                intro h
                rw [pieces_triangle h] at hk; simp at hk
              have := (h2.range i hi c' (by rw [hsame' i hi]; exact hc') hne').1
              omega
        · rw [h2.new j (by omega) d]
          constructor
          · rintro ⟨i, hi, c', hc', k, t, hk, hjk, hd⟩
            exact ⟨i, by simp [hi], c', by rw [← hsame' i hi]; exact hc', k, t, by rw [if_neg (hni i hi)]; exact hk,
              by rw [if_neg (hni i hi)]; exact hjk, hd⟩
          · rintro ⟨i, hi, c', hc', k, t, hk, hjk, hd⟩
            rcases mem_cons.1 hi with rfl | hi
            · exfalso
              simp only [if_true] at hk hjk
              rw [hne c' hc'] at hk
              have := (List.getElem?_eq_some_iff.1 hk).1
              have := R.nc
              omega
            · rw [if_neg (hni i hi)] at hk hjk
              exact ⟨i, hi, c', by rw [hsame' i hi]; exact hc', k, t, hk, hjk, hd⟩
      · intro i hi c' hc' hne'
        rcases mem_cons.1 hi with rfl | hi
        · simp only [if_true]
          rw [hne c' hc']
          refine ⟨Nat.le_refl _, ?_⟩
          have h3 := R.nc
          have h4 := h2.nc
          omega
        · simp only [if_neg (hni i hi)]
          have := h2.range i hi c' (by rw [hsame' i hi]; exact hc') hne'
          omega
      · intro i hi0 i' hi' hii c1 c2 g1 g2 g3 g4
        rcases mem_cons.1 hi0 with rfl | hi
        · rcases mem_cons.1 hi' with rfl | hi'
          · exact absurd rfl hii
          · left
            simp only [if_true, if_neg (hni i' hi')]
            rw [hne c1 g1]
            have := h2.range i' hi' c2 (by rw [hsame' i' hi']; exact g2) g4
            have := R.nc
            omega
        · rcases mem_cons.1 hi' with rfl | hi'
          · right
            simp only [if_true, if_neg (hni i hi)]
            rw [hne c2 g2]
            have := h2.range i hi c1 (by rw [hsame' i hi]; exact g1) g3
            have := R.nc
            omega
          · simp only [if_neg (hni i hi), if_neg (hni i' hi')]
            exact h2.disj i hi i' hi' hii c1 c2 (by rw [hsame' i hi]; exact g1) (by rw [hsame' i' hi']; exact g2) g3 g4
      · intro w hw
        rw [h2.oldv w (by omega), hvold w hw]
      · intro w hw p
        by_cases hlt : w < s1.2.2
        · rw [h2.oldv w hlt]
          by_cases hpoly : c.elem = .polygon
          · have hw' : w = s.2.2 := by have := (R.poly hpoly).2; omega
            have hbid : bary s.1 id = b id := hloc s.1 id c (by simp) hc hc (fun _ _ => rfl)
            rw [(R.poly hpoly).1, get_append, below_get hv hw, Option.none_or, get_single, if_pos hw'.symm]
            constructor
            · intro h
              injection h with h
              exact ⟨id, by simp, c, hc, hpoly, by simp [hw'], by rw [← h, hbid]⟩
            · rintro ⟨i, hi, c', hc', hp', hg, hpb⟩
              rcases mem_cons.1 hi with rfl | hi
              · rw [hpb, hbid]
              · exfalso
                rw [if_neg (hni i hi)] at hg
                have := (h2.rangev i hi c' (by rw [hsame' i hi]; exact hc') hp').1
                omega
          · have := (R.other hpoly).2
            omega
        · rw [h2.newv w (by omega) p]
          constructor
          · rintro ⟨i, hi, c', hc', hp', hg, hpb⟩
            exact ⟨i, by simp [hi], c', by rw [← hsame' i hi]; exact hc', hp', by rw [if_neg (hni i hi)]; exact hg, hpb⟩
          · rintro ⟨i, hi, c', hc', hp', hg, hpb⟩
            rcases mem_cons.1 hi with rfl | hi
            · exfalso
              simp only [if_true] at hg
              rw [hne c' hc'] at hp'
              have := (R.poly hp').2
              omega
            · rw [if_neg (hni i hi)] at hg
              exact ⟨i, hi, c', by rw [hsame' i hi]; exact hc', hp', hg, hpb⟩
      · intro i hi c' hc' hp'
        rcases mem_cons.1 hi with rfl | hi
        · simp only [if_true]
          rw [hne c' hc'] at hp'
          have := (R.poly hp').2
          have := h2.nv
          omega
        · simp only [if_neg (hni i hi)]
          have := h2.rangev i hi c' (by rw [hsame' i hi]; exact hc') hp'
          omega
      · intro i hi0 i' hi' hii c1 c2 g1 g2 g3 g4
        rcases mem_cons.1 hi0 with rfl | hi
        · rcases mem_cons.1 hi' with rfl | hi'
          · exact absurd rfl hii
          · simp only [if_true, if_neg (hni i' hi')]
            rw [hne c1 g1] at g3
            have := (h2.rangev i' hi' c2 (by rw [hsame' i' hi']; exact g2) g4).1
            have := (R.poly g3).2
            omega
        · rcases mem_cons.1 hi' with rfl | hi'
          · simp only [if_true, if_neg (hni i hi)]
            rw [hne c2 g2] at g4
            have := (h2.rangev i hi c1 (by rw [hsame' i hi]; exact g1) g3).1
            have := (R.poly g4).2
            omega
          · simp only [if_neg (hni i hi), if_neg (hni i' hi')]
            exact h2.disjv i hi i' hi' hii c1 c2 (by rw [hsame' i hi]; exact g1) (by rw [hsame' i' hi']; exact g2) g3 g4
      · have := h2.nc; omega
      · have := h2.nv; omega
      · rw [h2.pids, R.pids]
      · rw [h2.names, R.names]

/-! ### C39 -/

theorem ordered_perm (l : List Nat) : (ordered l).Perm l := mergeSort_perm _ _

theorem mem_ordered (l : List Nat) (x : Nat) : x ∈ ordered l ↔ x ∈ l := (ordered_perm l).mem_iff

theorem ordered_below {l : List Nat} {x : Nat} (h : x ∈ l) : x < (ordered l).getLastD 0 + 1 := by
  have hs : (ordered l).Pairwise (fun a b => a ≤ b) := by
    have := List.pairwise_mergeSort (le := fun a b : Nat => decide (a ≤ b)) (by simp; omega) (by simp; omega) l
    simpa [ordered] using this
  have hx : x ∈ ordered l := (mem_ordered l x).2 h
  have hne : ordered l ≠ [] := by intro h'; rw [h'] at hx; cases hx
  have : x ≤ (ordered l).getLast hne := by
    have hd := List.dropLast_concat_getLast hne
    rw [← hd, pairwise_append] at hs
    rw [← hd] at hx
    rcases mem_append.1 hx with h' | h'
    · exact hs.2.2 x h' _ (by simp)
    · simp at h'; omega
  have e : (ordered l).getLastD 0 = (ordered l).getLast hne := by
    rw [getLastD_eq_getLast?, List.getLast?_eq_some_getLast hne]; rfl
  omega

/-- a surface mesh in order: coherent cells on existing vertices, PIDs in the `int` range and in the PID list -/
structure SurfOk (o : Obj P) : Prop where
  type : o.type = 1
  verts : Ok o.verts
  cells : Ok o.cells
  surf : ∀ c ∈ o.cells, SurfCell c.2
  pids : ∀ c ∈ o.cells, InRange c.2.pid ∧ c.2.pid ∈ o.pids ∧ o.names.any (fun e => e.1 == c.2.pid) = true
  comp : complete o = true

/-- the centroid of a cell depends on the cell and its vertices only (external function) -/
def LocalTo (bary : Obj P → Nat → P) : Prop := ∀ o1 o2 id c, get o1.cells id = some c → get o2.cells id = some c →
  (∀ v ∈ vertexIds c, get o1.verts v = get o2.verts v) → bary o1 id = bary o2 id

/-- the mesh `o'` is the mesh `o` with every cell that is not a triangle replaced by its pieces: `f id` is the id of
the first piece of the cell `id`, `g id` the id of the new vertex of the polygon `id` -/
structure Triangulated (bary : Obj P → Nat → P) (o o' : Obj P) (f g : Nat → Nat) : Prop where
  /-- cells of the result: the old triangles, and the pieces with the PID of their cell, nothing else -/
  cells : ∀ j d, get o'.cells j = some d ↔ (get o.cells j = some d ∧ d.elem = .triangle) ∨
    ∃ id c, get o.cells id = some c ∧ ∃ k t, (pieces (g id) c)[k]? = some t ∧ j = f id + k ∧
      d = ⟨.triangle, t, c.pid, true⟩
  /-- ids of the pieces are used by no old cell -/
  fresh : ∀ id c k, get o.cells id = some c → k < (pieces (g id) c).length → has o.cells (f id + k) = false
  /-- pieces of different cells have different ids -/
  apart : ∀ id id' c c' k k', get o.cells id = some c → get o.cells id' = some c' → k < (pieces (g id) c).length →
    k' < (pieces (g id') c').length → f id + k = f id' + k' → id = id'
  /-- vertices of the result: the old ones, and one for each polygon at its centroid -/
  verts : ∀ w p, get o'.verts w = some p ↔ get o.verts w = some p ∨
    ∃ id c, get o.cells id = some c ∧ c.elem = .polygon ∧ w = g id ∧ p = bary o id
  freshv : ∀ id c, get o.cells id = some c → c.elem = .polygon → has o.verts (g id) = false
  apartv : ∀ id id' c c', get o.cells id = some c → get o.cells id' = some c' → c.elem = .polygon → c'.elem = .polygon →
    g id = g id' → id = id'
  pids : o'.pids = o.pids
  names : o'.names = o.names

theorem triangulateBody_spec (bary : Obj P → Nat → P) (hl : LocalTo bary) {o : Obj P} (h : SurfOk o) :
    ∃ o' f g, triangulateBody bary o = some o' ∧ Triangulated bary o o' f g := by
  unfold triangulateBody
  rw [if_neg (by simp [h.type])]
  by_cases he : o.cells = []
  · refine ⟨o, id, id, by rw [if_pos (Or.inr he)], ?_⟩
    have hg : ∀ j, get o.cells j = none := by intro j; rw [he]; rfl
    constructor <;> simp [hg]
  · have hv : ¬ o.verts = [] := by
      intro hv
      obtain ⟨c, hc⟩ := List.exists_mem_of_ne_nil _ he
      have hcomp := h.comp
      unfold complete at hcomp
      rw [all_eq_true] at hcomp
      have h1 := hcomp c hc
      rw [all_eq_true] at h1
      have hs := h.surf c hc
      have : ∃ v, v ∈ vertexIds c.2 := by
        have hel := hs.1
        simp only [mem_cons, not_mem_nil, or_false] at hel
        rcases hel with he | he | he | he
        · have h2 := hs.2
          rw [he] at h2
          simp only [checkConn, length_map, beq_iff_eq] at h2
          rw [vertexIds, he]
          exact List.exists_mem_of_length_pos (by simp only; omega)
        · obtain ⟨a, b, d, e, h3⟩ := four_conn hs (Or.inl he)
          rw [vertexIds, he, h3]; exact ⟨a, by simp⟩
        · obtain ⟨a, b, d, e, h3⟩ := four_conn hs (Or.inr he)
          rw [vertexIds, he, h3]; exact ⟨a, by simp⟩
        · obtain ⟨n, r, s, ring, h3, _⟩ := polygon_conn hs he
          rw [vertexIds, he, h3]; exact ⟨r, by simp⟩
      obtain ⟨v, hv'⟩ := this
      have := h1 v hv'
      rw [hv] at this
      cases this
    rw [if_neg (by simp [he, hv])]
    have hmem : ∀ id ∈ ordered (cellIds o), ∃ c, get o.cells id = some c ∧ (id, c) ∈ o.cells := by
      intro id hid
      rw [mem_ordered] at hid
      unfold cellIds at hid
      obtain ⟨e, he, rfl⟩ := mem_map.1 hid
      exact ⟨e.2, get_of_mem h.cells he, he⟩
    obtain ⟨s', f, g, h1, h2⟩ := triLoop_spec bary (bary o) (ordered (cellIds o))
      (o, (ordered (cellIds o)).getLastD 0 + 1, (ordered (o.verts.map Prod.fst)).getLastD 0 + 1)
      ((ordered_perm _).nodup_iff.2 h.cells)
      (fun e he => ordered_below (mem_map_of_mem he))
      (fun e he => ordered_below (mem_map_of_mem he))
      (by
        intro id hid
        obtain ⟨c, hc, hm⟩ := hmem id hid
        obtain ⟨p1, p2, p3⟩ := h.pids _ hm
        refine ⟨c, hc, h.surf _ hm, p1, p2, p3, ?_⟩
        have hcomp := h.comp
        unfold complete at hcomp
        rw [all_eq_true] at hcomp
        have := hcomp _ hm
        rw [all_eq_true] at this
        exact this)
      (by
        intro o1 id c _ hc ho1 hvs
        exact hl o1 o id c ho1 hc hvs)
    refine ⟨unsyncTri s'.1, f, g, by rw [h1]; rfl, ?_⟩
    have hin : ∀ id c, get o.cells id = some c → id ∈ ordered (cellIds o) ∧ id < (ordered (cellIds o)).getLastD 0 + 1 := by
      intro id c hc
      have hm : id ∈ cellIds o := mem_map_of_mem (get_some_mem hc)
      exact ⟨(mem_ordered _ _).2 hm, ordered_below hm⟩
    have hbig : ∀ j, ¬ j < (ordered (cellIds o)).getLastD 0 + 1 → get o.cells j = none := by
      intro j hj
      cases hg : get o.cells j with
      | none => rfl
      | some c => exact absurd (hin j c hg).2 hj
    have hbigv : ∀ w, ¬ w < (ordered (o.verts.map Prod.fst)).getLastD 0 + 1 → get o.verts w = none := by
      intro w hw
      rw [get_none_iff]
      intro hm
      exact hw (ordered_below hm)
    have hnt : ∀ {v c k}, k < (pieces v c).length → c.elem ≠ .triangle := by
      intro v c k hk he
      rw [pieces_triangle he] at hk; simp at hk
    constructor
    · intro j d
      change get s'.1.cells j = some d ↔ _
      by_cases hj : j < (ordered (cellIds o)).getLastD 0 + 1
      · have hold := h2.old j hj
        constructor
        · intro hd
          left
          by_cases hji : j ∈ ordered (cellIds o)
          · obtain ⟨c, hc, _⟩ := hmem j hji
            have := hold.2 c hji hc
            rw [this] at hd
            split at hd
            · next he' => injection hd with hd; subst hd; exact ⟨hc, he'⟩
            · cases hd
          · rw [hold.1 hji] at hd
            exact absurd (hin j d hd).1 hji
        · rintro (⟨hd, he'⟩ | ⟨id, c, hc, k, t, hk, hjk, _⟩)
          · rw [hold.2 d (hin j d hd).1 hd, if_pos he']
          · exfalso
            have hkl := (List.getElem?_eq_some_iff.1 hk).1
            have := (h2.range id (hin id c hc).1 c hc (hnt hkl)).1
            simp only at this
            omega
      · rw [h2.new j (by simpa using hj) d]
        constructor
        · rintro ⟨id, _, c, hc, r⟩; exact Or.inr ⟨id, c, hc, r⟩
        · rintro (⟨hd, _⟩ | ⟨id, c, hc, r⟩)
          · rw [hbig j hj] at hd; cases hd
          · exact ⟨id, (hin id c hc).1, c, hc, r⟩
    · intro id c k hc hk
      have := (h2.range id (hin id c hc).1 c hc (hnt hk)).1
      rw [has_eq_isSome, hbig _ (by simp only at this; omega)]; rfl
    · intro id id' c c' k k' hc hc' hk hk' heq
      by_cases hii : id = id'
      · exact hii
      · have := h2.disj id (hin id c hc).1 id' (hin id' c' hc').1 hii c c' hc hc' (hnt hk) (hnt hk')
        omega
    · intro w p
      change get s'.1.verts w = some p ↔ _
      by_cases hw : w < (ordered (o.verts.map Prod.fst)).getLastD 0 + 1
      · rw [h2.oldv w hw]
        constructor
        · exact Or.inl
        · rintro (h' | ⟨id, c, hc, hp, hg, _⟩)
          · exact h'
          · exfalso
            have := (h2.rangev id (hin id c hc).1 c hc hp).1
            simp only at this
            omega
      · rw [h2.newv w (by simpa using hw) p]
        constructor
        · rintro ⟨id, _, c, hc, r⟩; exact Or.inr ⟨id, c, hc, r⟩
        · rintro (h' | ⟨id, c, hc, r⟩)
          · rw [hbigv w hw] at h'; cases h'
          · exact ⟨id, (hin id c hc).1, c, hc, r⟩
    · intro id c hc hp
      have := (h2.rangev id (hin id c hc).1 c hc hp).1
      rw [has_eq_isSome, hbigv _ (by simp only at this; omega)]; rfl
    · intro id id' c c' hc hc' hp hp' hgg
      by_cases hii : id = id'
      · exact hii
      · exact absurd hgg (h2.disjv id (hin id c hc).1 id' (hin id' c' hc').1 hii c c' hc hc' hp hp')
    · exact h2.pids
    · exact h2.names

theorem triangulated_complete {bary : Obj P → Nat → P} {o o' : Obj P} {f g : Nat → Nat} (h : SurfOk o)
    (hok : Ok o'.cells) (ht : Triangulated bary o o' f g) : complete o' = true := by
  have hcomp := h.comp
  unfold complete at hcomp ⊢
  rw [all_eq_true] at hcomp ⊢
  intro e he
  rw [all_eq_true]
  intro v hv
  have hold : ∀ w, has o.verts w = true → has o'.verts w = true := by
    intro w hw
    rw [has_eq_isSome, Option.isSome_iff_exists] at hw ⊢
    obtain ⟨p, hp⟩ := hw
    exact ⟨p, (ht.verts w p).2 (Or.inl hp)⟩
  rcases (ht.cells e.1 e.2).1 (get_of_mem hok he) with ⟨hd, _⟩ | ⟨id, c, hc, k, t, hk, _, hd⟩
  · have := hcomp _ (get_some_mem hd)
    rw [all_eq_true] at this
    exact hold v (this v hv)
  · have htm : t ∈ pieces (g id) c := mem_of_getElem? hk
    have hv' : v ∈ t := by rw [hd] at hv; exact hv
    rcases pieces_verts (g id) c t htm v hv' with h1 | ⟨h1, h2⟩
    · have := hcomp _ (get_some_mem hc)
      rw [all_eq_true] at this
      exact hold v (this v h1)
    · rw [h2, has_eq_isSome, Option.isSome_iff_exists]
      exact ⟨bary o id, (ht.verts _ _).2 (Or.inr ⟨id, c, hc, h1, rfl, rfl⟩)⟩

/-- number of pieces: two for a quadrilateral, as many as its sides for a polygon, none for a triangle -/
theorem pieces_number {c : Cell} (h : SurfCell c) (v : Nat) : (pieces v c).length =
    (match c.elem with | .quad => 2 | .pixel => 2 | .polygon => (vertexIds c).length | _ => 0) := by
  have hel := h.1
  simp only [mem_cons, not_mem_nil, or_false] at hel
  rcases hel with he | he | he | he
  · rw [pieces_triangle he, he]; rfl
  · obtain ⟨a, b, d, e, hc⟩ := four_conn h (Or.inl he)
    rw [pieces, he, hc]; rfl
  · obtain ⟨a, b, d, e, hc⟩ := four_conn h (Or.inr he)
    rw [pieces, he, hc]; rfl
  · obtain ⟨n, r, s, ring, hc, _⟩ := polygon_conn h he
    rw [pieces, he, hc]
    simp [vertexIds, he, hc]

theorem ok_addTris : ∀ (ts : List (List Nat)) {o : Obj P} (pid : Int) (n : Nat), Ok o.cells →
    Ok (addTris o pid n ts).1.cells := by
  intro ts
  induction ts with
  | nil => intro o pid n h; exact h
  | cons t ts ih =>
    intro o pid n h
    rw [addTris]
    apply ih
    unfold addConnectedCell
    split
    · exact h
    · split
      · exact h
      · split
        · exact h
        · next hf _ =>
          have hfree : has o.cells n = false := by simpa using hf
          have : (putCell o .triangle t pid n).cells = _ := putCell_cells hfree .triangle t pid
          simp only [Option.getD_some]
          rw [this]
          exact ok_append h hfree

theorem ok_delCell {o : Obj P} (h : Ok o.cells) (id : Nat) : Ok (delCell o id).cells :=
  h.sublist (List.Sublist.map _ (List.filter_sublist))

theorem ok_triLoop (bary : Obj P → Nat → P) : ∀ (ids : List Nat) {s s' : Obj P × Nat × Nat}, Ok s.1.cells →
    triLoop bary ids s = some s' → Ok s'.1.cells := by
  intro ids
  induction ids with
  | nil => intro s s' h hs; injection hs with hs; subst hs; exact h
  | cons id ids ih =>
    intro s s' h hs
    rw [triLoop, Option.bind_eq_some_iff] at hs
    obtain ⟨s1, h1, h2⟩ := hs
    refine ih ?_ h2
    have hav : Ok (addVertex s.1 0 (bary s.1 id) (some s.2.2)).1.cells := by
      unfold addVertex; simp only; split <;> exact h
    unfold triStep at h1
    split at h1
    · cases h1
    · split at h1
      · injection h1 with h1; subst h1; exact ok_addTris _ _ _ (ok_delCell h _)
      · injection h1 with h1; subst h1; exact ok_addTris _ _ _ (ok_delCell h _)
      · injection h1 with h1; subst h1; exact ok_addTris _ _ _ (ok_delCell hav _)
      · injection h1 with h1; subst h1; exact h
      · cases h1

/-- C39: on a surface mesh in order `triangulate` succeeds; the result holds exactly the old triangles, untouched,
and the pieces of the other cells, with the PID of their cell and ids that collide with no other; the vertices are
the old ones and one new vertex for each polygon; the PID list and names do not change.  Everything in the result
is a triangle. -/
theorem C39_triangulate (bary : Obj P → Nat → P) (hl : LocalTo bary) {o : Obj P} (h : SurfOk o) (ht : TreeOk o) :
    ∃ o' f g, triangulate bary o = some o' ∧ Triangulated bary o o' f g ∧ (∀ c ∈ o'.cells, c.2.elem = .triangle) ∧
      complete o' = true := by
  obtain ⟨o1, f, g, h1, h2⟩ := triangulateBody_spec bary hl h
  have hok : Ok o1.cells := by
    unfold triangulateBody at h1
    split at h1
    · cases h1
    · split at h1
      · injection h1 with h1; subst h1; exact h.cells
      · rw [Option.map_eq_some_iff] at h1
        obtain ⟨s, hs, rfl⟩ := h1
        exact ok_triLoop bary _ (s := (o, _, _)) h.cells hs
  have hc := triangulated_complete h hok h2
  have hs := st_triangulateBody bary h1
  obtain ⟨o', hu⟩ := update_succeeds (treeOk_of ht hs.type hs.tree hs.skd) hc
  have hm := update_mesh hu
  refine ⟨o', f, g, by rw [triangulate, h1]; exact hu, ?_, ?_, ?_⟩
  · exact ⟨by rw [hm.cells]; exact h2.cells, h2.fresh, h2.apart, by rw [hm.verts]; exact h2.verts, h2.freshv,
      h2.apartv, hm.pids.trans h2.pids, hm.names.trans h2.names⟩
  · rw [hm.cells]
    intro c hcm
    rcases (h2.cells c.1 c.2).1 (get_of_mem hok hcm) with ⟨_, hd⟩ | ⟨id, c', _, k, t, _, _, hd⟩
    · exact hd
    · rw [hd]
  · unfold complete at hc ⊢
    rw [hm.cells, hm.verts]; exact hc

/-- C39: only surface meshes are accepted. -/
theorem C39_surfaces_only (bary : Obj P → Nat → P) (o : Obj P) (h : o.type ≠ 1) : triangulate bary o = none := by
  unfold triangulate triangulateBody
  rw [if_pos h]
  rfl

/-- C39: the number of triangles that replace a cell -/
theorem C39_number {c : Cell} (h : SurfCell c) (v : Nat) : (pieces v c).length =
    (match c.elem with | .quad => 2 | .pixel => 2 | .polygon => (vertexIds c).length | _ => 0) :=
  pieces_number h v

/-! The outline is kept -/

/-- signed occurrence of the directed edge (a, b) in the directed edge (x, y) -/
def sgn (a b x y : Nat) : Int := (if x = a ∧ y = b then 1 else 0) - (if x = b ∧ y = a then 1 else 0)

/-- net number of times the closed ring runs from a to b -/
def net (a b : Nat) (ring : List Nat) : Int :=
  match ring with
  | [] => 0
  | r :: l => (zipWith (sgn a b) (r :: l) (l ++ [r])).sum

theorem sgn_swap (a b x y : Nat) : sgn a b y x = - sgn a b x y := by
  unfold sgn; omega

theorem fan_sum (a b v : Nat) : ∀ L M : List Nat, L.length = M.length →
    ((zipWith (fun x y => [v, x, y]) L M).map (net a b)).sum =
      (zipWith (sgn a b) L M).sum + (L.map (sgn a b v)).sum - (M.map (sgn a b v)).sum := by
  intro L
  induction L with
  | nil => intro M h; cases M with
    | nil => simp
    | cons m M => simp at h
  | cons x L ih =>
    intro M h
    cases M with
    | nil => simp at h
    | cons m M =>
      have := ih M (by simpa using h)
      simp only [zipWith_cons_cons, map_cons, sum_cons, this]
      have h1 : net a b [v, x, m] = sgn a b v x + sgn a b x m + sgn a b m v := by
        simp [net]; omega
      rw [h1, sgn_swap a b v m]
      omega

theorem sum_append_int : ∀ l m : List Int, (l ++ m).sum = l.sum + m.sum := by
  intro l
  induction l with
  | nil => intro m; simp
  | cons x l ih => intro m; simp [ih]; omega

/-- C39: the triangles that replace a quadrilateral or a polygon have together the outline of the cell, with its
orientation: the inner edges cancel. -/
theorem C61_outline_partial {c : Cell} (h : SurfCell c) (he : c.elem = .quad ∨ c.elem = .polygon) (v a b : Nat) :
    ((pieces v c).map (net a b)).sum = net a b (vertexIds c) := by
  rcases he with he | he
  · obtain ⟨p, q, r, s, hc⟩ := four_conn h (Or.inl he)
    rw [pieces, he, hc, vertexIds, he, hc]
    simp only [map_cons, map_nil, sum_cons, sum_nil, net, cons_append, nil_append, zipWith_cons_cons, zipWith_nil_right]
    have := sgn_swap a b p r
    omega
  · obtain ⟨n, r, s, ring, hc, _⟩ := polygon_conn h he
    rw [pieces, he, hc, vertexIds, he, hc]
    simp only [tail_cons]
    rw [fan_sum a b v (r :: s :: ring) (s :: ring ++ [r]) (by simp)]
    simp only [net, map_append, sum_append_int, map_cons, map_nil, sum_cons, sum_nil]
    omega

/-- C39 is false for the outline of pixels, whose connectivity is stored row by row (so that the ring of
`[p, q, r, s]` is p, q, s, r): the two triangles overlap. -/
theorem C61_pixel_fails : ∃ p q r s a b : Nat, ∀ v,
    ((pieces v ⟨.pixel, [p, q, r, s], 0, true⟩).map (net a b)).sum ≠ net a b [p, q, s, r] :=
  ⟨0, 1, 2, 3, 1, 2, fun v => by
    have : pieces v ⟨.pixel, [0, 1, 2, 3], 0, true⟩ = [[0, 1, 2], [0, 2, 3]] := rfl
    rw [this]; decide⟩

/-- a triangle, a quadrilateral and a pentagon -/
def demoSurf : Obj Int :=
  { demo with
    verts := [(0, 0), (1, 10), (2, 20), (7, 70), (4, 40)]
    cells := [(3, ⟨.quad, [0, 1, 2, 7], 2, true⟩), (8, ⟨.polygon, [5, 0, 1, 2, 7, 4], -5, true⟩),
      (5, ⟨.triangle, [0, 1, 2], 1, true⟩)]
    pids := [1, 2, -5], names := [(1, "a"), (2, "b"), (-5, "")] }

example : SurfOk demoSurf ∧ TreeOk demoSurf := by
  refine ⟨⟨by decide, by unfold Ok; decide, by unfold Ok; decide, ?_, ?_, by decide⟩, ⟨by decide, by decide⟩⟩
  · intro c hc
    simp only [demoSurf, mem_cons, not_mem_nil, or_false] at hc
    rcases hc with rfl | rfl | rfl <;> exact ⟨by decide, by decide⟩
  · intro c hc
    simp only [demoSurf, mem_cons, not_mem_nil, or_false] at hc
    rcases hc with rfl | rfl | rfl <;> exact ⟨by unfold InRange; decide, by decide, by decide⟩

/-- such a centroid exists: the sum of the coordinates of the vertices (here integers) -/
example : LocalTo (P := Int) (fun o id => ((get o.cells id).map (fun c =>
    ((vertexIds c).map (fun v => (get o.verts v).getD 0)).sum)).getD 0) := by
  intro o1 o2 id c h1 h2 hv
  simp only [h1, h2, Option.map_some, Option.getD_some]
  congr 1
  apply map_congr_left
  intro v hvm
  rw [hv v hvm]

end Verif.Mesh
