import Verif.Select.Stitch
import Verif.Select.SubProps
import Verif.Mesh.ElemProps
/-
C106: what a stitched geometry is made of.  C107: its PIDs and their names.
-/
namespace Verif.Select
open Verif.Field Verif.Mesh
open List hiding get

variable {P : Type}

/-! ### Specification -/

/-- a cell moved onto other vertices, with its PID shifted; the first entry of a polygon is its number of vertices -/
def copyOf (f : Nat → Nat) (s : Int) (d : Cell) : Cell :=
  { elem := d.elem, conn := if d.elem = .polygon then d.conn.take 1 ++ (d.conn.drop 1).map f else d.conn.map f
    pid := d.pid + s, interior := true }

/-- a mesh in good order without polyhedra -/
structure Plain (o : Obj P) : Prop where
  good : Good o
  poly : ∀ id c, get o.cells id = some c → c.elem ≠ .polyhedron
  conn : ∀ id c, get o.cells id = some c → c.conn ≠ [] ∧ checkConn c.elem (c.conn.map Int.ofNat) = true

/-- `t` is the disjoint union of `objs`: vertex `v` of the `k`-th mesh has become `nv k v` and its cell `i` has become
`nc k i`; PIDs are shifted by `start k`. -/
structure Union (objs : List (Obj P)) (start : List Int) (t : Obj P) (nv nc : Nat → Nat → Nat) : Prop where
  verts : ∀ n p, get t.verts n = some p ↔ ∃ k o v, objs[k]? = some o ∧ get o.verts v = some p ∧ n = nv k v
  apartV : ∀ k o v k' o' v', objs[k]? = some o → has o.verts v = true → objs[k']? = some o' → has o'.verts v' = true →
    nv k v = nv k' v' → k = k' ∧ v = v'
  cells : ∀ n c, get t.cells n = some c ↔
    ∃ k o s i d, objs[k]? = some o ∧ start[k]? = some s ∧ get o.cells i = some d ∧ n = nc k i ∧ c = copyOf (nv k) s d
  apartC : ∀ k o i k' o' i', objs[k]? = some o → has o.cells i = true → objs[k']? = some o' → has o'.cells i' = true →
    nc k i = nc k' i' → k = k' ∧ i = i'
  once : Ok t.verts ∧ Ok t.cells

/-! ### Numbered lists -/

/-- position of a key -/
def pos {α : Type} (d : Data α) (v : Nat) : Nat := (d.map Prod.fst).idxOf v

def numbered {α : Type} (n : Nat) : List α → Data α
  | [] => []
  | x :: l => (n, x) :: numbered (n + 1) l

theorem get_numbered {α : Type} : ∀ (l : List α) (n j : Nat), get (numbered n l) j = if n ≤ j then l[j - n]? else none := by
  intro l
  induction l with
  | nil => intro n j; simp [numbered, Field.get]
  | cons x l ih =>
    intro n j
    rw [numbered, get_cons, ih]
    by_cases h : n = j
    · subst h; simp
    · rw [if_neg h]
      by_cases h1 : n + 1 ≤ j
      · rw [if_pos h1, if_pos (by omega), show j - n = (j - (n + 1)) + 1 by omega, getElem?_cons_succ]
      · rw [if_neg h1, if_neg (by omega)]

theorem ok_numbered {α : Type} : ∀ (l : List α) (n : Nat), Ok (numbered n l) ∧ ∀ e ∈ numbered n l, n ≤ e.1 ∧ e.1 < n + l.length := by
  intro l
  induction l with
  | nil => intro n; simp [numbered, Ok]
  | cons x l ih =>
    intro n
    obtain ⟨h1, h2⟩ := ih (n + 1)
    constructor
    · unfold Ok at h1 ⊢
      rw [numbered, map_cons, nodup_cons]
      refine ⟨fun h => ?_, h1⟩
      obtain ⟨e, he, hh⟩ := mem_map.1 h
      have := (h2 e he).1
      dsimp only at hh
      omega
    · intro e he
      rw [numbered, mem_cons] at he
      rcases he with rfl | he
      · simp
      · have := h2 e he; simp only [length_cons]; omega

theorem pos_cons {α : Type} (e : Nat × α) (d : Data α) (v : Nat) : pos (e :: d) v = if e.1 = v then 0 else pos d v + 1 := by
  unfold pos
  rw [map_cons, idxOf_cons]
  by_cases h : e.1 = v
  · simp [h]
  · have : (e.1 == v) = false := by simpa using h
    rw [this, if_neg h]; rfl

theorem pos_spec {α : Type} : ∀ {d : Data α}, Ok d → ∀ i v x, d[i]? = some (v, x) ↔ get d v = some x ∧ i = pos d v := by
  intro d
  induction d with
  | nil => intro _ i v x; simp [Field.get]
  | cons e d ih =>
    intro h i v x
    unfold Ok at h
    rw [map_cons, nodup_cons] at h
    rw [get_cons, pos_cons]
    cases i with
    | zero =>
      simp only [getElem?_cons_zero, Option.some.injEq]
      by_cases he : e.1 = v
      · simp only [he, if_true, and_true, Option.some.injEq]
        constructor
        · rintro rfl; rfl
        · intro hx; rw [← he, ← hx]
      · simp only [if_neg he]
        constructor
        · rintro rfl; exact absurd rfl he
        · rintro ⟨-, h0⟩; omega
    | succ i =>
      rw [getElem?_cons_succ, ih h.2]
      by_cases he : e.1 = v
      · simp only [he, if_true]
        constructor
        · rintro ⟨h1, -⟩
          exact absurd (mem_map.2 ⟨(v, x), get_some_mem h1, he.symm⟩) h.1
        · rintro ⟨-, h1⟩; cases h1
      · simp only [if_neg he]
        constructor
        · rintro ⟨h1, rfl⟩; exact ⟨h1, rfl⟩
        · rintro ⟨h1, h2⟩; exact ⟨h1, by omega⟩

theorem pos_lt {α : Type} {d : Data α} (hd : Ok d) {v : Nat} (h : has d v = true) : pos d v < d.length := by
  rw [has_eq_isSome] at h
  obtain ⟨x, hx⟩ := Option.isSome_iff_exists.1 h
  have := (pos_spec hd (pos d v) v x).2 ⟨hx, rfl⟩
  exact (List.getElem?_eq_some_iff.1 this).1

theorem pos_inj {α : Type} {d : Data α} (hd : Ok d) {v w : Nat} (h : has d v = true) (h' : has d w = true) (e : pos d v = pos d w) : v = w := by
  rw [has_eq_isSome] at h h'
  obtain ⟨x, hx⟩ := Option.isSome_iff_exists.1 h
  obtain ⟨y, hy⟩ := Option.isSome_iff_exists.1 h'
  have h1 := (pos_spec hd (pos d v) v x).2 ⟨hx, rfl⟩
  have h2 := (pos_spec hd (pos d w) w y).2 ⟨hy, rfl⟩
  rw [e, h2] at h1
  simp at h1; exact h1.1.symm

/-! ### The loops -/

theorem verts_loop : ∀ (l : Data P) (t : Obj P) (m : Data Nat) (n : Nat), (∀ i, has t.verts i = true → i < n) → Ok l →
    ∃ t' m', l.foldl stitchVert (t, m, n) = (t', m', n + l.length) ∧
      t'.verts = t.verts ++ numbered n (l.map Prod.snd) ∧ t'.cells = t.cells ∧ t'.type = t.type ∧ t'.pids = t.pids ∧
      t'.names = t.names ∧ t'.tol = t.tol ∧ t'.skd = t.skd ∧
      (∀ v, has l v = false → get m' v = get m v) ∧ (∀ v, has l v = true → get m' v = some (n + pos l v)) := by
  intro l
  induction l with
  | nil => intro t m n _ _; exact ⟨t, m, rfl, by simp [numbered], rfl, rfl, rfl, rfl, rfl, rfl, fun _ _ => rfl, by simp [has]⟩
  | cons e l ih =>
    intro t m n hb hl
    have hn : has t.verts n = false := by
      cases h : has t.verts n with
      | false => rfl
      | true => have := hb n h; omega
    obtain ⟨a1, a2, a3, a4, a5, a6, a7⟩ := addVertex_some t e.2 n
    rw [hn] at a1
    simp only [Bool.false_eq_true, if_false] at a1
    have hl' : Ok l := by unfold Ok at hl ⊢; exact (nodup_cons.1 hl).2
    have he : has l e.1 = false := by
      unfold Ok at hl; rw [map_cons, nodup_cons] at hl
      cases h : has l e.1 with
      | false => rfl
      | true => exact absurd ((has_iff _ _).1 h) hl.1
    obtain ⟨t', m', b1, b2, b3, b4, b5, b6, b7, b8, b9, b10⟩ := ih (addVertex t 0 e.2 (some n)).1 (mapSet m e.1 n) (n + 1)
      (by
        intro i hi
        rw [a1, has_iff, map_append, mem_append, ← has_iff] at hi
        rcases hi with hi | hi
        · have := hb i hi; omega
        · simp at hi; omega) hl'
    refine ⟨t', m', ?_, ?_, b3.trans a2, b4.trans a3, b5.trans a4, b6.trans a5, b7.trans a6, b8.trans a7, ?_, ?_⟩
    · rw [foldl_cons]
      show foldl stitchVert ((addVertex t 0 e.2 (some n)).1, mapSet m e.1 n, n + 1) l = _
      rw [b1, length_cons, show n + 1 + l.length = n + (l.length + 1) by omega]
    · rw [b2, a1, map_cons, numbered]; simp
    · intro v hv
      have h1 : e.1 ≠ v ∧ has l v = false := by
        simp only [has, any_cons, Bool.or_eq_false_iff] at hv ⊢
        exact ⟨by simpa using hv.1, hv.2⟩
      rw [b9 v h1.2, get_mapSet, if_neg (fun h => h1.1 h.symm)]
    · intro v hv
      rw [pos_cons]
      by_cases hev : e.1 = v
      · subst hev
        rw [b9 _ he, get_mapSet]; simp
      · have : has l v = true := by
          simp only [has, any_cons, Bool.or_eq_true] at hv ⊢
          rcases hv with hv | hv
          · exact absurd (by simpa using hv) hev
          · exact hv
        rw [b10 v this, if_neg hev]; congr 1; omega

theorem check_copy {f : Nat → Nat} {s : Int} {d : Cell} (hp : d.elem ≠ .polyhedron) (hne : d.conn ≠ [])
    (hc : checkConn d.elem (d.conn.map Int.ofNat) = true) :
    (copyOf f s d).conn ≠ [] ∧ checkConn d.elem ((copyOf f s d).conn.map Int.ofNat) = true := by
  obtain ⟨elem, conn, pid, int⟩ := d
  cases conn with
  | nil => exact absurd rfl hne
  | cons a l =>
    unfold copyOf
    dsimp only at hp hc ⊢
    by_cases h : elem = .polygon
    · subst h
      simp only [if_true, take_succ_cons, take_zero, drop_succ_cons, drop_zero]
      refine ⟨by simp, ?_⟩
      unfold checkConn at hc ⊢
      simp only [singleton_append, map_cons, length_cons, length_map, entry, Int.toNat_zero, getD_cons_zero] at hc ⊢
      exact hc
    · rw [if_neg h]
      refine ⟨by simp, ?_⟩
      cases elem <;> simp_all [checkConn]

theorem conn_copy {m : Data Nat} {f : Nat → Nat} {s : Int} {d : Cell} (hp : d.elem ≠ .polyhedron) (hne : d.conn ≠ [])
    (hf : ∀ v ∈ vertexIds d, locOf m v = f v) : stitchConn m d = some (copyOf f s d).conn := by
  obtain ⟨elem, conn, pid, int⟩ := d
  cases conn with
  | nil => exact absurd rfl hne
  | cons a l =>
    have key : ∀ l : List Nat, (∀ v ∈ l, locOf m v = f v) → l.map (locOf m) = l.map f := fun l h => map_congr_left h
    unfold stitchConn copyOf
    cases elem <;> simp only [vertexIds, tail_cons] at hf <;>
      simp only [reduceCtorEq, if_false, if_true, Option.some.injEq, take_succ_cons, take_zero, drop_succ_cons, drop_zero, singleton_append]
    case polyhedron => exact absurd rfl hp
    case polygon => rw [key _ hf]
    all_goals exact key _ hf

theorem cells_loop (m : Data Nat) (f : Nat → Nat) (s : Int) : ∀ (l : Data Cell) (t : Obj P) (n : Nat),
    (∀ i, has t.cells i = true → i < n) → NoTree t →
    (∀ e ∈ l, e.2.elem ≠ .polyhedron ∧ e.2.conn ≠ [] ∧ checkConn e.2.elem (e.2.conn.map Int.ofNat) = true ∧
      InRange (e.2.pid + s) ∧ ∀ v ∈ vertexIds e.2, locOf m v = f v) →
    ∃ t', l.foldlM (stitchCell m s) (t, n) = some (t', n + l.length) ∧
      t'.cells = t.cells ++ numbered n (l.map (fun e => copyOf f s e.2)) ∧ t'.verts = t.verts ∧ t'.type = t.type ∧ t'.tol = t.tol ∧ NoTree t' := by
  intro l
  induction l with
  | nil => intro t n _ ht _; exact ⟨t, rfl, by simp [numbered], rfl, rfl, rfl, ht⟩
  | cons e l ih =>
    intro t n hb ht hl
    obtain ⟨h1, h2, h3, h4, h5⟩ := hl e (by simp)
    have hn : has t.cells n = false := by
      cases h : has t.cells n with
      | false => rfl
      | true => have := hb n h; omega
    obtain ⟨c1, c2⟩ := check_copy (f := f) (s := s) h1 h2 h3
    have ha : (addConnectedCell t 0 (copyOf f s e.2).conn e.2.elem (e.2.pid + s) (some n)).1 =
        putCell t e.2.elem (copyOf f s e.2).conn (e.2.pid + s) n := by
      unfold addConnectedCell
      rw [if_neg c1, if_neg (by simp [hn]), if_neg (by simp [c2])]
      rfl
    have hcells : (putCell t e.2.elem (copyOf f s e.2).conn (e.2.pid + s) n).cells = t.cells ++ [(n, copyOf f s e.2)] := by
      rw [putCell_cells hn, toInt32_id h4]; rfl
    have htree : NoTree (putCell t e.2.elem (copyOf f s e.2).conn (e.2.pid + s) n) := by
      unfold NoTree at ht ⊢
      have : (putCell t e.2.elem (copyOf f s e.2).conn (e.2.pid + s) n).skd = { t.skd with st := t.skd.st.cap } := by
        simp [putCell, unsyncCell, setPIDCell, has]
      rw [this]
      rcases ht with h | h <;> simp [h, Status.cap]
    obtain ⟨t', b1, b2, b3, b4, b5, b6⟩ := ih (putCell t e.2.elem (copyOf f s e.2).conn (e.2.pid + s) n) (n + 1)
      (by
        intro i hi
        rw [hcells, has_iff, map_append, mem_append, ← has_iff] at hi
        rcases hi with hi | hi
        · have := hb i hi; omega
        · simp at hi; omega) htree (fun e' he' => hl e' (by simp [he']))
    refine ⟨t', ?_, ?_, b3.trans (putCell_verts ..), b4.trans (putCell_type ..), ?_, b6⟩
    · rw [foldlM_cons]
      have : stitchCell m s (t, n) e = some (putCell t e.2.elem (copyOf f s e.2).conn (e.2.pid + s) n, n + 1) := by
        unfold stitchCell
        rw [conn_copy (s := s) h1 h2 h5, Option.map_some, ha]
      rw [this]
      show foldlM (stitchCell m s) (putCell t e.2.elem (copyOf f s e.2).conn (e.2.pid + s) n, n + 1) l = _
      rw [b1, length_cons, show n + 1 + l.length = n + (l.length + 1) by omega]
    · rw [b2, hcells, map_cons, numbered]; simp
    · rw [b5]; simp [putCell, unsyncCell, setPIDCell, has]

theorem names_fold (g : Int → String) : ∀ (l : List Int) (t : Obj P), (∀ p ∈ l, t.names.any (fun e => e.1 == p) = true) →
    let r := l.foldl (fun t p => (setPIDName t p (g p)).1) t
    r.verts = t.verts ∧ r.cells = t.cells ∧ r.type = t.type ∧ r.pids = t.pids ∧ r.tol = t.tol ∧ r.skd = t.skd ∧
    (∀ p, nameOf r.names p = if p ∈ l then some (g p) else nameOf t.names p) := by
  intro l
  induction l with
  | nil => intro t _; simp
  | cons p l ih =>
    intro t hl
    obtain ⟨⟨a1, a2, a3, a4, a5, a6⟩, a7, a8⟩ := setName_spec t p (g p)
    obtain ⟨b1, b2, b3, b4, b5, b6, b7⟩ := ih (setPIDName t p (g p)).1 (fun q hq => by rw [a7]; exact hl q (by simp [hq]))
    refine ⟨b1.trans a1, b2.trans a2, b3.trans a3, b4.trans a4, b5.trans a5, b6.trans a6, ?_⟩
    intro q
    rw [foldl_cons, b7, a8]
    by_cases hq : q ∈ l
    · simp [hq]
    · by_cases hqp : q = p
      · subst hqp; simp [hl q (by simp)]
      · simp [hq, hqp]

/-- name given to a PID by the loop over the geometry `o` -/
def nameFrom (o : Obj P) (s : Int) (p : Int) : String := (nameOf o.names (if p - s ∈ o.pids then p - s else 0)).getD ""

theorem stitchNames_spec (o : Obj P) (s : Int) (t : Obj P) :
    (stitchNames o s (resyncPID t)).verts = t.verts ∧ (stitchNames o s (resyncPID t)).cells = t.cells ∧
    (stitchNames o s (resyncPID t)).type = t.type ∧ (stitchNames o s (resyncPID t)).pids = distinct (t.cells.map (fun c => c.2.pid)) ∧
    (stitchNames o s (resyncPID t)).tol = t.tol ∧ (stitchNames o s (resyncPID t)).skd = t.skd ∧
    ∀ p ∈ (stitchNames o s (resyncPID t)).pids, nameOf (stitchNames o s (resyncPID t)).names p = some (nameFrom o s p) := by
  have hk := (C34_resync t).2.2.2.1
  obtain ⟨b1, b2, b3, b4, b5, b6, b7⟩ := names_fold (nameFrom o s) (resyncPID t).pids (resyncPID t) (by
    intro p hp
    rw [← hk] at hp
    obtain ⟨e, he, rfl⟩ := mem_map.1 hp
    rw [any_eq_true]; exact ⟨e, he, by simp⟩)
  refine ⟨b1, b2, b3, b4, b5, b6, fun p hp => ?_⟩
  have := b7 p
  have hp' : p ∈ (resyncPID t).pids := by
    have h : (stitchNames o s (resyncPID t)).pids = (resyncPID t).pids := b4
    rw [← h]; exact hp
  rw [if_pos hp'] at this
  exact this

/-- one geometry -/
theorem stitchOne_spec {o : Obj P} (ho : Plain o) (s : Int) (hr : ∀ i c, get o.cells i = some c → InRange (c.pid + s))
    (t : Obj P) (n k : Nat) (hn : ∀ i, has t.verts i = true → i < n) (hk : ∀ i, has t.cells i = true → i < k) (ht : NoTree t) :
    ∃ t', stitchOne (t, n, k) (o, s) = some (t', n + o.verts.length, k + o.cells.length) ∧
      t'.verts = t.verts ++ numbered n (o.verts.map Prod.snd) ∧
      t'.cells = t.cells ++ numbered k (o.cells.map (fun e => copyOf (fun v => n + pos o.verts v) s e.2)) ∧
      t'.type = t.type ∧ t'.tol = t.tol ∧ NoTree t' ∧ t'.pids = distinct (t'.cells.map (fun c => c.2.pid)) ∧
      ∀ p ∈ t'.pids, nameOf t'.names p = some (nameFrom o s p) := by
  obtain ⟨t1, m, a1, a2, a3, a4, a5, a6, a7, a8, a9, a10⟩ := verts_loop o.verts t [] n hn ho.good.verts
  obtain ⟨t2, b1, b2, b3, b4, b5, b6⟩ := cells_loop m (fun v => n + pos o.verts v) s o.cells t1 k (by rw [a3]; exact hk)
    (by unfold NoTree at ht ⊢; rw [a8]; exact ht) (by
      intro e he
      have hg := get_of_mem ho.good.cells he
      refine ⟨ho.poly _ _ hg, (ho.conn _ _ hg).1, (ho.conn _ _ hg).2, hr _ _ hg, fun v hv => ?_⟩
      unfold locOf
      rw [a10 v (ho.good.complete _ _ hg v hv)]; rfl)
  obtain ⟨c1, c2, c3, c4, c5, c6, c7⟩ := stitchNames_spec o s t2
  refine ⟨stitchNames o s (resyncPID t2), ?_, ?_, ?_, ?_, ?_, ?_, ?_, c7⟩
  · unfold stitchOne
    dsimp only
    rw [a1]
    dsimp only
    rw [b1]
    rfl
  · rw [c1, b3, a2]
  · rw [c2, b2, a3]
  · rw [c3, b4, a4]
  · rw [c5, b5, a7]
  · unfold NoTree at b6 ⊢; rw [c6]; exact b6
  · rw [c4, c2]

/-- the state of the loop over the geometries -/
structure Acc (objs : List (Obj P)) (start : List Int) (t : Obj P) (n k : Nat) (nv nc : Nat → Nat → Nat) : Prop where
  u : Union objs start t nv nc
  len : objs.length = start.length
  ltV : ∀ j o v, objs[j]? = some o → has o.verts v = true → nv j v < n
  ltC : ∀ j o i, objs[j]? = some o → has o.cells i = true → nc j i < k
  notree : NoTree t
  pids : t.pids = distinct (t.cells.map (fun c => c.2.pid))
  names : ∀ o s, objs.getLast? = some o → start.getLast? = some s → ∀ p ∈ t.pids, nameOf t.names p = some (nameFrom o s p)

theorem has_some {α : Type} {d : Data α} {v : Nat} : has d v = true ↔ ∃ x, get d v = some x := by
  rw [has_eq_isSome, Option.isSome_iff_exists]

theorem copyOf_congr {f g : Nat → Nat} {s : Int} {d : Cell} (hp : d.elem ≠ .polyhedron) (h : ∀ v ∈ vertexIds d, f v = g v) :
    copyOf f s d = copyOf g s d := by
  obtain ⟨elem, conn, pid, int⟩ := d
  unfold copyOf
  cases elem <;> simp only [vertexIds] at h <;> simp only [reduceCtorEq, if_false, if_true, Cell.mk.injEq, true_and, and_true]
  case polyhedron => exact absurd rfl hp
  case polygon => rw [drop_one, map_congr_left h]
  all_goals exact map_congr_left h

theorem acc_step {objs : List (Obj P)} {start : List Int} {t : Obj P} {n k : Nat} {nv nc : Nat → Nat → Nat} (ha : Acc objs start t n k nv nc)
    (hplain : ∀ o ∈ objs, Plain o) {o : Obj P} (ho : Plain o) (s : Int) (hr : ∀ i c, get o.cells i = some c → InRange (c.pid + s)) :
    ∃ t', stitchOne (t, n, k) (o, s) = some (t', n + o.verts.length, k + o.cells.length) ∧ t'.type = t.type ∧ t'.tol = t.tol ∧
      ∃ nv' nc', Acc (objs ++ [o]) (start ++ [s]) t' (n + o.verts.length) (k + o.cells.length) nv' nc' := by
  have hn : ∀ i, has t.verts i = true → i < n := by
    intro i hi
    obtain ⟨p, hp⟩ := has_some.1 hi
    obtain ⟨j, o', v, h1, h2, rfl⟩ := (ha.u.verts i p).1 hp
    exact ha.ltV j o' v h1 (has_some.2 ⟨p, h2⟩)
  have hk : ∀ i, has t.cells i = true → i < k := by
    intro i hi
    obtain ⟨c, hc⟩ := has_some.1 hi
    obtain ⟨j, o', s', v, d, h1, h2, h3, rfl, -⟩ := (ha.u.cells i c).1 hc
    exact ha.ltC j o' v h1 (has_some.2 ⟨d, h3⟩)
  obtain ⟨t', b1, b2, b3, b4, b5, b6, b7, b8⟩ := stitchOne_spec ho s hr t n k hn hk ha.notree
  have hlen := ha.len
  refine ⟨t', b1, b4, b5, fun j v => if j = objs.length then n + pos o.verts v else nv j v,
    fun j v => if j = objs.length then k + pos o.cells v else nc j v, ?_⟩
  -- reading the longer lists
  have hobj : ∀ j o', (objs ++ [o])[j]? = some o' ↔ (j < objs.length ∧ objs[j]? = some o') ∨ (j = objs.length ∧ o' = o) := by
    intro j o'
    by_cases h1 : j < objs.length
    · rw [getElem?_append_left h1]; simp [h1]; omega
    · by_cases h2 : j = objs.length
      · subst h2; simp; exact eq_comm
      · rw [getElem?_eq_none (by simp; omega)]; simp [h1, h2]
  have hst : ∀ j s', (start ++ [s])[j]? = some s' ↔ (j < objs.length ∧ start[j]? = some s') ∨ (j = objs.length ∧ s' = s) := by
    intro j s'
    by_cases h1 : j < objs.length
    · rw [getElem?_append_left (by omega)]; simp [h1]; omega
    · by_cases h2 : j = objs.length
      · subst h2; rw [hlen]; simp; exact eq_comm
      · rw [getElem?_eq_none (by simp; omega)]; simp [h1, h2]
  have hlt : ∀ {j : Nat} {o' : Obj P}, objs[j]? = some o' → j < objs.length := fun h => (List.getElem?_eq_some_iff.1 h).1
  refine ⟨⟨?_, ?_, ?_, ?_, ?_⟩, by simp [hlen], ?_, ?_, b6, b7, ?_⟩
  · intro i p
    rw [b2, get_append]
    have hnew : get (numbered n (o.verts.map Prod.snd)) i = some p ↔ ∃ v, get o.verts v = some p ∧ i = n + pos o.verts v := by
      rw [get_numbered]
      by_cases h : n ≤ i
      · rw [if_pos h, getElem?_map, Option.map_eq_some_iff]
        constructor
        · rintro ⟨⟨v, q⟩, h1, rfl⟩
          obtain ⟨h2, h3⟩ := (pos_spec ho.good.verts _ _ _).1 h1
          exact ⟨v, h2, by omega⟩
        · rintro ⟨v, h1, h2⟩
          exact ⟨(v, p), (pos_spec ho.good.verts _ _ _).2 ⟨h1, by omega⟩, rfl⟩
      · rw [if_neg h]
        constructor
        · intro h'; cases h'
        · rintro ⟨v, -, h2⟩; omega
    cases hg : get t.verts i with
    | some q =>
      rw [Option.some_or]
      have hi := hn i (has_some.2 ⟨q, hg⟩)
      constructor
      · intro h
        cases h
        obtain ⟨j, o', v, h1, h2, rfl⟩ := (ha.u.verts i _).1 hg
        have hj := hlt h1
        refine ⟨j, o', v, (hobj _ _).2 (Or.inl ⟨hj, h1⟩), h2, ?_⟩
        rw [if_neg (by omega)]
      · rintro ⟨j, o', v, h1, h2, h3⟩
        rcases (hobj _ _).1 h1 with ⟨h4, h5⟩ | ⟨h4, rfl⟩
        · rw [if_neg (by omega)] at h3
          rw [← hg]; exact (ha.u.verts i p).2 ⟨j, o', v, h5, h2, h3⟩
        · rw [if_pos h4] at h3; omega
    | none =>
      rw [Option.none_or, hnew]
      constructor
      · rintro ⟨v, h1, h2⟩
        exact ⟨objs.length, o, v, (hobj _ _).2 (Or.inr ⟨rfl, rfl⟩), h1, by simpa using h2⟩
      · rintro ⟨j, o', v, h1, h2, h3⟩
        rcases (hobj _ _).1 h1 with ⟨h4, h5⟩ | ⟨h4, rfl⟩
        · rw [if_neg (by omega)] at h3
          have := (ha.u.verts i p).2 ⟨j, o', v, h5, h2, h3⟩
          rw [hg] at this; cases this
        · rw [if_pos h4] at h3
          exact ⟨v, h2, h3⟩
  · intro j o1 v j' o2 v' h1 h2 h3 h4 h5
    rcases (hobj _ _).1 h1 with ⟨i1, i2⟩ | ⟨i1, rfl⟩ <;> rcases (hobj _ _).1 h3 with ⟨i3, i4⟩ | ⟨i3, rfl⟩
    · rw [if_neg (by omega), if_neg (by omega)] at h5
      exact ha.u.apartV _ _ _ _ _ _ i2 h2 i4 h4 h5
    · rw [if_neg (by omega), if_pos i3] at h5
      have := ha.ltV _ _ _ i2 h2; omega
    · rw [if_pos i1, if_neg (by omega)] at h5
      have := ha.ltV _ _ _ i4 h4; omega
    · rw [if_pos i1, if_pos i3] at h5
      exact ⟨i1.trans i3.symm, pos_inj ho.good.verts h2 h4 (by omega)⟩
  · intro i c
    rw [b3, get_append]
    have hnew : get (numbered k (o.cells.map (fun e => copyOf (fun v => n + pos o.verts v) s e.2))) i = some c ↔
        ∃ v d, get o.cells v = some d ∧ i = k + pos o.cells v ∧ c = copyOf (fun v => n + pos o.verts v) s d := by
      rw [get_numbered]
      by_cases h : k ≤ i
      · rw [if_pos h, getElem?_map, Option.map_eq_some_iff]
        constructor
        · rintro ⟨⟨v, d⟩, h1, rfl⟩
          obtain ⟨h2, h3⟩ := (pos_spec ho.good.cells _ _ _).1 h1
          exact ⟨v, d, h2, by omega, rfl⟩
        · rintro ⟨v, d, h1, h2, rfl⟩
          exact ⟨(v, d), (pos_spec ho.good.cells _ _ _).2 ⟨h1, by omega⟩, rfl⟩
      · rw [if_neg h]
        constructor
        · intro h'; cases h'
        · rintro ⟨v, d, -, h2, -⟩; omega
    have hcong : ∀ j o', objs[j]? = some o' → ∀ v d, get o'.cells v = some d → ∀ s',
        copyOf (fun v => if j = objs.length then n + pos o.verts v else nv j v) s' d = copyOf (nv j) s' d := by
      intro j o' h1 v d h2 s'
      apply copyOf_congr ((hplain o' (mem_of_getElem? h1)).poly v d h2)
      intro w _
      rw [if_neg (by have := hlt h1; omega)]
    cases hg : get t.cells i with
    | some q =>
      rw [Option.some_or]
      have hi := hk i (has_some.2 ⟨q, hg⟩)
      constructor
      · intro h
        cases h
        obtain ⟨j, o', s', v, d, h1, h2, h3, rfl, rfl⟩ := (ha.u.cells i _).1 hg
        have hj := hlt h1
        refine ⟨j, o', s', v, d, (hobj _ _).2 (Or.inl ⟨hj, h1⟩), (hst _ _).2 (Or.inl ⟨hj, h2⟩), h3, ?_, ?_⟩
        · rw [if_neg (by omega)]
        · exact (hcong j o' h1 v d h3 s').symm
      · rintro ⟨j, o', s', v, d, h1, h2, h3, h4, h5⟩
        rcases (hobj _ _).1 h1 with ⟨i1, i2⟩ | ⟨i1, rfl⟩
        · rw [if_neg (by omega)] at h4
          rw [hcong j o' i2 v d h3 s'] at h5
          rcases (hst _ _).1 h2 with ⟨-, i3⟩ | ⟨i3, -⟩
          · rw [← hg]; exact (ha.u.cells i c).2 ⟨j, o', s', v, d, i2, i3, h3, h4, h5⟩
          · omega
        · rw [if_pos i1] at h4; omega
    | none =>
      rw [Option.none_or, hnew]
      constructor
      · rintro ⟨v, d, h1, h2, rfl⟩
        exact ⟨objs.length, o, s, v, d, (hobj _ _).2 (Or.inr ⟨rfl, rfl⟩), (hst _ _).2 (Or.inr ⟨rfl, rfl⟩), h1, by simpa using h2, by simp⟩
      · rintro ⟨j, o', s', v, d, h1, h2, h3, h4, h5⟩
        rcases (hobj _ _).1 h1 with ⟨i1, i2⟩ | ⟨i1, rfl⟩
        · rw [if_neg (by omega)] at h4
          rw [hcong j o' i2 v d h3 s'] at h5
          rcases (hst _ _).1 h2 with ⟨-, i3⟩ | ⟨i3, -⟩
          · have := (ha.u.cells i c).2 ⟨j, o', s', v, d, i2, i3, h3, h4, h5⟩
            rw [hg] at this; cases this
          · omega
        · rw [if_pos i1] at h4
          rcases (hst _ _).1 h2 with ⟨i3, -⟩ | ⟨-, rfl⟩
          · omega
          · subst i1
            exact ⟨v, d, h3, h4, by simpa using h5⟩
  · intro j o1 v j' o2 v' h1 h2 h3 h4 h5
    rcases (hobj _ _).1 h1 with ⟨i1, i2⟩ | ⟨i1, rfl⟩ <;> rcases (hobj _ _).1 h3 with ⟨i3, i4⟩ | ⟨i3, rfl⟩
    · rw [if_neg (by omega), if_neg (by omega)] at h5
      exact ha.u.apartC _ _ _ _ _ _ i2 h2 i4 h4 h5
    · rw [if_neg (by omega), if_pos i3] at h5
      have := ha.ltC _ _ _ i2 h2; omega
    · rw [if_pos i1, if_neg (by omega)] at h5
      have := ha.ltC _ _ _ i4 h4; omega
    · rw [if_pos i1, if_pos i3] at h5
      exact ⟨i1.trans i3.symm, pos_inj ho.good.cells h2 h4 (by omega)⟩
  · have key : ∀ {α : Type} {d : Data α} {l : List α} {n : Nat}, Ok d → (∀ i, has d i = true → i < n) → Ok (d ++ numbered n l) := by
      intro α d l n h1 h2
      unfold Ok at h1 ⊢
      rw [map_append, nodup_append]
      refine ⟨h1, (ok_numbered l n).1, ?_⟩
      rintro a h3 b h4 rfl
      have := h2 a ((has_iff _ _).2 h3)
      obtain ⟨e, he, rfl⟩ := mem_map.1 h4
      have := ((ok_numbered l n).2 e he).1
      omega
    rw [b2, b3]
    exact ⟨key ha.u.once.1 hn, key ha.u.once.2 hk⟩
  · intro j o' v h1 h2
    rcases (hobj _ _).1 h1 with ⟨i1, i2⟩ | ⟨i1, rfl⟩
    · rw [if_neg (by omega)]; have := ha.ltV _ _ _ i2 h2; omega
    · rw [if_pos i1]; have := pos_lt ho.good.verts h2; omega
  · intro j o' v h1 h2
    rcases (hobj _ _).1 h1 with ⟨i1, i2⟩ | ⟨i1, rfl⟩
    · rw [if_neg (by omega)]; have := ha.ltC _ _ _ i2 h2; omega
    · rw [if_pos i1]; have := pos_lt ho.good.cells h2; omega
  · intro o' s' h1 h2
    simp at h1 h2
    subst h1 h2
    exact b8

theorem acc_loop : ∀ (rest : List (Obj P × Int)) (objs : List (Obj P)) (start : List Int) (t : Obj P) (n k : Nat) (nv nc : Nat → Nat → Nat),
    Acc objs start t n k nv nc → (∀ o ∈ objs, Plain o) → (∀ e ∈ rest, Plain e.1 ∧ ∀ i c, get e.1.cells i = some c → InRange (c.pid + e.2)) →
    ∃ t' n' k', rest.foldlM stitchOne (t, n, k) = some (t', n', k') ∧ t'.type = t.type ∧ t'.tol = t.tol ∧
      ∃ nv' nc', Acc (objs ++ rest.map Prod.fst) (start ++ rest.map Prod.snd) t' n' k' nv' nc' := by
  intro rest
  induction rest with
  | nil => intro objs start t n k nv nc h _ _; exact ⟨t, n, k, rfl, rfl, rfl, nv, nc, by simpa using h⟩
  | cons e rest ih =>
    intro objs start t n k nv nc h hp hr
    obtain ⟨t1, a1, a2, a3, nv1, nc1, a4⟩ := acc_step h hp (hr e (by simp)).1 e.2 (hr e (by simp)).2
    obtain ⟨t2, n2, k2, b1, b2, b3, nv2, nc2, b4⟩ := ih _ _ _ _ _ _ _ a4 (by
      intro o ho
      rcases mem_append.1 ho with ho | ho
      · exact hp o ho
      · simp only [mem_singleton] at ho; subst ho; exact (hr e (by simp)).1) (fun e' he' => hr e' (by simp [he']))
    refine ⟨t2, n2, k2, ?_, b2.trans a2, b3.trans a3, nv2, nc2, ?_⟩
    · rw [foldlM_cons, a1]; exact b1
    · simpa using b4

/-- `r` is the disjoint union of `objs`, in which the vertices listed in `m` have been replaced by others at nearly the
same place -/
structure UnionUpTo (close : P → P → Prop) (objs : List (Obj P)) (start : List Int) (r : Obj P) (nv nc : Nat → Nat → Nat)
    (m : List (Nat × Nat)) : Prop where
  verts : ∀ n p, get r.verts n = some p ↔
    (∃ k o v, objs[k]? = some o ∧ get o.verts v = some p ∧ n = nv k v) ∧ ∀ e ∈ m, e.1 ≠ n
  apartV : ∀ k o v k' o' v', objs[k]? = some o → has o.verts v = true → objs[k']? = some o' → has o'.verts v' = true →
    nv k v = nv k' v' → k = k' ∧ v = v'
  cells : ∀ n c, get r.cells n = some c ↔
    ∃ k o s i d, objs[k]? = some o ∧ start[k]? = some s ∧ get o.cells i = some d ∧ n = nc k i ∧ c = renumber m (copyOf (nv k) s d)
  apartC : ∀ k o i k' o' i', objs[k]? = some o → has o.cells i = true → objs[k']? = some o' → has o'.cells i' = true →
    nc k i = nc k' i' → k = k' ∧ i = i'
  once : Ok r.verts ∧ Ok r.cells
  merged : ∀ e ∈ m, e.1 ≠ e.2 ∧ (∀ e' ∈ m, e'.1 ≠ e.2) ∧ ∃ k o v p k' o' v' q,
    objs[k]? = some o ∧ get o.verts v = some p ∧ e.1 = nv k v ∧ objs[k']? = some o' ∧ get o'.verts v' = some q ∧ e.2 = nv k' v' ∧ close p q

/-- first new PIDs, as `execute` computes them -/
def startsOf (repid : Bool) (objs : List (Obj P)) : Option (List Int) :=
  if repid then repidStarts (-1) objs else some (objs.map (fun _ => 0))

theorem repid_length : ∀ (objs : List (Obj P)) (m : Int) (l : List Int), repidStarts m objs = some l → l.length = objs.length := by
  intro objs
  induction objs with
  | nil => intro m l h; simp [repidStarts] at h; subst h; rfl
  | cons o objs ih =>
    intro m l h
    rw [repidStarts, Option.bind_eq_some_iff] at h
    obtain ⟨a, -, h⟩ := h
    rw [Option.map_eq_some_iff] at h
    obtain ⟨l', h1, rfl⟩ := h
    simp [ih _ _ h1]

theorem starts_length {repid : Bool} {objs : List (Obj P)} {l : List Int} (h : startsOf repid objs = some l) : l.length = objs.length := by
  unfold startsOf at h
  cases repid with
  | true => exact repid_length _ _ _ h
  | false => simp at h; subst h; simp

/-- everything about an execution -/
theorem execute_spec {close : P → P → Prop} {clean : Obj P → Data P × Data Cell}
    (hclean : ∀ t : Obj P, ∃ m, Cleaned close t.verts t.cells (clean t).1 (clean t).2 m) (s : Stitch) (h1 : 1 ≤ s.topo) (h4 : s.topo ≤ 4)
    (w : Nat → Obj P) (ord : List Nat) (hp : ∀ g ∈ ord, Plain (w g)) {starts : List Int} (hs : startsOf s.repid (ord.map w) = some starts)
    (hr : ∀ (k : Nat) g z i c, ord[k]? = some g → starts[k]? = some z → get (w g).cells i = some c → InRange (c.pid + z)) :
    ∃ r nv nc m, s.execute clean w ord = some r ∧ (r.type : Int) = s.topo ∧ UnionUpTo close (ord.map w) starts r nv nc m ∧
      (∀ p, p ∈ r.pids ↔ ∃ n c, get r.cells n = some c ∧ c.pid = p) ∧
      ∀ g z, ord.getLast? = some g → starts.getLast? = some z → ∀ p ∈ r.pids, nameOf r.names p = some (nameFrom (w g) z p) := by
  obtain ⟨t0, c1, c2, c3, c4, c5, c6, c7⟩ := ctor_spec (P := P) (k := s.topo.toNat) (by omega) (by omega)
  rw [Int.toNat_of_nonneg (by omega)] at c1
  have hlen := starts_length hs
  have hacc : Acc ([] : List (Obj P)) [] t0 0 0 (fun _ _ => 0) (fun _ _ => 0) := by
    refine ⟨⟨?_, ?_, ?_, ?_, ?_⟩, rfl, ?_, ?_, c7, ?_, ?_⟩
    · intro n p; rw [c3]; simp [Field.get]
    · intro k o v k' o' v' h; simp at h
    · intro n p; rw [c4]; simp [Field.get]
    · intro k o v k' o' v' h; simp at h
    · rw [c3, c4]; simp [Ok]
    · intro j o v h; simp at h
    · intro j o v h; simp at h
    · rw [c5, c4]; rfl
    · intro o z h; simp at h
  obtain ⟨T, n, k, d1, d2, d3, nv, nc, d4⟩ := acc_loop ((ord.map w).zip starts) [] [] t0 0 0 _ _ hacc (by simp) (by
    intro e he
    obtain ⟨j, hj⟩ := mem_iff_getElem?.1 he
    rw [getElem?_zip_eq_some, getElem?_map, Option.map_eq_some_iff] at hj
    obtain ⟨⟨g, hg, hge⟩, hz⟩ := hj
    rw [← hge]
    exact ⟨hp g (mem_of_getElem? hg), fun i c hc => hr j g e.2 i c hg hz hc⟩)
  have hz1 : ((ord.map w).zip starts).map Prod.fst = ord.map w := map_fst_zip (by omega)
  have hz2 : ((ord.map w).zip starts).map Prod.snd = starts := map_snd_zip (by omega)
  rw [hz1, hz2, nil_append, nil_append] at d4
  obtain ⟨m, g1, g2, g3⟩ := hclean T
  obtain ⟨e1, e2, e3, e4, e5, e6, e7⟩ := cleanGeometry_spec T (clean T).1 (clean T).2 d4.notree
  obtain ⟨r, u1, u2, u3⟩ := update_noTree e7
  have hcells : ∀ n, get r.cells n = (get T.cells n).map (renumber m) := by
    intro n; rw [u2.cells, e2, g2, get_map_snd]
  refine ⟨r, nv, nc, m, ?_, ?_, ⟨?_, d4.u.apartV, ?_, d4.u.apartC, ?_, ?_⟩, ?_, ?_⟩
  · unfold Stitch.execute
    unfold startsOf at hs
    rw [c1]
    simp only [Option.bind_some, hs, d1]
    exact u1
  · rw [u2.type, e3, d2, c2]; omega
  · intro n p
    rw [u2.verts, e1, g1]
    have := get_filter (fun i => ! m.any (fun e => e.1 == i)) T.verts n
    rw [this, ← d4.u.verts]
    by_cases hm : m.any (fun e => e.1 == n) = true
    · simp only [hm, Bool.not_true, Bool.false_eq_true, if_false]
      constructor
      · intro h; cases h
      · rintro ⟨-, h⟩
        rw [any_eq_true] at hm
        obtain ⟨e, he, he'⟩ := hm
        exact absurd (by simpa using he') (h e he)
    · simp only [hm, Bool.not_false, if_true]
      constructor
      · intro h
        refine ⟨h, fun e he heq => hm ?_⟩
        rw [any_eq_true]; exact ⟨e, he, by simpa using heq⟩
      · exact fun h => h.1
  · intro n c
    rw [hcells, Option.map_eq_some_iff]
    constructor
    · rintro ⟨c', h, rfl⟩
      obtain ⟨k, o, z, i, d, a1, a2, a3, a4, rfl⟩ := (d4.u.cells n c').1 h
      exact ⟨k, o, z, i, d, a1, a2, a3, a4, rfl⟩
    · rintro ⟨k, o, z, i, d, a1, a2, a3, a4, rfl⟩
      exact ⟨_, (d4.u.cells n _).2 ⟨k, o, z, i, d, a1, a2, a3, a4, rfl⟩, rfl⟩
  · constructor
    · rw [u2.verts, e1, g1]
      exact List.Nodup.sublist (filter_sublist.map _) d4.u.once.1
    · rw [u2.cells, e2, g2]
      exact ok_map_snd d4.u.once.2 _
  · intro e he
    obtain ⟨i1, i2, p, q, i3, i4, i5⟩ := g3 e he
    obtain ⟨k, o, v, j1, j2, j3⟩ := (d4.u.verts _ _).1 i3
    obtain ⟨k', o', v', l1, l2, l3⟩ := (d4.u.verts _ _).1 i4
    refine ⟨i1, ?_, k, o, v, p, k', o', v', q, j1, j2, j3, l1, l2, l3, i5⟩
    intro e' he' heq
    rw [any_eq_false] at i2
    exact i2 e' he' (by simpa using heq)
  · intro p
    rw [u2.pids, e4, d4.pids, mem_distinct, mem_map]
    constructor
    · rintro ⟨e, he, rfl⟩
      exact ⟨e.1, renumber m e.2, by rw [hcells, get_of_mem d4.u.once.2 he]; rfl, rfl⟩
    · rintro ⟨n, c, h1, rfl⟩
      rw [hcells, Option.map_eq_some_iff] at h1
      obtain ⟨c', h2, rfl⟩ := h1
      exact ⟨(n, c'), get_some_mem h2, rfl⟩
  · intro g z hg hz p hp'
    rw [u2.names, e5]
    rw [u2.pids, e4] at hp'
    exact d4.names (w g) z (by rw [getLast?_map, hg]; rfl) hz p hp'

/-! ### C106 -/

/-- the geometries of a block after any calls -/
theorem C106_inputs (s : Stitch) (w : Nat → Obj P) (gs : List Nat) (hn : s.geos.Nodup) :
    (gs.foldl (fun s g => s.add w g) s).geos.Nodup ∧ (gs.foldl (fun s g => s.add w g) s).topo = s.topo ∧
    (gs.foldl (fun s g => s.add w g) s).repid = s.repid ∧
    ∀ g, g ∈ (gs.foldl (fun s g => s.add w g) s).geos ↔ g ∈ s.geos ∨ (g ∈ gs ∧ ((w g).type : Int) = s.topo) := by
  induction gs generalizing s with
  | nil => simp [hn]
  | cons a gs ih =>
    have key : (s.add w a).geos.Nodup ∧ (s.add w a).topo = s.topo ∧ (s.add w a).repid = s.repid ∧
        ∀ g, g ∈ (s.add w a).geos ↔ g ∈ s.geos ∨ (g = a ∧ ((w g).type : Int) = s.topo) := by
      unfold Stitch.add
      split
      · next h => exact ⟨hn, rfl, rfl, fun g => by constructor; exact Or.inl; (rintro (h' | ⟨rfl, h'⟩); exact h'; exact absurd h' h)⟩
      · next h =>
        split
        · next h2 => exact ⟨hn, rfl, rfl, fun g => by constructor; exact Or.inl; (rintro (h' | ⟨rfl, h'⟩); exact h'; exact h2)⟩
        · next h2 =>
          refine ⟨by rw [nodup_append]; exact ⟨hn, by simp, by simp; exact fun x hx hxa => h2 (hxa ▸ hx)⟩, rfl, rfl, fun g => ?_⟩
          simp only [mem_append, mem_singleton]
          constructor
          · rintro (h' | rfl)
            · exact Or.inl h'
            · exact Or.inr ⟨rfl, by simpa using h⟩
          · rintro (h' | ⟨rfl, -⟩)
            · exact Or.inl h'
            · exact Or.inr rfl
    obtain ⟨k1, k2, k3, k4⟩ := key
    obtain ⟨i1, i2, i3, i4⟩ := ih (s.add w a) k1
    refine ⟨i1, i2.trans k2, i3.trans k3, fun g => ?_⟩
    rw [foldl_cons, i4, k4, k2]
    simp only [mem_cons]
    grind

/-- C106, partial (full statement: any geometries, and blocks constructed for any topology): after any geometries were
added to a block made from XML, whatever the order in which they are visited, the result is the disjoint union of those
with the topology of the block, except that vertices at nearly the same place are merged, everywhere.  Missing, because
false: polyhedra, blocks constructed with a topology. -/
theorem C106_union_partial {close : P → P → Prop} {clean : Obj P → Data P × Data Cell}
    (hclean : ∀ t : Obj P, ∃ m, Cleaned close t.verts t.cells (clean t).1 (clean t).2 m) (topo : Int) (repid : Bool) (w : Nat → Obj P) (gs : List Nat)
    (hp : ∀ g ∈ gs, (w g).type = (Stitch.newXml topo).topo → Plain (w g)) {ord : List Nat}
    (ho : ord.Perm ((gs.foldl (fun s g => s.add w g) (Stitch.newXml topo)).forceRePID repid).geos) {starts : List Int}
    (hs : startsOf repid (ord.map w) = some starts)
    (hr : ∀ (k : Nat) g z i c, ord[k]? = some g → starts[k]? = some z → get (w g).cells i = some c → InRange (c.pid + z)) :
    (∀ g, g ∈ ord ↔ g ∈ gs ∧ ((w g).type : Int) = (Stitch.newXml topo).topo) ∧ ord.Nodup ∧
    ∃ r nv nc m, ((gs.foldl (fun s g => s.add w g) (Stitch.newXml topo)).forceRePID repid).execute clean w ord = some r ∧
      (r.type : Int) = (Stitch.newXml topo).topo ∧ UnionUpTo close (ord.map w) starts r nv nc m := by
  obtain ⟨i1, i2, i3, i4⟩ := C106_inputs (Stitch.newXml topo) w gs (by simp [Stitch.newXml])
  have hmem : ∀ g, g ∈ ord ↔ g ∈ gs ∧ ((w g).type : Int) = (Stitch.newXml topo).topo := by
    intro g
    rw [ho.mem_iff]
    show g ∈ (gs.foldl (fun s g => s.add w g) (Stitch.newXml topo)).geos ↔ _
    rw [i4]; simp [Stitch.newXml]
  refine ⟨hmem, ho.nodup_iff.2 i1, ?_⟩
  have ht : ((gs.foldl (fun s g => s.add w g) (Stitch.newXml topo)).forceRePID repid).topo = (Stitch.newXml topo).topo := i2
  obtain ⟨r, nv, nc, m, a1, a2, a3, -, -⟩ := execute_spec hclean ((gs.foldl (fun s g => s.add w g) (Stitch.newXml topo)).forceRePID repid)
    (by rw [ht]; unfold Stitch.newXml; dsimp only; split <;> omega) (by rw [ht]; unfold Stitch.newXml; dsimp only; split <;> omega)
    w ord (fun g hg => hp g ((hmem g).1 hg).1 ((hmem g).1 hg).2) hs hr
  exact ⟨r, nv, nc, m, a1, by rw [a2, ht], a3⟩

/-- C106: when no two vertices are at nearly the same place, nothing is merged. -/
theorem C106_exact_partial {close : P → P → Prop} {objs : List (Obj P)} {starts : List Int} {r : Obj P} {nv nc : Nat → Nat → Nat} {m : List (Nat × Nat)}
    (h : UnionUpTo close objs starts r nv nc m)
    (hfar : ∀ (k : Nat) o v p (k' : Nat) o' v' q, objs[k]? = some o → get o.verts v = some p → objs[k']? = some o' → get o'.verts v' = some q →
      (k, v) ≠ (k', v') → ¬ close p q) : Union objs starts r nv nc := by
  have hm : m = [] := by
    cases m with
    | nil => rfl
    | cons e m =>
      obtain ⟨h1, -, k, o, v, p, k', o', v', q, a1, a2, a3, b1, b2, b3, hc⟩ := h.merged e (by simp)
      exact absurd hc (hfar k o v p k' o' v' q a1 a2 b1 b2 (by rintro ⟨⟩; exact h1 (a3.trans b3.symm)))
  subst hm
  refine ⟨fun n p => by rw [h.verts]; simp, h.apartV, fun n c => by rw [h.cells]; simp only [renumber_nil], h.apartC, h.once⟩

/-- C106 does not hold for blocks constructed with a topology: a block asked for volumes, point clouds or curves takes
surfaces only; one asked for an unknown topology below one takes nothing. -/
theorem C106_topology_fails (topo : Int) (w : Nat → Obj P) (g : Nat) :
    (2 ≤ topo → (w g).type = topo → ((Stitch.new topo).add w g).geos = []) ∧ (topo ≤ 0 → 1 ≤ (w g).type → ((Stitch.new topo).add w g).geos = []) := by
  constructor
  · intro h1 h2
    unfold Stitch.add Stitch.new
    rw [if_pos]
    dsimp only
    rw [min_eq_left (by omega)]; simp; omega
  · intro h1 h2
    unfold Stitch.add Stitch.new
    rw [if_pos]
    dsimp only
    rw [min_eq_right (by omega)]; split <;> omega

theorem flatten_ne (m : Data Nat) : ∀ (faces : List (List Nat)), faces ≠ [] → (∀ f ∈ faces, f ≠ []) → ∀ gs : List (List Int), gs.length = faces.length →
    (stitchFaces m (faces.length - 1) ((faces.map (fun f => f.length :: f)).flatten)).map Int.ofNat ≠ (gs.map faceRec).flatten := by
  intro faces
  induction faces with
  | nil => intro h; exact absurd rfl h
  | cons f fs ih =>
    intro _ hne gs hl heq
    cases gs with
    | nil => simp at hl
    | cons g gs =>
      cases fs with
      | nil =>
        have : gs = [] := by simpa using hl
        subst this
        have hf := hne f (by simp)
        simp only [length_cons, length_nil, map_cons, map_nil, flatten_cons, flatten_nil, append_nil, stitchFaces, faceRec, Nat.zero_add,
          Nat.sub_self, replicate_succ, map_replicate] at heq
        obtain ⟨h1, h2⟩ := cons.inj heq
        have h3 := congrArg length h2
        simp at h3
        have : g.length = 0 := by have : (0 : Int) = (g.length : Int) := h1; omega
        exact hf (by rw [← length_eq_zero_iff]; omega)
      | cons f' fs =>
        have e : (f :: f' :: fs).length - 1 = ((f' :: fs).length - 1) + 1 := by simp
        rw [e, map_cons, flatten_cons, cons_append, stitchFaces, take_left' rfl, drop_left' rfl, map_cons, map_cons, flatten_cons, map_append] at heq
        unfold faceRec at heq
        rw [cons_append] at heq
        obtain ⟨h1, h2⟩ := cons.inj heq
        obtain ⟨-, h4⟩ := append_inj h2 (by
          simp only [length_map]; have : (f.length : Int) = (g.length : Int) := h1; omega)
        exact ih (by simp) (fun x hx => hne x (by simp [hx])) gs (by simpa using hl) h4

/-- C106 does not hold for polyhedra: the last face is not copied, the record is then incoherent and every polyhedron is
dropped. -/
theorem C106_polyhedron_fails (m : Data Nat) (s : Int) (t : Obj P) (n i : Nat) (pid : Int) (faces : List (List Nat)) (h0 : faces ≠ [])
    (hne : ∀ f ∈ faces, f ≠ []) :
    stitchCell m s (t, n) (i, ⟨.polyhedron, faces.length :: (faces.map (fun f => f.length :: f)).flatten, pid, true⟩) = some (t, n + 1) := by
  unfold stitchCell stitchConn
  dsimp only
  rw [Option.map_some]
  have : checkConn .polyhedron ((faces.length :: stitchFaces m (faces.length - 1) ((faces.map (fun f => f.length :: f)).flatten)).map Int.ofNat) = false := by
    cases hc : checkConn .polyhedron ((faces.length :: stitchFaces m (faces.length - 1) ((faces.map (fun f => f.length :: f)).flatten)).map Int.ofNat) with
    | false => rfl
    | true =>
      unfold checkConn at hc
      dsimp only at hc
      split at hc
      · cases hc
      · rw [polyhedronRecord_iff _ (by simp) (by
          intro x hx
          obtain ⟨y, -, rfl⟩ := mem_map.1 hx
          exact Int.natCast_nonneg y)] at hc
        obtain ⟨gs, hg⟩ := hc
        rw [map_cons] at hg
        obtain ⟨h1, h2⟩ := cons.inj hg
        exact absurd h2 (flatten_ne m faces h0 hne gs (by have : (faces.length : Int) = (gs.length : Int) := h1; omega))
  unfold addConnectedCell
  rw [if_neg (by simp)]
  by_cases hh : (some n).any (fun i => has t.cells i) = true
  · rw [if_pos hh]
  · rw [if_neg hh, if_pos this]

/-- a tetrahedron written as a polyhedron -/
example : (⟨.polyhedron, [4, 3, 0, 1, 2, 3, 0, 1, 3, 3, 1, 2, 3, 3, 0, 2, 3], 0, true⟩ : Cell).conn =
    [[0, 1, 2], [0, 1, 3], [1, 2, 3], [0, 2, 3]].length :: ([[0, 1, 2], [0, 1, 3], [1, 2, 3], [0, 2, 3]].map (fun f => f.length :: f)).flatten := by decide

/-! ### C107 -/

theorem max_spec {l : List Int} {m : Int} (h : maxPid l = some m) : ∀ p ∈ l, p ≤ m := by
  cases l with
  | nil => simp [maxPid] at h
  | cons a l =>
    simp only [maxPid, Option.some.injEq] at h
    have key : ∀ (l : List Int) (a : Int), a ≤ l.foldl max a ∧ ∀ p ∈ l, p ≤ l.foldl max a := by
      intro l
      induction l with
      | nil => intro a; simp
      | cons b l ih =>
        intro a
        obtain ⟨h1, h2⟩ := ih (max a b)
        rw [foldl_cons]
        refine ⟨by omega, fun p hp => ?_⟩
        rcases mem_cons.1 hp with rfl | hp
        · omega
        · exact h2 p hp
    intro p hp
    obtain ⟨h1, h2⟩ := key l a
    rcases mem_cons.1 hp with rfl | hp
    · omega
    · have := h2 p hp; omega

theorem repid_spec : ∀ (objs : List (Obj P)) (m : Int) (l : List Int), repidStarts m objs = some l → (∀ o ∈ objs, ∀ p ∈ o.pids, 0 ≤ p) →
    (∀ (k : Nat) z, l[k]? = some z → m < z) ∧
    (∀ (k k' : Nat) o z z', k < k' → objs[k]? = some o → l[k]? = some z → l[k']? = some z' → ∀ p ∈ o.pids, p + z < z') := by
  intro objs
  induction objs with
  | nil =>
    intro m l h _
    simp [repidStarts] at h; subst h
    exact ⟨by simp, by simp⟩
  | cons o objs ih =>
    intro m l h hpos
    rw [repidStarts, Option.bind_eq_some_iff] at h
    obtain ⟨a, ha, h⟩ := h
    rw [Option.map_eq_some_iff] at h
    obtain ⟨l', h1, rfl⟩ := h
    obtain ⟨i1, i2⟩ := ih _ _ h1 (fun o' ho' => hpos o' (by simp [ho']))
    have hmax := max_spec ha
    have h0 : 0 ≤ a := by
      unfold maxPid at ha
      cases ho : o.pids with
      | nil => rw [ho] at ha; cases ha
      | cons x l =>
        have := hpos o (by simp) x (by simp [ho])
        have := hmax x (by simp [ho])
        omega
    constructor
    · intro k z hz
      cases k with
      | zero => simp at hz; omega
      | succ k => rw [getElem?_cons_succ] at hz; have := i1 k z hz; omega
    · intro k k' o' z z' hk ho hz hz' p hp
      cases k' with
      | zero => omega
      | succ k' =>
        rw [getElem?_cons_succ] at hz'
        cases k with
        | zero =>
          simp only [getElem?_cons_zero, Option.some.injEq] at ho hz
          subst ho
          have := i1 k' z' hz'
          have := hmax p hp
          omega
        | succ k =>
          rw [getElem?_cons_succ] at ho hz
          exact i2 k k' o' z z' (by omega) ho hz hz' p hp

theorem repid_some : ∀ (objs : List (Obj P)) (m : Int), (∀ o ∈ objs, o.pids ≠ []) → ∃ l, repidStarts m objs = some l := by
  intro objs
  induction objs with
  | nil => intro m _; exact ⟨[], rfl⟩
  | cons o objs ih =>
    intro m h
    cases ho : o.pids with
    | nil => exact absurd ho (h o (by simp))
    | cons a l =>
      obtain ⟨l', hl'⟩ := ih (m + (l.foldl max a + 1)) (fun o' ho' => h o' (by simp [ho']))
      exact ⟨(m + 1) :: l', by simp [repidStarts, ho, maxPid, hl']⟩

theorem cell_at {close : P → P → Prop} {objs : List (Obj P)} {starts : List Int} {r : Obj P} {nv nc : Nat → Nat → Nat} {m : List (Nat × Nat)}
    (h : UnionUpTo close objs starts r nv nc m) {k i : Nat} {o : Obj P} {d c : Cell} (hk : objs[k]? = some o) (hd : get o.cells i = some d)
    (hc : get r.cells (nc k i) = some c) : ∃ z, starts[k]? = some z ∧ c.pid = d.pid + z ∧ c.elem = d.elem := by
  obtain ⟨k', o', z, i', d', a1, a2, a3, a4, rfl⟩ := (h.cells _ _).1 hc
  obtain ⟨rfl, rfl⟩ := h.apartC _ _ _ _ _ _ hk (has_some.2 ⟨d, hd⟩) a1 (has_some.2 ⟨d', a3⟩) a4
  rw [a1] at hk; cases hk
  rw [a3] at hd; cases hd
  exact ⟨z, a2, rfl, rfl⟩

/-- C107: without re-PID every cell keeps its PID, and the PIDs of the result are those of the geometries. -/
theorem C107_keep_partial {close : P → P → Prop} {clean : Obj P → Data P × Data Cell}
    (hclean : ∀ t : Obj P, ∃ m, Cleaned close t.verts t.cells (clean t).1 (clean t).2 m) (s : Stitch) (h1 : 1 ≤ s.topo) (h4 : s.topo ≤ 4)
    (w : Nat → Obj P) (ord : List Nat) (hp : ∀ g ∈ ord, Plain (w g)) (hrep : s.repid = false) :
    ∃ r nv nc m starts, s.execute clean w ord = some r ∧ UnionUpTo close (ord.map w) starts r nv nc m ∧
      (∀ (k : Nat) o i d c, (ord.map w)[k]? = some o → get o.cells i = some d → get r.cells (nc k i) = some c → c.pid = d.pid) ∧
      ∀ p, p ∈ r.pids ↔ ∃ g ∈ ord, ∃ i d, get (w g).cells i = some d ∧ d.pid = p := by
  have hs : startsOf s.repid (ord.map w) = some ((ord.map w).map (fun _ => 0)) := by rw [hrep]; rfl
  have hz : ∀ (k : Nat) z, ((ord.map w).map (fun _ => (0 : Int)))[k]? = some z → z = 0 := by
    intro k z h
    rw [getElem?_map, Option.map_eq_some_iff] at h
    obtain ⟨_, -, h⟩ := h
    exact h.symm
  obtain ⟨r, nv, nc, m, a1, a2, a3, a4, -⟩ := execute_spec hclean s h1 h4 w ord hp hs (by
    intro k g z i c hg h hc
    rw [hz k z h, Int.add_zero]
    exact (hp g (mem_of_getElem? hg)).good.pid i c hc)
  refine ⟨r, nv, nc, m, _, a1, a3, ?_, ?_⟩
  · intro k o i d c hk hd hc
    obtain ⟨z, b1, b2, -⟩ := cell_at a3 hk hd hc
    rw [b2, hz k z b1, Int.add_zero]
  · intro p
    rw [a4]
    constructor
    · rintro ⟨n, c, hc, rfl⟩
      obtain ⟨k, o, z, i, d, b1, b2, b3, b4, rfl⟩ := (a3.cells n c).1 hc
      rw [getElem?_map, Option.map_eq_some_iff] at b1
      obtain ⟨g, hg, rfl⟩ := b1
      refine ⟨g, mem_of_getElem? hg, i, d, b3, ?_⟩
      show d.pid = d.pid + z
      rw [hz k z b2, Int.add_zero]
    · rintro ⟨g, hg, i, d, hd, rfl⟩
      obtain ⟨k, hk⟩ := mem_iff_getElem?.1 hg
      refine ⟨nc k i, _, (a3.cells _ _).2 ⟨k, w g, 0, i, d, by rw [getElem?_map, hk]; rfl, by rw [getElem?_map, getElem?_map, hk]; rfl, hd, rfl, rfl⟩, ?_⟩
      show d.pid + 0 = d.pid
      rw [Int.add_zero]

/-- C107, partial (full statement: any geometries, names included): with re-PID two cells of the result have the same PID
exactly if they come from the same geometry and had the same PID there.  Missing, because false: geometries without
PIDs, negative PIDs. -/
theorem C107_repid_partial {close : P → P → Prop} {clean : Obj P → Data P × Data Cell}
    (hclean : ∀ t : Obj P, ∃ m, Cleaned close t.verts t.cells (clean t).1 (clean t).2 m) (s : Stitch) (h1 : 1 ≤ s.topo) (h4 : s.topo ≤ 4)
    (w : Nat → Obj P) (ord : List Nat) (hp : ∀ g ∈ ord, Plain (w g)) (hrep : s.repid = true)
    (hl : ∀ g ∈ ord, PidsListed (w g) ∧ (w g).pids ≠ [] ∧ ∀ p ∈ (w g).pids, 0 ≤ p)
    (hr : ∀ starts, startsOf true (ord.map w) = some starts → ∀ (k : Nat) g z i c, ord[k]? = some g → starts[k]? = some z →
      get (w g).cells i = some c → InRange (c.pid + z)) :
    ∃ r nv nc m starts, s.execute clean w ord = some r ∧ UnionUpTo close (ord.map w) starts r nv nc m ∧
      (∀ (k : Nat) o i d c (k' : Nat) o' i' d' c', (ord.map w)[k]? = some o → get o.cells i = some d → get r.cells (nc k i) = some c →
        (ord.map w)[k']? = some o' → get o'.cells i' = some d' → get r.cells (nc k' i') = some c' →
        (c.pid = c'.pid ↔ k = k' ∧ d.pid = d'.pid)) ∧
      ∀ p, p ∈ r.pids ↔ ∃ n c, get r.cells n = some c ∧ c.pid = p := by
  have hmem : ∀ o ∈ ord.map w, ∃ g ∈ ord, w g = o := fun o ho => mem_map.1 ho
  obtain ⟨starts, hs⟩ := repid_some (ord.map w) (-1) (by
    intro o ho; obtain ⟨g, hg, rfl⟩ := hmem o ho; exact (hl g hg).2.1)
  obtain ⟨-, hsep⟩ := repid_spec _ _ _ hs (by
    intro o ho; obtain ⟨g, hg, rfl⟩ := hmem o ho; exact (hl g hg).2.2)
  have hs' : startsOf s.repid (ord.map w) = some starts := by rw [hrep]; exact hs
  obtain ⟨r, nv, nc, m, a1, a2, a3, a4, -⟩ := execute_spec hclean s h1 h4 w ord hp hs' (hr starts hs)
  refine ⟨r, nv, nc, m, starts, a1, a3, ?_, a4⟩
  intro k o i d c k' o' i' d' c' hk hd hc hk' hd' hc'
  obtain ⟨z, b1, b2, -⟩ := cell_at a3 hk hd hc
  obtain ⟨z', b1', b2', -⟩ := cell_at a3 hk' hd' hc'
  have hin : ∀ {o : Obj P} {k i : Nat} {d : Cell}, (ord.map w)[k]? = some o → get o.cells i = some d → d.pid ∈ o.pids ∧ 0 ≤ d.pid := by
    intro o k i d hk hd
    obtain ⟨g, hg, rfl⟩ := hmem o (mem_of_getElem? hk)
    have := (hl g hg).1 (i, d) (get_some_mem hd)
    exact ⟨this, (hl g hg).2.2 _ this⟩
  rw [b2, b2']
  rcases Nat.lt_trichotomy k k' with hlt | rfl | hlt
  · have := hsep k k' o z z' hlt hk b1 b1' d.pid (hin hk hd).1
    have := (hin hk' hd').2
    constructor
    · intro h; omega
    · rintro ⟨h, -⟩; omega
  · rw [b1] at b1'; cases b1'
    constructor
    · intro h; exact ⟨rfl, by omega⟩
    · rintro ⟨-, h⟩; omega
  · have := hsep k' k o' z' z hlt hk' b1' b1 d'.pid (hin hk' hd').1
    have := (hin hk hd).2
    constructor
    · intro h; omega
    · rintro ⟨h, -⟩; omega

/-- C107, names, partial: the PIDs of the geometry visited last keep their names.  -/
theorem C107_last_names_partial {close : P → P → Prop} {clean : Obj P → Data P × Data Cell}
    (hclean : ∀ t : Obj P, ∃ m, Cleaned close t.verts t.cells (clean t).1 (clean t).2 m) (s : Stitch) (h1 : 1 ≤ s.topo) (h4 : s.topo ≤ 4)
    (w : Nat → Obj P) (ord : List Nat) (hp : ∀ g ∈ ord, Plain (w g)) {starts : List Int} (hs : startsOf s.repid (ord.map w) = some starts)
    (hr : ∀ (k : Nat) g z i c, ord[k]? = some g → starts[k]? = some z → get (w g).cells i = some c → InRange (c.pid + z))
    {g : Nat} {z : Int} (hg : ord.getLast? = some g) (hz : starts.getLast? = some z) :
    ∃ r, s.execute clean w ord = some r ∧ ∀ p ∈ (w g).pids, p + z ∈ r.pids → nameOf r.names (p + z) = some ((nameOf (w g).names p).getD "") := by
  obtain ⟨r, nv, nc, m, a1, a2, a3, a4, a5⟩ := execute_spec hclean s h1 h4 w ord hp hs hr
  refine ⟨r, a1, fun p hp hpr => ?_⟩
  rw [a5 g z hg hz _ hpr, nameFrom, if_pos (by rw [Int.add_sub_cancel]; exact hp), Int.add_sub_cancel]

/-- C107 does not hold for the names: every PID that is not one of the geometry visited last gets the name of PID 0 of that
geometry (the empty name if there is none), whatever its own name was. -/
theorem C107_names_fails {close : P → P → Prop} {clean : Obj P → Data P × Data Cell}
    (hclean : ∀ t : Obj P, ∃ m, Cleaned close t.verts t.cells (clean t).1 (clean t).2 m) (s : Stitch) (h1 : 1 ≤ s.topo) (h4 : s.topo ≤ 4)
    (w : Nat → Obj P) (ord : List Nat) (hp : ∀ g ∈ ord, Plain (w g)) {starts : List Int} (hs : startsOf s.repid (ord.map w) = some starts)
    (hr : ∀ (k : Nat) g z i c, ord[k]? = some g → starts[k]? = some z → get (w g).cells i = some c → InRange (c.pid + z))
    {g : Nat} {z : Int} (hg : ord.getLast? = some g) (hz : starts.getLast? = some z) :
    ∃ r, s.execute clean w ord = some r ∧ ∀ p ∈ r.pids, p - z ∉ (w g).pids → nameOf r.names p = some ((nameOf (w g).names 0).getD "") := by
  obtain ⟨r, nv, nc, m, a1, a2, a3, a4, a5⟩ := execute_spec hclean s h1 h4 w ord hp hs hr
  refine ⟨r, a1, fun p hpr hp => ?_⟩
  rw [a5 g z hg hz _ hpr, nameFrom, if_neg hp]

/-- C107 does not hold with re-PID and a geometry without PIDs, such as a cloud without cells: the block reads the last
element of an empty list. -/
theorem C107_no_pid_fails (s : Stitch) (hrep : s.repid = true) (clean : Obj P → Data P × Data Cell) (w : Nat → Obj P) (ord : List Nat)
    {g : Nat} (hg : g ∈ ord) (h0 : (w g).pids = []) : s.execute clean w ord = none := by
  have key : ∀ (l : List Nat) (m : Int), g ∈ l → repidStarts m (l.map w) = none := by
    intro l
    induction l with
    | nil => intro m h; cases h
    | cons a l ih =>
      intro m h
      rw [map_cons, repidStarts]
      rcases mem_cons.1 h with rfl | h
      · rw [h0]; rfl
      · cases hm : maxPid (w a).pids with
        | none => rfl
        | some x => rw [Option.bind_some, ih _ h]; rfl
  unfold Stitch.execute
  dsimp only
  rw [if_pos hrep, key ord _ hg]
  cases (ctor s.topo : Option (Obj P)) <;> rfl

/-! Two triangles, the second next to the first -/

def patchA : Obj Int :=
  { strip with verts := [(5, 1), (3, 2), (8, 3)], cells := [(2, ⟨.triangle, [5, 3, 8], 1, true⟩)], pids := [1], names := [(1, "wing")] }
def patchB : Obj Int :=
  { strip with verts := [(0, 3), (1, 2), (3, 4)], cells := [(0, ⟨.polygon, [3, 0, 1, 3], 0, true⟩)], pids := [0], names := [(0, "tail")] }
def worldAB (g : Nat) : Obj Int := if g = 0 then patchA else patchB

/-- an instance of the cleaning: it merges vertex 4 into vertex 1 when both are there with the same coordinate -/
def cleanAB (t : Obj Int) : Data Int × Data Cell :=
  let m := if get t.verts 4 = some 2 ∧ get t.verts 1 = some 2 then [(4, 1)] else []
  (t.verts.filter (fun v => ! m.any (fun e => e.1 == v.1)), t.cells.map (fun c => (c.1, renumber m c.2)))

theorem cleanAB_ok (t : Obj Int) : ∃ m, Cleaned (fun a b => a = b) t.verts t.cells (cleanAB t).1 (cleanAB t).2 m := by
  refine ⟨if get t.verts 4 = some 2 ∧ get t.verts 1 = some 2 then [(4, 1)] else [], rfl, rfl, ?_⟩
  split
  · next h =>
    intro e he
    simp only [mem_singleton] at he
    subst he
    exact ⟨by decide, by decide, 2, 2, h.1, h.2, rfl⟩
  · intro e he; cases he

theorem plain_of {o : Obj P} (h1 : Ok o.verts) (h2 : Ok o.cells) (h3 : ∀ c ∈ o.cells, (∀ v ∈ vertexIds c.2, has o.verts v = true) ∧ InRange c.2.pid ∧
    c.2.interior = true ∧ c.2.elem ≠ .polyhedron ∧ c.2.conn ≠ [] ∧ checkConn c.2.elem (c.2.conn.map Int.ofNat) = true) : Plain o := by
  have h : ∀ id c, get o.cells id = some c → _ := fun id c hc => h3 (id, c) (get_some_mem hc)
  exact ⟨⟨h1, h2, fun id c hc => (h id c hc).1, fun id c hc => (h id c hc).2.1, fun id c hc => (h id c hc).2.2.1⟩,
    fun id c hc => (h id c hc).2.2.2.1, fun id c hc => (h id c hc).2.2.2.2⟩

theorem worldAB_plain (g : Nat) : Plain (worldAB g) := by
  unfold worldAB
  split
  · refine plain_of (by unfold Ok; decide) (by unfold Ok; decide) ?_
    simp [patchA, vertexIds, has, InRange]; decide
  · refine plain_of (by unfold Ok; decide) (by unfold Ok; decide) ?_
    simp [patchB, vertexIds, has, InRange]; decide

/-- C106 and C107 at work: the hypotheses hold and the name "wing" is lost -/
example : (∀ g, Plain (worldAB g)) ∧ startsOf true ([0, 1].map worldAB) = some [0, 2] ∧
    ([0, 1] : List Nat).Perm (([1, 0, 1].foldl (fun s g => s.add worldAB g) (Stitch.newXml 1)).forceRePID true).geos ∧
    (∀ g ∈ [0, 1], PidsListed (worldAB g) ∧ (worldAB g).pids ≠ [] ∧ ∀ p ∈ (worldAB g).pids, 0 ≤ p) ∧
    (∀ (k : Nat) g z i c, ([0, 1] : List Nat)[k]? = some g → ([0, 2] : List Int)[k]? = some z → get (worldAB g).cells i = some c → InRange (c.pid + z)) ∧
    ((([1, 0, 1].foldl (fun s g => s.add worldAB g) (Stitch.newXml 1)).forceRePID true).execute cleanAB worldAB [0, 1]).map (fun r => r.verts.map Prod.fst) = some [0, 1, 2, 3, 5] ∧
    ((([1, 0, 1].foldl (fun s g => s.add worldAB g) (Stitch.newXml 1)).forceRePID true).execute cleanAB worldAB [0, 1]).map (fun r => r.cells.map (fun c => (c.1, c.2.conn))) = some [(0, [0, 1, 2]), (1, [3, 3, 1, 5])] ∧
    ((([1, 0, 1].foldl (fun s g => s.add worldAB g) (Stitch.newXml 1)).forceRePID true).execute cleanAB worldAB [0, 1]).map (fun r => r.names) = some [(1, "tail"), (2, "tail")] := by
  refine ⟨worldAB_plain, by decide, by decide, ?_, ?_, by decide, by decide, by decide⟩
  · intro g hg
    simp only [mem_cons, not_mem_nil, or_false] at hg
    rcases hg with rfl | rfl <;> refine ⟨by unfold PidsListed; decide, by decide, by decide⟩
  · intro k g z i c hg hz hc
    have hm := get_some_mem hc
    rcases k with _ | _ | k
    · simp at hg hz; subst hg hz
      simp [worldAB, patchA] at hm
      rw [hm.2]; unfold InRange; decide
    · simp at hg hz; subst hg hz
      simp [worldAB, patchB] at hm
      rw [hm.2]; unfold InRange; decide
    · simp at hg

/-- C107 does not hold with negative PIDs: cells of two geometries get the same PID. -/
theorem C107_negative_fails :
    let w : Nat → Obj Int := fun g => if g = 0 then patchB else { patchA with cells := [(2, ⟨.triangle, [5, 3, 8], -1, true⟩)], pids := [-1], names := [(-1, "")] }
    (({ topo := 1, geos := [0, 1], repid := true } : Stitch).execute (fun t => (t.verts, t.cells)) w [0, 1]).map
      (fun r => r.cells.map (fun c => (c.1, c.2.pid))) = some [(0, 0), (1, 0)] := by decide

end Verif.Select
