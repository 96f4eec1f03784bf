import Verif.Create.RefineProps
/-
C145: a curve goes through the raw points, in their order, and is refined along itself
-/
namespace Verif.Create
open Verif.Shape Verif.Field Verif.Mesh
open List hiding get get_of_mem

noncomputable section

/-! ### Start of the loop -/

/-- vertices along the curve: the points in their order, the first again at the end of a closed one -/
def walk (closed : Bool) (ids : List Nat) : List Nat := if closed then ids ++ ids.head?.toList else ids

/-- lines between consecutive vertices -/
def segsFrom (k : Nat) : List Nat → List Seg
  | a :: b :: l => ⟨k, a, b, k, k + 1⟩ :: segsFrom (k + 1) (b :: l)
  | _ => []

theorem segsFrom_conn : ∀ (l : List Nat) (k : Nat),
    (segsFrom k l).map (fun g => (g.c, (g.a, g.b))) = ((l.zip l.tail).zipIdx k).map fun e => (e.2, e.1)
  | [], k => rfl
  | [a], k => rfl
  | a :: b :: l, k => by
    have := segsFrom_conn (b :: l) (k + 1)
    simp only [segsFrom, map_cons, this, tail_cons, zip_cons_cons, zipIdx_cons]

theorem segsFrom_linked : ∀ (l : List Nat) (a k : Nat), Linked (a, (k : ℝ)) (segsFrom k (a :: l)) ((a :: l).getLast (by simp), (k : ℝ) + l.length)
  | [], a, k => by simpa [segsFrom] using Linked.nil (a, (k : ℝ))
  | b :: l, a, k => by
    have := segsFrom_linked l b (k + 1)
    have e : ((k : ℝ) + (b :: l).length) = ((k + 1 : Nat) : ℝ) + l.length := by push_cast [length_cons]; ring
    rw [e, getLast_cons (by simp)]
    refine Linked.cons ⟨k, a, b, k, k + 1⟩ _ _ ?_
    simpa using this

theorem segsFrom_mem : ∀ (l : List Nat) (k : Nat) (g : Seg), g ∈ segsFrom k l →
    ∃ i, i + 1 < l.length ∧ g.c = k + i ∧ l[i]? = some g.a ∧ l[i + 1]? = some g.b ∧ g.s = ((k + i : Nat) : ℝ) ∧ g.t = ((k + i : Nat) : ℝ) + 1
  | [], k, g, h => by simp [segsFrom] at h
  | [a], k, g, h => by simp [segsFrom] at h
  | a :: b :: l, k, g, h => by
    simp only [segsFrom, mem_cons] at h
    rcases h with rfl | h
    · exact ⟨0, by simp, rfl, rfl, rfl, by simp, by simp⟩
    · obtain ⟨i, h1, h2, h3, h4, h5, h6⟩ := segsFrom_mem (b :: l) (k + 1) g h
      refine ⟨i + 1, by simp at h1 ⊢; omega, by omega, by simpa using h3, by simpa using h4, ?_, ?_⟩
      · rw [h5]; push_cast; ring
      · rw [h6]; push_cast; ring

theorem length_segsFrom : ∀ (l : List Nat) (k : Nat), (segsFrom k l).length = l.length - 1
  | [], _ => rfl
  | [_], _ => rfl
  | a :: b :: l, k => by simp [segsFrom, length_segsFrom (b :: l) (k + 1)]

theorem zip_tail_snoc : ∀ (l : List Nat) (h : l ≠ []) (f : Nat),
    (l ++ [f]).zip (l ++ [f]).tail = l.zip l.tail ++ [(l.getLast h, f)]
  | [], h, _ => absurd rfl h
  | [a], _, f => rfl
  | a :: b :: l, _, f => by
    have := zip_tail_snoc (b :: l) (by simp) f
    simp only [cons_append, tail_cons, zip_cons_cons] at this ⊢
    rw [this, getLast_cons (a := a) (l := b :: l) (by simp)]

theorem number_snoc {α : Type} (l : List α) (a : α) : number (l ++ [a]) = number l ++ [(l.length, a)] := by
  unfold number
  rw [zipIdx_append, map_append]
  simp

theorem lines_eq {closed : Bool} {ids : List Nat} (h : ids ≠ []) :
    lines closed ids = some (number ((walk closed ids).zip (walk closed ids).tail)) := by
  unfold lines walk
  cases closed with
  | false => simp
  | true =>
    obtain ⟨f, l, rfl⟩ := exists_cons_of_ne_nil h
    simp only [if_true, head?_cons, Option.toList_some, getLast?_eq_getLast_of_ne_nil h]
    rw [zip_tail_snoc _ h, number_snoc]
    simp

theorem length_walk {closed : Bool} {ids : List Nat} (h : ids ≠ []) : (walk closed ids).length = ids.length + if closed then 1 else 0 := by
  obtain ⟨f, l, rfl⟩ := exists_cons_of_ne_nil h
  cases closed <;> simp [walk]

theorem mem_walk {closed : Bool} {ids : List Nat} {v : Nat} (h : v ∈ walk closed ids) : v ∈ ids := by
  cases closed with
  | false => simpa [walk] using h
  | true =>
    cases ids with
    | nil => simp [walk] at h
    | cons f l =>
      simp only [walk, if_true, head?_cons, Option.toList_some, mem_append, mem_singleton] at h
      rcases h with h | rfl
      · exact h
      · exact mem_cons_self

theorem lengths_eq (ps : Data V3) : ∀ (cs : Data (Nat × Nat)), (∀ e ∈ cs, (get ps e.2.1).isSome ∧ (get ps e.2.2).isSome) →
    lengths ps cs = some (cs.map fun e => (norm2 ((get ps e.2.2).getD ⟨0, 0, 0⟩ - (get ps e.2.1).getD ⟨0, 0, 0⟩), e.1))
  | [], _ => rfl
  | e :: cs, h => by
    obtain ⟨h1, h2⟩ := h e mem_cons_self
    obtain ⟨a, ha⟩ := Option.isSome_iff_exists.1 h1
    obtain ⟨b, hb⟩ := Option.isSome_iff_exists.1 h2
    simp [lengths, ha, hb, lengths_eq ps cs (fun x hx => h x (mem_cons_of_mem _ hx))]

theorem le_foldl_max : ∀ (l : List Nat) (m : Nat), m ≤ l.foldl max m ∧ ∀ x ∈ l, x ≤ l.foldl max m
  | [], m => by simp
  | a :: l, m => by
    obtain ⟨h1, h2⟩ := le_foldl_max l (max m a)
    simp only [foldl_cons]
    refine ⟨by omega, fun x hx => ?_⟩
    rcases mem_cons.1 hx with rfl | hx
    · omega
    · exact h2 x hx

theorem mix_zero (x y : Val) : mix 0 x y = x := by
  unfold mix
  obtain ⟨p, f, w⟩ := x
  congr 1
  · apply V3.ext <;> simp only [V3.scale, add_x, add_y, add_z] <;> ring
  · ring
  · apply V3.ext <;> simp only [V3.scale, add_x, add_y, add_z] <;> ring

theorem mix_one (x y : Val) : mix 1 x y = y := by
  unfold mix
  obtain ⟨p, f, w⟩ := y
  congr 1
  · apply V3.ext <;> simp only [V3.scale, add_x, add_y, add_z] <;> ring
  · ring
  · apply V3.ext <;> simp only [V3.scale, add_x, add_y, add_z] <;> ring

/-- the vertices met along the lines, with their parameters -/
def nodes (x : Nat × ℝ) (segs : List Seg) : List (Nat × ℝ) := x :: segs.map fun g => (g.b, g.t)

theorem linked_pairs {x z : Nat × ℝ} {segs : List Seg} (h : Linked x segs z) :
    ((nodes x segs).zip (nodes x segs).tail).map (fun e => (e.1.1, e.2.1)) = segs.map fun g => (g.a, g.b) := by
  induction h with
  | nil x => rfl
  | cons g l z h ih =>
    simp only [nodes, map_cons, tail_cons, zip_cons_cons] at ih ⊢
    rw [ih]

theorem linked_head {x z : Nat × ℝ} {g : Seg} {l : List Seg} (h : Linked x (g :: l) z) : x = (g.a, g.s) := by
  cases h; rfl

theorem linked_last {x z : Nat × ℝ} {segs : List Seg} (h : Linked x segs z) : (nodes x segs).getLast? = some z := by
  induction h with
  | nil x => rfl
  | cons g l z h ih => simpa [nodes, getLast?_cons_cons] using ih

theorem linked_pairwise {x z : Nat × ℝ} {segs : List Seg} (h : Linked x segs z) (hs : ∀ g ∈ segs, g.s < g.t) :
    (nodes x segs).Pairwise (fun a b => a.2 < b.2) := by
  induction h with
  | nil x => simp [nodes]
  | cons g l z h ih =>
    have i := ih (fun k hk => hs k (mem_cons_of_mem _ hk))
    have g1 := hs g mem_cons_self
    simp only [nodes, map_cons] at i ⊢
    rw [pairwise_cons]
    refine ⟨?_, i⟩
    intro y hy
    rcases mem_cons.1 hy with rfl | hy
    · exact g1
    · exact g1.trans ((pairwise_cons.1 i).1 y hy)

/-! ### The loop -/

theorem loop_inv {pop : Pop} (hp : GoodPop pop) {n : Nat} {D : Nat → Val} {orig : List Nat} {x z : Nat × ℝ} : ∀ (f : Nat) {st : Refine} {segs : List Seg},
    RefInv n D orig x z st segs → segs ≠ [] →
    ∃ st' segs', refineLoop pop f st = some st' ∧ RefInv n D orig x z st' segs' ∧ segs'.length = segs.length + f ∧
      st'.points.length = st.points.length + f ∧
      (∀ v y, st.val v = some y → st'.val v = some y) ∧
      (∀ g ∈ segs, ∃ g' ∈ segs', g'.b = g.b ∧ g'.t = g.t) ∧
      (∀ v ∈ st'.points.map Prod.fst, v ∈ st.points.map Prod.fst ∨ ∃ g ∈ segs', g.b = v) ∧
      st'.conn.map Prod.fst = st.conn.map Prod.fst ++ range' (st.idC + 1) f
  | 0, st, segs, hi, _ => ⟨st, segs, rfl, hi, rfl, rfl, fun _ _ h => h, fun g hg => ⟨g, hg, rfl, rfl⟩, fun _ h => Or.inl h, by simp⟩
  | f + 1, st, segs, hi, hne => by
    obtain ⟨s1, g1, h1, h2, h3, h4, h5, h6, h7, h8, h9⟩ := step_inv hp hi hne
    have hne1 : g1 ≠ [] := by intro h; rw [h] at h3; simp at h3
    obtain ⟨s2, g2, k1, k2, k3, k4, k5, k6, k7, k9⟩ := loop_inv hp f h2 hne1
    refine ⟨s2, g2, by simp [refineLoop, h1, k1], k2, by omega, by omega, fun v y h => k5 v y (h5 v y h), ?_, ?_, ?_⟩
    · intro g hg
      obtain ⟨g', hg', e1, e2⟩ := h6 g hg
      obtain ⟨g'', hg'', e3, e4⟩ := k6 g' hg'
      exact ⟨g'', hg'', by rw [e3, e1], by rw [e4, e2]⟩
    · intro v hv
      rcases k7 v hv with h | h
      · rcases h7 v h with h | ⟨g, hg, rfl⟩
        · exact Or.inl h
        · obtain ⟨g', hg', e1, -⟩ := k6 g hg
          exact Or.inr ⟨g', hg', e1⟩
      · exact Or.inr h
    · rw [k9, h9, h8, range'_succ]; simp

/-! ### The result -/

/-- value at the raw point `i` of the walk: its place and the values given for its id, or zero -/
def given (r : Raw) (id : Nat) : Option Val :=
  (get r.points id).map fun p => ⟨p, (get r.scalar id).getD 0, (get r.vector id).getD ⟨0, 0, 0⟩⟩

/-- A curve through the points met along `W`, with vertices `verts`, fields `fs`, `fv` and lines `cells` (pairs of vertices): `nodes` are the
vertices met, each with its parameter along the curve. -/
structure Through (r : Raw) (W : List Nat) (verts : Data V3) (fs : Data ℝ) (fv : Data V3) (cells : List (Nat × Nat)) (nodes : List (Nat × ℝ)) : Prop where
  /-- the lines are the pairs of vertices met one after the other -/
  lines : cells.Perm ((nodes.zip nodes.tail).map fun e => (e.1.1, e.2.1))
  /-- the parameter grows -/
  increasing : nodes.Pairwise fun a b => a.2 < b.2
  /-- it starts from the first point and ends in the last -/
  first : ∃ v, W.head? = some v ∧ nodes.head? = some (v, 0)
  last : ∃ v, W.getLast? = some v ∧ nodes.getLast? = some (v, (W.length : ℝ) - 1)
  /-- it meets the raw points in their order -/
  meets : ∀ (i v : Nat), W[i]? = some v → (v, (i : ℝ)) ∈ nodes
  /-- each vertex is on the straight line between the points before and after it; the values there are interpolated -/
  between : ∀ x ∈ nodes, ∃ (i : Nat) (a b : Nat) (A B : Val), W[i]? = some a ∧ W[i + 1]? = some b ∧ given r a = some A ∧ given r b = some B ∧
    (i : ℝ) ≤ x.2 ∧ x.2 ≤ i + 1 ∧ valOf verts fs fv x.1 = some (mix (x.2 - i) A B)
  /-- no other vertex -/
  all : ∀ v ∈ verts.map Prod.fst, ∃ x ∈ nodes, x.1 = v
  /-- no line is longer than the double of one obtained by splitting -/
  longest : ∀ l ∈ cells, (get r.points l.1 = none ∨ get r.points l.2 = none) → ∀ k ∈ cells, ∀ a b c d : V3,
    get verts l.1 = some a → get verts l.2 = some b → get verts k.1 = some c → get verts k.2 = some d → norm2 (d - c) ≤ 2 * norm2 (b - a)

theorem valOf_given {r : Raw} {v : Nat} : valOf r.points (r.points.map fun e => (e.1, (get r.scalar e.1).getD 0))
    (r.points.map fun e => (e.1, (get r.vector e.1).getD ⟨0, 0, 0⟩)) v = given r v := by
  have h : ∀ {α : Type} (f : Nat → α) (d : Data V3), get (d.map fun e => (e.1, f e.1)) v = (get d v).map fun _ => f v := by
    intro α f d
    induction d with
    | nil => rfl
    | cons e d ih =>
      rw [map_cons, get_cons, get_cons, ih]
      by_cases h : e.1 = v
      · subst h; simp
      · simp [h]
  unfold valOf given
  rw [h (fun i => (get r.scalar i).getD 0), h (fun i => (get r.vector i).getD ⟨0, 0, 0⟩)]
  cases get r.points v <;> rfl

/-- lines at first -/
def firstSegs (closed : Bool) (ids : List Nat) : List Seg := segsFrom 0 (walk closed ids)

/-- variables at the start of the loop -/
def startOf (r : Raw) (closed : Bool) : Refine where
  points := r.points
  scalar := r.points.map fun e => (e.1, (get r.scalar e.1).getD 0)
  vector := r.points.map fun e => (e.1, (get r.vector e.1).getD ⟨0, 0, 0⟩)
  conn := number ((walk closed (r.points.map Prod.fst)).zip (walk closed (r.points.map Prod.fst)).tail)
  queue := (firstSegs closed (r.points.map Prod.fst)).map fun g => (len r.points g, g.c)
  idV := (r.points.map Prod.fst).foldl max 0
  idC := ((number ((walk closed (r.points.map Prod.fst)).zip (walk closed (r.points.map Prod.fst)).tail)).map Prod.fst).foldl max 0

/-- value at the point `i` of the walk -/
def valAt (r : Raw) (W : List Nat) (i : Nat) : Val := (W[i]?.bind (given r)).getD ⟨⟨0, 0, 0⟩, 0, ⟨0, 0, 0⟩⟩

theorem given_some {r : Raw} {v : Nat} (h : v ∈ r.points.map Prod.fst) : ∃ A, given r v = some A := by
  obtain ⟨p, hp⟩ := Option.isSome_iff_exists.1 (mem_keys_iff.1 h)
  exact ⟨_, by unfold given; rw [hp]; rfl⟩

theorem valAt_some {r : Raw} {W : List Nat} {i v : Nat} (h : W[i]? = some v) (hv : v ∈ r.points.map Prod.fst) :
    given r v = some (valAt r W i) := by
  obtain ⟨A, hA⟩ := given_some hv
  unfold valAt
  rw [h]
  simp [hA]

theorem start_inv {r : Raw} (hp : Ok r.points) {closed : Bool} {v : Nat} {l : List Nat} (hw : walk closed (r.points.map Prod.fst) = v :: l) :
    RefInv l.length (valAt r (v :: l)) (r.points.map Prod.fst) (v, 0) ((v :: l).getLast (by simp), (l.length : ℝ)) (startOf r closed)
      (firstSegs closed (r.points.map Prod.fst)) := by
  have hin : ∀ (i x : Nat), (v :: l)[i]? = some x → x ∈ r.points.map Prod.fst := by
    intro i x h
    exact mem_walk (closed := closed) (by rw [hw]; exact mem_of_getElem? h)
  refine ⟨hp, ?_, ?_, ?_, fun _ h => h, ok_number _, ?_, ?_, ?_, Perm.refl _, ?_, ?_⟩
  · simp [startOf, Function.comp_def]
  · simp [startOf, Function.comp_def]
  · intro id h; exact (le_foldl_max _ 0).2 id h
  · intro id h; exact (le_foldl_max _ 0).2 id h
  · have := segsFrom_linked l v 0
    unfold firstSegs
    rw [hw]
    simpa using this
  · unfold firstSegs startOf
    simp only
    rw [segsFrom_conn]
    exact Perm.refl _
  · intro g hg
    unfold firstSegs at hg
    rw [hw] at hg
    obtain ⟨i, h1, h2, h3, h4, h5, h6⟩ := segsFrom_mem _ _ _ hg
    simp only [Nat.zero_add] at h5 h6
    refine ⟨by rw [h5, h6]; linarith, i, by simpa using h1, le_of_eq h5.symm, le_of_eq h6, ?_, ?_⟩
    · rw [h5, sub_self, mix_zero]
      exact valOf_given.trans (valAt_some h3 (hin _ _ h3))
    · rw [h6, add_sub_cancel_left, mix_one]
      exact valOf_given.trans (valAt_some h4 (hin _ _ h4))
  · intro g hg hn
    unfold firstSegs at hg
    rw [hw] at hg
    obtain ⟨i, h1, h2, h3, h4, -, -⟩ := segsFrom_mem _ _ _ hg
    rcases hn with hn | hn
    · exact absurd (hin _ _ h3) hn
    · exact absurd (hin _ _ h4) hn

theorem through_of_inv {r : Raw} {v : Nat} {l : List Nat} (hin : ∀ x ∈ v :: l, x ∈ r.points.map Prod.fst) {st : Refine} {segs : List Seg}
    (hi : RefInv l.length (valAt r (v :: l)) (r.points.map Prod.fst) (v, 0) ((v :: l).getLast (by simp), (l.length : ℝ)) st segs)
    (hne : segs ≠ [])
    (hm : ∀ i x, (v :: l)[i + 1]? = some x → ∃ g ∈ segs, g.b = x ∧ g.t = ((i + 1 : Nat) : ℝ))
    (ha : ∀ x ∈ st.points.map Prod.fst, x ∈ v :: l ∨ ∃ g ∈ segs, g.b = x) :
    Through r (v :: l) st.points st.scalar st.vector (st.conn.map Prod.snd) (nodes (v, 0) segs) := by
  have meets : ∀ (i x : Nat), (v :: l)[i]? = some x → (x, (i : ℝ)) ∈ nodes (v, 0) segs := by
    intro i x h
    cases i with
    | zero => simp only [getElem?_cons_zero, Option.some.injEq] at h; subst h; simp [nodes]
    | succ i =>
      obtain ⟨g, hg, e1, e2⟩ := hm i x h
      refine mem_cons_of_mem _ (mem_map.2 ⟨g, hg, ?_⟩)
      rw [e1, e2]
  have pair : ∀ e ∈ st.conn.map Prod.snd, ∃ g ∈ segs, e = (g.a, g.b) := by
    intro e he
    obtain ⟨x, hx, rfl⟩ := mem_map.1 he
    obtain ⟨g, hg, h⟩ := mem_map.1 (hi.conn.subset hx)
    exact ⟨g, hg, by rw [← h]⟩
  have point : ∀ i < l.length, ∃ a b, (v :: l)[i]? = some a ∧ (v :: l)[i + 1]? = some b ∧ given r a = some (valAt r (v :: l) i) ∧
      given r b = some (valAt r (v :: l) (i + 1)) := by
    intro i h
    have h1 : i < (v :: l).length := by simp; omega
    have h2 : i + 1 < (v :: l).length := by simp; omega
    have e1 := getElem?_eq_getElem h1
    have e2 := getElem?_eq_getElem h2
    exact ⟨_, _, e1, e2, valAt_some e1 (hin _ (mem_of_getElem? e1)), valAt_some e2 (hin _ (mem_of_getElem? e2))⟩
  refine ⟨?_, linked_pairwise hi.linked (fun g hg => (hi.inter g hg).1), ⟨v, rfl, rfl⟩, ?_, meets, ?_, ?_, ?_⟩
  · rw [linked_pairs hi.linked]
    have := hi.conn.map Prod.snd
    rwa [map_map] at this
  · refine ⟨(v :: l).getLast (by simp), getLast?_eq_getLast_of_ne_nil (by simp), ?_⟩
    rw [linked_last hi.linked]
    simp
  · intro x hx
    rcases mem_cons.1 hx with rfl | hx
    · obtain ⟨g, rest, rfl⟩ := exists_cons_of_ne_nil hne
      have hl := hi.linked
      obtain ⟨h0, i, h1, h2, h3, h4, -⟩ := hi.inter g mem_cons_self
      obtain ⟨a, b, p1, p2, p3, p4⟩ := point i h1
      have hx := linked_head hl
      have hg : g.a = v ∧ g.s = 0 := ⟨(congrArg Prod.fst hx).symm, (congrArg Prod.snd hx).symm⟩
      rw [hg.1, hg.2] at h4
      rw [hg.2] at h2 h0
      exact ⟨i, a, b, _, _, p1, p2, p3, p4, h2, by simp only; linarith, h4⟩
    · obtain ⟨g, hg, rfl⟩ := mem_map.1 hx
      obtain ⟨h0, i, h1, h2, h3, -, h5⟩ := hi.inter g hg
      obtain ⟨a, b, p1, p2, p3, p4⟩ := point i h1
      exact ⟨i, a, b, _, _, p1, p2, p3, p4, by simp only; linarith, h3, h5⟩
  · intro x hx
    rcases ha x hx with h | ⟨g, hg, rfl⟩
    · obtain ⟨i, hi'⟩ := mem_iff_getElem?.1 h
      exact ⟨_, meets i x hi', rfl⟩
    · exact ⟨(g.b, g.t), mem_cons_of_mem _ (mem_map_of_mem (f := fun g : Seg => (g.b, g.t)) hg), rfl⟩
  · intro e he hn k hk a b c d ea eb ec ed
    obtain ⟨g, hg, rfl⟩ := pair e he
    obtain ⟨h, hh, rfl⟩ := pair k hk
    have hn' : g.a ∉ r.points.map Prod.fst ∨ g.b ∉ r.points.map Prod.fst := by
      rcases hn with hn | hn
      · exact Or.inl (by rw [mem_keys_iff, hn]; simp)
      · exact Or.inr (by rw [mem_keys_iff, hn]; simp)
    have := hi.longest g hg hn' h hh
    unfold len at this
    simp only at ea eb ec ed
    rw [ea, eb, ec, ed] at this
    exact this

theorem range_append_range' (n f : Nat) : range n ++ range' n f = range (n + f) := by
  rw [range_eq_range', range_eq_range', ← range'_append_1]
  simp

theorem keys_number {α : Type} (l : List α) : (number l).map Prod.fst = range l.length := by
  unfold number
  rw [map_map]
  have : (Prod.fst ∘ fun e : α × Nat => (e.2, e.1)) = Prod.snd := rfl
  rw [this, zipIdx_map_snd, range_eq_range']

theorem foldl_max_range (n : Nat) : (range (n + 1)).foldl max 0 = n := by
  induction n with
  | zero => rfl
  | succ n ih => rw [range_succ, foldl_append, ih]; simp

/-- the refinement: for all raw data, with at least a line, and all numbers of splits -/
theorem refined {pop : Pop} (hg : GoodPop pop) {r : Raw} (hp : Ok r.points) {closed : Bool} {v u : Nat} {l : List Nat}
    (hw : walk closed (r.points.map Prod.fst) = v :: u :: l) (f : Nat) :
    ∃ s nodes, refineObject pop r.points (startOf r closed).scalar (startOf r closed).vector (startOf r closed).conn f = some s ∧
      Ok s.points ∧ s.scalar.map Prod.fst = s.points.map Prod.fst ∧ s.vector.map Prod.fst = s.points.map Prod.fst ∧
      s.points.length = r.points.length + f ∧ s.conn.map Prod.fst = range (l.length + 1 + f) ∧
      Through r (v :: u :: l) s.points s.scalar s.vector (s.conn.map Prod.snd) nodes := by
  have hin : ∀ x ∈ v :: u :: l, x ∈ r.points.map Prod.fst := by
    intro x h
    exact mem_walk (closed := closed) (by rw [hw]; exact h)
  have hi := start_inv hp hw
  have hne : firstSegs closed (r.points.map Prod.fst) ≠ [] := by
    unfold firstSegs; rw [hw]; simp [segsFrom]
  have hm0 : ∀ i x, (v :: u :: l)[i + 1]? = some x → ∃ g ∈ firstSegs closed (r.points.map Prod.fst), g.b = x ∧ g.t = ((i + 1 : Nat) : ℝ) := by
    have : ∀ (L : List Nat) (k i x : Nat), L[i + 1]? = some x → ∃ g ∈ segsFrom k L, g.b = x ∧ g.t = ((k + i + 1 : Nat) : ℝ) := by
      intro L
      induction L with
      | nil => intro k i x h; simp at h
      | cons a L ih =>
        intro k i x h
        cases L with
        | nil => simp at h
        | cons b L =>
          cases i with
          | zero => exact ⟨⟨k, a, b, k, k + 1⟩, by simp [segsFrom], by simpa using h, by push_cast; simp⟩
          | succ i =>
            obtain ⟨g, h1, h2, h3⟩ := ih (k + 1) i x (by simpa using h)
            exact ⟨g, by simp [segsFrom, h1], h2, by rw [h3]; push_cast; ring⟩
    intro i x h
    obtain ⟨g, h1, h2, h3⟩ := this _ 0 i x h
    exact ⟨g, by unfold firstSegs; rw [hw]; exact h1, h2, by simpa using h3⟩
  have hk : (startOf r closed).conn.map Prod.fst = range (l.length + 1) := by
    unfold startOf
    simp only
    rw [keys_number, hw]
    simp
  have ha0 : ∀ x ∈ r.points.map Prod.fst, x ∈ v :: u :: l := by
    intro x hx
    rw [← hw]
    unfold walk
    split
    · exact mem_append_left _ hx
    · exact hx
  have hC : (startOf r closed).idC = l.length := by
    have : (startOf r closed).idC = ((startOf r closed).conn.map Prod.fst).foldl max 0 := rfl
    rw [this, hk, foldl_max_range]
  obtain ⟨s, segs, k1, k2, k3, k4, k5, k6, k7, k8⟩ := loop_inv hg f hi hne
  have hne' : segs ≠ [] := by
    intro h
    rw [h] at k3
    have := length_pos_iff.2 hne
    simp at k3; omega
  have ht := through_of_inv hin k2 hne' (by
      intro i x h
      obtain ⟨g, h1, h2, h3⟩ := hm0 i x h
      obtain ⟨g', h1', h2', h3'⟩ := k6 g h1
      exact ⟨g', h1', by rw [h2', h2], by rw [h3', h3]⟩)
    (by
      intro x hx
      rcases k7 x hx with h | h
      · exact Or.inl (ha0 x h)
      · exact Or.inr h)
  have keys : s.conn.map Prod.fst = range (l.length + 1 + f) := by
    rw [k8, hk, hC, range_append_range']
  unfold refineObject
  split
  · rename_i h0
    subst h0
    injection k1 with k1
    subst k1
    exact ⟨_, _, rfl, k2.okP, k2.keysS, k2.keysV, k4, keys, ht⟩
  · refine ⟨s, _, ?_, k2.okP, k2.keysS, k2.keysV, k4, keys, ht⟩
    have hl : lengths r.points (startOf r closed).conn = some (startOf r closed).queue := by
      rw [lengths_eq]
      · have e := segsFrom_conn (walk closed (r.points.map Prod.fst)) 0
        have : (startOf r closed).conn = (firstSegs closed (r.points.map Prod.fst)).map fun g => (g.c, (g.a, g.b)) := e.symm
        rw [this, map_map]
        rfl
      · intro e he
        have he' : e ∈ (firstSegs closed (r.points.map Prod.fst)).map fun g => (g.c, (g.a, g.b)) := hi.conn.subset he
        obtain ⟨g, hg, rfl⟩ := mem_map.1 he'
        unfold firstSegs at hg
        rw [hw] at hg
        obtain ⟨i, -, -, h3, h4, -, -⟩ := segsFrom_mem _ _ _ hg
        exact ⟨mem_keys_iff.1 (hin _ (mem_of_getElem? h3)), mem_keys_iff.1 (hin _ (mem_of_getElem? h4))⟩
    rw [hl]
    exact k1

end
end Verif.Create
