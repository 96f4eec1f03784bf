import Verif.Mesh.Graph
import Verif.Mesh.QueryProps
/-
C45 (closed-surface test), C44 (point connectivity), C41 (connected pieces), C42 (narrow bands).
-/
namespace Verif.Mesh
open Verif.Field
open List hiding get

variable {P : Type}

/-! ### Runs -/

theorem runs_det {σ ρ : Type} {f : σ → Out σ ρ} {s : σ} {r r' : Option ρ} (h : Runs f s r) (h' : Runs f s r') : r = r' := by
  induction h with
  | done e =>
    cases h' with
    | done e' => rw [e] at e'; cases e'; rfl
    | fail e' => rw [e] at e'; cases e'
    | next e' _ => rw [e] at e'; cases e'
  | fail e =>
    cases h' with
    | done e' => rw [e] at e'; cases e'
    | fail e' => rfl
    | next e' _ => rw [e] at e'; cases e'
  | next e _ ih =>
    cases h' with
    | done e' => rw [e] at e'; cases e'
    | fail e' => rw [e] at e'; cases e'
    | next e' h' => rw [e] at e'; cases e'; exact ih h'

/-- a loop whose invariant is kept, whose measure decreases and which does not throw ends in a state of the invariant -/
theorem runs_of {σ ρ : Type} {f : σ → Out σ ρ} (Inv : σ → Prop) (m : σ → Nat)
    (hn : ∀ s s', Inv s → f s = .next s' → Inv s' ∧ m s' < m s) (hf : ∀ s, Inv s → f s ≠ .fail) {s : σ} (hs : Inv s) :
    ∃ s' r, Inv s' ∧ f s' = .done r ∧ Runs f s (some r) := by
  generalize hk : m s = k
  induction k using Nat.strongRecOn generalizing s with
  | ind k ih =>
    cases e : f s with
    | done r => exact ⟨s, r, hs, e, .done e⟩
    | fail => exact absurd e (hf s hs)
    | next s' =>
      obtain ⟨hi, hlt⟩ := hn s s' hs e
      obtain ⟨s2, r, a, b, c⟩ := ih (m s') (by omega) hi rfl
      exact ⟨s2, r, a, b, .next e c⟩

/-! ### C45 -/

theorem border_fold : ∀ (l : List Bool) (b : Bool), l.foldl (fun chk x => chk && !x) b = (b && l.all (fun x => !x)) := by
  intro l
  induction l with
  | nil => intro b; simp
  | cons a l ih => intro b; rw [foldl_cons, ih]; simp [Bool.and_assoc]

/-- the test of a list of cells all of which are interior up to the first one with a border face -/
theorem closed_run : ∀ (cells : List CFace) (b : Bool), (∀ c ∈ cells, c.interior = true) →
    Runs closedStep (cells, b) (some (b && cells.all (fun c => c.border.all (fun x => !x)))) := by
  intro cells
  induction cells with
  | nil => intro b _; simpa using Runs.done (f := closedStep) (s := ([], b)) rfl
  | cons c cs ih =>
    intro b h
    cases b with
    | false => simpa using Runs.done (f := closedStep) (s := (c :: cs, false)) rfl
    | true =>
      have h1 : closedStep (c :: cs, true) = .next (cs, c.border.all (fun x => !x)) := by
        show (if c.interior = true then _ else _) = _
        rw [if_pos (h c (by simp)), border_fold]; simp
      have := ih (c.border.all (fun x => !x)) (fun x hx => h x (by simp [hx]))
      simpa using Runs.next h1 this

/-- C45, meshes without ghost cells (every mesh of a serial build): the test ends and says whether there is no border
face. -/
theorem C45_closed_partial (cells : List CFace) (h : ∀ c ∈ cells, c.interior = true) :
    ∃ b, (∀ r, Runs closedStep (cells, true) r ↔ r = some b) ∧
      (b = true ↔ ∀ c ∈ cells, c.interior = true → ∀ x ∈ c.border, x = false) := by
  refine ⟨cells.all (fun c => c.border.all (fun x => !x)), fun r => ?_, ?_⟩
  · have := closed_run cells true h
    rw [Bool.true_and] at this
    exact ⟨fun hr => runs_det hr this, fun hr => hr ▸ this⟩
  · simp only [all_eq_true, Bool.not_eq_true']
    exact ⟨fun hh c hc _ => hh c hc, fun hh c hc => hh c hc (h c hc)⟩

example : ∃ cells : List CFace, cells.length = 2 ∧ (∀ c ∈ cells, c.interior = true) ∧
    ∃ c ∈ cells, ∃ x ∈ c.border, x = true :=
  ⟨[⟨true, [false, false, false]⟩, ⟨true, [false, true, false]⟩], rfl, by decide, by decide⟩

/-- the test never ends once it has reached a ghost cell -/
theorem closed_stuck (c : CFace) (cs : List CFace) (hc : c.interior = false) (r : Option Bool) :
    ¬ Runs closedStep (c :: cs, true) r := by
  intro h
  generalize hs : (c :: cs, true) = s at h
  have e : closedStep (c :: cs, true) = .next (c :: cs, true) := by
    show (if c.interior = true then _ else _) = _
    rw [if_neg (by simp [hc])]
  induction h with
  | done e' => rw [← hs, e] at e'; cases e'
  | fail e' => rw [← hs, e] at e'; cases e'
  | next e' _ ih => rw [← hs, e] at e'; cases e'; exact ih rfl

/-- C45, exactly when the test ends: no ghost cell, or a border face on a cell before the first ghost. -/
theorem C45_ends_iff (cells : List CFace) :
    (∃ r, Runs closedStep (cells, true) r) ↔
      ∀ pre c post, cells = pre ++ c :: post → c.interior = false → (∀ x ∈ pre, x.interior = true) →
        ∃ x ∈ pre, ∃ f ∈ x.border, f = true := by
  induction cells with
  | nil => exact ⟨fun _ pre c post h => by simp at h, fun _ => ⟨_, .done rfl⟩⟩
  | cons a l ih =>
    by_cases ha : a.interior = true
    · have h1 : closedStep (a :: l, true) = .next (l, a.border.all (fun x => !x)) := by
        show (if a.interior = true then _ else _) = _
        rw [if_pos ha, border_fold]; simp
      by_cases hb : a.border.all (fun x => !x) = true
      · rw [hb] at h1
        have hbf : ∀ x ∈ a.border, x = false := by simpa using hb
        constructor
        · rintro ⟨r, hr⟩ pre c post he hc hpre
          cases hr with
          | done e => rw [h1] at e; cases e
          | fail e => rw [h1] at e; cases e
          | next e hr =>
            rw [h1] at e; cases e
            cases pre with
            | nil => rw [nil_append, cons.injEq] at he; rw [← he.1, ha] at hc; cases hc
            | cons p pre =>
              rw [cons_append, cons.injEq] at he
              obtain ⟨x, hx, hf⟩ := ih.1 ⟨r, hr⟩ pre c post he.2 hc (fun x hx => hpre x (by simp [hx]))
              exact ⟨x, by simp [hx], hf⟩
        · intro h
          obtain ⟨r, hr⟩ := ih.2 (by
            intro pre c post he hc hpre
            obtain ⟨x, hx, f, hf, hft⟩ := h (a :: pre) c post (by rw [he]; rfl) hc (by
              intro x hx; rcases mem_cons.1 hx with rfl | hx
              · exact ha
              · exact hpre x hx)
            rcases mem_cons.1 hx with rfl | hx
            · rw [hbf f hf] at hft; cases hft
            · exact ⟨x, hx, f, hf, hft⟩)
          exact ⟨r, .next h1 hr⟩
      · have hb' : a.border.all (fun x => !x) = false := by simpa using hb
        rw [hb'] at h1
        have hx : ∃ f ∈ a.border, f = true := by
          simpa using hb
        constructor
        · rintro _ pre c post he hc hpre
          cases pre with
          | nil => rw [nil_append, cons.injEq] at he; rw [← he.1, ha] at hc; cases hc
          | cons p pre =>
            rw [cons_append, cons.injEq] at he
            exact ⟨p, by simp, he.1 ▸ hx⟩
        · intro _
          refine ⟨some false, .next h1 (.done ?_)⟩
          cases l <;> rfl
    · have ha' : a.interior = false := by simpa using ha
      constructor
      · rintro ⟨r, hr⟩; exact absurd hr (closed_stuck a l ha' r)
      · intro h
        obtain ⟨x, hx, _⟩ := h [] a l rfl ha' (by simp)
        cases hx

/-- C45 does not hold with ghost cells: on a closed surface with a ghost cell the test never ends. -/
theorem C45_ghost_fails : ∃ cells : List CFace, (∀ c ∈ cells, ∀ x ∈ c.border, x = false) ∧
    ∀ r, ¬ Runs closedStep (cells, true) r := by
  refine ⟨[⟨true, [false, false, false]⟩, ⟨false, [false, false, false]⟩], by decide, fun r h => ?_⟩
  have := (C45_ends_iff _).1 ⟨r, h⟩ [⟨true, [false, false, false]⟩] ⟨false, [false, false, false]⟩ [] rfl rfl (by decide)
  revert this; decide

/-! ### C44 -/

/-- two vertices are joined by an edge of one of the cells, in either direction -/
def Joined (l : List Cell) (a b : Nat) : Prop := ∃ c ∈ l, (a, b) ∈ edgesOf c ∨ (b, a) ∈ edgesOf c

theorem mem_pcInsert (m : Data (List Nat)) (a b x y : Nat) :
    y ∈ (get (pcInsert m a b) x).getD [] ↔ y ∈ (get m x).getD [] ∨ (x = a ∧ y = b) := by
  unfold pcInsert
  rw [get_mapSet]
  by_cases h : x = a
  · subst h; simp [mem_insSet]
  · simp [h]

/-- set of the pairs met and map agree with a list of edges -/
def PcInv (es : List (Nat × Nat)) (s : List (Nat × Nat) × Data (List Nat)) : Prop :=
  (∀ a b, (a, b) ∈ s.1 → (a, b) ∈ es ∨ (b, a) ∈ es) ∧
  ∀ a b, b ∈ (get s.2 a).getD [] ↔ ((a, b) ∈ es ∨ (b, a) ∈ es)

theorem pcEdge_inv {es : List (Nat × Nat)} {s : List (Nat × Nat) × Data (List Nat)} (h : PcInv es s) (e : Nat × Nat) :
    PcInv (es ++ [e]) (pcEdge s e) := by
  obtain ⟨x, y⟩ := e
  obtain ⟨h1, h2⟩ := h
  unfold pcEdge
  dsimp only
  generalize hit : (if x < y then (x, y) else (y, x)) = it
  have hit' : it = (x, y) ∨ it = (y, x) := by subst hit; split <;> simp
  by_cases hc : s.1.contains it = true
  · rw [if_pos hc]
    have hm : (x, y) ∈ es ∨ (y, x) ∈ es := by
      rcases hit' with rfl | rfl
      · exact h1 _ _ (by simpa using hc)
      · exact (h1 _ _ (by simpa using hc)).symm
    refine ⟨fun a b hab => ?_, fun a b => ?_⟩
    · rcases h1 a b hab with h | h
      · left; simp [h]
      · right; simp [h]
    · rw [h2]
      simp only [mem_append, mem_singleton, Prod.mk.injEq]
      grind
  · rw [if_neg hc]
    refine ⟨fun a b hab => ?_, fun a b => ?_⟩
    · rcases mem_append.1 hab with hab | hab
      · rcases h1 a b hab with h | h
        · left; simp [h]
        · right; simp [h]
      · rw [mem_singleton] at hab
        rcases hit' with hi | hi
        · left; rw [hab, hi]; simp
        · right; rw [hi, Prod.mk.injEq] at hab; simp [hab.1, hab.2]
    · rw [mem_pcInsert, mem_pcInsert, h2]
      simp only [mem_append, mem_singleton, Prod.mk.injEq]
      grind

theorem pcFold_inv : ∀ (l : List (Nat × Nat)) {es : List (Nat × Nat)} {s : List (Nat × Nat) × Data (List Nat)},
    PcInv es s → PcInv (es ++ l) (l.foldl pcEdge s) := by
  intro l
  induction l with
  | nil => intro es s h; simpa using h
  | cons e l ih =>
    intro es s h
    have := ih (pcEdge_inv h e)
    rwa [append_assoc, singleton_append] at this

theorem pcCells_inv : ∀ (l : Data Cell) {es : List (Nat × Nat)} {s : List (Nat × Nat) × Data (List Nat)},
    PcInv es s → PcInv (es ++ l.flatMap (fun c => edgesOf c.2)) (l.foldl (fun s c => (edgesOf c.2).foldl pcEdge s) s) := by
  intro l
  induction l with
  | nil => intro es s h; simpa using h
  | cons c l ih =>
    intro es s h
    have := ih (pcFold_inv (edgesOf c.2) h)
    rwa [append_assoc] at this

/-- C44: the neighbours of a vertex are exactly the vertices joined to it by an edge of a cell. -/
theorem C44_neighbours (o : Obj P) (ht : o.type = 1 ∨ o.type = 2 ∨ o.type = 4) (a b : Nat) :
    b ∈ (get (pointConn o) a).getD [] ↔ Joined (o.cells.map Prod.snd) a b := by
  unfold pointConn
  rw [if_pos ht]
  have h0 : PcInv [] (([], []) : List (Nat × Nat) × Data (List Nat)) :=
    ⟨by simp, by intro a b; simp [Verif.Field.get]⟩
  have := (pcCells_inv o.cells h0).2 a b
  rw [this]
  simp only [nil_append, mem_flatMap, Joined, mem_map]
  grind

/-- C44: the relation is symmetric. -/
theorem C44_symmetric (o : Obj P) (a b : Nat) :
    b ∈ (get (pointConn o) a).getD [] ↔ a ∈ (get (pointConn o) b).getD [] := by
  by_cases ht : o.type = 1 ∨ o.type = 2 ∨ o.type = 4
  · rw [C44_neighbours o ht, C44_neighbours o ht]
    unfold Joined
    grind
  · unfold pointConn
    rw [if_neg ht]
    simp [Verif.Field.get]

/-- a quad and a triangle sharing a side -/
def demoPc : Obj Int :=
  { demo with cells := [(0, ⟨.quad, [1, 2, 3, 4], 0, true⟩), (7, ⟨.triangle, [3, 2, 9], 0, true⟩)] }

example : 9 ∈ (get (pointConn demoPc) 2).getD [] ∧ 4 ∉ (get (pointConn demoPc) 2).getD [] ∧
    (get (pointConn demoPc) 3).getD [] = [2, 4, 9] := by decide

/-- two entries of a closed ring, one after the other -/
def NextIn (l : List Nat) (a b : Nat) : Prop :=
  ∃ i, l[i]? = some a ∧ l[(i + 1) % l.length]? = some b

theorem ringEdges_iff (l : List Nat) (a b : Nat) : (a, b) ∈ ringEdges l ↔ NextIn l a b := by
  cases l with
  | nil => simp [ringEdges, NextIn]
  | cons r l =>
    unfold ringEdges NextIn
    rw [mem_iff_getElem?]
    constructor
    · rintro ⟨i, hi⟩
      rw [getElem?_zip_eq_some] at hi
      obtain ⟨h1, h2⟩ := hi
      refine ⟨i, h1, ?_⟩
      have hl : i < (r :: l).length := (List.getElem?_eq_some_iff.1 h1).1
      rw [length_cons] at hl
      by_cases hc : i = l.length
      · subst hc
        rw [getElem?_append_right (by omega)] at h2
        simpa using h2
      · rw [getElem?_append_left (by omega)] at h2
        rw [length_cons, Nat.mod_eq_of_lt (by omega), getElem?_cons_succ]
        exact h2
    · rintro ⟨i, h1, h2⟩
      refine ⟨i, ?_⟩
      rw [getElem?_zip_eq_some]
      refine ⟨h1, ?_⟩
      have hl : i < (r :: l).length := (List.getElem?_eq_some_iff.1 h1).1
      rw [length_cons] at hl h2
      by_cases hc : i = l.length
      · subst hc
        rw [getElem?_append_right (by omega)]
        simpa using h2
      · rw [getElem?_append_left (by omega)]
        rw [Nat.mod_eq_of_lt (by omega), getElem?_cons_succ] at h2
        exact h2

/-- C44: on triangles, quadrilaterals and polygons two vertices are joined exactly when they follow each other around
the cell. -/
theorem C44_surface_edges (c : Cell) (h : c.elem = .triangle ∨ c.elem = .quad ∨ c.elem = .polygon) (a b : Nat) :
    Joined [c] a b ↔ NextIn (vertexIds c) a b ∨ NextIn (vertexIds c) b a := by
  have he : edgesOf c = ringEdges (vertexIds c) := by
    unfold edgesOf vertexIds
    rcases h with h | h | h <;> rw [h]
  unfold Joined
  simp only [mem_singleton, exists_eq_left, he, ← ringEdges_iff]

example : NextIn [1, 2, 3, 4] 4 1 ∧ ¬ NextIn [1, 2, 3, 4] 2 4 :=
  ⟨⟨3, rfl, rfl⟩, by
    rintro ⟨i, h1, h2⟩
    match i with
    | 0 => simp at h1
    | 1 => simp at h2
    | 2 => simp at h1
    | 3 => simp at h1
    | n + 4 => simp at h1⟩

/-- C44: any two of the four vertices of a tetrahedron are joined. -/
theorem C44_tetra_edges (p q r s pid : Nat) (b : Bool) (i j : Nat) (hi : i < 4) (hj : j < 4) (hne : i ≠ j) :
    Joined [⟨.tetra, [p, q, r, s], pid, b⟩] ([p, q, r, s].getD i 0) ([p, q, r, s].getD j 0) := by
  unfold Joined edgesOf localEdges
  refine ⟨_, mem_singleton.2 rfl, ?_⟩
  have h4 : ∀ k, k < 4 → k = 0 ∨ k = 1 ∨ k = 2 ∨ k = 3 := by omega
  rcases h4 i hi with rfl | rfl | rfl | rfl <;> rcases h4 j hj with rfl | rfl | rfl | rfl <;> simp at hne ⊢

example : (0 : Nat) < 4 ∧ 3 < 4 ∧ 0 ≠ 3 := by decide

/-- C44: point clouds have no connectivity. -/
theorem C44_cloud (o : Obj P) (h : o.type = 3) : pointConn o = [] := by
  unfold pointConn; rw [if_neg (by omega)]

/-! ### C41 -/

/-- `b` is a neighbour of `a` through one of its faces -/
def Adj (cells : Data (List (List Nat))) (a b : Nat) : Prop :=
  ∃ fs, get cells a = some fs ∧ ∃ F ∈ fs, b ∈ F

/-- connected through faces -/
inductive Conn (cells : Data (List (List Nat))) : Nat → Nat → Prop
  | refl (a) : Conn cells a a
  | tail {a b c} : Conn cells a b → Adj cells b c → Conn cells a c

/-- what a built adjacency table satisfies: the cells around a face list each other -/
def Coherent (cells : Data (List (List Nat))) : Prop :=
  ∀ a fs, get cells a = some fs → ∀ F ∈ fs, a ∉ F ∧
    ∀ x ∈ F, ∃ gs, get cells x = some gs ∧ ∃ G ∈ gs, ∀ z, z ∈ G ↔ z ≠ x ∧ (z = a ∨ z ∈ F)

theorem adj_symm {cells : Data (List (List Nat))} (hc : Coherent cells) {a b : Nat} (h : Adj cells a b) : Adj cells b a := by
  obtain ⟨fs, hfs, F, hF, hb⟩ := h
  obtain ⟨hna, hx⟩ := hc a fs hfs F hF
  obtain ⟨gs, hgs, G, hG, hz⟩ := hx b hb
  exact ⟨gs, hgs, G, hG, (hz a).2 ⟨fun h => hna (h ▸ hb), .inl rfl⟩⟩

theorem conn_trans {cells : Data (List (List Nat))} {a b c : Nat} (h : Conn cells a b) (h' : Conn cells b c) :
    Conn cells a c := by
  induction h' with
  | refl => exact h
  | tail _ hx ih => exact .tail ih hx

theorem conn_symm {cells : Data (List (List Nat))} (hc : Coherent cells) {a b : Nat} (h : Conn cells a b) :
    Conn cells b a := by
  induction h with
  | refl => exact .refl _
  | tail _ hx ih => exact conn_trans (.tail (.refl _) (adj_symm hc hx)) ih

/-- faces of the cell taken from the stack: each either has all its neighbours reached, or one of them on the stack -/
theorem faceFold : ∀ (fs : List (List Nat)) (st chk : List Nat),
    let r := fs.foldl faceStep (st, chk)
    ∃ new : List Nat, r.1 = new ++ st ∧ new.Nodup ∧ (∀ x ∈ new, x ∉ chk ∧ ∃ F ∈ fs, x ∈ F) ∧
      (∀ x, x ∈ r.2 ↔ x ∈ chk ∨ x ∈ new) ∧ (r.2.length = chk.length + new.length) ∧
      ∀ F ∈ fs, (∀ x ∈ F, x ∈ r.2) ∨ ∃ x ∈ F, x ∈ new := by
  intro fs
  induction fs with
  | nil => intro st chk; exact ⟨[], rfl, nodup_nil, by simp, by simp, rfl, by simp⟩
  | cons F fs ih =>
    intro st chk
    dsimp only
    rw [foldl_cons]
    have hs : faceStep (st, chk) F = match F.find? (fun n => !chk.contains n) with
      | none => (st, chk)
      | some n => (n :: st, insSet chk n) := rfl
    rw [hs]
    cases hf : F.find? (fun n => !chk.contains n) with
    | none =>
      obtain ⟨new, h1, h2, h3, h4, h5, h6⟩ := ih st chk
      refine ⟨new, h1, h2, fun x hx => ?_, h4, h5, fun G hG => ?_⟩
      · obtain ⟨a, G, hG, hxG⟩ := h3 x hx
        exact ⟨a, G, by simp [hG], hxG⟩
      · rcases mem_cons.1 hG with rfl | hG
        · left
          intro x hx
          rw [find?_eq_none] at hf
          exact (h4 x).2 (.inl (by simpa using hf x hx))
        · exact h6 G hG
    | some n =>
      have hnF : n ∈ F := mem_of_find?_eq_some hf
      have hnc : n ∉ chk := by simpa using find?_some hf
      obtain ⟨new, h1, h2, h3, h4, h5, h6⟩ := ih (n :: st) (insSet chk n)
      have hnn : n ∉ new := fun h => (h3 n h).1 (by simp [mem_insSet])
      refine ⟨new ++ [n], by rw [append_assoc]; exact h1, ?_, fun x hx => ?_, fun x => ?_, ?_, fun G hG => ?_⟩
      · rw [nodup_append]
        exact ⟨h2, by simp, by simp only [mem_singleton]; rintro a ha b rfl rfl; exact hnn ha⟩
      · rcases mem_append.1 hx with hx | hx
        · obtain ⟨a, G, hG, hxG⟩ := h3 x hx
          rw [mem_insSet] at a
          exact ⟨fun h => a (.inl h), G, by simp [hG], hxG⟩
        · rw [mem_singleton.1 hx]
          exact ⟨hnc, F, by simp, hnF⟩
      · rw [h4, mem_insSet]
        simp only [mem_append, mem_singleton]; grind
      · have : (insSet chk n).length = chk.length + 1 := by simp [insSet, hnc]
        rw [h5, this]
        simp only [length_append, length_singleton]; omega
      · rcases mem_cons.1 hG with rfl | hG
        · exact .inr ⟨n, hnF, by simp⟩
        · rcases h6 G hG with h | ⟨x, hx, hn⟩
          · exact .inl h
          · exact .inr ⟨x, hx, by simp [hn]⟩

/-- invariant of the inner loop started from `i` with the closed set `c0` of cells reached before -/
structure PieceInv (cells : Data (List (List Nat))) (i : Nat) (c0 : List Nat) (s : List Nat × List Nat × List Nat) : Prop where
  nodup : (s.2.1 ++ s.1).Nodup
  fresh : ∀ x ∈ s.2.1 ++ s.1, x ∉ c0
  chk : ∀ x, x ∈ s.2.2 ↔ x ∈ c0 ∨ x ∈ s.2.1 ++ s.1
  len : s.2.2.length = c0.length + (s.2.1 ++ s.1).length
  conn : ∀ x ∈ s.2.1 ++ s.1, Conn cells i x ∧ has cells x = true
  start : i ∈ s.2.1 ++ s.1
  faces : ∀ a ∈ s.2.1, ∀ fs, get cells a = some fs → ∀ F ∈ fs, (∀ x ∈ F, x ∈ s.2.2) ∨ ∃ x ∈ F, x ∈ s.1

theorem pieceInv_next {cells : Data (List (List Nat))} (hc : Coherent cells) {i : Nat} {c0 : List Nat}
    {t : Nat} {st save chk : List Nat} (h : PieceInv cells i c0 (t :: st, save, chk)) {fs : List (List Nat)}
    (ht : get cells t = some fs) :
    PieceInv cells i c0 ((fs.foldl faceStep (st, chk)).1, save ++ [t], (fs.foldl faceStep (st, chk)).2) := by
  obtain ⟨new, h1, h2, h3, h4, h5, h6⟩ := faceFold fs st chk
  obtain ⟨i1, i2, i3, i4, i5, i6, i7⟩ := h
  dsimp only at *
  rw [h1]
  have hmem : ∀ x, x ∈ save ++ [t] ++ (new ++ st) ↔ x ∈ save ++ t :: st ∨ x ∈ new := by
    intro x; simp only [mem_append, mem_cons, mem_singleton, not_mem_nil, or_false]; grind
  have hnew : ∀ x ∈ new, x ∉ save ++ t :: st := fun x hx h => (h3 x hx).1 ((i3 x).2 (.inr h))
  refine ⟨?_, fun x hx => ?_, fun x => ?_, ?_, fun x hx => ?_, ?_, ?_⟩
  · have hp : (save ++ [t] ++ (new ++ st)).Perm (new ++ (save ++ t :: st)) := by
      rw [append_assoc, singleton_append]
      have : (save ++ t :: (new ++ st)).Perm (t :: new ++ (save ++ st)) := by
        refine perm_middle.trans ?_
        simp only [cons_append]
        refine Perm.cons _ ?_
        rw [← append_assoc, ← append_assoc]
        exact (perm_append_comm).append_right _
      refine this.trans ?_
      simp only [cons_append]
      refine perm_middle.symm.trans ?_
      exact Perm.append_left _ perm_middle.symm
    show (save ++ [t] ++ (new ++ st)).Nodup
    rw [hp.nodup_iff, nodup_append]
    exact ⟨h2, i1, by rintro a ha b hb rfl; exact hnew a ha hb⟩
  · rcases (hmem x).1 hx with hx | hx
    · exact i2 x hx
    · exact fun h => (h3 x hx).1 ((i3 x).2 (.inl h))
  · rw [hmem, h4, i3]; grind
  · rw [h5, i4]
    simp only [length_append, length_cons, length_nil]; omega
  · rcases (hmem x).1 hx with hx | hx
    · exact i5 x hx
    · obtain ⟨_, F, hF, hxF⟩ := h3 x hx
      obtain ⟨gs, hg, _⟩ := (hc t fs ht F hF).2 x hxF
      exact ⟨.tail (i5 t (by simp)).1 ⟨fs, ht, F, hF, hxF⟩, by rw [has_eq_isSome, hg]; rfl⟩
  · exact (hmem i).2 (.inl i6)
  · intro a ha gs hgs F hF
    dsimp only at ha
    have key : ∀ G ∈ fs, (∀ x ∈ G, x ∈ (fs.foldl faceStep (st, chk)).2) ∨ ∃ x ∈ G, x ∈ new ++ st := by
      intro G hG
      rcases h6 G hG with h | ⟨x, hx, hn⟩
      · exact .inl h
      · exact .inr ⟨x, hx, by simp [hn]⟩
    replace ha := mem_append.1 ha
    rcases ha with ha | ha
    · rcases i7 a ha gs hgs F hF with h | ⟨x, hx, hs⟩
      · exact .inl fun x hx => (h4 x).2 (.inl (h x hx))
      · rcases mem_cons.1 hs with rfl | hs
        · -- the witness is the cell just taken: its own face carries on
          obtain ⟨gs', hg', G, hG, hz⟩ := (hc a gs hgs F hF).2 x hx
          rw [ht] at hg'; cases hg'
          have hax : a ∉ st := by
            intro h
            have := i1
            rw [nodup_append] at this
            exact this.2.2 a ha a (by simp [h]) rfl
          have hac : a ∈ chk := (i3 a).2 (.inr (by simp [ha]))
          rcases h6 G hG with hall | ⟨y, hy, hyn⟩
          · left
            intro y hy
            by_cases hyx : y = x
            · subst hyx; exact (h4 y).2 (.inl ((i3 y).2 (.inr (by simp))))
            · exact hall y ((hz y).2 ⟨hyx, .inr hy⟩)
          · right
            rcases ((hz y).1 hy).2 with rfl | hyF
            · exact absurd hac (h3 y hyn).1
            · exact ⟨y, hyF, by simp [hyn]⟩
        · exact .inr ⟨x, hx, by simp [hs]⟩
    · rw [mem_singleton] at ha
      subst ha
      rw [ht] at hgs; cases hgs
      exact key F hF

/-- one piece: the loop ends and collects the cells connected to the first one, each once -/
theorem piece_spec {cells : Data (List (List Nat))} (hok : Ok cells) (hc : Coherent cells) {c0 : List Nat}
    (hclosed : ∀ x ∈ c0, ∀ y, Adj cells x y → y ∈ c0) {i : Nat} (hi : has cells i = true) (hi0 : i ∉ c0) :
    ∃ save chk', Runs (pieceStep cells) ([i], [], insSet c0 i) (some (save, chk')) ∧ save.Nodup ∧
      (∀ x, x ∈ save ↔ Conn cells i x) ∧ (∀ x ∈ save, x ∉ c0 ∧ has cells x = true) ∧
      (∀ x, x ∈ chk' ↔ x ∈ c0 ∨ x ∈ save) ∧ chk'.length = c0.length + save.length := by
  have h0 : PieceInv cells i c0 ([i], [], insSet c0 i) := by
    refine ⟨by simp, by simpa using hi0, fun x => by simp [mem_insSet], by simp [insSet, hi0], ?_, by simp, by simp⟩
    intro x hx
    have : x = i := by simpa using hx
    subst this
    exact ⟨.refl _, hi⟩
  obtain ⟨s', r, hinv, hd, hr⟩ := runs_of (f := pieceStep cells) (PieceInv cells i c0)
    (fun s => cells.length - s.2.1.length) (by
      rintro ⟨st, save, chk⟩ s' h e
      cases st with
      | nil => simp [pieceStep] at e
      | cons t st =>
        have ht := (h.conn t (by simp)).2
        rw [has_eq_isSome, Option.isSome_iff_exists] at ht
        obtain ⟨fs, ht⟩ := ht
        simp only [pieceStep, ht, Out.next.injEq] at e
        subst e
        have hn := pieceInv_next hc h ht
        refine ⟨hn, ?_⟩
        have hlen : (save ++ [t]).length ≤ (cells.map Prod.fst).length := by
          have hnd : (save ++ [t]).Nodup := (nodup_append.1 hn.nodup).1
          exact hnd.length_le_of_subset (by
            intro x hx
            exact (has_iff cells x).1 (hn.conn x (by simp only [mem_append] at hx ⊢; grind)).2)
        simp only [length_append, length_singleton, length_map] at hlen ⊢
        omega) (by
      rintro ⟨st, save, chk⟩ h e
      cases st with
      | nil => simp [pieceStep] at e
      | cons t st =>
        have ht := (h.conn t (by simp)).2
        rw [has_eq_isSome, Option.isSome_iff_exists] at ht
        obtain ⟨fs, ht⟩ := ht
        simp [pieceStep, ht] at e) h0
  obtain ⟨st, save, chk⟩ := s'
  cases st with
  | cons t st =>
    exfalso
    simp only [pieceStep] at hd
    split at hd <;> cases hd
  | nil =>
    simp only [pieceStep, Out.done.injEq] at hd
    subst hd
    obtain ⟨i1, i2, i3, i4, i5, i6, i7⟩ := hinv
    simp only [append_nil, not_mem_nil, and_false, exists_false, or_false] at i1 i2 i3 i4 i5 i6 i7
    refine ⟨save, chk, hr, i1, fun x => ⟨fun h => (i5 x h).1, fun h => ?_⟩, fun x hx => ⟨i2 x hx, (i5 x hx).2⟩, i3, i4⟩
    induction h with
    | refl => exact i6
    | tail _ hadj ih =>
      rename_i b c _
      obtain ⟨fs, hfs, F, hF, hcF⟩ := hadj
      rcases (i3 c).1 (i7 b ih fs hfs F hF c hcF) with h | h
      · exact absurd (hclosed c h b (adj_symm hc ⟨fs, hfs, F, hF, hcF⟩)) (i2 b ih)
      · exact h

/-- what the outer loop knows: the pieces found are the connected pieces of the cells reached -/
structure DecInv (cells : Data (List (List Nat))) (chk : List Nat) (acc : List (List Nat)) : Prop where
  mem : ∀ x, x ∈ chk ↔ x ∈ acc.flatten
  len : chk.length = acc.flatten.length
  nodup : acc.flatten.Nodup
  has : ∀ x ∈ acc.flatten, has cells x = true
  comp : ∀ p ∈ acc, p ≠ [] ∧ ∀ a ∈ p, ∀ b, b ∈ p ↔ Conn cells a b

theorem pieceStart_spec (ids chk : List Nat) :
    (∀ i, pieceStart ids chk = some i → i ∈ ids ∧ i ∉ chk) ∧ (pieceStart ids chk = none → ∀ i ∈ ids, i ∈ chk) := by
  unfold pieceStart
  refine ⟨fun i h => ⟨mem_of_find?_eq_some h, by simpa using find?_some h⟩, fun h i hi => ?_⟩
  rw [find?_eq_none] at h
  simpa using h i hi

theorem piece_det {cells : Data (List (List Nat))} {ids chk : List Nat} {r r' : Option (List Nat × List Nat)}
    (h : Piece cells ids chk r) (h' : Piece cells ids chk r') : r = r' := by
  cases h with
  | run a b =>
    cases h' with
    | run a' b' => rw [a] at a'; cases a'; exact runs_det b b'
    | empty a' => rw [a] at a'; cases a'
  | empty a =>
    cases h' with
    | run a' b' => rw [a] at a'; cases a'
    | empty a' => rfl

theorem decompose_det {cells : Data (List (List Nat))} {ids chk : List Nat} {acc : List (List Nat)}
    {r r' : Option (List (List Nat))} (h : Decompose cells ids chk acc r) (h' : Decompose cells ids chk acc r') : r = r' := by
  induction h with
  | last a b =>
    cases h' with
    | last a' b' => have := piece_det a a'; cases this; rfl
    | more a' b' _ => have := piece_det a a'; cases this; exact absurd b' b
    | throw a' => have := piece_det a a'; cases this
  | more a b _ ih =>
    cases h' with
    | last a' b' => have := piece_det a a'; cases this; exact absurd b b'
    | more a' b' c' => have := piece_det a a'; cases this; exact ih c'
    | throw a' => have := piece_det a a'; cases this
  | throw a =>
    cases h' with
    | last a' b' => have := piece_det a a'; cases this
    | more a' b' _ => have := piece_det a a'; cases this
    | throw a' => rfl

theorem decompose_loop {cells : Data (List (List Nat))} (hok : Ok cells) (hc : Coherent cells) :
    ∀ (k : Nat) (chk : List Nat) (acc : List (List Nat)), cells.length - chk.length = k → chk.length < cells.length →
      DecInv cells chk acc →
      ∃ ps chk', Decompose cells (cells.map Prod.fst) chk acc (some ps) ∧ DecInv cells chk' ps ∧
        cells.length ≤ chk'.length := by
  intro k
  induction k using Nat.strongRecOn with
  | ind k ih =>
    intro chk acc hk hlt hinv
    cases hst : pieceStart (cells.map Prod.fst) chk with
    | none =>
      exfalso
      have h := (pieceStart_spec (cells.map Prod.fst) chk).2 hst
      have := Nodup.length_le_of_subset hok h
      rw [length_map] at this
      omega
    | some i =>
      obtain ⟨hi, hic⟩ := (pieceStart_spec _ _).1 i hst
      have hclosed : ∀ x ∈ chk, ∀ y, Adj cells x y → y ∈ chk := by
        intro x hx y hxy
        obtain ⟨p, hp, hxp⟩ := mem_flatten.1 ((hinv.mem x).1 hx)
        exact (hinv.mem y).2 (mem_flatten.2 ⟨p, hp, ((hinv.comp p hp).2 x hxp y).2 (.tail (.refl _) hxy)⟩)
      obtain ⟨save, chk', hr, hn, hm, hx0, hck, hl⟩ := piece_spec hok hc hclosed ((has_iff cells i).2 hi) hic
      have hne : save ≠ [] := by
        intro h; rw [h] at hm; exact absurd ((hm i).2 (.refl _)) (by simp)
      have hinv' : DecInv cells chk' (acc ++ [save]) := by
        refine ⟨fun x => ?_, ?_, ?_, ?_, ?_⟩
        · rw [hck, hinv.mem]; simp
        · rw [hl, hinv.len]; simp
        · rw [flatten_append, nodup_append]
          refine ⟨hinv.nodup, by simpa using hn, ?_⟩
          rintro a ha b hb rfl
          exact (hx0 a (by simpa using hb)).1 ((hinv.mem a).2 ha)
        · intro x hx
          rw [flatten_append, mem_append] at hx
          rcases hx with hx | hx
          · exact hinv.has x hx
          · exact (hx0 x (by simpa using hx)).2
        · intro p hp
          rcases mem_append.1 hp with hp | hp
          · exact hinv.comp p hp
          · rw [mem_singleton.1 hp]
            refine ⟨hne, fun a ha b => ?_⟩
            rw [hm] at ha ⊢
            exact ⟨fun h => conn_trans (conn_symm hc ha) h, fun h => conn_trans ha h⟩
      by_cases hlt' : chk'.length < (cells.map Prod.fst).length
      · have hpos : 0 < save.length := (length_pos_iff.2 hne)
        obtain ⟨ps, chk2, h1, h2, h3⟩ := ih (cells.length - chk'.length) (by rw [length_map] at hlt'; omega) chk' (acc ++ [save])
          rfl (by simpa using hlt') hinv'
        exact ⟨ps, chk2, .more (.run hst hr) hlt' h1, h2, h3⟩
      · exact ⟨acc ++ [save], chk', .last (.run hst hr) hlt', hinv', by simpa using hlt'⟩

/-- C41, non-empty meshes: the call ends with one result; its lists contain every cell exactly once; two cells are in
the same list exactly when they are connected through faces (also where more than two cells meet at a face). -/
theorem C41_pieces_partial (cells : Data (List (List Nat))) (hok : Ok cells) (hc : Coherent cells) (hne : cells ≠ []) :
    ∃ ps, (∀ r, Decompose cells (cells.map Prod.fst) [] [] r ↔ r = some ps) ∧
      ps.flatten.Perm (cells.map Prod.fst) ∧ (∀ p ∈ ps, p ≠ []) ∧
      ∀ a b, has cells a = true → ((∃ p ∈ ps, a ∈ p ∧ b ∈ p) ↔ Conn cells a b) := by
  have h0 : DecInv cells [] [] := ⟨by simp, rfl, by simp, by simp, by simp⟩
  obtain ⟨ps, chk', h1, h2, h3⟩ := decompose_loop hok hc _ [] [] rfl (by simpa using (length_pos_iff.2 hne)) h0
  have hsub : ∀ x ∈ cells.map Prod.fst, x ∈ ps.flatten := by
    apply subset_full h2.nodup (fun x hx => (has_iff cells x).1 (h2.has x hx))
    rw [length_map, ← h2.len]; exact h3
  refine ⟨ps, fun r => ⟨fun hr => decompose_det hr h1, fun hr => hr ▸ h1⟩, ?_, fun p hp => (h2.comp p hp).1, ?_⟩
  · rw [perm_iff_count]
    intro x
    rw [h2.nodup.count, Nodup.count hok]
    have : x ∈ ps.flatten ↔ x ∈ cells.map Prod.fst := ⟨fun hx => (has_iff cells x).1 (h2.has x hx), hsub x⟩
    simp only [this]
  · intro a b ha
    constructor
    · rintro ⟨p, hp, hap, hbp⟩
      exact ((h2.comp p hp).2 a hap b).1 hbp
    · intro h
      obtain ⟨p, hp, hap⟩ := mem_flatten.1 (hsub a ((has_iff cells a).1 ha))
      exact ⟨p, hp, hap, ((h2.comp p hp).2 a hap b).2 h⟩

/-- three cells around one face, and a lonely one -/
def demoPieces : Data (List (List Nat)) := [(4, [[5, 6], []]), (5, [[], [6, 4]]), (9, [[], []]), (6, [[4, 5]])]

example : Ok demoPieces ∧ Coherent demoPieces ∧ demoPieces ≠ [] := by
  refine ⟨by unfold Ok demoPieces; decide, ?_, by unfold demoPieces; simp⟩
  intro a fs h F hF
  have hm := get_some_mem h
  simp only [demoPieces, mem_cons, Prod.mk.injEq, not_mem_nil, or_false] at hm
  rcases hm with ⟨rfl, rfl⟩ | ⟨rfl, rfl⟩ | ⟨rfl, rfl⟩ | ⟨rfl, rfl⟩ <;>
    simp only [mem_cons, not_mem_nil, or_false] at hF
  · rcases hF with rfl | rfl
    · refine ⟨by decide, fun x hx => ?_⟩
      simp only [mem_cons, not_mem_nil, or_false] at hx
      rcases hx with rfl | rfl
      · exact ⟨[[], [6, 4]], rfl, [6, 4], by simp, by intro z; simp; omega⟩
      · exact ⟨[[4, 5]], rfl, [4, 5], by simp, by intro z; simp; omega⟩
    · simp
  · rcases hF with rfl | rfl
    · simp
    · refine ⟨by decide, fun x hx => ?_⟩
      simp only [mem_cons, not_mem_nil, or_false] at hx
      rcases hx with rfl | rfl
      · exact ⟨[[4, 5]], rfl, [4, 5], by simp, by intro z; simp; omega⟩
      · exact ⟨[[5, 6], []], rfl, [5, 6], by simp, by intro z; simp; omega⟩
  · rcases hF with rfl | rfl <;> simp
  · subst hF
    refine ⟨by decide, fun x hx => ?_⟩
    simp only [mem_cons, not_mem_nil, or_false] at hx
    rcases hx with rfl | rfl
    · exact ⟨[[5, 6], []], rfl, [5, 6], by simp, by intro z; simp; omega⟩
    · exact ⟨[[], [6, 4]], rfl, [6, 4], by simp, by intro z; simp; omega⟩

/-- C41 does not hold for an empty mesh: instead of an empty list the call always throws. -/
theorem C41_empty_fails (r : Option (List (List Nat))) : Decompose [] [] [] [] r ↔ r = none := by
  have h : Decompose [] [] [] [] none := .throw (.empty rfl)
  exact ⟨fun hr => decompose_det hr h, fun hr => hr ▸ h⟩

/-! ### C42 -/

section Band
variable {D : Type} (neighs : Nat → List Nat) (dist : Nat → D) (close : Nat → Bool) (seeds : List Nat)

/-- the band: close seeds, and close neighbours of members -/
inductive InBand : Nat → Prop
  | seed {i} : i ∈ seeds → close i = true → InBand i
  | step {a b} : InBand a → b ∈ neighs a → close b = true → InBand b

variable {neighs dist close seeds}

/-- state of a round: `rem` still to be examined, `nst` collected for the next round -/
structure BandInv (neighs : Nat → List Nat) (dist : Nat → D) (close : Nat → Bool) (seeds U : List Nat)
    (rem : List Nat) (r : Data D) (nst vis : List Nat) : Prop where
  ok : Ok r
  val : ∀ e ∈ r, e.2 = dist e.1 ∧ InBand neighs close seeds e.1
  univ : (∀ x ∈ vis, x ∈ U) ∧ ∀ e ∈ r, e.1 ∈ vis
  hrem : rem.Nodup ∧ ∀ x ∈ rem, x ∈ vis ∧ x ∉ r.map Prod.fst
  hnst : nst.Nodup ∧ ∀ x ∈ nst, x ∈ vis ∧ x ∉ r.map Prod.fst ∧ x ∉ rem
  from_ : ∀ x, x ∈ rem ∨ x ∈ nst → ∃ a ∈ r.map Prod.fst, x ∈ neighs a
  front : ∀ a ∈ r.map Prod.fst, ∀ b ∈ neighs a, b ∈ vis
  hseeds : ∀ i ∈ seeds, close i = true → i ∈ r.map Prod.fst
  cls : ∀ v ∈ vis, v ∈ r.map Prod.fst ∨ v ∈ rem ∨ v ∈ nst ∨ close v = false

/-- elements of the universe not visited yet -/
def unseen (U vis : List Nat) : Nat := (U.filter (fun x => !vis.contains x)).length

theorem unseen_push {U vis : List Nat} {n : Nat} (hn : n ∈ U) (hv : n ∉ vis) : unseen U (vis ++ [n]) < unseen U vis := by
  unfold unseen
  induction U with
  | nil => cases hn
  | cons a U ih =>
    have hle : ∀ U : List Nat, (U.filter (fun x => !(vis ++ [n]).contains x)).length ≤
        (U.filter (fun x => !vis.contains x)).length := by
      intro U
      induction U with
      | nil => simp
      | cons a U ih =>
        simp only [filter_cons, contains_eq_mem, mem_append, mem_singleton] at ih ⊢
        by_cases h1 : a ∈ vis
        · simpa [h1] using ih
        · by_cases h2 : a = n
          · simp [h1, h2] at ih ⊢; rw [if_neg (by rw [← h2]; exact h1)] ; simp; omega
          · simpa [h1, h2] using ih
    by_cases han : a = n
    · subst han
      have := hle U
      simp only [filter_cons, contains_eq_mem, mem_append, mem_singleton] at this ⊢
      simp [hv] at this ⊢
      omega
    · have hU : n ∈ U := by exact (mem_cons.1 hn).resolve_left (Ne.symm han)
      have := ih hU
      simp only [filter_cons, contains_eq_mem, mem_append, mem_singleton] at this ⊢
      by_cases h1 : a ∈ vis
      · simpa [h1] using this
      · simpa [h1, han] using this

theorem bandPush_spec {U : List Nat} : ∀ (l st vis : List Nat), (∀ x ∈ l, x ∈ U) →
    let p := bandPush (st, vis) l
    ∃ new : List Nat, p.1 = st ++ new ∧ p.2 = vis ++ new ∧ new.Nodup ∧ (∀ x ∈ new, x ∈ l ∧ x ∉ vis) ∧
      (∀ x ∈ l, x ∈ p.2) ∧ unseen U p.2 + new.length ≤ unseen U vis := by
  intro l
  induction l with
  | nil => intro st vis _; exact ⟨[], by simp [bandPush], by simp [bandPush], nodup_nil, by simp, by simp, by simp [bandPush]⟩
  | cons n l ih =>
    intro st vis hU
    have e : bandPush (st, vis) (n :: l) = bandPush (if vis.contains n then (st, vis) else (st ++ [n], vis ++ [n])) l := rfl
    dsimp only
    rw [e]
    by_cases hv : vis.contains n = true
    · rw [if_pos hv]
      obtain ⟨new, h1, h2, h3, h4, h5, h6⟩ := ih st vis (fun x hx => hU x (by simp [hx]))
      refine ⟨new, h1, h2, h3, fun x hx => ⟨by simp [(h4 x hx).1], (h4 x hx).2⟩, fun x hx => ?_, h6⟩
      rcases mem_cons.1 hx with rfl | hx
      · rw [h2]; exact mem_append_left _ (by simpa using hv)
      · exact h5 x hx
    · rw [if_neg hv]
      have hv' : n ∉ vis := by simpa using hv
      obtain ⟨new, h1, h2, h3, h4, h5, h6⟩ := ih (st ++ [n]) (vis ++ [n]) (fun x hx => hU x (by simp [hx]))
      have hlt := unseen_push (hU n (by simp)) hv'
      refine ⟨n :: new, by rw [h1]; simp, by rw [h2]; simp, ?_, fun x hx => ?_, fun x hx => ?_, ?_⟩
      · rw [nodup_cons]; exact ⟨fun h => (h4 n h).2 (by simp), h3⟩
      · rcases mem_cons.1 hx with rfl | hx
        · exact ⟨by simp, hv'⟩
        · exact ⟨by simp [(h4 x hx).1], fun h => (h4 x hx).2 (by simp [h])⟩
      · rcases mem_cons.1 hx with rfl | hx
        · rw [h2]; simp
        · exact h5 x hx
      · rw [length_cons]; omega

theorem bandOne_spec {U : List Nat} (hU : ∀ a ∈ U, ∀ b ∈ neighs a, b ∈ U) {id : Nat} {rem : List Nat} {r : Data D}
    {nst vis : List Nat} (h : BandInv neighs dist close seeds U (id :: rem) r nst vis) :
    ∃ s', bandOne neighs dist close (r, nst, vis) id = some s' ∧
      BandInv neighs dist close seeds U rem s'.1 s'.2.1 s'.2.2 ∧
      unseen U s'.2.2 + s'.2.1.length ≤ unseen U vis + nst.length := by
  obtain ⟨ok, val, univ, hrem, hnst, hfrom, front, hseeds, cls⟩ := h
  rw [nodup_cons] at hrem
  have hid := hrem.2 id (by simp)
  unfold bandOne
  by_cases hc : close id = true
  · have hno : has r id = false := by
      have := mt (has_iff r id).1 hid.2; simpa using this
    have hi : ins r id (dist id) = some (r ++ [(id, dist id)]) := by simp [ins, hno]
    rw [if_pos hc]
    simp only [hi, Option.map_some]
    refine ⟨_, rfl, ?_, ?_⟩
    all_goals
      obtain ⟨new, h1, h2, h3, h4, h5, h6⟩ := bandPush_spec (U := U) (neighs id) nst vis
        (hU id (univ.1 id hid.1))
      dsimp only at h1 h2 h5 h6 ⊢
      rw [h1, h2] at *
    · have hin : InBand neighs close seeds id := by
        obtain ⟨a, ha, hb⟩ := hfrom id (.inl (by simp))
        obtain ⟨e, he, rfl⟩ := mem_map.1 ha
        exact .step (val e he).2 hb hc
      have hk : (r ++ [(id, dist id)]).map Prod.fst = r.map Prod.fst ++ [id] := by simp
      refine ⟨ok_append ok hno, ?_, ⟨?_, ?_⟩, ⟨hrem.1.2, ?_⟩, ⟨?_, ?_⟩, ?_, ?_, ?_, ?_⟩
      · intro e he
        rcases mem_append.1 he with he | he
        · exact val e he
        · rw [mem_singleton.1 he]; exact ⟨rfl, hin⟩
      · intro x hx
        rcases mem_append.1 hx with hx | hx
        · exact univ.1 x hx
        · exact hU id (univ.1 id hid.1) x (h4 x hx).1
      · intro e he
        rcases mem_append.1 he with he | he
        · exact mem_append_left _ (univ.2 e he)
        · rw [mem_singleton.1 he]; exact mem_append_left _ hid.1
      · intro x hx
        have := hrem.2 x (by simp [hx])
        rw [hk]
        refine ⟨mem_append_left _ this.1, ?_⟩
        simp only [mem_append, mem_singleton, not_or]
        exact ⟨this.2, fun h => hrem.1.1 (h ▸ hx)⟩
      · rw [nodup_append]
        exact ⟨hnst.1, h3, by rintro a ha b hb rfl; exact (h4 a hb).2 (hnst.2 a ha).1⟩
      · intro x hx
        rw [hk]
        rcases mem_append.1 hx with hx | hx
        · have := hnst.2 x hx
          refine ⟨mem_append_left _ this.1, ?_, fun h => this.2.2 (by simp [h])⟩
          simp only [mem_append, mem_singleton, not_or]
          exact ⟨this.2.1, fun h => this.2.2 (by simp [h])⟩
        · have hxv := (h4 x hx).2
          refine ⟨mem_append_right _ hx, ?_, fun h => hxv (hrem.2 x (by simp [h])).1⟩
          simp only [mem_append, mem_singleton, not_or]
          refine ⟨fun h => ?_, fun h => hxv (h ▸ hid.1)⟩
          obtain ⟨e, he, rfl⟩ := mem_map.1 h
          exact hxv (univ.2 e he)
      · intro x hx
        rw [hk]
        rcases hx with hx | hx
        · obtain ⟨a, ha, hb⟩ := hfrom x (.inl (by simp [hx]))
          exact ⟨a, mem_append_left _ ha, hb⟩
        · rcases mem_append.1 hx with hx | hx
          · obtain ⟨a, ha, hb⟩ := hfrom x (.inr hx)
            exact ⟨a, mem_append_left _ ha, hb⟩
          · exact ⟨id, by simp, (h4 x hx).1⟩
      · intro a ha b hb
        rw [hk] at ha
        rcases mem_append.1 ha with ha | ha
        · exact mem_append_left _ (front a ha b hb)
        · rw [mem_singleton] at ha; subst ha; exact h5 b hb
      · intro i hi hci
        rw [hk]; exact mem_append_left _ (hseeds i hi hci)
      · intro v hv
        rw [hk]
        simp only [mem_append, mem_singleton] at hv ⊢
        rcases hv with hv | hv
        · have := cls v hv; simp only [mem_cons] at this; grind
        · grind
    · simp only [length_append]; omega
  · rw [if_neg hc]
    have hc' : close id = false := by simpa using hc
    refine ⟨_, rfl, ⟨ok, val, univ, ⟨hrem.1.2, fun x hx => hrem.2 x (by simp [hx])⟩,
      ⟨hnst.1, fun x hx => ⟨(hnst.2 x hx).1, (hnst.2 x hx).2.1, fun h => (hnst.2 x hx).2.2 (by simp [h])⟩⟩,
      fun x hx => hfrom x (by grind), front, hseeds, ?_⟩, Nat.le_refl _⟩
    intro v hv
    have := cls v hv
    simp only [mem_cons] at this
    grind

theorem bandFold_spec {U : List Nat} (hU : ∀ a ∈ U, ∀ b ∈ neighs a, b ∈ U) : ∀ (rem : List Nat) (r : Data D)
    (nst vis : List Nat), BandInv neighs dist close seeds U rem r nst vis →
    ∃ s', rem.foldlM (bandOne neighs dist close) (r, nst, vis) = some s' ∧
      BandInv neighs dist close seeds U [] s'.1 s'.2.1 s'.2.2 ∧
      unseen U s'.2.2 + s'.2.1.length ≤ unseen U vis + nst.length := by
  intro rem
  induction rem with
  | nil => intro r nst vis h; exact ⟨_, rfl, h, Nat.le_refl _⟩
  | cons id rem ih =>
    intro r nst vis h
    obtain ⟨⟨r1, n1, v1⟩, e1, h1, l1⟩ := bandOne_spec hU h
    obtain ⟨s2, e2, h2, l2⟩ := ih r1 n1 v1 h1
    refine ⟨s2, ?_, h2, by dsimp only at l1; omega⟩
    rw [foldlM_cons, e1]
    exact e2

theorem foldl_insSet_sub : ∀ (l v : List Nat), (∀ x ∈ l, x ∈ v) → l.foldl insSet v = v := by
  intro l
  induction l with
  | nil => intro v _; rfl
  | cons a l ih =>
    intro v h
    have : insSet v a = v := by simp [insSet, h a (by simp)]
    rw [foldl_cons, this]
    exact ih v (fun x hx => h x (by simp [hx]))

/-- the rounds end; the result is the band -/
theorem band_rounds {U : List Nat} (hU : ∀ a ∈ U, ∀ b ∈ neighs a, b ∈ U) {r : Data D} {st vis : List Nat}
    (h : BandInv neighs dist close seeds U st r [] vis) :
    ∃ r', Runs (bandRound neighs dist close) (r, st, vis) (some r') ∧ Ok r' ∧
      ∀ id d, (id, d) ∈ r' ↔ InBand neighs close seeds id ∧ d = dist id := by
  obtain ⟨s', r', hinv, hd, hr⟩ := runs_of (f := bandRound neighs dist close)
    (fun s => BandInv neighs dist close seeds U s.2.1 s.1 [] s.2.2) (fun s => unseen U s.2.2 + s.2.1.length) (by
      rintro ⟨r, st, vis⟩ s' h e
      cases st with
      | nil => simp [bandRound] at e
      | cons t st =>
        obtain ⟨s2, e2, h2, l2⟩ := bandFold_spec hU _ _ _ _ h
        have e3 : bandRound neighs dist close (r, t :: st, vis) = .next s2 := by
          show (match (t :: st).foldlM (bandOne neighs dist close) (r, [], (t :: st).foldl insSet vis) with
            | none => Out.fail
            | some s' => Out.next s') = _
          rw [foldl_insSet_sub _ _ (fun x hx => (h.hrem.2 x hx).1), e2]
        rw [e3, Out.next.injEq] at e
        subst e
        obtain ⟨g1, g2, g3, g4, g5, g6, g7, g8, g9⟩ := h2
        refine ⟨⟨g1, g2, g3, ⟨g5.1, fun x hx => ⟨(g5.2 x hx).1, (g5.2 x hx).2.1⟩⟩, ⟨nodup_nil, by simp⟩,
          fun x hx => g6 x (by simpa using hx), g7, g8, fun v hv => by simpa using g9 v hv⟩, ?_⟩
        simp only [length_cons, length_nil] at l2 ⊢
        omega) (by
      rintro ⟨r, st, vis⟩ h e
      cases st with
      | nil => simp [bandRound] at e
      | cons t st =>
        obtain ⟨s2, e2, h2, l2⟩ := bandFold_spec hU _ _ _ _ h
        have e3 : bandRound neighs dist close (r, t :: st, vis) = .next s2 := by
          show (match (t :: st).foldlM (bandOne neighs dist close) (r, [], (t :: st).foldl insSet vis) with
            | none => Out.fail
            | some s' => Out.next s') = _
          rw [foldl_insSet_sub _ _ (fun x hx => (h.hrem.2 x hx).1), e2]
        rw [e3] at e
        cases e) (s := (r, st, vis)) h
  obtain ⟨r2, st2, vis2⟩ := s'
  cases st2 with
  | cons t st2 =>
    exfalso
    simp only [bandRound] at hd
    split at hd <;> cases hd
  | nil =>
    simp only [bandRound, Out.done.injEq] at hd
    subst hd
    refine ⟨r2, hr, hinv.ok, fun id d => ⟨fun hm => ⟨(hinv.val _ hm).2, (hinv.val _ hm).1⟩, ?_⟩⟩
    rintro ⟨hin, rfl⟩
    have hk : id ∈ r2.map Prod.fst := by
      induction hin with
      | seed hs hc => exact hinv.hseeds _ hs hc
      | step _ hb hc ih =>
        rcases hinv.cls _ (hinv.front _ ih _ hb) with h | h | h | h
        · exact h
        · cases h
        · cases h
        · rw [hc] at h; cases h
    obtain ⟨e, he, rfl⟩ := mem_map.1 hk
    have := (hinv.val e he).1
    rw [← this]; exact he

theorem seedFold (dist : Nat → D) (close : Nat → Bool) : ∀ (l : List Nat) (r : Data D), Ok r →
    (l.filter close).Nodup → (∀ x ∈ l, close x = true → x ∉ r.map Prod.fst) →
    l.foldlM (bandInsert dist close) r = some (r ++ (l.filter close).map (fun i => (i, dist i))) := by
  intro l
  induction l with
  | nil => intro r _ _ _; simp
  | cons a l ih =>
    intro r hr hn hd
    rw [foldlM_cons]
    unfold bandInsert
    by_cases hc : close a = true
    · have hno : has r a = false := by
        have := mt (has_iff r a).1 (hd a (by simp) hc); simpa using this
      rw [if_pos hc, ins, hno]
      rw [filter_cons_of_pos hc, nodup_cons] at hn
      have := ih (r ++ [(a, dist a)]) (ok_append hr hno) hn.2 (by
        intro x hx hcx
        simp only [map_append, map_cons, map_nil, mem_append, mem_singleton, not_or]
        exact ⟨hd x (by simp [hx]) hcx, fun h => hn.1 (h ▸ mem_filter.2 ⟨hx, hcx⟩)⟩)
      simp only [Bool.false_eq_true, if_false, Option.bind_eq_bind, Option.bind_some]
      rw [filter_cons_of_pos hc]
      refine this.trans ?_
      simp
    · rw [if_neg hc]
      rw [filter_cons_of_neg hc] at hn ⊢
      exact ih r hr hn (fun x hx => hd x (by simp [hx]))

/-- a second insertion of a close seed throws -/
theorem seedFold_dup (dist : Nat → D) (close : Nat → Bool) : ∀ (l : List Nat) (r : Data D), Ok r →
    (¬ (l.filter close).Nodup ∨ ∃ x ∈ l, close x = true ∧ x ∈ r.map Prod.fst) →
    l.foldlM (bandInsert dist close) r = none := by
  intro l
  induction l with
  | nil => intro r _ h; simp at h
  | cons a l ih =>
    intro r hr h
    rw [foldlM_cons]
    unfold bandInsert
    by_cases hc : close a = true
    · rw [if_pos hc, ins]
      by_cases hno : has r a = true
      · rw [if_pos hno]; rfl
      · rw [if_neg hno]
        have hno' : has r a = false := by simpa using hno
        refine ih _ (ok_append hr hno') ?_
        rw [filter_cons_of_pos hc, nodup_cons] at h
        have hnm : a ∉ r.map Prod.fst := mt (has_iff r a).2 hno
        simp only [map_append, map_cons, map_nil, mem_append, mem_singleton]
        rcases h with h | ⟨x, hx, hcx, hm⟩
        · by_cases ha : a ∈ l.filter close
          · exact .inr ⟨a, (mem_filter.1 ha).1, hc, .inr rfl⟩
          · exact .inl (fun hn => h ⟨ha, hn⟩)
        · rcases mem_cons.1 hx with rfl | hx
          · exact absurd hm hnm
          · exact .inr ⟨x, hx, hcx, .inl hm⟩
    · rw [if_neg hc]
      rw [filter_cons_of_neg hc] at h
      refine ih r hr ?_
      rcases h with h | ⟨x, hx, hcx, hm⟩
      · exact .inl h
      · rcases mem_cons.1 hx with rfl | hx
        · exact absurd hcx hc
        · exact .inr ⟨x, hx, hcx, hm⟩

theorem firstRing (r : Data D) : ∀ (l : Data D) (v : List Nat), v.Nodup →
    (∀ x, x ∈ l.foldl (fun v e => (neighs e.1).foldl (fun v n => if has r n then v else insSet v n) v) v ↔
      x ∈ v ∨ (has r x = false ∧ ∃ e ∈ l, x ∈ neighs e.1)) ∧
    (l.foldl (fun v e => (neighs e.1).foldl (fun v n => if has r n then v else insSet v n) v) v).Nodup := by
  have inner : ∀ (l v : List Nat), v.Nodup →
      (∀ x, x ∈ l.foldl (fun v n => if has r n then v else insSet v n) v ↔ x ∈ v ∨ (has r x = false ∧ x ∈ l)) ∧
      (l.foldl (fun v n => if has r n then v else insSet v n) v).Nodup := by
    intro l
    induction l with
    | nil => intro v hv; simp [hv]
    | cons a l ih =>
      intro v hv
      rw [foldl_cons]
      by_cases ha : has r a = true
      · rw [if_pos ha]
        obtain ⟨i1, i2⟩ := ih v hv
        refine ⟨fun x => ?_, i2⟩
        rw [i1]
        simp only [mem_cons]
        grind
      · rw [if_neg ha]
        obtain ⟨i1, i2⟩ := ih _ (nodup_insSet hv a)
        refine ⟨fun x => ?_, i2⟩
        rw [i1, mem_insSet]
        simp only [mem_cons]
        grind
  intro l
  induction l with
  | nil => intro v hv; simp [hv]
  | cons e l ih =>
    intro v hv
    rw [foldl_cons]
    obtain ⟨j1, j2⟩ := inner (neighs e.1) v hv
    obtain ⟨i1, i2⟩ := ih _ j2
    refine ⟨fun x => ?_, i2⟩
    rw [i1, j1]
    simp only [mem_cons]
    grind

theorem band_det {r r' : Option (Data D)} (h : Band neighs dist close seeds r) (h' : Band neighs dist close seeds r') :
    r = r' := by
  cases h with
  | run a b =>
    cases h' with
    | run a' b' => rw [a] at a'; cases a'; exact runs_det b b'
    | throw a' => rw [a] at a'; cases a'
  | throw a =>
    cases h' with
    | run a' b' => rw [a] at a'; cases a'
    | throw a' => rfl

/-- the search in a finite mesh, no close seed listed twice: it ends and returns exactly the band with its distances -/
theorem band_spec (U : List Nat) (hU : ∀ a ∈ U, ∀ b ∈ neighs a, b ∈ U) (hs : ∀ i ∈ seeds, i ∈ U)
    (hn : (seeds.filter close).Nodup) :
    ∃ r, (∀ q, Band neighs dist close seeds q ↔ q = some r) ∧ Ok r ∧
      ∀ id d, (id, d) ∈ r ↔ InBand neighs close seeds id ∧ d = dist id := by
  let r0 : Data D := (seeds.filter close).map (fun i => (i, dist i))
  have hk0 : r0.map Prod.fst = seeds.filter close := by
    simp only [r0, map_map]; exact (map_congr_left (fun _ _ => rfl)).trans (map_id _)
  have hok0 : Ok r0 := by unfold Ok; rw [hk0]; exact hn
  have hf : seeds.foldlM (bandInsert dist close) [] = some r0 := by
    rw [seedFold dist close seeds [] (by simp [Ok]) hn (by simp)]; rfl
  obtain ⟨f1, f2⟩ := firstRing (neighs := neighs) r0 r0 [] nodup_nil
  generalize hst : r0.foldl (fun v e => (neighs e.1).foldl (fun v n => if has r0 n then v else insSet v n) v) [] = st at f1 f2
  have hi : bandInit neighs dist close seeds = some (r0, st, (r0.map Prod.fst).foldl insSet st) := by
    unfold bandInit; rw [hf, Option.map_some]; simp only [hst]
  have hvis : ∀ x, x ∈ (r0.map Prod.fst).foldl insSet st ↔ x ∈ st ∨ x ∈ r0.map Prod.fst := fun x => by
    rw [mem_foldl_insSet]
  have hkU : ∀ e ∈ r0, e.1 ∈ U := by
    intro e he
    have : e.1 ∈ seeds.filter close := hk0 ▸ mem_map.2 ⟨e, he, rfl⟩
    exact hs _ (mem_filter.1 this).1
  have hinv : BandInv neighs dist close seeds U st r0 [] ((r0.map Prod.fst).foldl insSet st) := by
    refine ⟨hok0, ?_, ⟨?_, ?_⟩, ⟨f2, ?_⟩, ⟨nodup_nil, by simp⟩, ?_, ?_, ?_, ?_⟩
    · intro e he
      obtain ⟨i, hi, rfl⟩ := mem_map.1 he
      rw [mem_filter] at hi
      exact ⟨rfl, .seed hi.1 hi.2⟩
    · intro x hx
      rcases (hvis x).1 hx with hx | hx
      · rcases (f1 x).1 hx with h | ⟨_, e, he, hxe⟩
        · cases h
        · exact hU _ (hkU e he) x hxe
      · obtain ⟨e, he, rfl⟩ := mem_map.1 hx
        exact hkU e he
    · intro e he; exact (hvis _).2 (.inr (mem_map.2 ⟨e, he, rfl⟩))
    · intro x hx
      refine ⟨(hvis x).2 (.inl hx), fun h => ?_⟩
      rcases (f1 x).1 hx with h' | ⟨h', _⟩
      · cases h'
      · rw [(has_iff r0 x).2 h] at h'; cases h'
    · intro x hx
      rcases hx with hx | hx
      · rcases (f1 x).1 hx with h | ⟨_, e, he, hxe⟩
        · cases h
        · exact ⟨e.1, mem_map.2 ⟨e, he, rfl⟩, hxe⟩
      · cases hx
    · intro a ha b hb
      rw [hvis]
      by_cases hbr : has r0 b = true
      · exact .inr ((has_iff r0 b).1 hbr)
      · obtain ⟨e, he, rfl⟩ := mem_map.1 ha
        exact .inl ((f1 b).2 (.inr ⟨by simpa using hbr, e, he, hb⟩))
    · intro i hi hc; rw [hk0]; exact mem_filter.2 ⟨hi, hc⟩
    · intro v hv
      rcases (hvis v).1 hv with h | h
      · exact .inr (.inl h)
      · exact .inl h
  obtain ⟨r, hr, h1, h2⟩ := band_rounds hU hinv
  have hb : Band neighs dist close seeds (some r) := .run hi hr
  exact ⟨r, fun q => ⟨fun hq => band_det hq hb, fun hq => hq ▸ hb⟩, h1, h2⟩

end Band

/-- C42, cells, adjacencies of this mesh built, no close seed given twice: the search ends and returns exactly the
cells reachable from the close seeds through close neighbours, each once, with its distance. -/
theorem C42_cells_partial {D : Type} (type : Nat) (ht : type ≠ 3) (cells : List Nat) (neighs : Nat → List Nat)
    (hU : ∀ a ∈ cells, ∀ b ∈ neighs a, b ∈ cells) (dist : Nat → D) (close : Nat → Bool) (found : List Nat)
    (hfound : ∀ i ∈ found, i ∈ cells) (seedlist : Option (List Nat)) (given : List Nat)
    (hg : given = seedlist.getD found) (hn : (given.filter (fun i => cells.contains i && close i)).Nodup) :
    ∃ r, (∀ q, BandCells 1 type cells true neighs dist close found seedlist q ↔ q = some r) ∧ Ok r ∧
      ∀ id d, (id, d) ∈ r ↔ InBand neighs close (given.filter (fun i => cells.contains i)) id ∧ d = dist id := by
  have hff : ∀ l : List Nat, (l.filter (fun i => cells.contains i)).filter close =
      l.filter (fun i => cells.contains i && close i) := by
    intro l; rw [filter_filter]; congr 1; funext i; rw [Bool.and_comm]
  have hfo : found.filter (fun i => cells.contains i) = found := by
    rw [filter_eq_self]; intro i hi; simpa using hfound i hi
  obtain ⟨r, h1, h2, h3⟩ := band_spec (dist := dist) (close := close) (seeds := given.filter (fun i => cells.contains i))
    cells hU (by intro i hi; simpa using (mem_filter.1 hi).2) (by rw [hff]; exact hn)
  refine ⟨r, fun q => ?_, h2, h3⟩
  unfold BandCells
  rw [if_neg (by omega)]
  cases seedlist with
  | none =>
    have : given = found := hg
    rw [this, hfo] at h1
    exact h1 q
  | some l =>
    have : given = l := hg
    rw [this] at h1
    exact h1 q

/-- C42: on point clouds, or when the other object is not a surface, the search ends with an empty result. -/
theorem C42_not_supported {D : Type} (surfType type : Nat) (h : surfType ≠ 1 ∨ type = 3) (cells : List Nat) (adjBuilt : Bool)
    (neighs : Nat → List Nat) (dist : Nat → D) (close : Nat → Bool) (found : List Nat) (seedlist : Option (List Nat))
    (q : Option (Data D)) :
    BandCells surfType type cells adjBuilt neighs dist close found seedlist q ↔ q = some [] := by
  unfold BandCells
  rw [if_pos h]

example : (1 : Nat) ≠ 1 ∨ (3 : Nat) = 3 := .inr rfl

/-- C42, vertices, seeds given, none of the close ones twice. -/
theorem C42_vertices_partial {D : Type} (verts : List Nat) (neighs : Nat → List Nat)
    (hU : ∀ a ∈ verts, ∀ b ∈ neighs a, b ∈ verts) (dist : Nat → D) (close : Nat → Bool) (given : List Nat)
    (hn : (given.filter (fun i => verts.contains i && close i)).Nodup) :
    ∃ r, (∀ q, BandVerts 1 verts neighs dist close (some given) q ↔ q = some r) ∧ Ok r ∧
      ∀ id d, (id, d) ∈ r ↔ InBand neighs close (given.filter (fun i => verts.contains i)) id ∧ d = dist id := by
  have hff : ∀ l : List Nat, (l.filter (fun i => verts.contains i)).filter close =
      l.filter (fun i => verts.contains i && close i) := by
    intro l; rw [filter_filter]; congr 1; funext i; rw [Bool.and_comm]
  obtain ⟨r, h1, h2, h3⟩ := band_spec (dist := dist) (close := close) (seeds := given.filter (fun i => verts.contains i))
    verts hU (by intro i hi; simpa using (mem_filter.1 hi).2) (by rw [hff]; exact hn)
  exact ⟨r, fun q => by unfold BandVerts; rw [if_neg (by omega)]; exact h1 q, h2, h3⟩

/-- a strip of five cells of which the first three are close -/
example : let cells := [10, 11, 12, 13, 14]; let neighs := fun i => [i - 1, i + 1].filter (fun j => cells.contains j)
    let close := fun i => decide (i < 13)
    (∀ a ∈ cells, ∀ b ∈ neighs a, b ∈ cells) ∧
    ([12, 77, 14].filter (fun i => cells.contains i && close i)).Nodup ∧
    InBand neighs close ([12, 77, 14].filter (fun i => cells.contains i)) 10 ∧
    ¬ InBand neighs close ([12, 77, 14].filter (fun i => cells.contains i)) 14 := by
  refine ⟨by decide, by decide, ?_, ?_⟩
  · exact .step (.step (.seed (i := 12) (by decide) (by decide)) (b := 11) (by decide) (by decide)) (by decide) (by decide)
  · intro h
    cases h with
    | seed _ h => exact absurd h (by decide)
    | step _ _ h => exact absurd h (by decide)

/-- C42 does not hold for the vertex search without seed list: the result is always empty. -/
theorem C42_vertices_without_seeds_fails {D : Type} (surfType : Nat) (verts : List Nat) (neighs : Nat → List Nat)
    (dist : Nat → D) (close : Nat → Bool) (q : Option (Data D)) :
    BandVerts surfType verts neighs dist close none q ↔ q = some [] := by
  unfold BandVerts
  split
  · rfl
  · have h : Band neighs dist close [] (some []) := .run (s := ([], [], [])) rfl (.done rfl)
    exact ⟨fun hq => band_det hq h, fun hq => hq ▸ h⟩

/-- C42 does not hold when a close seed is given twice: the call throws. -/
theorem C42_repeated_seed_fails {D : Type} (neighs : Nat → List Nat) (dist : Nat → D) (close : Nat → Bool)
    (seeds : List Nat) (h : ¬ (seeds.filter close).Nodup) (q : Option (Data D)) :
    Band neighs dist close seeds q ↔ q = none := by
  have hb : Band neighs dist close seeds none := .throw (by
    unfold bandInit; rw [seedFold_dup dist close seeds [] (by simp [Ok]) (.inl h)]; rfl)
  exact ⟨fun hq => band_det hq hb, fun hq => hq ▸ hb⟩

/-- C42 does not hold when the adjacencies of this mesh were never built: only the close seeds are returned, since the
search updates the adjacencies of the other surface instead of its own. -/
theorem C42_adjacencies_fails {D : Type} (type : Nat) (ht : type ≠ 3) (cells : List Nat) (neighs : Nat → List Nat)
    (dist : Nat → D) (close : Nat → Bool) (found given : List Nat)
    (hn : (given.filter (fun i => cells.contains i && close i)).Nodup) :
    ∃ r, (∀ q, BandCells 1 type cells false neighs dist close found (some given) q ↔ q = some r) ∧
      ∀ id, id ∈ r.map Prod.fst ↔ id ∈ given ∧ id ∈ cells ∧ close id = true := by
  have hff : (given.filter (fun i => cells.contains i)).filter close =
      given.filter (fun i => cells.contains i && close i) := by
    rw [filter_filter]; congr 1; funext i; rw [Bool.and_comm]
  obtain ⟨r, h1, h2, h3⟩ := band_spec (neighs := fun _ => []) (dist := dist) (close := close)
    (seeds := given.filter (fun i => cells.contains i)) cells (by simp)
    (by intro i hi; simpa using (mem_filter.1 hi).2) (by rw [hff]; exact hn)
  refine ⟨r, fun q => by unfold BandCells; rw [if_neg (by omega)]; exact h1 q, fun id => ?_⟩
  constructor
  · intro h
    obtain ⟨e, he, rfl⟩ := mem_map.1 h
    cases ((h3 e.1 e.2).1 he).1 with
    | seed hs hc => rw [mem_filter] at hs; exact ⟨hs.1, by simpa using hs.2, hc⟩
    | step _ hb _ => cases hb
  · rintro ⟨a, b, c⟩
    exact mem_map.2 ⟨(id, dist id), (h3 _ _).2 ⟨.seed (mem_filter.2 ⟨a, by simpa using b⟩) c, rfl⟩, rfl⟩

end Verif.Mesh
