import Verif.Refine.Basic
import Verif.Mesh.GraphProps
/-
Red-green refinement: the propagation of the tags.
-/
namespace Verif.Refine
open Verif.Field Verif.Mesh
open List hiding get get_of_mem

variable {P : Type}

/-- the adjacencies and interfaces belong to the mesh: neighbours are cells, and the vertices of the interface of a
face are those of the side of the triangle -/
structure Wired (T : Topo) (cells : Data Cell) : Prop where
  nbrs : ∀ id c f, get cells id = some c → f < 3 → ∀ n ∈ T.nbrs id f, has cells n = true
  ends : ∀ id c f, get cells id = some c → f < 3 →
    (T.ends (T.itf id f)).Perm [c.conn.getD f 0, c.conn.getD ((f + 1) % 3) 0]

/-- what the visit of a red cell meets: cell, face, neighbour -/
def incs (T : Topo) (r : Nat) : List (Nat × Nat × Nat) := [0, 1, 2].flatMap fun f => (T.nbrs r f).map fun n => (r, f, n)

/-- the face of the neighbour -/
def faceOf (T : Topo) (x : Nat × Nat × Nat) : Nat :=
  if T.owner (T.itf x.1 x.2.1) = x.2.2 then T.ownerFace (T.itf x.1 x.2.1) else T.neighFace (T.itf x.1 x.2.1)

/-- number of times a cell was met -/
def met (inc : List (Nat × Nat × Nat)) (n : Nat) : Nat := inc.countP (fun x => x.2.2 == n)

/-- what holds all along -/
structure Mid (T : Topo) (active : List Nat) (inc : List (Nat × Nat × Nat)) (popped : List Nat) (s : Marks) : Prop where
  tag : ∀ n, s.tag n = (if n ∈ active then 2 else 0) + met inc n
  red : ∀ n, n ∈ popped ++ s.queue ↔ 2 ≤ s.tag n
  once : (popped ++ s.queue).Nodup
  green : ∀ n, s.tag n = 1 → ∃ x ∈ inc, x.2.2 = n ∧ s.green n = some (faceOf T x)

theorem met_append (inc : List (Nat × Nat × Nat)) (x : Nat × Nat × Nat) (n : Nat) :
    met (inc ++ [x]) n = met inc n + if x.2.2 = n then 1 else 0 := by
  unfold met
  rw [countP_append]
  by_cases h : x.2.2 = n <;> simp [countP_cons, h]

theorem meet_mid {T : Topo} {active : List Nat} {inc : List (Nat × Nat × Nat)} {popped : List Nat} {s : Marks}
    (h : Mid T active inc popped s) (r f n : Nat) : Mid T active (inc ++ [(r, f, n)]) popped (meet T r f s n) := by
  have htag : ∀ k, upd s.tag n (s.tag n + 1) k = (if k ∈ active then 2 else 0) + met (inc ++ [(r, f, n)]) k := by
    intro k
    rw [met_append]
    unfold upd
    by_cases hk : k = n
    · subst hk
      have := h.tag k
      simp only [if_true]
      omega
    · have hnk : ¬ n = k := fun h => hk h.symm
      simp only [if_neg hk, if_neg hnk, h.tag k, Nat.add_zero]
  have hold : ∀ k, k ≠ n → upd s.tag n (s.tag n + 1) k = s.tag k := fun k hk => by simp [upd, hk]
  have hnew : upd s.tag n (s.tag n + 1) n = s.tag n + 1 := by simp [upd]
  unfold meet
  simp only
  split
  · next ht =>
    refine ⟨htag, ?_, h.once, ?_⟩
    · intro k
      by_cases hk : k = n
      · subst hk
        have := h.red k
        simp only [hnew]
        constructor
        · intro _; omega
        · intro _; rw [this]; omega
      · simp only [hold k hk]; exact h.red k
    · intro k hk
      by_cases hkn : k = n
      · subst hkn; simp only [hnew] at hk; omega
      · simp only [hold k hkn] at hk
        obtain ⟨x, hx, h1, h2⟩ := h.green k hk
        exact ⟨x, by simp [hx], h1, h2⟩
  · split
    · next ht =>
      have hnot : n ∉ popped ++ s.queue := by
        rw [h.red]; omega
      refine ⟨htag, ?_, ?_, ?_⟩
      · intro k
        simp only [← append_assoc, mem_append (s := popped ++ s.queue), mem_singleton]
        by_cases hk : k = n
        · subst hk
          simp only [hnew, or_true, true_iff]
          omega
        · simp only [hold k hk, hk, or_false]; exact h.red k
      · rw [← append_assoc, nodup_append]
        refine ⟨h.once, by simp, ?_⟩
        intro a ha b hb
        rw [mem_singleton] at hb
        rintro rfl
        subst hb
        exact hnot ha
      · intro k hk
        by_cases hkn : k = n
        · subst hkn; simp only [hnew] at hk; omega
        · simp only [hold k hkn] at hk
          obtain ⟨x, hx, h1, h2⟩ := h.green k hk
          refine ⟨x, by simp [hx], h1, ?_⟩
          simp only [upd, if_neg hkn]; exact h2
    · split
      · next ht =>
        refine ⟨htag, ?_, h.once, ?_⟩
        · intro k
          by_cases hk : k = n
          · subst hk
            have := h.red k
            simp only [hnew]
            constructor
            · intro hm; rw [this] at hm; omega
            · intro _; omega
          · simp only [hold k hk]; exact h.red k
        · intro k hk
          by_cases hkn : k = n
          · subst hkn
            refine ⟨(r, f, k), by simp, rfl, ?_⟩
            simp [upd, faceOf]
          · simp only [hold k hkn] at hk
            obtain ⟨x, hx, h1, h2⟩ := h.green k hk
            refine ⟨x, by simp [hx], h1, ?_⟩
            simp only [upd, if_neg hkn]; exact h2
      · omega

theorem meet_edges (T : Topo) (r f : Nat) (s : Marks) (n : Nat) :
    (meet T r f s n).edges = insSet s.edges (T.itf r f) := by
  unfold meet
  simp only
  split
  · rfl
  · split
    · rfl
    · split <;> rfl

theorem meets_mid {T : Topo} {active : List Nat} {popped : List Nat} (r f : Nat) : ∀ (ns : List Nat)
    (inc : List (Nat × Nat × Nat)) (s : Marks), Mid T active inc popped s →
    Mid T active (inc ++ ns.map fun n => (r, f, n)) popped (ns.foldl (meet T r f) s) := by
  intro ns
  induction ns with
  | nil => intro inc s h; simpa using h
  | cons n ns ih =>
    intro inc s h
    have := ih _ _ (meet_mid h r f n)
    simpa using this

theorem insSet_self {α : Type} [DecidableEq α] {l : List α} {x : α} (h : x ∈ l) : insSet l x = l := by
  simp [insSet, h]

theorem meets_edges (T : Topo) (r f : Nat) : ∀ (ns : List Nat) (s : Marks), ns ≠ [] →
    (ns.foldl (meet T r f) s).edges = insSet s.edges (T.itf r f) := by
  intro ns
  induction ns with
  | nil => intro s h; exact absurd rfl h
  | cons n ns ih =>
    intro s _
    rw [foldl_cons]
    by_cases hn : ns = []
    · subst hn; exact meet_edges ..
    · rw [ih _ hn, meet_edges, insSet_self]
      rw [mem_insSet]; exact Or.inr rfl

theorem face_edges (T : Topo) (r f : Nat) (s : Marks) :
    (visitFace T r s f).edges = insSet s.edges (T.itf r f) := by
  unfold visitFace
  split
  · rfl
  · next h => exact meets_edges T r f _ s h

theorem face_mid {T : Topo} {active : List Nat} {popped : List Nat} {inc : List (Nat × Nat × Nat)} {s : Marks} (r f : Nat)
    (h : Mid T active inc popped s) :
    Mid T active (inc ++ (T.nbrs r f).map fun n => (r, f, n)) popped (visitFace T r s f) := by
  unfold visitFace
  split
  · next hn => rw [hn]; simpa using ⟨h.tag, h.red, h.once, h.green⟩
  · exact meets_mid r f _ inc s h

/-- between two iterations -/
structure Between (T : Topo) (active popped : List Nat) (s : Marks) : Prop where
  mid : Mid T active (popped.flatMap (incs T)) popped s
  edges : ∀ i, i ∈ s.edges ↔ ∃ r ∈ popped, ∃ f, f < 3 ∧ i = T.itf r f
  nodup : s.edges.Nodup

theorem visit_between {T : Topo} {active popped : List Nat} {s : Marks} {r : Nat} {q : List Nat} (hq : s.queue = r :: q)
    (h : Between T active popped s) :
    Between T active (popped ++ [r]) ([0, 1, 2].foldl (visitFace T r) { s with queue := q }) := by
  have h0 : Mid T active (popped.flatMap (incs T)) (popped ++ [r]) { s with queue := q } := by
    refine ⟨h.mid.tag, ?_, ?_, h.mid.green⟩
    · intro n
      have := h.mid.red n
      rw [hq] at this
      simpa using this
    · have := h.mid.once
      rw [hq] at this
      simpa using this
  refine ⟨?_, ?_, ?_⟩
  · have := face_mid r 2 (face_mid r 1 (face_mid r 0 h0))
    simpa [flatMap_append, incs, append_assoc] using this
  · intro i
    simp only [foldl_cons, foldl_nil, face_edges, mem_insSet, h.edges, mem_append, mem_singleton]
    constructor
    · rintro (((⟨x, hx, f, hf, rfl⟩ | rfl) | rfl) | rfl)
      · exact ⟨x, Or.inl hx, f, hf, rfl⟩
      · exact ⟨r, Or.inr rfl, 0, by omega, rfl⟩
      · exact ⟨r, Or.inr rfl, 1, by omega, rfl⟩
      · exact ⟨r, Or.inr rfl, 2, by omega, rfl⟩
    · rintro ⟨x, hx | rfl, f, hf, rfl⟩
      · exact Or.inl (Or.inl (Or.inl ⟨x, hx, f, hf, rfl⟩))
      · have : f = 0 ∨ f = 1 ∨ f = 2 := by omega
        rcases this with rfl | rfl | rfl <;> simp
  · simp only [foldl_cons, foldl_nil, face_edges]
    exact nodup_insSet (nodup_insSet (nodup_insSet h.nodup _) _) _

theorem start_between (T : Topo) {active : List Nat} (hn : active.Nodup) : Between T active [] (marks active) := by
  refine ⟨⟨?_, ?_, ?_, ?_⟩, ?_, ?_⟩
  · intro n; simp [marks, met]
  · intro n
    simp only [marks, nil_append]
    split <;> simp_all
  · simpa [marks] using hn
  · intro n h
    simp only [marks] at h
    split at h <;> cases h
  · intro i; simp [marks]
  · simp [marks]

/-- every red cell is a cell of the mesh -/
theorem between_cells {T : Topo} {cells : Data Cell} (hw : Wired T cells) {active popped : List Nat} {s : Marks}
    (ha : ∀ i ∈ active, has cells i = true) (hp : ∀ i ∈ popped, has cells i = true) (h : Between T active popped s) :
    ∀ n ∈ popped ++ s.queue, has cells n = true := by
  intro n hn
  rw [h.mid.red, h.mid.tag] at hn
  by_cases hna : n ∈ active
  · exact ha n hna
  · rw [if_neg hna] at hn
    have : 0 < met (popped.flatMap (incs T)) n := by omega
    unfold met at this
    rw [countP_pos_iff] at this
    obtain ⟨x, hx, hxn⟩ := this
    obtain ⟨r, hr, hx⟩ := mem_flatMap.1 hx
    obtain ⟨f, hf, hx⟩ := mem_flatMap.1 hx
    obtain ⟨k, hk, rfl⟩ := mem_map.1 hx
    simp only [beq_iff_eq] at hxn
    subst hxn
    have hrc := hp r hr
    rw [has_eq_isSome, Option.isSome_iff_exists] at hrc
    obtain ⟨c, hc⟩ := hrc
    refine hw.nbrs r c f hc ?_ k hk
    simp at hf; omega

theorem run_from {T : Topo} {cells : Data Cell} (hw : Wired T cells) (htri : ∀ c ∈ cells, c.2.elem = .triangle)
    {active : List Nat} (ha : ∀ i ∈ active, has cells i = true) :
    ∀ (k : Nat) (popped : List Nat) (s : Marks), Between T active popped s → (∀ i ∈ popped, has cells i = true) →
      cells.length ≤ popped.length + k →
      ∃ reds m, Runs (pop T cells) s (some m) ∧ Between T active reds m ∧ m.queue = [] ∧
        (∀ i ∈ reds, has cells i = true) := by
  intro k
  induction k with
  | zero =>
    intro popped s hb hp hk
    have hq : s.queue = [] := by
      cases hq : s.queue with
      | nil => rfl
      | cons r q =>
        exfalso
        have hall := between_cells hw ha hp hb
        have hnd := hb.mid.once
        have := Nodup.length_le_of_subset (l₂ := cells.map Prod.fst) hnd (fun n hn => (has_iff _ _).1 (hall n hn))
        rw [hq] at this
        simp at this
        omega
    exact ⟨popped, s, .done (by simp [pop, hq]), hb, hq, hp⟩
  | succ k ih =>
    intro popped s hb hp hk
    cases hq : s.queue with
    | nil => exact ⟨popped, s, .done (by simp [pop, hq]), hb, hq, hp⟩
    | cons r q =>
      have hr : has cells r = true := between_cells hw ha hp hb r (by simp [hq])
      have hrc := hr
      rw [has_eq_isSome, Option.isSome_iff_exists] at hrc
      obtain ⟨c, hc⟩ := hrc
      have htr : c.elem = .triangle := htri _ (get_some_mem hc)
      have hp' : ∀ i ∈ popped ++ [r], has cells i = true := by
        intro i hi
        rcases mem_append.1 hi with h | h
        · exact hp i h
        · rw [mem_singleton.1 h]; exact hr
      obtain ⟨reds, m, h1, h2, h3, h4⟩ := ih _ _ (visit_between hq hb) hp' (by simp; omega)
      refine ⟨reds, m, .next ?_ h1, h2, h3, h4⟩
      simp only [pop, hq, hc, htr, if_true]

/-- the propagation ends, with known tags, interfaces and green cells -/
theorem spread {T : Topo} {cells : Data Cell} (hw : Wired T cells) (htri : ∀ c ∈ cells, c.2.elem = .triangle)
    {active : List Nat} (hn : active.Nodup) (ha : ∀ i ∈ active, has cells i = true) :
    ∃ reds m, Runs (pop T cells) (marks active) (some m) ∧ Between T active reds m ∧ m.queue = [] ∧
      (∀ i ∈ reds, has cells i = true) :=
  run_from hw htri ha cells.length [] _ (start_between T hn) (by simp) (by simp)

end Verif.Refine
