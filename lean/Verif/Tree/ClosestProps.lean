import Verif.Tree.Model

/-!
C132: the closest cell of a search tree.
-/

namespace Verif.Tree
open Verif.Shape
open Verif.Rbf (tiny huge)
noncomputable section
open scoped Classical

/-! ### Specification -/

/-- a tree as bitpit builds it: no node is empty, the cells of an inner node are those of its children -/
def Skd.Built : Skd → Prop
  | .nil => True
  | .node _ cs l r => cs ≠ [] ∧ (l = .nil ∧ r = .nil ∨ ∀ c, c ∈ cs ↔ c ∈ l.cells ∨ c ∈ r.cells) ∧ l.Built ∧ r.Built

/-- a property of all nodes -/
def Skd.All (P : Box → List Nat → Prop) : Skd → Prop
  | .nil => True
  | .node b cs l r => P b cs ∧ l.All P ∧ r.All P

/-- distances to boxes bound the distances to the cells in them -/
def Fits (mn mx : Box → ℝ) (d : Nat → ℝ) (t : Skd) : Prop := t.All (fun b cs => ∀ c ∈ cs, mn b ≤ d c ∧ d c ≤ mx b)

/-- what a search for the closest wanted cell within `m` has to give: the closest one if there is one within `m`; otherwise no
cell, and the largest number -/
structure IsClosest (d : Nat → ℝ) (wanted : Nat → Prop) (cs : List Nat) (m : ℝ) (id : Option Nat) (dist : ℝ) : Prop where
  found : ∀ c ∈ cs, wanted c → d c ≤ m → id ≠ none
  cell : ∀ c, id = some c → c ∈ cs ∧ wanted c ∧ dist = d c ∧ d c ≤ m
  least : ∀ c, id = some c → ∀ c' ∈ cs, wanted c' → d c ≤ d c'
  nothing : id = none → dist = huge

/-! ### Helpers -/

theorem kids_nil {l r : Skd} : Skd.kids l r = [] ↔ l = .nil ∧ r = .nil := by
  cases l <;> cases r <;> simp [Skd.kids]

theorem mem_kids {l r x : Skd} (h : x ∈ Skd.kids l r) : x = l ∨ x = r := by
  cases l <;> cases r <;> simp only [Skd.kids, List.mem_cons, List.not_mem_nil, or_false] at h <;> tauto

theorem cells_kids {l r : Skd} {c : Nat} (h : c ∈ l.cells ∨ c ∈ r.cells) : ∃ x ∈ Skd.kids l r, c ∈ x.cells := by
  cases l <;> cases r <;> simp [Skd.kids, Skd.cells] at h ⊢ <;> tauto

theorem upd_spec (d : Nat → ℝ) (wanted : Nat → Bool) (tie : Nat → Nat → Bool) : ∀ (cs : List Nat) (st : Option Nat × ℝ),
    (cs.foldl (updCell d wanted tie) st).2 ≤ st.2 ∧
    (∀ c ∈ cs, wanted c = true → (cs.foldl (updCell d wanted tie) st).2 ≤ d c) ∧
    ((cs.foldl (updCell d wanted tie) st).1 = none → st.1 = none ∧ (cs.foldl (updCell d wanted tie) st).2 = st.2 ∧
      ∀ c ∈ cs, wanted c = true → st.2 < d c) ∧
    (cs.foldl (updCell d wanted tie) st = st ∨
      ∃ c ∈ cs, wanted c = true ∧ cs.foldl (updCell d wanted tie) st = (some c, d c)) := by
  intro cs
  induction cs with
  | nil => intro st; simp
  | cons c cs ih =>
    intro st
    have h0 : (updCell d wanted tie st c).2 ≤ st.2 ∧ (wanted c = true → (updCell d wanted tie st c).2 ≤ d c) ∧
        ((updCell d wanted tie st c).1 = none → updCell d wanted tie st c = st ∧ (wanted c = true → st.2 < d c)) ∧
        (updCell d wanted tie st c = st ∨ wanted c = true ∧ updCell d wanted tie st c = (some c, d c)) := by
      unfold updCell
      split
      · rename_i h; simp [h]
      · rename_i h
        have hw : wanted c = true := by simpa using h
        split
        · rename_i h1
          exact ⟨le_refl _, fun _ => le_of_lt h1, fun _ => ⟨rfl, fun _ => h1⟩, .inl rfl⟩
        · rename_i h1
          split
          · rename_i h2
            exact ⟨le_of_lt h2, fun _ => le_refl _, fun h => by simp at h, .inr ⟨hw, rfl⟩⟩
          · rename_i h2
            have he : d c = st.2 := le_antisymm (not_lt.1 h1) (not_lt.1 h2)
            cases h3 : st.1 with
            | none => simp only; exact ⟨he.le, fun _ => le_refl _, fun h => by simp at h, .inr ⟨hw, trivial⟩⟩
            | some o =>
              simp only
              split
              · exact ⟨he.le, fun _ => le_refl _, fun h => by simp at h, .inr ⟨hw, rfl⟩⟩
              · exact ⟨le_refl _, fun _ => he.ge, fun h => by simp [h3] at h, .inl rfl⟩
    obtain ⟨a1, a2, a3, a4⟩ := ih (updCell d wanted tie st c)
    obtain ⟨b1, b2, b3, b4⟩ := h0
    simp only [List.foldl_cons]
    refine ⟨a1.trans b1, ?_, ?_, ?_⟩
    · intro c' hc' hw
      rcases List.mem_cons.1 hc' with rfl | hc'
      · exact a1.trans (b2 hw)
      · exact a2 c' hc' hw
    · intro hn
      obtain ⟨x1, x2, x3⟩ := a3 hn
      obtain ⟨y1, y2⟩ := b3 x1
      rw [y1] at x1 x2 x3
      refine ⟨x1, by rw [← x2, y1], ?_⟩
      intro c' hc' hw
      rcases List.mem_cons.1 hc' with rfl | hc'
      · exact y2 hw
      · exact x3 c' hc' hw
    · rcases a4 with a4 | ⟨c', hc', hw, a4⟩
      · rcases b4 with b4 | ⟨hw, b4⟩
        · left; rw [a4, b4]
        · right; exact ⟨c, List.mem_cons_self, hw, by rw [a4, b4]⟩
      · right; exact ⟨c', List.mem_cons_of_mem _ hc', hw, a4⟩

theorem process_spec (d : Nat → ℝ) (wanted : Nat → Bool) (tie : Nat → Nat → Bool) : ∀ (l : List (List Nat × ℝ))
    (st : (Option Nat × ℝ) × Nat), (∀ e ∈ l, ∀ c ∈ e.1, e.2 ≤ d c) →
    (process d wanted tie l st).1.2 ≤ st.1.2 ∧
    (∀ e ∈ l, ∀ c ∈ e.1, wanted c = true → (process d wanted tie l st).1.2 ≤ d c) ∧
    ((process d wanted tie l st).1.1 = none → st.1.1 = none ∧ (process d wanted tie l st).1.2 = st.1.2 ∧
      ∀ e ∈ l, ∀ c ∈ e.1, wanted c = true → st.1.2 < d c) ∧
    ((process d wanted tie l st).1 = st.1 ∨
      ∃ e ∈ l, ∃ c ∈ e.1, wanted c = true ∧ (process d wanted tie l st).1 = (some c, d c)) ∧
    (process d wanted tie l st).2 ≤ st.2 + l.length := by
  intro l
  induction l with
  | nil => intro st _; simp [process]
  | cons x l ih =>
    intro st hb
    obtain ⟨cs, m⟩ := x
    unfold process
    have hb' : ∀ e ∈ l, ∀ c ∈ e.1, e.2 ≤ d c := fun e he => hb e (List.mem_cons_of_mem _ he)
    have hm : ∀ c ∈ cs, m ≤ d c := hb _ List.mem_cons_self
    split
    · rename_i h1
      obtain ⟨a1, a2, a3, a4, a5⟩ := ih st hb'
      refine ⟨a1, ?_, ?_, ?_, ?_⟩
      · intro e he c hc hw
        rcases List.mem_cons.1 he with rfl | he
        · exact a1.trans (h1.le.trans (hm c hc))
        · exact a2 e he c hc hw
      · intro hn
        obtain ⟨x1, x2, x3⟩ := a3 hn
        refine ⟨x1, x2, ?_⟩
        intro e he c hc hw
        rcases List.mem_cons.1 he with rfl | he
        · exact lt_of_lt_of_le h1 (hm c hc)
        · exact x3 e he c hc hw
      · rcases a4 with a4 | ⟨e, he, c, hc, hw, a4⟩
        · exact .inl a4
        · exact .inr ⟨e, List.mem_cons_of_mem _ he, c, hc, hw, a4⟩
      · simp only [List.length_cons]; omega
    · rename_i h1
      obtain ⟨u1, u2, u3, u4⟩ := upd_spec d wanted tie cs st.1
      obtain ⟨a1, a2, a3, a4, a5⟩ := ih (cs.foldl (updCell d wanted tie) st.1, st.2 + 1) hb'
      refine ⟨a1.trans u1, ?_, ?_, ?_, ?_⟩
      · intro e he c hc hw
        rcases List.mem_cons.1 he with rfl | he
        · exact a1.trans (u2 c hc hw)
        · exact a2 e he c hc hw
      · intro hn
        obtain ⟨x1, x2, x3⟩ := a3 hn
        obtain ⟨y1, y2, y3⟩ := u3 x1
        refine ⟨y1, x2.trans y2, ?_⟩
        intro e he c hc hw
        rcases List.mem_cons.1 he with rfl | he
        · exact y3 c hc hw
        · have := x3 e he c hc hw; simp only [y2] at this; exact this
      · rcases a4 with a4 | ⟨e, he, c, hc, hw, a4⟩
        · rcases u4 with u4 | ⟨c, hc, hw, u4⟩
          · exact .inl (a4.trans u4)
          · exact .inr ⟨_, List.mem_cons_self, c, hc, hw, a4.trans u4⟩
        · exact .inr ⟨e, List.mem_cons_of_mem _ he, c, hc, hw, a4⟩
      · simp only [List.length_cons] at a5 ⊢; omega

/-- number of leaves -/
def Skd.leaves : Skd → Nat
  | .nil => 0
  | .node _ _ .nil .nil => 1
  | .node _ _ l r => l.leaves + r.leaves

theorem leaves_kids (b : Box) (cs : List Nat) {l r : Skd} (h : Skd.kids l r ≠ []) :
    (Skd.node b cs l r).leaves = ((Skd.kids l r).map Skd.leaves).sum := by
  cases l <;> cases r <;> simp [Skd.kids, Skd.leaves] at h ⊢ <;> omega

theorem leaves_one (b : Box) (cs : List Nat) {l r : Skd} (h : Skd.kids l r = []) : (Skd.node b cs l r).leaves = 1 := by
  obtain ⟨rfl, rfl⟩ := kids_nil.1 h; rfl

/-- the search for candidates -/
theorem collect_spec (mn mx : Box → ℝ) (d : Nat → ℝ) : ∀ (s : List Skd) (e : ℝ) (acc : List (List Nat × ℝ)),
    (∀ t ∈ s, t.Built ∧ Fits mn mx d t) →
    (collect mn mx s e acc).2 ≤ e ∧
    (∀ x ∈ (collect mn mx s e acc).1, x ∈ acc ∨ (∀ c ∈ x.1, x.2 ≤ d c) ∧ ∃ t ∈ s, ∀ c ∈ x.1, c ∈ t.cells) ∧
    (∀ x ∈ acc, x ∈ (collect mn mx s e acc).1) ∧
    (∀ v : ℝ, v ≤ e → (∀ t ∈ s, t.All (fun b _ => v ≤ mx b)) → v ≤ (collect mn mx s e acc).2 ∧
      ∀ t ∈ s, ∀ c ∈ t.cells, d c = v → ∃ x ∈ (collect mn mx s e acc).1, c ∈ x.1) ∧
    (collect mn mx s e acc).1.length ≤ acc.length + (s.map Skd.leaves).sum := by
  intro s e acc
  induction s, e, acc using collect.induct mn mx with
  | case1 e acc => intro _; simp [collect]
  | case2 s e acc ih =>
    intro h
    rw [collect]
    obtain ⟨a1, a2, a3, a4, a5⟩ := ih (fun t ht => h t (List.mem_cons_of_mem _ ht))
    refine ⟨a1, ?_, a3, ?_, ?_⟩
    · intro x hx
      rcases a2 x hx with hx | ⟨h1, t, ht, h2⟩
      · exact .inl hx
      · exact .inr ⟨h1, t, List.mem_cons_of_mem _ ht, h2⟩
    · intro v hv hall
      obtain ⟨y1, y2⟩ := a4 v hv (fun t ht => hall t (List.mem_cons_of_mem _ ht))
      refine ⟨y1, ?_⟩
      intro t ht c hc hd
      rcases List.mem_cons.1 ht with rfl | ht
      · simp [Skd.cells] at hc
      · exact y2 t ht c hc hd
    · simpa [Skd.leaves] using a5
  | case3 b cs l r s e acc hgt ih =>
    intro h
    rw [collect, if_pos hgt]
    obtain ⟨a1, a2, a3, a4, a5⟩ := ih (fun t ht => h t (List.mem_cons_of_mem _ ht))
    refine ⟨a1, ?_, a3, ?_, ?_⟩
    · intro x hx
      rcases a2 x hx with hx | ⟨h1, t, ht, h2⟩
      · exact .inl hx
      · exact .inr ⟨h1, t, List.mem_cons_of_mem _ ht, h2⟩
    · intro v hv hall
      obtain ⟨y1, y2⟩ := a4 v hv (fun t ht => hall t (List.mem_cons_of_mem _ ht))
      refine ⟨y1, ?_⟩
      intro t ht c hc hd
      rcases List.mem_cons.1 ht with rfl | ht
      · have hf := (h _ List.mem_cons_self).2
        have := (hf.1 c hc).1
        rw [hd] at this
        exact absurd (lt_of_lt_of_le hgt (this.trans hv)) (lt_irrefl _)
      · exact y2 t ht c hc hd
    · simp only [List.map_cons, List.sum_cons]; omega
  | case4 b cs l r s e acc hgt hk ih =>
    intro h
    rw [collect, if_neg hgt, if_pos hk]
    obtain ⟨a1, a2, a3, a4, a5⟩ := ih (fun t ht => h t (List.mem_cons_of_mem _ ht))
    have hf := (h _ List.mem_cons_self).2
    refine ⟨a1.trans (min_le_right _ _), ?_, ?_, ?_, ?_⟩
    · intro x hx
      rcases a2 x hx with hx | ⟨h1, t, ht, h2⟩
      · rcases List.mem_append.1 hx with hx | hx
        · exact .inl hx
        · rw [List.mem_singleton] at hx
          subst hx
          exact .inr ⟨fun c hc => (hf.1 c hc).1, _, List.mem_cons_self, fun c hc => hc⟩
      · exact .inr ⟨h1, t, List.mem_cons_of_mem _ ht, h2⟩
    · intro x hx; exact a3 x (List.mem_append_left _ hx)
    · intro v hv hall
      have hvb : v ≤ mx b := (hall _ List.mem_cons_self).1
      obtain ⟨y1, y2⟩ := a4 v (le_min hvb hv) (fun t ht => hall t (List.mem_cons_of_mem _ ht))
      refine ⟨y1, ?_⟩
      intro t ht c hc hd
      rcases List.mem_cons.1 ht with rfl | ht
      · exact ⟨(cs, mn b), a3 _ (by simp), hc⟩
      · exact y2 t ht c hc hd
    · rw [List.map_cons, List.sum_cons, leaves_one b cs hk]
      simp only [List.length_append, List.length_cons, List.length_nil] at a5
      omega
  | case5 b cs l r s e acc hgt hk ih =>
    intro h
    rw [collect, if_neg hgt, if_neg hk]
    obtain ⟨hB, hF⟩ := h _ List.mem_cons_self
    have hkids : ∀ t ∈ Skd.kids l r, t.Built ∧ Fits mn mx d t := by
      intro t ht
      rcases mem_kids ht with rfl | rfl
      · exact ⟨hB.2.2.1, hF.2.1⟩
      · exact ⟨hB.2.2.2, hF.2.2⟩
    have hcells : ∀ c, c ∈ cs ↔ c ∈ l.cells ∨ c ∈ r.cells := by
      rcases hB.2.1 with h0 | h0
      · exact absurd (kids_nil.2 h0) hk
      · exact h0
    obtain ⟨a1, a2, a3, a4, a5⟩ := ih (by
      intro t ht
      rcases List.mem_append.1 ht with ht | ht
      · exact hkids t ht
      · exact h t (List.mem_cons_of_mem _ ht))
    refine ⟨a1.trans (min_le_right _ _), ?_, a3, ?_, ?_⟩
    · intro x hx
      rcases a2 x hx with hx | ⟨h1, t, ht, h2⟩
      · exact .inl hx
      · right
        refine ⟨h1, ?_⟩
        rcases List.mem_append.1 ht with ht | ht
        · refine ⟨_, List.mem_cons_self, fun c hc => (hcells c).2 ?_⟩
          rcases mem_kids ht with rfl | rfl
          · exact .inl (h2 c hc)
          · exact .inr (h2 c hc)
        · exact ⟨t, List.mem_cons_of_mem _ ht, h2⟩
    · intro v hv hall
      have h0 := hall _ List.mem_cons_self
      obtain ⟨y1, y2⟩ := a4 v (le_min h0.1 hv) (by
        intro t ht
        rcases List.mem_append.1 ht with ht | ht
        · rcases mem_kids ht with rfl | rfl
          · exact h0.2.1
          · exact h0.2.2
        · exact hall t (List.mem_cons_of_mem _ ht))
      refine ⟨y1, ?_⟩
      intro t ht c hc hd
      rcases List.mem_cons.1 ht with rfl | ht
      · obtain ⟨x, hx, hcx⟩ := cells_kids ((hcells c).1 hc)
        exact y2 x (List.mem_append_left _ hx) c hcx hd
      · exact y2 t (List.mem_append_right _ ht) c hc hd
    · rw [List.map_cons, List.sum_cons, leaves_kids b cs hk]
      rw [List.map_append, List.sum_append] at a5
      omega

/-- all cells of a subtree are cells of the tree -/
theorem all_weaken {P Q : Box → List Nat → Prop} (h : ∀ b cs, P b cs → Q b cs) : ∀ {t : Skd}, t.All P → t.All Q
  | .nil, _ => trivial
  | .node _ _ _ _, ⟨h1, h2, h3⟩ => ⟨h _ _ h1, all_weaken h h2, all_weaken h h3⟩

/-- cells of a node are cells of the tree -/
def Skd.Within (S : Nat → Prop) (t : Skd) : Prop := t.All (fun _ cs => ∀ c ∈ cs, S c)

theorem within_cells : ∀ {t : Skd} {S : Nat → Prop}, t.Built → (∀ c ∈ t.cells, S c) → t.Within S
  | .nil, _, _, _ => trivial
  | .node _ cs l r, S, hB, h => by
    refine ⟨h, ?_, ?_⟩
    · rcases hB.2.1 with ⟨rfl, -⟩ | h0
      · trivial
      · exact within_cells hB.2.2.1 (fun c hc => h c ((h0 c).2 (.inl hc)))
    · rcases hB.2.1 with ⟨-, rfl⟩ | h0
      · trivial
      · exact within_cells hB.2.2.2 (fun c hc => h c ((h0 c).2 (.inr hc)))

theorem all_and {P Q : Box → List Nat → Prop} : ∀ {t : Skd}, t.All P → t.All Q → t.All (fun b cs => P b cs ∧ Q b cs)
  | .nil, _, _ => trivial
  | .node _ _ _ _, ⟨h1, h2, h3⟩, ⟨g1, g2, g3⟩ => ⟨⟨h1, g1⟩, all_and h2 g2, all_and h3 g3⟩

theorem exists_least (d : Nat → ℝ) (P : Nat → Prop) : ∀ (l : List Nat), (∃ c ∈ l, P c) →
    ∃ c ∈ l, P c ∧ ∀ c' ∈ l, P c' → d c ≤ d c' := by
  intro l
  induction l with
  | nil => rintro ⟨c, hc, -⟩; simp at hc
  | cons a l ih =>
    intro h
    by_cases hl : ∃ c ∈ l, P c
    · obtain ⟨c, hc, hp, hm⟩ := ih hl
      by_cases ha : P a ∧ d a < d c
      · refine ⟨a, List.mem_cons_self, ha.1, ?_⟩
        intro c' hc' hp'
        rcases List.mem_cons.1 hc' with rfl | hc'
        · exact le_refl _
        · exact ha.2.le.trans (hm c' hc' hp')
      · refine ⟨c, List.mem_cons_of_mem _ hc, hp, ?_⟩
        intro c' hc' hp'
        rcases List.mem_cons.1 hc' with rfl | hc'
        · exact not_lt.1 (fun h => ha ⟨hp', h⟩)
        · exact hm c' hc' hp'
    · obtain ⟨c, hc, hp⟩ := h
      rcases List.mem_cons.1 hc with rfl | hc
      · refine ⟨c, List.mem_cons_self, hp, ?_⟩
        intro c' hc' hp'
        rcases List.mem_cons.1 hc' with rfl | hc'
        · exact le_refl _
        · exact absurd ⟨c', hc', hp'⟩ hl
      · exact absurd ⟨c, hc, hp⟩ hl

/-! ### C132 -/

/-- **C132** for trees in which every node holds a wanted cell, in particular when all cells are wanted: the cell returned is the
closest one within the maximum distance, or none if there is none; whatever the choice among cells at the same distance.
At most every leaf is looked at.  Missing: trees with nodes that hold no wanted cell (`C132_ghosts_fails`). -/
theorem C132_closest_partial (mn mx : Box → ℝ) (d : Nat → ℝ) (wanted : Nat → Bool) (tie : Nat → Nat → Bool) {t : Skd}
    (hB : t.Built) (hne : t ≠ .nil) (hF : Fits mn mx d t) (hW : t.All (fun _ cs => ∃ c ∈ cs, wanted c = true)) (m : ℝ) :
    ∃ id dist n, closestCell mn mx d wanted tie t m = some ((id, dist), n) ∧
      IsClosest d (fun c => wanted c = true) t.cells m id dist ∧ n ≤ t.leaves := by
  cases t with
  | nil => exact absurd rfl hne
  | node b cs l r =>
    set t : Skd := .node b cs l r with ht
    obtain ⟨a1, a2, -, a4, a5⟩ := collect_spec mn mx d [t] (min (mx b) m) [] (by
      intro x hx; rw [List.mem_singleton] at hx; subst hx; exact ⟨hB, hF⟩)
    generalize hce : collect mn mx [t] (min (mx b) m) [] = ce at a1 a2 a4 a5
    have hl : ∀ e ∈ ce.1, ∀ c ∈ e.1, e.2 ≤ d c := by
      intro e he
      rcases a2 e he with h | ⟨h, -⟩
      · simp at h
      · exact h
    have hin : ∀ e ∈ ce.1, ∀ c ∈ e.1, c ∈ cs := by
      intro e he
      rcases a2 e he with h | ⟨-, x, hx, h⟩
      · simp at h
      · rw [List.mem_singleton] at hx; subst hx; exact h
    obtain ⟨p1, p2, p3, p4, p5⟩ := process_spec d wanted tie ce.1 ((none, ce.2), 0) hl
    generalize hres : process d wanted tie ce.1 ((none, ce.2), 0) = res at p1 p2 p3 p4 p5
    obtain ⟨c0, hc0, hw0, hmin⟩ := exists_least d (fun c => wanted c = true) cs hW.1
    have hin2 : t.Within (fun c => c ∈ cs) := within_cells hB (fun c hc => hc)
    have hlow : t.All (fun b _ => d c0 ≤ mx b) := by
      refine all_weaken ?_ (all_and hF (all_and hW hin2))
      rintro b' cs' ⟨h1, ⟨c1, hc1, hw1⟩, h3⟩
      exact (hmin c1 (h3 c1 hc1) hw1).trans (h1 c1 hc1).2
    have hn : res.2 ≤ t.leaves := by
      have : res.2 ≤ ce.1.length := by simpa using p5
      have h2 : ce.1.length ≤ t.leaves := by simpa using a5
      exact this.trans h2
    have heq : closestCell mn mx d wanted tie t m = some (if res.1.1 = none then ((none, huge), res.2) else res) := by
      rw [ht]
      simp only [closestCell]
      rw [← ht, hce, hres]
    by_cases hd : d c0 ≤ m
    · obtain ⟨y1, y2⟩ := a4 (d c0) (le_min hlow.1 hd) (by
        intro x hx; rw [List.mem_singleton] at hx; subst hx; exact hlow)
      obtain ⟨x, hx, hcx⟩ := y2 t List.mem_cons_self c0 hc0 rfl
      have hns : res.1.1 ≠ none := by
        intro h
        have := (p3 h).2.2 x hx c0 hcx hw0
        exact absurd (lt_of_lt_of_le this y1) (lt_irrefl _)
      rcases p4 with p4 | ⟨e, he, c, hc, hw, p4⟩
      · rw [p4] at hns; exact absurd rfl hns
      · refine ⟨some c, d c, res.2, ?_, ?_, hn⟩
        · rw [heq, if_neg hns, ← p4]
        · have hle : d c ≤ d c0 := by have := p2 x hx c0 hcx hw0; rw [p4] at this; exact this
          refine ⟨fun _ _ _ _ => by simp, ?_, ?_, fun h => by simp at h⟩
          · rintro c' h; injection h with h; subst h
            exact ⟨hin e he c hc, hw, rfl, hle.trans hd⟩
          · rintro c' h c2 hc2 hw2; injection h with h; subst h
            exact hle.trans (hmin c2 hc2 hw2)
    · have hnone : res.1.1 = none := by
        rcases p4 with p4 | ⟨e, he, c, hc, hw, p4⟩
        · rw [p4]
        · have h1 : d c ≤ m := by
            have : d c ≤ ce.2 := by have := p1; rw [p4] at this; exact this
            exact this.trans (a1.trans (min_le_right _ _))
          exact absurd ((hmin c (hin e he c hc) hw).trans h1) hd
      refine ⟨none, huge, res.2, ?_, ?_, hn⟩
      · rw [heq, if_pos hnone]
      · refine ⟨?_, fun c h => by simp at h, fun c h => by simp at h, fun _ => rfl⟩
        intro c hc hw hdc
        exact absurd ((hmin c hc hw).trans hdc) hd

/-- **C132** without a maximum distance: some cell is always found, when distances are representable -/
theorem C132_any_partial (mn mx : Box → ℝ) (d : Nat → ℝ) (tie : Nat → Nat → Bool) {t : Skd}
    (hB : t.Built) (hne : t ≠ .nil) (hF : Fits mn mx d t) (hd : ∀ c ∈ t.cells, d c ≤ huge) :
    ∃ c n, closestCellAny mn mx d (fun _ => true) tie t = some ((some c, d c), n) ∧ c ∈ t.cells ∧
      ∀ c' ∈ t.cells, d c ≤ d c' := by
  have hW : ∀ {u : Skd}, u.Built → u.All (fun _ cs => ∃ c ∈ cs, (fun _ : Nat => true) c = true) := by
    intro u
    induction u with
    | nil => intro _; trivial
    | node b cs l r ihl ihr =>
      intro h
      refine ⟨?_, ihl h.2.2.1, ihr h.2.2.2⟩
      obtain ⟨c, hc⟩ := List.exists_mem_of_ne_nil cs h.1
      exact ⟨c, hc, rfl⟩
  obtain ⟨id, dist, n, h1, h2, -⟩ := C132_closest_partial mn mx d (fun _ => true) tie hB hne hF (hW hB) huge
  have hne' : t.cells ≠ [] := by
    cases t with
    | nil => exact absurd rfl hne
    | node b cs l r => exact hB.1
  obtain ⟨c0, hc0⟩ := List.exists_mem_of_ne_nil _ hne'
  cases id with
  | none => exact absurd rfl (h2.found c0 hc0 rfl (hd c0 hc0))
  | some c =>
    obtain ⟨k1, -, k3, -⟩ := h2.cell c rfl
    exact ⟨c, n, by rw [closestCellAny, h1, k3], k1, fun c' hc' => h2.least c rfl c' hc' rfl⟩

/-! ### Boxes -/

/-- a point is in a box -/
def Box.Has (b : Box) (q : V3) : Prop :=
  b.lo.x ≤ q.x ∧ q.x ≤ b.hi.x ∧ b.lo.y ≤ q.y ∧ q.y ≤ b.hi.y ∧ b.lo.z ≤ q.z ∧ q.z ≤ b.hi.z

theorem norm2_mono {u v : V3} (hx : |u.x| ≤ |v.x|) (hy : |u.y| ≤ |v.y|) (hz : |u.z| ≤ |v.z|) : norm2 u ≤ norm2 v := by
  unfold norm2 dot
  apply Real.sqrt_le_sqrt
  have h1 := sq_le_sq.2 hx
  have h2 := sq_le_sq.2 hy
  have h3 := sq_le_sq.2 hz
  nlinarith

theorem out_le {l h p q : ℝ} (h1 : l ≤ q) (h2 : q ≤ h) : |max 0 (max (l - p) (p - h))| ≤ |p - q| := by
  rw [abs_of_nonneg (le_max_left _ _)]
  apply max_le (abs_nonneg _)
  apply max_le
  · have := neg_abs_le (p - q); linarith
  · have := le_abs_self (p - q); linarith

theorem far_le {l h p q : ℝ} (h1 : l ≤ q) (h2 : q ≤ h) : |p - q| ≤ |max (p - l) (h - p)| := by
  have a := le_max_left (p - l) (h - p)
  have b := le_max_right (p - l) (h - p)
  have : 0 ≤ max (p - l) (h - p) := by linarith
  rw [abs_of_nonneg this, abs_le]
  constructor <;> linarith

/-- distances of a point of a box lie between the distances to the box -/
theorem box_bounds {b : Box} {p q : V3} (h : b.Has q) : boxMin p b ≤ norm2 (p - q) ∧ norm2 (p - q) ≤ boxMax p b := by
  obtain ⟨h1, h2, h3, h4, h5, h6⟩ := h
  exact ⟨norm2_mono (out_le h1 h2) (out_le h3 h4) (out_le h5 h6), norm2_mono (far_le h1 h2) (far_le h3 h4) (far_le h5 h6)⟩

/-- boxes that hold the closest points of their cells fit -/
theorem boxes_fit (p : V3) (foot : Nat → V3) : ∀ {t : Skd}, t.All (fun b cs => ∀ c ∈ cs, b.Has (foot c)) →
    Fits (boxMin p) (boxMax p) (fun c => norm2 (p - foot c)) t
  | .nil, _ => trivial
  | .node _ _ _ _, ⟨h1, h2, h3⟩ => ⟨fun c hc => box_bounds (h1 c hc), boxes_fit p foot h2, boxes_fit p foot h3⟩

/-- **C132** with the distances of points to boxes: when every box holds the closest point of each of its cells, the search
gives the closest cell -/
theorem C132_boxes_partial (p : V3) (foot : Nat → V3) (tie : Nat → Nat → Bool) {t : Skd} (hB : t.Built) (hne : t ≠ .nil)
    (hH : t.All (fun b cs => ∀ c ∈ cs, b.Has (foot c))) (hd : ∀ c ∈ t.cells, norm2 (p - foot c) ≤ huge) :
    ∃ c n, closestCellAny (boxMin p) (boxMax p) (fun c => norm2 (p - foot c)) (fun _ => true) tie t =
        some ((some c, norm2 (p - foot c)), n) ∧ c ∈ t.cells ∧
      ∀ c' ∈ t.cells, norm2 (p - foot c) ≤ norm2 (p - foot c') :=
  C132_any_partial _ _ _ tie hB hne (boxes_fit p foot hH) hd

/-- two cells at 3 and 10 from the point, the first one not wanted -/
def ghostTree : Skd :=
  .node ⟨⟨3, 0, 0⟩, ⟨10, 0, 0⟩⟩ [0, 1] (.node ⟨⟨3, 0, 0⟩, ⟨3, 0, 0⟩⟩ [0] .nil .nil) (.node ⟨⟨10, 0, 0⟩, ⟨10, 0, 0⟩⟩ [1] .nil .nil)

def ghostFoot (c : Nat) : V3 := if c = 0 then ⟨3, 0, 0⟩ else ⟨10, 0, 0⟩

/-- a tree of three leaves -/
def demoTree : Skd :=
  .node ⟨⟨0, 0, 0⟩, ⟨9, 1, 1⟩⟩ [0, 1, 2] (.node ⟨⟨0, 0, 0⟩, ⟨1, 1, 1⟩⟩ [0] .nil .nil)
    (.node ⟨⟨4, 0, 0⟩, ⟨9, 1, 1⟩⟩ [1, 2] (.node ⟨⟨4, 0, 0⟩, ⟨5, 1, 1⟩⟩ [1] .nil .nil) (.node ⟨⟨8, 0, 0⟩, ⟨9, 1, 1⟩⟩ [2] .nil .nil))

theorem demoTree_built : demoTree.Built := by
  simp [demoTree, Skd.Built, Skd.cells]

theorem ghostTree_built : ghostTree.Built := by
  simp [ghostTree, Skd.Built, Skd.cells]

/-- points of the cells closest to (5, 0, 0) -/
def demoFoot (c : Nat) : V3 := if c = 0 then ⟨1, 0, 0⟩ else if c = 1 then ⟨5, 0, 1⟩ else ⟨8, 0, 0⟩

theorem demoTree_holds : demoTree.All (fun b cs => ∀ c ∈ cs, b.Has (demoFoot c)) := by
  norm_num [demoTree, Skd.All, Box.Has, demoFoot]

theorem norm2_x (a : ℝ) : norm2 ⟨a, 0, 0⟩ = |a| := by simp [norm2, dot, Real.sqrt_mul_self_eq_abs]

theorem ten_le_huge : (10 : ℝ) ≤ huge := by
  unfold huge
  have h : (1 : ℝ) ≤ 2 ^ 1000 := one_le_pow₀ (by norm_num)
  have e : (2 : ℝ) ^ 1023 = 2 ^ 1000 * 2 ^ 23 := by rw [← pow_add]
  rw [e]
  generalize (2 : ℝ) ^ 1000 = y at h
  norm_num
  linarith

/-- the second cell is the closest one to (5, 0, 0) -/
example : ∃ n, closestCellAny (boxMin ⟨5, 0, 0⟩) (boxMax ⟨5, 0, 0⟩) (fun c => norm2 (⟨5, 0, 0⟩ - demoFoot c)) (fun _ => true)
    (fun _ _ => false) demoTree = some ((some 1, 1), n) := by
  have e0 : norm2 ((⟨5, 0, 0⟩ : V3) - demoFoot 0) = 4 := by
    rw [show (⟨5, 0, 0⟩ : V3) - demoFoot 0 = ⟨4, 0, 0⟩ by ext <;> norm_num [demoFoot]]; rw [norm2_x]; norm_num
  have e1 : norm2 ((⟨5, 0, 0⟩ : V3) - demoFoot 1) = 1 := by
    rw [show (⟨5, 0, 0⟩ : V3) - demoFoot 1 = ⟨0, 0, -1⟩ by ext <;> norm_num [demoFoot]]; norm_num [norm2, dot]
  have e2 : norm2 ((⟨5, 0, 0⟩ : V3) - demoFoot 2) = 3 := by
    rw [show (⟨5, 0, 0⟩ : V3) - demoFoot 2 = ⟨-3, 0, 0⟩ by ext <;> norm_num [demoFoot]]; rw [norm2_x]; norm_num
  obtain ⟨c, n, h1, h2, h3⟩ := C132_boxes_partial ⟨5, 0, 0⟩ demoFoot (fun _ _ => false) demoTree_built (by simp [demoTree])
    demoTree_holds (by
      have := ten_le_huge
      intro c hc
      simp only [demoTree, Skd.cells, List.mem_cons, List.not_mem_nil, or_false] at hc
      rcases hc with rfl | rfl | rfl
      · rw [e0]; linarith
      · rw [e1]; linarith
      · rw [e2]; linarith)
  have h4 := h3 1 (by simp [demoTree, Skd.cells])
  simp only [demoTree, Skd.cells, List.mem_cons, List.not_mem_nil, or_false] at h2
  rcases h2 with rfl | rfl | rfl
  · rw [e0, e1] at h4; norm_num at h4
  · exact ⟨n, by rw [h1, e1]⟩
  · rw [e1, e2] at h4; norm_num at h4

/-- **C132** fails when some node holds no wanted cell (a tree with cells of other processes, searched for cells of this one
only): the estimate from the box of the cell that is not wanted, 3, makes the search give no cell at all, though the wanted
cell at 10 is within any distance -/
theorem C132_ghosts_fails : ∃ n,
    closestCellAny (boxMin ⟨0, 0, 0⟩) (boxMax ⟨0, 0, 0⟩) (fun c => norm2 (⟨0, 0, 0⟩ - ghostFoot c)) (fun c => c == 1)
      (fun _ _ => false) ghostTree = some ((none, huge), n) ∧ 1 ∈ ghostTree.cells ∧
      norm2 ((⟨0, 0, 0⟩ : V3) - ghostFoot 1) ≤ huge ∧
      ghostTree.All (fun b cs => ∀ c ∈ cs, b.Has (ghostFoot c)) := by
  have d1 : norm2 ((⟨0, 0, 0⟩ : V3) - ghostFoot 1) = 10 := by
    rw [show (⟨0, 0, 0⟩ : V3) - ghostFoot 1 = ⟨-10, 0, 0⟩ by ext <;> norm_num [ghostFoot]]; rw [norm2_x]; norm_num
  have m0 : boxMin ⟨0, 0, 0⟩ ⟨⟨3, 0, 0⟩, ⟨3, 0, 0⟩⟩ = 3 := by norm_num [boxMin, norm2_x]
  have x0 : boxMax ⟨0, 0, 0⟩ ⟨⟨3, 0, 0⟩, ⟨3, 0, 0⟩⟩ = 3 := by norm_num [boxMax, norm2_x]
  have m1 : boxMin ⟨0, 0, 0⟩ ⟨⟨10, 0, 0⟩, ⟨10, 0, 0⟩⟩ = 10 := by norm_num [boxMin, norm2_x]
  have x1 : boxMax ⟨0, 0, 0⟩ ⟨⟨10, 0, 0⟩, ⟨10, 0, 0⟩⟩ = 10 := by norm_num [boxMax, norm2_x]
  have mr : boxMin ⟨0, 0, 0⟩ ⟨⟨3, 0, 0⟩, ⟨10, 0, 0⟩⟩ = 3 := by norm_num [boxMin, norm2_x]
  have xr : boxMax ⟨0, 0, 0⟩ ⟨⟨3, 0, 0⟩, ⟨10, 0, 0⟩⟩ = 10 := by norm_num [boxMax, norm2_x]
  have hh := ten_le_huge
  refine ⟨1, ?_, by simp [ghostTree, Skd.cells], by rw [d1]; exact hh, ?_⟩
  · have hc : collect (boxMin ⟨0, 0, 0⟩) (boxMax ⟨0, 0, 0⟩) [ghostTree] (min (boxMax ⟨0, 0, 0⟩ ⟨⟨3, 0, 0⟩, ⟨10, 0, 0⟩⟩) huge) [] =
        ([([1], 10), ([0], 3)], 3) := by
      rw [xr, min_eq_left hh, ghostTree]
      rw [collect, if_neg (by rw [mr]; norm_num), if_neg (by simp [Skd.kids]), xr]
      simp only [Skd.kids, List.cons_append, List.nil_append]
      rw [collect, if_neg (by rw [m1]; norm_num), if_pos (by simp [Skd.kids]), x1, m1]
      rw [collect, if_neg (by rw [m0]; norm_num), if_pos (by simp [Skd.kids]), x0, m0]
      rw [collect]
      norm_num
    rw [closestCellAny, ghostTree, closestCell]
    rw [ghostTree] at hc
    simp only [hc]
    norm_num [process, updCell]
  · norm_num [ghostTree, Skd.All, Box.Has, ghostFoot]

end
end Verif.Tree
