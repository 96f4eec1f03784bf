import Verif.Tree.ClosestProps

/-!
C133: cells of a mesh close to a patch.
-/

namespace Verif.Tree
open Verif.Shape
open Verif.Rbf (tiny huge)
noncomputable section
open scoped Classical

/-! ### Specification -/

/-- leaves of a tree: box and cells -/
def Skd.leafList : Skd → List (Box × List Nat)
  | .nil => []
  | .node b cs .nil .nil => [(b, cs)]
  | .node _ _ l r => l.leafList ++ r.leafList

/-- two boxes come within `tol` of each other along every axis -/
def Near (tol : ℝ) (a b : Box) : Prop :=
  a.lo.x ≤ b.hi.x + tol ∧ b.lo.x ≤ a.hi.x + tol ∧ a.lo.y ≤ b.hi.y + tol ∧ b.lo.y ≤ a.hi.y + tol ∧
    a.lo.z ≤ b.hi.z + tol ∧ b.lo.z ≤ a.hi.z + tol

/-- a box holds another one -/
def Box.Holds (b a : Box) : Prop :=
  b.lo.x ≤ a.lo.x ∧ a.hi.x ≤ b.hi.x ∧ b.lo.y ≤ a.lo.y ∧ a.hi.y ≤ b.hi.y ∧ b.lo.z ≤ a.lo.z ∧ a.hi.z ≤ b.hi.z

/-- every box holds the boxes under it -/
def Skd.Nested : Skd → Prop
  | .nil => True
  | .node b _ l r => (∀ x ∈ l.leafList ++ r.leafList, b.Holds x.1) ∧ l.Nested ∧ r.Nested

/-- the cells the selection has to give: those of the leaves near a leaf of the patch -/
def NearCells (selection target : Skd) (tol : ℝ) (c : Nat) : Prop :=
  ∃ s ∈ selection.leafList, ∃ x ∈ target.leafList, Near tol s.1 x.1 ∧ c ∈ x.2

/-! ### Helpers -/

theorem meet_iff {tol : ℝ} {a b : Box} : meet tol a b = true ↔ Near tol a b := by simp [meet, Near]

theorem near_up {tol : ℝ} {a b b' : Box} (h : Near tol a b) (hb : b'.Holds b) : Near tol a b' := by
  obtain ⟨h1, h2, h3, h4, h5, h6⟩ := h
  obtain ⟨g1, g2, g3, g4, g5, g6⟩ := hb
  exact ⟨by linarith, by linarith, by linarith, by linarith, by linarith, by linarith⟩

theorem leafList_one (b : Box) (cs : List Nat) {l r : Skd} (h : Skd.kids l r = []) :
    (Skd.node b cs l r).leafList = [(b, cs)] := by
  obtain ⟨rfl, rfl⟩ := kids_nil.1 h; rfl

theorem leafList_two (b : Box) (cs : List Nat) {l r : Skd} (h : Skd.kids l r ≠ []) :
    (Skd.node b cs l r).leafList = l.leafList ++ r.leafList := by
  cases l <;> cases r <;> first | rfl | (simp [Skd.kids] at h)

theorem leafList_kids {l r : Skd} {x : Box × List Nat} :
    x ∈ l.leafList ++ r.leafList ↔ ∃ k ∈ Skd.kids l r, x ∈ k.leafList := by
  cases l <;> cases r <;> simp [Skd.kids, Skd.leafList] <;> tauto

theorem leafBoxes_eq : ∀ t : Skd, leafBoxes t = t.leafList.map Prod.fst
  | .nil => rfl
  | .node b cs l r => by
    unfold leafBoxes
    split
    · rename_i h; rw [leafList_one b cs h]; rfl
    · rename_i h; rw [leafList_two b cs h, List.map_append, leafBoxes_eq l, leafBoxes_eq r]

theorem leafList_ne : ∀ {t : Skd}, t ≠ .nil → t.leafList ≠ []
  | .nil, h => absurd rfl h
  | .node b cs l r, _ => by
    by_cases hk : Skd.kids l r = []
    · rw [leafList_one b cs hk]; simp
    · rw [leafList_two b cs hk]
      intro h
      rw [List.append_eq_nil_iff] at h
      apply hk
      rw [kids_nil]
      constructor
      · by_contra hl; exact leafList_ne hl h.1
      · by_contra hr; exact leafList_ne hr h.2

/-- box of a node -/
def Skd.box : Skd → Box
  | .nil => ⟨⟨0, 0, 0⟩, ⟨0, 0, 0⟩⟩
  | .node b _ _ _ => b

theorem mem_meetKids {tol : ℝ} {bs : List Box} : ∀ {s : List Skd} {e : Skd × List Box}, e ∈ meetKids tol bs s ↔
    e.1 ∈ s ∧ e.1 ≠ .nil ∧ e.2 = bs.filter (fun a => meet tol a e.1.box) ∧ e.2 ≠ [] := by
  intro s
  induction s with
  | nil => intro e; simp [meetKids]
  | cons t s ih =>
    intro e
    cases t with
    | nil =>
      simp only [meetKids, ih, List.mem_cons]
      constructor
      · rintro ⟨h1, h2⟩; exact ⟨.inr h1, h2⟩
      · rintro ⟨h1 | h1, h2⟩
        · exact absurd h1 h2.1
        · exact ⟨h1, h2⟩
    | node b cs l r =>
      simp only [meetKids]
      split
      · rename_i h0
        rw [ih]
        constructor
        · rintro ⟨h1, h2⟩; exact ⟨List.mem_cons_of_mem _ h1, h2⟩
        · rintro ⟨h1, h2, h3, h4⟩
          rcases List.mem_cons.1 h1 with h1 | h1
          · rw [h1] at h3; simp only [Skd.box] at h3; rw [h0] at h3; exact absurd h3 h4
          · exact ⟨h1, h2, h3, h4⟩
      · rename_i h0
        rw [List.mem_cons, ih]
        constructor
        · rintro (rfl | ⟨h1, h2⟩)
          · exact ⟨List.mem_cons_self, by simp, rfl, h0⟩
          · exact ⟨List.mem_cons_of_mem _ h1, h2⟩
        · rintro ⟨h1, h2, h3, h4⟩
          rcases List.mem_cons.1 h1 with h1 | h1
          · left
            obtain ⟨e1, e2⟩ := e
            simp only at h1 h3
            subst h1
            simp only [Skd.box] at h3
            rw [h3]
          · right; exact ⟨h1, h2, h3, h4⟩

/-- the loop gives the leaves near one of the boxes carried along -/
theorem extract_spec (tol : ℝ) : ∀ (s : List (Skd × List Box)) (acc : List (List Nat)),
    (∀ e ∈ s, e.1.Nested ∧ e.2 ≠ [] ∧ ∀ a ∈ e.2, Near tol a e.1.box) →
    ∀ cs, cs ∈ extractLoop tol s acc ↔ cs ∈ acc ∨ ∃ e ∈ s, ∃ x ∈ e.1.leafList, x.2 = cs ∧ ∃ a ∈ e.2, Near tol a x.1 := by
  intro s acc
  induction s, acc using extractLoop.induct tol with
  | case1 acc => intro _ cs; simp [extractLoop]
  | case2 bs s acc ih =>
    intro h cs
    rw [extractLoop, ih (fun e he => h e (List.mem_cons_of_mem _ he))]
    simp [Skd.leafList]
  | case3 b cs0 l r bs s acc hk ih =>
    intro h cs
    rw [extractLoop, if_pos hk, ih (fun e he => h e (List.mem_cons_of_mem _ he))]
    obtain ⟨-, h2, h3⟩ := h _ List.mem_cons_self
    obtain ⟨a, ha⟩ := List.exists_mem_of_ne_nil _ h2
    constructor
    · rintro (h4 | ⟨e, he, h4⟩)
      · rcases List.mem_append.1 h4 with h4 | h4
        · exact .inl h4
        · rw [List.mem_singleton] at h4
          exact .inr ⟨_, List.mem_cons_self, (b, cs0), by simp [leafList_one b cs0 hk], h4.symm, a, ha, h3 a ha⟩
      · exact .inr ⟨e, List.mem_cons_of_mem _ he, h4⟩
    · rintro (h4 | ⟨e, he, x, hx, h4, h5⟩)
      · exact .inl (List.mem_append_left _ h4)
      · rcases List.mem_cons.1 he with rfl | he
        · simp only [leafList_one b cs0 hk, List.mem_singleton] at hx
          subst hx
          exact .inl (List.mem_append_right _ (by rw [List.mem_singleton]; exact h4.symm))
        · exact .inr ⟨e, he, x, hx, h4, h5⟩
  | case4 b cs0 l r bs s acc hk ih =>
    intro h cs
    obtain ⟨hN, h2, h3⟩ := h _ List.mem_cons_self
    have hN' : ∀ k ∈ Skd.kids l r, k.Nested := by
      intro k hk'
      rcases mem_kids hk' with rfl | rfl
      · exact hN.2.1
      · exact hN.2.2
    rw [extractLoop, if_neg hk, ih (by
      intro e he
      rcases List.mem_append.1 he with he | he
      · obtain ⟨g1, g2, g3, g4⟩ := mem_meetKids.1 he
        refine ⟨hN' _ g1, g4, ?_⟩
        intro a ha
        rw [g3] at ha
        exact meet_iff.1 (by simpa using (List.mem_filter.1 ha).2)
      · exact h e (List.mem_cons_of_mem _ he))]
    constructor
    · rintro (h4 | ⟨e, he, x, hx, h4, a, ha, h5⟩)
      · exact .inl h4
      · right
        rcases List.mem_append.1 he with he | he
        · obtain ⟨g1, g2, g3, g4⟩ := mem_meetKids.1 he
          refine ⟨_, List.mem_cons_self, x, ?_, h4, a, ?_, h5⟩
          · simp only [leafList_two b cs0 hk]
            exact leafList_kids.2 ⟨e.1, g1, hx⟩
          · rw [g3] at ha; exact (List.mem_filter.1 ha).1
        · exact ⟨e, List.mem_cons_of_mem _ he, x, hx, h4, a, ha, h5⟩
    · rintro (h4 | ⟨e, he, x, hx, h4, a, ha, h5⟩)
      · exact .inl h4
      · right
        rcases List.mem_cons.1 he with rfl | he
        · simp only [leafList_two b cs0 hk] at hx
          obtain ⟨k, hk1, hk2⟩ := leafList_kids.1 hx
          have hkne : k ≠ .nil := by rintro rfl; simp [Skd.leafList] at hk2
          have hnear : Near tol a k.box := by
            have hb : k.box.Holds x.1 ∨ k.box = x.1 := by
              have hNk := hN' k hk1
              cases k with
              | nil => exact absurd rfl hkne
              | node b' cs' l' r' =>
                by_cases hk' : Skd.kids l' r' = []
                · rw [leafList_one b' cs' hk', List.mem_singleton] at hk2
                  subst hk2; exact .inr rfl
                · rw [leafList_two b' cs' hk'] at hk2
                  exact .inl (hNk.1 x hk2)
            rcases hb with hb | hb
            · exact near_up h5 hb
            · rw [hb]; exact h5
          have ham : a ∈ bs.filter (fun a => meet tol a k.box) := List.mem_filter.2 ⟨ha, by simpa using meet_iff.2 hnear⟩
          exact ⟨(k, bs.filter (fun a => meet tol a k.box)), List.mem_append_left _ (mem_meetKids.2
            ⟨hk1, hkne, rfl, List.ne_nil_of_mem ham⟩), x, hk2, h4, a, ham, h5⟩
        · exact ⟨e, List.mem_append_right _ he, x, hx, h4, a, ha, h5⟩

/-- boxes under a node are in the box of the node -/
theorem nested_box {t : Skd} (hN : t.Nested) {x : Box × List Nat} (hx : x ∈ t.leafList) : t.box.Holds x.1 ∨ t.box = x.1 := by
  cases t with
  | nil => simp [Skd.leafList] at hx
  | node b cs l r =>
    by_cases hk : Skd.kids l r = []
    · rw [leafList_one b cs hk, List.mem_singleton] at hx
      subst hx; exact .inr rfl
    · rw [leafList_two b cs hk] at hx
      exact .inl (hN.1 x hx)

/-! ### C133 -/

/-- **C133** the selection gives the cells of the leaves near a leaf of the patch, each once. -/
theorem C133_leaves (selection target : Skd) (tol : ℝ) (hne : target ≠ .nil) (hN : target.Nested) :
    ∃ l, selectByPatch selection target tol = some l ∧ l.Nodup ∧ ∀ c, c ∈ l ↔ NearCells selection target tol c := by
  cases target with
  | nil => exact absurd rfl hne
  | node b cs l r =>
    set t : Skd := .node b cs l r with ht
    have hsel : selectByPatch selection t tol = extractTarget t ((leafBoxes selection).filter (fun a => meet tol a b)) tol := by
      rw [ht, selectByPatch]
    rw [hsel]
    unfold extractTarget
    by_cases h0 : (leafBoxes selection).filter (fun a => meet tol a b) = []
    · rw [if_pos h0]
      refine ⟨[], rfl, List.nodup_nil, ?_⟩
      intro c
      constructor
      · intro h; simp at h
      · rintro ⟨s, hs, x, hx, hn, -⟩
        have : s.1 ∈ (leafBoxes selection).filter (fun a => meet tol a b) := by
          rw [List.mem_filter]
          refine ⟨by rw [leafBoxes_eq]; exact List.mem_map.2 ⟨s, hs, rfl⟩, ?_⟩
          rw [meet_iff]
          rcases nested_box hN hx with h | h
          · exact near_up hn h
          · rw [show b = t.box from rfl, h]; exact hn
        rw [h0] at this
        simp at this
    · rw [if_neg h0, ht]
      simp only
      rw [← ht]
      have hff : ((leafBoxes selection).filter (fun a => meet tol a b)).filter (fun a => meet tol a b) =
          (leafBoxes selection).filter (fun a => meet tol a b) := by
        rw [List.filter_filter]; simp
      rw [hff]
      refine ⟨_, rfl, List.nodup_dedup _, ?_⟩
      intro c
      have key := extract_spec tol [(t, (leafBoxes selection).filter (fun a => meet tol a b))] [] (by
        intro e he
        rw [List.mem_singleton] at he
        subst he
        refine ⟨hN, h0, ?_⟩
        intro a ha
        exact meet_iff.1 (show meet tol a b = true by simpa using (List.mem_filter.1 ha).2))
      rw [List.mem_dedup, List.mem_flatten]
      constructor
      · rintro ⟨cs', h1, h2⟩
        rw [key] at h1
        rcases h1 with h1 | ⟨e, he, x, hx, h3, a, ha, h5⟩
        · simp at h1
        · rw [List.mem_singleton] at he
          subst he
          have ha' := (List.mem_filter.1 ha).1
          rw [leafBoxes_eq, List.mem_map] at ha'
          obtain ⟨s, hs, rfl⟩ := ha'
          exact ⟨s, hs, x, hx, h5, by rw [h3]; exact h2⟩
      · rintro ⟨s, hs, x, hx, hn, hc⟩
        refine ⟨x.2, ?_, hc⟩
        rw [key]
        right
        refine ⟨_, List.mem_cons_self, x, hx, rfl, s.1, ?_, hn⟩
        rw [List.mem_filter]
        refine ⟨by rw [leafBoxes_eq]; exact List.mem_map.2 ⟨s, hs, rfl⟩, ?_⟩
        rw [meet_iff]
        rcases nested_box hN hx with h | h
        · exact near_up hn h
        · rw [show b = t.box from rfl, h]; exact hn

/-- distance along an axis is at most the distance -/
theorem abs_le_norm2 (u : V3) : |u.x| ≤ norm2 u ∧ |u.y| ≤ norm2 u ∧ |u.z| ≤ norm2 u := by
  unfold norm2 dot
  refine ⟨?_, ?_, ?_⟩ <;> apply Real.abs_le_sqrt <;> nlinarith [sq_nonneg u.x, sq_nonneg u.y, sq_nonneg u.z]

/-- **C133** no cell is missed: a cell of the mesh with a point within `tol` of a point of the patch is selected.  Missing:
only such cells are selected (`C133_far_fails`). -/
theorem C133_complete_partial (selection target : Skd) (tol : ℝ) (hne : target ≠ .nil) (hN : target.Nested)
    {s x : Box × List Nat} (hs : s ∈ selection.leafList) (hx : x ∈ target.leafList) {p q : V3} {c : Nat} (hc : c ∈ x.2)
    (hp : s.1.Has p) (hq : x.1.Has q) (hpq : norm2 (p - q) ≤ tol) :
    ∃ l, selectByPatch selection target tol = some l ∧ c ∈ l := by
  obtain ⟨l, h1, -, h2⟩ := C133_leaves selection target tol hne hN
  refine ⟨l, h1, (h2 c).2 ⟨s, hs, x, hx, ?_, hc⟩⟩
  obtain ⟨a1, a2, a3⟩ := abs_le_norm2 (p - q)
  have b1 := abs_le.1 (a1.trans hpq)
  have b2 := abs_le.1 (a2.trans hpq)
  have b3 := abs_le.1 (a3.trans hpq)
  have e1 : (p - q).x = p.x - q.x := rfl
  have e2 : (p - q).y = p.y - q.y := rfl
  have e3 : (p - q).z = p.z - q.z := rfl
  rw [e1] at b1
  rw [e2] at b2
  rw [e3] at b3
  obtain ⟨g1, g2, g3, g4, g5, g6⟩ := hp
  obtain ⟨k1, k2, k3, k4, k5, k6⟩ := hq
  exact ⟨by linarith [b1.1, b1.2], by linarith [b1.1, b1.2], by linarith [b2.1, b2.2], by linarith [b2.1, b2.2],
    by linarith [b3.1, b3.2], by linarith [b3.1, b3.2]⟩

/-- a patch with one cell at the origin -/
def spot : Skd := .node ⟨⟨0, 0, 0⟩, ⟨0, 0, 0⟩⟩ [0] .nil .nil

/-- a mesh with a leaf of two cells: points at 0 and at 100 -/
def pair : Skd := .node ⟨⟨0, 0, 0⟩, ⟨100, 0, 0⟩⟩ [0, 1] .nil .nil

theorem demoTree_nested : demoTree.Nested := by
  norm_num [demoTree, Skd.Nested, Skd.leafList, Box.Holds]

/-- of the three leaves of the mesh only the first is within 1 of the patch -/
example : ∃ l, selectByPatch spot demoTree 1 = some l ∧ ∀ c, c ∈ l ↔ c = 0 := by
  obtain ⟨l, h1, -, h2⟩ := C133_leaves spot demoTree 1 (by simp [demoTree]) demoTree_nested
  refine ⟨l, h1, fun c => ?_⟩
  rw [h2]
  norm_num [NearCells, spot, demoTree, Skd.leafList, Near]

/-- **C133** fails for cells that are far: both cells of the leaf are selected, though one is at 100 from the patch and the
tolerance is 1 -/
theorem C133_far_fails : ∃ l, selectByPatch spot pair 1 = some l ∧ 1 ∈ l ∧
    norm2 ((⟨100, 0, 0⟩ : V3) - ⟨0, 0, 0⟩) = 100 := by
  obtain ⟨l, h1, -, h2⟩ := C133_leaves spot pair 1 (by simp [pair]) (by simp [pair, Skd.Nested, Skd.leafList])
  refine ⟨l, h1, ?_, ?_⟩
  · rw [h2]
    norm_num [NearCells, spot, pair, Skd.leafList, Near]
  · rw [show (⟨100, 0, 0⟩ : V3) - ⟨0, 0, 0⟩ = ⟨100, 0, 0⟩ by ext <;> norm_num, norm2_x]; norm_num

/-- **C133** fails for `extractTarget` called by itself on a mesh of one leaf: all its cells are given though no box of the
list is near -/
theorem C133_extract_fails : extractTarget pair [⟨⟨500, 0, 0⟩, ⟨500, 0, 0⟩⟩] 1 = some [0, 1] ∧
    ¬ Near 1 ⟨⟨500, 0, 0⟩, ⟨500, 0, 0⟩⟩ ⟨⟨0, 0, 0⟩, ⟨100, 0, 0⟩⟩ := by
  constructor
  · simp [extractTarget, pair, extractLoop, Skd.kids]
  · norm_num [Near]

end
end Verif.Tree
