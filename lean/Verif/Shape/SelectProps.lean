import Verif.Shape.BoxProps
/-
C65 (selection of cells), C66 (complements).
-/
namespace Verif.Shape
open Real

/-- the cells of a tree -/
def Skd.cells : Skd → List Nat
  | .leaf _ _ c => c
  | .two _ _ l r => l.cells ++ r.cells

/-- the box of every node contains the vertices of its cells (bitpit's guarantee) -/
def Skd.Valid (verts : Nat → List V3) : Skd → Prop
  | .leaf lo hi c => ∀ id ∈ c, ∀ p ∈ verts id, InB lo hi p
  | .two lo hi l r => l.Valid verts ∧ r.Valid verts ∧ ∀ id ∈ l.cells ++ r.cells, ∀ p ∈ verts id, InB lo hi p

theorem simplex_iff (s : Shape) (ps : List V3) : simplexIncluded s ps ↔ ∀ p ∈ ps, pointIncluded s p := by
  have : ∀ (ps : List V3) (P : Prop), ps.foldl (fun check p => check ∧ pointIncluded s p) P ↔ P ∧ ∀ p ∈ ps, pointIncluded s p := by
    intro ps
    induction ps with
    | nil => intro P; simp
    | cons p ps ih => intro P; simp only [List.foldl_cons, ih, List.mem_cons, forall_eq_or_imp]; tauto
  unfold simplexIncluded
  rw [this]; simp

/-- the cells of the leaves reached are among those of the stack -/
theorem stackLoop_mem (s : Shape) (st : List Skd) (id : Nat) : id ∈ (stackLoop s st).flatten → ∃ t ∈ st, id ∈ t.cells := by
  induction st using stackLoop.induct s with
  | case1 => simp [stackLoop]
  | case2 lo hi cells st hb ih =>
    rw [stackLoop, if_pos hb]
    simp only [List.flatten_cons, List.mem_append]
    rintro (h | h)
    · exact ⟨_, List.mem_cons_self, h⟩
    · obtain ⟨t, ht, h⟩ := ih h; exact ⟨t, by simp [ht], h⟩
  | case3 lo hi cells st hb ih =>
    rw [stackLoop, if_neg hb]
    intro h
    obtain ⟨t, ht, h⟩ := ih h; exact ⟨t, by simp [ht], h⟩
  | case4 lo hi l r st hb ih =>
    rw [stackLoop, if_pos hb]
    intro h
    obtain ⟨t, ht, h'⟩ := ih h
    simp only [List.mem_cons] at ht
    rcases ht with rfl | rfl | ht
    · exact ⟨_, List.mem_cons_self, by simp [Skd.cells, h']⟩
    · exact ⟨_, List.mem_cons_self, by simp [Skd.cells, h']⟩
    · exact ⟨t, by simp [ht], h'⟩
  | case5 lo hi l r st hb ih =>
    rw [stackLoop, if_neg hb]
    intro h
    obtain ⟨t, ht, h⟩ := ih h; exact ⟨t, by simp [ht], h⟩

/-- each cell at most as many times as in the stack -/
theorem stackLoop_count (s : Shape) (st : List Skd) (id : Nat) :
    ((stackLoop s st).flatten).count id ≤ ((st.map Skd.cells).flatten).count id := by
  induction st using stackLoop.induct s with
  | case1 => simp [stackLoop]
  | case2 lo hi cells st hb ih =>
    rw [stackLoop, if_pos hb]
    simp only [List.flatten_cons, List.map_cons, List.count_append, Skd.cells]; omega
  | case3 lo hi cells st hb ih =>
    rw [stackLoop, if_neg hb]
    simp only [List.flatten_cons, List.map_cons, List.count_append, Skd.cells]; omega
  | case4 lo hi l r st hb ih =>
    rw [stackLoop, if_pos hb]
    simp only [List.flatten_cons, List.map_cons, List.count_append, Skd.cells] at ih ⊢; omega
  | case5 lo hi l r st hb ih =>
    rw [stackLoop, if_neg hb]
    simp only [List.flatten_cons, List.map_cons, List.count_append, Skd.cells]; omega

/-- a cell with a vertex that no box test discards is reached -/
theorem stackLoop_complete {s : Shape} {verts : Nat → List V3} {id : Nat} {p : V3} (hp : p ∈ verts id)
    (hb : ∀ lo hi, InB lo hi p → boxTest s lo hi) (st : List Skd) : (∀ t ∈ st, t.Valid verts) → ∀ t ∈ st, id ∈ t.cells →
      id ∈ (stackLoop s st).flatten := by
  induction st using stackLoop.induct s with
  | case1 => simp
  | case2 lo hi cells st h ih =>
    intro hv t ht hid
    rw [stackLoop, if_pos h]
    simp only [List.flatten_cons, List.mem_append]
    rcases List.mem_cons.1 ht with rfl | ht
    · exact .inl hid
    · exact .inr (ih (fun t ht => hv t (by simp [ht])) t ht hid)
  | case3 lo hi cells st h ih =>
    intro hv t ht hid
    rw [stackLoop, if_neg h]
    rcases List.mem_cons.1 ht with rfl | ht
    · exact absurd (hb _ _ (hv _ List.mem_cons_self id hid p hp)) h
    · exact ih (fun t ht => hv t (by simp [ht])) t ht hid
  | case4 lo hi l r st h ih =>
    intro hv t ht hid
    rw [stackLoop, if_pos h]
    have h0 := hv _ List.mem_cons_self
    have hv' : ∀ t ∈ r :: l :: st, t.Valid verts := by
      intro t ht
      simp only [List.mem_cons] at ht
      rcases ht with rfl | rfl | ht
      · exact h0.2.1
      · exact h0.1
      · exact hv t (by simp [ht])
    rcases List.mem_cons.1 ht with rfl | ht
    · rcases List.mem_append.1 hid with hid | hid
      · exact ih hv' l (by simp) hid
      · exact ih hv' r (by simp) hid
    · exact ih hv' t (by simp [ht]) hid
  | case5 lo hi l r st h ih =>
    intro hv t ht hid
    rw [stackLoop, if_neg h]
    rcases List.mem_cons.1 ht with rfl | ht
    · exact absurd (hb _ _ ((hv _ List.mem_cons_self).2.2 id hid p hp)) h
    · exact ih (fun t ht => hv t (by simp [ht])) t ht hid

theorem search_mem {s : Shape} {verts : Nat → List V3} {t : Skd} {id : Nat} :
    id ∈ searchSkd s verts t ↔ id ∈ (stackLoop s [t]).flatten ∧ simplexIncluded s (verts id) := by
  unfold searchSkd
  simp only [List.mem_flatMap, List.mem_filter, List.mem_flatten, decide_eq_true_eq]
  constructor
  · rintro ⟨c, hc, hid, h⟩; exact ⟨⟨c, hc, hid⟩, h⟩
  · rintro ⟨⟨c, hc, hid⟩, h⟩; exact ⟨c, hc, hid, h⟩

theorem include_count (s : Shape) (verts : Nat → List V3) (t : Skd) (id : Nat) :
    (includeGeo s verts (some t)).count id ≤ t.cells.count id := by
  have h1 := stackLoop_count s [t] id
  have h2 : (includeGeo s verts (some t)).count id ≤ ((stackLoop s [t]).flatten).count id := by
    change (searchSkd s verts t).count id ≤ _
    unfold searchSkd
    induction stackLoop s [t] with
    | nil => simp
    | cons c l ih =>
      simp only [List.flatMap_cons, List.flatten_cons, List.count_append]
      exact Nat.add_le_add (List.Sublist.count_le _ List.filter_sublist) ih
  simp at h1
  omega

/-- C65: of any shape, only cells with all their vertices in the solid (up to the tolerance) are returned, and each
once. -/
theorem C65_include_sound {s : Shape} (h : Proper s) (verts : Nat → List V3) (t : Skd) :
    (∀ id ∈ includeGeo s verts (some t), id ∈ t.cells ∧ ∀ p ∈ verts id, Near s p) ∧
    (t.cells.Nodup → (includeGeo s verts (some t)).Nodup) := by
  constructor
  · intro id hid
    obtain ⟨h1, h2⟩ := search_mem.1 hid
    obtain ⟨t', ht', hc⟩ := stackLoop_mem s _ id h1
    have : t' = t := by simpa using ht'
    subst this
    exact ⟨hc, fun p hp => C65_point_sound h ((simplex_iff s _).1 h2 p hp)⟩
  · intro hn
    rw [List.nodup_iff_count]
    intro id
    exact le_trans (include_count s verts t id) (List.nodup_iff_count.1 hn id)

example : Proper (basic .wedge) ∧ (Skd.two ⟨0, 0, 0⟩ ⟨1, 1, 1⟩ (.leaf ⟨0, 0, 0⟩ ⟨1, 1, 1⟩ [3]) (.leaf ⟨0, 0, 0⟩ ⟨1, 1, 1⟩ [5, 8])).cells.Nodup :=
  ⟨proper_basic _, by simp [Skd.cells]⟩

/-- the shapes whose box test is right: cuboids, whole cylinders and spheres (possibly hollow), wedges along the
coordinate axes -/
def Whole (s : Shape) : Prop :=
  match s.kind with
  | .cube => True
  | .cylinder => s.span.y = 2 * π
  | .sphere => s.span.y = 2 * π ∧ s.span.z = π
  | .wedge => s.sdr = .one

theorem whole_no_cut {s : Shape} (h : Proper s) (hw : Whole s) (p : V3) : ¬ AxisCut s p := by
  have pp := pi_pos
  rintro ⟨hk, -, -, hpos, hle⟩
  have hf : s.span.y = 2 * π := by
    rcases hk with hk | ⟨hk, -⟩
    · simpa [Whole, hk] using hw
    · have : s.span.y = 2 * π ∧ s.span.z = π := by simpa [Whole, hk] using hw
      exact this.1
  rw [hf] at hle
  have : (1 : ℝ) / 10 ^ 12 > 0 := by positivity
  nlinarith

theorem whole_box {s : Shape} (h : Proper s) (hw : Whole s) {lo hi p : V3} (hp : InB lo hi p) (hs : Solid s p) : boxTest s lo hi := by
  unfold boxTest
  rcases hk : s.kind
  · exact cubeBox_complete h hk hp hs
  · exact cylBox_complete h hk (by simpa [Whole, hk] using hw) hp hs
  · have : s.span.y = 2 * π ∧ s.span.z = π := by simpa [Whole, hk] using hw
    exact sphereBox_complete h hk this.1 this.2 hp hs
  · exact wedgeBox_complete h hk (by simpa [Whole, hk] using hw) hp hs

/-- C65: no cell with all its vertices in the solid is missed, whatever the mesh, its search tree and the position of the
shape, for cuboids, whole cylinders and spheres, and wedges along the axes (full statement: every shape). -/
theorem C65_include_complete_partial {s : Shape} (h : Proper s) (hw : Whole s) {verts : Nat → List V3} {t : Skd} (hv : t.Valid verts)
    {id : Nat} (hid : id ∈ t.cells) (hne : verts id ≠ []) (hs : ∀ p ∈ verts id, Solid s p) : id ∈ includeGeo s verts (some t) := by
  apply search_mem.2
  obtain ⟨p, hp⟩ := List.exists_mem_of_ne_nil _ hne
  refine ⟨?_, (simplex_iff s _).2 (fun q hq => C65_point_complete_partial h (hs q hq) (whole_no_cut h hw q))⟩
  exact stackLoop_complete hp (fun lo hi hb => whole_box h hw hb (hs p hp)) [t] (by simpa using hv) t (by simp) hid

/-- the default cuboid, two cells, one inside -/
example : Proper (basic .cube) ∧ Whole (basic .cube) ∧
    Skd.Valid (fun id => if id = 1 then [⟨0, 0, 0⟩, ⟨1 / 2, 0, 0⟩] else [⟨5, 5, 5⟩])
      (.two ⟨0, 0, 0⟩ ⟨5, 5, 5⟩ (.leaf ⟨0, 0, 0⟩ ⟨1, 0, 0⟩ [1]) (.leaf ⟨5, 5, 5⟩ ⟨5, 5, 5⟩ [2])) ∧
    (∀ p ∈ [(⟨0, 0, 0⟩ : V3), ⟨1 / 2, 0, 0⟩], Solid (basic .cube) p) := by
  refine ⟨proper_basic _, by simp [Whole, basic], ?_, ?_⟩
  · simp [Skd.Valid, Skd.cells, InB]; norm_num
  · intro p hp
    simp only [List.mem_cons, List.not_mem_nil, or_false] at hp
    rcases hp with rfl | rfl
    · refine ⟨⟨1 / 2, 1 / 2, 1 / 2⟩, by norm_num, by norm_num, by norm_num, ?_⟩
      simp [toWorld, straight, duffy, basicToLocal, localOrigin, basic, V3.mul, M3.app, M3.one, dot]
      ext <;> norm_num
    · refine ⟨⟨1, 1 / 2, 1 / 2⟩, by norm_num, by norm_num, by norm_num, ?_⟩
      simp [toWorld, straight, duffy, basicToLocal, localOrigin, basic, V3.mul, M3.app, M3.one, dot]
      ext <;> norm_num

/-! ### C66 -/

theorem mergeOut_spec (os : List Nat) : ∀ is : List Nat, os.Pairwise (· < ·) → is.Pairwise (· < ·) → (∀ i ∈ is, i ∈ os) →
    ∃ r, mergeOut os is (os.length - is.length) = some r ∧ r.Pairwise (· < ·) ∧ ∀ x, x ∈ r ↔ x ∈ os ∧ x ∉ is := by
  induction os with
  | nil =>
    intro is _ _ hi
    refine ⟨[], by simp [mergeOut], by simp, by simp⟩
  | cons o os ih =>
    intro is ho hs hi
    have ho' := List.pairwise_cons.1 ho
    cases is with
    | nil =>
      obtain ⟨r, hr, hp, hm⟩ := ih [] ho'.2 (by simp) (by simp)
      refine ⟨o :: r, ?_, ?_, ?_⟩
      · simp only [List.length_cons, List.length_nil, Nat.sub_zero, mergeOut] at hr ⊢
        rw [hr]; rfl
      · refine List.pairwise_cons.2 ⟨fun x hx => ho'.1 x ((hm x).1 hx).1, hp⟩
      · intro x; simp [hm]
    | cons i is =>
      have hs' := List.pairwise_cons.1 hs
      by_cases hoi : o = i
      · subst hoi
        have hsub : ∀ j ∈ is, j ∈ os := by
          intro j hj
          rcases List.mem_cons.1 (hi j (by simp [hj])) with rfl | h
          · exact absurd (hs'.1 j hj) (by omega)
          · exact h
        obtain ⟨r, hr, hp, hm⟩ := ih is ho'.2 hs'.2 hsub
        refine ⟨r, ?_, hp, ?_⟩
        · simp only [List.length_cons, Nat.add_sub_add_right, mergeOut, ne_eq, not_true_eq_false, if_false]
          exact hr
        · intro x
          rw [hm]
          simp only [List.mem_cons, not_or]
          constructor
          · rintro ⟨h1, h2⟩; exact ⟨.inr h1, fun e => by subst e; exact absurd (ho'.1 _ h1) (by omega), h2⟩
          · rintro ⟨h1 | h1, h2, h3⟩
            · exact absurd h1 h2
            · exact ⟨h1, h3⟩
      · have hsub : ∀ j ∈ i :: is, j ∈ os := by
          intro j hj
          rcases List.mem_cons.1 (hi j hj) with e | h
          · -- then o is in `is`, but i < o or i = o, while i ∈ o :: os
            subst e
            rcases List.mem_cons.1 (hi i (by simp)) with e | h
            · exact absurd e.symm hoi
            · have h1 := ho'.1 i h
              rcases List.mem_cons.1 hj with e | hj
              · exact absurd e hoi
              · exact absurd (hs'.1 _ hj) (by omega)
          · exact h
        have hlen : (i :: is).length ≤ os.length := by
          have hnd : (i :: is).Nodup := hs.imp (fun h => Nat.ne_of_lt h)
          exact (List.subperm_of_subset hnd hsub).length_le
        obtain ⟨r, hr, hp, hm⟩ := ih (i :: is) ho'.2 hs hsub
        refine ⟨o :: r, ?_, ?_, ?_⟩
        · have : (o :: os).length - (i :: is).length = (os.length - (i :: is).length) + 1 := by
            simp only [List.length_cons] at hlen ⊢; omega
          rw [this]
          simp only [mergeOut, ne_eq, hoi, not_false_eq_true, if_true]
          rw [hr]; rfl
        · exact List.pairwise_cons.2 ⟨fun x hx => ho'.1 x ((hm x).1 hx).1, hp⟩
        · intro x
          simp only [List.mem_cons, hm, not_or]
          constructor
          · rintro (rfl | ⟨h1, h2⟩)
            · refine ⟨.inl rfl, hoi, fun hx => ?_⟩
              exact absurd (ho'.1 x (hsub x (by simp [hx]))) (by omega)
            · exact ⟨.inr h1, h2⟩
          · rintro ⟨h1 | h1, h2⟩
            · exact .inl h1
            · exact .inr ⟨h1, h2⟩

theorem sorted_lt {l : List Nat} (h : l.Nodup) : (sorted l).Pairwise (· < ·) ∧ (∀ x, x ∈ sorted l ↔ x ∈ l) ∧ (sorted l).length = l.length := by
  have hp : (sorted l).Perm l := List.mergeSort_perm l _
  refine ⟨?_, fun x => hp.mem_iff, hp.length_eq⟩
  have hs : (sorted l).Pairwise (fun a b => decide (a ≤ b) = true) := by
    apply List.pairwise_mergeSort
    · intro a b c h1 h2; simp at h1 h2 ⊢; omega
    · intro a b; simp; omega
  have hn : (sorted l).Pairwise (· ≠ ·) := hp.nodup_iff.2 h
  exact (hs.and hn).imp (fun ⟨h1, h2⟩ => by simp at h1; omega)

theorem complement_spec {os is : List Nat} (ho : os.Nodup) (hi : is.Nodup) (hs : ∀ i ∈ is, i ∈ os) :
    ∃ r, complement os is = some r ∧ r.Pairwise (· < ·) ∧ ∀ x, x ∈ r ↔ x ∈ os ∧ x ∉ is := by
  obtain ⟨o1, o2, o3⟩ := sorted_lt ho
  obtain ⟨i1, i2, i3⟩ := sorted_lt hi
  obtain ⟨r, hr, hp, hm⟩ := mergeOut_spec (sorted os) (sorted is) o1 i1 (fun i h => (o2 i).2 (hs i ((i2 i).1 h)))
  refine ⟨r, ?_, hp, fun x => by rw [hm, o2, i2]⟩
  have hle : is.length ≤ os.length := (List.subperm_of_subset hi hs).length_le
  unfold complement
  rw [if_neg (by omega)]
  rw [o3, i3] at hr
  exact hr

/-- C66: `excludeGeometry` returns exactly the cells that `includeGeometry` does not return, in increasing order, for
every shape, mesh and search tree. -/
theorem C66_exclude_geometry {s : Shape} (verts : Nat → List V3) {cells : List Nat} (hn : cells.Nodup) {t : Skd} (ht : t.cells.Perm cells) :
    ∃ r, excludeGeo s verts cells (some t) = some r ∧ r.Pairwise (· < ·) ∧
      ∀ id, id ∈ r ↔ id ∈ cells ∧ id ∉ includeGeo s verts (some t) := by
  apply complement_spec hn
  · rw [List.nodup_iff_count]
    intro id
    exact le_trans (include_count s verts t id) (List.nodup_iff_count.1 (ht.nodup_iff.2 hn) id)
  · intro id hid
    obtain ⟨h1, -⟩ := search_mem.1 hid
    obtain ⟨t', ht', hc⟩ := stackLoop_mem s _ id h1
    have : t' = t := by simpa using ht'
    subst this
    exact ht.mem_iff.1 hc

example : [8, 3, 5].Nodup ∧ (Skd.two ⟨0, 0, 0⟩ ⟨1, 1, 1⟩ (.leaf ⟨0, 0, 0⟩ ⟨1, 1, 1⟩ [3]) (.leaf ⟨0, 0, 0⟩ ⟨1, 1, 1⟩ [5, 8])).cells.Perm [8, 3, 5] := by
  simp only [Skd.cells]; decide

/-- C66: without support for trees nothing is included, and everything is excluded. -/
theorem C66_no_tree {s : Shape} (verts : Nat → List V3) {cells : List Nat} (hn : cells.Nodup) :
    includeGeo s verts none = [] ∧ ∃ r, excludeGeo s verts cells none = some r ∧ r.Pairwise (· < ·) ∧ ∀ id, id ∈ r ↔ id ∈ cells := by
  refine ⟨rfl, ?_⟩
  obtain ⟨r, h1, h2, h3⟩ := complement_spec (os := cells) (is := []) hn (by simp) (by simp)
  exact ⟨r, h1, h2, fun id => by rw [h3]; simp⟩

/-- C66: over a patch the two selections split the cells, keeping their order. -/
theorem C66_patch (s : Shape) (verts : Nat → List V3) (cells : List Nat) :
    (includePatch s verts cells).Sublist cells ∧ (excludePatch s verts cells).Sublist cells ∧
    ∀ id ∈ cells, (id ∈ includePatch s verts cells ↔ ∀ p ∈ verts id, pointIncluded s p) ∧
      (id ∈ excludePatch s verts cells ↔ ¬ ∀ p ∈ verts id, pointIncluded s p) := by
  refine ⟨List.filter_sublist, List.filter_sublist, fun id hid => ⟨?_, ?_⟩⟩
  · simp [includePatch, hid, simplex_iff]
  · simp [excludePatch, hid, simplex_iff]

theorem includeList_spec (s : Shape) (ps : List V3) : ∀ n, (includeList s ps n).Pairwise (· < ·) ∧
    ∀ i, i ∈ includeList s ps n ↔ n ≤ i ∧ ∃ p, ps[i - n]? = some p ∧ pointIncluded s p := by
  induction ps with
  | nil => intro n; simp [includeList]
  | cons p ps ih =>
    intro n
    obtain ⟨h1, h2⟩ := ih (n + 1)
    have hmem : ∀ i, (i = n ∧ pointIncluded s p) ∨ i ∈ includeList s ps (n + 1) ↔ n ≤ i ∧ ∃ q, (p :: ps)[i - n]? = some q ∧ pointIncluded s q := by
      intro i
      rw [h2]
      constructor
      · rintro (⟨rfl, h⟩ | ⟨hle, q, hq, h⟩)
        · exact ⟨le_refl _, p, by simp, h⟩
        · refine ⟨by omega, q, ?_, h⟩
          have : i - n = (i - (n + 1)) + 1 := by omega
          rw [this, List.getElem?_cons_succ]; exact hq
      · rintro ⟨hle, q, hq, h⟩
        by_cases hin : i = n
        · subst hin; left; simp at hq; subst hq; exact ⟨rfl, h⟩
        · right
          have : i - n = (i - (n + 1)) + 1 := by omega
          rw [this, List.getElem?_cons_succ] at hq
          exact ⟨by omega, q, hq, h⟩
    unfold includeList
    split
    · rename_i hp
      refine ⟨List.pairwise_cons.2 ⟨fun i hi => ?_, h1⟩, fun i => ?_⟩
      · have := ((h2 i).1 hi).1; omega
      · rw [← hmem]; simp [hp]
    · rename_i hp
      refine ⟨h1, fun i => ?_⟩
      rw [← hmem]; simp [hp]

theorem excludeList_spec (s : Shape) (ps : List V3) : ∀ n, (excludeList s ps n).Pairwise (· < ·) ∧
    ∀ i, i ∈ excludeList s ps n ↔ n ≤ i ∧ ∃ p, ps[i - n]? = some p ∧ ¬ pointIncluded s p := by
  induction ps with
  | nil => intro n; simp [excludeList]
  | cons p ps ih =>
    intro n
    obtain ⟨h1, h2⟩ := ih (n + 1)
    have hmem : ∀ i, (i = n ∧ ¬ pointIncluded s p) ∨ i ∈ excludeList s ps (n + 1) ↔ n ≤ i ∧ ∃ q, (p :: ps)[i - n]? = some q ∧ ¬ pointIncluded s q := by
      intro i
      rw [h2]
      constructor
      · rintro (⟨rfl, h⟩ | ⟨hle, q, hq, h⟩)
        · exact ⟨le_refl _, p, by simp, h⟩
        · refine ⟨by omega, q, ?_, h⟩
          have : i - n = (i - (n + 1)) + 1 := by omega
          rw [this, List.getElem?_cons_succ]; exact hq
      · rintro ⟨hle, q, hq, h⟩
        by_cases hin : i = n
        · subst hin; left; simp at hq; subst hq; exact ⟨rfl, h⟩
        · right
          have : i - n = (i - (n + 1)) + 1 := by omega
          rw [this, List.getElem?_cons_succ] at hq
          exact ⟨by omega, q, hq, h⟩
    unfold excludeList
    split
    · rename_i hp
      refine ⟨List.pairwise_cons.2 ⟨fun i hi => ?_, h1⟩, fun i => ?_⟩
      · have := ((h2 i).1 hi).1; omega
      · rw [← hmem]; simp [hp]
    · rename_i hp
      refine ⟨h1, fun i => ?_⟩
      rw [← hmem]; simp [hp]

/-- C66: of a list of points, the indices of the points included and those of the others split the indices; both are
increasing. -/
theorem C66_points (s : Shape) (ps : List V3) :
    (includeList s ps 0).Pairwise (· < ·) ∧ (excludeList s ps 0).Pairwise (· < ·) ∧
    (∀ i, i ∈ includeList s ps 0 ↔ ∃ p, ps[i]? = some p ∧ pointIncluded s p) ∧
    (∀ i, i ∈ excludeList s ps 0 ↔ i < ps.length ∧ i ∉ includeList s ps 0) := by
  obtain ⟨a1, a2⟩ := includeList_spec s ps 0
  obtain ⟨b1, b2⟩ := excludeList_spec s ps 0
  refine ⟨a1, b1, fun i => by rw [a2]; simp, fun i => ?_⟩
  rw [b2, a2]
  simp only [Nat.zero_le, true_and, Nat.sub_zero]
  constructor
  · rintro ⟨p, hp, h⟩
    obtain ⟨hlt, -⟩ := List.getElem?_eq_some_iff.1 hp
    exact ⟨hlt, fun ⟨q, hq, h'⟩ => by rw [hp] at hq; cases hq; exact h h'⟩
  · rintro ⟨hlt, h⟩
    exact ⟨ps[i], List.getElem?_eq_getElem hlt, fun h' => h ⟨_, List.getElem?_eq_getElem hlt, h'⟩⟩

end Verif.Shape
