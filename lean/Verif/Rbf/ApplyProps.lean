import Verif.Rbf.NodeProps
/-
C119: applying the displacements.  C120: duplicated nodes.
-/
namespace Verif.Rbf
open Verif.Field Verif.Mesh Verif.Shape Verif.Manip
open List hiding get

noncomputable section
open scoped Classical

/-! ### C119 -/

/-- C119: vector displacements: each vertex of the geometry moves by its displacement, vertices without one stay, cells
and other geometries do not change, the results stay available. -/
theorem C119_vector (nrm : Nat → Nat → Nat → V3) {w w' : World} (hw : WorldOk w) {s s' : Rbf} (hs : s.scalar = false)
    {g : Nat} (hg : s.geom = some g) (h : s.apply nrm w = some (w', s')) :
    s' = s ∧ (w' g).cells = (w g).cells ∧ (∀ j, j ≠ g → w' j = w j) ∧
    ∀ id p, get (w g).verts id = some p → 
      get (w' g).verts id = some ((get s.displ.data id).elim p (fun d => p + d)) := by
  unfold Rbf.apply at h
  rw [hg] at h
  simp only at h
  rw [if_neg (by rw [hs]; simp)] at h
  simp only [Option.map_eq_some_iff, Prod.mk.injEq] at h
  obtain ⟨x, ⟨o, ho, rfl⟩, rfl, rfl⟩ := h
  obtain ⟨h1, -, h3⟩ := C46_apply _ _ _ (hw.verts g) ho
  refine ⟨rfl, by simp [h3], ?_, ?_⟩
  · intro j hj; simp [hj]
  · intro id p hp
    have := h1 id p hp
    simp only [if_true]
    rw [this]
    cases get s.displ.data id <;> rfl

theorem alongCell_spec (nrm : Nat → Nat → V3) (sc : Data ℝ) (c : Nat) : ∀ (ids : List Nat) (i : Nat) (acc d : Data V3),
    alongCell nrm sc c ids i acc = some d →
      (∀ v x, get acc v = some x → get d v = some x) ∧
      (∀ v, get acc v = none → (v ∉ ids → get d v = none) ∧
        (v ∈ ids → ∃ m x, ids[m]? = some v ∧ get sc v = some x ∧ get d v = some (V3.scale x (nrm c (i + m)))))
  | [], i, acc, d, h => by
    rw [alongCell] at h
    cases h
    exact ⟨fun _ _ h => h, fun v hv => ⟨fun _ => hv, fun h => by simp at h⟩⟩
  | id :: ids, i, acc, d, h => by
    rw [alongCell] at h
    split at h
    · rename_i hh
      obtain ⟨h1, h2⟩ := alongCell_spec nrm sc c ids (i + 1) acc d h
      refine ⟨h1, ?_⟩
      intro v hv
      have hne : v ≠ id := by
        rintro rfl
        rw [has_eq_isSome, hv] at hh; cases hh
      obtain ⟨a, b⟩ := h2 v hv
      refine ⟨fun hn => a (fun hm => hn (by simp [hm])), ?_⟩
      intro hm
      rcases mem_cons.1 hm with hm | hm
      · exact absurd hm hne
      · obtain ⟨m, x, e1, e2, e3⟩ := b hm
        exact ⟨m + 1, x, by simpa using e1, e2, by rw [e3]; congr 3; omega⟩
    · rename_i hh
      cases hx : get sc id with
      | none => rw [hx] at h; cases h
      | some x =>
        rw [hx] at h
        obtain ⟨h1, h2⟩ := alongCell_spec nrm sc c ids (i + 1) _ d h
        have hid : get acc id = none := by
          cases hg : get acc id with
          | none => rfl
          | some y => rw [has_eq_isSome, hg] at hh; exact absurd rfl hh
        have happ : ∀ v, get (acc ++ [(id, V3.scale x (nrm c i))]) v =
            if v = id then some (V3.scale x (nrm c i)) else get acc v := by
          intro v
          rw [get_append]
          by_cases hv : v = id
          · subst hv; rw [hid]; simp [Field.get]
          · rw [if_neg hv]
            have : get [(id, V3.scale x (nrm c i))] v = none := by simp [Field.get, Ne.symm hv]
            rw [this]; cases get acc v <;> rfl
        refine ⟨?_, ?_⟩
        · intro v y hv
          apply h1
          rw [happ, if_neg, hv]
          rintro rfl
          rw [hid] at hv; cases hv
        · intro v hv
          by_cases hvi : v = id
          · subst hvi
            refine ⟨fun hn => absurd (by simp) hn, fun _ => ⟨0, x, rfl, hx, ?_⟩⟩
            apply h1
            rw [happ, if_pos rfl]; rfl
          · obtain ⟨a, b⟩ := h2 v (by rw [happ, if_neg hvi, hv])
            refine ⟨fun hn => a (fun hm => hn (by simp [hm])), ?_⟩
            intro hm
            rcases mem_cons.1 hm with hm | hm
            · exact absurd hm hvi
            · obtain ⟨m, y, e1, e2, e3⟩ := b hm
              exact ⟨m + 1, y, by simpa using e1, e2, by rw [e3]; congr 3; omega⟩

theorem alongNormals_spec (nrm : Nat → Nat → V3) (sc : Data ℝ) : ∀ (cs : Data Cell) (acc d : Data V3),
    alongNormals nrm sc cs acc = some d →
      (∀ v x, get acc v = some x → get d v = some x) ∧
      (∀ v, get acc v = none → ((∀ e ∈ cs, v ∉ vertexIds e.2) → get d v = none) ∧
        ((∃ e ∈ cs, v ∈ vertexIds e.2) → ∃ e ∈ cs, ∃ m x, (vertexIds e.2)[m]? = some v ∧ get sc v = some x ∧
          get d v = some (V3.scale x (nrm e.1 m))))
  | [], acc, d, h => by
    rw [alongNormals] at h
    cases h
    exact ⟨fun _ _ h => h, fun v hv => ⟨fun _ => hv, fun h => by simp at h⟩⟩
  | c :: cs, acc, d, h => by
    rw [alongNormals, Option.bind_eq_some_iff] at h
    obtain ⟨acc', e1, e2⟩ := h
    obtain ⟨a1, a2⟩ := alongCell_spec nrm sc c.1 _ 0 acc acc' e1
    obtain ⟨b1, b2⟩ := alongNormals_spec nrm sc cs acc' d e2
    refine ⟨fun v x hv => b1 v x (a1 v x hv), ?_⟩
    intro v hv
    obtain ⟨c1, c2⟩ := a2 v hv
    constructor
    · intro hn
      exact (b2 v (c1 (hn c (by simp)))).1 (fun e he => hn e (by simp [he]))
    · rintro ⟨e, he, hve⟩
      by_cases hvc : v ∈ vertexIds c.2
      · obtain ⟨m, x, f1, f2, f3⟩ := c2 hvc
        rw [Nat.zero_add] at f3
        exact ⟨c, by simp, m, x, f1, f2, b1 v _ f3⟩
      · rcases mem_cons.1 he with rfl | he
        · exact absurd hve hvc
        · obtain ⟨e', he', m, x, f⟩ := (b2 v (c1 hvc)).2 ⟨e, he, hve⟩
          exact ⟨e', by simp [he'], m, x, f⟩

/-- C119: scalar displacements on a surface: each vertex of a cell moves along the normal the surface gives at this
vertex of a cell it belongs to, by its scalar; vertices in no cell do not move. -/
theorem C119_scalar (nrm : Nat → Nat → Nat → V3) {w w' : World} (hw : WorldOk w) {s s' : Rbf} (hs : s.scalar = true)
    {g : Nat} (hg : s.geom = some g) (ht : (w g).type = 1) (h : s.apply nrm w = some (w', s')) :
    s'.getScalar = s.getScalar ∧ s'.getDispl = none ∧ (w' g).cells = (w g).cells ∧ (∀ j, j ≠ g → w' j = w j) ∧
    ∀ id p, get (w g).verts id = some p →
      ((∀ e ∈ (w g).cells, id ∉ vertexIds e.2) → get (w' g).verts id = some p) ∧
      ((∃ e ∈ (w g).cells, id ∈ vertexIds e.2) → ∃ e ∈ (w g).cells, ∃ m x, (vertexIds e.2)[m]? = some id ∧
        get s.sdispl.data id = some x ∧ get (w' g).verts id = some (p + V3.scale x (nrm g e.1 m))) := by
  unfold Rbf.apply at h
  rw [hg] at h
  simp only at h
  rw [if_pos hs, if_neg (by simp [ht]), Option.bind_eq_some_iff] at h
  obtain ⟨d, hd, h⟩ := h
  simp only [Option.map_eq_some_iff, Prod.mk.injEq] at h
  obtain ⟨x, ⟨o, ho, rfl⟩, rfl, rfl⟩ := h
  obtain ⟨h1, -, h3⟩ := C46_apply _ _ _ (hw.verts g) ho
  obtain ⟨-, n2⟩ := alongNormals_spec (nrm g) s.sdispl.data _ [] d hd
  refine ⟨by simp [Rbf.getScalar], by simp [Rbf.getDispl, hs], by simp [h3], ?_, ?_⟩
  · intro j hj; simp [hj]
  · intro id p hp
    obtain ⟨m1, m2⟩ := n2 id rfl
    have := h1 id p hp
    simp only [if_true]
    constructor
    · intro hn
      rw [m1 hn] at this
      exact this
    · intro he
      obtain ⟨e, he, m, x, f1, f2, f3⟩ := m2 he
      rw [f3] at this
      exact ⟨e, he, m, x, f1, f2, this⟩

/-- C119: scalar displacements on anything but a surface are not applied. -/
theorem C119_not_surface (nrm : Nat → Nat → Nat → V3) (w : World) {s : Rbf} (hs : s.scalar = true) {g : Nat}
    (hg : s.geom = some g) (ht : (w g).type ≠ 1) : s.apply nrm w = some (w, s) := by
  unfold Rbf.apply
  rw [hg]
  simp only
  rw [if_pos hs, if_pos ht]

theorem alongCell_none (nrm : Nat → Nat → V3) (sc : Data ℝ) (c : Nat) {v : Nat} (hv : get sc v = none) :
    ∀ (ids : List Nat) (i : Nat) (acc : Data V3), get acc v = none → v ∈ ids → alongCell nrm sc c ids i acc = none
  | id :: ids, i, acc, ha, hm => by
    rw [alongCell]
    have happ : ∀ x, id ≠ v → get (acc ++ [(id, x)]) v = none := by
      intro x hne
      rw [get_append, ha]; simp [Field.get, hne]
    split
    · rename_i hh
      rcases mem_cons.1 hm with rfl | hm
      · rw [has_eq_isSome, ha] at hh; cases hh
      · exact alongCell_none nrm sc c hv ids _ acc ha hm
    · cases hx : get sc id with
      | none => rfl
      | some x =>
        have hne : id ≠ v := by rintro rfl; rw [hv] at hx; cases hx
        rcases mem_cons.1 hm with rfl | hm
        · exact absurd rfl hne
        · exact alongCell_none nrm sc c hv ids _ _ (happ _ hne) hm

theorem alongNormals_none (nrm : Nat → Nat → V3) (sc : Data ℝ) {v : Nat} (hv : get sc v = none) :
    ∀ (cs : Data Cell) (acc : Data V3), get acc v = none → (∃ e ∈ cs, v ∈ vertexIds e.2) →
      alongNormals nrm sc cs acc = none
  | c :: cs, acc, ha, h => by
    rw [alongNormals]
    by_cases hc : v ∈ vertexIds c.2
    · rw [alongCell_none (nrm := nrm) sc c.1 hv _ 0 acc ha hc]; rfl
    · cases hd : alongCell nrm sc c.1 (vertexIds c.2) 0 acc with
      | none => rfl
      | some acc' =>
        obtain ⟨-, a2⟩ := alongCell_spec nrm sc c.1 _ 0 acc acc' hd
        obtain ⟨e, he, hve⟩ := h
        rcases mem_cons.1 he with rfl | he
        · exact absurd hve hc
        · exact alongNormals_none nrm sc hv cs acc' ((a2 v ha).1 hc) ⟨e, he, hve⟩

/-- C119 fails: applying scalar displacements to a surface that has cells before any execution reads values that are not
there (with vectors it does nothing). -/
theorem C119_before_execution_fails (nrm : Nat → Nat → Nat → V3) (w : World) {s : Rbf} (hs : s.scalar = true)
    (hd : s.sdispl.data = []) {g : Nat} (hg : s.geom = some g) (ht : (w g).type = 1) {id : Nat}
    (hc : ∃ e ∈ (w g).cells, id ∈ vertexIds e.2) : s.apply nrm w = none := by
  unfold Rbf.apply
  rw [hg]
  simp only
  rw [if_pos hs, if_neg (by simp [ht]), alongNormals_none (nrm g) s.sdispl.data (v := id) (by rw [hd]; rfl) _ [] rfl hc]
  rfl

/-! ### C120 -/

/-- specification: the nodes at two positions are closer than the tolerance -/
def Close (tol : ℝ) (l : List V3) (i j : Nat) : Prop :=
  ∃ p q, l[i]? = some p ∧ l[j]? = some q ∧ norm2 (q - p) ≤ tol

theorem dupInner_spec (tol : ℝ) (p : V3) (i : Nat) : ∀ (qs : List V3) (j : Nat) (r : List Nat × List Nat),
    (∀ x, x ∈ (dupInner tol p i qs j r).1 ↔ x ∈ r.1 ∨ (x = i ∧ ∃ (m : Nat) (q : V3), qs[m]? = some q ∧ j + m ∉ r.2 ∧
      norm2 (q - p) ≤ tol)) ∧
    (∀ x, x ∈ (dupInner tol p i qs j r).2 ↔ x ∈ r.2 ∨ ∃ (m : Nat) (q : V3), qs[m]? = some q ∧ x = j + m ∧
      norm2 (q - p) ≤ tol)
  | [], j, r => by simp [dupInner]
  | q :: qs, j, (marked, check) => by
    rw [dupInner]
    by_cases h : j ∉ check ∧ norm2 (q - p) ≤ tol
    · rw [if_pos h]
      obtain ⟨a, b⟩ := dupInner_spec tol p i qs (j + 1) (marked ++ [i], j :: check)
      constructor
      · intro x
        rw [a]
        constructor
        · rintro (hx | ⟨rfl, m, q', h1, h2, h3⟩)
          · rcases mem_append.1 hx with hx | hx
            · exact .inl hx
            · exact .inr ⟨by simpa using hx, 0, q, rfl, by simpa using h.1, h.2⟩
          · exact .inr ⟨rfl, m + 1, q', by simpa using h1, by
              intro hm; exact h2 (mem_cons.2 (.inr (by rw [show j + 1 + m = j + (m + 1) by omega]; exact hm))), h3⟩
        · rintro (hx | ⟨rfl, m, q', h1, h2, h3⟩)
          · exact .inl (by simp [hx])
          · exact .inl (by simp)
      · intro x
        rw [b]
        constructor
        · rintro (hx | ⟨m, q', h1, h2, h3⟩)
          · rcases mem_cons.1 hx with rfl | hx
            · exact .inr ⟨0, q, rfl, rfl, h.2⟩
            · exact .inl hx
          · exact .inr ⟨m + 1, q', by simpa using h1, by omega, h3⟩
        · rintro (hx | ⟨m, q', h1, h2, h3⟩)
          · exact .inl (by simp [hx])
          · cases m with
            | zero => exact .inl (by simp [h2])
            | succ m => exact .inr ⟨m, q', by simpa using h1, by omega, h3⟩
    · rw [if_neg h]
      obtain ⟨a, b⟩ := dupInner_spec tol p i qs (j + 1) (marked, check)
      constructor
      · intro x
        rw [a]
        constructor
        · rintro (hx | ⟨rfl, m, q', h1, h2, h3⟩)
          · exact .inl hx
          · exact .inr ⟨rfl, m + 1, q', by simpa using h1, by
              rw [show j + (m + 1) = j + 1 + m by omega]; exact h2, h3⟩
        · rintro (hx | ⟨rfl, m, q', h1, h2, h3⟩)
          · exact .inl hx
          · cases m with
            | zero =>
              simp only [getElem?_cons_zero, Option.some.injEq] at h1
              subst h1
              exact absurd ⟨by simpa using h2, h3⟩ h
            | succ m => exact .inr ⟨rfl, m, q', by simpa using h1, by
                rw [show j + 1 + m = j + (m + 1) by omega]; exact h2, h3⟩
      · intro x
        rw [b]
        constructor
        · rintro (hx | ⟨m, q', h1, h2, h3⟩)
          · exact .inl hx
          · exact .inr ⟨m + 1, q', by simpa using h1, by omega, h3⟩
        · rintro (hx | ⟨m, q', h1, h2, h3⟩)
          · exact .inl hx
          · cases m with
            | zero =>
              simp only [getElem?_cons_zero, Option.some.injEq] at h1
              subst h1
              by_cases hj : j ∈ check
              · exact .inl (by simpa [h2] using hj)
              · exact absurd ⟨hj, h3⟩ h
            | succ m => exact .inr ⟨m, q', by simpa using h1, by omega, h3⟩

theorem dupOuter_spec (tol : ℝ) : ∀ (ps : List V3) (i : Nat) (r : List Nat × List Nat) (x : Nat),
    x ∈ (dupOuter tol ps i r).1 ↔ x ∈ r.1 ∨ ∃ a b, x = i + a ∧ a < b ∧ Close tol ps a b ∧ i + b ∉ r.2 ∧
      ∀ a', a' < a → ¬ Close tol ps a' b
  | [], i, r, x => by simp [dupOuter, Close]
  | p :: ps, i, r, x => by
    rw [dupOuter, dupOuter_spec tol ps (i + 1)]
    obtain ⟨h1, h2⟩ := dupInner_spec tol p i ps (i + 1) r
    have hc0 : ∀ b, Close tol (p :: ps) 0 (b + 1) ↔ ∃ q : V3, ps[b]? = some q ∧ norm2 (q - p) ≤ tol := by
      intro b
      constructor
      · rintro ⟨p', q, e1, e2, e3⟩
        simp only [getElem?_cons_zero, Option.some.injEq] at e1
        subst e1
        exact ⟨q, by simpa using e2, e3⟩
      · rintro ⟨q, e2, e3⟩
        exact ⟨p, q, rfl, by simpa using e2, e3⟩
    have hcs : ∀ a b, Close tol (p :: ps) (a + 1) (b + 1) ↔ Close tol ps a b := by
      intro a b; simp [Close]
    constructor
    · rintro (hx | ⟨a, b, e1, e2, e3, e4, e5⟩)
      · rcases (h1 x).1 hx with hx | ⟨rfl, m, q, f1, f2, f3⟩
        · exact .inl hx
        · refine .inr ⟨0, m + 1, by omega, by omega, (hc0 m).2 ⟨q, f1, f3⟩, ?_, by intro a' h; omega⟩
          rw [show x + (m + 1) = x + 1 + m by omega]; exact f2
      · rw [h2] at e4
        refine .inr ⟨a + 1, b + 1, by omega, by omega, (hcs a b).2 e3, ?_, ?_⟩
        · intro hm
          exact e4 (.inl (by rw [show i + 1 + b = i + (b + 1) by omega]; exact hm))
        · intro a' ha'
          cases a' with
          | zero =>
            rw [hc0]
            rintro ⟨q, f1, f2⟩
            exact e4 (.inr ⟨b, q, f1, rfl, f2⟩)
          | succ a' => rw [hcs]; exact e5 a' (by omega)
    · rintro (hx | ⟨a, b, e1, e2, e3, e4, e5⟩)
      · exact .inl ((h1 x).2 (.inl hx))
      · obtain ⟨b, rfl⟩ : ∃ b', b = b' + 1 := ⟨b - 1, by omega⟩
        cases a with
        | zero =>
          obtain ⟨q, f1, f2⟩ := (hc0 b).1 e3
          exact .inl ((h1 x).2 (.inr ⟨by omega, b, q, f1, by
            rw [show i + 1 + b = i + (b + 1) by omega]; exact e4, f2⟩))
        | succ a =>
          refine .inr ⟨a, b, by omega, by omega, (hcs a b).1 e3, ?_, ?_⟩
          · rw [h2]
            rintro (hm | ⟨m, q, f1, f2, f3⟩)
            · exact e4 (by rw [show i + (b + 1) = i + 1 + b by omega]; exact hm)
            · have : m = b := by omega
              subst this
              exact e5 0 (by omega) ((hc0 m).2 ⟨q, f1, f3⟩)
          · intro a' ha' hcl
            exact e5 (a' + 1) (by omega) ((hcs a' b).2 hcl)

/-- C120: a node is reported if it is the first of the nodes close to some later node. -/
theorem C120_reported (s : Rbf) (tol : ℝ) (i : Nat) :
    i ∈ s.checkDuplicated tol ↔ ∃ j, i < j ∧ Close tol (s.nodes.map Prod.fst) i j ∧
      ∀ k, k < i → ¬ Close tol (s.nodes.map Prod.fst) k j := by
  unfold Rbf.checkDuplicated
  rw [dupOuter_spec]
  simp

theorem removeAt_spec (l : List Node) (ids : List Nat) :
    removeAt l ids = (l.zipIdx.filter (fun e => decide (e.2 ∉ ids))).map Prod.fst := rfl

theorem mem_removeAt {l : List Node} {ids : List Nat} {n : Node} :
    n ∈ removeAt l ids ↔ ∃ i, l[i]? = some n ∧ i ∉ ids := by
  unfold removeAt
  simp only [mem_map, mem_filter, decide_eq_true_eq]
  constructor
  · rintro ⟨⟨m, i⟩, ⟨h1, h2⟩, rfl⟩
    rw [mem_zipIdx_iff_getElem?] at h1
    exact ⟨i, h1, h2⟩
  · rintro ⟨i, h1, h2⟩
    exact ⟨(n, i), ⟨mem_zipIdx_iff_getElem?.2 h1, h2⟩, rfl⟩

/-- C120: a node close to no other one is never removed. -/
theorem C120_single_kept (s : Rbf) {i : Nat} {n : Node} (hi : s.nodes[i]? = some n)
    (h : ∀ j, j ≠ i → ¬ Close (1 / 10 ^ 12) (s.nodes.map Prod.fst) i j) : n ∈ (s.removeDuplicated none).nodes := by
  refine mem_removeAt.2 ⟨i, hi, ?_⟩
  show i ∉ s.checkDuplicated (1 / 10 ^ 12)
  rw [C120_reported]
  rintro ⟨j, h1, h2, -⟩
  exact h j (by omega) h2

/-- C120 (part): if no node is close to two others, the nodes left are pairwise not close.  Missing: three or more nodes
in the same place (C120_three_fails). -/
theorem C120_clean_partial (s : Rbf)
    (h : ∀ i j k, i ≠ j → i ≠ k → Close (1 / 10 ^ 12) (s.nodes.map Prod.fst) i j →
      Close (1 / 10 ^ 12) (s.nodes.map Prod.fst) i k → j = k) :
    (s.removeDuplicated none).nodes.Pairwise (fun a b => ¬ norm2 (b.1 - a.1) ≤ 1 / 10 ^ 12) := by
  have hnorm : ∀ a b : V3, norm2 (a - b) = norm2 (b - a) := by
    intro a b
    simp only [norm2, dot]
    congr 1
    show (a.x - b.x) * (a.x - b.x) + (a.y - b.y) * (a.y - b.y) + (a.z - b.z) * (a.z - b.z) =
      (b.x - a.x) * (b.x - a.x) + (b.y - a.y) * (b.y - a.y) + (b.z - a.z) * (b.z - a.z)
    ring
  have hsym : ∀ i j, Close (1 / 10 ^ 12) (s.nodes.map Prod.fst) i j → Close (1 / 10 ^ 12) (s.nodes.map Prod.fst) j i := by
    rintro i j ⟨p, q, h1, h2, h3⟩
    exact ⟨q, p, h2, h1, by rw [hnorm]; exact h3⟩
  show (removeAt s.nodes (s.checkDuplicated (1 / 10 ^ 12))).Pairwise _
  unfold removeAt
  rw [pairwise_map]
  rw [pairwise_filter]
  rw [pairwise_iff_getElem]
  intro i j hi hj hij h1 h2 hcl
  simp only [getElem_zipIdx, Nat.zero_add, decide_eq_true_eq] at h1 h2 hcl
  have hi' : i < s.nodes.length := by simpa using hi
  have hj' : j < s.nodes.length := by simpa using hj
  have hc : Close (1 / 10 ^ 12) (s.nodes.map Prod.fst) i j :=
    ⟨s.nodes[i].1, s.nodes[j].1, by simp [hi'], by simp [hj'], hcl⟩
  apply h1
  rw [C120_reported]
  refine ⟨j, hij, hc, ?_⟩
  intro k hk hkj
  have := h j i k (by omega) (by omega) (hsym _ _ hc) (hsym _ _ hkj)
  omega

/-- C120 fails: of three nodes in the same place only one is removed: two are left. -/
theorem C120_three_fails (s : Rbf) (p : V3) (h : s.nodes = [(p, true), (p, true), (p, true)]) :
    (s.removeDuplicated none).nodes = [(p, true), (p, true)] := by
  have hz : norm2 (p - p) ≤ 1 / 10 ^ 12 := by rw [norm2_self]; positivity
  have hm : ∀ i, i ∈ s.checkDuplicated (1 / 10 ^ 12) ↔ i = 0 := by
    intro i
    rw [C120_reported, h]
    constructor
    · rintro ⟨j, h1, ⟨a, b, e1, e2, e3⟩, h3⟩
      by_contra hi
      have hb : b = p := by
        have := mem_of_getElem? e2
        simpa using this
      exact h3 0 (by omega) ⟨p, b, rfl, e2, by rw [hb]; exact hz⟩
    · rintro rfl
      exact ⟨1, by omega, ⟨p, p, rfl, rfl, hz⟩, by intro k hk; omega⟩
  show removeAt s.nodes (s.checkDuplicated (1 / 10 ^ 12)) = _
  unfold removeAt
  rw [h]
  generalize s.checkDuplicated (1 / 10 ^ 12) = L at hm
  simp [hm]

/-! ### Cases -/

example : WorldOk demoWorld ∧ (demo.setScalar [1]).scalar = true ∧ (demo.setScalar [1]).geom = some 0 ∧
    (demoWorld 0).type = 1 ∧ (demo.setScalar [1]).sdispl.data = [] ∧
    ∃ e ∈ (demoWorld 0).cells, 4 ∈ vertexIds e.2 := by
  refine ⟨demoWorld_ok, rfl, rfl, rfl, rfl, ?_⟩
  exact ⟨(3, { elem := .triangle, conn := [0, 4, 7], pid := 0 }), by simp [demoWorld, demoObj], by simp [vertexIds]⟩

/-- scalar displacements laid along the normals: the moves exist -/
example : ∃ d, alongNormals (fun _ _ => ⟨0, 0, 1⟩) [(0, 1), (4, 2), (7, 3)] (demoWorld 0).cells [] = some d := by
  simp [demoWorld, demoObj, alongNormals, alongCell, vertexIds, Field.get, Field.has]

/-- two nodes in the same place and one elsewhere: the first is removed -/
example : ((demo.setNodes [zero3, zero3, ⟨1, 0, 0⟩]).nodes.map Prod.fst)[0]? = some zero3 ∧
    Close (1 / 10 ^ 12) ((demo.setNodes [zero3, zero3, ⟨1, 0, 0⟩]).nodes.map Prod.fst) 0 1 ∧
    (∀ i j k, i ≠ j → i ≠ k → Close (1 / 10 ^ 12) ((demo.setNodes [zero3, zero3, ⟨1, 0, 0⟩]).nodes.map Prod.fst) i j →
      Close (1 / 10 ^ 12) ((demo.setNodes [zero3, zero3, ⟨1, 0, 0⟩]).nodes.map Prod.fst) i k → j = k) := by
  have e : (demo.setNodes [zero3, zero3, ⟨1, 0, 0⟩]).nodes.map Prod.fst = [zero3, zero3, ⟨1, 0, 0⟩] := rfl
  rw [e]
  have hfar : ∀ a b : V3, (a = zero3 ∧ b = ⟨1, 0, 0⟩) ∨ (a = ⟨1, 0, 0⟩ ∧ b = zero3) →
      ¬ norm2 (b - a) ≤ 1 / 10 ^ 12 := by
    rintro a b h hc
    have : norm2 (b - a) = 1 := by
      rcases h with ⟨rfl, rfl⟩ | ⟨rfl, rfl⟩
      · show √((1 - 0) * (1 - 0) + (0 - 0) * (0 - 0) + (0 - 0) * (0 - 0)) = 1
        norm_num
      · show √((0 - 1) * (0 - 1) + (0 - 0) * (0 - 0) + (0 - 0) * (0 - 0)) = 1
        norm_num
    rw [this] at hc
    norm_num at hc
  have hpair : ∀ i j, i ≠ j → Close (1 / 10 ^ 12) [zero3, zero3, ⟨1, 0, 0⟩] i j → (i = 0 ∧ j = 1) ∨ (i = 1 ∧ j = 0) := by
    rintro i j hij ⟨p, q, h1, h2, h3⟩
    have hi : i < 3 := (List.getElem?_eq_some_iff.1 h1).1
    have hj : j < 3 := (List.getElem?_eq_some_iff.1 h2).1
    have h1' := (List.getElem?_eq_some_iff.1 h1).2
    have h2' := (List.getElem?_eq_some_iff.1 h2).2
    have hi3 : i = 0 ∨ i = 1 ∨ i = 2 := by omega
    have hj3 : j = 0 ∨ j = 1 ∨ j = 2 := by omega
    rcases hi3 with rfl | rfl | rfl <;> rcases hj3 with rfl | rfl | rfl <;> try omega
    all_goals exact absurd h3 (hfar p q (by simp at h1' h2'; subst h1' h2'; simp))
  refine ⟨rfl, ⟨zero3, zero3, rfl, rfl, by rw [norm2_self]; positivity⟩, ?_⟩
  intro i j k hij hik h1 h2
  have := hpair i j hij h1
  have := hpair i k hik h2
  omega

end

end Verif.Rbf
