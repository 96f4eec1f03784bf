import Verif.Field.Interp
import Verif.Field.Props
/-
Property theorems about interpolation (C29, C56).
-/
namespace Verif.Interp
open List hiding get
open Verif.Field (Data get ins has setAt Ok has_eq_isSome get_append get_single get_setAt get_none_iff ok_append)

variable {K : Type} [_root_.Field K]

/-! ### Specification: weighted average of (value, weight) pairs -/

/-- sum of value × weight -/
def wsum (l : List (K × K)) : K := (l.map (fun e => e.1 * e.2)).sum
/-- sum of the weights -/
def wtot (l : List (K × K)) : K := (l.map (fun e => e.2)).sum
/-- weighted average -/
def wavg (l : List (K × K)) : K := wsum l / wtot l

section order
variable [LinearOrder K] [IsStrictOrderedRing K]

theorem wtot_pos {l : List (K × K)} (hl : l ≠ []) (hw : ∀ e ∈ l, 0 < e.2) : 0 < wtot l := by
  induction l with
  | nil => exact absurd rfl hl
  | cons e l ih =>
    unfold wtot at ih ⊢
    rw [map_cons, sum_cons]
    have h1 := hw e (by simp)
    by_cases h : l = []
    · simp [h, h1]
    · have := ih h (fun x hx => hw x (by simp [hx]))
      linarith

theorem wsum_bounds {l : List (K × K)} (hw : ∀ e ∈ l, 0 < e.2) (m M : K) (hb : ∀ e ∈ l, m ≤ e.1 ∧ e.1 ≤ M) :
    m * wtot l ≤ wsum l ∧ wsum l ≤ M * wtot l := by
  induction l with
  | nil => simp [wsum, wtot]
  | cons e l ih =>
    have h1 := hw e (by simp)
    have h2 := hb e (by simp)
    have h3 := ih (fun x hx => hw x (by simp [hx])) (fun x hx => hb x (by simp [hx]))
    unfold wsum wtot at h3 ⊢
    simp only [map_cons, sum_cons]
    have a1 := mul_le_mul_of_nonneg_right h2.1 h1.le
    have a2 := mul_le_mul_of_nonneg_right h2.2 h1.le
    constructor <;> nlinarith [h3.1, h3.2]

/-- a weighted average with positive weights lies between the bounds of the values -/
theorem wavg_bounds {l : List (K × K)} (hl : l ≠ []) (hw : ∀ e ∈ l, 0 < e.2) (m M : K)
    (hb : ∀ e ∈ l, m ≤ e.1 ∧ e.1 ≤ M) : m ≤ wavg l ∧ wavg l ≤ M := by
  have ht := wtot_pos hl hw
  have := wsum_bounds hw m M hb
  unfold wavg
  rw [le_div_iff₀ ht, div_le_iff₀ ht]
  exact this

end order

/-! ### Points to cells -/

theorem cellLoop_some (at_ : Nat → Option K) (w : Nat → K) (f : Nat → K) : ∀ (vs : List Nat),
    (∀ v ∈ vs, at_ v = some (f v)) → ∀ d s,
    cellLoop at_ w vs (some (d, s)) =
      some (some (d + wsum (vs.map (fun v => (f v, w v))), s + wtot (vs.map (fun v => (f v, w v))))) := by
  intro vs
  induction vs with
  | nil => intro _ d s; simp [cellLoop, wsum, wtot]
  | cons v vs ih =>
    intro h d s
    simp only [cellLoop, h v (by simp)]
    rw [ih (fun x hx => h x (by simp [hx]))]
    simp only [wsum, wtot, map_cons, sum_cons]
    congr 3 <;> ring

theorem cellLoop_none (at_ : Nat → Option K) (w : Nat → K) (f : Nat → K) {vs : List Nat} (hne : vs ≠ [])
    (h : ∀ v ∈ vs, at_ v = some (f v)) :
    cellLoop at_ w vs none =
      some (some (wsum (vs.map (fun v => (f v, w v))), wtot (vs.map (fun v => (f v, w v))))) := by
  cases vs with
  | nil => exact absurd rfl hne
  | cons v vs =>
    simp only [cellLoop, h v (by simp)]
    rw [cellLoop_some at_ w f vs (fun x hx => h x (by simp [hx]))]
    simp [wsum, wtot]

theorem pointToCell_spec (pw : K → K) (g : Mesh K) (f : Nat → K) (at_ : Nat → Option K) :
    ∀ (cs : List (Nat × List Nat)) (out : Data K),
    (cs.map Prod.fst).Nodup → (∀ c ∈ cs, has out c.1 = false) → (∀ c ∈ cs, c.2 ≠ []) →
    (∀ c ∈ cs, ∀ v ∈ c.2, at_ v = some (f v)) →
    pointToCell pw g at_ cs out =
      some (out ++ cs.map (fun c => (c.1, wavg (c.2.map (fun v => (f v, 1 / pw (g.dist c.1 v))))))) := by
  intro cs
  induction cs with
  | nil => intro out _ _ _ _; simp [pointToCell]
  | cons c cs ih =>
    intro out hn hno hne hat
    simp only [map_cons, nodup_cons] at hn
    simp only [pointToCell]
    rw [cellLoop_none at_ _ f (hne c (by simp)) (hat c (by simp))]
    simp only [ins, hno c (by simp), Bool.false_eq_true, if_false, Option.bind_some]
    rw [ih _ hn.2]
    · simp [wavg]
    · intro x hx
      have hxc : ¬ c.1 = x.1 := by
        intro h; exact hn.1 (by rw [h]; exact mem_map.2 ⟨x, hx, rfl⟩)
      have := hno x (by simp [hx])
      rw [has_eq_isSome] at this ⊢
      rw [get_append, get_single, if_neg hxc]
      simpa using this
    · exact fun x hx => hne x (by simp [hx])
    · exact fun x hx => hat x (by simp [hx])

/-- a mesh on which the interpolations are meant to run: distinct ids, cells with at least one vertex, all of
them vertices of the mesh -/
structure MeshOk (g : Mesh K) : Prop where
  cells : (g.cells.map Prod.fst).Nodup
  verts : g.vertices.Nodup
  nonempty : ∀ c ∈ g.cells, c.2 ≠ []
  known : ∀ c ∈ g.cells, ∀ v ∈ c.2, v ∈ g.vertices

theorem get_map_cells {β : Type} (cs : List (Nat × β)) (F : Nat × β → K) (hn : (cs.map Prod.fst).Nodup)
    {c : Nat × β} (hc : c ∈ cs) : get (cs.map (fun c => (c.1, F c))) c.1 = some (F c) := by
  induction cs with
  | nil => cases hc
  | cons a cs ih =>
    simp only [map_cons, nodup_cons] at hn
    rw [map_cons, Verif.Field.get_cons]
    rcases mem_cons.1 hc with rfl | h
    · simp
    · have : ¬ a.1 = c.1 := by
        intro h'; exact hn.1 (by rw [h']; exact mem_map.2 ⟨c, h, rfl⟩)
      rw [if_neg this]
      exact ih hn.2 h

/-- C29, points to cells: every cell gets a value, no other id does, and it is the average of the values of
its vertices weighted with the inverse powers of the distances. -/
theorem C29_points_to_cells_exact (pw : K → K) (g : Mesh K) (hg : MeshOk g) (f : Nat → K) (at_ : Nat → Option K)
    (hat : ∀ c ∈ g.cells, ∀ v ∈ c.2, at_ v = some (f v)) :
    ∃ out, pointToCell pw g at_ g.cells [] = some out ∧ out.map Prod.fst = g.cells.map Prod.fst ∧
      ∀ c ∈ g.cells, get out c.1 = some (wavg (c.2.map (fun v => (f v, 1 / pw (g.dist c.1 v))))) := by
  refine ⟨_, pointToCell_spec pw g f at_ g.cells [] hg.cells (by simp [has]) hg.nonempty hat, by simp, ?_⟩
  intro c hc
  rw [nil_append]
  exact get_map_cells g.cells _ hg.cells hc

section order
variable [LinearOrder K] [IsStrictOrderedRing K]

/-- C29, points to cells: the value of a cell lies between the bounds of the values of its vertices. -/
theorem C29_points_to_cells_bounds (pw : K → K) (hpw : ∀ x, 0 < x → 0 < pw x) (g : Mesh K) (hg : MeshOk g)
    (f : Nat → K) (at_ : Nat → Option K) (hat : ∀ c ∈ g.cells, ∀ v ∈ c.2, at_ v = some (f v))
    (hd : ∀ c ∈ g.cells, ∀ v ∈ c.2, 0 < g.dist c.1 v) :
    ∃ out, pointToCell pw g at_ g.cells [] = some out ∧
      ∀ c ∈ g.cells, ∃ y, get out c.1 = some y ∧
        (∀ m, (∀ v ∈ c.2, m ≤ f v) → m ≤ y) ∧ (∀ M, (∀ v ∈ c.2, f v ≤ M) → y ≤ M) := by
  obtain ⟨out, h1, -, h2⟩ := C29_points_to_cells_exact pw g hg f at_ hat
  refine ⟨out, h1, fun c hc => ⟨_, h2 c hc, ?_, ?_⟩⟩
  · intro m hm
    have hw : ∀ e ∈ c.2.map (fun v => (f v, 1 / pw (g.dist c.1 v))), 0 < e.2 := by
      intro e he
      obtain ⟨v, hv, rfl⟩ := mem_map.1 he
      exact one_div_pos.2 (hpw _ (hd c hc v hv))
    have hl : c.2.map (fun v => (f v, 1 / pw (g.dist c.1 v))) ≠ [] := by simpa using hg.nonempty c hc
    have ht := wtot_pos hl hw
    unfold wavg
    rw [le_div_iff₀ ht]
    have key : ∀ l : List Nat, (∀ v ∈ l, v ∈ c.2) →
        m * wtot (l.map (fun v => (f v, 1 / pw (g.dist c.1 v)))) ≤ wsum (l.map (fun v => (f v, 1 / pw (g.dist c.1 v)))) := by
      intro l
      induction l with
      | nil => intro _; simp [wsum, wtot]
      | cons v l ih =>
        intro hs
        have i := ih (fun x hx => hs x (by simp [hx]))
        simp only [wsum, wtot, map_cons, sum_cons] at i ⊢
        have a1 := mul_le_mul_of_nonneg_right (hm v (hs v (by simp)))
          (one_div_pos.2 (hpw _ (hd c hc v (hs v (by simp))))).le
        nlinarith
    exact key c.2 (fun _ h => h)
  · intro M hM
    have hw : ∀ e ∈ c.2.map (fun v => (f v, 1 / pw (g.dist c.1 v))), 0 < e.2 := by
      intro e he
      obtain ⟨v, hv, rfl⟩ := mem_map.1 he
      exact one_div_pos.2 (hpw _ (hd c hc v hv))
    have hl : c.2.map (fun v => (f v, 1 / pw (g.dist c.1 v))) ≠ [] := by simpa using hg.nonempty c hc
    have ht := wtot_pos hl hw
    unfold wavg
    rw [div_le_iff₀ ht]
    have key : ∀ l : List Nat, (∀ v ∈ l, v ∈ c.2) →
        wsum (l.map (fun v => (f v, 1 / pw (g.dist c.1 v)))) ≤ M * wtot (l.map (fun v => (f v, 1 / pw (g.dist c.1 v)))) := by
      intro l
      induction l with
      | nil => intro _; simp [wsum, wtot]
      | cons v l ih =>
        intro hs
        have i := ih (fun x hx => hs x (by simp [hx]))
        simp only [wsum, wtot, map_cons, sum_cons] at i ⊢
        have a1 := mul_le_mul_of_nonneg_right (hM v (hs v (by simp)))
          (one_div_pos.2 (hpw _ (hd c hc v (hs v (by simp))))).le
        nlinarith
    exact key c.2 (fun _ h => h)

end order

/-! ### Cells to points -/

/-- the (value, weight) pairs that reach a vertex -/
def contribs (w : Nat → Nat → K) (at_ : Nat → Option K) (cs : List (Nat × List Nat)) (v : Nat) : List (K × K) :=
  cs.flatMap (fun c => match at_ c.1 with
    | none => []
    | some x => (c.2.filter (· == v)).map (fun v => (x, w c.1 v)))

/-- accumulated state on vertex `v` for a list of contributions -/
def Acc (st : Data K × Data K) (C : Nat → List (K × K)) : Prop :=
  ∀ v, (C v = [] → get st.1 v = none ∧ get st.2 v = none) ∧
    (C v ≠ [] → get st.1 v = some (wsum (C v)) ∧ get st.2 v = some (wtot (C v)))

theorem wsum_snoc (l : List (K × K)) (e : K × K) : wsum (l ++ [e]) = wsum l + e.1 * e.2 := by
  simp [wsum]

theorem wtot_snoc (l : List (K × K)) (e : K × K) : wtot (l ++ [e]) = wtot l + e.2 := by
  simp [wtot]

theorem addPoint_spec {st : Data K × Data K} {C : Nat → List (K × K)} (h : Acc st C) (v : Nat) (x w : K) :
    ∃ st', addPoint st.1 st.2 v (x * w) w = some st' ∧
      Acc st' (fun u => if u = v then C u ++ [(x, w)] else C u) := by
  unfold addPoint
  by_cases hc : C v = []
  · obtain ⟨h1, h2⟩ := (h v).1 hc
    have hb1 : has st.1 v = false := by rw [has_eq_isSome, h1]; rfl
    have hb2 : has st.2 v = false := by rw [has_eq_isSome, h2]; rfl
    refine ⟨(st.1 ++ [(v, x * w)], st.2 ++ [(v, w)]), by simp [ins, hb1, hb2], ?_⟩
    intro u
    by_cases hu : u = v
    · subst hu
      simp [get_append, get_single, h1, h2, hc, wsum, wtot]
    · have : ¬ v = u := Ne.symm hu
      have hu' := h u
      simp only [get_append, get_single, if_neg this, if_neg hu, Option.or_none]
      exact hu'
  · obtain ⟨h1, h2⟩ := (h v).2 hc
    have hb1 : has st.1 v = true := by rw [has_eq_isSome, h1]; rfl
    refine ⟨(setAt st.1 v (wsum (C v) + x * w), setAt st.2 v (wtot (C v) + w)), by simp [hb1, h1, h2], ?_⟩
    intro u
    by_cases hu : u = v
    · subst hu
      simp [get_setAt, h1, h2, wsum_snoc, wtot_snoc]
    · have hu' := h u
      simp only [get_setAt, if_neg hu]
      exact hu'

theorem scatterVerts_spec (x : K) (w : Nat → K) : ∀ (vs : List Nat) (st : Data K × Data K) (C : Nat → List (K × K)),
    Acc st C → ∃ st', scatterVerts x w vs st = some st' ∧
      Acc st' (fun u => C u ++ (vs.filter (· == u)).map (fun v => (x, w v))) := by
  intro vs
  induction vs with
  | nil => intro st C h; exact ⟨st, rfl, by simpa using h⟩
  | cons v vs ih =>
    intro st C h
    obtain ⟨st1, e1, h1⟩ := addPoint_spec h v x (w v)
    obtain ⟨st2, e2, h2⟩ := ih st1 _ h1
    refine ⟨st2, by simp [scatterVerts, e1, e2], ?_⟩
    have : (fun u => (if u = v then C u ++ [(x, w v)] else C u) ++ (vs.filter (· == u)).map (fun v => (x, w v))) =
        fun u => C u ++ ((v :: vs).filter (· == u)).map (fun v => (x, w v)) := by
      funext u
      by_cases hu : u = v
      · subst hu; simp
      · have : ¬ v = u := Ne.symm hu
        simp [hu, this]
    rw [← this]
    exact h2

theorem scatterCells_spec (pw : K → K) (g : Mesh K) (at_ : Nat → Option K) :
    ∀ (cs : List (Nat × List Nat)) (st : Data K × Data K) (C : Nat → List (K × K)), Acc st C →
    ∃ st', scatterCells pw g at_ cs st = some st' ∧
      Acc st' (fun u => C u ++ contribs (fun c v => 1 / pw (g.dist c v)) at_ cs u) := by
  intro cs
  induction cs with
  | nil => intro st C h; exact ⟨st, rfl, by simpa [contribs] using h⟩
  | cons c cs ih =>
    intro st C h
    cases ha : at_ c.1 with
    | none =>
      obtain ⟨st', e, h'⟩ := ih st C h
      refine ⟨st', by simp [scatterCells, ha, e], ?_⟩
      simpa [contribs, ha] using h'
    | some x =>
      obtain ⟨st1, e1, h1⟩ := scatterVerts_spec x (fun v => 1 / pw (g.dist c.1 v)) c.2 st C h
      obtain ⟨st2, e2, h2⟩ := ih st1 _ h1
      refine ⟨st2, by simp only [scatterCells, ha, e1, Option.bind_some, e2], ?_⟩
      simpa only [contribs, flatMap_cons, ha, append_assoc] using h2

theorem divideAll_spec : ∀ (vs : List Nat) (st : Data K × Data K) (val tot : Nat → Option K),
    vs.Nodup → (∀ u, get st.1 u = val u) → (∀ u, get st.2 u = tot u) → (∀ u, (val u).isSome = (tot u).isSome) →
    ∃ out, divideAll vs st = some out ∧
      ∀ u, get out u = if u ∈ vs then (val u).bind (fun d => (tot u).map (fun s => d / s)) else val u := by
  intro vs
  induction vs with
  | nil => intro st val tot _ h1 _ _; exact ⟨st.1, rfl, by simpa using h1⟩
  | cons v vs ih =>
    intro st val tot hn h1 h2 h3
    simp only [nodup_cons] at hn
    cases hv : val v with
    | none =>
      have hb : has st.1 v = false := by rw [has_eq_isSome, h1, hv]; rfl
      obtain ⟨out, e, ho⟩ := ih st val tot hn.2 h1 h2 h3
      refine ⟨out, by simp [divideAll, hb, e], ?_⟩
      intro u
      rw [ho u]
      by_cases hu : u = v
      · subst hu; simp [hv]
      · simp [hu]
    | some d =>
      have hs : (tot v).isSome = true := by rw [← h3 v, hv]; rfl
      obtain ⟨s, hs⟩ := Option.isSome_iff_exists.1 hs
      have hb : has st.1 v = true := by rw [has_eq_isSome, h1, hv]; rfl
      obtain ⟨out, e, ho⟩ := ih (setAt st.1 v (d / s), st.2) (fun u => if u = v then some (d / s) else val u) tot hn.2
        (by intro u; simp only [get_setAt, h1]; by_cases hu : u = v <;> simp [hu, hv])
        h2 (by
          intro u
          by_cases hu : u = v
          · subst hu; simp [hs]
          · simpa [hu] using h3 u)
      refine ⟨out, by simp [divideAll, hb, h1, h2, hv, hs, e], ?_⟩
      intro u
      rw [ho u]
      by_cases hu : u = v
      · subst hu; simp [hn.1, hv, hs]
      · simp [hu]

theorem contribs_known {w : Nat → Nat → K} {at_ : Nat → Option K} {cs : List (Nat × List Nat)} {v : Nat}
    (h : contribs w at_ cs v ≠ []) : ∃ c ∈ cs, v ∈ c.2 := by
  induction cs with
  | nil => exact absurd rfl h
  | cons c cs ih =>
    by_cases hv : v ∈ c.2
    · exact ⟨c, by simp, hv⟩
    · have hf : c.2.filter (· == v) = [] := by
        rw [filter_eq_nil_iff]; intro a ha; simp; rintro rfl; exact hv ha
      have : contribs w at_ (c :: cs) v = contribs w at_ cs v := by
        unfold contribs
        rw [flatMap_cons]
        cases at_ c.1 <;> simp [hf]
      rw [this] at h
      obtain ⟨c', h1, h2⟩ := ih h
      exact ⟨c', by simp [h1], h2⟩

/-- C29, cells to points: a vertex gets a value exactly when some cell with data contains it, and the value is
the weighted average of the data of those cells. -/
theorem C29_cells_to_points_exact (pw : K → K) (g : Mesh K) (hg : MeshOk g) (at_ : Nat → Option K) :
    ∃ out, cellToPoint pw g at_ = some out ∧
      ∀ v, get out v =
        if contribs (fun c v => 1 / pw (g.dist c v)) at_ g.cells v = [] then none
        else some (wavg (contribs (fun c v => 1 / pw (g.dist c v)) at_ g.cells v)) := by
  obtain ⟨st, e, h⟩ := scatterCells_spec pw g at_ g.cells ([], []) (fun _ => []) (by
    intro v; simp [Verif.Field.get])
  simp only [nil_append] at h
  obtain ⟨out, e2, ho⟩ := divideAll_spec g.vertices st (get st.1) (get st.2) hg.verts (fun _ => rfl) (fun _ => rfl) (by
    intro u
    by_cases hc : contribs (fun c v => 1 / pw (g.dist c v)) at_ g.cells u = []
    · obtain ⟨a, b⟩ := (h u).1 hc; simp [a, b]
    · obtain ⟨a, b⟩ := (h u).2 hc; simp [a, b])
  refine ⟨out, by simp [cellToPoint, e, e2], ?_⟩
  intro v
  rw [ho v]
  by_cases hc : contribs (fun c v => 1 / pw (g.dist c v)) at_ g.cells v = []
  · obtain ⟨a, b⟩ := (h v).1 hc
    rw [if_pos hc, a]; simp
  · obtain ⟨a, b⟩ := (h v).2 hc
    obtain ⟨c, h1, h2⟩ := contribs_known hc
    rw [if_pos (hg.known c h1 v h2), if_neg hc]
    simp [a, b, wavg]

theorem mem_contribs {w : Nat → Nat → K} {at_ : Nat → Option K} {cs : List (Nat × List Nat)} {v : Nat} {e : K × K} :
    e ∈ contribs w at_ cs v ↔ ∃ c ∈ cs, v ∈ c.2 ∧ ∃ x, at_ c.1 = some x ∧ e = (x, w c.1 v) := by
  unfold contribs
  rw [mem_flatMap]
  constructor
  · rintro ⟨c, hc, h⟩
    cases ha : at_ c.1 with
    | none => simp [ha] at h
    | some x =>
      simp only [ha, mem_map, mem_filter, beq_iff_eq] at h
      obtain ⟨u, ⟨hu, rfl⟩, rfl⟩ := h
      exact ⟨c, hc, hu, x, ha, rfl⟩
  · rintro ⟨c, hc, hv, x, ha, rfl⟩
    refine ⟨c, hc, ?_⟩
    simp only [ha, mem_map, mem_filter, beq_iff_eq]
    exact ⟨v, ⟨hv, rfl⟩, rfl⟩

section order
variable [LinearOrder K] [IsStrictOrderedRing K]

/-- C29, cells to points: a vertex has a value exactly when some cell with data contains it, and then it lies
between the bounds of the data of these cells. -/
theorem C29_cells_to_points_bounds (pw : K → K) (hpw : ∀ x, 0 < x → 0 < pw x) (g : Mesh K) (hg : MeshOk g)
    (at_ : Nat → Option K) (hd : ∀ c ∈ g.cells, ∀ v ∈ c.2, 0 < g.dist c.1 v) :
    ∃ out, cellToPoint pw g at_ = some out ∧
      ∀ v, ((get out v).isSome ↔ ∃ c ∈ g.cells, v ∈ c.2 ∧ (at_ c.1).isSome) ∧
        ∀ y, get out v = some y → ∀ m M,
          (∀ c ∈ g.cells, v ∈ c.2 → ∀ x, at_ c.1 = some x → m ≤ x ∧ x ≤ M) → m ≤ y ∧ y ≤ M := by
  obtain ⟨out, h1, h2⟩ := C29_cells_to_points_exact pw g hg at_
  refine ⟨out, h1, fun v => ⟨?_, ?_⟩⟩
  · rw [h2 v]
    by_cases hc : contribs (fun c v => 1 / pw (g.dist c v)) at_ g.cells v = []
    · rw [if_pos hc]
      simp only [Option.isSome_none, Bool.false_eq_true, false_iff]
      rintro ⟨c, hcm, hv, hs⟩
      obtain ⟨x, hx⟩ := Option.isSome_iff_exists.1 hs
      have := (mem_contribs (w := fun c v => 1 / pw (g.dist c v))).2 ⟨c, hcm, hv, x, hx, rfl⟩
      rw [hc] at this
      cases this
    · rw [if_neg hc]
      simp only [Option.isSome_some, true_iff]
      obtain ⟨e, he⟩ := exists_mem_of_ne_nil _ hc
      obtain ⟨c, hcm, hv, x, hx, -⟩ := mem_contribs.1 he
      exact ⟨c, hcm, hv, by simp [hx]⟩
  · intro y hy m M hb
    rw [h2 v] at hy
    by_cases hc : contribs (fun c v => 1 / pw (g.dist c v)) at_ g.cells v = []
    · rw [if_pos hc] at hy; cases hy
    · rw [if_neg hc] at hy
      obtain rfl := Option.some.inj hy
      refine wavg_bounds hc ?_ m M ?_
      · intro e he
        obtain ⟨c, hcm, hv, x, hx, rfl⟩ := mem_contribs.1 he
        exact one_div_pos.2 (hpw _ (hd c hcm v hv))
      · intro e he
        obtain ⟨c, hcm, hv, x, hx, rfl⟩ := mem_contribs.1 he
        exact hb c hcm hv x hx

/-- C29, constants: a constant on the cells gives that constant on all their vertices, and back. -/
theorem C29_constants (pw : K → K) (hpw : ∀ x, 0 < x → 0 < pw x) (g : Mesh K) (hg : MeshOk g) (k : K)
    (hd : ∀ c ∈ g.cells, ∀ v ∈ c.2, 0 < g.dist c.1 v) :
    (∃ out, cellToPoint pw g (fun _ => some k) = some out ∧ ∀ c ∈ g.cells, ∀ v ∈ c.2, get out v = some k) ∧
    (∃ out, pointToCell pw g (fun _ => some k) g.cells [] = some out ∧ ∀ c ∈ g.cells, get out c.1 = some k) := by
  constructor
  · obtain ⟨out, h1, h2⟩ := C29_cells_to_points_bounds pw hpw g hg (fun _ => some k) hd
    refine ⟨out, h1, fun c hc v hv => ?_⟩
    obtain ⟨a, b⟩ := h2 v
    obtain ⟨y, hy⟩ := Option.isSome_iff_exists.1 (a.2 ⟨c, hc, hv, rfl⟩)
    obtain ⟨l, u⟩ := b y hy k k (by intro c' _ _ x hx; simp at hx; subst hx; exact ⟨le_refl _, le_refl _⟩)
    rw [hy, le_antisymm u l]
  · obtain ⟨out, h1, h2⟩ := C29_points_to_cells_bounds pw hpw g hg (fun _ => k) (fun _ => some k)
      (fun _ _ _ _ => rfl) hd
    refine ⟨out, h1, fun c hc => ?_⟩
    obtain ⟨y, hy, l, u⟩ := h2 c hc
    rw [hy, le_antisymm (u k (fun _ _ => le_refl _)) (l k (fun _ _ => le_refl _))]

end order

/-! ### Points to border interfaces -/

theorem ifaceLoop_some (at_ : Nat → Option K) (w : Nat → K) (f : Nat → K) : ∀ (vs : List Nat),
    (∀ v ∈ vs, at_ v = some (f v)) → ∀ d s,
    ifaceLoop at_ w vs (some (d, s)) =
      some (d + wsum (vs.map (fun v => (f v, w v))), s + wtot (vs.map (fun v => (f v, w v)))) := by
  intro vs
  induction vs with
  | nil => intro _ d s; simp [ifaceLoop, wsum, wtot]
  | cons v vs ih =>
    intro h d s
    simp only [ifaceLoop, h v (by simp)]
    rw [ih (fun x hx => h x (by simp [hx]))]
    simp only [wsum, wtot, map_cons, sum_cons]
    congr 2 <;> ring

/-- the interfaces that receive a value: border ones, all of whose vertices have data -/
def wanted (at_ : Nat → Option K) (i : Iface) : Bool := i.border && i.verts.all (fun v => (at_ v).isSome)

/-- C29, points to interfaces: exactly the border interfaces all of whose vertices have data get a value, the
weighted average of the values of their vertices. -/
theorem C29_points_to_interfaces (pw : K → K) (dist : Nat → Nat → K) (at_ : Nat → Option K) (f : Nat → K)
    (hf : ∀ v x, at_ v = some x → x = f v) (is : List Iface) (hn : (is.map Iface.id).Nodup) (hne : ∀ i ∈ is, i.verts ≠ []) :
    pointToIface pw dist at_ is [] =
      some ((is.filter (wanted at_)).map (fun i => (i.id, wavg (i.verts.map (fun v => (f v, 1 / pw (dist i.id v))))))) := by
  have key : ∀ (is : List Iface) (out : Data K), (is.map Iface.id).Nodup → (∀ i ∈ is, has out i.id = false) →
      (∀ i ∈ is, i.verts ≠ []) → pointToIface pw dist at_ is out =
      some (out ++ (is.filter (wanted at_)).map (fun i => (i.id, wavg (i.verts.map (fun v => (f v, 1 / pw (dist i.id v))))))) := by
    intro is
    induction is with
    | nil => intro out _ _ _; simp [pointToIface]
    | cons i is ih =>
      intro out hn hno hne
      simp only [map_cons, nodup_cons] at hn
      have skip : wanted at_ i = false → pointToIface pw dist at_ is out = some (out ++ ((i :: is).filter (wanted at_)).map
          (fun i => (i.id, wavg (i.verts.map (fun v => (f v, 1 / pw (dist i.id v))))))) := by
        intro h
        rw [filter_cons_of_neg (by simp [h])]
        exact ih out hn.2 (fun x hx => hno x (by simp [hx])) (fun x hx => hne x (by simp [hx]))
      simp only [pointToIface]
      by_cases hb : i.border = true
      · rw [if_pos hb]
        by_cases hall : ∀ v ∈ i.verts, (at_ v).isSome = true
        · have hcnt : i.verts.countP (fun v => (at_ v).isSome) = i.verts.length := countP_eq_length.2 hall
          rw [if_pos (by simpa using hcnt)]
          have hat : ∀ v ∈ i.verts, at_ v = some (f v) := by
            intro v hv
            obtain ⟨x, hx⟩ := Option.isSome_iff_exists.1 (hall v hv)
            rw [hx, hf v x hx]
          have hloop : ifaceLoop at_ (fun v => 1 / pw (dist i.id v)) i.verts none =
              some (wsum (i.verts.map (fun v => (f v, 1 / pw (dist i.id v)))), wtot (i.verts.map (fun v => (f v, 1 / pw (dist i.id v))))) := by
            cases hvs : i.verts with
            | nil => exact absurd hvs (hne i (by simp))
            | cons v vs =>
              rw [hvs] at hat
              simp only [ifaceLoop, hat v (by simp)]
              rw [ifaceLoop_some at_ _ f vs (fun x hx => hat x (by simp [hx]))]
              simp [wsum, wtot]
          rw [hloop]
          have hw : wanted at_ i = true := by
            simp only [wanted, hb, Bool.true_and, all_eq_true]; exact hall
          simp only [ins, hno i (by simp), Bool.false_eq_true, if_false, Option.bind_some]
          rw [ih _ hn.2, filter_cons_of_pos hw]
          · simp [wavg]
          · intro x hx
            have hxc : ¬ i.id = x.id := by
              intro h; exact hn.1 (by rw [h]; exact mem_map.2 ⟨x, hx, rfl⟩)
            have := hno x (by simp [hx])
            rw [has_eq_isSome] at this ⊢
            rw [get_append, get_single, if_neg hxc]
            simpa using this
          · exact fun x hx => hne x (by simp [hx])
        · have hcnt : ¬ i.verts.countP (fun v => (at_ v).isSome) = i.verts.length := by
            rw [countP_eq_length]; exact hall
          rw [if_neg (by simpa using hcnt)]
          refine skip ?_
          rw [Bool.eq_false_iff]
          intro h
          simp only [wanted, hb, Bool.true_and, all_eq_true] at h
          exact hall h
      · rw [if_neg hb]
        exact skip (by simp [wanted, hb])
  have := key is [] hn (by simp [has]) hne
  simpa using this

/-! ### C56: the version with gradients -/

section gradient
variable [LinearOrder K]

/-- value of the linear function a + g·x -/
def linear (a : K) (g p : K × K × K) : K := a + (g.1 * p.1 + g.2.1 * p.2.1 + g.2.2 * p.2.2)

theorem addPointG_false (pd sw : Data K) (v : Nat) (x w : K) : addPointG false pd sw v (x * w) w = addPoint pd sw v (x * w) w := by
  unfold addPointG addPoint
  split
  · rfl
  · simp

/-- accumulation for values depending on cell and vertex -/
def contribsG (val : Nat × List Nat → Nat → Option K) (w : Nat → K) (cs : List (Nat × List Nat)) (v : Nat) : List (K × K) :=
  cs.flatMap (fun c => match val c v with
    | none => []
    | some x => (c.2.filter (· == v)).map (fun _ => (x, w c.1)))

theorem scatterVertsG_spec (val : Nat → K) (w : K) : ∀ (vs : List Nat) (st : Data K × Data K) (C : Nat → List (K × K)),
    Acc st C → ∃ st', scatterVertsG false val w vs st = some st' ∧
      Acc st' (fun u => C u ++ (vs.filter (· == u)).map (fun _ => (val u, w))) := by
  intro vs
  induction vs with
  | nil => intro st C h; exact ⟨st, rfl, by simpa using h⟩
  | cons v vs ih =>
    intro st C h
    obtain ⟨st1, e1, h1⟩ := addPoint_spec h v (val v) w
    obtain ⟨st2, e2, h2⟩ := ih st1 _ h1
    refine ⟨st2, by simp only [scatterVertsG, addPointG_false, e1, Option.bind_some, e2], ?_⟩
    have : (fun u => (if u = v then C u ++ [(val v, w)] else C u) ++ (vs.filter (· == u)).map (fun _ => (val u, w))) =
        fun u => C u ++ ((v :: vs).filter (· == u)).map (fun _ => (val u, w)) := by
      funext u
      by_cases hu : u = v
      · subst hu; simp
      · have : ¬ v = u := Ne.symm hu
        simp [hu, this]
    rw [← this]
    exact h2

/-- specification: what a cell sends to a vertex, value · (1 + gradient · offset) -/
def sent (g : GMesh K) (at_ : Nat → Option K) (grad : Nat → Option (K × K × K)) (c : Nat × List Nat) (v : Nat) : Option K :=
  (at_ c.1).bind (fun x => (grad c.1).map (fun gr => x * (1 + (gr.1 * ((g.point v).1 - (g.center c.1).1) +
    gr.2.1 * ((g.point v).2.1 - (g.center c.1).2.1) + gr.2.2 * ((g.point v).2.2 - (g.center c.1).2.2)))))

theorem reconstruct_eq (x : K) (gr p c : K × K × K) : reconstruct x gr p c =
    x * (1 + (gr.1 * (p.1 - c.1) + gr.2.1 * (p.2.1 - c.2.1) + gr.2.2 * (p.2.2 - c.2.2))) := by
  unfold reconstruct
  ring

theorem scatterCellsG_spec (pw : K → K) (g : GMesh K) (at_ : Nat → Option K) (grad : Nat → Option (K × K × K)) :
    ∀ (cs : List (Nat × List Nat)) (st : Data K × Data K) (C : Nat → List (K × K)),
    (∀ c ∈ cs, (at_ c.1).isSome → (grad c.1).isSome) → Acc st C →
    ∃ st', scatterCellsG false pw g at_ grad cs st = some st' ∧
      Acc st' (fun u => C u ++ contribsG (sent g at_ grad) (fun c => 1 / pw (g.volume c)) cs u) := by
  intro cs
  induction cs with
  | nil => intro st C _ h; exact ⟨st, rfl, by simpa [contribsG] using h⟩
  | cons c cs ih =>
    intro st C hgr h
    have hgr' := fun c' (hc : c' ∈ cs) => hgr c' (by simp [hc])
    cases ha : at_ c.1 with
    | none =>
      obtain ⟨st', e, h'⟩ := ih st C hgr' h
      refine ⟨st', by simp [scatterCellsG, ha, e], ?_⟩
      simpa [contribsG, sent, ha] using h'
    | some x =>
      obtain ⟨gr, hgrc⟩ := Option.isSome_iff_exists.1 (hgr c (by simp) (by simp [ha]))
      obtain ⟨st1, e1, h1⟩ := scatterVertsG_spec (fun v => reconstruct x gr (g.point v) (g.center c.1))
        (1 / pw (g.volume c.1)) c.2 st C h
      obtain ⟨st2, e2, h2⟩ := ih st1 _ hgr' h1
      refine ⟨st2, ?_, ?_⟩
      · cases hc2 : c.2 with
        | nil =>
          rw [hc2] at e1
          have : st = st1 := by simpa [scatterVertsG] using e1
          subst this
          simp only [scatterCellsG, ha, hc2, e2]
        | cons v vs =>
          rw [hc2] at e1
          simp only [scatterCellsG, ha, hc2, hgrc, e1, Option.bind_some, e2]
      · simpa only [contribsG, sent, flatMap_cons, ha, hgrc, Option.bind_some, Option.map_some, append_assoc,
          reconstruct_eq] using h2

/-- state of the maximum mode: the value kept at each vertex is the largest in absolute value among those sent -/
def MaxAcc (st : Data K × Data K) (C : Nat → List K) : Prop :=
  ∀ v, (C v = [] → get st.1 v = none ∧ get st.2 v = none) ∧
    (C v ≠ [] → (∃ y, get st.1 v = some y ∧ y ∈ C v ∧ ∀ z ∈ C v, |z| ≤ |y|) ∧ (get st.2 v).isSome)

theorem addPointG_max {st : Data K × Data K} {C : Nat → List K} (h : MaxAcc st C) (v : Nat) (x w : K) :
    ∃ st', addPointG true st.1 st.2 v x w = some st' ∧ MaxAcc st' (fun u => if u = v then C u ++ [x] else C u) := by
  unfold addPointG
  by_cases hc : C v = []
  · obtain ⟨a, b⟩ := (h v).1 hc
    have ha : has st.1 v = false := by rw [has_eq_isSome, a]; rfl
    have hb : has st.2 v = false := by rw [has_eq_isSome, b]; rfl
    refine ⟨(st.1 ++ [(v, x)], st.2 ++ [(v, w)]), by simp [ins, ha, hb], ?_⟩
    intro u
    simp only [get_append, get_single]
    by_cases hu : u = v
    · subst hu
      simp [hc, a, b]
    · have hu' : ¬ v = u := Ne.symm hu
      simpa [hu, hu'] using h u
  · obtain ⟨⟨y, hy, hyC, hmax⟩, hs⟩ := (h v).2 hc
    obtain ⟨s, hs⟩ := Option.isSome_iff_exists.1 hs
    have ha : has st.1 v = true := by rw [has_eq_isSome, hy]; rfl
    simp only [ha, Bool.not_true, Bool.false_eq_true, if_false, hy, hs, if_true]
    by_cases hxy : |x| > |y|
    · rw [if_pos hxy]
      refine ⟨_, rfl, ?_⟩
      intro u
      by_cases hu : u = v
      · subst hu
        refine ⟨by simp, fun _ => ⟨⟨x, ?_, by simp, ?_⟩, by rw [hs]; rfl⟩⟩
        · rw [get_setAt, if_pos rfl, hy]; rfl
        · intro z hz
          simp only [if_true, mem_append] at hz
          rcases hz with hz | hz
          · exact (hmax z hz).trans hxy.le
          · rw [mem_singleton.1 hz]
      · simp only [if_neg hu, get_setAt]
        exact h u
    · rw [if_neg hxy]
      refine ⟨_, rfl, ?_⟩
      intro u
      by_cases hu : u = v
      · subst hu
        refine ⟨by simp, fun _ => ⟨⟨y, hy, by simp [hyC], ?_⟩, by rw [hs]; rfl⟩⟩
        intro z hz
        simp only [if_true, mem_append] at hz
        rcases hz with hz | hz
        · exact hmax z hz
        · rw [mem_singleton.1 hz]; exact not_lt.1 hxy
      · simp only [if_neg hu]
        exact h u

theorem scatterVertsG_max (val : Nat → K) (w : K) : ∀ (vs : List Nat) (st : Data K × Data K) (C : Nat → List K),
    MaxAcc st C → ∃ st', scatterVertsG true val w vs st = some st' ∧
      MaxAcc st' (fun u => C u ++ (vs.filter (· == u)).map (fun _ => val u * w)) := by
  intro vs
  induction vs with
  | nil => intro st C h; exact ⟨st, rfl, by simpa using h⟩
  | cons v vs ih =>
    intro st C h
    obtain ⟨st1, e1, h1⟩ := addPointG_max h v (val v * w) w
    obtain ⟨st2, e2, h2⟩ := ih st1 _ h1
    refine ⟨st2, by simp only [scatterVertsG, e1, Option.bind_some, e2], ?_⟩
    have : (fun u => (if u = v then C u ++ [val v * w] else C u) ++ (vs.filter (· == u)).map (fun _ => val u * w)) =
        fun u => C u ++ ((v :: vs).filter (· == u)).map (fun _ => val u * w) := by
      funext u
      by_cases hu : u = v
      · subst hu; simp
      · have : ¬ v = u := Ne.symm hu
        simp [hu, this]
    rw [← this]
    exact h2

theorem scatterCellsG_max (pw : K → K) (g : GMesh K) (at_ : Nat → Option K) (grad : Nat → Option (K × K × K)) :
    ∀ (cs : List (Nat × List Nat)) (st : Data K × Data K) (C : Nat → List K),
    (∀ c ∈ cs, (at_ c.1).isSome → (grad c.1).isSome) → MaxAcc st C →
    ∃ st', scatterCellsG true pw g at_ grad cs st = some st' ∧
      MaxAcc st' (fun u => C u ++ (contribsG (sent g at_ grad) (fun c => 1 / pw (g.volume c)) cs u).map (fun e => e.1 * e.2)) := by
  intro cs
  induction cs with
  | nil => intro st C _ h; exact ⟨st, rfl, by simpa [contribsG] using h⟩
  | cons c cs ih =>
    intro st C hgr h
    have hgr' : ∀ c ∈ cs, (at_ c.1).isSome → (grad c.1).isSome := fun x hx => hgr x (by simp [hx])
    cases ha : at_ c.1 with
    | none =>
      obtain ⟨st', e, h'⟩ := ih st C hgr' h
      refine ⟨st', by simp only [scatterCellsG, ha, e], ?_⟩
      simpa only [contribsG, sent, flatMap_cons, ha, Option.bind_none, nil_append] using h'
    | some x =>
      obtain ⟨gr, hgrc⟩ := Option.isSome_iff_exists.1 (hgr c (by simp) (by rw [ha]; rfl))
      obtain ⟨st1, e1, h1⟩ := scatterVertsG_max (fun v => reconstruct x gr (g.point v) (g.center c.1))
        (1 / pw (g.volume c.1)) c.2 st C h
      obtain ⟨st2, e2, h2⟩ := ih st1 _ hgr' h1
      refine ⟨st2, ?_, ?_⟩
      · cases hc2 : c.2 with
        | nil =>
          rw [hc2] at e1
          have : st = st1 := by simpa [scatterVertsG] using e1
          subst this
          simp only [scatterCellsG, ha, hc2, e2]
        | cons v vs =>
          rw [hc2] at e1
          simp only [scatterCellsG, ha, hc2, hgrc, e1, Option.bind_some, e2]
      · simpa only [contribsG, sent, flatMap_cons, ha, hgrc, Option.bind_some, Option.map_some, append_assoc,
          map_append, map_map, Function.comp_def, reconstruct_eq] using h2

/-- C56, the mode `maximum` (documented as simple averaging, see C56_maximum_average_fails): a vertex gets, among the
reconstructions sent by the cells having it, one of largest absolute value; a vertex reached by no cell gets none. -/
theorem C56_maximum_partial (g : GMesh K) (at_ : Nat → Option K) (grad : Nat → Option (K × K × K))
    (hgr : ∀ c ∈ g.cells, (at_ c.1).isSome → (grad c.1).isSome) :
    ∃ out, cellToPointG true (fun _ => 1) g at_ grad = some out ∧
      ∀ v, ((∀ c ∈ g.cells, v ∈ c.2 → at_ c.1 = none) → get out v = none) ∧
        (∀ c ∈ g.cells, v ∈ c.2 → at_ c.1 ≠ none → ∃ y, get out v = some y ∧
          (∃ c' ∈ g.cells, v ∈ c'.2 ∧ sent g at_ grad c' v = some y) ∧
          ∀ c' ∈ g.cells, v ∈ c'.2 → ∀ z, sent g at_ grad c' v = some z → |z| ≤ |y|) := by
  obtain ⟨st, e, h⟩ := scatterCellsG_max (fun _ => 1) g at_ grad g.cells ([], []) (fun _ => []) hgr (by
    intro v; simp [Verif.Field.get])
  simp only [nil_append] at h
  have hmem : ∀ v y, y ∈ (contribsG (sent g at_ grad) (fun _ => 1 / (1 : K)) g.cells v).map (fun e => e.1 * e.2) ↔
      ∃ c ∈ g.cells, v ∈ c.2 ∧ sent g at_ grad c v = some y := by
    intro v y
    simp only [contribsG, mem_map, mem_flatMap]
    constructor
    · rintro ⟨a, ⟨c, hc, ha⟩, rfl⟩
      cases hs : sent g at_ grad c v with
      | none => simp [hs] at ha
      | some x =>
        simp only [hs, mem_map, mem_filter, beq_iff_eq] at ha
        obtain ⟨u, ⟨hu, rfl⟩, rfl⟩ := ha
        exact ⟨c, hc, hu, by rw [hs]; simp⟩
    · rintro ⟨c, hc, hv, hs⟩
      exact ⟨(y, 1 / 1), ⟨c, hc, by rw [hs]; simp only [mem_map, mem_filter, beq_iff_eq]; exact ⟨v, ⟨hv, by simp⟩, trivial⟩⟩, by simp⟩
  refine ⟨st.1, by simp [cellToPointG, e], ?_⟩
  intro v
  constructor
  · intro hno
    refine ((h v).1 ?_).1
    rw [eq_nil_iff_forall_not_mem]
    intro y hy
    obtain ⟨c, hc, hv, hs⟩ := (hmem v y).1 hy
    simp [sent, hno c hc hv] at hs
  · intro c hc hv hat
    obtain ⟨x, hx⟩ := Option.ne_none_iff_exists'.1 hat
    obtain ⟨gr, hg⟩ := Option.isSome_iff_exists.1 (hgr c hc (by rw [hx]; rfl))
    obtain ⟨⟨y, hy, hyC, hmax⟩, -⟩ := (h v).2 (ne_nil_of_mem ((hmem v _).2 ⟨c, hc, hv, by
      unfold sent; rw [hx, Option.bind_some, hg, Option.map_some]⟩))
    exact ⟨y, hy, (hmem v y).1 hyC, fun c' hc' hv' z hz => hmax z ((hmem v z).2 ⟨c', hc', hv', hz⟩)⟩

/-- C56, partial (full statement: a linear field with its exact gradients is reproduced at the vertices): the
vertex value is the volume-weighted average of the reconstructions of the surrounding cells, where the
reconstruction used is value · (1 + gradient · offset), not value + gradient · offset. -/
theorem C56_gradient_formula_partial (pw : K → K) (g : GMesh K) (hv : g.vertices.Nodup)
    (hk : ∀ c ∈ g.cells, ∀ v ∈ c.2, v ∈ g.vertices)
    (at_ : Nat → Option K) (grad : Nat → Option (K × K × K))
    (hgr : ∀ c ∈ g.cells, (at_ c.1).isSome → (grad c.1).isSome) :
    ∃ out, cellToPointG false pw g at_ grad = some out ∧
      ∀ v, get out v =
        if contribsG (sent g at_ grad) (fun c => 1 / pw (g.volume c)) g.cells v = [] then none
        else some (wavg (contribsG (sent g at_ grad) (fun c => 1 / pw (g.volume c)) g.cells v)) := by
  obtain ⟨st, e, h⟩ := scatterCellsG_spec pw g at_ grad g.cells ([], []) (fun _ => []) hgr (by
    intro v; simp [Verif.Field.get])
  simp only [nil_append] at h
  obtain ⟨out, e2, ho⟩ := divideAll_spec g.vertices st (get st.1) (get st.2) hv (fun _ => rfl) (fun _ => rfl) (by
    intro u
    by_cases hc : contribsG (sent g at_ grad) (fun c => 1 / pw (g.volume c)) g.cells u = []
    · obtain ⟨a, b⟩ := (h u).1 hc; simp [a, b]
    · obtain ⟨a, b⟩ := (h u).2 hc; simp [a, b])
  refine ⟨out, by simp [cellToPointG, e, e2], ?_⟩
  intro v
  rw [ho v]
  by_cases hc : contribsG (sent g at_ grad) (fun c => 1 / pw (g.volume c)) g.cells v = []
  · obtain ⟨a, b⟩ := (h v).1 hc
    rw [if_pos hc, a]; simp
  · obtain ⟨a, b⟩ := (h v).2 hc
    have hin : v ∈ g.vertices := by
      obtain ⟨e', he'⟩ := exists_mem_of_ne_nil _ hc
      unfold contribsG at he'
      obtain ⟨c, hcm, hcv⟩ := mem_flatMap.1 he'
      cases hs : sent g at_ grad c v with
      | none => simp [hs] at hcv
      | some x =>
        simp only [hs, mem_map, mem_filter, beq_iff_eq] at hcv
        obtain ⟨u, ⟨hu, rfl⟩, -⟩ := hcv
        exact hk c hcm u hu
    rw [if_pos hin, if_neg hc]
    simp [a, b, wavg]

end gradient

/-- one cell with centre at the origin and vertices at (1,0,0) and (0,1,0) -/
def demoG : GMesh ℚ := ⟨[(0, [0, 1])], [0, 1], fun _ => 1, fun _ => (0, 0, 0), fun v => if v = 0 then (1, 0, 0) else (0, 1, 0)⟩

/-- C56 is false: on this mesh the linear field 2 + x, with its exact gradient (1,0,0), gives 4 and not 3 at
the vertex (1,0,0). -/
theorem C56_linear_reproduction_fails :
    cellToPointG false (fun x => x * x * x) demoG (fun c => some (linear 2 (1, 0, 0) (demoG.center c)))
      (fun _ => some (1, 0, 0)) = some [(0, 4), (1, 2)] ∧ linear (2 : ℚ) (1, 0, 0) (demoG.point 0) = 3 := by
  constructor
  · norm_num [cellToPointG, demoG, scatterCellsG, scatterVertsG, addPointG, has, Verif.Field.get, ins, setAt,
      divideAll, reconstruct, linear]
  · norm_num [linear, demoG]

/-- two cells around one vertex -/
def demoG2 : GMesh ℚ := ⟨[(0, [0]), (1, [0])], [0], fun _ => 1, fun _ => (0, 0, 0), fun _ => (0, 0, 0)⟩

/-- C56 is false for `maximum`: documented as simple averaging, it returns the largest value (3) instead of the
average (2). -/
theorem C56_maximum_average_fails :
    cellToPointG true (fun _ => 1) demoG2 (fun c => if c = 0 then some 1 else some 3)
      (fun _ => some (0, 0, 0)) = some [(0, 3)] := by
  norm_num [cellToPointG, demoG2, scatterCellsG, scatterVertsG, addPointG, has, Verif.Field.get, ins, setAt,
      divideAll, reconstruct, linear]

example : (∀ c ∈ demoG2.cells, ((fun c => if c = 0 then some 1 else some 3 : Nat → Option ℚ) c.1).isSome →
    ((fun _ => some (0, 0, 0) : Nat → Option (ℚ × ℚ × ℚ)) c.1).isSome) ∧ (1, [0]) ∈ demoG2.cells :=
  ⟨fun _ _ _ => rfl, by decide⟩

example : demoG.vertices.Nodup ∧ (∀ c ∈ demoG.cells, ∀ v ∈ c.2, v ∈ demoG.vertices) := by
  constructor <;> decide

/-! ### Examples -/

/-- two triangles sharing an edge -/
def demoMesh : Mesh ℚ := ⟨[(10, [0, 1, 2]), (11, [1, 2, 3])], [0, 1, 2, 3], fun c v => if c = 10 then 1 + v else 2⟩

example : MeshOk demoMesh ∧ (∀ c ∈ demoMesh.cells, ∀ v ∈ c.2, 0 < demoMesh.dist c.1 v) ∧
    (∀ x : ℚ, 0 < x → 0 < x * x) := by
  refine ⟨⟨by decide, by decide, by decide, by decide⟩, ?_, fun x hx => mul_pos hx hx⟩
  intro c _ v _
  unfold demoMesh
  simp only
  split
  · positivity
  · norm_num

example : cellToPoint (fun x => x) demoMesh (fun c => if c = 10 then some 6 else if c = 11 then some 0 else none)
    = some [(0, 6), (1, 3), (2, 12 / 5), (3, 0)] := by
  norm_num [cellToPoint, demoMesh, scatterCells, scatterVerts, addPoint, has, Verif.Field.get, ins, setAt, divideAll]

example : ((([⟨7, true, [0, 1]⟩, ⟨8, false, [1, 2]⟩] : List Iface)).map Iface.id).Nodup := by decide

end Verif.Interp
