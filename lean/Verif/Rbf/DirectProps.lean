import Verif.Rbf.RunProps
/-
C114 (continued): scalar displacements, superposition, and the inputs for which the execution gives no numbers.
-/
namespace Verif.Rbf
open Verif.Field Verif.Mesh Verif.Shape Verif.Manip
open List hiding get

noncomputable section
open scoped Classical

/-- specification: the radii used when the nodes have the scalar displacements `cs` -/
def radiiOf1 (st : Setting) (n : Nat) (cs : List ℝ) (diag : ℝ) (i : Nat) : ℝ :=
  st.radius (largest n (fun j => |cs.getD j 0|)) diag i

/-- C114, scalar displacements: as C114_vector, with a scalar field as result and no vector field. -/
theorem C114_scalar (ext : Solver) {w : World} (hw : WorldOk w) (diag : Nat → ℝ) {s : Rbf} (hm : s.mode = .none)
    (hf : Ok s.filter.data) {g : Nat} (hg : s.geom = some g) (l : List V3) (cs : List ℝ) (st : Setting)
    (hst : st ≠ .list []) (h0 : 0 ≤ s.factor * diag g)
    (hR : ∀ i, i < l.length → radiiOf1 st l.length cs (diag g) i ≠ 0) :
    ∃ r d, (st.call ((s.setNodes l).setScalar cs)).execute ext w diag = some r ∧ r.getScalar = some d ∧
      r.getDispl = none ∧ r.effective = (range l.length).map (radiiOf1 st l.length cs (diag g)) ∧
      Result w g d (fun id p =>
        if Moves s (diag g) l (radiiOf1 st l.length cs (diag g)) p then
          influence s.kernel p l (radiiOf1 st l.length cs (diag g)) (fun i => cs.getD i 0) * weightOf w g s id
        else 0) := by
  obtain ⟨q1, q2, q3, q4, q5, q6, q7, q8, q9, q10, q11⟩ := call_same st ((s.setNodes l).setScalar cs)
  have hnl : ((s.setNodes l).setScalar cs).nodes.length = l.length := by simp [Rbf.setScalar, Rbf.setNodes]
  obtain ⟨e1, e2⟩ := radii_spec (s := (s.setNodes l).setScalar cs) hm hst (diag g)
    (fun j => |cs.getD j 0|) (by
      intro i hi
      rw [hnl] at hi
      have : ((s.setNodes l).setScalar cs).fit.data = [resizeWith 0 cs l.length] := by
        simp [Rbf.fit, Rbf.setScalar, Rbf.setNodes]
      rw [this]
      simp only [nodeData, map_cons, map_nil, getD_resizeWith _ _ _ hi, normOf, sum_cons, sum_nil, add_zero]
      exact Real.sqrt_mul_self_eq_abs _)
  rw [hnl] at e1 e2
  obtain ⟨r, f, r1, r2, -, -, -, r3⟩ := run_scalar ext hw diag (s := st.call ((s.setNodes l).setScalar cs))
    (by rw [q1]; exact hm) (by rw [q2]; rfl) (by rw [q3]; exact hf) g (l := l) (by rw [q4]; rfl) (by rw [q5]; rfl)
    (by rw [q6]; exact h0) (R := radiiOf1 st l.length cs (diag g)) e1 e2 hR
  have hr2 : r.scalar = true ∧
      r.effective = ((st.call ((s.setNodes l).setScalar cs)).fit.computeRadii (diag g)).effective := by
    rw [r2]
    exact ⟨by simp only [computed_scalar, q2]; rfl, rfl⟩
  refine ⟨r, r.sdispl, ?_, by simp [Rbf.getScalar, hr2.1], by simp [Rbf.getDispl, hr2.1], ?_,
    ⟨r3.geo, r3.loc, r3.ok, ?_⟩⟩
  · unfold Rbf.execute
    rw [q7, q8, show ((s.setNodes l).setScalar cs).geom = some g from hg]
    exact r1
  · rw [hr2.2]
    apply ext_getElem (by simp [e1])
    intro i h1 h2
    have := e2 i (by simpa using h2)
    rw [getD_lt h1] at this
    simp [this, radiiOf1]
  · intro id
    rw [r3.val id]
    congr 1
    funext p
    have hw' : weightOf w g (st.call ((s.setNodes l).setScalar cs)) id = weightOf w g s id := by
      unfold weightOf; rw [q3, q10]; rfl
    have hmv : Moves (st.call ((s.setNodes l).setScalar cs)) (diag g) l (radiiOf1 st l.length cs (diag g)) p ↔
        Moves s (diag g) l (radiiOf1 st l.length cs (diag g)) p := by
      unfold Moves; rw [q6, q9]; rfl
    simp only [hmv, hw', q11]
    rfl

theorem influence_add (k : Kernel) (p : V3) (l : List V3) (R D E : Nat → ℝ) :
    influence k p l R (fun i => D i + E i) = influence k p l R D + influence k p l R E := by
  unfold influence
  generalize l.zipIdx = z
  induction z with
  | nil => simp
  | cons e z ih => simp only [map_cons, sum_cons, ih]; ring

/-- C114: with given radii the displacements of the geometry are additive in those of the nodes. -/
theorem C114_superposition (ext : Solver) {w : World} (hw : WorldOk w) (diag : Nat → ℝ) {s : Rbf} (hm : s.mode = .none)
    (hf : Ok s.filter.data) {g : Nat} (hg : s.geom = some g) (l ds es : List V3) (hlen : ds.length = es.length)
    (st : Setting) (hst : st ≠ .list []) (h0 : 0 ≤ s.factor * diag g) (R : Nat → ℝ)
    (hR : ∀ i m, i < l.length → st.radius m (diag g) i = R i) (hR0 : ∀ i, i < l.length → R i ≠ 0) :
    ∃ r1 r2 r3 d1 d2 d3, (st.call ((s.setNodes l).setDispl ds)).execute ext w diag = some r1 ∧
      (st.call ((s.setNodes l).setDispl es)).execute ext w diag = some r2 ∧
      (st.call ((s.setNodes l).setDispl (zipWith (· + ·) ds es))).execute ext w diag = some r3 ∧
      r1.getDispl = some d1 ∧ r2.getDispl = some d2 ∧ r3.getDispl = some d3 ∧
      ∀ id p, get (w g).verts id = some p → ∃ a b, get d1.data id = some a ∧ get d2.data id = some b ∧
        get d3.data id = some (a + b) := by
  have hr : ∀ x : List V3, ∀ i, i < l.length → radiiOf st l.length x (diag g) i = R i :=
    fun x i hi => hR i _ hi
  obtain ⟨r1, d1, a1, a2, -, -, a3⟩ := C114_vector ext hw diag hm hf hg l ds st hst h0
    (fun i hi => by rw [hr ds i hi]; exact hR0 i hi)
  obtain ⟨r2, d2, b1, b2, -, -, b3⟩ := C114_vector ext hw diag hm hf hg l es st hst h0
    (fun i hi => by rw [hr es i hi]; exact hR0 i hi)
  obtain ⟨r3, d3, c1, c2, -, -, c3⟩ := C114_vector ext hw diag hm hf hg l (zipWith (· + ·) ds es) st hst h0
    (fun i hi => by rw [hr _ i hi]; exact hR0 i hi)
  have hmv : ∀ x p, Moves s (diag g) l (radiiOf st l.length x (diag g)) p ↔ Moves s (diag g) l R p := by
    intro x p
    unfold Moves
    constructor
    · rintro (h | ⟨i, hi, h⟩ | ⟨i, n, hi, h⟩)
      · exact .inl h
      · exact .inr (.inl ⟨i, hi, by rwa [hr x i hi] at h⟩)
      · exact .inr (.inr ⟨i, n, hi, by rwa [hr x i (List.getElem?_eq_some_iff.1 hi).1] at h⟩)
    · rintro (h | ⟨i, hi, h⟩ | ⟨i, n, hi, h⟩)
      · exact .inl h
      · exact .inr (.inl ⟨i, hi, by rwa [hr x i hi]⟩)
      · exact .inr (.inr ⟨i, n, hi, by rwa [hr x i (List.getElem?_eq_some_iff.1 hi).1]⟩)
  have hinf : ∀ x p D, influence s.kernel p l (radiiOf st l.length x (diag g)) D = influence s.kernel p l R D :=
    fun x p D => influence_congr (hr x) (fun _ _ => rfl)
  have hz : ∀ i, (zipWith (· + ·) ds es).getD i zero3 = ds.getD i zero3 + es.getD i zero3 := by
    intro i
    by_cases h : i < ds.length
    · rw [getD_lt (by simp; omega), getD_lt h, getD_lt (by omega)]; simp
    · rw [getD_ge (by simp; omega), getD_ge (by omega), getD_ge (by omega)]
      show zero3 = (⟨0 + 0, 0 + 0, 0 + 0⟩ : V3)
      simp [zero3]
  refine ⟨r1, r2, r3, d1, d2, d3, a1, b1, c1, a2, b2, c2, ?_⟩
  intro id p hp
  refine ⟨_, _, by rw [a3.val id, hp]; rfl, by rw [b3.val id, hp]; rfl, ?_⟩
  rw [c3.val id, hp]
  simp only [Option.map_some, Option.some.injEq, hmv]
  have hadd : ∀ a b : V3, a + b = ⟨a.x + b.x, a.y + b.y, a.z + b.z⟩ := fun _ _ => rfl
  by_cases hM : Moves s (diag g) l R p
  · simp only [hM, if_true, drift, hinf, hz]
    simp only [hadd, influence_add, V3.scale]
    ext <;> simp only [] <;> ring
  · simp only [hM, if_false]
    show zero3 = (⟨0 + 0, 0 + 0, 0 + 0⟩ : V3)
    simp [zero3]

/-- C114, the filter: with a filter set (not empty), every displacement is the one without filter times the value of the
filter at the vertex. -/
theorem C114_filter (ext : Solver) {w : World} (hw : WorldOk w) (diag : Nat → ℝ) {s : Rbf} (hm : s.mode = .none)
    {f : Field Nat ℝ} (hf : Ok f.data) (hne : f.data ≠ []) {g : Nat} (hg : s.geom = some g) (l ds : List V3) (st : Setting)
    (hst : st ≠ .list []) (h0 : 0 ≤ s.factor * diag g) (hR : ∀ i, i < l.length → radiiOf st l.length ds (diag g) i ≠ 0) :
    ∃ r1 r2 d1 d2, (st.call (((s.setFilter (some f)).setNodes l).setDispl ds)).execute ext w diag = some r1 ∧
      (st.call (((s.clearFilter).setNodes l).setDispl ds)).execute ext w diag = some r2 ∧
      r1.getDispl = some d1 ∧ r2.getDispl = some d2 ∧
      ∀ id p, get (w g).verts id = some p → ∃ v, get d2.data id = some v ∧
        get d1.data id = some (V3.scale (weight w g f id) v) := by
  obtain ⟨r1, d1, a1, a2, -, -, a3⟩ := C114_vector ext hw diag (s := s.setFilter (some f)) hm hf hg l ds st hst h0 hR
  obtain ⟨r2, d2, b1, b2, -, -, b3⟩ := C114_vector ext hw diag (s := s.clearFilter) hm (by simp [Rbf.clearFilter, Field.clear, Ok])
    hg l ds st hst h0 hR
  refine ⟨r1, r2, d1, d2, a1, b1, a2, b2, ?_⟩
  intro id p hp
  refine ⟨_, by rw [b3.val id, hp]; rfl, ?_⟩
  rw [a3.val id, hp]
  simp only [Option.map_some, Option.some.injEq]
  have e1 : weightOf w g (s.setFilter (some f)) id = weight w g f id := by
    unfold weightOf; rw [if_pos (by simp [Rbf.setFilter, hne])]; rfl
  have e2 : weightOf w g s.clearFilter id = 1 := rfl
  have e3 : Moves (s.setFilter (some f)) (diag g) l (radiiOf st l.length ds (diag g)) p ↔
      Moves s.clearFilter (diag g) l (radiiOf st l.length ds (diag g)) p := Iff.rfl
  rw [e1, e2]
  by_cases hM : Moves s.clearFilter (diag g) l (radiiOf st l.length ds (diag g)) p
  · rw [if_pos hM, if_pos (e3.2 hM)]
    rw [show (s.setFilter (some f)).kernel = s.kernel from rfl, show s.clearFilter.kernel = s.kernel from rfl]
    ext <;> simp [V3.scale]
  · rw [if_neg hM, if_neg (fun h => hM (e3.1 h))]
    ext <;> simp [V3.scale, zero3]

/-! ### Inputs without a result -/

theorem insertLoop_none {α : Type} (value : V3 → Option α) (vs : Data V3) {id : Nat} {p : V3}
    (hp : get vs id = some p) (hv : value p = none) : ∀ (ids : List Nat) (acc : Data α), id ∈ ids →
    insertLoop value vs ids acc = none
  | i :: ids, acc, h => by
    rw [insertLoop]
    cases hi : get vs i with
    | none => rfl
    | some q =>
      simp only
      cases hq : value q with
      | none => rfl
      | some v =>
        simp only [Option.bind_some]
        cases hins : ins acc i v with
        | none => rfl
        | some acc' =>
          simp only [Option.bind_some]
          rcases mem_cons.1 h with rfl | h
          · rw [hp] at hi; cases hi; rw [hv] at hq; cases hq
          · exact insertLoop_none value vs hp hv ids acc' h

/-- C114 fails: without displacements (mode NONE, support not compact) the execution on a geometry with a vertex reads
three values out of an empty list. -/
theorem C114_no_displacements_fails (ext : Solver) (w : World) (diag : Nat → ℝ) {s : Rbf} (hm : s.mode = .none)
    (hc : s.compact = false) (hd : s.data = []) {g : Nat} (hg : s.geom = some g) (hh : s.rbfGeom = none) {id : Nat}
    {p : V3} (hp : get (w g).verts id = some p) : s.execute ext w diag = none := by
  unfold Rbf.execute
  rw [hg, hh]
  simp only
  have htf : (s.fit.computeRadii (diag g)).solve ext = s.fit.computeRadii (diag g) ∧
      (s.fit.computeRadii (diag g)).compact = false ∧ (s.fit.computeRadii (diag g)).data = [] ∧
      (s.fit.computeRadii (diag g)).mode = .none := by
    unfold Rbf.computeRadii Rbf.fit Rbf.solve
    split <;> simp [hm, hc, hd]
  unfold Rbf.run
  simp only
  rw [htf.1]
  generalize s.fit.computeRadii (diag g) = t at htf
  have htar : id ∈ t.targets (diag g) (w g).verts := by
    unfold Rbf.targets
    rw [if_neg (by simp [htf.2.1])]
    exact mem_ids.2 ⟨p, hp⟩
  have hev : ∀ q, t.eval q = none ∨ t.eval q = some [] := by
    intro q
    unfold Rbf.eval Rbf.activeWeights
    rw [if_pos htf.2.2.2, htf.2.2.1]
    generalize t.nodes = ns
    have : ∀ (ns : List Node) (i : Nat), evalLoop t.kernel q t.effective [] ns i [] = none ∨
        evalLoop t.kernel q t.effective [] ns i [] = some [] := by
      intro ns
      induction ns with
      | nil => intro i; exact .inr rfl
      | cons n ns ih =>
        intro i
        rw [evalLoop]
        by_cases ha : n.2 = true
        · rw [if_pos ha]
          cases t.kernel.eval (norm2 (q - n.1)) (t.effective.getD i 0) with
          | none => exact .inl rfl
          | some b => exact ih (i + 1)
        · rw [if_neg ha]; exact ih (i + 1)
    simpa using this ns 0
  have h1 : ∀ {α : Type} (pick : List ℝ → Option α) (mul : ℝ → α → α) (z : α), pick [] = none →
      finish w t g (diag g) pick mul z = none := by
    intro α pick mul z hpick
    unfold finish
    rw [insertLoop_none _ _ hp _ _ _ htar]
    rcases hev p with h | h
    · rw [h]; rfl
    · rw [h]; exact hpick
  split
  · rw [h1 _ _ _ rfl]; rfl
  · rw [h1 _ _ _ rfl]; rfl

theorem evalLoop_none (k : Kernel) (p : V3) (radii : List ℝ) (weights : List (List ℝ)) :
    ∀ (ns : List Node) (i : Nat) (values : List ℝ) {j : Nat} {n : Node}, ns[j]? = some n → n.2 = true →
      radii.getD (i + j) 0 = 0 → norm2 (p - n.1) = 0 → evalLoop k p radii weights ns i values = none
  | [], i, values, j, n, hj, _, _, _ => by simp at hj
  | m :: ns, i, values, j, n, hj, ha, hr, hn => by
    rw [evalLoop]
    cases j with
    | zero =>
      simp only [getElem?_cons_zero, Option.some.injEq] at hj
      subst hj
      rw [if_pos ha, Kernel.eval, if_pos (by simpa using hr), if_pos hn]
      rfl
    | succ j =>
      have ih := fun v => evalLoop_none k p radii weights ns (i + 1) v (j := j) (n := n) (by simpa using hj) ha
        (by rwa [show i + 1 + j = i + (j + 1) by omega]) hn
      split
      · cases k.eval (norm2 (p - m.1)) (radii.getD i 0) with
        | none => rfl
        | some b => exact ih _
      · exact ih _

theorem largest_zero (n : Nat) : largest n (fun _ => 0) = 0 := by
  unfold largest
  generalize range n = l
  induction l with
  | nil => rfl
  | cons a l ih => rw [foldr_cons, ih]; simp

theorem norm2_self (p : V3) : norm2 (p - p) = 0 := by
  have : p - p = zero3 := by ext <;> simp [HSub.hSub, Sub.sub, zero3]
  rw [this]; simp [norm2, dot, zero3]

/-- C114 fails: nodes with no displacement at all and the support radius left to the default (three times the largest
displacement): a vertex on a node gets 0/0, though it should not move. -/
theorem C114_zero_fails (ext : Solver) (w : World) (diag : Nat → ℝ) {s : Rbf} (hm : s.mode = .none)
    (hc : s.compact = false) {g : Nat} (hg : s.geom = some g) (l : List V3) (r : ℝ) (hr : r < tiny) {id i : Nat} {p : V3}
    (hp : get (w g).verts id = some p) (hi : l[i]? = some p) :
    (((s.setNodes l).setDispl (l.map (fun _ => zero3))).setRadiusReal r).execute ext w diag = none := by
  set a := (s.setNodes l).setDispl (l.map (fun _ => zero3)) with ha
  have hil : i < l.length := (List.getElem?_eq_some_iff.1 hi).1
  have hnl : a.nodes.length = l.length := by simp [ha, Rbf.setDispl, Rbf.setNodes]
  obtain ⟨e1, e2⟩ := radii_spec (s := a) hm (st := .real r) (by simp) (diag g) (fun _ => 0) (by
      intro i hi
      rw [hnl] at hi
      have : a.fit.data = (columns (l.map (fun _ => zero3))).map (fun c => resizeWith 0 c l.length) := by
        simp [ha, Rbf.fit, Rbf.setDispl, Rbf.setNodes]
      rw [this, columns_norm _ _ i hi, getD_lt (by simpa using hi)]
      simp [norm2, dot, zero3])
  rw [hnl] at e1 e2
  have e3 := e2 i hil
  simp only [Setting.radius, if_pos hr, largest_zero, mul_zero, Setting.call] at e3
  unfold Rbf.execute
  rw [show (a.setRadiusReal r).geom = some g from hg, show (a.setRadiusReal r).rbfGeom = none from rfl]
  simp only
  have htf : ((a.setRadiusReal r).fit.computeRadii (diag g)).solve ext = (a.setRadiusReal r).fit.computeRadii (diag g) ∧
      ((a.setRadiusReal r).fit.computeRadii (diag g)).compact = false ∧
      ((a.setRadiusReal r).fit.computeRadii (diag g)).nodes = l.map (fun q => (q, true)) ∧
      ((a.setRadiusReal r).fit.computeRadii (diag g)).scalar = false := by
    simp [ha, Rbf.setRadiusReal, Rbf.setDispl, Rbf.setNodes, Rbf.computeRadii, Rbf.fit, Rbf.solve, hm, hc]
  unfold Rbf.run
  simp only
  rw [htf.1]
  simp only [Setting.call] at e1
  generalize (a.setRadiusReal r).fit.computeRadii (diag g) = t at htf e1 e3
  have htar : id ∈ t.targets (diag g) (w g).verts := by
    unfold Rbf.targets
    rw [if_neg (by simp [htf.2.1])]
    exact mem_ids.2 ⟨p, hp⟩
  have hev : t.eval p = none := by
    unfold Rbf.eval
    rw [htf.2.2.1]
    exact evalLoop_none t.kernel p t.effective t.activeWeights _ 0 _ (j := i) (n := (p, true)) (by simp [hi]) rfl
      (by rw [Nat.zero_add]; exact e3) (norm2_self p)
  rw [htf.2.2.2]
  simp only [Bool.false_eq_true, if_false]
  unfold finish
  rw [insertLoop_none _ _ hp (by rw [hev]; rfl) _ _ htar]
  rfl

/-! ### A case -/

/-- a basis function: 1 - d up to 1, then 0 -/
def hat : Kernel := ⟨fun d => max 0 (1 - d), some 0⟩

/-- a block in direct mode, linked to the geometry of Verif.Manip.FilterProps -/
def demo : Rbf := (Rbf.new .none hat).setGeometry 0

/-- a filter for C114_filter: half the displacement at vertex 4 -/
example : Ok (⟨some 0, defaultName, .point, [(4, 1 / 2)]⟩ : Field Nat ℝ).data ∧
    weight demoWorld 0 (⟨some 0, defaultName, .point, [(4, 1 / 2)]⟩ : Field Nat ℝ) 4 = 1 / 2 := by
  refine ⟨by simp [Ok], ?_⟩
  unfold weight
  rw [if_pos]
  · simp [Field.get]
  · exact ⟨rfl, rfl, by simp [demoWorld, demoObj, Field.get]⟩

example : WorldOk demoWorld ∧ demo.mode = .none ∧ Ok demo.filter.data ∧ demo.geom = some 0 ∧
    Setting.real 2 ≠ .list [] ∧ 0 ≤ demo.factor * (fun _ : Nat => (3 : ℝ)) 0 ∧
    (∀ i, i < [zero3].length → radiiOf (.real 2) [zero3].length [⟨1, 0, 0⟩] 3 i ≠ 0) ∧
    Moves demo 3 [zero3] (radiiOf (.real 2) [zero3].length [⟨1, 0, 0⟩] 3) ⟨1, 0, 0⟩ ∧
    V3.scale (weightOf demoWorld 0 demo 4)
      (drift demo.kernel ⟨1, 0, 0⟩ [zero3] (radiiOf (.real 2) [zero3].length [⟨1, 0, 0⟩] 3)
        (fun i => [(⟨1, 0, 0⟩ : V3)].getD i zero3)) = ⟨1 / 2, 0, 0⟩ := by
  have ht : ¬ (2 : ℝ) < tiny := by
    have : tiny ≤ 1 := by
      unfold tiny
      rw [div_le_one (by positivity)]
      exact one_le_pow₀ (by norm_num)
    linarith
  have hn : norm2 ((⟨1, 0, 0⟩ : V3) - zero3) = 1 := by
    have : (⟨1, 0, 0⟩ : V3) - zero3 = ⟨1, 0, 0⟩ := by ext <;> simp [HSub.hSub, Sub.sub, zero3]
    rw [this]; simp [norm2, dot]
  refine ⟨demoWorld_ok, rfl, by simp [demo, Rbf.setGeometry, Rbf.new, make, Ok], rfl, by simp, ?_, ?_, .inl rfl, ?_⟩
  · simp [demo, Rbf.setGeometry, Rbf.new]
  · intro i _
    simp [radiiOf, Setting.radius, ht]
  · simp only [weightOf, demo, Rbf.setGeometry, Rbf.new, Bool.false_eq_true, if_false, drift, influence, zipIdx_cons,
      zipIdx_nil, map_cons, map_nil, sum_cons, sum_nil, hn, radiiOf, Setting.radius, ht, hat, getD_cons_zero, V3.scale]
    norm_num

example : demo.mode = .none ∧ demo.compact = false ∧ demo.data = [] ∧ demo.geom = some 0 ∧ demo.rbfGeom = none ∧
    get (demoWorld 0).verts 4 = some ⟨1, 0, 0⟩ ∧ [(⟨1, 0, 0⟩ : V3)][0]? = some ⟨1, 0, 0⟩ ∧ (-1 : ℝ) < tiny := by
  refine ⟨rfl, rfl, rfl, rfl, rfl, by simp [demoWorld, demoObj, Field.get], rfl, ?_⟩
  linarith [tiny_pos]

end

end Verif.Rbf
