import Verif.Rbf.DirectProps
/-
C115: compact support.  C116: support radii.
-/
namespace Verif.Rbf
open Verif.Field Verif.Mesh Verif.Shape Verif.Manip
open List hiding get

noncomputable section
open scoped Classical

/-! ### C115 -/

/-- C115 (part): with compact support, and no radius larger than the diagonal of the geometry times the factor, a vertex
farther than its radius from every node does not move.  Missing: larger radii (C115_large_fails). -/
theorem C115_outside_partial (ext : Solver) {w : World} (hw : WorldOk w) (diag : Nat → ℝ) {s : Rbf} (hm : s.mode = .none)
    (hf : Ok s.filter.data) {g : Nat} (hg : s.geom = some g) (hc : s.compact = true) (l ds : List V3) (st : Setting)
    (hst : st ≠ .list []) (h0 : 0 ≤ s.factor * diag g)
    (hR : ∀ i, i < l.length → radiiOf st l.length ds (diag g) i ≠ 0)
    (hS : ∀ i, i < l.length → radiiOf st l.length ds (diag g) i ≤ s.factor * diag g) :
    ∃ r d, (st.call ((s.setNodes l).setDispl ds)).execute ext w diag = some r ∧ r.getDispl = some d ∧
      ∀ id p, get (w g).verts id = some p →
        (∀ i n, l[i]? = some n → radiiOf st l.length ds (diag g) i < norm2 (p - n)) →
        get d.data id = some ⟨0, 0, 0⟩ := by
  obtain ⟨r, d, h1, h2, -, -, h3⟩ := C114_vector ext hw diag hm hf hg l ds st hst h0 hR
  refine ⟨r, d, h1, h2, ?_⟩
  intro id p hp hfar
  rw [h3.val id, hp, Option.map_some, if_neg]
  · rfl
  · rintro (h | ⟨i, hi, h⟩ | ⟨i, n, hi, h⟩)
    · rw [hc] at h; cases h
    · linarith [hS i hi]
    · linarith [hfar i n hi]

theorem influence_zero {k : Kernel} {p : V3} {l : List V3} {R D : Nat → ℝ}
    (h : ∀ i n, l[i]? = some n → k.at_ (norm2 (p - n) / R i) = 0) : influence k p l R D = 0 := by
  unfold influence
  have : ∀ e ∈ l.zipIdx, k.at_ (norm2 (p - e.1) / R e.2) * D e.2 = 0 := by
    intro e he
    obtain ⟨a, i⟩ := e
    rw [mem_zipIdx_iff_getElem?] at he
    rw [h i a he, zero_mul]
  rw [map_congr_left this]
  simp

/-- C115: for a basis function that vanishes beyond the support radius, positive radii, asking for compact support does
not change the displacements. -/
theorem C115_same (ext : Solver) {w : World} (hw : WorldOk w) (diag : Nat → ℝ) {s : Rbf} (hm : s.mode = .none)
    (hf : Ok s.filter.data) {g : Nat} (hg : s.geom = some g) (l ds : List V3) (st : Setting) (hst : st ≠ .list [])
    (h0 : 0 ≤ s.factor * diag g) (hR : ∀ i, i < l.length → 0 < radiiOf st l.length ds (diag g) i)
    (hk : ∀ x, 1 < x → s.kernel.at_ x = 0) :
    ∃ r1 r2 d1 d2, (st.call (((s.setCompact true).setNodes l).setDispl ds)).execute ext w diag = some r1 ∧
      (st.call (((s.setCompact false).setNodes l).setDispl ds)).execute ext w diag = some r2 ∧
      r1.getDispl = some d1 ∧ r2.getDispl = some d2 ∧ ∀ id, get d1.data id = get d2.data id := by
  have hR' : ∀ i, i < l.length → radiiOf st l.length ds (diag g) i ≠ 0 := fun i hi => (hR i hi).ne'
  obtain ⟨r1, d1, a1, a2, -, -, a3⟩ := C114_vector ext hw diag (s := s.setCompact true) hm hf hg l ds st hst h0 hR'
  obtain ⟨r2, d2, b1, b2, -, -, b3⟩ := C114_vector ext hw diag (s := s.setCompact false) hm hf hg l ds st hst h0 hR'
  refine ⟨r1, r2, d1, d2, a1, b1, a2, b2, ?_⟩
  intro id
  rw [a3.val id, b3.val id]
  congr 1
  funext p
  rw [if_pos (show Moves (s.setCompact false) (diag g) l (radiiOf st l.length ds (diag g)) p from .inl rfl)]
  by_cases hM : Moves (s.setCompact true) (diag g) l (radiiOf st l.length ds (diag g)) p
  · rw [if_pos hM]; rfl
  · rw [if_neg hM]
    have hz : ∀ i n, l[i]? = some n → s.kernel.at_ (norm2 (p - n) / radiiOf st l.length ds (diag g) i) = 0 := by
      intro i n hi
      have hil : i < l.length := (List.getElem?_eq_some_iff.1 hi).1
      apply hk
      rw [one_lt_div (hR i hil)]
      by_contra h
      exact hM (.inr (.inr ⟨i, n, hi, not_lt.1 h⟩))
    show zero3 = V3.scale _ (drift s.kernel p l _ _)
    simp only [drift, influence_zero hz, V3.scale, mul_zero, zero3]

/-- C115 fails: one node, compact support, and a radius larger than the diagonal of the geometry times the factor: a
vertex moves wherever the basis function is not zero, however far beyond the radius it is. -/
theorem C115_large_fails (ext : Solver) {w : World} (hw : WorldOk w) (diag : Nat → ℝ) {s : Rbf} (hm : s.mode = .none)
    (hf : Ok s.filter.data) {g : Nat} (hg : s.geom = some g) (n : V3) (x : ℝ) (hx : x ≠ 0) (R : ℝ) (hR : tiny ≤ R)
    (h0 : 0 ≤ s.factor * diag g) (hL : s.factor * diag g < R) :
    ∃ r d, ((((s.setCompact true).setNodes [n]).setDispl [⟨x, 0, 0⟩]).setRadiusReal R).execute ext w diag = some r ∧
      r.compact = true ∧ r.getDispl = some d ∧ ∀ id p, get (w g).verts id = some p → R < norm2 (p - n) →
        weightOf w g s id ≠ 0 → s.kernel.at_ (norm2 (p - n) / R) ≠ 0 → get d.data id ≠ some ⟨0, 0, 0⟩ := by
  have hnt : ¬ R < tiny := not_lt.2 hR
  have hpos : R ≠ 0 := by linarith [tiny_pos]
  have hr : ∀ i, radiiOf (.real R) [n].length [⟨x, 0, 0⟩] (diag g) i = R := by
    intro i; simp only [radiiOf, Setting.radius, if_neg hnt]
  obtain ⟨r, d, h1, h2, -, -, h3⟩ := C114_vector ext hw diag (s := s.setCompact true) hm hf hg [n] [⟨x, 0, 0⟩] (.real R)
    (by simp) h0 (fun i _ => by rw [hr]; exact hpos)
  refine ⟨r, d, h1, ?_, h2, ?_⟩
  · have hc : ∀ (a b : Rbf) , a.execute ext w diag = some b → a.rbfGeom = none → b.compact = a.compact := by
      intro a b hab hn
      unfold Rbf.execute at hab
      rw [hn] at hab
      cases hga : a.geom with
      | none => rw [hga] at hab; cases hab
      | some g' =>
        rw [hga] at hab
        simp only [Rbf.run] at hab
        have hcc : ((a.fit.computeRadii (diag g')).solve ext).compact = a.compact := by
          unfold Rbf.solve
          split
          · unfold Rbf.computeRadii Rbf.fit; split <;> rfl
          · simp only; unfold Rbf.computeRadii Rbf.fit; split <;> rfl
        split at hab <;>
        · simp only [Option.map_eq_some_iff] at hab
          obtain ⟨y, -, rfl⟩ := hab
          exact hcc
    exact hc _ _ h1 rfl
  · intro id p hp hfar hwt hk hcon
    rw [h3.val id, hp, Option.map_some, if_pos] at hcon
    · simp only [Option.some.injEq] at hcon
      have := congrArg V3.x hcon
      simp only [V3.scale, drift, influence, zipIdx_cons, zipIdx_nil, map_cons, map_nil, sum_cons, sum_nil, hr,
        add_zero, getD_cons_zero] at this
      rcases mul_eq_zero.1 this with h | h
      · exact hwt h
      · rcases mul_eq_zero.1 h with h | h
        · exact hk h
        · exact hx h
    · exact .inr (.inl ⟨0, by simp, by rw [hr]; exact hL⟩)

/-! ### C116 -/

/-- C116: the last request counts: whatever was asked for before is forgotten. -/
theorem C116_last (s : Rbf) (st st' : Setting) (h : (s.mode = .none ∧ st ≠ .list []) ∨ ∀ l, st ≠ .list l) :
    st.call (st'.call s) = st.call s := by
  have hm := (call_same st' s).1
  have key : ∀ t : Rbf, ∀ a b c, { (st'.call t) with srValue := a, srReal := b, radii := c } =
      { t with srValue := a, srReal := b, radii := c } := by
    intro t a b c
    cases st' with
    | real r => rfl
    | local_ r => rfl
    | list l => simp only [Setting.call, Rbf.setRadii]; split <;> rfl
  cases st with
  | real r => exact key s _ _ _
  | local_ r => exact key s _ _ _
  | list l =>
    rcases h with ⟨h1, h2⟩ | h
    · have hl : l.isEmpty = false := by
        cases l with
        | nil => exact absurd rfl h2
        | cons => rfl
      have e : ∀ t : Rbf, t.mode = .none → (Setting.list l).call t = { t with radii := l, srValue := -1, srReal := false } := by
        intro t ht
        show Rbf.setRadii t l = _
        unfold Rbf.setRadii
        rw [if_neg]
        rw [hl, ht]
        simp
      rw [e _ (hm.trans h1), e _ h1]
      exact key s _ _ _
    · exact absurd rfl (h l)

/-- C116: a list of radii is ignored if it is empty or if the block interpolates. -/
theorem C116_list_ignored (s : Rbf) (l : List ℝ) (f : Option (Field Nat ℝ)) :
    (l = [] ∨ s.mode ≠ .none → s.setRadii l = s) ∧ (f = none ∨ s.mode ≠ .none → s.setRadiiField f = s) := by
  constructor
  · intro h
    unfold Rbf.setRadii
    rw [if_pos]
    rcases h with rfl | h
    · exact .inl rfl
    · exact .inr h
  · intro h
    unfold Rbf.setRadiiField
    rw [if_pos h]

theorem largest_nonneg (n : Nat) (f : Nat → ℝ) : 0 ≤ largest n f := by
  unfold largest
  generalize range n = l
  induction l with
  | nil => simp
  | cons a l ih => rw [foldr_cons]; exact le_max_of_le_right ih

theorem norm2_nonneg (v : V3) : 0 ≤ norm2 v := Real.sqrt_nonneg _

theorem le_largest (n : Nat) (f : Nat → ℝ) (i : Nat) (hi : i < n) : f i ≤ largest n f := by
  have : ∀ l : List Nat, i ∈ l → f i ≤ l.foldr (fun i m => max (f i) m) 0 := by
    intro l
    induction l with
    | nil => simp
    | cons a l ih =>
      intro h
      rw [foldr_cons]
      rcases mem_cons.1 h with rfl | h
      · exact le_max_left _ _
      · exact le_max_of_le_right (ih h)
  exact this _ (mem_range.2 hi)

/-- C116 (part): no radius is negative, if those of a list are not.  Missing: negative ones in a list
(C116_negative_fails). -/
theorem C116_nonneg_partial (ext : Solver) {w : World} (hw : WorldOk w) (diag : Nat → ℝ) {s : Rbf} (hm : s.mode = .none)
    (hf : Ok s.filter.data) {g : Nat} (hg : s.geom = some g) (l ds : List V3) (st : Setting) (hst : st ≠ .list [])
    (h0 : 0 ≤ s.factor * diag g) (hd : 0 ≤ diag g) (hR : ∀ i, i < l.length → radiiOf st l.length ds (diag g) i ≠ 0)
    (hL : ∀ rs, st = .list rs → ∀ r ∈ rs, 0 ≤ r) :
    ∃ r, (st.call ((s.setNodes l).setDispl ds)).execute ext w diag = some r ∧ r.effective.length = l.length ∧
      ∀ x ∈ r.effective, 0 ≤ x := by
  obtain ⟨r, d, h1, -, -, h2, -⟩ := C114_vector ext hw diag hm hf hg l ds st hst h0 hR
  refine ⟨r, h1, by rw [h2]; simp, ?_⟩
  intro x hx
  rw [h2] at hx
  obtain ⟨i, -, rfl⟩ := mem_map.1 hx
  unfold radiiOf
  have hl := largest_nonneg l.length (fun j => norm2 (ds.getD j zero3))
  have ht := tiny_pos
  cases st with
  | real r => simp only [Setting.radius]; split <;> linarith
  | local_ r =>
    simp only [Setting.radius]
    split
    · linarith
    · exact mul_nonneg (by linarith) hd
  | list rs =>
    simp only [Setting.radius]
    by_cases hi : i < rs.length
    · rw [getD_lt hi]
      exact hL rs rfl _ (getElem_mem hi)
    · rw [getD_ge (by omega)]
      exact ht.le

/-- C116 fails: the documentation of the list of radii announces that negative values are raised to the smallest radius
allowed.  They are used as they are: a node with displacement (1, 0, 0) and radius -1 moves a vertex at a positive
distance from it by the basis function at a negative argument; with heaviside10 that is more than half of the
displacement, however far the vertex is. -/
theorem C116_negative_fails (ext : Solver) {w : World} (hw : WorldOk w) (diag : Nat → ℝ) {s : Rbf} (hm : s.mode = .none)
    (hf : Ok s.filter.data) (hb : s.bfilter = false) {g : Nat} (hg : s.geom = some g) (n : V3) (R : ℝ) (hR : R < 0)
    (h0 : 0 ≤ s.factor * diag g) :
    ∃ r d, ((((s.setFunction (heavisideK 10)).setNodes [n]).setDispl [⟨1, 0, 0⟩]).setRadii [R]).execute ext w diag =
        some r ∧ r.effective = [R] ∧ r.getDispl = some d ∧
      ∀ id p, get (w g).verts id = some p → ∃ v, get d.data id = some v ∧ 1 / 2 < v.x := by
  have hr : ∀ i, i < [n].length → radiiOf (.list [R]) [n].length [⟨1, 0, 0⟩] (diag g) i = R := by
    intro i hi
    have : i = 0 := by simpa using hi
    subst this
    simp [radiiOf, Setting.radius]
  obtain ⟨r, d, h1, h2, -, h3, h4⟩ := C114_vector ext hw diag (s := s.setFunction (heavisideK 10)) hm hf hg [n]
    [⟨1, 0, 0⟩] (.list [R]) (by simp) h0 (fun i hi => by rw [hr i hi]; exact hR.ne)
  refine ⟨r, d, h1, ?_, h2, ?_⟩
  · rw [h3]; simp [radiiOf, Setting.radius]
  · intro id p hp
    refine ⟨_, by rw [h4.val id, hp, Option.map_some, if_pos (.inl rfl)], ?_⟩
    have hwt : weightOf w g (s.setFunction (heavisideK 10)) id = 1 := by
      unfold weightOf
      rw [if_neg]
      rw [show (s.setFunction (heavisideK 10)).bfilter = s.bfilter from rfl, hb]
      simp
    rw [hwt]
    simp only [V3.scale, drift, influence, zipIdx_cons, zipIdx_nil, map_cons, map_nil, sum_cons, sum_nil,
      hr 0 (by simp), add_zero, getD_cons_zero, mul_one, one_mul]
    show 1 / 2 < heaviside 10 (norm2 (p - n) / R)
    unfold heaviside
    have hx : norm2 (p - n) / R ≤ 0 := div_nonpos_of_nonneg_of_nonpos (norm2_nonneg _) hR.le
    have he : Real.exp (-10 * (1 - norm2 (p - n) / R)) < 1 := by
      rw [Real.exp_lt_one_iff]; nlinarith
    have hp' := Real.exp_pos (-10 * (1 - norm2 (p - n) / R))
    rw [div_lt_div_iff₀ (by norm_num) (by linarith)]
    linarith

/-! ### Cases -/

theorem tiny_le_one : tiny ≤ 1 := by
  unfold tiny
  rw [div_le_one (by positivity)]
  exact one_le_pow₀ (by norm_num)

/-- radius 1, node in the origin: the vertex (0, 2, 0) is outside -/
example : demo.mode = .none ∧ (demo.setCompact true).compact = true ∧ (demo.setCompact true).geom = some 0 ∧
    (∀ i, i < [zero3].length → radiiOf (.real 1) [zero3].length [⟨1, 0, 0⟩] 3 i = 1) ∧
    (1 : ℝ) ≤ (demo.setCompact true).factor * 3 ∧ get (demoWorld 0).verts 7 = some ⟨0, 2, 0⟩ ∧
    1 < norm2 ((⟨0, 2, 0⟩ : V3) - zero3) ∧ ∀ x, 1 < x → demo.kernel.at_ x = 0 := by
  refine ⟨rfl, rfl, rfl, ?_, ?_, by simp [demoWorld, demoObj, Field.get], ?_, ?_⟩
  · intro i _
    simp only [radiiOf, Setting.radius, if_neg (not_lt.2 tiny_le_one)]
  · simp [demo, Rbf.setCompact, Rbf.setGeometry, Rbf.new]
  · have : (⟨0, 2, 0⟩ : V3) - zero3 = ⟨0, 2, 0⟩ := by ext <;> simp [HSub.hSub, Sub.sub, zero3]
    rw [this]
    simp only [norm2, dot]
    rw [Real.lt_sqrt] <;> norm_num
  · intro x hx
    show max 0 (1 - x) = 0
    exact max_eq_left (by linarith)

/-- a geometry with the diagonal 1/2 (scaled factor 1), node at (10, 0, 0), radius 1: the origin is ten radii away -/
example : tiny ≤ 1 ∧ demo.factor * (1 / 2 : ℝ) < 1 ∧ get (demoWorld 0).verts 0 = some ⟨0, 0, 0⟩ ∧
    1 < norm2 ((⟨0, 0, 0⟩ : V3) - ⟨10, 0, 0⟩) ∧ weightOf demoWorld 0 (demo.setFunction (heavisideK 10)) 0 ≠ 0 ∧
    (demo.setFunction (heavisideK 10)).kernel.at_ (norm2 ((⟨0, 0, 0⟩ : V3) - ⟨10, 0, 0⟩) / 1) ≠ 0 := by
  refine ⟨tiny_le_one, ?_, by simp [demoWorld, demoObj, Field.get], ?_, ?_, ?_⟩
  · simp [demo, Rbf.setGeometry, Rbf.new]; norm_num
  · have : (⟨0, 0, 0⟩ : V3) - ⟨10, 0, 0⟩ = ⟨-10, 0, 0⟩ := by ext <;> simp [HSub.hSub, Sub.sub]
    rw [this]
    simp only [norm2, dot]
    rw [Real.lt_sqrt] <;> norm_num
  · simp [weightOf, demo, Rbf.setFunction, Rbf.setGeometry, Rbf.new]
  · show heaviside 10 _ ≠ 0
    unfold heaviside
    have := Real.exp_pos (-10 * (1 - norm2 ((⟨0, 0, 0⟩ : V3) - ⟨10, 0, 0⟩) / 1))
    positivity

example : (Setting.list [(2 : ℝ), 3]).call ((Setting.real 1).call demo) = (Setting.list [(2 : ℝ), 3]).call demo ∧
    ((Setting.list [(2 : ℝ), 3]).call demo).radii = [2, 3] ∧ (Rbf.new .whole hat).mode ≠ .none ∧
    ∀ r ∈ [(2 : ℝ), 3], 0 ≤ r :=
  ⟨C116_last demo _ _ (.inl ⟨rfl, by simp⟩), rfl, by simp [Rbf.new], by simp⟩

end

end Verif.Rbf
