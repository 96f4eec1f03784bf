import Verif.Rbf.RadiusProps
/-
C117: interpolation.
-/
namespace Verif.Rbf
open Verif.Field Verif.Mesh Verif.Shape Verif.Manip
open List hiding get

noncomputable section
open scoped Classical

/-- specification: for the nodes `l` and the radius `R`, the solver of the base class keeps every node and gives three
lists of coefficients whose sums take the values `ds` at the nodes -/
structure Interpolates (ext : Solver) (mode : Sol) (tol : ℝ) (k : Kernel) (R : ℝ) (l ds : List V3) (W : Nat → V3) :
    Prop where
  answer : ∃ wx wy wz, ext mode tol k R (l.map (fun q => (q, true)))
      ((columns ds).map (fun c => resizeWith 0 c l.length)) = ([wx, wy, wz], replicate l.length true) ∧
      ∀ i, W i = ⟨wx.getD i 0, wy.getD i 0, wz.getD i 0⟩
  fit : ∀ (i : Nat) (n : V3), l[i]? = some n → drift k n l (fun _ => R) W = ds.getD i zero3

/-- what the setters and the execution can make of a block; the mode is chosen at construction -/
inductive Reach : Rbf → Prop
  | new (m k) : Reach (Rbf.new m k)
  | setGeometry (s g) : Reach s → Reach (s.setGeometry g)
  | addNodes (s l) : Reach s → Reach (s.addNodes l)
  | setNodes (s l) : Reach s → Reach (s.setNodes l)
  | setNodeGeometry (s g) : Reach s → Reach (s.setNodeGeometry g)
  | setFilter (s f) : Reach s → Reach (s.setFilter f)
  | radius (s : Rbf) (st : Setting) : Reach s → Reach (st.call s)
  | setRadiiField (s f) : Reach s → Reach (s.setRadiiField f)
  | setFactor (s x) : Reach s → Reach (s.setFactor x)
  | setTol (s x) : Reach s → Reach (s.setTol x)
  | setDispl (s l) : Reach s → Reach (s.setDispl l)
  | setDisplField (s f) : Reach s → Reach (s.setDisplField f)
  | setScalar (s l) : Reach s → Reach (s.setScalar l)
  | setScalarField (s f) : Reach s → Reach (s.setScalarField f)
  | setFunction (s k c) : Reach s → Reach (s.setFunction k c)
  | setCompact (s c) : Reach s → Reach (s.setCompact c)
  | clearFilter (s) : Reach s → Reach s.clearFilter
  | clear (s) : Reach s → Reach s.clear
  | copy (s) : Reach s → Reach s.copy
  | removeDuplicated (s l) : Reach s → Reach (s.removeDuplicated l)
  | execute (s r ext w diag) : Reach s → Rbf.execute ext w diag s = some r → Reach r

theorem radiiLoop_none : ∀ (ids : List Nat) (i : Nat) (acc : List ℝ), radiiLoop none ids i acc = some acc
  | [], _, _ => rfl
  | id :: ids, i, acc => by rw [radiiLoop]; exact radiiLoop_none ids (i + 1) acc

/-- the factor of the diagonal is between 0 and 1, and a block that interpolates has one radius for all nodes -/
structure Fine (s : Rbf) : Prop where
  factor : 0 ≤ s.factor ∧ s.factor ≤ 1
  common : s.mode ≠ .none → s.radii = [] ∧ s.rbfRadii = none

theorem Fine.of {s t : Rbf} (h : Fine s) (h1 : t.factor = s.factor) (h2 : t.mode = s.mode)
    (h3 : t.radii = s.radii ∨ t.radii = []) (h4 : t.rbfRadii = s.rbfRadii) : Fine t := by
  refine ⟨by rw [h1]; exact h.factor, ?_⟩
  intro hm
  rw [h2] at hm
  obtain ⟨a, b⟩ := h.common hm
  refine ⟨?_, by rw [h4, b]⟩
  rcases h3 with h3 | h3
  · rw [h3, a]
  · exact h3

theorem run_fine {ext : Solver} {w : World} {diag : Nat → ℝ} {s r : Rbf} {g : Nat} (h : Fine s)
    (hr : s.run ext w diag g = some r) : Fine r := by
  have hc : Fine ((s.fit.computeRadii (diag g)).solve ext) := by
    unfold Rbf.solve
    have : Fine (s.fit.computeRadii (diag g)) := by
      unfold Rbf.computeRadii Rbf.fit
      split <;> exact h.of rfl rfl (.inl rfl) rfl
    split
    · exact this
    · exact this.of rfl rfl (.inl rfl) rfl
  unfold Rbf.run at hr
  simp only at hr
  split at hr <;>
  · simp only [Option.map_eq_some_iff] at hr
    obtain ⟨y, -, rfl⟩ := hr
    exact hc.of rfl rfl (.inl rfl) rfl

/-- C117: no sequence of requests makes a block that interpolates use different radii for different nodes; the factor of
the diagonal stays between 0 and 1. -/
theorem C117_common_radius {s : Rbf} (h : Reach s) : Fine s := by
  induction h with
  | new m k => exact ⟨by simp [Rbf.new], fun _ => ⟨rfl, rfl⟩⟩
  | setGeometry s g _ ih => exact ih.of rfl rfl (.inl rfl) rfl
  | addNodes s l _ ih => exact ih.of rfl rfl (.inl rfl) rfl
  | setNodes s l _ ih => exact ih.of rfl rfl (.inl rfl) rfl
  | setNodeGeometry s g _ ih => cases g <;> exact ih.of rfl rfl (.inl rfl) rfl
  | setFilter s f _ ih => cases f <;> exact ih.of rfl rfl (.inl rfl) rfl
  | radius s st _ ih =>
    cases st with
    | real r => exact ih.of rfl rfl (.inr rfl) rfl
    | local_ r => exact ih.of rfl rfl (.inr rfl) rfl
    | list l =>
      simp only [Setting.call, Rbf.setRadii]
      split
      · exact ih
      · rename_i hl
        exact ⟨ih.factor, fun hm => absurd (.inr hm) hl⟩
  | setRadiiField s f _ ih =>
    unfold Rbf.setRadiiField
    split
    · exact ih
    · rename_i hl
      exact ⟨ih.factor, fun hm => absurd (.inr hm) hl⟩
  | setFactor s x _ ih =>
    refine ⟨⟨?_, min_le_right _ _⟩, ih.common⟩
    exact le_min (le_max_right _ _) zero_le_one
  | setTol s x _ ih => exact ih.of rfl rfl (.inl rfl) rfl
  | setDispl s l _ ih => exact ih.of rfl rfl (.inl rfl) rfl
  | setDisplField s f _ ih => cases f <;> exact ih.of rfl rfl (.inl rfl) rfl
  | setScalar s l _ ih => exact ih.of rfl rfl (.inl rfl) rfl
  | setScalarField s f _ ih => cases f <;> exact ih.of rfl rfl (.inl rfl) rfl
  | setFunction s k c _ ih => exact ih.of rfl rfl (.inl rfl) rfl
  | setCompact s c _ ih => exact ih.of rfl rfl (.inl rfl) rfl
  | clearFilter s _ ih => exact ih.of rfl rfl (.inl rfl) rfl
  | clear s _ ih => exact ih.of rfl rfl (.inr rfl) rfl
  | copy s _ ih => exact ih.of rfl rfl (.inl rfl) rfl
  | removeDuplicated s l _ ih => exact ih.of rfl rfl (.inl rfl) rfl
  | execute s r ext w diag _ he ih =>
    unfold Rbf.execute at he
    cases hg : s.geom with
    | none => rw [hg] at he; cases he
    | some g =>
      rw [hg] at he
      simp only at he
      cases hh : s.rbfGeom with
      | none => rw [hh] at he; exact run_fine ih he
      | some h =>
        rw [hh] at he
        simp only at he
        cases hi : s.init w h with
        | none => rw [hi] at he; cases he
        | some x =>
          obtain ⟨t, b⟩ := x
          rw [hi] at he
          have ht : Fine t := by
            unfold Rbf.init at hi
            split at hi
            · cases hi; exact ih
            · simp only [Option.map_eq_some_iff] at hi
              obtain ⟨radii, hrad, hx⟩ := hi
              cases hx
              refine ⟨ih.factor, ?_⟩
              intro hm
              obtain ⟨-, hn⟩ := ih.common hm
              refine ⟨?_, hn⟩
              rw [hn, radiiLoop_none] at hrad
              have : filter (fun i => (radiusAt none i).isSome) (map Prod.fst (byId (w h).verts)) = [] := by
                simp [radiusAt]
              rw [this] at hrad
              simpa using hrad.symm
          cases b with
          | false => cases he; exact ht
          | true => exact run_fine ht he

/-- a run whose solver keeps every node -/
theorem run_solved (ext : Solver) {w : World} (hw : WorldOk w) (diag : Nat → ℝ) {s : Rbf} (hm : s.mode ≠ .none)
    (hs : s.scalar = false) (hf : Ok s.filter.data) (g : Nat) {l : List V3}
    (hn : s.nodes = l.map (fun q => (q, true))) {ds : List V3} (hd : s.data = columns ds) (hrad : s.radii = [])
    (h0 : 0 ≤ s.factor * diag g) {R : ℝ} (hRc : s.fit.candidate (diag g) = R) (hR : R ≠ 0) {W : Nat → V3}
    (hI : Interpolates ext s.mode s.tol s.kernel R l ds W) :
    ∃ r, s.run ext w diag g = some r ∧ r.scalar = false ∧ r.effective = replicate l.length R ∧
      Result w g r.displ (fun id p => if Moves s (diag g) l (fun _ => R) p then
        V3.scale (weightOf w g s id) (drift s.kernel p l (fun _ => R) W) else ⟨0, 0, 0⟩) := by
  obtain ⟨wx, wy, wz, ha, hW⟩ := hI.answer
  have hnl : s.nodes.length = l.length := by rw [hn]; simp
  have hdf : s.fit.data = (columns ds).map (fun c => resizeWith 0 c l.length) := by simp [Rbf.fit, hd, hnl]
  set u := s.fit.computeRadii (diag g) with hu
  have huf : u.nodes = s.nodes ∧ u.scalar = s.scalar ∧ u.filter = s.filter ∧ u.bfilter = s.bfilter ∧
      u.compact = s.compact ∧ u.factor = s.factor ∧ u.kernel = s.kernel ∧ u.mode = s.mode ∧
      u.data = s.fit.data ∧ u.tol = s.tol ∧ u.effective = replicate l.length R ∧ u.baseRadius = R := by
    rw [hu]; unfold Rbf.computeRadii
    rw [if_neg (by rw [show s.fit.radii = s.radii from rfl, hrad]; simp)]
    refine ⟨rfl, rfl, rfl, rfl, rfl, rfl, rfl, rfl, rfl, rfl, ?_, ?_⟩
    · show replicate s.fit.nodes.length _ = _
      rw [hRc, show s.fit.nodes = s.nodes from rfl, hnl]
    · show (if s.fit.mode = .none then _ else _) = _
      rw [if_neg (show s.fit.mode ≠ .none from hm), hRc]
  obtain ⟨u1, u2, u3, u4, u5, u6, u7, u8, u9, u10, u11, u12⟩ := huf
  set t := u.solve ext with ht
  have htf : t = { u with weights := [wx, wy, wz], nodes := l.map (fun q => (q, true)) } := by
    rw [ht, Rbf.solve, if_neg (by rw [u8]; exact hm)]
    simp only
    rw [u8, u10, u7, u12, u1, hn, u9, hdf, ha]
    simp only
    congr 1
    apply ext_getElem (by simp)
    intro i h1 h2
    simp
  have t1 : t.nodes = l.map (fun q => (q, true)) := by rw [htf]
  have t2 : t.scalar = s.scalar := by rw [htf]; exact u2
  have t3 : t.filter = s.filter := by rw [htf]; exact u3
  have t4 : t.bfilter = s.bfilter := by rw [htf]; exact u4
  have t5 : t.compact = s.compact := by rw [htf]; exact u5
  have t6 : t.factor = s.factor := by rw [htf]; exact u6
  have t7 : t.kernel = s.kernel := by rw [htf]; exact u7
  have t8 : t.mode = s.mode := by rw [htf]; exact u8
  have t9 : t.data = (columns ds).map (fun c => resizeWith 0 c l.length) := by rw [htf, ← hdf]; exact u9
  have t10 : t.weights = [wx, wy, wz] := by rw [htf]
  have t11 : t.effective = replicate l.length R := by rw [htf]; exact u11
  have hE : ∀ i, i < l.length → t.effective.getD i 0 = R := by
    intro i hi; rw [t11, getD_lt (by simpa using hi)]; simp
  obtain ⟨hnd, htar⟩ := targets_spec (s := t) (diag := diag g) (hw.verts g) (l := l) t1 (by rw [t11]; simp)
    (by rw [t6]; exact h0) hE
  have hmv : ∀ p, Moves t (diag g) l (fun _ => R) p ↔ Moves s (diag g) l (fun _ => R) p := by
    intro p; unfold Moves; rw [t5, t6]
  have hev : ∀ p, (t.eval p).bind asVector = some (drift s.kernel p l (fun _ => R) W) := by
    intro p
    unfold Rbf.eval Rbf.activeWeights
    rw [t8, if_neg hm, t9, t7, t1, t10, evalLoop_spec]
    · simp only [columns, map_cons, map_nil, length_cons, length_nil, replicate_succ, replicate_zero, zipWith_cons_cons,
        zipWith_nil_right, zero_add, Option.bind_some, asVector, total_eq, drift, hW]
      have e : ∀ c : List ℝ, influence s.kernel p l (fun i => t.effective.getD i 0)
          (fun i => c.getD i 0) = influence s.kernel p l (fun _ => R) (fun i => c.getD i 0) := by
        intro c
        exact influence_congr hE (fun i _ => rfl)
      rw [e, e, e]
    · simp [columns]
    · intro j n hj _
      have hjl : j < l.length := by
        have := (List.getElem?_eq_some_iff.1 hj).1
        simpa using this
      rw [Nat.zero_add, hE j hjl]
      exact hR
  obtain ⟨d, f, h1, h2, h3, h4, h5⟩ := finish_spec (α := V3) hw (s := t) (by rw [t3]; exact hf) (g := g) (diag := diag g)
    (pick := asVector) (mul := V3.scale) (zero := ⟨0, 0, 0⟩) scale_one hnd htar (fun id p _ _ => hev p)
  refine ⟨{ t with displ := d, filter := f, sdispl := make none .undefined }, ?_, ?_, t11, ?_⟩
  · unfold Rbf.run
    simp only [← hu, ← ht, t2, hs, Bool.false_eq_true, if_false, h1, Option.map_some]
  · show t.scalar = false
    rw [t2, hs]
  · refine ⟨h2.geo, h2.loc, h2.ok, ?_⟩
    intro id
    rw [h2.val id]
    congr 1
    funext p
    have : weightOf w g t id = weightOf w g s id := by unfold weightOf; rw [t3, t4]
    simp only [hmv, this]

/-- C117: nodes and displacements given as lists, one radius for all, interpolation, and a solver that finds the
coefficients: a vertex in the position of a node gets the displacement given for the node times the filter, any other
vertex gets the sum with the same coefficients. -/
theorem C117_interpolates_partial (ext : Solver) {w : World} (hw : WorldOk w) (diag : Nat → ℝ) {s : Rbf} (hs : Reach s)
    (hm : s.mode ≠ .none) (hf : Ok s.filter.data) {g : Nat} (hg : s.geom = some g) (hd : 0 ≤ diag g) (l ds : List V3)
    (st : Setting) (hst : ∀ rs, st ≠ .list rs) (hR : 0 < radiiOf st l.length ds (diag g) 0) {W : Nat → V3}
    (hI : Interpolates ext s.mode s.tol s.kernel (radiiOf st l.length ds (diag g) 0) l ds W) :
    ∃ r d, (st.call ((s.setNodes l).setDispl ds)).execute ext w diag = some r ∧ r.getDispl = some d ∧
      r.effective = replicate l.length (radiiOf st l.length ds (diag g) 0) ∧
      Result w g d (fun id p =>
        if Moves s (diag g) l (fun _ => radiiOf st l.length ds (diag g) 0) p then
          V3.scale (weightOf w g s id) (drift s.kernel p l (fun _ => radiiOf st l.length ds (diag g) 0) W)
        else zero3) ∧
      ∀ id p i, get (w g).verts id = some p → l[i]? = some p →
        get d.data id = some (V3.scale (weightOf w g s id) (ds.getD i zero3)) := by
  obtain ⟨q1, q2, q3, q4, q5, q6, q7, q8, q9, q10, q11⟩ := call_same st ((s.setNodes l).setDispl ds)
  set a := st.call ((s.setNodes l).setDispl ds) with ha
  have h0 : 0 ≤ a.factor * diag g := by
    rw [q6]; exact mul_nonneg (C117_common_radius hs).factor.1 hd
  have hnl : a.nodes.length = l.length := by rw [q4]; simp [Rbf.setDispl, Rbf.setNodes]
  have hdata : a.fit.data = (columns ds).map (fun c => resizeWith 0 c l.length) := by
    rw [show a.fit.data = a.data.map (fun c => resizeWith 0 c a.nodes.length) from rfl, q5, hnl]; rfl
  have hlarge : largestData a.fit.data a.fit.nodes.length = largest l.length (fun j => norm2 (ds.getD j zero3)) := by
    rw [show a.fit.nodes = a.nodes from rfl, hnl]
    apply largestData_eq
    intro i hi
    rw [hdata]
    exact columns_norm ds _ i hi
  have ht1 := tiny_pos
  have hmax : ∀ r : ℝ, max (-1) r < tiny ↔ r < tiny := by
    intro r
    rw [max_lt_iff]
    constructor
    · exact fun h => h.2
    · exact fun h => ⟨by linarith, h⟩
  have hmx : ∀ r : ℝ, ¬ r < tiny → max (-1) r = r := fun r h => max_eq_right (by linarith)
  have hcand : a.fit.candidate (diag g) = radiiOf st l.length ds (diag g) 0 ∧ a.radii = [] := by
    unfold Rbf.candidate radiiOf
    rw [hlarge]
    cases st with
    | list rs => exact absurd rfl (hst rs)
    | real r =>
      refine ⟨?_, rfl⟩
      show (if max (-1) r < tiny then _ else if true = true then max (-1) r else _) = _
      simp only [hmax, Setting.radius, if_true]
      by_cases hr : r < tiny
      · rw [if_pos hr, if_pos hr]; ring
      · rw [if_neg hr, if_neg hr, hmx r hr]
    | local_ r =>
      refine ⟨?_, rfl⟩
      show (if max (-1) r < tiny then _ else if false = true then max (-1) r else max (-1) r * diag g) = _
      simp only [hmax, Setting.radius, Bool.false_eq_true, if_false]
      by_cases hr : r < tiny
      · rw [if_pos hr, if_pos hr]; ring
      · rw [if_neg hr, if_neg hr, hmx r hr]
  obtain ⟨r, r1, r2, r3, r4⟩ := run_solved ext hw diag (s := a) (by rw [q1]; exact hm) (by rw [q2]; rfl)
    (by rw [q3]; exact hf) g (l := l) (by rw [q4]; rfl) (ds := ds) (by rw [q5]; rfl) hcand.2 h0 hcand.1 hR.ne' (W := W)
    (by rw [q1, q11, show a.tol = s.tol by
          rw [ha]; cases st with
          | list rs => exact absurd rfl (hst rs)
          | real r => rfl
          | local_ r => rfl]
        exact hI)
  have hres : Result w g r.displ (fun id p =>
        if Moves s (diag g) l (fun _ => radiiOf st l.length ds (diag g) 0) p then
          V3.scale (weightOf w g s id) (drift s.kernel p l (fun _ => radiiOf st l.length ds (diag g) 0) W)
        else zero3) := by
    refine ⟨r4.geo, r4.loc, r4.ok, ?_⟩
    intro id
    rw [r4.val id]
    congr 1
    funext p
    have hw' : weightOf w g a id = weightOf w g s id := by
      unfold weightOf; rw [q3, q10]; rfl
    have hmv : Moves a (diag g) l (fun _ => radiiOf st l.length ds (diag g) 0) p ↔
        Moves s (diag g) l (fun _ => radiiOf st l.length ds (diag g) 0) p := by
      unfold Moves; rw [q6, q9]; rfl
    simp only [hmv, hw', q11]
    rfl
  refine ⟨r, r.displ, ?_, by simp [Rbf.getDispl, r2], r3, hres, ?_⟩
  · unfold Rbf.execute
    rw [q7, q8, show ((s.setNodes l).setDispl ds).geom = some g from hg]
    exact r1
  · intro id p i hp hi
    rw [hres.val id, hp, Option.map_some, if_pos, hI.fit i p hi]
    exact .inr (.inr ⟨i, p, hi, by rw [norm2_self]; exact hR.le⟩)

/-! ### A case -/

/-- a solver for one node and a basis function with value 1 in 0: the coefficients are the values -/
def oneNode : Solver := fun _ _ _ _ ns d => (d, replicate ns.length true)

example : Reach ((Rbf.new .whole hat).setGeometry 0) ∧
    Interpolates oneNode .whole (1 / 10 ^ 6) hat 2 [⟨1, 0, 0⟩] [⟨5, 6, 7⟩] (fun i => ([(⟨5, 6, 7⟩ : V3)]).getD i zero3) ∧
    0 < radiiOf (.real 2) 1 [⟨5, 6, 7⟩] 3 0 := by
  refine ⟨.setGeometry _ _ (.new _ _), ⟨⟨[5], [6], [7], ?_, ?_⟩, ?_⟩, ?_⟩
  · simp [oneNode, columns, resizeWith]
  · intro i
    cases i <;> simp [zero3]
  · intro i n hi
    have h0 : i = 0 := by
      have := (List.getElem?_eq_some_iff.1 hi).1
      simpa using this
    subst h0
    simp only [getElem?_cons_zero, Option.some.injEq] at hi
    subst hi
    simp only [drift, influence, zipIdx_cons, zipIdx_nil, map_cons, map_nil, sum_cons, sum_nil, norm2_self, hat,
      getD_cons_zero]
    norm_num
  · simp only [radiiOf, Setting.radius]
    rw [if_neg (by linarith [tiny_le_one])]
    norm_num

end

end Verif.Rbf
