import Mathlib.Analysis.Complex.Trigonometric
import Verif.Rbf.BoxModel
/-
C121: basis functions of mimmo.  C122: copies and clearing.  C123: the box of a set of nodes.  C124: XML section.
-/
namespace Verif.Rbf
open Verif.Field Verif.Mesh Verif.Shape Verif.Manip
open List hiding get

noncomputable section
open scoped Classical

/-! ### C121 -/

/-- C121: the heaviside functions are between 0 and 1, strictly decreasing with the distance, one half at the support
radius, and symmetric about it. -/
theorem C121_heaviside {k : ℝ} (hk : 0 < k) :
    (∀ d, 0 < heaviside k d ∧ heaviside k d < 1) ∧ StrictAnti (heaviside k) ∧ heaviside k 1 = 1 / 2 ∧
    ∀ d, heaviside k (1 + d) + heaviside k (1 - d) = 1 := by
  have hp := fun d : ℝ => Real.exp_pos (-k * (1 - d))
  refine ⟨?_, ?_, ?_, ?_⟩
  · intro d
    unfold heaviside
    have := hp d
    refine ⟨by positivity, ?_⟩
    rw [div_lt_one (by linarith)]; linarith
  · intro a b hab
    unfold heaviside
    have h1 : Real.exp (-k * (1 - a)) < Real.exp (-k * (1 - b)) := by
      apply Real.exp_lt_exp.2; nlinarith
    exact one_div_lt_one_div_of_lt (by linarith [hp a]) (by linarith)
  · unfold heaviside; norm_num
  · intro d
    unfold heaviside
    rw [show -k * (1 - (1 + d)) = k * d by ring, show -k * (1 - (1 - d)) = -(k * d) by ring, Real.exp_neg]
    have := Real.exp_pos (k * d)
    field_simp
    ring

theorem heaviside_tanh (k d : ℝ) : heaviside k d = 1 / 2 * (1 + Real.tanh (k / 2 * (1 - d))) := by
  rw [Real.tanh_eq_sinh_div_cosh, Real.sinh_eq, Real.cosh_eq]
  unfold heaviside
  set y := k / 2 * (1 - d) with hy
  rw [show -k * (1 - d) = -y + -y by rw [hy]; ring, Real.exp_add, Real.exp_neg]
  have := Real.exp_pos y
  field_simp
  ring

/-- C121 (part): the slope: half the constant in the name.  The documentation gives 0.5*(1+tanh(k*x)), see
C121_slope_fails. -/
theorem C121_slope_partial (k d : ℝ) : heaviside k d = 1 / 2 * (1 + Real.tanh (k / 2 * (1 - d))) := heaviside_tanh k d

/-- C121 fails: the documented formula 0.5*(1+tanh(k*x)), x = 1 - distance, differs everywhere but at the support
radius. -/
theorem C121_slope_fails {k d : ℝ} (hk : 0 < k) (hd : d ≠ 1) :
    heaviside k d ≠ 1 / 2 * (1 + Real.tanh (k * (1 - d))) := by
  intro h
  have h2 : heaviside (2 * k) d = 1 / 2 * (1 + Real.tanh (k * (1 - d))) := by
    rw [heaviside_tanh]; congr 3; ring
  rw [← h2] at h
  unfold heaviside at h
  have p1 := Real.exp_pos (-k * (1 - d))
  have p2 := Real.exp_pos (-(2 * k) * (1 - d))
  have h3 : Real.exp (-k * (1 - d)) = Real.exp (-(2 * k) * (1 - d)) := by
    have := (div_eq_div_iff (by linarith : (1 + Real.exp (-k * (1 - d))) ≠ 0)
      (by linarith : (1 + Real.exp (-(2 * k) * (1 - d))) ≠ 0)).1 h
    linarith
  have h4 := Real.exp_injective h3
  have h5 : k * (1 - d) = 0 := by linarith
  rcases mul_eq_zero.1 h5 with h5 | h5
  · exact hk.ne' h5
  · exact hd (by linarith)

/-- C121: the derivative of the sigmoid is positive, at most 1, and 1 only at distance 0. -/
theorem C121_dsigmoid (d : ℝ) : 0 < dsigmoid d ∧ dsigmoid d ≤ 1 ∧ (dsigmoid d = 1 ↔ d = 0) := by
  unfold dsigmoid
  have hp := Real.exp_pos (-10 * d)
  have hy : ∀ y : ℝ, 0 < y → 0 < 4 * (y / (1 + y) ^ 2) ∧ 4 * (y / (1 + y) ^ 2) ≤ 1 ∧ (4 * (y / (1 + y) ^ 2) = 1 ↔ y = 1) := by
    intro y h
    have h2 : 0 < (1 + y) ^ 2 := by positivity
    refine ⟨by positivity, ?_, ?_⟩
    · rw [← mul_div_assoc, div_le_one h2]
      nlinarith [sq_nonneg (1 - y)]
    · rw [← mul_div_assoc, div_eq_one_iff_eq h2.ne']
      constructor
      · intro h
        have : (1 - y) ^ 2 = 0 := by nlinarith
        have := pow_eq_zero_iff (two_ne_zero) |>.1 this
        linarith
      · rintro rfl; norm_num
  obtain ⟨a, b, c⟩ := hy _ hp
  refine ⟨a, b, ?_⟩
  rw [c, Real.exp_eq_one_iff]
  constructor
  · intro h; linarith
  · rintro rfl; norm_num

example : (0 : ℝ) < 10 ∧ (0 : ℝ) ≠ 1 := by norm_num

/-! ### C122 -/

/-- the block with another filter and other results -/
def Rbf.patch (s : Rbf) (F : Field Nat ℝ) (D : Field Nat V3) (S : Field Nat ℝ) (E : List ℝ) : Rbf :=
  { s with filter := F, displ := D, sdispl := S, effective := E }

theorem solve_patch (ext : Solver) (s : Rbf) (F : Field Nat ℝ) (D : Field Nat V3) (S : Field Nat ℝ) (E : List ℝ)
    (x : ℝ) : ((s.patch F D S E).fit.computeRadii x).solve ext =
      ((s.fit.computeRadii x).solve ext).patch F D S ((s.fit.computeRadii x).solve ext).effective := by
  have hk : ∀ t : Rbf, (t.patch F D S E).candidate x = t.candidate x := fun _ => rfl
  have hf : (s.patch F D S E).fit = s.fit.patch F D S E := rfl
  rw [hf]
  generalize s.fit = s
  unfold Rbf.computeRadii
  rw [hk, show (s.patch F D S E).radii = s.radii from rfl, show (s.patch F D S E).nodes = s.nodes from rfl]
  by_cases hr : s.radii.isEmpty = true <;> by_cases hm : s.mode = .none <;>
    simp [Rbf.patch, Rbf.solve, hr, hm]

theorem solve_filter (ext : Solver) (s : Rbf) (x : ℝ) : ((s.fit.computeRadii x).solve ext).filter = s.filter ∧
    ((s.fit.computeRadii x).solve ext).bfilter = s.bfilter := by
  by_cases hr : s.radii.isEmpty = true <;> by_cases hm : s.mode = .none <;>
    simp [Rbf.computeRadii, Rbf.fit, Rbf.solve, hr, hm]

theorem finish_patch {α : Type} (w : World) (g : Nat) (x : ℝ) (u : Rbf) (F : Field Nat ℝ) (D : Field Nat V3)
    (S : Field Nat ℝ) (pick : List ℝ → Option α) (mul : ℝ → α → α) (z : α)
    (hF : F = u.filter ∨ u.bfilter = false) :
    (finish w (u.patch F D S u.effective) g x pick mul z).map Prod.fst =
      (finish w u g x pick mul z).map Prod.fst := by
  unfold finish
  have e1 : (u.patch F D S u.effective).targets x (w g).verts = u.targets x (w g).verts := rfl
  have e2 : ∀ p, (u.patch F D S u.effective).eval p = u.eval p := fun _ => rfl
  have e3 : (u.patch F D S u.effective).filter = F ∧ (u.patch F D S u.effective).bfilter = u.bfilter := ⟨rfl, rfl⟩
  simp only [e1, e2, e3.1, e3.2]
  cases insertLoop (fun p => (u.eval p).bind pick) (w g).verts (u.targets x (w g).verts) [] with
  | none => rfl
  | some d =>
    rcases hF with rfl | hF
    · rfl
    · simp [hF, Option.map_map, Function.comp_def]

theorem run_patch (ext : Solver) (w : World) (diag : Nat → ℝ) (s : Rbf) (F : Field Nat ℝ) (D : Field Nat V3)
    (S : Field Nat ℝ) (E : List ℝ) (hF : F = s.filter ∨ s.bfilter = false) (g : Nat) :
    ((s.patch F D S E).run ext w diag g).map (fun r => (r.getDispl, r.getScalar, r.effective)) =
      (s.run ext w diag g).map (fun r => (r.getDispl, r.getScalar, r.effective)) := by
  unfold Rbf.run
  rw [solve_patch]
  obtain ⟨f1, f2⟩ := solve_filter ext s (diag g)
  generalize (s.fit.computeRadii (diag g)).solve ext = u at *
  rw [← f1, ← f2] at hF
  have k1 : ∀ {α β : Type} {a b : Option (α × Field Nat ℝ)} (_ : a.map Prod.fst = b.map Prod.fst) (G : α → β),
      a.map (fun r => G r.1) = b.map (fun r => G r.1) := by
    intro α β a b h G
    have := congrArg (Option.map G) h
    simpa [Option.map_map, Function.comp_def] using this
  simp only
  by_cases hs : u.scalar = true
  · rw [if_pos (show (u.patch F D S u.effective).scalar = true from hs), if_pos hs]
    simp only [Option.map_map, Function.comp_def, Rbf.getDispl, Rbf.getScalar, hs, if_true]
    rw [show (u.patch F D S u.effective).scalar = true from hs]
    simp only [if_true]
    exact k1 (finish_patch w g (diag g) u F D S asScalar (fun x y => y * x) 0 hF) (fun r => (none, some r, u.effective))
  · rw [if_neg (show ¬ (u.patch F D S u.effective).scalar = true from hs), if_neg hs]
    have hs' : u.scalar = false := by simpa using hs
    simp only [Option.map_map, Function.comp_def, Rbf.getDispl, Rbf.getScalar, hs']
    rw [show (u.patch F D S u.effective).scalar = false from hs']
    simp only [Bool.false_eq_true, if_false]
    exact k1 (finish_patch w g (diag g) u F D S asVector V3.scale ⟨0, 0, 0⟩ hF) (fun r => (some r, none, u.effective))

/-- C122: a copy carries no results, and executing it gives what executing the original gives (nodes given as lists). -/
theorem C122_copy (ext : Solver) (w : World) (diag : Nat → ℝ) (s : Rbf) (hn : s.rbfGeom = none) :
    s.copy.displ.data = [] ∧ s.copy.sdispl.data = [] ∧ s.copy.effective = [] ∧
    (s.copy.execute ext w diag).map (fun r => (r.getDispl, r.getScalar, r.effective)) =
      (s.execute ext w diag).map (fun r => (r.getDispl, r.getScalar, r.effective)) := by
  refine ⟨rfl, rfl, rfl, ?_⟩
  unfold Rbf.execute
  rw [show s.copy.geom = s.geom from rfl, show s.copy.rbfGeom = none from hn, hn]
  cases s.geom with
  | none => rfl
  | some g => exact run_patch ext w diag s _ _ _ _ (by cases s.bfilter <;> simp) g

/-- C122: nodes given by a geometry: the same, if the execution of the original is not refused. -/
theorem C122_copy_cloud (ext : Solver) (w : World) (diag : Nat → ℝ) (s : Rbf) {h : Nat} (hn : s.rbfGeom = some h)
    (h1 : s.scalar = false → linked s.rbfDispl h = true) (h2 : s.scalar = true → linked s.rbfScalar h = true)
    (h3 : linked s.rbfRadii h = true) :
    (s.copy.execute ext w diag).map (fun r => (r.getDispl, r.getScalar, r.effective)) =
      (s.execute ext w diag).map (fun r => (r.getDispl, r.getScalar, r.effective)) := by
  unfold Rbf.execute
  rw [show s.copy.geom = s.geom from rfl, show s.copy.rbfGeom = some h from hn, hn]
  cases s.geom with
  | none => rfl
  | some g =>
    simp only
    have hno : ¬ ((s.scalar = false ∧ linked s.rbfDispl h = false) ∨ (s.scalar = true ∧ linked s.rbfScalar h = false) ∨
        linked s.rbfRadii h = false) := by
      rintro (⟨a, b⟩ | ⟨a, b⟩ | a)
      · rw [h1 a] at b; cases b
      · rw [h2 a] at b; cases b
      · rw [h3] at a; cases a
    unfold Rbf.init
    rw [if_neg hno, if_neg (by exact hno)]
    simp only
    rw [show s.copy.rbfRadii = s.rbfRadii from rfl]
    generalize radiiLoop s.rbfRadii _ 0 _ = rr
    cases rr with
    | none => rfl
    | some rl =>
      simp only [Option.map_some]
      exact run_patch ext w diag
        { s with
            nodes := (byId (w h).verts).map (fun e => (e.2, true))
            radii := rl
            data := if s.scalar then [((byId (w h).verts).map Prod.fst).map (valueAt 0 s.rbfScalar)]
              else columns (((byId (w h).verts).map Prod.fst).map (valueAt ⟨0, 0, 0⟩ s.rbfDispl)) } _ _ _ _
        (by show s.copy.filter = s.filter ∨ s.bfilter = false
            cases hb : s.bfilter <;> simp [Rbf.copy, hb]) g

/-- C122 fails: a cleared block is not a new one: the tolerance for the greedy interpolation is ten times larger, the
kind of support, the function and the radii given by a field stay.  (Nodes and displacements stay by intention.) -/
theorem C122_clear_fails (s : Rbf) : s.clear.tol ≠ (Rbf.new s.mode s.kernel).tol ∧ s.clear.compact = s.compact ∧
    s.clear.kernel = s.kernel ∧ s.clear.rbfRadii = s.rbfRadii ∧ s.clear.geom = none ∧ s.clear.bfilter = false ∧
    s.clear.nodes = s.nodes ∧ s.clear.data = s.data := by
  refine ⟨?_, rfl, rfl, rfl, rfl, rfl, rfl, rfl⟩
  simp only [Rbf.clear, Rbf.new]
  norm_num

example : demo.rbfGeom = none ∧ demo.copy.geom = some 0 := ⟨rfl, rfl⟩

/-! ### C123 -/

theorem lowest_spec (r : ℝ) (l : List ℝ) (m : ℝ) :
    l.foldl (fun m v => min m (v - r * (101 / 100))) m ≤ m ∧
    (∀ v ∈ l, l.foldl (fun m v => min m (v - r * (101 / 100))) m ≤ v - r * (101 / 100)) ∧
    (l.foldl (fun m v => min m (v - r * (101 / 100))) m = m ∨
      ∃ v ∈ l, l.foldl (fun m v => min m (v - r * (101 / 100))) m = v - r * (101 / 100)) := by
  induction l generalizing m with
  | nil => simp
  | cons a l ih =>
    rw [foldl_cons]
    obtain ⟨h1, h2, h3⟩ := ih (min m (a - r * (101 / 100)))
    refine ⟨h1.trans (min_le_left _ _), ?_, ?_⟩
    · intro v hv
      rcases mem_cons.1 hv with rfl | hv
      · exact h1.trans (min_le_right _ _)
      · exact h2 v hv
    · rcases h3 with h3 | ⟨v, hv, h3⟩
      · rcases min_choice m (a - r * (101 / 100)) with h | h
        · exact .inl (h3.trans h)
        · exact .inr ⟨a, by simp, h3.trans h⟩
      · exact .inr ⟨v, by simp [hv], h3⟩

theorem highest_spec (r : ℝ) (l : List ℝ) (m : ℝ) :
    m ≤ l.foldl (fun m v => max m (v + r * (101 / 100))) m ∧
    (∀ v ∈ l, v + r * (101 / 100) ≤ l.foldl (fun m v => max m (v + r * (101 / 100))) m) ∧
    (l.foldl (fun m v => max m (v + r * (101 / 100))) m = m ∨
      ∃ v ∈ l, l.foldl (fun m v => max m (v + r * (101 / 100))) m = v + r * (101 / 100)) := by
  induction l generalizing m with
  | nil => simp
  | cons a l ih =>
    rw [foldl_cons]
    obtain ⟨h1, h2, h3⟩ := ih (max m (a + r * (101 / 100)))
    refine ⟨(le_max_left _ _).trans h1, ?_, ?_⟩
    · intro v hv
      rcases mem_cons.1 hv with rfl | hv
      · exact (le_max_right _ _).trans h1
      · exact h2 v hv
    · rcases h3 with h3 | ⟨v, hv, h3⟩
      · rcases max_choice m (a + r * (101 / 100)) with h | h
        · exact .inl (h3.trans h)
        · exact .inr ⟨a, by simp, h3.trans h⟩
      · exact .inr ⟨v, by simp [hv], h3⟩

/-- specification: the number is the smallest of `f` over the vertices, minus the margin -/
def IsLow (vs : Data V3) (m : ℝ) (f : V3 → ℝ) (x : ℝ) : Prop :=
  (∀ id p, get vs id = some p → x ≤ f p - m) ∧ ∃ id p, get vs id = some p ∧ x = f p - m

/-- specification: the number is the largest of `f` over the vertices, plus the margin -/
def IsHigh (vs : Data V3) (m : ℝ) (f : V3 → ℝ) (x : ℝ) : Prop :=
  (∀ id p, get vs id = some p → f p + m ≤ x) ∧ ∃ id p, get vs id = some p ∧ x = f p + m

theorem low_of {vs : Data V3} (hv : Ok vs) {r : ℝ} {f : V3 → ℝ} {id : Nat} {p : V3} (hp : get vs id = some p)
    (hb : f p - r * (101 / 100) ≤ huge) : IsLow vs (r * (101 / 100)) f (lowest r ((vs.map Prod.snd).map f)) := by
  obtain ⟨-, h2, h3⟩ := lowest_spec r ((vs.map Prod.snd).map f) huge
  have hmem : ∀ id p, get vs id = some p → f p ∈ (vs.map Prod.snd).map f :=
    fun id p h => mem_map.2 ⟨p, mem_map.2 ⟨(id, p), get_some_mem h, rfl⟩, rfl⟩
  refine ⟨fun id p h => h2 _ (hmem id p h), ?_⟩
  rcases h3 with h3 | ⟨v, hv', h3⟩
  · exact ⟨id, p, hp, le_antisymm (h2 _ (hmem id p hp)) (by unfold lowest; rw [h3]; exact hb)⟩
  · obtain ⟨q, hq, rfl⟩ := mem_map.1 hv'
    obtain ⟨e, he, rfl⟩ := mem_map.1 hq
    exact ⟨e.1, e.2, get_of_mem hv he, h3⟩

theorem high_of {vs : Data V3} (hv : Ok vs) {r : ℝ} {f : V3 → ℝ} {id : Nat} {p : V3} (hp : get vs id = some p)
    (hb : -huge ≤ f p + r * (101 / 100)) : IsHigh vs (r * (101 / 100)) f (highest r ((vs.map Prod.snd).map f)) := by
  obtain ⟨-, h2, h3⟩ := highest_spec r ((vs.map Prod.snd).map f) (-huge)
  have hmem : ∀ id p, get vs id = some p → f p ∈ (vs.map Prod.snd).map f :=
    fun id p h => mem_map.2 ⟨p, mem_map.2 ⟨(id, p), get_some_mem h, rfl⟩, rfl⟩
  refine ⟨fun id p h => h2 _ (hmem id p h), ?_⟩
  rcases h3 with h3 | ⟨v, hv', h3⟩
  · exact ⟨id, p, hp, le_antisymm (by unfold highest; rw [h3]; exact hb) (h2 _ (hmem id p hp))⟩
  · obtain ⟨q, hq, rfl⟩ := mem_map.1 hv'
    obtain ⟨e, he, rfl⟩ := mem_map.1 hq
    exact ⟨e.1, e.2, get_of_mem hv he, h3⟩

/-- specification: a number that a `double` can hold -/
def Fits (x : ℝ) : Prop := -huge ≤ x ∧ x ≤ huge

theorem corners_eq {w : World} {b r : Box} {g : Nat} (hg : b.geom = some g) (h : b.execute w = some r) :
    r.corners.1 = ⟨lowest b.radius (((w g).verts.map Prod.snd).map (fun v => v.x)),
      lowest b.radius (((w g).verts.map Prod.snd).map (fun v => v.y)),
      lowest b.radius (((w g).verts.map Prod.snd).map (fun v => v.z))⟩ ∧
    r.corners.2 = ⟨highest b.radius (((w g).verts.map Prod.snd).map (fun v => v.x)),
      highest b.radius (((w g).verts.map Prod.snd).map (fun v => v.y)),
      highest b.radius (((w g).verts.map Prod.snd).map (fun v => v.z))⟩ := by
  unfold Box.execute at h
  rw [hg] at h
  simp only [Option.some.injEq] at h
  subst h
  have hadd : ∀ a c : V3, a + c = ⟨a.x + c.x, a.y + c.y, a.z + c.z⟩ := fun _ _ => rfl
  have hsub : ∀ a c : V3, a - c = ⟨a.x - c.x, a.y - c.y, a.z - c.z⟩ := fun _ _ => rfl
  constructor
  · simp only [Box.corners, hadd, hsub, V3.scale]
    ext <;> simp only [] <;> ring
  · simp only [Box.corners, hadd, hsub, V3.scale]
    ext <;> simp only [] <;> ring

/-- C123: the corners of the box are, on each axis, the smallest and the largest coordinate of the nodes minus and plus
1.01 times the support radius. -/
theorem C123_box {w : World} (hw : WorldOk w) {b : Box} {g : Nat} (hg : b.geom = some g) {id : Nat} {p : V3}
    (hp : get (w g).verts id = some p)
    (hfit : ∀ f : V3 → ℝ, (f = (fun v => v.x) ∨ f = (fun v => v.y) ∨ f = (fun v => v.z)) →
      Fits (f p - b.radius * (101 / 100)) ∧ Fits (f p + b.radius * (101 / 100))) :
    ∃ r, b.execute w = some r ∧ ∀ f : V3 → ℝ, (f = (fun v => v.x) ∨ f = (fun v => v.y) ∨ f = (fun v => v.z)) →
      IsLow (w g).verts (b.radius * (101 / 100)) f (f r.corners.1) ∧
      IsHigh (w g).verts (b.radius * (101 / 100)) f (f r.corners.2) := by
  have hex : ∃ r, b.execute w = some r := by
    unfold Box.execute; rw [hg]; exact ⟨_, rfl⟩
  obtain ⟨r, hr⟩ := hex
  obtain ⟨h1, h2⟩ := corners_eq hg hr
  refine ⟨r, hr, ?_⟩
  intro f hf
  have := hfit f hf
  have hlo := low_of (hw.verts g) hp this.1.2
  have hhi := high_of (hw.verts g) hp this.2.1
  rcases hf with rfl | rfl | rfl <;> exact ⟨by rw [h1]; exact hlo, by rw [h2]; exact hhi⟩

/-- specification: a point in a box -/
def Inside (c : V3 × V3) (p : V3) : Prop :=
  c.1.x ≤ p.x ∧ p.x ≤ c.2.x ∧ c.1.y ≤ p.y ∧ p.y ≤ c.2.y ∧ c.1.z ≤ p.z ∧ p.z ≤ c.2.z

theorem norm_ge (a b : V3) : |a.x - b.x| ≤ norm2 (a - b) ∧ |a.y - b.y| ≤ norm2 (a - b) ∧ |a.z - b.z| ≤ norm2 (a - b) := by
  have e : norm2 (a - b) = √((a.x - b.x) * (a.x - b.x) + (a.y - b.y) * (a.y - b.y) + (a.z - b.z) * (a.z - b.z)) := rfl
  rw [e]
  have h1 := mul_self_nonneg (a.x - b.x)
  have h2 := mul_self_nonneg (a.y - b.y)
  have h3 := mul_self_nonneg (a.z - b.z)
  refine ⟨Real.abs_le_sqrt ?_, Real.abs_le_sqrt ?_, Real.abs_le_sqrt ?_⟩ <;> rw [pow_two] <;> linarith

/-- C123: every point within the support radius of a node is in the box. -/
theorem C123_contains {w : World} {b r : Box} (hb : 0 ≤ b.radius) {g : Nat} (hg : b.geom = some g)
    (h : b.execute w = some r) {id : Nat} {n : V3} (hn : get (w g).verts id = some n) {q : V3}
    (hq : norm2 (q - n) ≤ b.radius) : Inside r.corners q := by
  obtain ⟨h1, h2⟩ := corners_eq hg h
  have hm : ∀ f : V3 → ℝ, f n ∈ ((w g).verts.map Prod.snd).map f :=
    fun f => mem_map.2 ⟨n, mem_map.2 ⟨(id, n), get_some_mem hn, rfl⟩, rfl⟩
  have hl : ∀ f : V3 → ℝ, lowest b.radius (((w g).verts.map Prod.snd).map f) ≤ f n - b.radius * (101 / 100) :=
    fun f => (lowest_spec b.radius _ huge).2.1 _ (hm f)
  have hh : ∀ f : V3 → ℝ, f n + b.radius * (101 / 100) ≤ highest b.radius (((w g).verts.map Prod.snd).map f) :=
    fun f => (highest_spec b.radius _ (-huge)).2.1 _ (hm f)
  obtain ⟨n1, n2, n3⟩ := norm_ge q n
  have a1 := abs_le.1 (n1.trans hq)
  have a2 := abs_le.1 (n2.trans hq)
  have a3 := abs_le.1 (n3.trans hq)
  unfold Inside
  rw [h1, h2]
  have l1 := hl (fun v => v.x)
  have l2 := hl (fun v => v.y)
  have l3 := hl (fun v => v.z)
  have u1 := hh (fun v => v.x)
  have u2 := hh (fun v => v.y)
  have u3 := hh (fun v => v.z)
  simp only at l1 l2 l3 u1 u2 u3 ⊢
  refine ⟨?_, ?_, ?_, ?_, ?_, ?_⟩ <;> linarith [a1.1, a1.2, a2.1, a2.2, a3.1, a3.2]

/-- C123: the box holds everything a block with the same nodes and radius, and compact support, can move (radius not
larger than the diagonal of the target times the factor). -/
theorem C123_moved (ext : Solver) {w : World} (hw : WorldOk w) (diag : Nat → ℝ) {s : Rbf} (hm : s.mode = .none)
    (hf : Ok s.filter.data) {g : Nat} (hg : s.geom = some g) (hn : s.rbfRadii = none) (hc : s.compact = true) (h : Nat)
    (f : Field Nat V3) (hfg : f.geo = some h) (h0 : 0 ≤ s.factor * diag g) (R : ℝ) (hR : tiny ≤ R)
    (hS : R ≤ s.factor * diag g) {b r : Box} (hbg : b.geom = some h) (hbr : b.radius = R) (hb : b.execute w = some r) :
    ∃ t d, (((s.setNodeGeometry (some h)).setDisplField (some f)).setRadiusReal R).execute ext w diag = some t ∧
      t.getDispl = some d ∧
      ∀ id p, get (w g).verts id = some p → get d.data id ≠ some zero3 → Inside r.corners p := by
  have hpos : 0 < R := by linarith [tiny_pos]
  obtain ⟨t, d, h1, h2, -, h3⟩ := C118_field_partial ext hw diag hm hf hg hn h f hfg h0 (.real R) (by simp)
    (R := R) (by simp [Setting.radius, not_lt.2 hR]) hpos.ne'
  refine ⟨t, d, h1, h2, ?_⟩
  intro id p hp hne
  rw [h3.val id, hp, Option.map_some] at hne
  by_cases hM : CloudMoves s (diag g) (w h).verts (fun _ => R) p
  · rcases hM with hM | ⟨_, _, _, hM⟩ | ⟨i, q, hq, hM⟩
    · rw [hc] at hM; cases hM
    · linarith
    · exact C123_contains (by rw [hbr]; exact hpos.le) hbg hb hq (by rw [hbr]; exact hM)
  · rw [if_neg hM] at hne; exact absurd rfl hne

/-- C123: the radius is never negative, and only point clouds are accepted. -/
theorem C123_input (w : World) (b : Box) (x : ℝ) (g : Nat) : 0 ≤ (b.setRadius x).radius ∧
    (0 ≤ x → (b.setRadius x).radius = x) ∧ ((w g).type ≠ 3 → b.setGeometry w (some g) = b) ∧
    ((w g).type = 3 → (b.setGeometry w (some g)).geom = some g) := by
  refine ⟨le_max_left _ _, fun h => max_eq_right h, ?_, ?_⟩
  · intro h; simp [Box.setGeometry, h]
  · intro h; simp [Box.setGeometry, h]

/-- C123 fails: for a cloud without nodes the box has negative sides. -/
theorem C123_empty_fails {w : World} {b : Box} {g : Nat} (hg : b.geom = some g) (he : (w g).verts = []) :
    ∃ r, b.execute w = some r ∧ r.span.x < 0 ∧ r.span.y < 0 ∧ r.span.z < 0 := by
  have hh : 0 < huge := by
    unfold huge
    have : (1 : ℝ) / 2 ^ 52 ≤ 1 := by
      rw [div_le_one (by positivity)]
      exact one_le_pow₀ (by norm_num)
    have : (0 : ℝ) < 2 - 1 / 2 ^ 52 := by linarith
    positivity
  unfold Box.execute
  rw [hg]
  refine ⟨_, rfl, ?_, ?_, ?_⟩
  all_goals
    simp only [he, map_nil, lowest, highest, foldl_nil]
    show -huge - huge < 0
    linarith

/-- nodes of the geometry 0, radius 2 -/
example : (({ geom := some 0 } : Box).setRadius 2).radius = 2 ∧ get (demoWorld 0).verts 4 = some ⟨1, 0, 0⟩ ∧
    norm2 ((⟨1, 2, 0⟩ : V3) - ⟨1, 0, 0⟩) ≤ 2 ∧ Fits (1 - 2 * (101 / 100)) ∧ Fits (1 + 2 * (101 / 100)) := by
  have hh : 4 ≤ huge := by
    unfold huge
    have h1 : (1 : ℝ) / 2 ^ 52 ≤ 1 := by
      rw [div_le_one (by positivity)]
      exact one_le_pow₀ (by norm_num)
    have h2 : (4 : ℝ) ≤ 2 ^ 1023 := by
      calc (4 : ℝ) = 2 ^ 2 := by norm_num
        _ ≤ 2 ^ 1023 := pow_le_pow_right₀ (by norm_num) (by norm_num)
    generalize (2 : ℝ) ^ 1023 = y at *
    generalize (1 : ℝ) / 2 ^ 52 = z at *
    nlinarith
  refine ⟨?_, by simp [demoWorld, demoObj, Field.get], ?_, ⟨by linarith, by linarith⟩, ⟨by linarith, by linarith⟩⟩
  · simp [Box.setRadius]
  · show √((1 - 1) * (1 - 1) + (2 - 0) * (2 - 0) + (0 - 0) * (0 - 0)) ≤ 2
    rw [Real.sqrt_le_left (by norm_num)]
    norm_num

/-! ### C124 -/

/-- specification: rounding to the number written.  Order, 0 and ±1 are respected, positive numbers stay positive. -/
structure Rounds (wr : ℝ → ℝ) : Prop where
  mono : Monotone wr
  zero : wr 0 = 0
  one : wr 1 = 1
  neg : wr (-1) = -1
  pos : ∀ x, 0 < x → 0 < wr x

/-- specification: a configuration the setters can produce and the section can hold -/
structure Writable (c : Cfg) : Prop where
  mode : 0 ≤ c.mode ∧ c.mode ≤ 2
  tol : 0 < c.tol
  shape : (1 ≤ c.shape ∧ c.shape ≤ 13) ∨ (101 ≤ c.shape ∧ c.shape ≤ 105)
  radius : -1 ≤ c.srValue
  factor : 0 ≤ c.factor ∧ c.factor ≤ 1
  list : c.radii = []

/-- C124 (part): a block built from what another one has written has the same mode, function, kind of support and kind of
radius; tolerance, radius and factor are the ones written.  Missing: radii given as a list (C124_radii_fails),
tolerances that are not positive, functions outside the table. -/
theorem C124_round_trip_partial {wr : ℝ → ℝ} (hw : Rounds wr) {c : Cfg} (h : Writable c) :
    Cfg.ofXml (c.flush wr) = { c with
      tol := if c.tol = 1 / 10 ^ 6 then c.tol else wr c.tol, srValue := wr c.srValue, factor := wr c.factor } := by
  have hshape : readShape c.shape = c.shape := by
    unfold readShape
    rcases h.shape with hs | hs
    · rw [max_eq_right hs.1]; simp only; rw [if_neg (by omega), if_neg (by omega)]
    · rw [max_eq_right (by omega)]; simp only; rw [if_pos (by omega), if_neg (by omega)]
  have hs0 : c.shape ≠ 0 := by rcases h.shape with hs | hs <;> omega
  have hmode : min 2 (max 0 c.mode) = c.mode := by
    have := h.mode
    rw [max_eq_right this.1, min_eq_right this.2]
  have hrad : max (-1) (wr c.srValue) = wr c.srValue := by
    apply max_eq_right
    rw [← hw.neg]; exact hw.mono h.radius
  have hf1 : 0 ≤ wr c.factor := by rw [← hw.zero]; exact hw.mono h.factor.1
  have hf2 : wr c.factor ≤ 1 := by
    calc wr c.factor ≤ wr 1 := hw.mono h.factor.2
      _ = 1 := hw.one
  have hfac : min (max (wr c.factor) 0) 1 = wr c.factor := by
    rw [max_eq_left hf1, min_eq_left hf2]
  have hlist := h.list
  have htpos := hw.pos _ h.tol
  obtain ⟨mode, tol, shape, srValue, srReal, radii, compact, factor⟩ := c
  simp only at *
  subst hlist
  clear h
  unfold Cfg.ofXml Cfg.absorb Cfg.flush
  generalize (1 : ℝ) / 10 ^ 6 = t0
  by_cases ht : tol = t0 <;> by_cases hfa : factor = 1 <;> cases srReal <;> cases compact <;>
    simp [Cfg.setRadius, hshape, hs0, hmode, hrad, hfac, ht, hfa, hf1, hf2, htpos, hw.one]

theorem absorb_no_radius (m : Int) (o : Opts) (h1 : o.srReal = none) (h2 : o.srLegacy = none) (h3 : o.srLocal = none) :
    (({ mode := m } : Cfg).absorb o).radii = [] ∧ (({ mode := m } : Cfg).absorb o).srValue = -1 := by
  unfold Cfg.absorb
  simp only [h1, h2, h3, Cfg.setRadius]
  rcases o.tol with _ | t <;> rcases o.shape with _ | v <;> rcases o.compact with _ | b <;> rcases o.factor with _ | x <;>
    constructor <;> (repeat' split) <;> rfl

/-- C124 fails: radii given as a list are not written: the block read back has the default radius. -/
theorem C124_radii_fails (wr : ℝ → ℝ) (c : Cfg) (h : c.radii ≠ []) :
    (Cfg.ofXml (c.flush wr)).radii = [] ∧ (Cfg.ofXml (c.flush wr)).srValue = -1 := by
  have he : c.radii.isEmpty = false := by
    cases hr : c.radii with
    | nil => exact absurd hr h
    | cons => rfl
  obtain ⟨h1, h2, h3⟩ : (c.flush wr).srReal = none ∧ (c.flush wr).srLegacy = none ∧ (c.flush wr).srLocal = none := by
    simp [Cfg.flush, he]
  exact absorb_no_radius _ _ h1 h2 h3

/-- C124: if the section has several radii the absolute one counts, then the old name, then the relative one. -/
theorem C124_precedence (c : Cfg) (o : Opts) (x y z : ℝ) :
    (o.srReal = some x → (c.absorb o).srValue = max (-1) x ∧ (c.absorb o).srReal = true) ∧
    (o.srReal = none → o.srLegacy = some y → (c.absorb o).srValue = max (-1) y ∧ (c.absorb o).srReal = false) ∧
    (o.srReal = none → o.srLegacy = none → o.srLocal = some z →
      (c.absorb o).srValue = max (-1) z ∧ (c.absorb o).srReal = false) := by
  have key : ∀ d : Cfg, (match o.factor with
      | some x => if 0 ≤ x ∧ x ≤ 1 then { ({ d with factor := 1 } : Cfg) with factor := min (max x 0) 1 }
        else { d with factor := 1 }
      | none => { d with factor := 1 }).srValue = d.srValue ∧ (match o.factor with
      | some x => if 0 ≤ x ∧ x ≤ 1 then { ({ d with factor := 1 } : Cfg) with factor := min (max x 0) 1 }
        else { d with factor := 1 }
      | none => { d with factor := 1 }).srReal = d.srReal := by
    intro d
    split
    · split <;> exact ⟨rfl, rfl⟩
    · exact ⟨rfl, rfl⟩
  have key2 : ∀ d : Cfg, (match o.compact with
      | some b => { d with compact := b }
      | none => d).srValue = d.srValue ∧ (match o.compact with
      | some b => { d with compact := b }
      | none => d).srReal = d.srReal := by
    intro d
    split <;> exact ⟨rfl, rfl⟩
  refine ⟨?_, ?_, ?_⟩
  · intro h
    unfold Cfg.absorb
    simp only [h]
    refine ⟨(key _).1.trans ((key2 _).1.trans rfl), (key _).2.trans ((key2 _).2.trans rfl)⟩
  · intro h h'
    unfold Cfg.absorb
    simp only [h, h']
    refine ⟨(key _).1.trans ((key2 _).1.trans rfl), (key _).2.trans ((key2 _).2.trans rfl)⟩
  · intro h h' h''
    unfold Cfg.absorb
    simp only [h, h', h'']
    refine ⟨(key _).1.trans ((key2 _).1.trans rfl), (key _).2.trans ((key2 _).2.trans rfl)⟩

/-- a configuration that is not the default one -/
def demoCfg : Cfg := ⟨2, 1, 103, 3, true, [], true, 1 / 2⟩

example : Rounds id ∧ Writable demoCfg := by
  refine ⟨⟨monotone_id, rfl, rfl, rfl, fun _ h => h⟩, ⟨by simp [demoCfg], by simp [demoCfg],
    by simp [demoCfg], by norm_num [demoCfg], by norm_num [demoCfg], rfl⟩⟩

end

end Verif.Rbf
