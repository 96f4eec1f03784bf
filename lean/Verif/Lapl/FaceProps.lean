import Verif.Lapl.GradProps
/-
C171: gradients at interfaces; C172: Laplacians of volumes.
-/
namespace Verif.Lapl
open List

noncomputable section

theorem dot_add_right (v a b : V) : dot v (a + b) = dot v a + dot v b := by simp [dot]; ring
theorem dot_sub_right (v a b : V) : dot v (a - b) = dot v a - dot v b := by simp [dot]; ring
theorem dot_smul_right (k : ℝ) (v a : V) : dot v (k • a) = k * dot v a := by simp [dot]; ring

theorem norm2_smul_unit {n : V} (hn : dot n n = 1) (k : ℝ) : norm2 (k • n) = |k| := by
  unfold norm2
  rw [dot_smul_left, dot_smul_right, hn, mul_one, ← sq, Real.sqrt_sq_eq_abs]

theorem proj_dist {n : V} (hn : dot n n = 1) (x q : V) : norm2 (projLine x q n - q) = |dot (x - q) n| := by
  unfold projLine
  rw [add_sub_cancel_left, norm2_smul_unit hn]

theorem eval_one (id : Nat) (u : Nat → ℝ) : ((Sten.empty : Sten ℝ).append id 1).eval u = u id := by
  rw [eval_append, eval_empty, zero_add, smul_eq_mul, mul_one]

/-- the value of the gradient at an interface -/
theorem face_eval {owner neigh : Nat} {cO cN cI n : V} {sO sN s : Sten V} (h : faceGradient owner neigh cO cN cI n sO sN = some s) (hn : dot n n = 1)
    (u : Nat → ℝ) : ∃ m, m = min |dot (cO - cI) n| |dot (cN - cI) n| ∧ m ≠ 0 ∧
      s.eval u = (0.5 : ℝ) • (sO.eval u + sN.eval u) - dot ((0.5 : ℝ) • (sO.eval u + sN.eval u)) n • n +
        ((u neigh + dot (sN.eval u) (cI + m • n - cN)) - (u owner + dot (sO.eval u) (cI - m • n - cO))) • ((1 / (2 * m)) • n) := by
  unfold faceGradient at h
  simp only [proj_dist hn] at h
  split at h
  · simp at h
  · rename_i hm
    refine ⟨_, rfl, hm, ?_⟩
    simp only [Option.some.injEq] at h
    rw [← h]
    simp only [eval_add, eval_sub, eval_times, eval_dot, eval_scale, eval_one]

/-- **C171.** The gradient at an interface exists unless one of the two centroids is in the plane of the interface. -/
theorem C171_exists {owner neigh : Nat} {cO cN cI n : V} {sO sN : Sten V} (hn : dot n n = 1) :
    (∃ s, faceGradient owner neigh cO cN cI n sO sN = some s) ↔ dot (cO - cI) n ≠ 0 ∧ dot (cN - cI) n ≠ 0 := by
  unfold faceGradient
  simp only [proj_dist hn]
  constructor
  · rintro ⟨s, h⟩
    split at h
    · simp at h
    · rename_i hm
      constructor
      · intro h0
        apply hm
        rw [h0, abs_zero]
        exact min_eq_left (abs_nonneg _)
      · intro h0
        apply hm
        rw [h0, abs_zero]
        exact min_eq_right (abs_nonneg _)
  · rintro ⟨h1, h2⟩
    rw [if_neg]
    · exact ⟨_, rfl⟩
    · rcases min_choice |dot (cO - cI) n| |dot (cN - cI) n| with h | h <;> rw [h]
      · exact abs_ne_zero.2 h1
      · exact abs_ne_zero.2 h2

/-- **C171.** Along the interface the gradient is the mean of those at the two cells. -/
theorem C171_tangent {owner neigh : Nat} {cO cN cI n : V} {sO sN s : Sten V} (h : faceGradient owner neigh cO cN cI n sO sN = some s) (hn : dot n n = 1)
    (u : Nat → ℝ) {t : V} (ht : dot t n = 0) : dot (s.eval u) t = (dot (sO.eval u) t + dot (sN.eval u) t) / 2 := by
  obtain ⟨m, _, _, he⟩ := face_eval h hn u
  rw [he]
  have : dot n t = 0 := by rw [dot_comm]; exact ht
  simp only [dot_add_left, dot_sub_left, dot_smul_left, this]
  ring

/-- **C171.** Across it the gradient is the difference of the field between two points on the normal through the centroid of the interface, one on either
side at the smaller of the two distances, over their distance; the field at the points is extrapolated from the cells. -/
theorem C171_normal {owner neigh : Nat} {cO cN cI n : V} {sO sN s : Sten V} (h : faceGradient owner neigh cO cN cI n sO sN = some s) (hn : dot n n = 1)
    (u : Nat → ℝ) : ∃ m, m = min |dot (cO - cI) n| |dot (cN - cI) n| ∧
      dot (s.eval u) n * (2 * m) = (u neigh + dot (sN.eval u) (cI + m • n - cN)) - (u owner + dot (sO.eval u) (cI - m • n - cO)) := by
  obtain ⟨m, hm, h0, he⟩ := face_eval h hn u
  refine ⟨m, hm, ?_⟩
  rw [he]
  generalize (u neigh + dot (sN.eval u) (cI + m • n - cN)) - (u owner + dot (sO.eval u) (cI - m • n - cO)) = d
  generalize (0.5 : ℝ) • (sO.eval u + sN.eval u) = g
  rw [dot_add_left, dot_sub_left, dot_smul_left, dot_smul_left, dot_smul_left, hn]
  field_simp
  ring

/-- **C171.** It is exact for linear fields when the gradients at the cells are. -/
theorem C171_linear {owner neigh : Nat} {cO cN cI n : V} {sO sN s : Sten V} (h : faceGradient owner neigh cO cN cI n sO sN = some s) (hn : dot n n = 1)
    {u : Nat → ℝ} {a : ℝ} {g : V} (hO : u owner = a + dot g cO) (hN : u neigh = a + dot g cN) (gO : sO.eval u = g) (gN : sN.eval u = g) :
    s.eval u = g := by
  obtain ⟨m, _, hm, he⟩ := face_eval h hn u
  rw [he, gO, gN, hO, hN]
  have h1 : (0.5 : ℝ) • (g + g) = g := by rw [← two_smul ℝ g, smul_smul]; norm_num
  have h2 : (a + dot g cN + dot g (cI + m • n - cN)) - (a + dot g cO + dot g (cI - m • n - cO)) = 2 * m * dot g n := by
    simp only [dot_sub_right, dot_add_right, dot_smul_right]
    ring
  rw [h1, h2, smul_smul]
  have h3 : 2 * m * dot g n * (1 / (2 * m)) = dot g n := by field_simp
  rw [h3, sub_add_cancel]

/-- **C171.** Together: on a mesh whose cells have neighbours offset along every axis the gradient of a linear field is exact at every interface. -/
theorem C171_mesh {cent : Nat → V} {neighs : Nat → List Nat} {owner neigh : Nat} {cI n : V} {sO sN s : Sten V}
    (hsO : cellGradient cent (neighs owner) owner = some sO) (hsN : cellGradient cent (neighs neigh) neigh = some sN)
    (hO : ∀ j, ∃ k ∈ neighs owner, (1e-12 : ℝ) ≤ |cent k j - cent owner j|) (hN : ∀ j, ∃ k ∈ neighs neigh, (1e-12 : ℝ) ≤ |cent k j - cent neigh j|)
    (h : faceGradient owner neigh (cent owner) (cent neigh) cI n sO sN = some s) (hn : dot n n = 1) (a : ℝ) (g : V) :
    s.eval (fun k => a + dot g (cent k)) = g := by
  have key : ∀ {c : Nat} {t : Sten V}, cellGradient cent (neighs c) c = some t → (∀ j, ∃ k ∈ neighs c, (1e-12 : ℝ) ≤ |cent k j - cent c j|) →
      t.eval (fun k => a + dot g (cent k)) = g := by
    intro c t ht hc
    funext j
    refine (C170_linear ht (fun _ _ => rfl) (fun j => Or.inl (hc j)) j).1 ?_
    obtain ⟨k, hk, h'⟩ := hc j
    refine ⟨k, hk, fun e => ?_⟩
    rw [e, sub_self, abs_zero] at h'
    norm_num at h'
  exact C171_linear h hn rfl rfl (key hsO hO) (key hsN hN)

/-- **C171.** On the border the gradient is that of the cell without its normal part: the condition of zero normal derivative; with the correction for
a given normal derivative it has that one. -/
theorem C171_neumann {n : V} {s : Sten V} (hn : dot n n = 1) (val : ℝ) (u : Nat → ℝ) :
    dot ((borderGradient n s).eval u) n = 0 ∧ dot (((borderGradient n s).add (neumannCorrection val n)).eval u) n = val ∧
    ∀ t, dot t n = 0 → dot ((borderGradient n s).eval u) t = dot (s.eval u) t ∧
      dot (((borderGradient n s).add (neumannCorrection val n)).eval u) t = dot (s.eval u) t := by
  have e1 : (borderGradient n s).eval u = s.eval u - dot (s.eval u) n • n := by
    unfold borderGradient
    rw [eval_sub, eval_times, eval_dot]
  have e2 : ((borderGradient n s).add (neumannCorrection val n)).eval u = s.eval u - dot (s.eval u) n • n + val • n := by
    unfold neumannCorrection
    rw [eval_add, e1, eval_const, eval_empty, zero_add]
  rw [e1, e2]
  refine ⟨?_, ?_, ?_⟩
  · rw [dot_sub_left, dot_smul_left, hn]; ring
  · rw [dot_add_left, dot_sub_left, dot_smul_left, dot_smul_left, hn]; ring
  · intro t ht
    have : dot n t = 0 := by rw [dot_comm]; exact ht
    constructor
    · rw [dot_sub_left, dot_smul_left, this]; ring
    · rw [dot_add_left, dot_sub_left, dot_smul_left, dot_smul_left, this]; ring

/-- **C171.** With the correction for a given value on the border: the normal derivative is the difference between the value and the field extrapolated to
the point inside at the given distance, over the distance. -/
theorem C171_dirichlet_normal {owner : Nat} {cO cI n : V} {s : Sten V} (hn : dot n n = 1) {dist : ℝ} (hd : dist ≠ 0) (val : ℝ) (u : Nat → ℝ) :
    dot (((borderGradient n s).add (dirichletCorrection val owner cO cI n dist s)).eval u) n * dist = val - (u owner + dot (s.eval u) (cI - dist • n - cO)) := by
  unfold borderGradient dirichletCorrection
  simp only [eval_add, eval_sub, eval_times, eval_dot, eval_const, eval_scale, eval_one, smul_eq_mul]
  generalize dot (s.eval u) (cI - dist • n - cO) = d
  rw [dot_add_left, dot_sub_left, dot_smul_left, dot_add_left, dot_smul_left, dot_smul_left, hn]
  field_simp
  ring

/-- **C171.** It is exact for linear fields when the value is that of the field at the centroid of the interface. -/
theorem C171_dirichlet_linear {owner : Nat} {cO cI n : V} {s : Sten V} (hn : dot n n = 1) {dist : ℝ} (hd : dist ≠ 0) {val : ℝ} {u : Nat → ℝ} {a : ℝ}
    {g : V} (hO : u owner = a + dot g cO) (hs : s.eval u = g) (hv : val = a + dot g cI) :
    ((borderGradient n s).add (dirichletCorrection val owner cO cI n dist s)).eval u = g := by
  unfold borderGradient dirichletCorrection
  simp only [eval_add, eval_sub, eval_times, eval_dot, eval_const, eval_scale, eval_one, smul_eq_mul, hs, hO]
  have e : a + dot g cO + dot g (cI - dist • n - cO) = val - dist * dot g n := by
    simp only [dot_sub_right, dot_smul_right, hv]
    ring
  rw [e, ← add_smul]
  have e2 : -1 * (1 / dist * (val - dist * dot g n)) + val / dist = dot g n := by field_simp; ring
  rw [e2, sub_add_cancel]

/-! ### Cases -/

/-- a row of two cells among six neighbours each: with the faces across the first axis -/
example : ∃ s, faceGradient 0 1 ![0, 0, 0] ![1, 0, 0] ![0.5, 0, 0] ![1, 0, 0] (Sten.empty.addConst ![2, 3, 4]) (Sten.empty.addConst ![2, 3, 4]) = some s ∧
    (s.eval fun n => if n = 1 then 2 else 0) = ![2, 3, 4] := by
  have hn : dot ![1, 0, 0] ![1, 0, 0] = 1 := by simp [dot]
  obtain ⟨s, h⟩ := (C171_exists (owner := 0) (neigh := 1) (cO := ![0, 0, 0]) (cN := ![1, 0, 0]) (cI := ![0.5, 0, 0])
    (sO := Sten.empty.addConst ![2, 3, 4]) (sN := Sten.empty.addConst ![2, 3, 4]) hn).2 (by constructor <;> simp [dot] <;> norm_num)
  refine ⟨s, h, C171_linear h hn (a := 0) ?_ ?_ ?_ ?_⟩
  · simp [dot]
  · simp [dot]
  · rw [eval_const, eval_empty, zero_add]
  · rw [eval_const, eval_empty, zero_add]

/-- the neighbours of the first two cells of the grid -/
def gridNeighs : Nat → List Nat
  | 0 => [1, 2, 3]
  | _ => [0, 4, 3]

theorem grid_off1 (j : Fin 3) : ∃ n ∈ [0, 4, 3], (1e-12 : ℝ) ≤ |gridCent n j - gridCent 1 j| := by
  fin_cases j
  · exact ⟨0, by simp, by simp [gridCent]; norm_num⟩
  · exact ⟨4, by simp, by simp [gridCent]; norm_num⟩
  · exact ⟨3, by simp, by simp [gridCent]; norm_num⟩

theorem grid_exists1 : ∃ s, cellGradient gridCent [0, 4, 3] 1 = some s := by
  apply (C170_exists ?_).2
  · intro v h _
    have h0 := h 0 (by simp)
    have h4 := h 4 (by simp)
    have h3 := h 3 (by simp)
    simp [gridCent, dot] at h0 h4 h3
    funext j
    fin_cases j
    · simpa using h0
    · simpa using h4
    · show v 2 = 0
      rw [h0] at h3
      linarith
  · intro n hn h
    simp only [mem_cons, not_mem_nil, or_false] at hn
    rcases hn with rfl | rfl | rfl
    · have := congrFun h 0; simp [gridCent] at this
    · have := congrFun h 1; simp [gridCent] at this
    · have := congrFun h 2; simp [gridCent] at this

example (a : ℝ) (g : V) : ∃ sO sN s, cellGradient gridCent (gridNeighs 0) 0 = some sO ∧ cellGradient gridCent (gridNeighs 1) 1 = some sN ∧
    faceGradient 0 1 (gridCent 0) (gridCent 1) ![0.5, 0, 0] ![1, 0, 0] sO sN = some s ∧ s.eval (fun k => a + dot g (gridCent k)) = g := by
  have hn : dot ![1, 0, 0] ![1, 0, 0] = 1 := by simp [dot]
  obtain ⟨sO, hO⟩ := grid_exists
  obtain ⟨sN, hN⟩ := grid_exists1
  obtain ⟨s, h⟩ := (C171_exists (owner := 0) (neigh := 1) (cO := gridCent 0) (cN := gridCent 1) (cI := ![0.5, 0, 0])
    (sO := sO) (sN := sN) hn).2 (by constructor <;> simp [dot, gridCent] <;> norm_num)
  exact ⟨sO, sN, s, hO, hN, h, C171_mesh (neighs := gridNeighs) hO hN grid_off grid_off1 h hn a g⟩

example : (((borderGradient ![1, 0, 0] (Sten.empty.addConst ![2, 3, 4])).add
    (dirichletCorrection 1 0 0 ![0.5, 0, 0] ![1, 0, 0] 0.5 (Sten.empty.addConst ![2, 3, 4]))).eval fun _ => 0) = ![2, 3, 4] := by
  refine C171_dirichlet_linear (a := 0) (g := ![2, 3, 4]) (by simp [dot]) (by norm_num) ?_ ?_ ?_
  · simp [dot]
  · rw [eval_const, eval_empty, zero_add]
  · simp [dot]; norm_num

/-! ### Laplacians -/

/-- the diffusivity at an interface: the mean of those of its cells -/
def conductivity (k : Nat → ℝ) (f : Face) : ℝ := match f.neigh with | none => k f.owner | some n => (k f.owner + k n) / 2

/-- the flux through an interface in the direction of its normal; the diffusivity is 1 if not given -/
def flux (diff : Option (Nat → ℝ)) (u : Nat → ℝ) (e : Face × Sten V) : ℝ :=
  e.1.area * conductivity (diff.getD fun _ => 1) e.1 * dot (e.2.eval u) e.1.normal

theorem face_diff (diff : Option (Nat → ℝ)) (f : Face) : faceDiff diff f = f.area * conductivity (diff.getD fun _ => 1) f := by
  unfold faceDiff conductivity
  cases diff <;> cases f.neigh <;> simp only [Option.getD_none, Option.getD_some] <;> ring

theorem flux_none (u : Nat → ℝ) (e : Face × Sten V) : flux none u e = e.1.area * dot (e.2.eval u) e.1.normal := by
  unfold flux
  rw [← face_diff]
  rfl

/-- the flux out of a cell through an interface -/
def outFlux (diff : Option (Nat → ℝ)) (u : Nat → ℝ) (k : Nat) (e : Face × Sten V) : ℝ :=
  (if e.1.owner = k then flux diff u e else 0) - (if e.1.neigh = some k then flux diff u e else 0)

/-- the interface bounds the cell -/
def touches (k : Nat) (f : Face) : Prop := f.owner = k ∨ f.neigh = some k

theorem sum_get (r : Div) (id : Nat) (t : Sten ℝ) (k : Nat) (s : Sten ℝ) (h : r k = some s) :
    ∃ s', (r.sum id t) k = some s' ∧ ∀ u, s'.eval u = s.eval u + if id = k then t.eval u else 0 := by
  unfold Div.sum
  by_cases hk : k = id
  · refine ⟨s.add t, by rw [if_pos hk, h]; rfl, fun u => by rw [if_pos hk.symm, eval_add]⟩
  · refine ⟨s, by rw [if_neg hk, h], fun u => by rw [if_neg (Ne.symm hk), add_zero]⟩

theorem sum_none (r : Div) (id : Nat) (t : Sten ℝ) (k : Nat) (h : r k = none) : (r.sum id t) k = none := by
  unfold Div.sum
  split
  · rw [h]; rfl
  · exact h

theorem step_get (diff : Option (Nat → ℝ)) (r : Div × List Nat) (e : Face × Sten V) (k : Nat) {s : Sten ℝ} (h : r.1 k = some s) :
    ∃ s', (divStep diff r e).1 k = some s' ∧ ∀ u, s'.eval u = s.eval u + outFlux diff u k e := by
  unfold divStep outFlux
  simp only
  have hf : ∀ u, ((e.2.dot e.1.normal).scale (faceDiff diff e.1)).eval u = flux diff u e := by
    intro u
    rw [eval_scale, eval_dot, smul_eq_mul, face_diff]
    rfl
  cases hn : e.1.neigh with
  | none =>
    simp only
    obtain ⟨s', h1, h2⟩ := sum_get r.1 e.1.owner ((e.2.dot e.1.normal).scale (faceDiff diff e.1)) k s h
    refine ⟨s', h1, fun u => ?_⟩
    have hz : (if (none : Option Nat) = some k then flux diff u e else 0) = 0 := if_neg (by simp)
    rw [h2, hf, hz, sub_zero]
  | some n =>
    simp only
    obtain ⟨s', h1, h2⟩ := sum_get r.1 e.1.owner ((e.2.dot e.1.normal).scale (faceDiff diff e.1)) k s h
    obtain ⟨s'', h3, h4⟩ := sum_get _ n (((e.2.dot e.1.normal).scale (faceDiff diff e.1)).scale (-1)) k s' h1
    refine ⟨s'', h3, fun u => ?_⟩
    rw [h4, h2, eval_scale (-1), hf]
    by_cases hk : n = k
    · have hz : (if some n = some k then flux diff u e else 0) = flux diff u e := if_pos (by rw [hk])
      rw [if_pos hk, hz, smul_eq_mul]; ring
    · have hz : (if some n = some k then flux diff u e else 0) = 0 := if_neg (by simpa using hk)
      rw [if_neg hk, hz]; ring

theorem step_none (diff : Option (Nat → ℝ)) (r : Div × List Nat) (e : Face × Sten V) (k : Nat) (h : r.1 k = none) : (divStep diff r e).1 k = none := by
  unfold divStep
  simp only
  split
  · exact sum_none _ _ _ _ h
  · exact sum_none _ _ _ _ (sum_none _ _ _ _ h)

theorem step_mem (diff : Option (Nat → ℝ)) (r : Div × List Nat) (e : Face × Sten V) (k : Nat) : k ∈ (divStep diff r e).2 ↔ k ∈ r.2 ∨ touches k e.1 := by
  unfold divStep touches
  simp only
  cases hn : e.1.neigh with
  | none => simp [eq_comm, or_comm]
  | some n => simp only [mem_cons, Option.some.injEq]; grind

theorem fold_get (diff : Option (Nat → ℝ)) (k : Nat) : ∀ (faces : List (Face × Sten V)) (r : Div × List Nat) {s : Sten ℝ}, r.1 k = some s →
    ∃ s', (faces.foldl (divStep diff) r).1 k = some s' ∧ ∀ u, s'.eval u = s.eval u + (faces.map (outFlux diff u k)).sum := by
  intro faces
  induction faces with
  | nil => intro r s h; exact ⟨s, h, fun u => by simp⟩
  | cons e l ih =>
    intro r s h
    obtain ⟨s1, h1, h2⟩ := step_get diff r e k h
    obtain ⟨s2, h3, h4⟩ := ih _ h1
    refine ⟨s2, h3, fun u => ?_⟩
    rw [h4, h2, map_cons, sum_cons]
    ring

theorem fold_none (diff : Option (Nat → ℝ)) (k : Nat) : ∀ (faces : List (Face × Sten V)) (r : Div × List Nat), r.1 k = none →
    (faces.foldl (divStep diff) r).1 k = none := by
  intro faces
  induction faces with
  | nil => intro r h; exact h
  | cons e l ih => intro r h; exact ih _ (step_none diff r e k h)

theorem fold_mem (diff : Option (Nat → ℝ)) (k : Nat) : ∀ (faces : List (Face × Sten V)) (r : Div × List Nat),
    k ∈ (faces.foldl (divStep diff) r).2 ↔ k ∈ r.2 ∨ ∃ e ∈ faces, touches k e.1 := by
  intro faces
  induction faces with
  | nil => intro r; simp
  | cons e l ih => intro r; rw [foldl_cons, ih, step_mem, or_assoc]; simp

/-- **C172.** A cell has a Laplacian stencil when one of the interfaces bounds it; its value is the sum of the fluxes out of the cell, over the volume. -/
theorem C172_value (cells : List Nat) (vol : Nat → ℝ) (faces : List (Face × Sten V)) (diff : Option (Nat → ℝ)) (k : Nat) :
    (∃ s, laplacianFV cells vol faces diff k = some s) = (k ∈ cells ∧ ∃ e ∈ faces, touches k e.1) ∧
    ∀ s, laplacianFV cells vol faces diff k = some s → ∀ u, s.eval u = (faces.map (outFlux diff u k)).sum / vol k := by
  classical
  unfold laplacianFV
  simp only [fold_mem, not_mem_nil, false_or]
  by_cases ht : ∃ e ∈ faces, touches k e.1
  · rw [if_pos ht]
    by_cases hk : k ∈ cells
    · obtain ⟨s, h1, h2⟩ := fold_get diff k faces (fun k => if k ∈ cells then some Sten.empty else none, []) (s := Sten.empty) (if_pos hk)
      rw [h1]
      refine ⟨propext ⟨fun _ => ⟨hk, ht⟩, fun _ => ⟨_, rfl⟩⟩, ?_⟩
      intro t he u
      simp only [Option.map_some, Option.some.injEq] at he
      rw [← he, eval_scale, h2, eval_empty, zero_add, smul_eq_mul]
      ring
    · rw [fold_none diff k faces _ (if_neg hk)]
      exact ⟨propext ⟨fun ⟨_, h⟩ => by simp at h, fun h => absurd h.1 hk⟩, fun s h => by simp at h⟩
  · rw [if_neg ht]
    exact ⟨propext ⟨fun ⟨_, h⟩ => by simp at h, fun h => absurd h.2 ht⟩, fun s h => by simp at h⟩

/-- **C172.** Constants have a zero Laplacian. -/
theorem C172_constant {cells : List Nat} {vol : Nat → ℝ} {faces : List (Face × Sten V)} {diff : Option (Nat → ℝ)} {k : Nat} {s : Sten ℝ} {u : Nat → ℝ}
    (h : laplacianFV cells vol faces diff k = some s) (hu : ∀ e ∈ faces, touches k e.1 → e.2.eval u = 0) : s.eval u = 0 := by
  rw [(C172_value cells vol faces diff k).2 s h]
  have : (faces.map (outFlux diff u k)).sum = 0 := by
    apply sum_eq_zero
    intro x hx
    obtain ⟨e, he, rfl⟩ := mem_map.1 hx
    unfold outFlux flux
    by_cases h1 : e.1.owner = k
    · rw [hu e he (Or.inl h1), dot_zero_left]; simp
    · by_cases h2 : e.1.neigh = some k
      · rw [hu e he (Or.inr h2), dot_zero_left]; simp
      · rw [if_neg h1, if_neg h2]; simp
  rw [this, zero_div]

/-- the area vector of an interface, out of the cell -/
def outArea (k : Nat) (e : Face × Sten V) : V :=
  (if e.1.owner = k then e.1.area • e.1.normal else 0) - (if e.1.neigh = some k then e.1.area • e.1.normal else 0)

/-- **C172.** Linear fields have a zero Laplacian at a cell whose interfaces close, when the gradients at the interfaces are exact and the diffusivity
is not given. -/
theorem C172_linear {cells : List Nat} {vol : Nat → ℝ} {faces : List (Face × Sten V)} {k : Nat} {s : Sten ℝ} {u : Nat → ℝ} {g : V}
    (h : laplacianFV cells vol faces none k = some s) (hu : ∀ e ∈ faces, touches k e.1 → e.2.eval u = g) (hc : (faces.map (outArea k)).sum = 0) :
    s.eval u = 0 := by
  rw [(C172_value cells vol faces none k).2 s h]
  have : ∀ l : List (Face × Sten V), (∀ e ∈ l, touches k e.1 → e.2.eval u = g) → (l.map (outFlux none u k)).sum = dot g (l.map (outArea k)).sum := by
    intro l
    induction l with
    | nil => intro _; simp [dot]
    | cons e l ih =>
      intro hl
      rw [map_cons, sum_cons, ih (fun e he => hl e (mem_cons_of_mem _ he)), map_cons, sum_cons, dot_add_right]
      congr 1
      unfold outFlux outArea
      rw [flux_none]
      by_cases h1 : e.1.owner = k
      · rw [hl e mem_cons_self (Or.inl h1), dot_sub_right, if_pos h1, if_pos h1, dot_smul_right]
        by_cases h2 : e.1.neigh = some k
        · rw [if_pos h2, if_pos h2, dot_smul_right]
        · rw [if_neg h2, if_neg h2]
          simp [dot]
      · by_cases h2 : e.1.neigh = some k
        · rw [hl e mem_cons_self (Or.inr h2), dot_sub_right, if_neg h1, if_neg h1, if_pos h2, if_pos h2, dot_smul_right]
          simp [dot]
        · rw [if_neg h1, if_neg h2, if_neg h1, if_neg h2]
          simp [dot]
  rw [this faces hu, hc]
  simp [dot]

/-- **C172.** What flows out of a cell flows into its neighbour: the sum of the Laplacians times the volumes is the flux through the border. -/
theorem C172_conservation {cells : List Nat} {vol : Nat → ℝ} {faces : List (Face × Sten V)} {diff : Option (Nat → ℝ)} (hnd : cells.Nodup)
    (hv : ∀ k ∈ cells, vol k ≠ 0) (ho : ∀ e ∈ faces, e.1.owner ∈ cells ∧ ∀ n, e.1.neigh = some n → n ∈ cells) (ht : ∀ k ∈ cells, ∃ e ∈ faces, touches k e.1)
    (u : Nat → ℝ) : (∀ k ∈ cells, ∃ s, laplacianFV cells vol faces diff k = some s) ∧
    (cells.map fun k => vol k * ((laplacianFV cells vol faces diff k).map fun s => s.eval u).getD 0).sum =
      ((faces.filter fun e => e.1.neigh.isNone).map (flux diff u)).sum := by
  have hex : ∀ k ∈ cells, ∃ s, laplacianFV cells vol faces diff k = some s := fun k hk => by
    rw [(C172_value cells vol faces diff k).1]
    exact ⟨hk, ht k hk⟩
  refine ⟨hex, ?_⟩
  have h1 : (cells.map fun k => vol k * ((laplacianFV cells vol faces diff k).map fun s => s.eval u).getD 0) = cells.map fun k => (faces.map (outFlux diff u k)).sum := by
    apply map_congr_left
    intro k hk
    obtain ⟨s, h⟩ := hex k hk
    rw [h, Option.map_some, Option.getD_some, (C172_value cells vol faces diff k).2 s h u]
    have := hv k hk
    field_simp
  rw [h1]
  have swap : ∀ l : List (Face × Sten V), (cells.map fun k => (l.map (outFlux diff u k)).sum).sum = (l.map fun e => (cells.map fun k => outFlux diff u k e).sum).sum := by
    intro l
    induction l with
    | nil => simp
    | cons e l ih =>
      rw [map_cons, sum_cons, ← ih]
      clear ih h1 hex hnd hv ho ht
      induction cells with
      | nil => simp
      | cons k ks ih2 => simp only [map_cons, sum_cons] at ih2 ⊢; linarith
  have pick : ∀ (x : ℝ) (i : Nat), i ∈ cells → (cells.map fun k => if i = k then x else 0).sum = x := by
    intro x i hi
    clear h1 hex hv ho ht swap
    induction cells with
    | nil => simp at hi
    | cons k ks ih =>
      rw [map_cons, sum_cons]
      rw [nodup_cons] at hnd
      by_cases hk : i = k
      · subst hk
        have : (ks.map fun k => if i = k then x else 0).sum = 0 := by
          apply sum_eq_zero
          intro y hy
          obtain ⟨a, ha, rfl⟩ := mem_map.1 hy
          exact if_neg fun h => hnd.1 (by rw [h]; exact ha)
        rw [if_pos rfl, this, add_zero]
      · rw [if_neg hk, ih hnd.2 ((mem_cons.1 hi).resolve_left hk), zero_add]
  have sub : ∀ (ks : List Nat) (a b : Nat → ℝ), (ks.map fun k => a k - b k).sum = (ks.map a).sum - (ks.map b).sum := by
    intro ks a b
    induction ks with
    | nil => simp
    | cons k ks ih => rw [map_cons, sum_cons, ih, map_cons, sum_cons, map_cons, sum_cons]; ring
  rw [swap]
  have fin : ∀ l : List (Face × Sten V), (∀ e ∈ l, e.1.owner ∈ cells ∧ ∀ n, e.1.neigh = some n → n ∈ cells) →
      (l.map fun e => (cells.map fun k => outFlux diff u k e).sum).sum = ((l.filter fun e => e.1.neigh.isNone).map (flux diff u)).sum := by
    intro l
    induction l with
    | nil => intro _; rfl
    | cons e l ih =>
      intro hl
      rw [map_cons, sum_cons, ih fun e he => hl e (mem_cons_of_mem _ he)]
      obtain ⟨h1, h2⟩ := hl e mem_cons_self
      have : (cells.map fun k => outFlux diff u k e).sum = if e.1.neigh.isNone then flux diff u e else 0 := by
        unfold outFlux
        rw [sub, pick _ _ h1]
        cases hn : e.1.neigh with
        | none =>
          have : (cells.map fun k => if (none : Option Nat) = some k then flux diff u e else 0).sum = 0 := by
            apply sum_eq_zero
            intro y hy
            obtain ⟨a, ha, rfl⟩ := mem_map.1 hy
            simp
          rw [this]
          simp
        | some n =>
          have : (cells.map fun k => if some n = some k then flux diff u e else 0) = cells.map fun k => if n = k then flux diff u e else 0 := by
            apply map_congr_left
            intro k _
            simp
          rw [this, pick _ _ (h2 n hn)]
          simp
      rw [this, filter_cons]
      split
      · rw [map_cons, sum_cons]
      · rw [zero_add]
  exact fin faces ho

/-- the two unit cells of a row, with the interface between them and the two at its ends -/
def rowFaces (s1 s2 s3 : Sten V) : List (Face × Sten V) :=
  [(⟨0, some 1, 1, ![1, 0, 0]⟩, s1), (⟨0, none, 1, ![-1, 0, 0]⟩, s2), (⟨1, none, 1, ![1, 0, 0]⟩, s3)]

example (s1 s2 s3 : Sten V) (u : Nat → ℝ) : ([0, 1].map fun k => 1 * ((laplacianFV [0, 1] (fun _ => 1) (rowFaces s1 s2 s3) none k).map fun s => s.eval u).getD 0).sum =
    (((rowFaces s1 s2 s3).filter fun e => e.1.neigh.isNone).map (flux none u)).sum := by
  refine (C172_conservation (by decide) (fun _ _ => one_ne_zero) ?_ ?_ u).2
  · simp [rowFaces]
  · intro k hk
    simp only [mem_cons, not_mem_nil, or_false] at hk
    rcases hk with rfl | rfl <;> simp [rowFaces, touches]

example : ∃ s, laplacianFV [0, 1] (fun _ => 1) (rowFaces (Sten.empty.addConst ![5, 0, 0]) (Sten.empty.addConst ![5, 0, 0]) (Sten.empty.addConst ![5, 0, 0])) none 0 = some s ∧
    s.eval (fun _ => 0) = 0 := by
  have h : ∃ s, laplacianFV [0, 1] (fun _ => 1) (rowFaces (Sten.empty.addConst ![5, 0, 0]) (Sten.empty.addConst ![5, 0, 0]) (Sten.empty.addConst ![5, 0, 0])) none 0 = some s := by
    rw [(C172_value _ _ _ _ _).1]
    simp [rowFaces, touches]
  obtain ⟨s, h⟩ := h
  refine ⟨s, h, C172_linear (g := ![5, 0, 0]) h ?_ ?_⟩
  · intro e he _
    simp only [rowFaces, mem_cons, not_mem_nil, or_false] at he
    rcases he with rfl | rfl | rfl <;> simp only [eval_const, eval_empty, zero_add]
  · simp [rowFaces, outArea]

/-- **C172.** Violated: the documentation promises stencils at the cells whose interfaces are all listed; a cell with one interface listed of two has one as
well, and for a linear field it is not zero. -/
theorem C172_some_interfaces_fails : ∃ (all listed : List (Face × Sten V)) (s : Sten ℝ) (u : Nat → ℝ), (∃ e ∈ all, touches 1 e.1 ∧ e ∉ listed) ∧
    (∀ e ∈ listed, e ∈ all) ∧ (∀ e ∈ all, e.2.eval u = ![5, 0, 0]) ∧ (all.map (outArea 1)).sum = 0 ∧ laplacianFV [0, 1] (fun _ => 1) listed none 1 = some s ∧
    s.eval u ≠ 0 := by
  let c : Sten V := Sten.empty.addConst ![5, 0, 0]
  have hc : c.eval (fun _ => 0) = ![5, 0, 0] := by
    show (Sten.empty.addConst _).eval _ = _
    rw [eval_const, eval_empty, zero_add]
  have h : ∃ s, laplacianFV [0, 1] (fun _ => 1) [((⟨0, some 1, 1, ![1, 0, 0]⟩, c) : Face × Sten V)] none 1 = some s := by
    rw [(C172_value _ _ _ _ _).1]
    simp [touches]
  obtain ⟨s, h⟩ := h
  refine ⟨rowFaces c c c, [(⟨0, some 1, 1, ![1, 0, 0]⟩, c)], s, fun _ => 0, ⟨(⟨1, none, 1, ![1, 0, 0]⟩, c), ?_, ?_, ?_⟩, ?_, ?_, ?_, h, ?_⟩
  · simp [rowFaces]
  · simp [touches]
  · simp
  · intro e he
    simp only [mem_cons, not_mem_nil, or_false] at he
    simp [rowFaces, he]
  · intro e he
    simp only [rowFaces, mem_cons, not_mem_nil, or_false] at he
    rcases he with rfl | rfl | rfl <;> exact hc
  · simp [rowFaces, outArea]
  · rw [(C172_value _ _ _ _ _).2 s h]
    simp [outFlux, flux_none, hc, dot]

end

end Verif.Lapl
