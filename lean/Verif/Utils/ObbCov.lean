import Mathlib.Analysis.SpecialFunctions.Integrals.Basic
import Verif.Utils.ObbProps
/-
C161: the axes of the oriented box are the principal directions of the geometries.
-/
namespace Verif.Utils
open Verif.Shape Verif.Manip Verif.Field
open Verif.Mesh (Obj Cell vertexIds)
open Verif.Rbf (tiny huge Fits)
open List hiding get get_of_mem

noncomputable section
open scoped Classical

/-! ### Specification: integrals over triangles -/

abbrev Tri := V3 × V3 × V3

/-- area of a triangle: half the length of the cross product of two sides -/
def areaOf (t : Tri) : ℝ := norm2 (cross (t.2.1 - t.1) (t.2.2 - t.1)) / 2

/-- the point with barycentric coordinates `1 - u - v`, `u`, `v` -/
def pointIn (t : Tri) (u v : ℝ) : V3 := t.1 + V3.scale u (t.2.1 - t.1) + V3.scale v (t.2.2 - t.1)

/-- integral of a function over a triangle (in barycentric coordinates, with the constant Jacobian) -/
def overTri (f : V3 → ℝ) (t : Tri) : ℝ := 2 * areaOf t * ∫ u in (0 : ℝ)..1, ∫ v in (0 : ℝ)..(1 - u), f (pointIn t u v)

/-- integral over a list of triangles -/
def overAll (f : V3 → ℝ) (ts : List Tri) : ℝ := (ts.map (overTri f)).sum

/-- `m` is the covariance matrix of the points spread uniformly over the triangles -/
def IsCovariance (ts : List Tri) (m : M3) : Prop :=
  let a := overAll (fun _ => 1) ts
  0 < a ∧ ∃ c : V3, (∀ i, overAll (fun x => x.at i) ts = a * c.at i) ∧
    ∀ i j, overAll (fun x => (x.at i - c.at i) * (x.at j - c.at j)) ts = a * (m.row i).at j

/-! ### Integrals -/

theorem int_cubic (a b c d t : ℝ) :
    ∫ x in (0 : ℝ)..t, (a + b * x + c * x ^ 2 + d * x ^ 3) = a * t + b * t ^ 2 / 2 + c * t ^ 3 / 3 + d * t ^ 4 / 4 := by
  have key : ∀ x ∈ Set.uIcc (0 : ℝ) t,
      HasDerivAt (fun x => a * x + b * x ^ 2 / 2 + c * x ^ 3 / 3 + d * x ^ 4 / 4) (a + b * x + c * x ^ 2 + d * x ^ 3) x := by
    intro x _
    have h1 := (hasDerivAt_id x).const_mul a
    have h2 := ((hasDerivAt_pow 2 x).const_mul b).div_const 2
    have h3 := ((hasDerivAt_pow 3 x).const_mul c).div_const 3
    have h4 := ((hasDerivAt_pow 4 x).const_mul d).div_const 4
    have := ((h1.add h2).add h3).add h4
    refine this.congr_deriv ?_
    norm_num
    ring
  rw [intervalIntegral.integral_eq_sub_of_hasDerivAt key]
  · ring
  · apply Continuous.intervalIntegrable
    fun_prop

theorem int_quadratic (a b c d e g : ℝ) :
    ∫ u in (0 : ℝ)..1, ∫ v in (0 : ℝ)..(1 - u), (a + b * u + c * v + d * u ^ 2 + e * (u * v) + g * v ^ 2) =
      a / 2 + b / 6 + c / 6 + d / 12 + e / 24 + g / 12 := by
  have inner : ∀ u : ℝ, ∫ v in (0 : ℝ)..(1 - u), (a + b * u + c * v + d * u ^ 2 + e * (u * v) + g * v ^ 2) =
      (a + c / 2 + g / 3) + (b - a + e / 2 - c - g) * u + (d - b + c / 2 - e + g) * u ^ 2 + (e / 2 - d - g / 3) * u ^ 3 := by
    intro u
    have : ∀ v, a + b * u + c * v + d * u ^ 2 + e * (u * v) + g * v ^ 2 =
        (a + b * u + d * u ^ 2) + (c + e * u) * v + g * v ^ 2 + 0 * v ^ 3 := by intro v; ring
    simp only [this]
    rw [int_cubic]; ring
  simp only [inner]
  rw [int_cubic]; ring

theorem at_point (t : Tri) (u v : ℝ) (i : Nat) :
    (pointIn t u v).at i = t.1.at i + u * (t.2.1.at i - t.1.at i) + v * (t.2.2.at i - t.1.at i) := by
  match i with
  | 0 => rfl
  | 1 => rfl
  | n + 2 => rfl

theorem overTri_one (t : Tri) : overTri (fun _ => 1) t = areaOf t := by
  unfold overTri
  have := int_quadratic 1 0 0 0 0 0
  simp only [zero_mul, add_zero] at this
  rw [this]; ring

theorem overTri_at (t : Tri) (i : Nat) : overTri (fun x => x.at i) t = areaOf t * ((t.1.at i + t.2.1.at i + t.2.2.at i) / 3) := by
  unfold overTri
  have : ∀ u v, (pointIn t u v).at i = t.1.at i + (t.2.1.at i - t.1.at i) * u + (t.2.2.at i - t.1.at i) * v + 0 * u ^ 2 + 0 * (u * v) + 0 * v ^ 2 := by
    intro u v; rw [at_point]; ring
  simp only [this]
  rw [int_quadratic]; ring

theorem overTri_prod (t : Tri) (c : V3) (i j : Nat) :
    overTri (fun x => (x.at i - c.at i) * (x.at j - c.at j)) t =
      areaOf t * ((9 * ((t.1.at i + t.2.1.at i + t.2.2.at i) / 3) * ((t.1.at j + t.2.1.at j + t.2.2.at j) / 3) +
          t.1.at i * t.1.at j + t.2.1.at i * t.2.1.at j + t.2.2.at i * t.2.2.at j) / 12)
        - c.at i * (areaOf t * ((t.1.at j + t.2.1.at j + t.2.2.at j) / 3))
        - c.at j * (areaOf t * ((t.1.at i + t.2.1.at i + t.2.2.at i) / 3)) + c.at i * c.at j * areaOf t := by
  unfold overTri
  have : ∀ u v, ((pointIn t u v).at i - c.at i) * ((pointIn t u v).at j - c.at j) =
      (t.1.at i - c.at i) * (t.1.at j - c.at j) +
      ((t.1.at i - c.at i) * (t.2.1.at j - t.1.at j) + (t.1.at j - c.at j) * (t.2.1.at i - t.1.at i)) * u +
      ((t.1.at i - c.at i) * (t.2.2.at j - t.1.at j) + (t.1.at j - c.at j) * (t.2.2.at i - t.1.at i)) * v +
      ((t.2.1.at i - t.1.at i) * (t.2.1.at j - t.1.at j)) * u ^ 2 +
      ((t.2.1.at i - t.1.at i) * (t.2.2.at j - t.1.at j) + (t.2.1.at j - t.1.at j) * (t.2.2.at i - t.1.at i)) * (u * v) +
      ((t.2.2.at i - t.1.at i) * (t.2.2.at j - t.1.at j)) * v ^ 2 := by
    intro u v; rw [at_point, at_point]; ring
  simp only [this]
  rw [int_quadratic]; ring

/-! ### The sums of the code -/

/-- the entry of a symmetric matrix -/
def S3.at (m : S3) : Nat → Nat → ℝ
  | 0, 0 => m.xx
  | 0, 1 => m.xy
  | 0, _ => m.xz
  | 1, 0 => m.xy
  | 1, 1 => m.yy
  | 1, _ => m.yz
  | _, 0 => m.xz
  | _, 1 => m.yz
  | _, _ => m.zz

def midAt (t : Tri) (i : Nat) : ℝ := (t.1.at i + t.2.1.at i + t.2.2.at i) / 3
def momAt (t : Tri) (i j : Nat) : ℝ :=
  areaOf t * ((9 * midAt t i * midAt t j + t.1.at i * t.1.at j + t.2.1.at i * t.2.1.at j + t.2.2.at i * t.2.2.at j) / 12)

theorem triArea_eq (t : Tri) : triArea t.1 t.2.1 t.2.2 = areaOf t := by unfold triArea areaOf; ring

theorem add_spec (s : Sums) (t : Tri) : (s.add t).area = s.area + areaOf t ∧
    (∀ i, (s.add t).mass.at i = s.mass.at i + areaOf t * midAt t i) ∧
    ∀ i j, (s.add t).mom.at i j = s.mom.at i j + momAt t i j := by
  unfold Sums.add momAt midAt
  simp only [triArea_eq, triMid]
  refine ⟨trivial, ?_, ?_⟩
  · intro i
    match i with
    | 0 => simp [V3.at, V3.scale]
    | 1 => simp [V3.at, V3.scale]
    | n + 2 => simp [V3.at, V3.scale]
  · intro i j
    match i, j with
    | 0, 0 => simp only [S3.at, V3.at]; ring
    | 0, 1 => simp only [S3.at, V3.at]; ring
    | 0, n + 2 => simp only [S3.at, V3.at]; ring
    | 1, 0 => simp only [S3.at, V3.at]; ring
    | 1, 1 => simp only [S3.at, V3.at]; ring
    | 1, n + 2 => simp only [S3.at, V3.at]; ring
    | n + 2, 0 => simp only [S3.at, V3.at]; ring
    | n + 2, 1 => simp only [S3.at, V3.at]; ring
    | n + 2, k + 2 => simp only [S3.at, V3.at]; ring

theorem sums_spec (ts : List Tri) (s : Sums) : (ts.foldl Sums.add s).area = s.area + (ts.map areaOf).sum ∧
    (∀ i, (ts.foldl Sums.add s).mass.at i = s.mass.at i + (ts.map (fun t => areaOf t * midAt t i)).sum) ∧
    ∀ i j, (ts.foldl Sums.add s).mom.at i j = s.mom.at i j + (ts.map (fun t => momAt t i j)).sum := by
  induction ts generalizing s with
  | nil => simp
  | cons t ts ih =>
    obtain ⟨a1, a2, a3⟩ := add_spec s t
    obtain ⟨b1, b2, b3⟩ := ih (s.add t)
    simp only [foldl_cons, map_cons, sum_cons]
    refine ⟨by rw [b1, a1]; ring, fun i => by rw [b2, a2]; ring, fun i j => by rw [b3, a3]; ring⟩

theorem sum_lin (ts : List Tri) (f g h k : Tri → ℝ) (a b c : ℝ) :
    (ts.map (fun t => f t - a * g t - b * h t + c * k t)).sum =
      (ts.map f).sum - a * (ts.map g).sum - b * (ts.map h).sum + c * (ts.map k).sum := by
  induction ts with
  | nil => simp
  | cons t ts ih => simp only [map_cons, sum_cons, ih]; ring

theorem area_nonneg (t : Tri) : 0 ≤ areaOf t := by
  unfold areaOf norm2
  positivity

theorem areas_nonneg (ts : List Tri) : 0 ≤ (ts.map areaOf).sum := by
  induction ts with
  | nil => simp
  | cons t ts ih => simp only [map_cons, sum_cons]; linarith [area_nonneg t]

/-- the matrix assembled from triangles -/
theorem assembled {ts : List Tri} (h : (ts.foldl Sums.add {}).area ≠ 0) :
    let s := ts.foldl Sums.add {}
    let c := V3.scale (1 / s.area) s.mass
    IsCovariance ts ⟨⟨s.mom.xx / s.area - c.x * c.x, s.mom.xy / s.area - c.x * c.y, s.mom.xz / s.area - c.x * c.z⟩,
      ⟨s.mom.xy / s.area - c.y * c.x, s.mom.yy / s.area - c.y * c.y, s.mom.yz / s.area - c.y * c.z⟩,
      ⟨s.mom.xz / s.area - c.z * c.x, s.mom.yz / s.area - c.z * c.y, s.mom.zz / s.area - c.z * c.z⟩⟩ := by
  obtain ⟨h1, h2, h3⟩ := sums_spec ts {}
  intro s c
  have z1 : ∀ i, (({} : Sums).mass).at i = 0 := by
    intro i
    match i with
    | 0 => rfl
    | 1 => rfl
    | n + 2 => rfl
  have z2 : ∀ i j, (({} : Sums).mom).at i j = 0 := by
    intro i j
    match i, j with
    | 0, 0 => rfl
    | 0, 1 => rfl
    | 0, n + 2 => rfl
    | 1, 0 => rfl
    | 1, 1 => rfl
    | 1, n + 2 => rfl
    | n + 2, 0 => rfl
    | n + 2, 1 => rfl
    | n + 2, k + 2 => rfl
  have ha : s.area = (ts.map areaOf).sum := by simpa using h1
  have ea : overAll (fun _ => 1) ts = s.area := by
    unfold overAll
    rw [ha]
    congr 1
    exact map_congr_left (fun t _ => overTri_one t)
  have ei : ∀ i, overAll (fun x => x.at i) ts = s.mass.at i := by
    intro i
    unfold overAll
    rw [h2 i, z1, zero_add]
    congr 1
    exact map_congr_left (fun t _ => overTri_at t i)
  have hs0 : s.area ≠ 0 := h
  have ec : ∀ i, s.area * c.at i = s.mass.at i := by
    intro i
    match i with
    | 0 => simp only [c, V3.at, V3.scale]; field_simp
    | 1 => simp only [c, V3.at, V3.scale]; field_simp
    | n + 2 => simp only [c, V3.at, V3.scale]; field_simp
  have em : ∀ i j, overAll (fun x => (x.at i - c.at i) * (x.at j - c.at j)) ts = s.mom.at i j - s.area * (c.at i * c.at j) := by
    intro i j
    have : ∀ t ∈ ts, overTri (fun x => (x.at i - c.at i) * (x.at j - c.at j)) t =
        momAt t i j - c.at i * (areaOf t * midAt t j) - c.at j * (areaOf t * midAt t i) + c.at i * c.at j * areaOf t :=
      fun t _ => overTri_prod t c i j
    unfold overAll
    rw [map_congr_left this, sum_lin, ← ha]
    have k1 := h2 j
    have k2 := h2 i
    have k3 := h3 i j
    rw [z1, zero_add] at k1 k2
    rw [z2, zero_add] at k3
    rw [← k1, ← k2, ← k3]
    have q1 := ec i
    have q2 := ec j
    simp only [s] at q1 q2 ⊢
    rw [← q1, ← q2]; ring
  have hpos : 0 < s.area := lt_of_le_of_ne (by rw [ha]; exact areas_nonneg ts) (Ne.symm h)
  unfold IsCovariance
  simp only [ea]
  refine ⟨hpos, c, fun i => by rw [ei, ec], fun i j => ?_⟩
  rw [em]
  have hn : s.area ≠ 0 := hpos.ne'
  match i, j with
  | 0, 0 => simp only [S3.at, V3.at, M3.row]; field_simp
  | 0, 1 => simp only [S3.at, V3.at, M3.row]; field_simp
  | 0, n + 2 => simp only [S3.at, V3.at, M3.row]; field_simp
  | 1, 0 => simp only [S3.at, V3.at, M3.row]; field_simp
  | 1, 1 => simp only [S3.at, V3.at, M3.row]; field_simp
  | 1, n + 2 => simp only [S3.at, V3.at, M3.row]; field_simp
  | n + 2, 0 => simp only [S3.at, V3.at, M3.row]; field_simp
  | n + 2, 1 => simp only [S3.at, V3.at, M3.row]; field_simp
  | n + 2, k + 2 => simp only [S3.at, V3.at, M3.row]; field_simp

/-! ### The triangles of surfaces -/

/-- the cells of a list of geometries, each with its geometry -/
def cellsOf (w : World) (gs : List Nat) : List (Obj V3 × Cell) := gs.flatMap (fun g => (w g).cells.map (fun e => (w g, e.2)))

/-- the geometries are triangulated, and `ts` are the coordinates of the corners of their cells -/
def Triangulated (w : World) (gs : List Nat) (ts : List Tri) : Prop :=
  Forall₂ (fun x t => ∃ a b c, x.2.elem = .triangle ∧ x.2.conn = [a, b, c] ∧ get x.1.verts a = some t.1 ∧
    get x.1.verts b = some t.2.1 ∧ get x.1.verts c = some t.2.2) (cellsOf w gs) ts

/-- no geometry is a cloud of points or a curve -/
def Surfaces (w : World) (gs : List Nat) : Prop := ∀ g ∈ gs, (w g).type ≠ 3 ∧ (w g).type ≠ 4

theorem rep_of {x : Obj V3 × Cell} {t : Tri} (h : ∃ a b c, x.2.elem = .triangle ∧ x.2.conn = [a, b, c] ∧ get x.1.verts a = some t.1 ∧
    get x.1.verts b = some t.2.1 ∧ get x.1.verts c = some t.2.2) : repPoints x.1 x.2 = some (some t) := by
  obtain ⟨a, b, c, h1, h2, h3, h4, h5⟩ := h
  unfold repPoints
  rw [h1]
  simp only [h2, cornerOf, h3, h4, h5]
  rfl

theorem trisOf_eq {w : World} {gs : List Nat} {ts : List Tri} (h : Triangulated w gs ts) : trisOf w gs = some (ts.map some) := by
  unfold trisOf
  unfold Triangulated at h
  show (cellsOf w gs).mapM _ = _
  generalize cellsOf w gs = l at h
  induction h with
  | nil => rfl
  | cons hx _ ih => rw [mapM_cons, rep_of hx, ih]; rfl

theorem not_cloud {w : World} {gs : List Nat} (h : Surfaces w gs) : allCloud w gs = false := by
  unfold allCloud
  rw [any_eq_false]
  intro g hg
  obtain ⟨h1, h2⟩ := h g hg
  simp [h1, h2]

theorem covariance_tri {w : World} {gs : List Nat} {ts : List Tri} (junk : S3) (hs : Surfaces w gs) (h : Triangulated w gs ts) :
    ((ts.map areaOf).sum = 0 → covariance junk w gs = none) ∧
    ((ts.map areaOf).sum ≠ 0 → ∃ m, covariance junk w gs = some m ∧ IsCovariance ts m) := by
  have ha : (ts.foldl Sums.add {}).area = (ts.map areaOf).sum := by simpa using (sums_spec ts {}).1
  unfold covariance
  rw [not_cloud hs]
  unfold elementsMatrix
  rw [trisOf_eq h]
  have hf : (ts.map some).filterMap id = ts := by
    induction ts with
    | nil => rfl
    | cons t ts _ => simp
  simp only [Bool.false_eq_true, if_false, Option.bind_some, hf, ha]
  constructor
  · intro h0; rw [if_pos h0]
  · intro h0
    rw [if_neg h0]
    refine ⟨_, rfl, ?_⟩
    have := assembled (ts := ts) (by rw [ha]; exact h0)
    simp only [ha] at this
    exact this

/-! ### C161 -/

/-- **C161**: for triangulated surfaces the matrix given to the solver is the covariance matrix of the points spread uniformly over all
their triangles (the integrals of the definition) -/
theorem C161_surface {w : World} {gs : List Nat} {ts : List Tri} (junk : S3) (hs : Surfaces w gs) (h : Triangulated w gs ts)
    (ha : 0 < overAll (fun _ => 1) ts) : ∃ m, covariance junk w gs = some m ∧ IsCovariance ts m := by
  refine (covariance_tri junk hs h).2 ?_
  have : overAll (fun _ => 1) ts = (ts.map areaOf).sum := by
    unfold overAll
    congr 1
    exact map_congr_left (fun t _ => overTri_one t)
  rw [← this]
  exact ha.ne'

/-- the covariance matrix is determined by the triangles -/
theorem covariance_unique {ts : List Tri} {m m' : M3} (h : IsCovariance ts m) (h' : IsCovariance ts m') : m = m' := by
  obtain ⟨ha, c, h1, h2⟩ := h
  obtain ⟨-, c', k1, k2⟩ := h'
  generalize overAll (fun _ => 1) ts = a at *
  have hc : ∀ i, c.at i = c'.at i := by
    intro i
    have := (h1 i).symm.trans (k1 i)
    exact mul_left_cancel₀ ha.ne' this
  have hm : ∀ i j, (m.row i).at j = (m'.row i).at j := by
    intro i j
    have e := h2 i j
    have e' := k2 i j
    rw [← hc, ← hc] at e'
    exact mul_left_cancel₀ ha.ne' (e.symm.trans e')
  ext
  · exact hm 0 0
  · exact hm 0 1
  · exact hm 0 2
  · exact hm 1 0
  · exact hm 1 1
  · exact hm 1 2
  · exact hm 2 0
  · exact hm 2 1
  · exact hm 2 2

/-- what the eigenvalue solver must return for a matrix: orthonormal eigenvectors with the eigenvalues in ascending order -/
structure Solved (m : M3) (e : M3 × V3) : Prop where
  ortho : Ortho e.1
  first : m.app e.1.r0 = V3.scale e.2.x e.1.r0
  second : m.app e.1.r1 = V3.scale e.2.y e.1.r1
  third : m.app e.1.r2 = V3.scale e.2.z e.1.r2
  asc : e.2.x ≤ e.2.y ∧ e.2.y ≤ e.2.z

/-- the axes `r` are eigenvectors of `m` for the values `l`, the largest first -/
structure Principal (m : M3) (r : M3) (l : V3) : Prop where
  first : m.app r.r0 = V3.scale l.x r.r0
  second : m.app r.r1 = V3.scale l.y r.r1
  third : m.app r.r2 = V3.scale l.z r.r2
  desc : l.z ≤ l.y ∧ l.y ≤ l.x

/-- two numbers are equal or can be told apart by the code -/
def Apart (a b : ℝ) : Prop := a = b ∨ tiny < |a - b|

theorem app_scale (m : M3) (k : ℝ) (v : V3) : m.app (V3.scale k v) = V3.scale k (m.app v) := by
  ext <;> simp only [M3.app, V3.scale, dot] <;> ring

theorem scale_scale (a b : ℝ) (v : V3) : V3.scale a (V3.scale b v) = V3.scale (a * b) v := by
  ext <;> simp only [V3.scale] <;> ring

theorem turned_rows (m : M3) : (turned m).r0 = m.r0 ∧ (turned m).r1 = m.r1 ∧ ∃ k, (turned m).r2 = V3.scale k m.r2 := by
  unfold turned
  split
  · exact ⟨rfl, rfl, -1, rfl⟩
  · exact ⟨rfl, rfl, 1, by ext <;> simp [V3.scale]⟩

theorem eig_scale {m : M3} {l k : ℝ} {v : V3} (h : m.app v = V3.scale l v) : m.app (V3.scale k v) = V3.scale l (V3.scale k v) := by
  rw [app_scale, h, scale_scale, scale_scale, mul_comm]

/-- components along an orthonormal frame -/
theorem expand {a b : V3} (ha : dot a a = 1) (hb : dot b b = 1) (hab : dot a b = 0) (v : V3) :
    ∃ k0 k1 k2, k0 = dot v a ∧ k1 = dot v b ∧ k2 = dot v (cross a b) ∧
      v = V3.scale k0 a + V3.scale k1 b + V3.scale k2 (cross a b) := by
  have s := split_along a b v
  rw [cross_norm ha hb hab, ha, hb, hab] at s
  refine ⟨_, _, _, rfl, rfl, rfl, ?_⟩
  generalize dot v a = k0 at *
  generalize dot v b = k1 at *
  generalize dot v (cross a b) = k2 at *
  have : V3.scale 1 v = v := by ext <;> simp [V3.scale]
  rw [this] at s
  rw [s]
  ext <;> simp only [V3.scale, add_x, add_y, add_z] <;> ring

theorem app_split (m : M3) (a b c v : V3) (k : ℝ × ℝ × ℝ) (h : v = V3.scale k.1 a + V3.scale k.2.1 b + V3.scale k.2.2 c) :
    m.app v = V3.scale k.1 (m.app a) + V3.scale k.2.1 (m.app b) + V3.scale k.2.2 (m.app c) := by
  rw [h]
  ext <;> simp only [M3.app, V3.scale, dot, add_x, add_y, add_z] <;> ring

theorem adjust_principal {m : M3} {e : M3 × V3} (h : Solved m e) (ha : Apart e.2.x e.2.y) (hb : Apart e.2.y e.2.z) (hc : Apart e.2.x e.2.z) :
    Principal m (adjustBasis ⟨e.1.r2, e.1.r1, e.1.r0⟩ ⟨e.2.z, e.2.y, e.2.x⟩) ⟨e.2.z, e.2.y, e.2.x⟩ := by
  have le_of : ∀ {a b : ℝ}, Apart a b → |a - b| ≤ tiny → a = b := by
    intro a b h1 h2
    rcases h1 with h1 | h1
    · exact h1
    · exact absurd h2 (not_le.2 h1)
  obtain ⟨ho, f0, f1, f2, a1, a2⟩ := h
  have o02 : dot e.1.r2 e.1.r0 = 0 := by rw [dot_comm]; exact ho.o02
  have o12 : dot e.1.r2 e.1.r1 = 0 := by rw [dot_comm]; exact ho.o12
  have o01 : dot e.1.r1 e.1.r0 = 0 := by rw [dot_comm]; exact ho.o01
  unfold adjustBasis
  simp only
  split
  · rename_i h3
    obtain ⟨t0, t1, t2⟩ := h3
    have e1 : e.2.y = e.2.z := le_of hb t0
    have e2 : e.2.x = e.2.y := le_of ha t1
    -- a multiple of the identity
    have key : ∀ v, m.app v = V3.scale e.2.x v := by
      intro v
      have l := cross_norm ho.u0 ho.u1 ho.o01
      have q := third_of ho.u0 ho.u1 ho.o01 (v := e.1.r2) o02 o12
      have l2 : dot e.1.r2 (cross e.1.r0 e.1.r1) * dot e.1.r2 (cross e.1.r0 e.1.r1) = 1 := by
        have u := ho.u2
        rw [q] at u
        generalize dot e.1.r2 (cross e.1.r0 e.1.r1) = k at u
        have : dot (V3.scale k (cross e.1.r0 e.1.r1)) (V3.scale k (cross e.1.r0 e.1.r1)) =
            k * k * dot (cross e.1.r0 e.1.r1) (cross e.1.r0 e.1.r1) := by simp only [dot, V3.scale]; ring
        rw [this, l] at u
        linarith
      generalize dot e.1.r2 (cross e.1.r0 e.1.r1) = k at q l2
      have n : cross e.1.r0 e.1.r1 = V3.scale k e.1.r2 := by
        rw [q, scale_scale, l2]; ext <;> simp [V3.scale]
      have fn : m.app (cross e.1.r0 e.1.r1) = V3.scale e.2.x (cross e.1.r0 e.1.r1) := by
        rw [n]; apply eig_scale; rw [f2, ← e1, ← e2]
      obtain ⟨k0, k1, k2, -, -, -, sv⟩ := expand ho.u0 ho.u1 ho.o01 v
      have t := app_split m e.1.r0 e.1.r1 (cross e.1.r0 e.1.r1) v (k0, k1, k2) sv
      rw [f0, f1, fn, ← e2] at t
      rw [t]
      conv_rhs => rw [sv]
      ext <;> simp only [V3.scale, add_x, add_y, add_z] <;> ring
    refine ⟨?_, ?_, ?_, a1, a2⟩
    · rw [key, e2, e1]
    · rw [key, e2]
    · rw [key]
  · split
    · obtain ⟨t0, t1, k, t2⟩ := turned_rows ⟨e.1.r2, e.1.r1, e.1.r0⟩
      refine ⟨by rw [t0]; exact f2, by rw [t1]; exact f1, by rw [t2]; exact eig_scale f0, a1, a2⟩
    · rename_i h3 h4
      split
      · -- the two least are equal
        rename_i h5
        have c1 := cross_norm ho.u2 ho.u1 o12
        simp only [M3.row, M3.setRow]
        rw [if_pos (by rw [norm2_one c1]; exact tiny_lt_one), unit_of_unit c1]
        obtain ⟨t0, t1, k, t2⟩ := turned_rows ⟨e.1.r2, e.1.r1, cross e.1.r2 e.1.r1⟩
        refine ⟨by rw [t0]; exact f2, by rw [t1]; exact f1, ?_, a1, a2⟩
        rw [t2]
        apply eig_scale
        -- the product is along the vector of the solver
        have q := third_of ho.u2 ho.u1 o12 (v := e.1.r0) ho.o02 ho.o01
        generalize hk : dot e.1.r0 (cross e.1.r2 e.1.r1) = k' at q
        have hk0 : k' ≠ 0 := by
          intro h0
          have u := ho.u0
          rw [q, h0] at u
          simp [dot, V3.scale] at u
        have n : cross e.1.r2 e.1.r1 = V3.scale (1 / k') e.1.r0 := by
          rw [q, scale_scale, one_div, inv_mul_cancel₀ hk0]; ext <;> simp [V3.scale]
        rw [n]
        exact eig_scale f0
      · rename_i h5
        have c1 := cross_norm ho.u0 ho.u2 ho.o02
        simp only [M3.row, M3.setRow]
        rw [if_pos (by rw [norm2_one c1]; exact tiny_lt_one), unit_of_unit c1]
        obtain ⟨t0, t1, k, t2⟩ := turned_rows ⟨e.1.r2, cross e.1.r0 e.1.r2, e.1.r0⟩
        refine ⟨by rw [t0]; exact f2, ?_, by rw [t2]; exact eig_scale f0, a1, a2⟩
        rw [t1]
        have q := third_of ho.u0 ho.u2 ho.o02 (v := e.1.r1) o01 ho.o12
        generalize hk : dot e.1.r1 (cross e.1.r0 e.1.r2) = k' at q
        have hk0 : k' ≠ 0 := by
          intro h0
          have u := ho.u1
          rw [q, h0] at u
          simp [dot, V3.scale] at u
        have n : cross e.1.r0 e.1.r2 = V3.scale (1 / k') e.1.r1 := by
          rw [q, scale_scale, one_div, inv_mul_cancel₀ hk0]; ext <;> simp [V3.scale]
        rw [n]
        exact eig_scale f1

/-- the eigenvalues of the solver are equal or can be told apart -/
def ApartValues (v : V3) : Prop := Apart v.x v.y ∧ Apart v.y v.z ∧ Apart v.x v.z

/-- **C161**: for triangulated surfaces, if the solver returns orthonormal eigenvectors in ascending order, the axes of the oriented box are
a right-handed frame of principal directions, the one of the largest variance first; so are they when eigenvalues coincide -/
theorem C161_principal {syev : M3 → M3 × V3} {junk : S3} {w : World} {b r : Obb} {ts : List Tri} (hb : b.strategy = .obb)
    (hg : b.geos ≠ []) (hs : Surfaces w b.geos) (ht : Triangulated w b.geos ts) (h : b.execute syev junk w = some r)
    (hv : ∀ m, IsCovariance ts m → Solved m (syev m) ∧ ApartValues (syev m).2) :
    ∃ m l, IsCovariance ts m ∧ Triad r.axes ∧ Principal m r.axes l := by
  have h1 : b.execute syev junk w = (computeObb syev junk w b.geos).map b.put := by
    unfold Obb.execute
    rw [if_neg (by simpa using hg), hb]
  rw [h1] at h
  obtain ⟨d, hd, rfl⟩ := Option.map_eq_some_iff.1 h
  unfold computeObb at hd
  by_cases h0 : (ts.map areaOf).sum = 0
  · rw [(covariance_tri junk hs ht).1 h0] at hd
    exact absurd hd (by simp)
  · obtain ⟨m, hm, hc⟩ := (covariance_tri junk hs ht).2 h0
    rw [hm] at hd
    simp only [Option.bind_some] at hd
    obtain ⟨sv, g1, g2, g3⟩ := hv m hc
    refine ⟨m, ⟨(syev m).2.z, (syev m).2.y, (syev m).2.x⟩, hc, ?_⟩
    rw [(put_parts b d).2.2.1, boxAlong_axes hd]
    have e : eigenVectors syev m = (⟨(syev m).1.r2, (syev m).1.r1, (syev m).1.r0⟩, ⟨(syev m).2.z, (syev m).2.y, (syev m).2.x⟩) := by
      unfold eigenVectors
      simp only [unit_of_unit sv.ortho.u0, unit_of_unit sv.ortho.u1, unit_of_unit sv.ortho.u2]
    refine ⟨adjust_triad (eigen_ortho sv.ortho) _, ?_⟩
    rw [e]
    exact adjust_principal sv g1 g2 g3

/-- **C161**: of all directions, the first axis is one of largest variance and the third one of least -/
theorem C161_spread {m r : M3} {l : V3} (ht : Triad r) (h : Principal m r l) (v : V3) (hv : dot v v = 1) :
    dot (m.app r.r2) r.r2 ≤ dot (m.app v) v ∧ dot (m.app v) v ≤ dot (m.app r.r0) r.r0 := by
  obtain ⟨k0, k1, k2, -, -, -, e⟩ := expand ht.u0 ht.u1 ht.o01 v
  rw [← ht.hand] at e
  have o := triad_ortho ht
  have ma := app_split m r.r0 r.r1 r.r2 v (k0, k1, k2) e
  rw [h.first, h.second, h.third] at ma
  simp only [scale_scale] at ma
  have lin : ∀ (x0 x1 x2 y0 y1 y2 : ℝ), dot (V3.scale x0 r.r0 + V3.scale x1 r.r1 + V3.scale x2 r.r2)
      (V3.scale y0 r.r0 + V3.scale y1 r.r1 + V3.scale y2 r.r2) = x0 * y0 + x1 * y1 + x2 * y2 := by
    intro x0 x1 x2 y0 y1 y2
    have : dot (V3.scale x0 r.r0 + V3.scale x1 r.r1 + V3.scale x2 r.r2) (V3.scale y0 r.r0 + V3.scale y1 r.r1 + V3.scale y2 r.r2) =
        x0 * y0 * dot r.r0 r.r0 + x1 * y1 * dot r.r1 r.r1 + x2 * y2 * dot r.r2 r.r2 +
        (x0 * y1 + x1 * y0) * dot r.r0 r.r1 + (x0 * y2 + x2 * y0) * dot r.r0 r.r2 + (x1 * y2 + x2 * y1) * dot r.r1 r.r2 := by
      simp only [dot, V3.scale, add_x, add_y, add_z]; ring
    rw [this, o.u0, o.u1, o.u2, o.o01, o.o02, o.o12]; ring
  have hn : k0 * k0 + k1 * k1 + k2 * k2 = 1 := by
    rw [← lin, ← e]; exact hv
  have hq : dot (m.app v) v = k0 * l.x * k0 + k1 * l.y * k1 + k2 * l.z * k2 := by
    rw [ma]
    conv_lhs => arg 2; rw [e]
    exact lin _ _ _ _ _ _
  have s0 : dot (m.app r.r0) r.r0 = l.x := by
    rw [h.first]
    have : dot (V3.scale l.x r.r0) r.r0 = l.x * dot r.r0 r.r0 := by simp only [dot, V3.scale]; ring
    rw [this, o.u0, mul_one]
  have s2 : dot (m.app r.r2) r.r2 = l.z := by
    rw [h.third]
    have : dot (V3.scale l.z r.r2) r.r2 = l.z * dot r.r2 r.r2 := by simp only [dot, V3.scale]; ring
    rw [this, o.u2, mul_one]
  rw [s0, s2, hq]
  obtain ⟨d1, d2⟩ := h.desc
  have q0 := mul_self_nonneg k0
  have q1 := mul_self_nonneg k1
  have q2 := mul_self_nonneg k2
  constructor
  · have : l.z = l.z * (k0 * k0 + k1 * k1 + k2 * k2) := by rw [hn, mul_one]
    rw [this]
    nlinarith
  · have : l.x = l.x * (k0 * k0 + k1 * k1 + k2 * k2) := by rw [hn, mul_one]
    rw [this]
    nlinarith

/-- **C161** fails for surfaces of zero area (no cells, or only degenerate ones): there is no oriented box, neither for the strategy of
least volume -/
theorem C161_zero_area_fails (syev : M3 → M3 × V3) (junk : S3) {w : World} {b : Obb} {ts : List Tri} (hb : b.strategy ≠ .aabb)
    (hg : b.geos ≠ []) (hs : Surfaces w b.geos) (ht : Triangulated w b.geos ts) (h0 : (ts.map areaOf).sum = 0) :
    b.execute syev junk w = none := by
  have hc : computeObb syev junk w b.geos = none := by
    unfold computeObb
    rw [(covariance_tri junk hs ht).1 h0]; rfl
  unfold Obb.execute
  rw [if_neg (by simpa using hg), hc]
  cases hst : b.strategy with
  | obb => rfl
  | aabb => exact absurd hst hb
  | minvol => rfl

/-! ### Order of the geometries -/

theorem tri_map {w : World} {gs : List Nat} {ts : List Tri} (h : Triangulated w gs ts) :
    ts = (cellsOf w gs).map (fun x => ((repPoints x.1 x.2).getD none).getD (⟨0, 0, 0⟩, ⟨0, 0, 0⟩, ⟨0, 0, 0⟩)) := by
  unfold Triangulated at h
  generalize cellsOf w gs = l at h
  induction h with
  | nil => rfl
  | cons hx _ ih => rw [map_cons, rep_of hx, ← ih]; rfl

theorem tri_perm {w : World} {gs gs' : List Nat} {ts : List Tri} (hp : gs ~ gs') (h : Triangulated w gs ts) :
    ∃ ts', Triangulated w gs' ts' ∧ ts ~ ts' := by
  have hc : cellsOf w gs ~ cellsOf w gs' := hp.flatMap_right _
  have e := tri_map h
  refine ⟨(cellsOf w gs').map (fun x => ((repPoints x.1 x.2).getD none).getD (⟨0, 0, 0⟩, ⟨0, 0, 0⟩, ⟨0, 0, 0⟩)), ?_, ?_⟩
  swap
  · conv_lhs => rw [e]
    exact hc.map _
  unfold Triangulated at h ⊢
  rw [forall₂_map_right_iff, forall₂_same]
  intro x hx
  have hx' := hc.mem_iff.2 hx
  rw [e, forall₂_map_right_iff, forall₂_same] at h
  exact h x hx'

theorem overAll_perm {f : V3 → ℝ} {ts ts' : List Tri} (h : ts ~ ts') : overAll f ts = overAll f ts' := (h.map _).sum_eq

theorem covariance_perm {ts ts' : List Tri} (h : ts ~ ts') {m : M3} (hm : IsCovariance ts m) : IsCovariance ts' m := by
  unfold IsCovariance at hm ⊢
  simp only [overAll_perm h] at hm
  exact hm

theorem points_perm {w : World} {gs gs' : List Nat} (h : gs ~ gs') (f : V3 → ℝ) :
    ∀ v, v ∈ (pointsOf w gs).map f ↔ v ∈ (pointsOf w gs').map f := by
  intro v
  exact ((h.flatMap_right _).map f).mem_iff

theorem box_perm {w : World} {gs gs' : List Nat} (h : gs ~ gs') (m : M3) : boxAlong w gs m = boxAlong w gs' m := by
  have hl : leastAlong m (pointsOf w gs) = leastAlong m (pointsOf w gs') := by
    unfold leastAlong least
    rw [fold_min_congr (points_perm h _), fold_min_congr (points_perm h _), fold_min_congr (points_perm h _)]
  have hh : mostAlong m (pointsOf w gs) = mostAlong m (pointsOf w gs') := by
    unfold mostAlong most
    rw [fold_max_congr (points_perm h _), fold_max_congr (points_perm h _), fold_max_congr (points_perm h _)]
  unfold boxAlong
  simp only [hl, hh]

/-- **C161**: for triangulated surfaces the result does not depend on the order in which the geometries are run through -/
theorem C161_order {syev : M3 → M3 × V3} {junk : S3} {w : World} (b : Obb) {gs' : List Nat} {ts : List Tri} (hp : b.geos ~ gs')
    (hs : Surfaces w b.geos) (ht : Triangulated w b.geos ts) :
    (b.execute syev junk w).map (fun r => (r.origin, r.span, r.axes)) =
      (({ b with geos := gs' } : Obb).execute syev junk w).map (fun r => (r.origin, r.span, r.axes)) := by
  have hs' : Surfaces w gs' := fun g hg => hs g (hp.mem_iff.2 hg)
  obtain ⟨ts', ht', hpt⟩ := tri_perm hp ht
  have hc : covariance junk w b.geos = covariance junk w gs' := by
    have hsum : (ts.map areaOf).sum = (ts'.map areaOf).sum := (hpt.map _).sum_eq
    by_cases h0 : (ts.map areaOf).sum = 0
    · rw [(covariance_tri junk hs ht).1 h0, (covariance_tri junk hs' ht').1 (hsum ▸ h0)]
    · obtain ⟨m, e1, h1⟩ := (covariance_tri junk hs ht).2 h0
      obtain ⟨m', e2, h2⟩ := (covariance_tri junk hs' ht').2 (hsum ▸ h0)
      rw [e1, e2, covariance_unique (covariance_perm hpt h1) h2]
  have ho : computeObb syev junk w b.geos = computeObb syev junk w gs' := by
    unfold computeObb
    rw [hc]
    congr 1
    funext c
    exact box_perm hp _
  have hA : computeAabb w b.geos = computeAabb w gs' := by
    have := box_perm (w := w) hp M3.one
    rw [aabb_along, aabb_along] at this
    exact Option.some.inj this
  have he : b.geos.isEmpty = gs'.isEmpty := by
    rw [Bool.eq_iff_iff, List.isEmpty_iff, List.isEmpty_iff]
    constructor
    · intro h; rw [h] at hp; exact hp.nil_eq.symm
    · intro h; rw [h] at hp; exact hp.eq_nil
  have hput : ∀ d, ((b.put d).origin, (b.put d).span, (b.put d).axes) =
      ((({ b with geos := gs' } : Obb).put d).origin, (({ b with geos := gs' } : Obb).put d).span, (({ b with geos := gs' } : Obb).put d).axes) :=
    fun d => rfl
  unfold Obb.execute
  simp only [he, ho, hA]
  split
  · rfl
  · cases hst : b.strategy with
    | obb => simp only [hst, Option.map_map]; rfl
    | aabb => simp only [hst]; rfl
    | minvol => simp only [hst, Option.map_map]; rfl

end
end Verif.Utils
