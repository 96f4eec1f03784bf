import Verif.Utils.ObbCov
/-
C161: the oriented box of moved geometries, of clouds of points and of polygons.
-/
namespace Verif.Utils
open Verif.Shape Verif.Manip Verif.Field
open Verif.Mesh (Obj Cell vertexIds)
open Verif.Rbf (tiny huge Fits)
open List hiding get get_of_mem

noncomputable section
open scoped Classical

/-! ### Translations -/

/-- all the vertices are moved by `t` -/
def movedObj (t : V3) (o : Obj V3) : Obj V3 := { o with verts := o.verts.map (fun e => (e.1, e.2 + t)) }
def moved (t : V3) (w : World) : World := fun g => movedObj t (w g)
def movedTri (t : V3) (x : Tri) : Tri := (x.1 + t, x.2.1 + t, x.2.2 + t)

theorem get_movedData (t : V3) (d : Data V3) (id : Nat) :
    get (d.map (fun e => (e.1, e.2 + t))) id = (get d id).map (· + t) := by
  induction d with
  | nil => rfl
  | cons e d ih =>
    rw [map_cons, get_cons, get_cons, ih]
    split <;> rfl

theorem get_moved (t : V3) (o : Obj V3) (id : Nat) : get (movedObj t o).verts id = (get o.verts id).map (· + t) := get_movedData t o.verts id

theorem add_sub_V (a b : V3) : a + b - b = a := by ext <;> simp
theorem sub_add_V (a b : V3) : a - b + b = a := by ext <;> simp

theorem moved_ok {w : World} (hw : WorldOk w) (t : V3) : WorldOk (moved t w) := by
  refine ⟨fun h => ?_, hw.cells⟩
  have := hw.verts h
  unfold Ok at this ⊢
  simpa [moved, movedObj, Function.comp_def] using this

theorem vertex_moved (t : V3) (w : World) (gs : List Nat) (p : V3) : IsVertex (moved t w) gs p ↔ IsVertex w gs (p - t) := by
  unfold IsVertex moved
  simp only [get_moved, Option.map_eq_some_iff]
  constructor
  · rintro ⟨g, hg, id, q, hq, rfl⟩
    exact ⟨g, hg, id, by rw [add_sub_V]; exact hq⟩
  · rintro ⟨g, hg, id, hq⟩
    exact ⟨g, hg, id, _, hq, sub_add_V p t⟩

theorem cells_moved (t : V3) (w : World) (gs : List Nat) :
    cellsOf (moved t w) gs = (cellsOf w gs).map (fun x => (movedObj t x.1, x.2)) := by
  unfold cellsOf
  rw [map_flatMap]
  congr 1
  funext g
  simp [moved, movedObj]

theorem tri_moved {w : World} {gs : List Nat} {ts : List Tri} (t : V3) (h : Triangulated w gs ts) :
    Triangulated (moved t w) gs (ts.map (movedTri t)) := by
  unfold Triangulated at h ⊢
  rw [cells_moved, forall₂_map_left_iff, forall₂_map_right_iff]
  refine h.imp ?_
  rintro x y ⟨a, b, c, h1, h2, h3, h4, h5⟩
  refine ⟨a, b, c, h1, h2, ?_, ?_, ?_⟩
  · rw [get_moved, h3]; rfl
  · rw [get_moved, h4]; rfl
  · rw [get_moved, h5]; rfl

theorem sub_moved (a b t : V3) : (a + t) - (b + t) = a - b := by ext <;> simp

theorem area_moved (t : V3) (x : Tri) : areaOf (movedTri t x) = areaOf x := by
  unfold areaOf movedTri
  simp only [sub_moved]

theorem point_moved (t : V3) (x : Tri) (u v : ℝ) : pointIn (movedTri t x) u v = pointIn x u v + t := by
  unfold pointIn movedTri
  simp only [sub_moved]
  ext <;> simp only [V3.scale, add_x, add_y, add_z] <;> ring

theorem over_moved (f : V3 → ℝ) (t : V3) (x : Tri) : overTri f (movedTri t x) = overTri (fun p => f (p + t)) x := by
  unfold overTri
  simp only [area_moved, point_moved]

theorem overAll_moved (f : V3 → ℝ) (t : V3) (ts : List Tri) : overAll f (ts.map (movedTri t)) = overAll (fun p => f (p + t)) ts := by
  unfold overAll
  rw [map_map]
  congr 1
  exact map_congr_left (fun x _ => over_moved f t x)

theorem at_add (a b : V3) (i : Nat) : (a + b).at i = a.at i + b.at i := by
  match i with
  | 0 => rfl
  | 1 => rfl
  | n + 2 => rfl

theorem overTri_shift (x : Tri) (i : Nat) (k : ℝ) : overTri (fun p => p.at i + k) x = overTri (fun p => p.at i) x + k * overTri (fun _ => 1) x := by
  rw [overTri_one, overTri_at]
  unfold overTri
  have : ∀ u v, (pointIn x u v).at i + k = (x.1.at i + k) + (x.2.1.at i - x.1.at i) * u + (x.2.2.at i - x.1.at i) * v + 0 * u ^ 2 +
      0 * (u * v) + 0 * v ^ 2 := by
    intro u v; rw [at_point]; ring
  simp only [this]
  rw [int_quadratic]; ring

theorem overAll_shift (ts : List Tri) (i : Nat) (k : ℝ) : overAll (fun p => p.at i + k) ts = overAll (fun p => p.at i) ts + k * overAll (fun _ => 1) ts := by
  unfold overAll
  induction ts with
  | nil => simp
  | cons x ts ih => simp only [map_cons, sum_cons, ih, overTri_shift]; ring

/-- the covariance matrix does not see translations -/
theorem covariance_moved {ts : List Tri} {m : M3} (h : IsCovariance ts m) (t : V3) : IsCovariance (ts.map (movedTri t)) m := by
  obtain ⟨ha, c, h1, h2⟩ := h
  unfold IsCovariance
  simp only [overAll_moved, at_add]
  refine ⟨ha, c + t, fun i => ?_, fun i j => ?_⟩
  · rw [overAll_shift, h1, at_add]; ring
  · rw [← h2 i j]
    congr 1
    funext x
    rw [at_add, at_add]; ring

theorem dot_add_V (a b c : V3) : dot (a + b) c = dot a c + dot b c := by simp only [dot, add_x, add_y, add_z]; ring

theorem extent_moved {w : World} {gs : List Nat} {a : V3} {lo hi : ℝ} (t : V3) (h : Extent (IsVertex w gs) a lo hi) :
    Extent (IsVertex (moved t w) gs) a (lo + dot t a) (hi + dot t a) := by
  have sub : ∀ p, dot p a = dot (p - t) a + dot t a := by
    intro p; rw [← dot_add_V, sub_add_V]
  refine ⟨fun p hp => ?_, fun p hp => ?_, ?_, ?_⟩
  · rw [sub p]; linarith [h.low _ ((vertex_moved t w gs p).1 hp)]
  · rw [sub p]; linarith [h.high _ ((vertex_moved t w gs p).1 hp)]
  · obtain ⟨p, hp, e⟩ := h.lowest
    exact ⟨p + t, (vertex_moved t w gs _).2 (by rw [add_sub_V]; exact hp), by rw [dot_add_V, e]⟩
  · obtain ⟨p, hp, e⟩ := h.highest
    exact ⟨p + t, (vertex_moved t w gs _).2 (by rw [add_sub_V]; exact hp), by rw [dot_add_V, e]⟩

theorem box_moved {w : World} (hw : WorldOk w) {gs : List Nat} {m : M3} {d : BoxData} (t : V3) (h : boxAlong w gs m = some d)
    (hne : ∃ p, IsVertex w gs p) (hf : FitsAlong w gs d.axes) (hf' : FitsAlong (moved t w) gs d.axes) :
    boxAlong (moved t w) gs m = some ⟨d.origin + t, d.span, d.axes⟩ := by
  unfold boxAlong at h ⊢
  simp only at h ⊢
  split at h
  · exact absurd h (by simp)
  rename_i hd
  rw [if_neg hd]
  obtain rfl := Option.some.inj h
  simp only at hf hf'
  have hne' : ∃ p, IsVertex (moved t w) gs p := by
    obtain ⟨p, hp⟩ := hne
    exact ⟨p + t, (vertex_moved t w gs _).2 (by rw [add_sub_V]; exact hp)⟩
  have hw' := moved_ok hw t
  have x0 := extent_unique (extent_of hw' hne' (fun p hp => (hf' p hp).1)) (extent_moved t (extent_of hw hne (fun p hp => (hf p hp).1)))
  have x1 := extent_unique (extent_of hw' hne' (fun p hp => (hf' p hp).2.1)) (extent_moved t (extent_of hw hne (fun p hp => (hf p hp).2.1)))
  have x2 := extent_unique (extent_of hw' hne' (fun p hp => (hf' p hp).2.2)) (extent_moved t (extent_of hw hne (fun p hp => (hf p hp).2.2)))
  have hl : leastAlong m (pointsOf (moved t w) gs) = leastAlong m (pointsOf w gs) + m.app t := by
    ext
    · exact x0.1
    · exact x1.1
    · exact x2.1
  have hh : mostAlong m (pointsOf (moved t w) gs) = mostAlong m (pointsOf w gs) + m.app t := by
    ext
    · exact x0.2
    · exact x1.2
    · exact x2.2
  rw [hl, hh]
  generalize leastAlong m (pointsOf w gs) = lo
  generalize mostAlong m (pointsOf w gs) = hi
  congr 2
  · have e1 : V3.scale (1 / 2) (lo + m.app t + (hi + m.app t)) = V3.scale (1 / 2) (lo + hi) + m.app t := by
      ext <;> simp only [V3.scale, add_x, add_y, add_z] <;> ring
    have e2 : ∀ a b : V3, m.inverse.app (a + b) = m.inverse.app a + m.inverse.app b := by
      intro a b; ext <;> simp only [M3.app, dot_add_V, add_x, add_y, add_z]
    rw [e1, e2, inv_app hd]
  · rw [sub_moved]

/-- **C161**: the box of triangulated surfaces moved by a vector is the box moved by that vector, whatever the strategy and the solver -/
theorem C161_moved {syev : M3 → M3 × V3} {junk : S3} {w : World} (hw : WorldOk w) {b r : Obb} {ts : List Tri} (t : V3)
    (hs : Surfaces w b.geos) (ht : Triangulated w b.geos ts) (h : b.execute syev junk w = some r) (hne : ∃ p, IsVertex w b.geos p)
    (hf : ∀ s x, ({ b with strategy := s } : Obb).execute syev junk w = some x →
      FitsAlong w b.geos x.axes ∧ FitsAlong (moved t w) b.geos x.axes) :
    b.execute syev junk (moved t w) = some { r with origin := r.origin + t } := by
  have hg : b.geos ≠ [] := by
    obtain ⟨p, g, hg, -⟩ := hne
    exact ne_nil_of_mem hg
  have hn : ¬ b.geos.isEmpty = true := by simpa using hg
  have hs' : Surfaces (moved t w) b.geos := hs
  have ht' := tri_moved t ht
  have hc : covariance junk w b.geos = covariance junk (moved t w) b.geos := by
    have hsum : (ts.map areaOf).sum = ((ts.map (movedTri t)).map areaOf).sum := by
      rw [map_map]
      congr 1
      exact map_congr_left (fun x _ => (area_moved t x).symm)
    by_cases h0 : (ts.map areaOf).sum = 0
    · rw [(covariance_tri junk hs ht).1 h0, (covariance_tri junk hs' ht').1 (hsum ▸ h0)]
    · obtain ⟨m, e1, h1⟩ := (covariance_tri junk hs ht).2 h0
      obtain ⟨m', e2, h2⟩ := (covariance_tri junk hs' ht').2 (hsum ▸ h0)
      rw [e1, e2, covariance_unique (covariance_moved h1 t) h2]
  have ho : ∀ d, computeObb syev junk w b.geos = some d → computeObb syev junk (moved t w) b.geos = some ⟨d.origin + t, d.span, d.axes⟩ := by
    intro d hd
    obtain ⟨f1, f2⟩ := hf .obb (b.put d |> fun x => { x with strategy := .obb }) (by
      unfold Obb.execute
      rw [if_neg hn]
      simp only [hd]
      rfl)
    unfold computeObb at hd ⊢
    rw [← hc]
    cases hm : covariance junk w b.geos with
    | none => rw [hm] at hd; exact absurd hd (by simp)
    | some c =>
      rw [hm] at hd
      exact box_moved hw t hd hne f1 f2
  have hA : computeAabb (moved t w) b.geos = ⟨(computeAabb w b.geos).origin + t, (computeAabb w b.geos).span, (computeAabb w b.geos).axes⟩ := by
    obtain ⟨f1, f2⟩ := hf .aabb (b.put (computeAabb w b.geos) |> fun x => { x with strategy := .aabb }) (by
      unfold Obb.execute
      rw [if_neg hn]
      rfl)
    have := box_moved hw t (aabb_along w b.geos) hne f1 f2
    rw [aabb_along] at this
    exact Option.some.inj this
  have hp : ∀ d : BoxData, b.put ⟨d.origin + t, d.span, d.axes⟩ = { b.put d with origin := (b.put d).origin + t } := fun d => rfl
  unfold Obb.execute at h ⊢
  rw [if_neg hn] at h ⊢
  cases hst : b.strategy with
  | obb =>
    rw [hst] at h
    obtain ⟨d, hd, rfl⟩ := Option.map_eq_some_iff.1 h
    simp only [ho d hd, Option.map_some, hp]
  | aabb =>
    rw [hst] at h
    obtain rfl := Option.some.inj h
    simp only [hA, hp]
  | minvol =>
    rw [hst] at h
    obtain ⟨d, hd, rfl⟩ := Option.map_eq_some_iff.1 h
    simp only [ho d hd, Option.map_some, hA]
    have v1 : BoxData.volume ⟨d.origin + t, d.span, d.axes⟩ = d.volume := rfl
    have v2 : BoxData.volume ⟨(computeAabb w b.geos).origin + t, (computeAabb w b.geos).span, (computeAabb w b.geos).axes⟩ =
      (computeAabb w b.geos).volume := rfl
    rw [v1, v2]
    by_cases hv : d.volume < (computeAabb w b.geos).volume
    · rw [if_pos hv, if_pos hv, hp]
    · rw [if_neg hv, if_neg hv, hp]

/-! ### Clouds of points -/

/-- `m` is the covariance matrix of the points -/
def IsCloudCovariance (ps : List V3) (m : M3) : Prop :=
  ps ≠ [] ∧ ∃ c : V3, (∀ i, (ps.map (fun p => p.at i)).sum = ps.length * c.at i) ∧
    ∀ i j, (ps.map (fun p => (p.at i - c.at i) * (p.at j - c.at j))).sum = ps.length * (m.row i).at j

theorem at_sub (a b : V3) (i : Nat) : (a - b).at i = a.at i - b.at i := by
  match i with
  | 0 => rfl
  | 1 => rfl
  | n + 2 => rfl

theorem outer_at (m : S3) (p : V3) (i j : Nat) : (m.outer p).at i j = m.at i j + p.at i * p.at j := by
  match i, j with
  | 0, 0 => rfl
  | 0, 1 => rfl
  | 0, n + 2 => rfl
  | 1, 0 => simp only [S3.at, S3.outer, V3.at]; ring
  | 1, 1 => rfl
  | 1, n + 2 => rfl
  | n + 2, 0 => simp only [S3.at, S3.outer, V3.at]; ring
  | n + 2, 1 => simp only [S3.at, S3.outer, V3.at]; ring
  | n + 2, k + 2 => rfl

theorem plus_at (a b : S3) (i j : Nat) : (a.plus b).at i j = a.at i j + b.at i j := by
  match i, j with
  | 0, 0 => rfl
  | 0, 1 => rfl
  | 0, n + 2 => rfl
  | 1, 0 => rfl
  | 1, 1 => rfl
  | 1, n + 2 => rfl
  | n + 2, 0 => rfl
  | n + 2, 1 => rfl
  | n + 2, k + 2 => rfl

theorem zero_at (i j : Nat) : (⟨0, 0, 0, 0, 0, 0⟩ : S3).at i j = 0 := by
  match i, j with
  | 0, 0 => rfl
  | 0, 1 => rfl
  | 0, n + 2 => rfl
  | 1, 0 => rfl
  | 1, 1 => rfl
  | 1, n + 2 => rfl
  | n + 2, 0 => rfl
  | n + 2, 1 => rfl
  | n + 2, k + 2 => rfl

/-- sum of the products of the deviations from a point -/
def devs (c : V3) (ps : List V3) (i j : Nat) : ℝ := (ps.map (fun p => (p.at i - c.at i) * (p.at j - c.at j))).sum

theorem outer_fold (c : V3) (ps : List V3) (m : S3) (i j : Nat) :
    (ps.foldl (fun m p => m.outer (p - c)) m).at i j = m.at i j + devs c ps i j := by
  unfold devs
  induction ps generalizing m with
  | nil => simp
  | cons p ps ih => rw [foldl_cons, ih, outer_at, at_sub, at_sub, map_cons, sum_cons]; ring

theorem sum_at (ps : List V3) (a : V3) (i : Nat) : (ps.foldl (· + ·) a).at i = a.at i + (ps.map (fun p => p.at i)).sum := by
  induction ps generalizing a with
  | nil => simp
  | cons p ps ih => rw [foldl_cons, ih, at_add, map_cons, sum_cons]; ring

theorem scale_at (k : ℝ) (v : V3) (i : Nat) : (V3.scale k v).at i = k * v.at i := by
  match i with
  | 0 => rfl
  | 1 => rfl
  | n + 2 => rfl

/-- mean of the points -/
def meanOfPoints (ps : List V3) : V3 := V3.scale (1 / (ps.length : ℝ)) (sumOf ps)

theorem mean_at {ps : List V3} (h : ps ≠ []) (i : Nat) : (ps.map (fun p => p.at i)).sum = ps.length * (meanOfPoints ps).at i := by
  unfold meanOfPoints sumOf
  rw [scale_at, sum_at]
  have z : (⟨0, 0, 0⟩ : V3).at i = 0 := by
    match i with
    | 0 => rfl
    | 1 => rfl
    | n + 2 => rfl
  have : (ps.length : ℝ) ≠ 0 := by simpa using h
  rw [z, zero_add]
  field_simp

theorem points_entries {junk : S3} {w : World} {gs : List Nat} (h : pointsOf w gs ≠ []) :
    ∃ m, pointsMatrix junk w gs = some m ∧ ∀ i j, (pointsOf w gs).length * (m.row i).at j =
      ((gs.map (fun g => coordsOf (w g))).foldl (cloudStep (meanOfPoints (pointsOf w gs))) (junk, ⟨0, 0, 0, 0, 0, 0⟩)).2.at i j := by
  have hl : ¬ (pointsOf w gs).length = 0 := by simpa using h
  have hr : ((pointsOf w gs).length : ℝ) ≠ 0 := by simpa using h
  unfold pointsMatrix
  simp only
  rw [if_neg hl]
  refine ⟨_, rfl, ?_⟩
  intro i j
  show _ = ((gs.map (fun g => coordsOf (w g))).foldl (cloudStep (meanOfPoints (pointsOf w gs))) (junk, ⟨0, 0, 0, 0, 0, 0⟩)).2.at i j
  unfold meanOfPoints
  match i, j with
  | 0, 0 => simp only [M3.row, V3.at, S3.at]; field_simp
  | 0, 1 => simp only [M3.row, V3.at, S3.at]; field_simp
  | 0, n + 2 => simp only [M3.row, V3.at, S3.at]; field_simp
  | 1, 0 => simp only [M3.row, V3.at, S3.at]; field_simp
  | 1, 1 => simp only [M3.row, V3.at, S3.at]; field_simp
  | 1, n + 2 => simp only [M3.row, V3.at, S3.at]; field_simp
  | n + 2, 0 => simp only [M3.row, V3.at, S3.at]; field_simp
  | n + 2, 1 => simp only [M3.row, V3.at, S3.at]; field_simp
  | n + 2, k + 2 => simp only [M3.row, V3.at, S3.at]; field_simp

/-- at least one geometry is a cloud of points or a curve -/
def SomeCloud (w : World) (gs : List Nat) : Prop := ∃ g ∈ gs, (w g).type = 3 ∨ (w g).type = 4

theorem is_cloud {w : World} {gs : List Nat} (h : SomeCloud w gs) : allCloud w gs = true := by
  obtain ⟨g, hg, h⟩ := h
  unfold allCloud
  rw [any_eq_true]
  refine ⟨g, hg, ?_⟩
  rcases h with h | h <;> simp [h]

/-- the entries for one geometry -/
theorem one_cloud {junk : S3} {w : World} {g : Nat} (hc : SomeCloud w [g]) (h : pointsOf w [g] ≠ []) :
    ∃ m, covariance junk w [g] = some m ∧ ∀ i j, (pointsOf w [g]).length * (m.row i).at j =
      junk.at i j + devs (meanOfPoints (pointsOf w [g])) (pointsOf w [g]) i j := by
  obtain ⟨m, h1, h2⟩ := points_entries (junk := junk) h
  refine ⟨m, by unfold covariance; rw [is_cloud hc, if_pos rfl, h1], fun i j => ?_⟩
  rw [h2]
  have e : pointsOf w [g] = coordsOf (w g) := by simp [pointsOf, coordsOf]
  rw [e]
  simp only [map_cons, map_nil, foldl_cons, foldl_nil, cloudStep]
  rw [plus_at, zero_at, zero_add, outer_fold]

/-- **C161**, clouds and curves, partial: for one cloud of points or curve, if the matrix that is never set happens to be zero, the matrix
given to the solver is the covariance matrix of the vertices.  Full statement: for any list of geometries and without the
assumption; `C161_unset_fails` and `C161_clouds_fails` show that it does not hold. -/
theorem C161_cloud_partial {w : World} {g : Nat} (hc : SomeCloud w [g]) (h : pointsOf w [g] ≠ []) :
    ∃ m, covariance ⟨0, 0, 0, 0, 0, 0⟩ w [g] = some m ∧ IsCloudCovariance (pointsOf w [g]) m := by
  obtain ⟨m, h1, h2⟩ := one_cloud (junk := ⟨0, 0, 0, 0, 0, 0⟩) hc h
  refine ⟨m, h1, h, _, mean_at h, fun i j => ?_⟩
  rw [h2, zero_at, zero_add]
  rfl

/-- **C161** fails for clouds and curves: the axes depend on memory that is never set; any symmetric matrix can be the one given to the
solver -/
theorem C161_unset_fails {w : World} {g : Nat} (hc : SomeCloud w [g]) (h : pointsOf w [g] ≠ []) (m : M3) (hm : Symm m) :
    ∃ junk, covariance junk w [g] = some m := by
  have hr : ((pointsOf w [g]).length : ℝ) ≠ 0 := by simpa using h
  let n : ℝ := (pointsOf w [g]).length
  let d := devs (meanOfPoints (pointsOf w [g])) (pointsOf w [g])
  let junk : S3 := ⟨n * m.r0.x - d 0 0, n * m.r1.y - d 1 1, n * m.r2.z - d 2 2, n * m.r0.y - d 0 1, n * m.r0.z - d 0 2, n * m.r1.z - d 1 2⟩
  obtain ⟨m', h1, h2⟩ := one_cloud (junk := junk) hc h
  refine ⟨junk, ?_⟩
  rw [h1]
  congr 1
  obtain ⟨s1, s2, s3⟩ := covariance_symm h1
  obtain ⟨t1, t2, t3⟩ := hm
  have cancel : ∀ a b : ℝ, n * a = n * b → a = b := fun a b e => mul_left_cancel₀ hr e
  have e00 : m'.r0.x = m.r0.x := cancel _ _ (by have := h2 0 0; simp only [M3.row, V3.at, S3.at, junk] at this; rw [this]; simp [d])
  have e11 : m'.r1.y = m.r1.y := cancel _ _ (by have := h2 1 1; simp only [M3.row, V3.at, S3.at, junk] at this; rw [this]; simp [d])
  have e22 : m'.r2.z = m.r2.z := cancel _ _ (by have := h2 2 2; simp only [M3.row, V3.at, S3.at, junk] at this; rw [this]; simp [d])
  have e01 : m'.r0.y = m.r0.y := cancel _ _ (by have := h2 0 1; simp only [M3.row, V3.at, S3.at, junk] at this; rw [this]; simp [d])
  have e02 : m'.r0.z = m.r0.z := cancel _ _ (by have := h2 0 2; simp only [M3.row, V3.at, S3.at, junk] at this; rw [this]; simp [d])
  have e12 : m'.r1.z = m.r1.z := cancel _ _ (by have := h2 1 2; simp only [M3.row, V3.at, S3.at, junk] at this; rw [this]; simp [d])
  ext
  · exact e00
  · exact e01
  · exact e02
  · rw [← s1, ← t1]; exact e01
  · exact e11
  · exact e12
  · rw [← s2, ← t2]; exact e02
  · rw [← s3, ← t3]; exact e12
  · exact e22

/-- **C161** fails for two clouds, even if the unset matrix is zero: the vertices of the one run through first count twice -/
theorem C161_clouds_fails {w : World} {g g' : Nat} (hc : SomeCloud w [g, g']) (h : pointsOf w [g, g'] ≠ []) :
    ∃ m, covariance ⟨0, 0, 0, 0, 0, 0⟩ w [g, g'] = some m ∧
      ∀ i j, (pointsOf w [g, g']).length * (m.row i).at j =
        2 * devs (meanOfPoints (pointsOf w [g, g'])) (pointsOf w [g]) i j +
          devs (meanOfPoints (pointsOf w [g, g'])) (pointsOf w [g']) i j := by
  obtain ⟨m, h1, h2⟩ := points_entries (junk := ⟨0, 0, 0, 0, 0, 0⟩) h
  refine ⟨m, by unfold covariance; rw [is_cloud hc, if_pos rfl, h1], fun i j => ?_⟩
  rw [h2]
  have e : ∀ g, pointsOf w [g] = coordsOf (w g) := by intro g; simp [pointsOf, coordsOf]
  rw [e, e]
  generalize meanOfPoints (pointsOf w [g, g']) = c
  simp only [map_cons, map_nil, foldl_cons, foldl_nil, cloudStep]
  simp only [plus_at, outer_fold, zero_at]
  ring

/-! ### Polygons -/

/-- coordinates of the corner at a position of a list of vertices -/
def cornerAt (o : Obj V3) (ids : List Nat) (k : Nat) : Option V3 := ids[k]?.bind (get o.verts)

theorem rep_from {o : Obj V3} {p0 : V3} : ∀ {l : List Nat} {i : Nat} {a : V3} {x : V3 × V3}, get o.verts i = some a → repFrom o p0 a l = some x →
    (∃ k, cornerAt o (i :: l) k = some x.1 ∧ cornerAt o (i :: l) (k + 1) = some x.2) ∧
    (cross (x.1 - p0) (x.2 - p0) = ⟨0, 0, 0⟩ →
      ∀ k p q, cornerAt o (i :: l) k = some p → cornerAt o (i :: l) (k + 1) = some q → cross (p - p0) (q - p0) = ⟨0, 0, 0⟩) := by
  intro l
  induction l with
  | nil => intro i a x _ h; exact absurd h (by simp [repFrom])
  | cons b l ih =>
    intro i a x hi h
    unfold repFrom at h
    cases hb : cornerOf o b with
    | none => rw [hb] at h; exact absurd h (by simp)
    | some pb =>
      rw [hb] at h
      simp only at h
      have hb' : get o.verts b = some pb := hb
      have c0 : cornerAt o (i :: b :: l) 0 = some a := by simp [cornerAt, hi]
      have c1 : cornerAt o (i :: b :: l) 1 = some pb := by simp [cornerAt, hb']
      split at h
      · rename_i hc
        obtain rfl := Option.some.inj h
        refine ⟨⟨0, c0, c1⟩, ?_⟩
        intro hz k p q hp hq
        rcases hc with hc | rfl
        · rw [hz] at hc
          exact absurd hc (by simp [norm2, dot])
        · cases k with
          | zero =>
            rw [c0] at hp
            rw [c1] at hq
            rw [← Option.some.inj hp, ← Option.some.inj hq]
            exact hz
          | succ k => exact absurd hq (by simp [cornerAt])
      · rename_i hc
        obtain ⟨⟨k, e1, e2⟩, h2⟩ := ih hb' h
        refine ⟨⟨k + 1, e1, e2⟩, ?_⟩
        intro hz k p q hp hq
        cases k with
        | zero =>
          rw [c0] at hp
          rw [c1] at hq
          rw [← Option.some.inj hp, ← Option.some.inj hq]
          by_contra hne
          apply hc
          left
          rcases (Real.sqrt_nonneg (dot (cross (a - p0) (pb - p0)) (cross (a - p0) (pb - p0)))).lt_or_eq with h | h
          · exact h
          · exact absurd (norm2_eq_zero.1 h.symm) hne
        | succ k => exact h2 hz k p q hp hq

/-- **C161**: a quadrilateral or polygon is replaced by the triangle of its first corner and two consecutive others; this triangle is
degenerate only if all those triangles are -/
theorem C161_polygon {o : Obj V3} {c : Cell} {t : Tri} (he : c.elem = .quad ∨ c.elem = .polygon) (h : repPoints o c = some (some t)) :
    cornerAt o (vertexIds c) 0 = some t.1 ∧
    (∃ k, cornerAt o (vertexIds c) (k + 1) = some t.2.1 ∧ cornerAt o (vertexIds c) (k + 2) = some t.2.2) ∧
    (areaOf t = 0 → ∀ k p q, cornerAt o (vertexIds c) (k + 1) = some p → cornerAt o (vertexIds c) (k + 2) = some q → areaOf (t.1, p, q) = 0) := by
  have hr : (match vertexIds c with
    | a :: b :: l => (cornerOf o a).bind fun p => (cornerOf o b).bind fun q => (repFrom o p q l).map fun x => some (p, x.1, x.2)
    | _ => none) = some (some t) := by
    unfold repPoints at h
    rcases he with he | he <;> rw [he] at h <;> exact h
  match hv : vertexIds c with
  | [] => rw [hv] at hr; exact absurd hr (by simp)
  | [a] => rw [hv] at hr; exact absurd hr (by simp)
  | a :: b :: l =>
    rw [hv] at hr
    simp only at hr
    obtain ⟨p, hp, hr⟩ := Option.bind_eq_some_iff.1 hr
    obtain ⟨q, hq, hr⟩ := Option.bind_eq_some_iff.1 hr
    obtain ⟨x, hx, hr⟩ := Option.map_eq_some_iff.1 hr
    obtain rfl := Option.some.inj hr
    obtain ⟨⟨k, k1, k2⟩, h2⟩ := rep_from hq hx
    refine ⟨by simpa [cornerAt, cornerOf] using hp, ⟨k, k1, k2⟩, ?_⟩
    intro hz k p' q' hp' hq'
    have z : cross (x.1 - p) (x.2 - p) = ⟨0, 0, 0⟩ := by
      apply norm2_eq_zero.1
      unfold areaOf at hz
      simp only at hz
      linarith
    have := h2 z k p' q' hp' hq'
    unfold areaOf
    simp only
    rw [this]
    simp [norm2, dot]

/-! ### A square -/

/-- a unit square as one quadrilateral -/
def squareObj : Obj V3 :=
  { demoObj with
    type := 1
    verts := [(0, ⟨0, 0, 0⟩), (1, ⟨1, 0, 0⟩), (2, ⟨1, 1, 0⟩), (3, ⟨0, 1, 0⟩)]
    cells := [(0, ⟨.quad, [0, 1, 2, 3], 0, true⟩)] }

theorem square_area (p q r : V3) (h : cross (q - p) (r - p) = ⟨0, 0, 1⟩) : areaOf (p, q, r) = 1 / 2 := by
  unfold areaOf
  simp only
  rw [h, norm2_one (by norm_num [dot])]

/-- **C161** fails for other cells: for a unit square made of one quadrilateral the matrix is not the covariance matrix of the square: it
is not even diagonal, so the axes are not along the sides -/
theorem C161_quad_fails (junk : S3) : ∃ m, covariance junk (fun _ => squareObj) [0] = some m ∧ m.r0.y = 1 / 36 ∧
    ∀ m', IsCovariance [(⟨0, 0, 0⟩, ⟨1, 0, 0⟩, ⟨1, 1, 0⟩), (⟨0, 0, 0⟩, ⟨1, 1, 0⟩, ⟨0, 1, 0⟩)] m' → m'.r0.y = 0 := by
  have a1 : areaOf (⟨0, 0, 0⟩, ⟨1, 0, 0⟩, ⟨1, 1, 0⟩) = 1 / 2 := square_area _ _ _ (by ext <;> simp [cross])
  have a2 : areaOf (⟨0, 0, 0⟩, ⟨1, 1, 0⟩, ⟨0, 1, 0⟩) = 1 / 2 := square_area _ _ _ (by ext <;> simp [cross])
  have hs : Surfaces (fun _ => squareObj) [0] := by intro g _; simp [squareObj]
  have hrep : repPoints squareObj ⟨.quad, [0, 1, 2, 3], 0, true⟩ = some (some (⟨0, 0, 0⟩, ⟨1, 0, 0⟩, ⟨1, 1, 0⟩)) := by
    have g0 : cornerOf squareObj 0 = some ⟨0, 0, 0⟩ := rfl
    have g1 : cornerOf squareObj 1 = some ⟨1, 0, 0⟩ := rfl
    have g2 : cornerOf squareObj 2 = some ⟨1, 1, 0⟩ := rfl
    have hpos : 0 < norm2 (cross ((⟨1, 0, 0⟩ : V3) - ⟨0, 0, 0⟩) ((⟨1, 1, 0⟩ : V3) - ⟨0, 0, 0⟩)) := by
      have : cross ((⟨1, 0, 0⟩ : V3) - ⟨0, 0, 0⟩) ((⟨1, 1, 0⟩ : V3) - ⟨0, 0, 0⟩) = ⟨0, 0, 1⟩ := by ext <;> simp [cross]
      rw [this, norm2_one (by norm_num [dot])]
      norm_num
    simp only [repPoints, vertexIds, g0, g1, Option.bind_some, repFrom, g2]
    rw [if_pos (.inl hpos)]
    rfl
  have hts : trisOf (fun _ => squareObj) [0] = some [some (⟨0, 0, 0⟩, ⟨1, 0, 0⟩, ⟨1, 1, 0⟩)] := by
    unfold trisOf
    show [(squareObj, (⟨.quad, [0, 1, 2, 3], 0, true⟩ : Cell))].mapM _ = _
    rw [mapM_cons, hrep]
    rfl
  have hta : triArea (⟨0, 0, 0⟩ : V3) ⟨1, 0, 0⟩ ⟨1, 1, 0⟩ = 1 / 2 := by
    have := triArea_eq (⟨0, 0, 0⟩, ⟨1, 0, 0⟩, ⟨1, 1, 0⟩)
    rw [a1] at this
    exact this
  unfold covariance
  rw [not_cloud hs]
  unfold elementsMatrix
  rw [hts]
  simp only [Bool.false_eq_true, if_false, Option.bind_some, filterMap_cons, id, filterMap_nil, foldl_cons, foldl_nil, Sums.add, hta]
  rw [if_neg (by norm_num)]
  refine ⟨_, rfl, ?_, ?_⟩
  · simp only [triMid, V3.scale, add_x, add_y]
    norm_num
  · rintro m' ⟨-, c, h1, h2⟩
    have e0 : overAll (fun _ => 1) [((⟨0, 0, 0⟩ : V3), (⟨1, 0, 0⟩ : V3), (⟨1, 1, 0⟩ : V3)), (⟨0, 0, 0⟩, ⟨1, 1, 0⟩, ⟨0, 1, 0⟩)] = 1 := by
      simp only [overAll, map_cons, map_nil, sum_cons, sum_nil, overTri_one, a1, a2]; norm_num
    rw [e0] at h1 h2
    have hx := h1 0
    have hy := h1 1
    have hxy := h2 0 1
    simp only [overAll, map_cons, map_nil, sum_cons, sum_nil, overTri_at, overTri_prod, a1, a2] at hx hy hxy
    simp only [V3.at, M3.row] at hx hy hxy
    have cx : c.x = 1 / 2 := by linarith
    have cy : c.y = 1 / 2 := by linarith
    rw [cx, cy] at hxy
    linarith

end
end Verif.Utils
