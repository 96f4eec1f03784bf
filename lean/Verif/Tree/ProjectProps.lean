import Verif.Tree.Project
import Mathlib.Algebra.BigOperators.Fin
import Mathlib.Algebra.BigOperators.Intervals

/-!
C136: signed distances and projections.  C137: location of points.
-/

namespace Verif.Tree
open Verif.Shape
open Verif.Rbf (tiny huge)
noncomputable section
open scoped Classical

/-! ### Specification -/

/-- a point of the surface none is closer to `p` than -/
def Closest (region : Nat → V3 → Prop) (p x : V3) (id : Nat) : Prop :=
  region id x ∧ ∀ id' q, region id' q → norm2 (p - x) ≤ norm2 (p - q)

/-- sum of vectors with weights -/
def Weighted (lam : List ℝ) (v : Nat → V3) (x : V3) : Prop :=
  x.x = ∑ i ∈ Finset.range lam.length, lam.getD i 0 * (v i).x ∧ x.y = ∑ i ∈ Finset.range lam.length, lam.getD i 0 * (v i).y ∧
    x.z = ∑ i ∈ Finset.range lam.length, lam.getD i 0 * (v i).z

/-- what is assumed of bitpit; `region id` are the points of cell `id` -/
structure Sound (s : Surf) (region : Nat → V3 → Prop) : Prop where
  /-- the search returns a cell of the patch, the distance to it, and no cell is closer -/
  found : ∀ p r id h, s.closest p r = some (id, h) → (s.cell id).isSome ∧ h < huge ∧ (∃ x, region id x ∧ h = norm2 (p - x)) ∧
    ∀ id' q, region id' q → h ≤ norm2 (p - q)
  /-- the search returns nothing only when nothing is within the radius -/
  missed : ∀ p r, s.closest p r = none → ∀ id q, region id q → min r huge ≤ norm2 (p - q)
  /-- the barycentric coordinates are those of the closest point of the cell -/
  lam : ∀ p id k vs, s.cell id = some (k, vs) → ∃ x, Weighted (s.lam p vs) (fun i => vs.getD i ⟨0, 0, 0⟩) x ∧ region id x ∧
    ∀ q, region id q → norm2 (p - x) ≤ norm2 (p - q)

theorem weigh_sum (v : Nat → V3) : ∀ (l : List ℝ) (i : Nat) (acc : V3),
    (weigh v l i acc).x = acc.x + ∑ k ∈ Finset.range l.length, l.getD k 0 * (v (i + k)).x ∧
    (weigh v l i acc).y = acc.y + ∑ k ∈ Finset.range l.length, l.getD k 0 * (v (i + k)).y ∧
    (weigh v l i acc).z = acc.z + ∑ k ∈ Finset.range l.length, l.getD k 0 * (v (i + k)).z
  | [], i, acc => by simp [weigh]
  | k :: l, i, acc => by
    obtain ⟨h1, h2, h3⟩ := weigh_sum v l (i + 1) (acc + V3.scale k (v i))
    simp only [weigh, List.length_cons, Finset.sum_range_succ', List.getD_cons_succ, List.getD_cons_zero, Nat.add_zero]
    rw [h1, h2, h3]
    simp only [add_x, add_y, add_z, V3.scale, Nat.add_assoc, Nat.add_comm 1]
    refine ⟨by ring, by ring, by ring⟩

theorem weigh_weighted (v : Nat → V3) (l : List ℝ) : Weighted l v (weigh v l 0 ⟨0, 0, 0⟩) := by
  obtain ⟨h1, h2, h3⟩ := weigh_sum v l 0 ⟨0, 0, 0⟩
  simp only [zero_add, Nat.zero_add] at h1 h2 h3
  exact ⟨h1, h2, h3⟩

theorem Weighted.unique {l : List ℝ} {v : Nat → V3} {x y : V3} (h : Weighted l v x) (g : Weighted l v y) : x = y := by
  ext
  · exact h.1.trans g.1.symm
  · exact h.2.1.trans g.2.1.symm
  · exact h.2.2.trans g.2.2.symm

/-! ### Signed distance -/

/-- the sign of a side -/
def side (n w : V3) : ℝ := if dot n w < 0 then -1 else 1

theorem side_sq (n w : V3) : side n w * side n w = 1 := by unfold side; split <;> norm_num

theorem side_abs (n w : V3) : |side n w| = 1 := by unfold side; split <;> norm_num

theorem pseudoNormal_spec {s : Surf} {region : Nat → V3 → Prop} (hs : Sound s region) {p : V3} {id : Nat} (hc : (s.cell id).isSome) :
    ∃ k vs x n, s.cell id = some (k, vs) ∧ Weighted (s.lam p vs) (s.vertexNormal id) n ∧ region id x ∧
      (∀ q, region id q → norm2 (p - x) ≤ norm2 (p - q)) ∧
      pseudoNormal s p id = some (side n (p - x), if norm2 (p - x) < s.tol then unit? n else unit? (V3.scale (side n (p - x)) (p - x))) := by
  obtain ⟨⟨k, vs⟩, hk⟩ := Option.isSome_iff_exists.1 hc
  obtain ⟨x, hx, hr, hm⟩ := hs.lam p id k vs hk
  have hxe := hx.unique (weigh_weighted (fun i => vs.getD i ⟨0, 0, 0⟩) (s.lam p vs))
  refine ⟨k, vs, x, weigh (s.vertexNormal id) (s.lam p vs) 0 ⟨0, 0, 0⟩, hk, weigh_weighted _ _, hr, hm, ?_⟩
  unfold pseudoNormal
  rw [hk]
  simp only [Option.bind_eq_bind, Option.bind_some]
  rw [← hxe]
  have e : norm2 (V3.scale (side (weigh (s.vertexNormal id) (s.lam p vs) 0 ⟨0, 0, 0⟩) (p - x)) (p - x)) = norm2 (p - x) := by
    rw [norm2_scale, side_abs, one_mul]
  change some (side (weigh (s.vertexNormal id) (s.lam p vs) 0 ⟨0, 0, 0⟩) (p - x),
    if norm2 (V3.scale (side (weigh (s.vertexNormal id) (s.lam p vs) 0 ⟨0, 0, 0⟩) (p - x)) (p - x)) < s.tol then _ else _) = _
  rw [e]
  rfl

/-- what a signed distance is: the closest point `x`, the interpolated normal `n` there, the side -/
def SignedOk (s : Surf) (region : Nat → V3 → Prop) (p : V3) (d : Signed) (id : Nat) (x n : V3) : Prop :=
  d.id = some id ∧ Closest region p x id ∧ (∃ k vs, s.cell id = some (k, vs) ∧ Weighted (s.lam p vs) (s.vertexNormal id) n) ∧
    (0 ≤ dot n (p - x) → d.dist = some (norm2 (p - x))) ∧ (dot n (p - x) < 0 → d.dist = some (-norm2 (p - x)))

theorem unit?_some {v : V3} (h : 0 < norm2 v) : unit? v = some v.unit := if_neg h.ne'

/-- **C136** the signed distance is the distance from the closest point of the surface, positive when the point is on the side the normal
interpolated there points to; the normal times the signed distance leads back to the closest point, when that is not closer
than the tolerance, and is as long as the distance otherwise. -/
theorem C136_signed {s : Surf} {region : Nat → V3 → Prop} (hs : Sound s region) (ht : 0 < s.tol) {p : V3} {r : ℝ}
    (hr : ∃ id q, region id q ∧ norm2 (p - q) < min r huge) :
    ∃ d id x n, signedDistance s p r = some d ∧ SignedOk s region p d id x n ∧
      (s.tol ≤ norm2 (p - x) → projected p d = some x) ∧
      (norm2 (p - x) < s.tol → n ≠ ⟨0, 0, 0⟩ → ∃ q, projected p d = some q ∧ norm2 (q - p) = norm2 (p - x)) := by
  cases hcl : s.closest p r with
  | none =>
    obtain ⟨id, q, hq, hlt⟩ := hr
    exact absurd (hs.missed p r hcl id q hq) (not_le.2 hlt)
  | some ih =>
    obtain ⟨id, h⟩ := ih
    obtain ⟨hc, hh, ⟨x0, hx0, hhx⟩, hmin⟩ := hs.found p r id h hcl
    obtain ⟨k, vs, x, n, hk, hn, hrx, hmx, hpn⟩ := pseudoNormal_spec hs (p := p) hc
    have hhe : h = norm2 (p - x) := le_antisymm (hmin id x hrx) (by rw [hhx]; exact hmx x0 hx0)
    have hsd : signedDistance s p r = some ⟨some id, some (side n (p - x) * h),
        if norm2 (p - x) < s.tol then unit? n else unit? (V3.scale (side n (p - x)) (p - x))⟩ := by
      unfold signedDistance
      rw [hcl]
      simp only [hpn, Option.bind_eq_bind, Option.bind_some]
    refine ⟨_, id, x, n, hsd, ⟨rfl, ⟨hrx, by rw [← hhe]; exact hmin⟩, ⟨k, vs, hk, hn⟩, ?_, ?_⟩, ?_, ?_⟩
    · intro h0
      simp only [side, if_neg (not_lt.2 h0), one_mul, hhe]
    · intro h0
      simp only [side, if_pos h0, hhe]
      congr 1; ring
    · intro htol
      have hpos : 0 < norm2 (p - x) := lt_of_lt_of_le ht htol
      have hps : 0 < norm2 (V3.scale (side n (p - x)) (p - x)) := by rw [norm2_scale, side_abs, one_mul]; exact hpos
      simp only [projected, if_neg (not_lt.2 htol), unit?_some hps]
      congr 1
      have hsq := side_sq n (p - x)
      unfold V3.unit
      rw [norm2_scale, side_abs, one_mul, hhe]
      ext <;> simp only [V3.scale, sub_x, sub_y, sub_z] <;> field_simp
      · linear_combination (-(p.x - x.x)) * hsq
      · linear_combination (-(p.y - x.y)) * hsq
      · linear_combination (-(p.z - x.z)) * hsq
    · intro htol hn0
      have hnp : 0 < norm2 n := by
        refine lt_of_le_of_ne (Shape.norm2_nonneg n) (fun h0 => hn0 ?_)
        exact norm2_eq_zero.1 h0.symm
      refine ⟨p - V3.scale (side n (p - x) * h) n.unit, by simp only [projected, if_pos htol, unit?_some hnp], ?_⟩
      have e : p - V3.scale (side n (p - x) * h) n.unit - p = V3.scale (-(side n (p - x) * h)) n.unit := by
        ext <;> simp only [V3.scale, sub_x, sub_y, sub_z] <;> ring
      rw [e, norm2_scale, norm2_of_unit (unit_dot hnp), mul_one, abs_neg, abs_mul, side_abs, one_mul, hhe,
        abs_of_nonneg (Shape.norm2_nonneg _)]

/-- **C136, violated** a point closer than the tolerance, where the normals interpolate to zero, is projected to something that is not a
number. -/
theorem C136_normal_fails {s : Surf} {p : V3} {id : Nat} {h r : ℝ} {k : Kind} {vs : List V3} (hcl : s.closest p r = some (id, h))
    (hk : s.cell id = some (k, vs)) (hn : Weighted (s.lam p vs) (s.vertexNormal id) ⟨0, 0, 0⟩)
    {x : V3} (hx : Weighted (s.lam p vs) (fun i => vs.getD i ⟨0, 0, 0⟩) x) (ht : norm2 (p - x) < s.tol) :
    ∃ d, signedDistance s p r = some d ∧ projected p d = none := by
  have hxe := hx.unique (weigh_weighted (fun i => vs.getD i ⟨0, 0, 0⟩) (s.lam p vs))
  have hne := hn.unique (weigh_weighted (s.vertexNormal id) (s.lam p vs))
  have e : ∀ g : ℝ, |g| = 1 → norm2 (V3.scale g (p - x)) = norm2 (p - x) := fun g hg => by rw [norm2_scale, hg, one_mul]
  unfold signedDistance pseudoNormal
  rw [hcl]
  simp only [hk, Option.bind_eq_bind, Option.bind_some, ← hxe, ← hne]
  refine ⟨_, rfl, ?_⟩
  have e1 := e (if dot (⟨0, 0, 0⟩ : V3) (p - x) < 0 then -1 else 1) (by split <;> norm_num)
  have h0 : unit? ⟨0, 0, 0⟩ = none := if_pos (by simp [norm2, dot])
  simp only [projected, e1, if_pos ht, h0]

/-! ### Projection -/

theorem signedAll_some {s : Surf} : ∀ (l : List (V3 × ℝ)) (ds : List Signed),
    signedAll s l = some ds ↔ List.Forall₂ (fun a d => signedDistance s a.1 a.2 = some d) l ds
  | [], ds => by
    simp only [signedAll, Option.some_inj]
    constructor
    · rintro rfl; exact .nil
    · rintro ⟨⟩; rfl
  | (p, r) :: l, ds => by
    simp only [signedAll, Option.bind_eq_bind, Option.bind_eq_some_iff, Option.some_inj]
    constructor
    · rintro ⟨d, hd, ds', hds, rfl⟩
      exact .cons hd ((signedAll_some l ds').1 hds)
    · intro h
      cases h with
      | cons hd ht => exact ⟨_, hd, _, (signedAll_some l _).2 ht, rfl⟩

theorem signed_exists {s : Surf} {region : Nat → V3 → Prop} (hs : Sound s region) (p : V3) (r : ℝ) :
    ∃ d, signedDistance s p r = some d ∧ ∀ x, d.dist = some x → |x| < huge := by
  cases hcl : s.closest p r with
  | none => exact ⟨_, by unfold signedDistance; rw [hcl], by simp⟩
  | some ih =>
    obtain ⟨id, h⟩ := ih
    obtain ⟨hc, hh, ⟨x0, hx0, hhx⟩, hmin⟩ := hs.found p r id h hcl
    obtain ⟨k, vs, x, n, hk, hn, hrx, hmx, hpn⟩ := pseudoNormal_spec hs (p := p) hc
    refine ⟨_, by unfold signedDistance; rw [hcl]; simp only [hpn, Option.bind_eq_bind, Option.bind_some]; rfl, ?_⟩
    simp only [Option.some_inj]
    rintro y rfl
    rw [abs_mul, side_abs, one_mul, hhx, abs_of_nonneg (Shape.norm2_nonneg _), ← hhx]
    exact hh

theorem signedAll_exists {s : Surf} {region : Nat → V3 → Prop} (hs : Sound s region) :
    ∀ l, ∃ ds, signedAll s l = some ds ∧ ∀ d ∈ ds, ∀ x, d.dist = some x → |x| < huge
  | [] => ⟨[], rfl, by simp⟩
  | (p, r) :: l => by
    obtain ⟨d, hd, hx⟩ := signed_exists hs p r
    obtain ⟨ds, hds, hxs⟩ := signedAll_exists hs l
    refine ⟨d :: ds, by simp [signedAll, hd, hds], ?_⟩
    simpa using ⟨hx, hxs⟩

theorem loop_once {s : Surf} {region : Nat → V3 → Prop} (hs : Sound s region) (ps : List V3) (rs : List ℝ) (f : Nat) :
    ∃ ds rs', projectLoop s ps (f + 1) rs = some (ds, rs') ∧ signedAll s (ps.zip rs) = some ds := by
  obtain ⟨ds, hds, hx⟩ := signedAll_exists hs (ps.zip rs)
  have hg : goesOn ds = false := by
    unfold goesOn
    simp only [Bool.and_eq_false_iff]
    left; right
    rw [List.any_eq_false]
    intro d hd
    cases hdd : d.dist with
    | none => simp
    | some x => simpa using (hx d hd x hdd).ne
  refine ⟨ds, List.zipWith (fun (d : Signed) r => if tooFar d.dist then r * (3 / 2) else r) ds rs, ?_, hds⟩
  unfold projectLoop
  rw [hds]
  simp only [hg]
  rfl

theorem forall₂_zip {s : Surf} {R : V3 → Option V3 → Prop} {f : ℝ → ℝ} : ∀ (ps : List V3) (rs : List ℝ) (ds : List Signed),
    rs.length = ps.length → List.Forall₂ (fun a d => signedDistance s a.1 a.2 = some d) (ps.zip (rs.map f)) ds →
    (∀ p ∈ ps, ∀ r ∈ rs, (p, r) ∈ ps.zip rs → ∀ d, signedDistance s p (f r) = some d → R p (projected p d)) →
    List.Forall₂ R ps (List.zipWith projected ps ds)
  | [], rs, ds, _, h, _ => by cases rs <;> simp at *
  | p :: ps, [], ds, hl, _, _ => by simp at hl
  | p :: ps, r :: rs, ds, hl, h, hR => by
    simp only [List.map_cons, List.zip_cons_cons] at h
    cases h with
    | cons hd ht =>
      simp only [List.zipWith_cons_cons]
      refine .cons (hR p (by simp) r (by simp) (by simp) _ hd) ?_
      exact forall₂_zip ps rs _ (by simpa using hl) ht
        (fun p' hp' r' hr' hz => hR p' (List.mem_cons_of_mem _ hp') r' (List.mem_cons_of_mem _ hr') (by simp [hz]))

/-- the projection of `p`: the closest point of the surface when not closer than the tolerance, a point as far from `p` as the closest
otherwise; `n` is the interpolated normal at the closest point -/
def ProjectedTo (s : Surf) (region : Nat → V3 → Prop) (p : V3) (q : Option V3) : Prop :=
  ∃ id x k vs n, Closest region p x id ∧ s.cell id = some (k, vs) ∧ Weighted (s.lam p vs) (s.vertexNormal id) n ∧
    (s.tol ≤ norm2 (p - x) → q = some x) ∧
    (norm2 (p - x) < s.tol → n ≠ ⟨0, 0, 0⟩ → ∃ y, q = some y ∧ norm2 (y - p) = norm2 (p - x))

/-- **C136** every point that is within its radius of the surface is projected to the closest point.  Missing: points closer than the
tolerance move by their distance along the interpolated normal; points farther than their radius are lost
(`C136_radius_fails`). -/
theorem C136_projected_partial {s : Surf} {region : Nat → V3 → Prop} (hs : Sound s region) (ht : 0 < s.tol) {ps : List V3} {rs : List ℝ}
    (hl : rs.length = ps.length) (hr : ∀ a ∈ ps.zip rs, ∃ id q, region id q ∧ norm2 (a.1 - q) < min (max a.2 s.tol) huge) (f : Nat) :
    ∃ qs ids, projectPoints s (f + 1) ps rs = some (qs, ids) ∧ List.Forall₂ (ProjectedTo s region) ps qs := by
  unfold projectPoints
  by_cases hp : ps = []
  · subst hp
    exact ⟨[], [], by simp, .nil⟩
  · rw [if_neg hp]
    obtain ⟨ds, rs', hd, hds⟩ := loop_once hs ps (rs.map fun r => max r s.tol) f
    rw [hd]
    refine ⟨_, _, rfl, ?_⟩
    refine forall₂_zip ps rs ds hl ((signedAll_some _ _).1 hds) ?_
    intro p _ r _ hz d hpd
    obtain ⟨d', id, x, n, hd', ⟨-, hcl, ⟨k, vs, hk, hn⟩, -, -⟩, h1, h2⟩ := C136_signed hs ht (hr (p, r) hz)
    rw [hpd] at hd'
    obtain rfl := Option.some_inj.1 hd'
    exact ⟨id, x, k, vs, n, hcl, hk, hn, h1, h2⟩

/-- **C136, violated** when no cell is found within the radius the radius is not increased: the result is not a number. -/
theorem C136_radius_fails {s : Surf} {p : V3} {r : ℝ} (h : s.closest p (max r s.tol) = none) (f : Nat) :
    projectPoint s (f + 1) p r = some none := by
  have hsd : signedDistance s p (max r s.tol) = some ⟨none, none, some ⟨0, 0, 0⟩⟩ := by unfold signedDistance; rw [h]
  unfold projectPoint projectPoints projectLoop
  simp [signedAll, hsd, goesOn, projected]

/-- the unsigned distance is the absolute value of the signed one -/
theorem C136_unsigned {s : Surf} {region : Nat → V3 → Prop} (hs : Sound s region) {p : V3} {r : ℝ} {d : Signed} {x : ℝ}
    (hd : signedDistance s p r = some d) (hx : d.dist = some x) : distance s p r = (d.id, |x|) := by
  cases hcl : s.closest p r with
  | none =>
    unfold signedDistance at hd; rw [hcl] at hd
    obtain rfl := Option.some_inj.1 hd
    cases hx
  | some ih =>
    obtain ⟨id, h⟩ := ih
    obtain ⟨hc, hh, ⟨x0, hx0, hhx⟩, hmin⟩ := hs.found p r id h hcl
    obtain ⟨k, vs, y, n, hk, hn, hrx, hmx, hpn⟩ := pseudoNormal_spec hs (p := p) hc
    unfold signedDistance at hd
    rw [hcl] at hd
    simp only [hpn, Option.bind_eq_bind, Option.bind_some] at hd
    obtain rfl := Option.some_inj.1 hd
    simp only [Option.some_inj] at hx
    subst hx
    unfold distance
    rw [hcl]
    simp only
    rw [abs_mul, side_abs, one_mul, hhx, abs_of_nonneg (Shape.norm2_nonneg _)]

/-! ### Location -/

/-- the points of a cell -/
inductive InCell : Kind → List V3 → V3 → Prop
  | line {v0 v1 : V3} {t : ℝ} : tiny < norm2 (v1 - v0) → 0 ≤ t → t ≤ 1 → InCell .line [v0, v1] (along v0 v1 t)
  | triangle {v0 v1 v2 q : V3} : tiny < norm2 (triNormal v0 v1 v2) → InTri v0 v1 v2 q → InCell .triangle [v0, v1, v2] q
  | polygon {n v0 a b q : V3} {l : List V3} : Convex n v0 (a :: b :: l) → dot (q - v0) n = 0 →
    (∀ e ∈ edges (v0 :: a :: b :: l ++ [v0]), LeftOf n q e) → InCell .polygon (v0 :: a :: b :: l) q

/-- **C137** the points of a cell belong to it: segments, triangles and convex polygons of some size, whatever the tolerance. -/
theorem C137_belongs {s : Surf} (ht : 0 ≤ s.tol) {id : Nat} {k : Kind} {vs : List V3} {p : V3} (hc : s.cell id = some (k, vs))
    (hp : InCell k vs p) : belongs s p id = some true := by
  unfold belongs
  rw [hc]
  cases hp with
  | @line v0 v1 t hl h0 h1 =>
    simp only
    rw [C134_segment_complete hl h0 h1]
    have : along v0 v1 t - along v0 v1 t = ⟨0, 0, 0⟩ := by ext <;> simp
    rw [this]
    simpa [norm2, dot] using ht
  | triangle hn hq =>
    obtain ⟨a, b, ha, hb, hab, rfl⟩ := hq
    simp only [C134_triangle_complete hn ht ha hb hab]
  | polygon hcv hq hin => exact C134_polygon_complete_partial hcv ht hq hin

/-- what is assumed of the search without a radius -/
structure NearestOk (s : Surf) : Prop where
  cell : ∀ p id h, s.nearest p = some (id, h) → ∃ k vs, s.cell id = some (k, vs)
  /-- a point that is on the surface is on the cell that is found -/
  on : ∀ p id k vs, s.cell id = some (k, vs) → InCell k vs p → ∃ id' k' vs', s.nearest p = some (id', 0) ∧ s.cell id' = some (k', vs') ∧ InCell k' vs' p

/-- **C137** a point of the surface is located, on a cell it is a point of. -/
theorem C137_located_partial {s : Surf} (hs : NearestOk s) (ht : 0 ≤ s.tol) {p : V3} {id : Nat} {k : Kind} {vs : List V3}
    (hc : s.cell id = some (k, vs)) (hp : InCell k vs p) :
    ∃ id' k' vs', locate s p = some (some id') ∧ s.cell id' = some (k', vs') ∧ InCell k' vs' p := by
  obtain ⟨id', k', vs', hn, hc', hp'⟩ := hs.on p id k vs hc hp
  refine ⟨id', k', vs', ?_, hc', hp'⟩
  unfold locate
  rw [hn]
  simp only [C137_belongs ht hc' hp']
  rfl

/-- **C137** with tolerance zero a point located on a triangle is a point of that triangle; with a tolerance, one the triangle is said to
hold. -/
theorem C137_sound {s : Surf} {p : V3} {id : Nat} (h : locate s p = some (some id)) :
    belongs s p id = some true ∧ (∃ x, s.nearest p = some (id, x)) ∧
      (s.tol = 0 → ∀ v0 v1 v2, s.cell id = some (.triangle, [v0, v1, v2]) → InTri v0 v1 v2 p) := by
  unfold locate at h
  cases hn : s.nearest p with
  | none => rw [hn] at h; cases h
  | some ih =>
    obtain ⟨id', x⟩ := ih
    rw [hn] at h
    simp only at h
    cases hb : belongs s p id' with
    | none => rw [hb] at h; cases h
    | some b =>
      rw [hb] at h
      cases b with
      | false => cases h
      | true =>
        obtain rfl : id' = id := by simpa using h
        refine ⟨hb, ⟨x, rfl⟩, ?_⟩
        intro h0 v0 v1 v2 hc
        unfold belongs at hb
        rw [hc] at hb
        simp only [Option.some_inj] at hb
        obtain ⟨a, b, c, -, -, -, h4⟩ := C134_triangle_sound_partial hb
        obtain ⟨h5, h6, h7, h8⟩ := h4 h0
        exact ⟨a, b, h6, h7, h8, h5⟩

/-- **C137, violated** on a surface without cells the search finds nothing and the location of a point is undefined. -/
theorem C137_empty_fails {s : Surf} (hs : NearestOk s) (he : ∀ id, s.cell id = none) (p : V3) : locate s p = none := by
  unfold locate
  cases hn : s.nearest p with
  | none => rfl
  | some ih =>
    obtain ⟨k, vs, hc⟩ := hs.cell p ih.1 ih.2 hn
    rw [he] at hc; cases hc

/-! ### A surface that meets the hypotheses -/

/-- a surface of one triangle -/
theorem demo_surf' : ∃ s : Surf, Sound s (fun id q => id = 0 ∧ InTri ⟨0, 0, 0⟩ ⟨1, 0, 0⟩ ⟨0, 1, 0⟩ q) ∧ NearestOk s ∧ s.tol = 1 / 100 ∧
    s.cell 0 = some (.triangle, [⟨0, 0, 0⟩, ⟨1, 0, 0⟩, ⟨0, 1, 0⟩]) ∧ (∀ p r id h, s.closest p r = some (id, h) → h < r) ∧
    (∀ id i, s.vertexNormal id i = ⟨0, 0, 1⟩) ∧ ∀ p vs, ∃ a b, s.lam p vs = [1 - a - b, a, b] := by
  obtain ⟨f, hf⟩ := triDist_exists
  have ha : ∀ p, ∃ a b, 0 ≤ a ∧ 0 ≤ b ∧ a + b ≤ 1 ∧ f p ⟨0, 0, 0⟩ ⟨1, 0, 0⟩ ⟨0, 1, 0⟩ = norm2 (p - inPlane ⟨0, 0, 0⟩ ⟨1, 0, 0⟩ ⟨0, 1, 0⟩ a b) := by
    intro p
    obtain ⟨q, ⟨a, b, h1, h2, h3, rfl⟩, hq⟩ := (hf p ⟨0, 0, 0⟩ ⟨1, 0, 0⟩ ⟨0, 1, 0⟩).2
    exact ⟨a, b, h1, h2, h3, hq⟩
  choose a b h1 h2 h3 h4 using ha
  let d : V3 → ℝ := fun p => f p ⟨0, 0, 0⟩ ⟨1, 0, 0⟩ ⟨0, 1, 0⟩
  let cell : Nat → Option (Kind × List V3) := fun id => if id = 0 then some (.triangle, [⟨0, 0, 0⟩, ⟨1, 0, 0⟩, ⟨0, 1, 0⟩]) else none
  let s : Surf := ⟨cell, fun _ _ => ⟨0, 0, 1⟩, 1 / 100, fun p r => if d p < min r huge then some (0, d p) else none, fun p => some (0, d p),
    fun p _ => [1 - a p - b p, a p, b p]⟩
  have hcell : ∀ id k vs, cell id = some (k, vs) → id = 0 ∧ k = .triangle ∧ vs = [⟨0, 0, 0⟩, ⟨1, 0, 0⟩, ⟨0, 1, 0⟩] := by
    intro id k vs h
    simp only [cell] at h
    split at h
    · rename_i hid
      simp only [Option.some_inj, Prod.mk.injEq] at h
      exact ⟨hid, h.1.symm, h.2.symm⟩
    · cases h
  refine ⟨s, ⟨?_, ?_, ?_⟩, ⟨?_, ?_⟩, rfl, by simp [s, cell], ?_, fun _ _ => rfl, fun p _ => ⟨a p, b p, rfl⟩⟩
  · intro p r id h hcl
    simp only [s] at hcl
    split at hcl
    · rename_i hd
      simp only [Option.some_inj, Prod.mk.injEq] at hcl
      obtain ⟨rfl, rfl⟩ := hcl
      refine ⟨by simp [s, cell], lt_of_lt_of_le hd (min_le_right _ _), ⟨_, ⟨rfl, a p, b p, h1 p, h2 p, h3 p, rfl⟩, h4 p⟩, ?_⟩
      rintro id' q ⟨-, hq⟩
      exact (hf p _ _ _).1 q hq
    · cases hcl
  · intro p r hcl id q hq
    simp only [s] at hcl
    split at hcl
    · cases hcl
    · rename_i hd
      exact (not_lt.1 hd).trans ((hf p _ _ _).1 q hq.2)
  · intro p id k vs hc
    obtain ⟨rfl, rfl, rfl⟩ := hcell id k vs hc
    refine ⟨inPlane ⟨0, 0, 0⟩ ⟨1, 0, 0⟩ ⟨0, 1, 0⟩ (a p) (b p), ?_, ⟨rfl, a p, b p, h1 p, h2 p, h3 p, rfl⟩, ?_⟩
    · simp [Weighted, s, Finset.sum_range_succ, inPlane, V3.scale]
    · rintro q ⟨-, hq⟩
      rw [← h4]
      exact (hf p _ _ _).1 q hq
  · intro p id h hn
    simp only [s, Option.some_inj, Prod.mk.injEq] at hn
    obtain ⟨rfl, -⟩ := hn
    exact ⟨_, _, by simp [s, cell]; exact ⟨rfl, rfl⟩⟩
  · intro p id k vs hc hp
    obtain ⟨rfl, rfl, rfl⟩ := hcell id k vs hc
    refine ⟨0, _, _, ?_, hc, hp⟩
    cases hp with
    | triangle hn hq =>
      have hd : d p = 0 := by
        refine le_antisymm ?_ (by simp only [d]; rw [h4]; exact Shape.norm2_nonneg _)
        refine ((hf p _ _ _).1 p hq).trans (le_of_eq ?_)
        have : p - p = ⟨0, 0, 0⟩ := by ext <;> simp
        rw [this]; simp [norm2, dot]
      simp only [s, hd]
  · intro p r id h hcl
    simp only [s] at hcl
    split at hcl
    · rename_i hd
      simp only [Option.some_inj, Prod.mk.injEq] at hcl
      obtain ⟨rfl, rfl⟩ := hcl
      exact lt_of_lt_of_le hd (min_le_left _ _)
    · cases hcl

theorem demo_surf : ∃ s : Surf, Sound s (fun id q => id = 0 ∧ InTri ⟨0, 0, 0⟩ ⟨1, 0, 0⟩ ⟨0, 1, 0⟩ q) ∧ NearestOk s ∧ s.tol = 1 / 100 ∧
    s.cell 0 = some (.triangle, [⟨0, 0, 0⟩, ⟨1, 0, 0⟩, ⟨0, 1, 0⟩]) := by
  obtain ⟨s, h1, h2, h3, h4, -⟩ := demo_surf'
  exact ⟨s, h1, h2, h3, h4⟩

/-- a point above it is projected, one on it is located, one too far away is lost -/
example : ∃ s : Surf, (∃ qs ids, projectPoints s 1 [⟨1 / 4, 1 / 4, 1⟩] [2] = some (qs, ids) ∧
      List.Forall₂ (ProjectedTo s fun id q => id = 0 ∧ InTri ⟨0, 0, 0⟩ ⟨1, 0, 0⟩ ⟨0, 1, 0⟩ q) [⟨1 / 4, 1 / 4, 1⟩] qs) ∧
    ∃ id, locate s ⟨1 / 4, 1 / 4, 0⟩ = some (some id) := by
  obtain ⟨s, hs, hn, ht, hc⟩ := demo_surf
  have e : inPlane ⟨0, 0, 0⟩ ⟨1, 0, 0⟩ ⟨0, 1, 0⟩ (1 / 4) (1 / 4) = ⟨1 / 4, 1 / 4, 0⟩ := by
    ext <;> simp [inPlane, V3.scale]
  have hin : InTri ⟨0, 0, 0⟩ ⟨1, 0, 0⟩ ⟨0, 1, 0⟩ ⟨1 / 4, 1 / 4, 0⟩ := ⟨1 / 4, 1 / 4, by norm_num, by norm_num, by norm_num, e.symm⟩
  refine ⟨s, ?_, ?_⟩
  · refine C136_projected_partial hs (by rw [ht]; norm_num) rfl ?_ 0
    simp only [List.zip_cons_cons, List.zip_nil_right, List.mem_cons, List.not_mem_nil, or_false, forall_eq]
    refine ⟨0, ⟨1 / 4, 1 / 4, 0⟩, ⟨rfl, hin⟩, ?_⟩
    have h1 : norm2 ((⟨1 / 4, 1 / 4, 1⟩ : V3) - ⟨1 / 4, 1 / 4, 0⟩) = 1 := norm2_of_dot (by norm_num) (by simp [dot])
    rw [h1]
    have := ten_le_huge
    exact lt_min (lt_of_lt_of_le (by norm_num) (le_max_left _ _)) (by linarith)
  · have hn1 : norm2 (triNormal ⟨0, 0, 0⟩ ⟨1, 0, 0⟩ ⟨0, 1, 0⟩) = 1 :=
      norm2_of_dot (by norm_num) (by simp [triNormal, dot, cross])
    obtain ⟨id, -, -, h, -⟩ := C137_located_partial hn (by rw [ht]; norm_num) hc (InCell.triangle (by rw [hn1]; exact tiny_lt_one') hin)
    exact ⟨id, h⟩

end
end Verif.Tree
