import Verif.Utils.ObbMove
/-
C162: settings of the oriented box; concrete cases of C160 and C161.
-/
namespace Verif.Utils
open Verif.Shape Verif.Manip Verif.Field Verif.Xml Verif.Create
open Verif.Mesh (Obj Cell vertexIds)
open Verif.Rbf (tiny huge Fits)
open List hiding get get_of_mem

noncomputable section
open scoped Classical

/-! ### C162 -/

/-- **C162**: the list of geometries: `setGeometry` adds to it, `setGeometries` replaces it, pointers to nothing and volume meshes are
dropped, and no geometry is listed twice -/
theorem C162_list (w : World) (b : Obb) (l : List (Option Nat)) (g : Option Nat) (hn : b.geos.Nodup) :
    (∀ x, x ∈ (b.setGeometry w g).geos ↔ x ∈ b.geos ∨ some x = g ∧ (w x).type ≠ 2) ∧ (b.setGeometry w g).geos.Nodup ∧
    (∀ x, x ∈ (b.setGeometries w l).geos ↔ some x ∈ l ∧ (w x).type ≠ 2) ∧ (b.setGeometries w l).geos.Nodup := by
  have one : ∀ (b : Obb) (g : Option Nat), b.geos.Nodup →
      (∀ x, x ∈ (b.setGeometry w g).geos ↔ x ∈ b.geos ∨ some x = g ∧ (w x).type ≠ 2) ∧ (b.setGeometry w g).geos.Nodup := by
    intro b g hn
    cases g with
    | none => simp [Obb.setGeometry, hn]
    | some g =>
      unfold Obb.setGeometry
      simp only
      split
      · rename_i h2
        refine ⟨fun x => ⟨.inl, ?_⟩, hn⟩
        rintro (h | ⟨h, h'⟩)
        · exact h
        · rw [Option.some.inj h] at h'; exact absurd h2 h'
      · rename_i h2
        refine ⟨fun x => ?_, hn.insert⟩
        simp only [mem_insert_iff, Option.some.injEq]
        constructor
        · rintro (rfl | h)
          · exact .inr ⟨rfl, h2⟩
          · exact .inl h
        · rintro (h | ⟨rfl, -⟩)
          · exact .inr h
          · exact .inl rfl
  have many : ∀ (l : List (Option Nat)) (b : Obb), b.geos.Nodup →
      (∀ x, x ∈ (l.foldl (Obb.setGeometry w) b).geos ↔ x ∈ b.geos ∨ some x ∈ l ∧ (w x).type ≠ 2) ∧
      (l.foldl (Obb.setGeometry w) b).geos.Nodup := by
    intro l
    induction l with
    | nil => intro b hn; simp [hn]
    | cons a l ih =>
      intro b hn
      obtain ⟨h1, h2⟩ := one b a hn
      obtain ⟨h3, h4⟩ := ih (b.setGeometry w a) h2
      refine ⟨fun x => ?_, h4⟩
      rw [foldl_cons, h3, h1, mem_cons]
      tauto
  obtain ⟨h1, h2⟩ := one b g hn
  obtain ⟨h3, h4⟩ := many l { b with geos := [] } (by simp)
  refine ⟨h1, h2, fun x => ?_, h4⟩
  have := h3 x
  simp only [not_mem_nil, false_or] at this
  exact this

example : ({} : Obb).geos.Nodup := by simp

/-- the strategy is not touched by the geometries, nor the geometries by the settings -/
theorem setGeometry_rest (w : World) (b : Obb) (g : Option Nat) :
    (b.setGeometry w g).strategy = b.strategy ∧ (b.setGeometry w g).info = b.info ∧ (b.setGeometry w g).origin = b.origin ∧
    (b.setGeometry w g).span = b.span ∧ (b.setGeometry w g).axes = b.axes := by
  unfold Obb.setGeometry
  split
  · exact ⟨rfl, rfl, rfl, rfl, rfl⟩
  · split <;> exact ⟨rfl, rfl, rfl, rfl, rfl⟩

/-- **C162**: the strategy: by value, by number (numbers below 0 count as 0, above 2 as 2), or by the old flag, which gives the aligned box or
the oriented one; the old question tells whether it is the aligned one -/
theorem C162_strategy (b : Obb) (s : Strategy) (n : Int) (f : Bool) :
    (b.setStrategy s).strategy = s ∧
    ((b.setStrategyInt n).strategy = .obb ↔ n ≤ 0) ∧ ((b.setStrategyInt n).strategy = .aabb ↔ n = 1) ∧
    ((b.setStrategyInt n).strategy = .minvol ↔ 2 ≤ n) ∧
    (b.setForceAABB f).strategy = (if f then .aabb else .obb) ∧ (b.setForceAABB f).isForcedAABB = f ∧
    (b.isForcedAABB = true ↔ b.strategy = .aabb) ∧ (b.setWriteInfo f).info = f := by
  have hi : (b.setStrategyInt n).strategy = if n ≤ 0 then .obb else if n = 1 then .aabb else .minvol := by
    unfold Obb.setStrategyInt strategyOf
    simp only
    by_cases h0 : n ≤ 0
    · rw [if_pos h0, if_pos (by omega)]
    · rw [if_neg h0, if_neg (by omega)]
      by_cases h1 : n = 1
      · rw [if_pos h1, if_pos (by omega)]
      · rw [if_neg h1, if_neg (by omega)]
  refine ⟨rfl, ?_, ?_, ?_, rfl, ?_, ?_, rfl⟩
  · rw [hi]; split <;> [skip; split] <;> simp <;> omega
  · rw [hi]; split <;> [skip; split] <;> simp <;> omega
  · rw [hi]; split <;> [skip; split] <;> simp <;> omega
  · cases f <;> rfl
  · cases hs : b.strategy <;> simp [Obb.isForcedAABB, hs]

/-- **C162**: settings change nothing but themselves -/
theorem C162_rest (b : Obb) (s : Strategy) (n : Int) (f : Bool) :
    b.setStrategy s = { b with strategy := s } ∧ b.setStrategyInt n = { b with strategy := (b.setStrategyInt n).strategy } ∧
    b.setForceAABB f = { b with strategy := (b.setForceAABB f).strategy } ∧ b.setWriteInfo f = { b with info := f } := ⟨rfl, rfl, rfl, rfl⟩

/-- the number in a text, 0 for an empty one -/
def numIn (t : Text) : Int := if trim t = [] then 0 else readSigned (trim t)

/-- **C162**: the options of a section: the old flag is read first, the number of the strategy overrides it, missing options change
nothing -/
theorem C162_absorb (x : Section) (b : Obb) :
    (b.absorb x).geos = b.geos ∧ (b.absorb x).origin = b.origin ∧ (b.absorb x).span = b.span ∧ (b.absorb x).axes = b.axes ∧
    (b.absorb x).strategy = (match x "OBBStrategy", x "ForceAABB" with
      | some t, _ => if numIn t ≤ 0 then .obb else if numIn t = 1 then .aabb else .minvol
      | none, some t => if boolOption t then .aabb else .obb
      | none, none => b.strategy) ∧
    (b.absorb x).info = (match x "WriteInfo" with
      | some t => boolOption t
      | none => b.info) := by
  have hi : ∀ (b : Obb) (n : Int), b.setStrategyInt n = { b with strategy := if n ≤ 0 then .obb else if n = 1 then .aabb else .minvol } := by
    intro b n
    unfold Obb.setStrategyInt strategyOf
    congr 1
    by_cases h0 : n ≤ 0
    · rw [if_pos h0, if_pos (by omega)]
    · rw [if_neg h0, if_neg (by omega)]
      by_cases h1 : n = 1
      · rw [if_pos h1, if_pos (by omega)]
      · rw [if_neg h1, if_neg (by omega)]
  unfold Obb.absorb
  have hn : ∀ t : Text, (if trim t = [] then 0 else readSigned (trim t)) = numIn t := fun t => rfl
  cases x "ForceAABB" with
  | none =>
    cases x "OBBStrategy" with
    | none => cases x "WriteInfo" <;> refine ⟨rfl, rfl, rfl, rfl, rfl, rfl⟩
    | some t =>
      simp only [hn, hi]
      cases x "WriteInfo" <;> refine ⟨rfl, rfl, rfl, rfl, rfl, rfl⟩
  | some u =>
    cases x "OBBStrategy" with
    | none =>
      cases x "WriteInfo" <;> cases hu : boolOption u <;> simp [Obb.setStrategy, Obb.setWriteInfo, hu]
    | some t =>
      simp only [hn, hi]
      cases x "WriteInfo" <;> cases hu : boolOption u <;> simp [Obb.setStrategy, Obb.setWriteInfo, hu]

/-- **C162**: a block made from the section that another one wrote has its settings; the geometries are not in the section, the box is the
initial one -/
theorem C162_round_trip (b : Obb) (x : Section) (hc : x "ClassName" = some "mimmo.OBBox".toList) :
    Obb.fromXml (b.flush x) = { strategy := b.strategy, info := b.info } := by
  have x1 : (b.flush x) "ClassName" = some "mimmo.OBBox".toList := by simp only [Obb.flush]; rw [if_neg (by decide), if_neg (by decide)]; exact hc
  have x3 : (b.flush x) "OBBStrategy" = some (toText b.strategy.code) := by simp only [Obb.flush]; rw [if_neg (by decide)]; simp
  have x4 : (b.flush x) "WriteInfo" = some (toText b.info.toNat) := by simp [Obb.flush]
  have hc' : trim "mimmo.OBBox".toList = "mimmo.OBBox".toList := by decide +kernel
  have n : numIn (toText b.strategy.code) = b.strategy.code := by
    unfold numIn
    rw [if_neg (Verif.Recon.trim_toText_ne _)]
    have hb : (b.strategy.code : Int) ≤ INT_MAX := by cases b.strategy <;> decide
    obtain ⟨a1, a2⟩ := readSigned_intText (n := (b.strategy.code : Int)) (by unfold INT_MIN; omega) hb
    have e : intText (b.strategy.code : Int) = toText b.strategy.code := by
      unfold intText; rw [if_neg (by omega)]; rfl
    rw [e] at a1 a2
    rw [a1, a2]
  have bo : boolOption (toText b.info.toNat) = b.info := by
    unfold boolOption
    rw [if_neg (Verif.Recon.trim_toText_ne _), Verif.Recon.readBool_toText]
    cases b.info <;> rfl
  obtain ⟨a1, a2, a3, a4, a5, a6⟩ := C162_absorb (b.flush x) {}
  rw [x3] at a5
  rw [x4] at a6
  simp only [n, bo] at a5 a6
  unfold Obb.fromXml
  rw [x1]
  simp only [Option.getD_some, hc', if_true]
  have : ∀ y : Obb, y = ⟨y.geos, y.origin, y.span, y.axes, y.strategy, y.info⟩ := fun y => rfl
  rw [this (Obb.absorb (b.flush x) {}), a1, a2, a3, a4, a5, a6]
  congr 1
  cases b.strategy <;> rfl

example : ∃ x : Section, x "ClassName" = some "mimmo.OBBox".toList :=
  ⟨fun k => if k = "ClassName" then some "mimmo.OBBox".toList else none, rfl⟩

/-- **C162**: a section for another class leaves the initial settings; so does clearing a block -/
theorem C162_initial (x : Section) (h : ∀ t, x "ClassName" = some t → trim t ≠ "mimmo.OBBox".toList) (b : Obb) :
    Obb.fromXml x = b.clear ∧ b.clear.geos = [] ∧ b.clear.strategy = .obb ∧ b.clear.info = false ∧ b.clear.origin = ⟨0, 0, 0⟩ ∧
    b.clear.span = ⟨1, 1, 1⟩ ∧ b.clear.axes = ⟨⟨1, 0, 0⟩, ⟨0, 1, 0⟩, ⟨0, 0, 1⟩⟩ := by
  refine ⟨?_, rfl, rfl, rfl, rfl, rfl, rfl⟩
  unfold Obb.fromXml
  cases hx : x "ClassName" with
  | none => rw [if_neg (by decide +kernel)]; rfl
  | some t => rw [Option.getD_some, if_neg (h t hx)]; rfl

example : ∀ t, (fun _ => none : Section) "ClassName" = some t → trim t ≠ "mimmo.OBBox".toList := fun t h => nomatch h

/-! ### Concrete cases of C160 and C161 -/

/-- an isosceles triangle of area 1 -/
def isoObj : Obj V3 :=
  { demoObj with
    type := 1
    verts := [(0, ⟨-1, 0, 0⟩), (1, ⟨1, 0, 0⟩), (2, ⟨0, 1, 0⟩)]
    cells := [(0, ⟨.triangle, [0, 1, 2], 0, true⟩)] }

def isoWorld : World := fun _ => isoObj
def isoTri : Tri := (⟨-1, 0, 0⟩, ⟨1, 0, 0⟩, ⟨0, 1, 0⟩)

/-- eigenvectors of a diagonal matrix with decreasing entries, in ascending order -/
def isoSolver : M3 → M3 × V3 := fun m => (⟨⟨0, 0, 1⟩, ⟨0, 1, 0⟩, ⟨1, 0, 0⟩⟩, ⟨m.r2.z, m.r1.y, m.r0.x⟩)

theorem iso_ok : WorldOk isoWorld := by
  refine ⟨fun _ => ?_, fun _ => ?_⟩ <;> simp [Ok, isoWorld, isoObj]

theorem iso_tri : Triangulated isoWorld [0] [isoTri] :=
  .cons ⟨0, 1, 2, rfl, rfl, rfl, rfl, rfl⟩ .nil

theorem iso_surf : Surfaces isoWorld [0] := by intro g _; simp [isoWorld, isoObj]

theorem iso_area : areaOf isoTri = 1 := by
  unfold areaOf isoTri
  have : cross ((⟨1, 0, 0⟩ : V3) - ⟨-1, 0, 0⟩) ((⟨0, 1, 0⟩ : V3) - ⟨-1, 0, 0⟩) = V3.scale 2 ⟨0, 0, 1⟩ := by
    ext <;> simp [cross, V3.scale] <;> norm_num
  simp only [this]
  rw [norm2_scale, norm2_one (by norm_num [dot])]
  norm_num

theorem iso_cov {m : M3} (h : IsCovariance [isoTri] m) : m = ⟨⟨1 / 6, 0, 0⟩, ⟨0, 1 / 18, 0⟩, ⟨0, 0, 0⟩⟩ := by
  obtain ⟨-, c, h1, h2⟩ := h
  have e0 : overAll (fun _ => 1) [isoTri] = 1 := by
    simp only [overAll, map_cons, map_nil, sum_cons, sum_nil, overTri_one, iso_area]; norm_num
  rw [e0] at h1 h2
  simp only [overAll, map_cons, map_nil, sum_cons, sum_nil, overTri_at, overTri_prod, iso_area] at h1 h2
  have cx := h1 0
  have cy := h1 1
  have cz := h1 2
  simp only [V3.at, isoTri] at cx cy cz
  have cx : c.x = 0 := by linarith
  have cy : c.y = 1 / 3 := by linarith
  have cz : c.z = 0 := by linarith
  ext
  · have := h2 0 0; simp only [V3.at, isoTri, M3.row, cx, cy, cz] at this; linarith
  · have := h2 0 1; simp only [V3.at, isoTri, M3.row, cx, cy, cz] at this; linarith
  · have := h2 0 2; simp only [V3.at, isoTri, M3.row, cx, cy, cz] at this; linarith
  · have := h2 1 0; simp only [V3.at, isoTri, M3.row, cx, cy, cz] at this; linarith
  · have := h2 1 1; simp only [V3.at, isoTri, M3.row, cx, cy, cz] at this; linarith
  · have := h2 1 2; simp only [V3.at, isoTri, M3.row, cx, cy, cz] at this; linarith
  · have := h2 2 0; simp only [V3.at, isoTri, M3.row, cx, cy, cz] at this; linarith
  · have := h2 2 1; simp only [V3.at, isoTri, M3.row, cx, cy, cz] at this; linarith
  · have := h2 2 2; simp only [V3.at, isoTri, M3.row, cx, cy, cz] at this; linarith

theorem iso_ortho (c : M3) : Ortho (isoSolver c).1 := by
  refine ⟨?_, ?_, ?_, ?_, ?_, ?_⟩ <;> norm_num [isoSolver, dot]

theorem tiny_small : tiny < 1 / 100 := by
  unfold tiny
  have : (2 : ℝ) ^ 7 ≤ 2 ^ 1022 := pow_le_pow_right₀ (by norm_num) (by norm_num)
  rw [div_lt_div_iff₀ (by positivity) (by norm_num)]
  generalize (2 : ℝ) ^ 1022 = t at *
  linarith

theorem iso_solved {m : M3} (h : IsCovariance [isoTri] m) : Solved m (isoSolver m) ∧ ApartValues (isoSolver m).2 := by
  obtain rfl := iso_cov h
  have ht := tiny_small
  refine ⟨⟨iso_ortho _, ?_, ?_, ?_, ?_⟩, .inr ?_, .inr ?_, .inr ?_⟩
  · ext <;> norm_num [isoSolver, M3.app, dot, V3.scale]
  · ext <;> norm_num [isoSolver, M3.app, dot, V3.scale]
  · ext <;> norm_num [isoSolver, M3.app, dot, V3.scale]
  · norm_num [isoSolver]
  · simp only [isoSolver]; rw [show |(0 : ℝ) - 1 / 18| = 1 / 18 by norm_num]; linarith
  · simp only [isoSolver]; rw [show |(1 / 18 : ℝ) - 1 / 6| = 1 / 9 by norm_num]; linarith
  · simp only [isoSolver]; rw [show |(0 : ℝ) - 1 / 6| = 1 / 6 by norm_num]; linarith

theorem iso_area_pos : 0 < overAll (fun _ => 1) [isoTri] := by
  simp only [overAll, map_cons, map_nil, sum_cons, sum_nil, overTri_one, iso_area]; norm_num

/-- the box of the triangle exists, with the expected axes -/
theorem iso_run (junk : S3) (s : Strategy) : ∃ r, ({ geos := [0], strategy := s } : Obb).execute isoSolver junk isoWorld = some r ∧
    r.axes = M3.one := by
  obtain ⟨m, hm, hc⟩ := C161_surface junk iso_surf iso_tri iso_area_pos
  have em := iso_cov hc
  have ht := tiny_small
  have ax : adjustBasis (eigenVectors isoSolver m).1 (eigenVectors isoSolver m).2 = M3.one := by
    have e : eigenVectors isoSolver m = (M3.one, ⟨1 / 6, 1 / 18, 0⟩) := by
      unfold eigenVectors
      have o := iso_ortho m
      simp only [unit_of_unit o.u0, unit_of_unit o.u1, unit_of_unit o.u2]
      rw [em]
      rfl
    rw [e]
    unfold adjustBasis
    simp only
    have d0 : |(1 / 18 : ℝ) - 1 / 6| = 1 / 9 := by norm_num
    have d1 : |(0 : ℝ) - 1 / 18| = 1 / 18 := by norm_num
    have d2 : |(1 / 6 : ℝ) - 0| = 1 / 6 := by norm_num
    rw [d0, d1, d2, if_neg (by rintro ⟨h, -⟩; linarith), if_pos ⟨by linarith, by linarith, by linarith⟩]
    unfold turned
    rw [if_neg (by norm_num [M3.one, dot, cross])]
  have ho : ∃ d, computeObb isoSolver junk isoWorld [0] = some d ∧ d.axes = M3.one := by
    unfold computeObb
    rw [hm]
    simp only [Option.bind_some, ax]
    rw [aabb_along]
    exact ⟨_, rfl, rfl⟩
  obtain ⟨d, hd, hda⟩ := ho
  cases s with
  | obb =>
    refine ⟨Obb.put { geos := [0], strategy := .obb } d, ?_, hda⟩
    unfold Obb.execute
    simp only [isEmpty_cons, Bool.false_eq_true, if_false, hd, Option.map_some]
  | aabb => exact ⟨_, rfl, rfl⟩
  | minvol =>
    refine ⟨Obb.put { geos := [0], strategy := .minvol } (if d.volume < (computeAabb isoWorld [0]).volume then d else computeAabb isoWorld [0]), ?_, ?_⟩
    · unfold Obb.execute
      simp only [isEmpty_cons, Bool.false_eq_true, if_false, hd, Option.map_some]
    · show (if _ then d else computeAabb isoWorld [0]).axes = _
      split
      · exact hda
      · rfl

theorem iso_vertex (p : V3) (h : IsVertex isoWorld [0] p) : p = ⟨-1, 0, 0⟩ ∨ p = ⟨1, 0, 0⟩ ∨ p = ⟨0, 1, 0⟩ := by
  obtain ⟨g, -, id, hp⟩ := h
  have := get_some_mem hp
  simp only [isoWorld, isoObj, mem_cons, Prod.mk.injEq, not_mem_nil, or_false] at this
  rcases this with ⟨-, h⟩ | ⟨-, h⟩ | ⟨-, h⟩
  · exact .inl h
  · exact .inr (.inl h)
  · exact .inr (.inr h)

theorem iso_fits (t : V3) (hx : |t.x| ≤ 5) (hy : |t.y| ≤ 5) (hz : |t.z| ≤ 5) : FitsAlong (moved t isoWorld) [0] M3.one := by
  intro p hp
  have hh := huge_ge
  rw [abs_le] at hx hy hz
  rw [(dot_one p).1, (dot_one p).2.1, (dot_one p).2.2]
  have hv := iso_vertex _ ((vertex_moved t isoWorld [0] p).1 hp)
  have px : p.x = (p - t).x + t.x := by simp
  have py : p.y = (p - t).y + t.y := by simp
  have pz : p.z = (p - t).z + t.z := by simp
  unfold Fits
  rcases hv with h | h | h <;> rw [h] at px py pz <;> simp only at px py pz <;>
    refine ⟨⟨?_, ?_⟩, ⟨?_, ?_⟩, ⟨?_, ?_⟩⟩ <;> linarith

theorem iso_fits0 : FitsAlong isoWorld [0] M3.one := by
  have h := iso_fits ⟨0, 0, 0⟩ (by simp) (by simp) (by simp)
  intro p hp
  refine h p ((vertex_moved _ _ _ _).2 ?_)
  have : p - ⟨0, 0, 0⟩ = p := by ext <;> simp
  rw [this]; exact hp

/-- hypotheses of C160 -/
example (junk : S3) (s : Strategy) : (∀ c, Symm c → Ortho (isoSolver c).1) ∧ WorldOk isoWorld ∧
    (∃ r, ({ geos := [0], strategy := s } : Obb).execute isoSolver junk isoWorld = some r ∧ FitsAlong isoWorld [0] r.axes) ∧
    IsVertex isoWorld [0] ⟨-1, 0, 0⟩ ∧ IsVertex isoWorld [0] ⟨0, 1, 0⟩ := by
  obtain ⟨r, h1, h2⟩ := iso_run junk s
  exact ⟨fun c _ => iso_ortho c, iso_ok, ⟨r, h1, by rw [h2]; exact iso_fits0⟩, ⟨0, by simp, 0, rfl⟩, ⟨0, by simp, 2, rfl⟩⟩

/-- hypotheses of C161_surface, C161_principal, C161_order -/
example (junk : S3) : Surfaces isoWorld [0] ∧ Triangulated isoWorld [0] [isoTri] ∧ 0 < overAll (fun _ => 1) [isoTri] ∧
    (∃ r, ({ geos := [0] } : Obb).execute isoSolver junk isoWorld = some r) ∧
    (∀ m, IsCovariance [isoTri] m → Solved m (isoSolver m) ∧ ApartValues (isoSolver m).2) := by
  obtain ⟨r, h1, -⟩ := iso_run junk .obb
  exact ⟨iso_surf, iso_tri, iso_area_pos, ⟨r, h1⟩, fun m => iso_solved⟩

/-- hypotheses of C161_spread -/
example : Triad M3.one ∧ Principal ⟨⟨1 / 6, 0, 0⟩, ⟨0, 1 / 18, 0⟩, ⟨0, 0, 0⟩⟩ M3.one ⟨1 / 6, 1 / 18, 0⟩ ∧ dot (⟨3 / 5, 4 / 5, 0⟩ : V3) ⟨3 / 5, 4 / 5, 0⟩ = 1 := by
  refine ⟨triad_one, ⟨?_, ?_, ?_, by norm_num⟩, by norm_num [dot]⟩ <;> ext <;> norm_num [M3.app, M3.one, dot, V3.scale]

/-- hypotheses of C161_moved -/
example (junk : S3) (s : Strategy) : ∃ r, ({ geos := [0], strategy := s } : Obb).execute isoSolver junk isoWorld = some r ∧
    (∀ s' x, ({ ({ geos := [0], strategy := s } : Obb) with strategy := s' } : Obb).execute isoSolver junk isoWorld = some x →
      FitsAlong isoWorld [0] x.axes ∧ FitsAlong (moved ⟨1, 2, 3⟩ isoWorld) [0] x.axes) := by
  obtain ⟨r, h1, -⟩ := iso_run junk s
  refine ⟨r, h1, ?_⟩
  intro s' x hx
  obtain ⟨r', h2, h3⟩ := iso_run junk s'
  have : x = r' := Option.some.inj (hx.symm.trans h2)
  rw [this, h3]
  exact ⟨iso_fits0, iso_fits _ (by norm_num) (by norm_num) (by norm_num)⟩

/-- hypotheses of C161_zero_area_fails: a surface without cells -/
example : Surfaces (fun _ => { isoObj with cells := [] }) [0] ∧ Triangulated (fun _ => { isoObj with cells := [] }) [0] [] ∧
    (([] : List Tri).map areaOf).sum = 0 := by
  refine ⟨?_, .nil, rfl⟩
  intro g _; simp [isoObj]

/-- hypotheses of C161_polygon: the representative triangle of the square -/
example : repPoints squareObj ⟨.quad, [0, 1, 2, 3], 0, true⟩ = some (some (⟨0, 0, 0⟩, ⟨1, 0, 0⟩, ⟨1, 1, 0⟩)) := by
  have h : (0 : ℝ) < norm2 (cross ((⟨1, 0, 0⟩ : V3) - ⟨0, 0, 0⟩) ((⟨1, 1, 0⟩ : V3) - ⟨0, 0, 0⟩)) := by
    have : cross ((⟨1, 0, 0⟩ : V3) - ⟨0, 0, 0⟩) ((⟨1, 1, 0⟩ : V3) - ⟨0, 0, 0⟩) = ⟨0, 0, 1⟩ := by ext <;> simp [cross]
    rw [this, norm2_one (by norm_num [dot])]; norm_num
  simp [repPoints, vertexIds, cornerOf, squareObj, Verif.Field.get_cons, repFrom, h]

/-- two clouds on perpendicular lines: the first run through decides which is the first axis -/
def crossWorld : World := fun g => if g = 0 then { isoObj with type := 3, verts := [(0, ⟨-1, 0, 0⟩), (1, ⟨1, 0, 0⟩)], cells := [] }
  else { isoObj with type := 3, verts := [(0, ⟨0, -1, 0⟩), (1, ⟨0, 1, 0⟩)], cells := [] }

theorem cross_points : pointsOf crossWorld [0] = [⟨-1, 0, 0⟩, ⟨1, 0, 0⟩] ∧ pointsOf crossWorld [1] = [⟨0, -1, 0⟩, ⟨0, 1, 0⟩] ∧
    pointsOf crossWorld [0, 1] = [⟨-1, 0, 0⟩, ⟨1, 0, 0⟩, ⟨0, -1, 0⟩, ⟨0, 1, 0⟩] ∧
    pointsOf crossWorld [1, 0] = [⟨0, -1, 0⟩, ⟨0, 1, 0⟩, ⟨-1, 0, 0⟩, ⟨1, 0, 0⟩] := by
  refine ⟨?_, ?_, ?_, ?_⟩ <;> simp [pointsOf, crossWorld]

/-- **C161** fails for two clouds: the matrix depends on the order, unspecified, in which they are run through, and is the covariance
matrix of the points in neither -/
theorem C161_clouds_order_fails : ∃ m m', covariance ⟨0, 0, 0, 0, 0, 0⟩ crossWorld [0, 1] = some m ∧
    covariance ⟨0, 0, 0, 0, 0, 0⟩ crossWorld [1, 0] = some m' ∧ m.r0.x = 1 ∧ m.r1.y = 1 / 2 ∧ m'.r0.x = 1 / 2 ∧ m'.r1.y = 1 ∧
    ∀ k, IsCloudCovariance (pointsOf crossWorld [0, 1]) k → k.r0.x = 1 / 2 ∧ k.r1.y = 1 / 2 := by
  obtain ⟨p0, p1, p01, p10⟩ := cross_points
  have c1 : SomeCloud crossWorld [0, 1] := ⟨0, by simp, .inl rfl⟩
  have c2 : SomeCloud crossWorld [1, 0] := ⟨0, by simp, .inl rfl⟩
  obtain ⟨m, h1, h2⟩ := C161_clouds_fails c1 (by rw [p01]; simp)
  obtain ⟨m', k1, k2⟩ := C161_clouds_fails c2 (by rw [p10]; simp)
  have z1 : meanOfPoints (pointsOf crossWorld [0, 1]) = ⟨0, 0, 0⟩ := by
    rw [p01]; ext <;> simp [meanOfPoints, sumOf, V3.scale]
  have z2 : meanOfPoints (pointsOf crossWorld [1, 0]) = ⟨0, 0, 0⟩ := by
    rw [p10]; ext <;> simp [meanOfPoints, sumOf, V3.scale]
  rw [z1, p0, p1, p01] at h2
  rw [z2, p0, p1, p10] at k2
  refine ⟨m, m', h1, k1, ?_, ?_, ?_, ?_, ?_⟩
  · have := h2 0 0; simp [devs, M3.row, V3.at] at this; linarith
  · have := h2 1 1; simp [devs, M3.row, V3.at] at this; linarith
  · have := k2 0 0; simp [devs, M3.row, V3.at] at this; linarith
  · have := k2 1 1; simp [devs, M3.row, V3.at] at this; linarith
  · rintro k ⟨-, c, e1, e2⟩
    rw [p01] at e1 e2
    have cx := e1 0
    have cy := e1 1
    have xx := e2 0 0
    have yy := e2 1 1
    simp [M3.row, V3.at] at cx cy xx yy
    have cx : c.x = 0 := by linarith
    have cy : c.y = 0 := by linarith
    rw [cx] at xx
    rw [cy] at yy
    constructor <;> linarith

/-- hypotheses of C161_cloud_partial and C161_unset_fails -/
example : SomeCloud crossWorld [0] ∧ pointsOf crossWorld [0] ≠ [] ∧ Symm M3.one := by
  refine ⟨⟨0, by simp, .inl rfl⟩, ?_, rfl, rfl, rfl⟩
  rw [cross_points.1]; simp

end
end Verif.Utils
