import Verif.Grid.StateProps
/-
C88: the three forms of setMesh; getters after setters (C73), spacing (C69), clearMesh (C88).
-/
namespace Verif.Grid
open Real Verif.Shape

noncomputable section
open scoped Classical

/-- C69: the spacing reported times the number of cells is the span reported, in every direction. -/
theorem C69_spacing {g : Grid} {s : Shape} (hg : g.shape = some s) :
    (getSpacing (build g).1).x * ((getDimension (build g).1).1 - 1 : Int) = (getSpanG (build g).1).x ∧
    (getSpacing (build g).1).y * ((getDimension (build g).1).2.1 - 1 : Int) = (getSpanG (build g).1).y ∧
    (getSpacing (build g).1).z * ((getDimension (build g).1).2.2 - 1 : Int) = (getSpanG (build g).1).z := by
  have h := made_build hg
  have hx : ((build g).1.nx : ℝ) ≠ 0 := by
    have := h.px; exact_mod_cast (by omega : (build g).1.nx ≠ 0)
  have hy : ((build g).1.ny : ℝ) ≠ 0 := by
    have := h.py; exact_mod_cast (by omega : (build g).1.ny ≠ 0)
  have hz : ((build g).1.nz : ℝ) ≠ 0 := by
    have := h.pz; exact_mod_cast (by omega : (build g).1.nz ≠ 0)
  simp only [getSpacing, getSpanG, getDimension, h.shape, getSpan, h.dx, h.dy, h.dz, add_sub_cancel_right]
  refine ⟨?_, ?_, ?_⟩ <;> field_simp

/-- C88: a cleared mesh is like a new one. -/
theorem C88_clear (g : Grid) : clearMesh g = new := rfl

/-- C73: what a setter stores is what the getter returns, with or without a shape; dimensions must be admitted by the shape,
lower limits are clamped by it, and a single axis must not be parallel to the next coordinate direction. -/
theorem C73_stored (g : Grid) :
    (∀ o, getOrigin (setOriginG g o) = o) ∧
    (∀ v, (∀ s, g.shape = some s → Allowed s v) → getSpanG (setSpanG g v) = v) ∧
    (∀ v, g.shape = none → ∃ a b c, setInfG g v 0 = some a ∧ setInfG g v 1 = some b ∧ setInfG g v 2 = some c ∧
      getInf a = { getInf g with x := v } ∧ getInf b = { getInf g with y := v } ∧ getInf c = { getInf g with z := v }) ∧
    (∀ v s, g.shape = some s → ∃ a b c, setInfG g v 0 = some a ∧ setInfG g v 1 = some b ∧ setInfG g v 2 = some c ∧
      getInf a = (if s.kind = .cylinder ∨ s.kind = .sphere then { getInf g with x := max 0 v } else getInf g) ∧
      getInf b = (if s.kind = .cylinder ∨ s.kind = .sphere then { getInf g with y := min (2 * π) (max 0 v) } else getInf g) ∧
      getInf c = (if s.kind = .sphere then { getInf g with z := min ((0.5 - 1 / 10 ^ 12) * (2 * π)) (max 0 v) } else getInf g)) ∧
    (∀ l : Nat, l < 3 → ∀ a, cross a (axisOf ((l + 1) % 3)) ≠ ⟨0, 0, 0⟩ →
      ∃ g', setRef1G g l a = some g' ∧ (getRef g').row l = a.unit ∧ Orthonormal (getRef g')) := by
  refine ⟨?_, ?_, ?_, ?_, ?_⟩
  · intro o
    unfold setOriginG
    cases hs : g.shape <;> simp [getOrigin, hs, setOrigin]
  · intro v h
    unfold setSpanG
    cases hs : g.shape with
    | none => simp [getSpanG, hs]
    | some s => exact (C64_stored (h s hs)).1
  · intro v hs
    simp [setInfG, hs, V3.put, getInf]
  · intro v s hs
    have := C64_lower_limit (s := s) v
    refine ⟨{ g with shape := some (setInf s v 0) }, { g with shape := some (setInf s v 1) },
      { g with shape := some (setInf s v 2) }, by simp [setInfG, hs], by simp [setInfG, hs], by simp [setInfG, hs], ?_, ?_, ?_⟩
    · simp only [getInf, hs]; exact this.1
    · simp only [getInf, hs]; exact this.2.1
    · simp only [getInf, hs]; exact this.2.2
  · intro l hl a ha
    unfold setRef1G
    cases hs : g.shape with
    | none =>
      obtain ⟨s', h1, h2, h3, -⟩ := C63_one_axis_partial (basic .cube) hl ha
      refine ⟨{ g with ref := s'.sdr, setref := true }, by simp only [h1, hs]; rfl, ?_, ?_⟩
      · simp only [getRef, hs]; exact h2
      · simp only [getRef, hs]; exact h3
    | some s =>
      obtain ⟨s', h1, h2, h3, -⟩ := C63_one_axis_partial s hl ha
      exact ⟨{ g with shape := some s' }, by simp only [h1]; rfl, h2, h3⟩

example : cross (⟨1, 0, 2⟩ : V3) (axisOf ((0 + 1) % 3)) ≠ ⟨0, 0, 0⟩ ∧ Allowed (basic .cube) ⟨1, 2, 3⟩ := by
  constructor
  · intro h
    have := congrArg V3.z h
    simp [cross, axisOf] at this
  · refine ⟨by norm_num, by norm_num, by norm_num, ?_, ?_⟩ <;> simp [basic]

theorem setShape_ne {g : Grid} (type : Kind) (j0 j2 : ℝ) : ∃ s, (setShape g type j0 j2).shape = some s ∧ s.kind = type := by
  have h := kind_setShape g type j0 j2
  unfold getKind at h
  cases hs : (setShape g type j0 j2).shape with
  | none => exfalso; revert hs; unfold setShape; simp
  | some s => rw [hs] at h; exact ⟨s, rfl, h⟩

/-- the state before the dimensions are set -/
theorem prepared (g : Grid) (o v : V3) (type : Kind) (j0 j2 : ℝ) :
    ∃ s, (setSpanG (setOriginG (setShape { g with shape := none } type j0 j2) o) v).shape = some s ∧ s.kind = type ∧
      s.origin = o ∧ getSpan s = ⟨|v.x|, if type = .cylinder ∨ type = .sphere then min |v.y| (2 * π) else |v.y|,
        if type = .sphere then min |v.z| (π - s.inf.z) else |v.z|⟩ := by
  obtain ⟨s, h1, h2⟩ := setShape_ne (g := { g with shape := none }) type j0 j2
  have e1 : (setOriginG (setShape { g with shape := none } type j0 j2) o).shape = some (setOrigin s o) := by
    unfold setOriginG; rw [h1]
  have e2 : (setSpanG (setOriginG (setShape { g with shape := none } type j0 j2) o) v).shape =
      some (setSpan (setOrigin s o) v) := by
    unfold setSpanG; rw [e1]
  obtain ⟨f1, f2, -, -, f5⟩ := setSpan_fields (setOrigin s o) v
  refine ⟨_, e2, by rw [f1]; exact h2, by rw [f5]; rfl, ?_⟩
  rw [getSpan_setSpan, checkSpan_val, f2]
  have : (setOrigin s o).kind = type := h2
  rw [this]

/-- what the user asked for: shape and place, with dimensions clamped to those the type admits -/
structure Asked (g : Grid) (o v : V3) (type : Kind) : Prop where
  kind : getKind g = type
  origin : getOrigin g = o
  span : getSpanG g = ⟨|v.x|, if type = .cylinder ∨ type = .sphere then min |v.y| (2 * π) else |v.y|,
    if type = .sphere then min |v.z| (π - (getInf g).z) else |v.z|⟩
  built : g.built = true ∧ (build g).1 = g

theorem asked_build {g : Grid} {s : Shape} {o v : V3} {type : Kind} (hg : g.shape = some s) (hk : s.kind = type)
    (ho : s.origin = o) (hv : getSpan s = ⟨|v.x|, if type = .cylinder ∨ type = .sphere then min |v.y| (2 * π) else |v.y|,
        if type = .sphere then min |v.z| (π - s.inf.z) else |v.z|⟩) (a b c : Int) :
    Asked (build (setDimension g a b c)).1 o v type ∧
      getDimension (build (setDimension g a b c)).1 = (max a (Least type).1, max b (Least type).2.1, max c (Least type).2.2) := by
  obtain ⟨-, h2⟩ := C69_dimensions g
  obtain ⟨h3, h4, h5⟩ := h2 s hg a b c
  rw [hk] at h5
  refine ⟨⟨by simp only [getKind, h4]; exact hk, by simp only [getOrigin, h4]; exact ho,
    by simp only [getSpanG, getInf, h4]; exact hv, ?_, build_twice _⟩, h5⟩
  obtain ⟨sh⟩ := g
  simp only at hg
  subst hg
  rfl

/-- C88: setMesh(origin, span, type, dimensions) builds the mesh asked for, whatever the object held before. -/
theorem C88_dimensions (g : Grid) (o v : V3) (type : Kind) (a b c : Int) (j0 j2 : ℝ) :
    Asked (setMesh g o v type a b c j0 j2) o v type ∧
      getDimension (setMesh g o v type a b c j0 j2) = (max a (Least type).1, max b (Least type).2.1, max c (Least type).2.2) := by
  obtain ⟨s, h1, h2, h3, h4⟩ := prepared g o v type j0 j2
  exact asked_build h1 h2 h3 h4 a b c

/-- the number of nodes for a spacing: the number of cells whose size is nearest to the spacing, but at least the least number;
spacing zero asks for the least number -/
def Nearest (span spacing : ℝ) (least n : Int) : Prop :=
  (spacing = 0 ∧ n = least) ∨
    (spacing ≠ 0 ∧ ∃ cells : Int, |(cells : ℝ) * spacing - span| ≤ |spacing| / 2 ∧ n = max (cells + 1) least)

theorem dimOf_nearest (span sp : ℝ) (least : Int) : Nearest span sp least (max (dimOf span sp least) least) := by
  unfold dimOf Nearest
  by_cases h : sp = 0
  · left; simp [h]
  · right
    refine ⟨h, ⌊span / sp + 0.5⌋, ?_, by simp [h]⟩
    have h1 := Int.floor_le (span / sp + 0.5)
    have h2 := Int.lt_floor_add_one (span / sp + 0.5)
    generalize (⌊span / sp + 0.5⌋ : Int) = n at h1 h2 ⊢
    have hk : |(n : ℝ) - span / sp| ≤ 1 / 2 := by
      rw [abs_le]; constructor <;> linarith
    have e : (n : ℝ) * sp - span = ((n : ℝ) - span / sp) * sp := by
      field_simp
    rw [e, abs_mul]
    calc _ ≤ 1 / 2 * |sp| := mul_le_mul_of_nonneg_right hk (abs_nonneg _)
      _ = |sp| / 2 := by ring

/-- C88: setMesh(origin, span, type, spacing) builds the mesh asked for, with the numbers of cells nearest to the spacing. -/
theorem C88_spacing (g : Grid) (o v : V3) (type : Kind) (sp : V3) (j0 j2 : ℝ) :
    let m := setMeshSpacing g o v type sp j0 j2
    Asked m o v type ∧ Nearest (getSpanG m).x sp.x (Least type).1 (getDimension m).1 ∧
      Nearest (getSpanG m).y sp.y (Least type).2.1 (getDimension m).2.1 ∧
      Nearest (getSpanG m).z sp.z (Least type).2.2 (getDimension m).2.2 := by
  obtain ⟨s, h1, h2, h3, h4⟩ := prepared g o v type j0 j2
  have hl : dimLimit type = Least type := by cases type <;> rfl
  simp only [setMeshSpacing, hl]
  generalize hG : setSpanG (setOriginG (setShape { g with shape := none } type j0 j2) o) v = G at h1
  have hsp : getSpanG G = getSpan s := by simp only [getSpanG, h1]
  rw [hsp]
  obtain ⟨a1, a2⟩ := asked_build h1 h2 h3 h4 (dimOf (getSpan s).x sp.x (Least type).1)
    (dimOf (getSpan s).y sp.y (Least type).2.1) (dimOf (getSpan s).z sp.z (Least type).2.2)
  have a3 := ((C69_dimensions G).2 s h1 (dimOf (getSpan s).x sp.x (Least type).1)
    (dimOf (getSpan s).y sp.y (Least type).2.1) (dimOf (getSpan s).z sp.z (Least type).2.2)).2.1
  refine ⟨a1, ?_⟩
  rw [a2]
  simp only [getSpanG, a3]
  exact ⟨dimOf_nearest _ _ _, dimOf_nearest _ _ _, dimOf_nearest _ _ _⟩

/-- C88: setMesh(shape, dimensions) builds a mesh on a copy of the shape. -/
theorem C88_shape (g : Grid) (s : Shape) (a b c : Int) :
    (setMeshCopy g (some s) a b c).shape = some s ∧ (setMeshCopy g (some s) a b c).built = true ∧
      (build (setMeshCopy g (some s) a b c)).1 = setMeshCopy g (some s) a b c ∧
      getDimension (setMeshCopy g (some s) a b c) = (max a (Least s.kind).1, max b (Least s.kind).2.1, max c (Least s.kind).2.2) := by
  have h : (setShapeCopy { g with shape := none } (some s)).shape = some s := rfl
  obtain ⟨h3, h4, h5⟩ := (C69_dimensions _).2 s h a b c
  exact ⟨h4, rfl, build_twice _, h5⟩

/-- a box of 2 by 1 by 1 with spacing 0.3: seven cells along the first direction -/
example (g : Grid) : (getDimension (setMeshSpacing g ⟨0, 0, 0⟩ ⟨2, 1, 1⟩ .cube ⟨0.3, 0, 5⟩ 0 0)) = (8, 2, 2) := by
  obtain ⟨h1, h2, h3, h4⟩ := C88_spacing g ⟨0, 0, 0⟩ ⟨2, 1, 1⟩ .cube ⟨0.3, 0, 5⟩ 0 0
  rw [h1.span] at h2 h3 h4
  simp only [reduceCtorEq, or_self, if_false, Least] at h2 h3 h4
  generalize getDimension _ = d at h2 h3 h4 ⊢
  obtain ⟨a, b, c⟩ := d
  simp only at h2 h3 h4
  have e2 : b = 2 := by
    rcases h3 with h | h
    · exact h.2
    · exact absurd rfl h.1
  have e1 : a = 8 := by
    rcases h2 with h | ⟨-, n, hn, e⟩
    · norm_num at h
    · rw [abs_le] at hn
      norm_num [abs_of_pos] at hn
      have u : n < 8 := by have : (n : ℝ) < 8 := by linarith
                           exact_mod_cast this
      have l : 6 < n := by have : (6 : ℝ) < n := by linarith
                           exact_mod_cast this
      omega
  have e3 : c = 2 := by
    rcases h4 with h | ⟨-, n, hn, e⟩
    · norm_num at h
    · rw [abs_le] at hn
      norm_num [abs_of_pos] at hn
      have u : n < 1 := by have : (n : ℝ) < 1 := by linarith
                           exact_mod_cast this
      omega
  rw [e1, e2, e3]

end
end Verif.Grid
