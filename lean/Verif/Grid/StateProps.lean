import Verif.Grid.BuildProps
/-
C72, C73 and C74: copies, parameters given before the shape, and isBuilt.
-/
namespace Verif.Grid
open Real Verif.Shape

/-! ### Copies -/

/-- C72: a copy-constructed mesh equals the original. -/
theorem C72_copy (g : Grid) : copy g = g := rfl

/-- C72: assignment and swap are faithful if the other mesh has a shape, or neither has one. -/
theorem C72_assign_partial {g other : Grid} (h : g.shape = none ∨ other.shape ≠ none) : assign g other = other := by
  obtain ⟨so⟩ := other
  cases so with
  | some s => rfl
  | none =>
    obtain ⟨sg⟩ := g
    have hg : sg = none := h.resolve_right (by simp)
    subst hg
    rfl

theorem C72_swap_partial {g x : Grid} (h : g.shape = none ↔ x.shape = none) : swap g x = (x, g) ∧ swap (swap g x).1 (swap g x).2 = (g, x) := by
  have key : ∀ {g x : Grid}, (g.shape = none ↔ x.shape = none) → swap g x = (x, g) := by
    intro g x h
    obtain ⟨sx⟩ := x
    cases sx with
    | some s => rfl
    | none =>
      obtain ⟨sg⟩ := g
      have hg : sg = none := h.2 rfl
      subst hg
      rfl
  refine ⟨key h, ?_⟩
  rw [key h]
  exact key h.symm

example : (setShapeCopy new (some (basic .sphere))).shape ≠ none := by simp [setShapeCopy]

/-- C72 does not hold in full: a mesh assigned from one without shape keeps its own shape, and the getters tell. -/
theorem C72_assign_fails {g other : Grid} {s : Shape} (hg : g.shape = some s) (ho : other.shape = none) :
    (assign g other).shape = some s ∧ getOrigin (assign g other) = s.origin ∧ getOrigin other = other.origin := by
  have e : (assign g other).shape = some s := by unfold assign swap copy; rw [ho]; exact hg
  refine ⟨e, ?_, ?_⟩
  · unfold getOrigin; rw [e]
  · unfold getOrigin; rw [ho]

/-- ... and swapping twice loses nothing only because the first swap exchanged no shape; if only the argument has a shape, two
swaps do not restore. -/
theorem C72_swap_fails {g x : Grid} {s : Shape} (hg : g.shape = none) (hx : x.shape = some s) :
    (swap (swap g x).1 (swap g x).2).2.shape = none ∧ x.shape ≠ none := by
  refine ⟨?_, by simp [hx]⟩
  unfold swap
  rw [hx]
  simp only [hg]

/-- a sphere at (1, 0, 0) assigned from a new mesh -/
example : getOrigin (assign (setShapeCopy new (some (setOrigin (basic .sphere) ⟨1, 0, 0⟩))) new) ≠ getOrigin new := by
  simp [assign, swap, copy, setShapeCopy, new, getOrigin, setOrigin, basic]

/-! ### Parameters given before the shape -/

/-- calls before `setShape` -/
inductive Op
  | origin (o : V3)
  | span (v : V3)
  | inf (v : ℝ) (dir : Int)
  | axes (a b c : V3)

noncomputable def applyOp (g : Grid) : Op → Option Grid
  | .origin o => some (setOriginG g o)
  | .span v => some (setSpanG g v)
  | .inf v dir => setInfG g v dir
  | .axes a b c => some (setRef3G g a b c)

noncomputable def runOps : List Op → Grid → Option Grid
  | [], g => some g
  | op :: ops, g => (applyOp g op).bind (runOps ops)

/-- the last value given, if any -/
def lastOrigin (ops : List Op) : Option V3 := ops.foldl (fun r op => match op with | .origin o => some o | _ => r) none
def lastSpan (ops : List Op) : Option V3 := ops.foldl (fun r op => match op with | .span v => some v | _ => r) none
noncomputable def lastInf (d : Int) (ops : List Op) : Option ℝ :=
  ops.foldl (fun r op => match op with | .inf v dir => if dir = d then some v else r | _ => r) none
def lastAxes (ops : List Op) : Option M3 := ops.foldl (fun r op => match op with | .axes a b c => some ⟨a, b, c⟩ | _ => r) none

/-- the documented default dimensions -/
noncomputable def defaultSpan : Kind → V3
  | .cube => ⟨1, 1, 1⟩
  | .cylinder => ⟨1, 2 * π, 1⟩
  | .sphere => ⟨1, 2 * π, π⟩
  | .wedge => ⟨1, 1, 1⟩

/-- what the mesh remembers -/
structure Kept (g : Grid) (o v : Option V3) (a b c : Option ℝ) (r : Option M3) : Prop where
  shape : g.shape = none
  origin : g.origin = o.getD ⟨0, 0, 0⟩ ∧ (g.setorigin = false → o = none)
  span : (g.setspan = true ↔ v ≠ none) ∧ ∀ w, v = some w → g.span = w
  inf : g.inf = ⟨a.getD 0, b.getD 0, c.getD 0⟩ ∧ (g.setinf = false → a = none ∧ b = none ∧ c = none)
  axes : (g.setref = true ↔ r ≠ none) ∧ ∀ w, r = some w → g.ref = w

theorem kept_run (ops : List Op) : ∀ {g g' : Grid} {o v a b c r}, Kept g o v a b c r → runOps ops g = some g' →
    Kept g' (ops.foldl (fun r op => match op with | .origin o => some o | _ => r) o)
      (ops.foldl (fun r op => match op with | .span v => some v | _ => r) v)
      (ops.foldl (fun r op => match op with | .inf v dir => if dir = 0 then some v else r | _ => r) a)
      (ops.foldl (fun r op => match op with | .inf v dir => if dir = 1 then some v else r | _ => r) b)
      (ops.foldl (fun r op => match op with | .inf v dir => if dir = 2 then some v else r | _ => r) c)
      (ops.foldl (fun r op => match op with | .axes a b c => some ⟨a, b, c⟩ | _ => r) r) := by
  induction ops with
  | nil => intro g g' o v a b c r h e; cases e; exact h
  | cons op ops ih =>
    intro g g' o v a b c r h e
    unfold runOps at e
    obtain ⟨g1, e1, e2⟩ := Option.bind_eq_some_iff.1 e
    simp only [List.foldl_cons]
    refine ih ?_ e2
    cases op with
    | origin w =>
      simp only [applyOp, setOriginG, h.shape, Option.some.injEq] at e1
      subst e1
      exact ⟨rfl, ⟨rfl, by simp⟩, h.span, h.inf, h.axes⟩
    | span w =>
      simp only [applyOp, setSpanG, h.shape, Option.some.injEq] at e1
      subst e1
      exact ⟨rfl, h.origin, ⟨by simp, by simp⟩, h.inf, h.axes⟩
    | inf w dir =>
      simp only [applyOp, setInfG, h.shape, Option.map_eq_some_iff] at e1
      obtain ⟨i, hi, rfl⟩ := e1
      refine ⟨rfl, h.origin, h.span, ⟨?_, by simp⟩, h.axes⟩
      simp only [h.inf.1] at hi
      unfold V3.put at hi
      by_cases d0 : dir = 0
      · subst d0; simp at hi; simp [← hi]
      · by_cases d1 : dir = 1
        · subst d1; simp at hi; simp [← hi]
        · by_cases d2 : dir = 2
          · subst d2; simp at hi; simp [← hi]
          · simp [d0, d1, d2] at hi
    | axes x y z =>
      simp only [applyOp, setRef3G, h.shape, Option.some.injEq] at e1
      subst e1
      exact ⟨rfl, h.origin, h.span, h.inf, ⟨by simp, by simp⟩⟩

theorem setInf_other (s : Shape) (v : ℝ) (dir : Int) : (setInf s v dir).kind = s.kind ∧ (setInf s v dir).origin = s.origin ∧
    (setInf s v dir).sdr = s.sdr := by
  unfold setInf
  split
  · exact ⟨rfl, rfl, rfl⟩
  · split
    · exact ⟨rfl, rfl, rfl⟩
    · rename_i o _
      have := setSpan_fields (putInf s o dir.toNat) (getSpan s)
      exact ⟨this.1, this.2.2.2.2, this.2.2.1⟩

/-- three lower limits on a shape that has none -/
theorem inf3 {s : Shape} (h : Reach s) (hi : s.inf = ⟨0, 0, 0⟩) (w : V3) :
    let t := setInf (setInf (setInf s w.x 0) w.y 1) w.z 2
    t.kind = s.kind ∧ t.origin = s.origin ∧ t.sdr = s.sdr ∧
    ((s.kind = .cylinder ∨ s.kind = .sphere) → t.inf.x = max 0 w.x ∧ t.inf.y = min (2 * π) (max 0 w.y)) ∧
    t.inf.z = (if s.kind = .sphere then min ((0.5 - 1 / 10 ^ 12) * (2 * π)) (max 0 w.z) else 0) ∧
    ((s.kind = .cube ∨ s.kind = .wedge) → t.inf = ⟨0, 0, 0⟩) ∧
    getSpan t = (if s.kind = .sphere then { getSpan s with z := min (getSpan s).z (π - t.inf.z) } else getSpan s) := by
  intro t
  have r1 : Reach (setInf s w.x 0) := .step _ _ h (.inf _ _ _)
  have r2 : Reach (setInf (setInf s w.x 0) w.y 1) := .step _ _ r1 (.inf _ _ _)
  have k1 := setInf_other s w.x 0
  have k2 := setInf_other (setInf s w.x 0) w.y 1
  have k3 := setInf_other (setInf (setInf s w.x 0) w.y 1) w.z 2
  have i1 := (C64_lower_limit (s := s) w.x).1
  have i2 := (C64_lower_limit (s := setInf s w.x 0) w.y).2.1
  have i3 := (C64_lower_limit (s := setInf (setInf s w.x 0) w.y 1) w.z).2.2
  have g1 := C64_lower_keeps_span h w.x 0
  have g2 := C64_lower_keeps_span r1 w.y 1
  have g3 := C64_lower_keeps_span r2 w.z 2
  rw [hi] at i1
  rw [k1.1, i1] at i2
  rw [k2.1, k1.1, i2] at i3
  rw [k1.1] at g2
  rw [k2.1, k1.1] at g3
  have hb := (C64_bounded h).1
  refine ⟨by rw [k3.1, k2.1, k1.1], by rw [k3.2.1, k2.2.1, k1.2.1], by rw [k3.2.2, k2.2.2, k1.2.2], ?_, ?_, ?_, ?_⟩
  · intro hk
    show (setInf _ w.z 2).inf.x = _ ∧ (setInf _ w.z 2).inf.y = _
    rw [i3]
    simp only [hk, if_true]
    split <;> exact ⟨rfl, rfl⟩
  · show (setInf _ w.z 2).inf.z = _
    rw [i3]
    split
    · rfl
    · rename_i hk
      by_cases hc : s.kind = .cylinder <;> simp [hc, hk]
  · intro hk
    show (setInf _ w.z 2).inf = _
    rw [i3]
    rcases hk with hk | hk <;> simp [hk]
  · show getSpan (setInf _ w.z 2) = _
    rw [g3, g2, g1]
    by_cases hk : s.kind = .sphere
    · have hp := hb.polar hk
      rw [hi] at hp
      simp only [hk, if_true]
      have z2 : (setInf (setInf s w.x 0) w.y 1).inf.z = 0 := by rw [i2]; simp [hk]
      have z1 : (setInf s w.x 0).inf.z = 0 := by rw [i1]; simp [hk]
      rw [z1, z2]
      ext <;> simp only
      simp only [zero_add] at hp
      rw [min_eq_left (by linarith : (getSpan s).z ≤ π - 0), min_eq_left (by linarith : (getSpan s).z ≤ π - 0)]
    · simp only [hk, if_false]

/-- the axes given at the end -/
theorem ref_last (s : Shape) (m : M3) : (setRef3 s m.r0 m.r1 m.r2).kind = s.kind ∧ (setRef3 s m.r0 m.r1 m.r2).origin = s.origin ∧
    (setRef3 s m.r0 m.r1 m.r2).inf = s.inf ∧ getSpan (setRef3 s m.r0 m.r1 m.r2) = getSpan s := by
  have h := C63_three_axes s (a := m.r0) (b := m.r1) (c := m.r2)
  by_cases hz : m.r0 = ⟨0, 0, 0⟩ ∨ m.r1 = ⟨0, 0, 0⟩ ∨ m.r2 = ⟨0, 0, 0⟩ ∨
      |dot m.r0 m.r1| / (norm2 m.r0 * norm2 m.r1) + |dot m.r1 m.r2| / (norm2 m.r1 * norm2 m.r2) + |dot m.r0 m.r2| / (norm2 m.r0 * norm2 m.r2) > 1 / 1000
  · rw [C63_refused s hz]; exact ⟨rfl, rfl, rfl, rfl⟩
  · simp only [not_or, not_lt] at hz
    have e := (h hz.1 hz.2.1 hz.2.2.1 hz.2.2.2).2.2
    generalize setRef3 s m.r0 m.r1 m.r2 = t at e
    rw [← e]
    exact ⟨rfl, rfl, rfl, rfl⟩

/-- orthogonal non-zero axes -/
def GoodAxes (m : M3) : Prop := m.r0 ≠ ⟨0, 0, 0⟩ ∧ m.r1 ≠ ⟨0, 0, 0⟩ ∧ m.r2 ≠ ⟨0, 0, 0⟩ ∧ dot m.r0 m.r1 = 0 ∧ dot m.r1 m.r2 = 0 ∧ dot m.r0 m.r2 = 0

theorem ref_good (s : Shape) {m : M3} (h : GoodAxes m) : (setRef3 s m.r0 m.r1 m.r2).sdr = ⟨m.r0.unit, m.r1.unit, m.r2.unit⟩ := by
  obtain ⟨h0, h1, h2, d1, d2, d3⟩ := h
  exact (C63_three_axes s h0 h1 h2 (by rw [d1, d2, d3]; norm_num)).1

/-- the shape made from origin, dimensions, lower limits and axes has them -/
structure Has (s : Shape) (type : Kind) (o v w : V3) (m : M3) : Prop where
  kind : s.kind = type
  origin : s.origin = o
  infXY : (type = .cylinder ∨ type = .sphere) → s.inf.x = max 0 w.x ∧ s.inf.y = min (2 * π) (max 0 w.y)
  infZ : s.inf.z = if type = .sphere then min ((0.5 - 1 / 10 ^ 12) * (2 * π)) (max 0 w.z) else 0
  infFlat : (type = .cube ∨ type = .wedge) → s.inf = ⟨0, 0, 0⟩
  span : Allowed (basic type) v → getSpan s = if type = .sphere then { v with z := min v.z (π - s.inf.z) } else v
  axes : GoodAxes m → s.sdr = ⟨m.r0.unit, m.r1.unit, m.r2.unit⟩

theorem goodOne : GoodAxes M3.one := by simp [GoodAxes, M3.one, dot]
theorem unitOne : (⟨M3.one.r0.unit, M3.one.r1.unit, M3.one.r2.unit⟩ : M3) = M3.one := by simp [M3.one, V3.unit, norm2, dot]

theorem has_made (type : Kind) (o v w : V3) (m : M3) (bi br : Bool) (hbi : bi = false → w = ⟨0, 0, 0⟩) (hbr : br = false → m = .one) :
    let s0 := construct type o v
    let s1 := if bi then setInf (setInf (setInf s0 w.x 0) w.y 1) w.z 2 else s0
    let s2 := if br then setRef3 s1 m.r0 m.r1 m.r2 else s1
    Has s2 type o v w m := by
  intro s0 s1 s2
  have f0 := setSpan_fields (setOrigin (basic type) o) v
  have r0 : Reach s0 := .make _ _ _
  have hi0 : s0.inf = ⟨0, 0, 0⟩ := f0.2.1
  have hk0 : s0.kind = type := f0.1
  have ho0 : s0.origin = o := f0.2.2.2.2
  have hs0 : s0.sdr = .one := f0.2.2.1
  have hg0 : Allowed (basic type) v → getSpan s0 = v := fun h => (C64_stored (s := setOrigin (basic type) o) h).1
  have h1 : s1.kind = type ∧ s1.origin = o ∧ s1.sdr = .one ∧
      ((type = .cylinder ∨ type = .sphere) → s1.inf.x = max 0 w.x ∧ s1.inf.y = min (2 * π) (max 0 w.y)) ∧
      s1.inf.z = (if type = .sphere then min ((0.5 - 1 / 10 ^ 12) * (2 * π)) (max 0 w.z) else 0) ∧
      ((type = .cube ∨ type = .wedge) → s1.inf = ⟨0, 0, 0⟩) ∧
      (Allowed (basic type) v → getSpan s1 = if type = .sphere then { v with z := min v.z (π - s1.inf.z) } else v) := by
    cases bi with
    | true =>
      obtain ⟨a1, a2, a3, a4, a5, a6, a7⟩ := inf3 r0 hi0 w
      rw [hk0] at a1 a4 a5 a6 a7
      refine ⟨a1, a2.trans ho0, a3.trans hs0, a4, a5, a6, fun h => ?_⟩
      have := hg0 h
      rw [this] at a7
      exact a7
    | false =>
      have hw := hbi rfl
      have pp := pi_pos
      show s0.kind = type ∧ _
      refine ⟨hk0, ho0, hs0, fun _ => ?_, ?_, fun _ => hi0, fun h => ?_⟩
      · show s0.inf.x = _ ∧ s0.inf.y = _
        rw [hi0, hw]; simp [pp.le]
      · show s0.inf.z = _
        rw [hi0, hw]
        have h1 : (0 : ℝ) ≤ (0.5 - 1 / 10 ^ 12) * (2 * π) := by
          have : (0 : ℝ) ≤ 0.5 - 1 / 10 ^ 12 := by norm_num
          positivity
        simp only [max_self, min_eq_right h1, ite_self]
      · show getSpan s0 = _
        rw [hg0 h]
        split
        · rename_i hk
          have hp := h.2.2.2.2 hk
          have hz : s1.inf.z = 0 := by show s0.inf.z = 0; rw [hi0]
          rw [hz]
          ext <;> simp only
          rw [min_eq_left]
          simp [basic] at hp
          linarith
        · rfl
  obtain ⟨a1, a2, a3, a4, a5, a6, a7⟩ := h1
  cases br with
  | true =>
    obtain ⟨b1, b2, b3, b4⟩ := ref_last s1 m
    refine ⟨b1.trans a1, b2.trans a2, fun h => ?_, ?_, fun h => b3.trans (a6 h), fun h => ?_, fun h => ref_good _ h⟩
    · show (setRef3 s1 _ _ _).inf.x = _ ∧ (setRef3 s1 _ _ _).inf.y = _
      rw [b3]; exact a4 h
    · show (setRef3 s1 _ _ _).inf.z = _
      rw [b3]; exact a5
    · show getSpan (setRef3 s1 _ _ _) = if type = .sphere then { v with z := min v.z (π - (setRef3 s1 _ _ _).inf.z) } else v
      rw [b4, b3]; exact a7 h
  | false =>
    refine ⟨a1, a2, a4, a5, a6, a7, fun _ => ?_⟩
    rw [hbr rfl, unitOne]; exact a3

/-- the dimensions used when none were given -/
noncomputable def filler (j0 j2 : ℝ) : Kind → V3
  | .cylinder => ⟨j0, 2 * π, j2⟩
  | k => defaultSpan k

theorem setShape_none {g : Grid} (hg : g.shape = none) (type : Kind) (j0 j2 : ℝ) :
    (setShape g type j0 j2).shape = some (
      let s0 := construct type (if g.setorigin then g.origin else ⟨0, 0, 0⟩)
        (if g.setspan then g.span else filler j0 j2 type)
      let s1 := if g.setinf then setInf (setInf (setInf s0 g.inf.x 0) g.inf.y 1) g.inf.z 2 else s0
      if g.setref then setRef3 s1 g.ref.r0 g.ref.r1 g.ref.r2 else s1) := by
  obtain ⟨sh⟩ := g
  simp only at hg
  subst hg
  cases type <;> rfl

/-- C73: parameters given before the type are those of the shape, the last value given counting; the ones never given take the
default.  The dimensions of a cylinder must have been given. -/
theorem C73_before_partial {ops : List Op} {g : Grid} (hr : runOps ops new = some g) (type : Kind) (j0 j2 : ℝ)
    (hc : type = .cylinder → lastSpan ops ≠ none) :
    ∃ s, (setShape g type j0 j2).shape = some s ∧
      Has s type ((lastOrigin ops).getD ⟨0, 0, 0⟩) ((lastSpan ops).getD (defaultSpan type))
        ⟨(lastInf 0 ops).getD 0, (lastInf 1 ops).getD 0, (lastInf 2 ops).getD 0⟩ ((lastAxes ops).getD .one) := by
  have hk : Kept g (lastOrigin ops) (lastSpan ops) (lastInf 0 ops) (lastInf 1 ops) (lastInf 2 ops) (lastAxes ops) := by
    refine kept_run ops (g := new) ⟨rfl, ⟨rfl, fun _ => rfl⟩, ⟨by simp [new], by simp⟩, ⟨rfl, fun _ => ⟨rfl, rfl, rfl⟩⟩, ⟨by simp [new], by simp⟩⟩ hr
  have eo : (if g.setorigin then g.origin else (⟨0, 0, 0⟩ : V3)) = (lastOrigin ops).getD ⟨0, 0, 0⟩ := by
    split
    · exact hk.origin.1
    · rename_i h
      rw [hk.origin.2 (by simpa using h)]; rfl
  have ev : ∀ d : V3, (if g.setspan then g.span else d) = (lastSpan ops).getD d := by
    intro d
    split
    · rename_i h
      obtain ⟨w, hw⟩ := Option.ne_none_iff_exists'.1 (hk.span.1.1 h)
      rw [hk.span.2 w hw, hw]; rfl
    · rename_i h
      have : lastSpan ops = none := by
        by_contra hn; exact h (hk.span.1.2 hn)
      rw [this]; rfl
  have er : g.setref = false → (lastAxes ops).getD .one = .one := by
    intro h
    have : lastAxes ops = none := by
      by_contra hn; have := hk.axes.1.2 hn; rw [h] at this; cases this
    rw [this]; rfl
  have er' : g.setref = true → g.ref = (lastAxes ops).getD .one := by
    intro h
    obtain ⟨w, hw⟩ := Option.ne_none_iff_exists'.1 (hk.axes.1.1 h)
    rw [hk.axes.2 w hw, hw]; rfl
  have ei : g.setinf = false → (⟨(lastInf 0 ops).getD 0, (lastInf 1 ops).getD 0, (lastInf 2 ops).getD 0⟩ : V3) = ⟨0, 0, 0⟩ := by
    intro h
    obtain ⟨h0, h1, h2⟩ := hk.inf.2 h
    rw [h0, h1, h2]; rfl
  have main := has_made type ((lastOrigin ops).getD ⟨0, 0, 0⟩) ((lastSpan ops).getD (defaultSpan type))
    ⟨(lastInf 0 ops).getD 0, (lastInf 1 ops).getD 0, (lastInf 2 ops).getD 0⟩ ((lastAxes ops).getD .one) g.setinf g.setref ei er
  have e2 : (lastSpan ops).getD (filler j0 j2 type) = (lastSpan ops).getD (defaultSpan type) := by
    cases hs : lastSpan ops with
    | some w => rfl
    | none => cases type with
      | cylinder => exact absurd hs (hc rfl)
      | _ => rfl
  refine ⟨_, setShape_none hk.shape type j0 j2, ?_⟩
  rw [eo, ev, e2, hk.inf.1]
  cases hb : g.setref with
  | false => rw [hb] at main; exact main
  | true => rw [hb] at main; rw [er' hb]; exact main

/-- a sphere: origin and lower limits given twice, dimensions never -/
example : ∃ g, runOps [.origin ⟨1, 2, 3⟩, .inf 1 0, .inf 2 0, .axes ⟨0, 1, 0⟩ ⟨-1, 0, 0⟩ ⟨0, 0, 1⟩, .origin ⟨4, 5, 6⟩] new = some g ∧
    lastOrigin [.origin ⟨1, 2, 3⟩, .inf 1 0, .inf 2 0, .axes ⟨0, 1, 0⟩ ⟨-1, 0, 0⟩ ⟨0, 0, 1⟩, .origin ⟨4, 5, 6⟩] = some ⟨4, 5, 6⟩ ∧
    lastInf 0 [.origin ⟨1, 2, 3⟩, .inf 1 0, .inf 2 0, .axes ⟨0, 1, 0⟩ ⟨-1, 0, 0⟩ ⟨0, 0, 1⟩, .origin ⟨4, 5, 6⟩] = some 2 := by
  refine ⟨_, rfl, rfl, by simp [lastInf]⟩

/-- C73: choosing another type keeps origin, dimensions and lower limits (those the new type admits) and axes. -/
theorem C73_rechoose_partial {g : Grid} {s : Shape} (hg : g.shape = some s) (hs : Reach s) (type : Kind) (j0 j2 : ℝ) :
    ∃ s', (setShape g type j0 j2).shape = some s' ∧ Has s' type s.origin (getSpan s) s.inf s.sdr ∧
      ((type = .cylinder ∨ type = .sphere) → s'.inf.x = s.inf.x ∧ s'.inf.y = s.inf.y) := by
  have main := has_made type s.origin (getSpan s) s.inf s.sdr true true (by simp) (by simp)
  have hb := (C64_bounded hs).1
  have e : (setShape g type j0 j2).shape = some (setRef3 (setInf (setInf (setInf (construct type s.origin (getSpan s)) s.inf.x 0) s.inf.y 1)
      s.inf.z 2) s.sdr.r0 s.sdr.r1 s.sdr.r2) := by
    unfold setShape
    rw [hg]
    cases type <;> rfl
  refine ⟨_, e, main, fun h => ?_⟩
  have := main.infXY h
  rw [max_eq_right hb.infX, max_eq_right hb.infY.1, min_eq_right hb.infY.2] at this
  exact this

example : (setShapeCopy new (some (basic .sphere))).shape = some (basic .sphere) ∧ Reach (basic .sphere) := ⟨rfl, .new _⟩

/-- C73 does not hold in full: a cylinder whose dimensions were never given takes its radius and height from memory that was never
written. -/
theorem C73_cylinder_fails (j0 j2 : ℝ) : ∃ s, (setShape new .cylinder j0 j2).shape = some s ∧ (getSpan s).x = |j0| ∧ (getSpan s).z = |j2| := by
  refine ⟨_, rfl, ?_⟩
  simp [new, construct, getSpan_setSpan, checkSpan_val, setOrigin, basic]

/-- the codes documented for `setShape(int)`, src/core/BasicMeshes.cpp:701: 0 cube, 1 cylinder, 2 sphere -/
def documented : List (Int × Kind) := [(0, .cube), (1, .cylinder), (2, .sphere)]

theorem kind_setShape (g : Grid) (k : Kind) (j0 j2 : ℝ) : getKind (setShape g k j0 j2) = k := by
  unfold getKind setShape
  cases k <;> cases hg : g.shape <;> simp only <;> (repeat' split) <;>
    simp [(setRef3_fields _ _ _ _).1, (setInf_other _ _ _).1, construct, (setSpan_fields _ _).1, setOrigin, basic]

/-- ... and the documented code of the sphere gives a cube, while the other two give what is documented. -/
theorem C73_code_fails (g : Grid) (j0 j2 : ℝ) : getKind (setShapeInt g 2 j0 j2) = .cube ∧ (2, .sphere) ∈ documented ∧
    ∀ c ∈ documented, c.2 ≠ .sphere → getKind (setShapeInt g c.1 j0 j2) = c.2 := by
  unfold setShapeInt
  refine ⟨by rw [kind_setShape]; simp [kindOf], by simp [documented], ?_⟩
  intro c hc hn
  rw [kind_setShape]
  simp only [documented, List.mem_cons, List.not_mem_nil, or_false] at hc
  rcases hc with rfl | rfl | rfl
  · simp [kindOf]
  · simp [kindOf]
  · exact absurd rfl hn

/-! ### isBuilt -/

theorem build_fixed {g : Grid} {s : Shape} (h : Made g s) (hb : g.built = true) : (build g).1 = g := by
  obtain ⟨sh, nx, ny, nz, dx, dy, dz, x1, y1, z1, x2, y2, z2, a, b, c, d, bu, o, v, i, r⟩ := g
  obtain ⟨h1, h2, h3, h4, h5, h6, h7, h8, h9, h10, h11, h12, h13⟩ := h
  simp only at h1 h2 h3 h4 h5 h6 h7 h8 h9 h10 h11 h12 h13 hb
  subst h1
  simp only [build]
  rw [max_eq_left h2, max_eq_left h3, max_eq_left h4, ← h5, ← h6, ← h7, ← h8, ← h9, ← h10, ← h11, ← h12, ← h13, hb]

/-- building twice is building once -/
theorem build_twice (g : Grid) : (build (build g).1).1 = (build g).1 := by
  cases hg : g.shape with
  | none => simp only [build, hg]
  | some s =>
    refine build_fixed (made_build hg) ?_
    obtain ⟨sh⟩ := g
    simp only at hg
    subst hg
    rfl

/-- the shape as far as the nodes depend on it -/
def SameNodes (s t : Shape) : Prop := t.kind = s.kind ∧ t.span = s.span

theorem made_same {g : Grid} {s t : Shape} (h : Made g s) (hs : SameNodes s t) : Made { g with shape := some t } t := by
  have hl : localOrigin t = localOrigin s := by unfold localOrigin; rw [hs.1]
  exact ⟨rfl, by rw [hs.1]; exact h.nx, by rw [hs.1]; exact h.ny, by rw [hs.1]; exact h.nz, by rw [hs.2]; exact h.dx,
    by rw [hs.2]; exact h.dy, by rw [hs.2]; exact h.dz, by rw [hl]; exact h.xe, by rw [hl]; exact h.ye, by rw [hl]; exact h.ze,
    by rw [hl]; exact h.xn, by rw [hl]; exact h.yn, by rw [hl]; exact h.zn⟩

/-- calls on a mesh; a lower limit set on a mesh with shape must leave the spans of the shape alone (which it does unless it cuts
the polar span of a sphere) and an assigned mesh must have a shape -/
inductive Hist : Grid → Prop
  | new : Hist new
  | origin (g o) : Hist g → Hist (setOriginG g o)
  | span (g v) : Hist g → Hist (setSpanG g v)
  | inf (g v dir g') : Hist g → setInfG g v dir = some g' → (∀ s, g.shape = some s → (setInf s v dir).span = s.span) → Hist g'
  | ref3 (g a b c) : Hist g → Hist (setRef3G g a b c)
  | ref1 (g l a g') : Hist g → setRef1G g l a = some g' → Hist g'
  | dim (g a b c) : Hist g → Hist (setDimension g a b c)
  | shape (g k j0 j2) : Hist g → Hist (setShape g k j0 j2)
  | shapeCopy (g s) : Hist g → Hist (setShapeCopy g s)
  | coord (g t d) : Hist g → Hist (setCoordG g t d)
  | build (g) : Hist g → Hist (build g).1
  | mesh (g o v k a b c j0 j2) : Hist g → Hist (setMesh g o v k a b c j0 j2)
  | meshSpacing (g o v k sp j0 j2) : Hist g → Hist (setMeshSpacing g o v k sp j0 j2)
  | meshCopy (g s a b c) : Hist g → Hist (setMeshCopy g s a b c)
  | clear (g) : Hist g → Hist (clearMesh g)
  | copy (g) : Hist g → Hist (copy g)
  | assign (g x) : Hist g → Hist x → x.shape ≠ none → Hist (assign g x)

/-- C74: a mesh that says it is built has a shape, and building again changes nothing. -/
theorem C74_built_partial {g : Grid} (h : Hist g) : g.built = true → ∃ s, g.shape = some s ∧ (build g).1 = g := by
  have key : g.built = true → ∃ s, Made g s := by
    have hbuild : ∀ g, (Verif.Grid.build g).1.built = true → g.built = false ∨ (∃ s, Made g s) → ∃ s, Made (Verif.Grid.build g).1 s := by
      intro g hb hg
      cases hs : g.shape with
      | some s => exact ⟨s, made_build hs⟩
      | none =>
        rcases hg with hg | ⟨s, hm⟩
        · simp only [Verif.Grid.build, hs] at hb
          rw [hg] at hb; cases hb
        · rw [hm.shape] at hs; cases hs
    induction h with
    | new => intro hb; cases hb
    | origin g o _ ih =>
      intro hb
      cases hs : g.shape with
      | none =>
        have : (setOriginG g o).built = g.built := by unfold setOriginG; rw [hs]
        rw [this] at hb
        obtain ⟨s, hm⟩ := ih hb
        rw [hm.shape] at hs; cases hs
      | some s =>
        unfold setOriginG at hb ⊢
        rw [hs] at hb ⊢
        obtain ⟨s', hm⟩ := ih hb
        rw [hm.shape] at hs; cases hs
        exact ⟨_, made_same hm ⟨rfl, rfl⟩⟩
    | span g v _ ih =>
      intro hb
      unfold setSpanG at hb
      cases hs : g.shape <;> rw [hs] at hb <;> cases hb
    | inf g v dir g' _ hi hc ih =>
      intro hb
      cases hs : g.shape with
      | none =>
        unfold setInfG at hi
        rw [hs] at hi
        obtain ⟨i, -, rfl⟩ := Option.map_eq_some_iff.1 hi
        obtain ⟨s, hm⟩ := ih hb
        rw [hm.shape] at hs; cases hs
      | some s =>
        unfold setInfG at hi
        rw [hs] at hi
        cases hi
        obtain ⟨s', hm⟩ := ih hb
        have e := hm.shape
        rw [hs] at e; cases e
        exact ⟨_, made_same hm ⟨(setInf_other s v dir).1, hc s hs⟩⟩
    | ref3 g a b c _ ih =>
      intro hb
      unfold setRef3G at hb ⊢
      cases hs : g.shape with
      | none =>
        rw [hs] at hb
        obtain ⟨s, hm⟩ := ih hb
        rw [hm.shape] at hs; cases hs
      | some s =>
        rw [hs] at hb
        obtain ⟨s', hm⟩ := ih hb
        have e := hm.shape
        rw [hs] at e; cases e
        have f := setRef3_fields s a b c
        exact ⟨_, made_same hm ⟨f.1, by first | exact f.2.2.1 | exact f.2.2.2.1 | exact f.2.2.2.2 | exact f.2.2.2.2.1⟩⟩
    | ref1 g l a g' _ hr ih =>
      intro hb
      cases hs : g.shape with
      | none =>
        unfold setRef1G at hr
        rw [hs] at hr
        obtain ⟨i, -, rfl⟩ := Option.map_eq_some_iff.1 hr
        obtain ⟨s, hm⟩ := ih hb
        rw [hm.shape] at hs; cases hs
      | some s =>
        unfold setRef1G at hr
        rw [hs] at hr
        obtain ⟨t, ht, rfl⟩ := Option.map_eq_some_iff.1 hr
        obtain ⟨s', hm⟩ := ih hb
        have e := hm.shape
        rw [hs] at e; cases e
        have f := setRef1_fields ht
        exact ⟨_, made_same hm ⟨f.1, by first | exact f.2.2.1 | exact f.2.2.2.1 | exact f.2.2.2.2 | exact f.2.2.2.2.1⟩⟩
    | dim g a b c _ ih => intro hb; cases hb
    | shape g k j0 j2 _ ih => intro hb; unfold setShape at hb; cases hb
    | shapeCopy g s _ ih =>
      intro hb
      cases s with
      | none => exact ih hb
      | some s => cases hb
    | coord g t d _ ih =>
      intro hb
      unfold setCoordG at hb ⊢
      cases hs : g.shape with
      | none => rw [hs] at hb; exact ih hb
      | some s =>
        rw [hs] at hb
        obtain ⟨s', hm⟩ := ih hb
        have e := hm.shape
        rw [hs] at e; cases e
        exact ⟨_, made_same hm ⟨rfl, rfl⟩⟩
    | build g _ ih =>
      intro hb
      refine hbuild g hb ?_
      cases hg : g.built with
      | false => exact .inl rfl
      | true => exact .inr (ih hg)
    | mesh g o v k a b c j0 j2 _ ih => intro hb; exact hbuild _ hb (.inl rfl)
    | meshSpacing g o v k sp j0 j2 _ ih => intro hb; exact hbuild _ hb (.inl rfl)
    | meshCopy g s a b c _ ih => intro hb; exact hbuild _ hb (.inl rfl)
    | clear g _ ih => intro hb; cases hb
    | copy g _ ih => exact ih
    | assign g x _ _ hx ih1 ih2 => rw [C72_assign_partial (.inr hx)]; exact ih2
  intro hb
  obtain ⟨s, hm⟩ := key hb
  exact ⟨s, hm.shape, build_fixed hm hb⟩

/-- a cylinder, built, then moved and given an inner radius -/
example : ∃ g, Hist g ∧ g.built = true ∧ getInf g = ⟨2, 0, 0⟩ ∧ getOrigin g = ⟨7, 0, 0⟩ := by
  have h0 : Hist (build (setShapeCopy new (some (basic .cylinder)))).1 := .build _ (.shapeCopy _ _ .new)
  have e : ∀ s, (setOriginG (build (setShapeCopy new (some (basic .cylinder)))).1 ⟨7, 0, 0⟩).shape = some s → (setInf s 2 0).span = s.span := by
    intro s hs
    simp [setOriginG, build, setShapeCopy] at hs
    subst hs
    simp [setInf, checkInf, setOrigin, basic, putInf, setSpan, checkSpan, getSpan, setScaling, setCoord, abs_of_pos pi_pos]
  refine ⟨_, .inf _ 2 0 _ (.origin _ ⟨7, 0, 0⟩ h0) rfl e, rfl, ?_, ?_⟩
  · show (setInf (setOrigin (basic .cylinder) ⟨7, 0, 0⟩) 2 0).inf = _
    rw [(C64_lower_limit 2).1]; simp [setOrigin, basic]
  · show (setInf (setOrigin (basic .cylinder) ⟨7, 0, 0⟩) 2 0).origin = _
    rw [(setInf_other _ _ _).2.1]; rfl

/-- C74 does not hold in full: a lower limit that cuts the polar span of a built sphere leaves isBuilt true though the nodes no
longer agree with the shape. -/
theorem C74_cut_fails : ∃ g g', Hist g ∧ setInfG g (π / 2) 2 = some g' ∧ g'.built = true ∧ (build g').1.dz ≠ g'.dz := by
  refine ⟨(build (setShapeCopy new (some (basic .sphere)))).1, _, .build _ (.shapeCopy _ _ .new), rfl, rfl, ?_⟩
  have pp := pi_pos
  have e1 : min ((0.5 - 1 / 10 ^ 12) * (2 * π)) (max 0 (π / 2)) = π / 2 := by
    rw [max_eq_right (by linarith), min_eq_right]
    have : (0.5 - 1 / 10 ^ 12 : ℝ) ≥ 1 / 4 := by norm_num
    nlinarith
  have k : (setInf (basic .sphere) (π / 2) 2).kind = .sphere := (setInf_other _ _ _).1
  have e2 : (setInf (basic .sphere) (π / 2) 2).span.z = π / 2 := by
    have h1 := congrArg V3.z (C64_lower_keeps_span (.new .sphere) (π / 2) 2)
    have h2 := (C64_bounded (.step _ _ (.new .sphere) (.inf _ (π / 2) 2))).2.scZ k
    rw [(C64_lower_limit _).2.2] at h1
    simp only [basic, if_true, e1, getSpan, one_mul] at h1
    simp only [basic] at h2
    rw [h2, one_mul, min_eq_right (by linarith)] at h1
    simp only [basic]
    linarith
  show (setInf (basic .sphere) (π / 2) 2).span.z / ((max (max 0 2) ((dimLimit (setInf (basic .sphere) (π / 2) 2).kind).2.2 - 1) : Int) : ℝ) ≠
    π / ((max 0 2 : Int) : ℝ)
  rw [e2, k]
  simp only [dimLimit]
  norm_num
  intro h
  linarith

end Verif.Grid
