import Verif.Shape.PointProps
/-
C65, second part: pruning by boxes and the selection of cells.
-/
namespace Verif.Shape
open Real

/-- a point of a box -/
def InB (lo hi p : V3) : Prop := (lo.x ≤ p.x ∧ p.x ≤ hi.x) ∧ (lo.y ≤ p.y ∧ p.y ≤ hi.y) ∧ (lo.z ≤ p.z ∧ p.z ≤ hi.z)

/-! ### Extremes at the corners -/

theorem corner_of {lo hi : V3} {x y z : ℝ} (hx : x = lo.x ∨ x = hi.x) (hy : y = lo.y ∨ y = hi.y) (hz : z = lo.z ∨ z = hi.z) :
    (⟨x, y, z⟩ : V3) ∈ corners lo hi := by
  rcases hx with rfl | rfl <;> rcases hy with rfl | rfl <;> rcases hz with rfl | rfl <;> simp [corners]

/-- a function convex in each variable is largest at a corner -/
theorem corner_max {f : V3 → ℝ} (hx : ∀ y z l h t, l ≤ t → t ≤ h → f ⟨t, y, z⟩ ≤ f ⟨l, y, z⟩ ∨ f ⟨t, y, z⟩ ≤ f ⟨h, y, z⟩)
    (hy : ∀ x z l h t, l ≤ t → t ≤ h → f ⟨x, t, z⟩ ≤ f ⟨x, l, z⟩ ∨ f ⟨x, t, z⟩ ≤ f ⟨x, h, z⟩)
    (hz : ∀ x y l h t, l ≤ t → t ≤ h → f ⟨x, y, t⟩ ≤ f ⟨x, y, l⟩ ∨ f ⟨x, y, t⟩ ≤ f ⟨x, y, h⟩) {lo hi p : V3} (hp : InB lo hi p) :
    ∃ q ∈ corners lo hi, f p ≤ f q := by
  obtain ⟨h1, h2, h3⟩ := hp
  have s1 : ∃ x, (x = lo.x ∨ x = hi.x) ∧ f p ≤ f ⟨x, p.y, p.z⟩ := by
    rcases hx p.y p.z _ _ p.x h1.1 h1.2 with h | h
    · exact ⟨_, .inl rfl, h⟩
    · exact ⟨_, .inr rfl, h⟩
  obtain ⟨x, ex, hx'⟩ := s1
  have s2 : ∃ y, (y = lo.y ∨ y = hi.y) ∧ f ⟨x, p.y, p.z⟩ ≤ f ⟨x, y, p.z⟩ := by
    rcases hy x p.z _ _ p.y h2.1 h2.2 with h | h
    · exact ⟨_, .inl rfl, h⟩
    · exact ⟨_, .inr rfl, h⟩
  obtain ⟨y, ey, hy'⟩ := s2
  have s3 : ∃ z, (z = lo.z ∨ z = hi.z) ∧ f ⟨x, y, p.z⟩ ≤ f ⟨x, y, z⟩ := by
    rcases hz x y _ _ p.z h3.1 h3.2 with h | h
    · exact ⟨_, .inl rfl, h⟩
    · exact ⟨_, .inr rfl, h⟩
  obtain ⟨z, ez, hz'⟩ := s3
  exact ⟨_, corner_of ex ey ez, le_trans hx' (le_trans hy' hz')⟩

/-- a convex parabola on an interval -/
theorem quad_max {a b c : ℝ} (ha : 0 ≤ a) {l h t : ℝ} (h1 : l ≤ t) (h2 : t ≤ h) :
    a * t ^ 2 + b * t + c ≤ a * l ^ 2 + b * l + c ∨ a * t ^ 2 + b * t + c ≤ a * h ^ 2 + b * h + c := by
  by_contra hn
  simp only [not_or, not_le] at hn
  obtain ⟨n1, n2⟩ := hn
  have e1 : (t - l) * (a * (t + l) + b) > 0 := by nlinarith
  have e2 : (h - t) * (a * (h + t) + b) < 0 := by nlinarith
  have p1 : 0 < t - l := by
    rcases eq_or_lt_of_le (sub_nonneg.2 h1) with e | e
    · rw [← e] at e1; simp at e1
    · exact e
  have p2 : 0 < h - t := by
    rcases eq_or_lt_of_le (sub_nonneg.2 h2) with e | e
    · rw [← e] at e2; simp at e2
    · exact e
  have q1 : 0 < a * (t + l) + b := (pos_iff_pos_of_mul_pos e1).1 p1
  have q2 : a * (h + t) + b < 0 := by
    by_contra hh
    have := mul_nonneg p2.le (not_lt.1 hh)
    linarith
  nlinarith

/-- linear functions -/
theorem corner_linear (o r : V3) {lo hi p : V3} (hp : InB lo hi p) :
    (∃ q ∈ corners lo hi, dot (p - o) r ≤ dot (q - o) r) ∧ (∃ q ∈ corners lo hi, dot (q - o) r ≤ dot (p - o) r) := by
  have lin : ∀ r : V3, ∃ q ∈ corners lo hi, dot (p - o) r ≤ dot (q - o) r := by
    intro r
    apply corner_max (f := fun q => dot (q - o) r) _ _ _ hp
    · intro y z l h t h1 h2
      simp only [dot, sub_x, sub_y, sub_z]
      have := quad_max (a := 0) (b := r.x) (c := - o.x * r.x + (y - o.y) * r.y + (z - o.z) * r.z) (le_refl _) h1 h2
      rcases this with h | h
      · left; linarith
      · right; linarith
    · intro x z l h t h1 h2
      simp only [dot, sub_x, sub_y, sub_z]
      have := quad_max (a := 0) (b := r.y) (c := (x - o.x) * r.x - o.y * r.y + (z - o.z) * r.z) (le_refl _) h1 h2
      rcases this with h | h
      · left; linarith
      · right; linarith
    · intro x y l h t h1 h2
      simp only [dot, sub_x, sub_y, sub_z]
      have := quad_max (a := 0) (b := r.z) (c := (x - o.x) * r.x + (y - o.y) * r.y - o.z * r.z) (le_refl _) h1 h2
      rcases this with h | h
      · left; linarith
      · right; linarith
  refine ⟨lin r, ?_⟩
  obtain ⟨q, hq, hle⟩ := lin (V3.scale (-1) r)
  refine ⟨q, hq, ?_⟩
  simp only [dot, V3.scale] at hle ⊢
  linarith

/-- sums of squares of linear functions -/
theorem corner_square (o a b c : V3) {lo hi p : V3} (hp : InB lo hi p) :
    ∃ q ∈ corners lo hi, dot (p - o) a ^ 2 + dot (p - o) b ^ 2 + dot (p - o) c ^ 2 ≤
      dot (q - o) a ^ 2 + dot (q - o) b ^ 2 + dot (q - o) c ^ 2 := by
  have key : ∀ (u v w : ℝ) (A B C : ℝ) (l h t : ℝ), l ≤ t → t ≤ h →
      (t * u + A) ^ 2 + (t * v + B) ^ 2 + (t * w + C) ^ 2 ≤ (l * u + A) ^ 2 + (l * v + B) ^ 2 + (l * w + C) ^ 2 ∨
      (t * u + A) ^ 2 + (t * v + B) ^ 2 + (t * w + C) ^ 2 ≤ (h * u + A) ^ 2 + (h * v + B) ^ 2 + (h * w + C) ^ 2 := by
    intro u v w A B C l h t h1 h2
    have := quad_max (a := u ^ 2 + v ^ 2 + w ^ 2) (b := 2 * u * A + 2 * v * B + 2 * w * C) (c := A ^ 2 + B ^ 2 + C ^ 2)
      (by positivity) h1 h2
    rcases this with h | h
    · left; linarith
    · right; linarith
  apply corner_max (f := fun q => dot (q - o) a ^ 2 + dot (q - o) b ^ 2 + dot (q - o) c ^ 2) _ _ _ hp
  · intro y z l h t h1 h2
    have := key a.x b.x c.x (- o.x * a.x + (y - o.y) * a.y + (z - o.z) * a.z) (- o.x * b.x + (y - o.y) * b.y + (z - o.z) * b.z)
      (- o.x * c.x + (y - o.y) * c.y + (z - o.z) * c.z) l h t h1 h2
    simp only [dot, sub_x, sub_y, sub_z]
    rcases this with h | h
    · left; linarith
    · right; linarith
  · intro x z l h t h1 h2
    have := key a.y b.y c.y ((x - o.x) * a.x - o.y * a.y + (z - o.z) * a.z) ((x - o.x) * b.x - o.y * b.y + (z - o.z) * b.z)
      ((x - o.x) * c.x - o.y * c.y + (z - o.z) * c.z) l h t h1 h2
    simp only [dot, sub_x, sub_y, sub_z]
    rcases this with h | h
    · left; linarith
    · right; linarith
  · intro x y l h t h1 h2
    have := key a.z b.z c.z ((x - o.x) * a.x + (y - o.y) * a.y - o.z * a.z) ((x - o.x) * b.x + (y - o.y) * b.y - o.z * b.z)
      ((x - o.x) * c.x + (y - o.y) * c.y - o.z * c.z) l h t h1 h2
    simp only [dot, sub_x, sub_y, sub_z]
    rcases this with h | h
    · left; linarith
    · right; linarith

/-! ### Minimum and maximum of a list -/

theorem minMax_fold (l : List ℝ) : ∀ m : ℝ × ℝ, m.1 ≤ m.2 →
    let r := l.foldl (fun m t => if t < m.1 then (t, m.2) else if t > m.2 then (m.1, t) else m) m
    r.1 ≤ m.1 ∧ m.2 ≤ r.2 ∧ ∀ t ∈ l, r.1 ≤ t ∧ t ≤ r.2 := by
  induction l with
  | nil => intro m _; simp
  | cons t l ih =>
    intro m hm
    simp only [List.foldl_cons]
    split
    · rename_i h
      obtain ⟨h1, h2, h3⟩ := ih (t, m.2) (by simp only; linarith)
      simp only at h1 h2
      refine ⟨by linarith, h2, ?_⟩
      intro u hu
      rcases List.mem_cons.1 hu with rfl | hu
      · exact ⟨h1, by linarith⟩
      · exact h3 u hu
    · rename_i h
      split
      · rename_i h'
        obtain ⟨h1, h2, h3⟩ := ih (m.1, t) (by simp only; linarith)
        simp only at h1 h2
        refine ⟨h1, by linarith, ?_⟩
        intro u hu
        rcases List.mem_cons.1 hu with rfl | hu
        · exact ⟨by linarith, h2⟩
        · exact h3 u hu
      · rename_i h'
        obtain ⟨h1, h2, h3⟩ := ih m hm
        refine ⟨h1, h2, ?_⟩
        intro u hu
        rcases List.mem_cons.1 hu with rfl | hu
        · exact ⟨by linarith, by linarith⟩
        · exact h3 u hu

theorem minMax_mem {l : List ℝ} {t : ℝ} (h : t ∈ l) : (minMax l).1 ≤ t ∧ t ≤ (minMax l).2 := by
  cases l with
  | nil => simp at h
  | cons u l =>
    have hf := minMax_fold l (u, u) (le_refl _)
    simp only at hf
    rcases List.mem_cons.1 h with rfl | h
    · exact ⟨hf.1, hf.2.1⟩
    · exact hf.2.2 t h

theorem minMax18_fold (l : List ℝ) : ∀ m : ℝ × ℝ,
    let r := l.foldl (fun m t => (min m.1 t, max m.2 t)) m
    r.1 ≤ m.1 ∧ m.2 ≤ r.2 ∧ ∀ t ∈ l, r.1 ≤ t ∧ t ≤ r.2 := by
  induction l with
  | nil => intro m; simp
  | cons t l ih =>
    intro m
    obtain ⟨h1, h2, h3⟩ := ih (min m.1 t, max m.2 t)
    simp only [List.foldl_cons]
    simp only [le_min_iff, max_le_iff] at h1 h2
    refine ⟨h1.1, h2.1, ?_⟩
    intro u hu
    rcases List.mem_cons.1 hu with rfl | hu
    · exact ⟨h1.2, h2.2⟩
    · exact h3 u hu

theorem minMax18_mem {l : List ℝ} {t : ℝ} (h : t ∈ l) : (minMax18 l).1 ≤ t ∧ t ≤ (minMax18 l).2 :=
  (minMax18_fold l _).2.2 t h

/-- greater than all values -/
theorem minMax18_gt {l : List ℝ} {c : ℝ} (hc : c < 10 ^ 18) (h : ∀ t ∈ l, c < t) : c < (minMax18 l).1 := by
  unfold minMax18
  have : ∀ (l : List ℝ) (m : ℝ × ℝ), c < m.1 → (∀ t ∈ l, c < t) → c < (l.foldl (fun m t => (min m.1 t, max m.2 t)) m).1 := by
    intro l
    induction l with
    | nil => intro m hm _; exact hm
    | cons t l ih =>
      intro m hm hl
      simp only [List.foldl_cons]
      exact ih _ (lt_min hm (hl t (by simp))) (fun u hu => hl u (by simp [hu]))
  exact this l _ hc h

/-! ### The box tests never discard a box with a point of the solid -/

theorem at_simp (v : V3) : v.at 0 = v.x ∧ v.at 1 = v.y ∧ v.at 2 = v.z := ⟨rfl, rfl, rfl⟩

theorem cubeBox_complete {s : Shape} (h : Proper s) (hk : s.kind = .cube) {lo hi p : V3} (hp : InB lo hi p) (hs : Solid s p) :
    cubeBox s lo hi := by
  obtain ⟨t, hx, hy, hz, e⟩ := hs
  have hw := app_frame h.frame (straight s ((duffy s (basicToLocal s t)).mul s.scaling))
  have hst : straight s ((duffy s (basicToLocal s t)).mul s.scaling) =
      ⟨(t.x + -0.5) * s.scaling.x, (t.y + -0.5) * s.scaling.y, (t.z + -0.5) * s.scaling.z⟩ := by
    simp [straight, duffy, basicToLocal, localOrigin, hk, V3.mul]
  unfold toWorld at e
  rw [← e, hst] at hw
  have hwx := congrArg V3.x hw
  have hwy := congrArg V3.y hw
  have hwz := congrArg V3.z hw
  simp only [M3.app] at hwx hwy hwz
  intro j hj
  simp only
  have key : ∀ r : V3, ∀ k : ℝ, ∀ u : ℝ, 0 < k → 0 ≤ u → u ≤ 1 → dot (p - s.origin) r = (u + -0.5) * k →
      ¬ ((minMax (((corners lo hi).map (fun p => p - s.origin)).map (fun p => dot p r))).1 > 0.5 * k ∨
        (minMax (((corners lo hi).map (fun p => p - s.origin)).map (fun p => dot p r))).2 < -0.5 * k) := by
    intro r k u hk hu0 hu1 hd
    obtain ⟨⟨q, hq, hle⟩, ⟨q', hq', hle'⟩⟩ := corner_linear s.origin r hp
    have m1 := minMax_mem (l := ((corners lo hi).map (fun p => p - s.origin)).map (fun p => dot p r)) (t := dot (q - s.origin) r)
      (by rw [List.map_map]; exact List.mem_map.2 ⟨q, hq, rfl⟩)
    have m2 := minMax_mem (l := ((corners lo hi).map (fun p => p - s.origin)).map (fun p => dot p r)) (t := dot (q' - s.origin) r)
      (by rw [List.map_map]; exact List.mem_map.2 ⟨q', hq', rfl⟩)
    rw [not_or, not_lt, not_lt]
    rw [hd] at hle hle'
    constructor
    · nlinarith [m2.1]
    · nlinarith [m1.2]
  simp only [List.mem_cons, List.not_mem_nil, or_false] at hj
  rcases hj with rfl | rfl | rfl
  · exact key _ _ t.x h.scX hx.1 hx.2 hwx
  · exact key _ _ t.y h.scY hy.1 hy.2 hwy
  · exact key _ _ t.z h.scZ hz.1 hz.2 hwz

/-- the second coordinate of a full turn is always within the range -/
theorem wrap_full {s : Shape} (h : Proper s) (hf : s.span.y = 2 * π) (u v : ℝ) :
    0 ≤ wrap (angle u v) s.inf.y / s.span.y ∧ wrap (angle u v) s.inf.y / s.span.y ≤ 1 := by
  have hw := wrap_range (angle_range u v) h.limits.1.infY
  rw [hf]
  have pp := pi_pos
  exact ⟨div_nonneg hw.1 (by linarith), by rw [div_le_one (by linarith)]; exact hw.2.le⟩

theorem cylBox_complete {s : Shape} (h : Proper s) (hk : s.kind = .cylinder) (hf : s.span.y = 2 * π) {lo hi p : V3}
    (hp : InB lo hi p) (hs : Solid s p) : roundBox s lo hi := by
  have hsy := h.limits.2.scY (.inl hk)
  have hloc : ∀ q : V3, localToBasic s (toLocal s q) = ⟨(√(dot (q - s.origin) s.sdr.r0 ^ 2 + dot (q - s.origin) s.sdr.r1 ^ 2) - s.inf.x) / s.scaling.x,
      wrap (angle (dot (q - s.origin) s.sdr.r0) (dot (q - s.origin) s.sdr.r1)) s.inf.y / s.span.y,
      dot (q - s.origin) s.sdr.r2 / s.scaling.z + 0.5⟩ := by
    intro q
    have hr : (if dot (q - s.origin) s.sdr.r0 = 0 ∧ dot (q - s.origin) s.sdr.r1 = 0 then (0 : ℝ) else
        √(dot (q - s.origin) s.sdr.r0 * dot (q - s.origin) s.sdr.r0 + dot (q - s.origin) s.sdr.r1 * dot (q - s.origin) s.sdr.r1)) =
        √(dot (q - s.origin) s.sdr.r0 ^ 2 + dot (q - s.origin) s.sdr.r1 ^ 2) := by
      split
      · rename_i e; rw [e.1, e.2]; simp
      · congr 1; ring
    simp only [localToBasic, toLocal, unduffy, curved, hk, V3.div, localOrigin, M3.app, hsy]
    ext
    · simp only [sub_x, sub_zero, ← hr]
      congr 2
    · simp
    · simp
  obtain ⟨t, hx, hy, hz, e⟩ := hs
  have hw := app_frame h.frame (straight s ((duffy s (basicToLocal s t)).mul s.scaling))
  have hst : straight s ((duffy s (basicToLocal s t)).mul s.scaling) =
      ⟨(t.x * s.scaling.x + s.inf.x) * cos (t.y * s.span.y + s.inf.y),
        (t.x * s.scaling.x + s.inf.x) * sin (t.y * s.span.y + s.inf.y), (t.z + -0.5) * s.scaling.z⟩ := by
    simp [straight, duffy, basicToLocal, localOrigin, hk, V3.mul, hsy]
  unfold toWorld at e
  rw [← e, hst] at hw
  have hwx := congrArg V3.x hw
  have hwy := congrArg V3.y hw
  have hwz := congrArg V3.z hw
  simp only [M3.app] at hwx hwy hwz
  have hR : 0 ≤ t.x * s.scaling.x := mul_nonneg hx.1 h.scX.le
  intro j hj
  simp only
  simp only [List.mem_cons, List.not_mem_nil, or_false] at hj
  rcases hj with rfl | rfl | rfl
  · rw [if_pos rfl]
    obtain ⟨q, hq, hle⟩ := corner_square s.origin s.sdr.r0 s.sdr.r1 ⟨0, 0, 0⟩ hp
    have m := minMax18_mem (l := ((corners lo hi).map (fun p => localToBasic s (toLocal s p))).map (fun p => p.at 0))
      (t := (localToBasic s (toLocal s q)).at 0) (by rw [List.map_map]; exact List.mem_map.2 ⟨q, hq, rfl⟩)
    have hz0 : ∀ v : V3, dot v ⟨0, 0, 0⟩ = 0 := by intro v; simp [dot]
    rw [hz0, hz0, hwx, hwy] at hle
    have hle2 : (t.x * s.scaling.x + s.inf.x) ^ 2 ≤ dot (q - s.origin) s.sdr.r0 ^ 2 + dot (q - s.origin) s.sdr.r1 ^ 2 := by
      have := sin_sq_add_cos_sq (t.y * s.span.y + s.inf.y)
      have e2 : ((t.x * s.scaling.x + s.inf.x) * cos (t.y * s.span.y + s.inf.y)) ^ 2 +
        ((t.x * s.scaling.x + s.inf.x) * sin (t.y * s.span.y + s.inf.y)) ^ 2 = (t.x * s.scaling.x + s.inf.x) ^ 2 := by
        linear_combination (t.x * s.scaling.x + s.inf.x) ^ 2 * this
      linarith
    have h0 : 0 ≤ (localToBasic s (toLocal s q)).at 0 := by
      rw [hloc, (at_simp _).1]
      apply div_nonneg _ h.scX.le
      have := le_sqrt_of_sq_le hle2
      linarith
    rw [not_lt]; exact le_trans h0 m.2
  · rw [if_neg (by omega)]
    have hq := corner_of (lo := lo) (hi := hi) (.inl rfl) (.inl rfl) (.inl rfl)
    generalize (⟨lo.x, lo.y, lo.z⟩ : V3) = q at hq
    have m := minMax18_mem (l := ((corners lo hi).map (fun p => localToBasic s (toLocal s p))).map (fun p => p.at 1))
      (t := (localToBasic s (toLocal s q)).at 1) (by rw [List.map_map]; exact List.mem_map.2 ⟨q, hq, rfl⟩)
    have hr := wrap_full h hf (dot (q - s.origin) s.sdr.r0) (dot (q - s.origin) s.sdr.r1)
    rw [hloc, (at_simp _).2.1] at m
    simp only at m
    rw [not_or, not_lt, not_lt]
    exact ⟨le_trans m.1 hr.2, le_trans hr.1 m.2⟩
  · rw [if_neg (by omega)]
    obtain ⟨⟨q, hq, hle⟩, ⟨q', hq', hle'⟩⟩ := corner_linear s.origin s.sdr.r2 hp
    have m1 := minMax18_mem (l := ((corners lo hi).map (fun p => localToBasic s (toLocal s p))).map (fun p => p.at 2))
      (t := (localToBasic s (toLocal s q)).at 2) (by rw [List.map_map]; exact List.mem_map.2 ⟨q, hq, rfl⟩)
    have m2 := minMax18_mem (l := ((corners lo hi).map (fun p => localToBasic s (toLocal s p))).map (fun p => p.at 2))
      (t := (localToBasic s (toLocal s q')).at 2) (by rw [List.map_map]; exact List.mem_map.2 ⟨q', hq', rfl⟩)
    rw [hloc, (at_simp _).2.2] at m1 m2
    simp only at m1 m2
    rw [hwz] at hle hle'
    have hsz := h.scZ
    have b1 : (t.z + -0.5) ≤ dot (q - s.origin) s.sdr.r2 / s.scaling.z := by rw [le_div_iff₀ hsz]; exact hle
    have b2 : dot (q' - s.origin) s.sdr.r2 / s.scaling.z ≤ (t.z + -0.5) := by rw [div_le_iff₀ hsz]; exact hle'
    rw [not_or, not_lt, not_lt]
    generalize (minMax18 (List.map (fun p => p.at 2) (List.map (fun p => localToBasic s (toLocal s p)) (corners lo hi)))) = M at *
    norm_num at b1 b2 m1 m2
    constructor <;> linarith [m1.2, m2.1, hz.1, hz.2]

theorem sphereBox_complete {s : Shape} (h : Proper s) (hk : s.kind = .sphere) (hf : s.span.y = 2 * π) (hfz : s.span.z = π)
    {lo hi p : V3} (hp : InB lo hi p) (hs : Solid s p) : roundBox s lo hi := by
  have pp := pi_pos
  have hsy := h.limits.2.scY (.inr hk)
  have hsz := h.limits.2.scZ hk
  have hiz : s.inf.z = 0 := by
    have h1 := h.limits.1.polar hk
    have h2 := h.limits.1.infZ
    simp only [getSpan, hsz, hfz] at h1
    linarith
  have hx : ∀ q : V3, (localToBasic s (toLocal s q)).x = (norm2 (s.sdr.app (q - s.origin)) - s.inf.x) / s.scaling.x := by
    intro q
    simp only [localToBasic, toLocal, unduffy, curved, hk, V3.div, localOrigin, sub_x]
    split <;> simp
  have hd0 : ∀ q : V3, ¬ norm2 (s.sdr.app (q - s.origin)) > 0 → q - s.origin = ⟨0, 0, 0⟩ := by
    intro q hn
    have hz := norm2_eq_zero.1 (le_antisymm (not_lt.1 hn) (norm2_nonneg _))
    have hi := inv_app h.frame.det (q - s.origin)
    rw [hz] at hi
    rw [← hi]; ext <;> simp [M3.app, dot]
  have hy : ∀ q : V3, 0 ≤ (localToBasic s (toLocal s q)).y ∧ (localToBasic s (toLocal s q)).y ≤ 1 := by
    intro q
    simp only [localToBasic, toLocal, unduffy, curved, hk, V3.div, localOrigin, sub_y]
    split
    · simp only [hsy, div_one, sub_zero]; exact wrap_full h hf _ _
    · rename_i hn
      have := hd0 q hn
      have e1 := congrArg V3.y this
      have e2 := congrArg V3.z this
      simp only [sub_y, sub_z] at e1 e2 ⊢
      first | (rw [e1]; simp) | (rw [e2]; simp)
  have hzz : ∀ q : V3, 0 ≤ (localToBasic s (toLocal s q)).z ∧ (localToBasic s (toLocal s q)).z ≤ 1 := by
    intro q
    simp only [localToBasic, toLocal, unduffy, curved, hk, V3.div, localOrigin, sub_z]
    split
    · simp only [hsz, div_one, sub_zero, hiz, hfz]
      exact ⟨div_nonneg (arccos_nonneg _) pp.le, by rw [div_le_one pp]; exact arccos_le_pi _⟩
    · rename_i hn
      have := hd0 q hn
      have e1 := congrArg V3.y this
      have e2 := congrArg V3.z this
      simp only [sub_y, sub_z] at e1 e2 ⊢
      first | (rw [e1]; simp) | (rw [e2]; simp)
  have hany : ∀ j, (j = 1 ∨ j = 2) → ∀ q : V3, 0 ≤ (localToBasic s (toLocal s q)).at j ∧ (localToBasic s (toLocal s q)).at j ≤ 1 := by
    rintro j (rfl | rfl) q
    · exact hy q
    · exact hzz q
  obtain ⟨t, htx, hty, htz, e⟩ := hs
  have hw := app_frame h.frame (straight s ((duffy s (basicToLocal s t)).mul s.scaling))
  have hst : straight s ((duffy s (basicToLocal s t)).mul s.scaling) =
      ⟨(t.x * s.scaling.x + s.inf.x) * cos (t.y * s.span.y + s.inf.y) * sin (t.z * s.span.z + s.inf.z),
        (t.x * s.scaling.x + s.inf.x) * sin (t.y * s.span.y + s.inf.y) * sin (t.z * s.span.z + s.inf.z),
        (t.x * s.scaling.x + s.inf.x) * cos (t.z * s.span.z + s.inf.z)⟩ := by
    simp [straight, duffy, basicToLocal, localOrigin, hk, V3.mul, hsy, hsz]
  unfold toWorld at e
  rw [← e, hst] at hw
  have hwx := congrArg V3.x hw
  have hwy := congrArg V3.y hw
  have hwz := congrArg V3.z hw
  simp only [M3.app] at hwx hwy hwz
  have hR : 0 ≤ t.x * s.scaling.x := mul_nonneg htx.1 h.scX.le
  intro j hj
  simp only
  by_cases hj0 : j = 0
  · subst hj0
    rw [if_pos rfl]
    obtain ⟨q, hq, hle⟩ := corner_square s.origin s.sdr.r0 s.sdr.r1 s.sdr.r2 hp
    have m := minMax18_mem (l := ((corners lo hi).map (fun p => localToBasic s (toLocal s p))).map (fun p => p.at 0))
      (t := (localToBasic s (toLocal s q)).at 0) (by rw [List.map_map]; exact List.mem_map.2 ⟨q, hq, rfl⟩)
    rw [hwx, hwy, hwz] at hle
    have hle2 : (t.x * s.scaling.x + s.inf.x) ^ 2 ≤ dot (s.sdr.app (q - s.origin)) (s.sdr.app (q - s.origin)) := by
      have a1 := sin_sq_add_cos_sq (t.y * s.span.y + s.inf.y)
      have a2 := sin_sq_add_cos_sq (t.z * s.span.z + s.inf.z)
      generalize t.x * s.scaling.x + s.inf.x = R at *
      generalize t.y * s.span.y + s.inf.y = T at *
      generalize t.z * s.span.z + s.inf.z = P at *
      have e2 : (R * cos T * sin P) ^ 2 + (R * sin T * sin P) ^ 2 + (R * cos P) ^ 2 = R ^ 2 := by
        linear_combination R ^ 2 * sin P ^ 2 * a1 + R ^ 2 * a2
      rw [e2] at hle
      simp only [M3.app]
      have e3 : ∀ a b c : ℝ, dot ⟨a, b, c⟩ ⟨a, b, c⟩ = a ^ 2 + b ^ 2 + c ^ 2 := by intro a b c; simp only [dot]; ring
      rw [e3]; exact hle
    have h0 : 0 ≤ (localToBasic s (toLocal s q)).at 0 := by
      rw [(at_simp _).1, hx]
      apply div_nonneg _ h.scX.le
      have := le_sqrt_of_sq_le hle2
      unfold norm2
      linarith
    rw [not_lt]; exact le_trans h0 m.2
  · rw [if_neg hj0]
    have hj' : j = 1 ∨ j = 2 := by simp at hj; omega
    have hq := corner_of (lo := lo) (hi := hi) (.inl rfl) (.inl rfl) (.inl rfl)
    generalize (⟨lo.x, lo.y, lo.z⟩ : V3) = q at hq
    have m := minMax18_mem (l := ((corners lo hi).map (fun p => localToBasic s (toLocal s p))).map (fun p => p.at j))
      (t := (localToBasic s (toLocal s q)).at j) (by rw [List.map_map]; exact List.mem_map.2 ⟨q, hq, rfl⟩)
    have hr := hany j hj' q
    rw [not_or, not_lt, not_lt]
    exact ⟨le_trans m.1 hr.2, le_trans hr.1 m.2⟩

theorem bounds_mem (l : List V3) : ∀ b : V3 × V3,
    let r := l.foldl (fun b q => ((⟨min b.1.x q.x, min b.1.y q.y, min b.1.z q.z⟩, ⟨max b.2.x q.x, max b.2.y q.y, max b.2.z q.z⟩) : V3 × V3)) b
    (r.1.x ≤ b.1.x ∧ r.1.y ≤ b.1.y ∧ r.1.z ≤ b.1.z ∧ b.2.x ≤ r.2.x ∧ b.2.y ≤ r.2.y ∧ b.2.z ≤ r.2.z) ∧
      ∀ q ∈ l, InB r.1 r.2 q := by
  induction l with
  | nil => intro b; simp
  | cons u l ih =>
    intro b
    simp only [List.foldl_cons]
    obtain ⟨h1, h2⟩ := ih (⟨min b.1.x u.x, min b.1.y u.y, min b.1.z u.z⟩, ⟨max b.2.x u.x, max b.2.y u.y, max b.2.z u.z⟩)
    simp only [le_min_iff, max_le_iff] at h1
    obtain ⟨a1, a2, a3, a4, a5, a6⟩ := h1
    refine ⟨⟨a1.1, a2.1, a3.1, a4.1, a5.1, a6.1⟩, ?_⟩
    intro q hq
    rcases List.mem_cons.1 hq with rfl | hq
    · exact ⟨⟨a1.2, a4.2⟩, ⟨a2.2, a5.2⟩, a3.2, a6.2⟩
    · exact h2 q hq

theorem bounds_flat (l : List V3) : ∀ b : V3 × V3, b.1.z = 0 → b.2.z = 0 → (∀ q ∈ l, q.z = 0) →
    let r := l.foldl (fun b q => ((⟨min b.1.x q.x, min b.1.y q.y, min b.1.z q.z⟩, ⟨max b.2.x q.x, max b.2.y q.y, max b.2.z q.z⟩) : V3 × V3)) b
    r.1.z = 0 ∧ r.2.z = 0 := by
  induction l with
  | nil => intro b h1 h2 _; exact ⟨h1, h2⟩
  | cons u l ih =>
    intro b h1 h2 h3
    simp only [List.foldl_cons]
    exact ih _ (by simp [h1, h3 u (by simp)]) (by simp [h2, h3 u (by simp)]) (fun q hq => h3 q (by simp [hq]))

theorem wedgeBox_complete {s : Shape} (h : Proper s) (hk : s.kind = .wedge) (ha : s.sdr = .one) {lo hi p : V3}
    (hp : InB lo hi p) (hs : Solid s p) : wedgeBox s lo hi := by
  obtain ⟨t, hx, hy, hz, e⟩ := hs
  have hw := app_frame h.frame (straight s ((duffy s (basicToLocal s t)).mul s.scaling))
  have hst : straight s ((duffy s (basicToLocal s t)).mul s.scaling) =
      ⟨t.x * s.scaling.x, t.y * (1 - t.x) * s.scaling.y, (t.z + -0.5) * s.scaling.z⟩ := by
    simp [straight, duffy, basicToLocal, localOrigin, hk, V3.mul]
  unfold toWorld at e
  rw [← e, hst, ha] at hw
  have hwx := congrArg V3.x hw
  have hwy := congrArg V3.y hw
  have hwz := congrArg V3.z hw
  simp [M3.app, M3.one, dot] at hwx hwy hwz
  have hsx := h.scX; have hsy := h.scY; have hsz := h.scZ
  have r2 : s.sdr.row 2 = ⟨0, 0, 1⟩ := by rw [ha]; rfl
  have dz : ∀ v : V3, dot v ⟨0, 0, 1⟩ = v.z := by intro v; simp [dot]
  unfold wedgeBox
  simp only [r2, dz]
  obtain ⟨⟨q, hq, hle⟩, ⟨q', hq', hle'⟩⟩ := corner_linear s.origin ⟨0, 0, 1⟩ hp
  rw [dz, dz] at hle hle'
  have m1 := minMax_mem (l := ((corners lo hi).map (fun p => p - s.origin)).map (fun p => p.z)) (t := (q - s.origin).z)
    (by rw [List.map_map]; exact List.mem_map.2 ⟨q, hq, rfl⟩)
  have m2 := minMax_mem (l := ((corners lo hi).map (fun p => p - s.origin)).map (fun p => p.z)) (t := (q' - s.origin).z)
    (by rw [List.map_map]; exact List.mem_map.2 ⟨q', hq', rfl⟩)
  generalize hM : minMax (((corners lo hi).map (fun p => p - s.origin)).map (fun p => p.z)) = M at *
  simp only [sub_z] at hle hle' m1 m2
  rw [hwz] at hle hle'
  norm_num at hle hle'
  rw [if_neg]
  · have hc : (corners lo hi).map (fun p => p - s.origin) = (⟨lo.x, lo.y, lo.z⟩ - s.origin) ::
      ((corners lo hi).tail.map (fun p => p - s.origin)) := rfl
    rw [hc, List.map_cons]
    simp only
    -- the bounds of the projected corners
    generalize hq0 : (⟨lo.x, lo.y, lo.z⟩ - s.origin - V3.scale ((⟨lo.x, lo.y, lo.z⟩ - s.origin : V3)).z ⟨0, 0, 1⟩ : V3) = c0
    generalize hql : ((corners lo hi).tail.map (fun p => p - s.origin)).map (fun p => p - V3.scale p.z ⟨0, 0, 1⟩) = cl
    have hb := bounds_mem cl (c0, c0)
    have hbf := bounds_flat cl (c0, c0) (by rw [← hq0]; simp [V3.scale]) (by rw [← hq0]; simp [V3.scale]) (by
      intro q hq
      rw [← hql, List.map_map] at hq
      obtain ⟨u, _, rfl⟩ := List.mem_map.1 hq
      simp [V3.scale])
    have hmem : (⟨hi.x, hi.y, lo.z⟩ - s.origin - V3.scale ((⟨hi.x, hi.y, lo.z⟩ - s.origin : V3)).z ⟨0, 0, 1⟩ : V3) ∈ cl := by
      rw [← hql, List.map_map]
      exact List.mem_map.2 ⟨⟨hi.x, hi.y, lo.z⟩, by simp [corners], rfl⟩
    have hbm := hb.2 _ hmem
    have hb1 := hb.1
    change _ at hbf
    unfold bounds
    generalize hB : List.foldl (fun b q => ((⟨min b.1.x q.x, min b.1.y q.y, min b.1.z q.z⟩, ⟨max b.2.x q.x, max b.2.y q.y, max b.2.z q.z⟩) : V3 × V3)) (c0, c0) cl = B at *
    have n1 : B.1.x ≤ lo.x - s.origin.x := by have := hb1.1; rw [← hq0] at this; simpa [V3.scale] using this
    have n2 : B.1.y ≤ lo.y - s.origin.y := by have := hb1.2.1; rw [← hq0] at this; simpa [V3.scale] using this
    have n3 : hi.x - s.origin.x ≤ B.2.x := by have := hbm.1.2; simpa [V3.scale] using this
    have n4 : hi.y - s.origin.y ≤ B.2.y := by have := hbm.2.1.2; simpa [V3.scale] using this
    obtain ⟨p1, p2, p3⟩ := hp
    -- the nearest point
    have hnx : 0 ≤ min B.2.x (max 0 B.1.x) ∧ min B.2.x (max 0 B.1.x) ≤ t.x * s.scaling.x := by
      have h0 : 0 ≤ t.x * s.scaling.x := mul_nonneg hx.1 hsx.le
      constructor
      · exact le_min (by linarith) (le_max_left _ _)
      · exact le_trans (min_le_right _ _) (max_le h0 (by linarith))
    have hny : 0 ≤ min B.2.y (max 0 B.1.y) ∧ min B.2.y (max 0 B.1.y) ≤ t.y * (1 - t.x) * s.scaling.y := by
      have h0 : 0 ≤ t.y * (1 - t.x) * s.scaling.y := mul_nonneg (mul_nonneg hy.1 (by linarith [hx.2])) hsy.le
      constructor
      · exact le_min (by linarith) (le_max_left _ _)
      · exact le_trans (min_le_right _ _) (max_le h0 (by linarith))
    have hnear : nearest ⟨0, 0, 0⟩ B.1 B.2 = ⟨min B.2.x (max 0 B.1.x), min B.2.y (max 0 B.1.y), 0⟩ := by
      simp [nearest, hbf.1, hbf.2]
    rw [hnear]
    generalize min B.2.x (max 0 B.1.x) = nx at hnx
    generalize min B.2.y (max 0 B.1.y) = ny at hny
    apply C65_point_complete_partial h
    · -- in the solid
      have u1 : 0 ≤ nx / s.scaling.x := div_nonneg hnx.1 hsx.le
      have u2 : nx / s.scaling.x ≤ t.x := by rw [div_le_iff₀ hsx]; exact hnx.2
      have v1 : 0 ≤ ny / s.scaling.y := div_nonneg hny.1 hsy.le
      have v2 : ny / s.scaling.y ≤ t.y * (1 - t.x) := by rw [div_le_iff₀ hsy]; exact hny.2
      have hinv : s.sdrInv = .one := by
        rw [h.frame.inv, ha]; simp [M3.one, M3.inverse, M3.det]
      by_cases hx1 : nx / s.scaling.x = 1
      · have hty : t.x = 1 := le_antisymm hx.2 (by rw [← hx1]; exact u2)
        have hv0 : ny / s.scaling.y = 0 := le_antisymm (by rw [hty] at v2; linarith) v1
        refine ⟨⟨1, 0, 1 / 2⟩, by norm_num, by norm_num, by norm_num, ?_⟩
        have e1 : nx = s.scaling.x := by rw [div_eq_one_iff_eq (ne_of_gt hsx)] at hx1; exact hx1
        have e2 : ny = 0 := by rw [div_eq_zero_iff] at hv0; rcases hv0 with h | h; exact h; exact absurd h (ne_of_gt hsy)
        rw [e1, e2]
        simp [toWorld, hinv, straight, duffy, basicToLocal, localOrigin, hk, V3.mul, M3.app, M3.one, dot]
        ext <;> norm_num
      · have hlt : nx / s.scaling.x < 1 := lt_of_le_of_ne (le_trans u2 hx.2) hx1
        have hpos : 0 < 1 - nx / s.scaling.x := by linarith
        refine ⟨⟨nx / s.scaling.x, ny / s.scaling.y / (1 - nx / s.scaling.x), 1 / 2⟩, ⟨u1, hlt.le⟩, ⟨div_nonneg v1 hpos.le, ?_⟩, by norm_num, ?_⟩
        · rw [div_le_one hpos]
          have : t.y * (1 - t.x) ≤ 1 - t.x := by nlinarith [hy.2, hx.2]
          linarith
        · have hne := ne_of_gt hpos
          simp [toWorld, hinv, straight, duffy, basicToLocal, localOrigin, hk, V3.mul, M3.app, M3.one, dot]
          ext
          · simp; field_simp
          · simp
            have : ny / s.scaling.y / (1 - nx / s.scaling.x) * (1 - nx / s.scaling.x) * s.scaling.y = ny := by
              rw [div_mul_cancel₀ _ hne, div_mul_cancel₀ _ (ne_of_gt hsy)]
            rw [this]
          · norm_num
    · rintro ⟨hk' | hk', -⟩
      · rw [hk] at hk'; cases hk'
      · rw [hk] at hk'; cases hk'.1
  · rw [not_or, not_lt, not_lt]
    constructor
    · have : (t.z - 1 / 2) * s.scaling.z ≤ 1 / 2 * s.scaling.z := by nlinarith [hz.2]
      norm_num
      linarith [m2.1]
    · have : -(1 / 2) * s.scaling.z ≤ (t.z - 1 / 2) * s.scaling.z := by nlinarith [hz.1]
      norm_num
      linarith [m1.2]

end Verif.Shape
