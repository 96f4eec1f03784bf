import Verif.Utils.Point
/-
C125 (translation of a point) and C126 (rotation of a reference system).
-/
namespace Verif.Utils
open Verif.Shape Verif.Manip
open Verif.Rbf (tiny)

noncomputable section
open scoped Classical

/-! ### Specification: what the last calls of a history asked for -/

/-- the last value a history gives for something, if any -/
def latest {α β : Type} (f : α → Option β) (cs : List α) : Option β := (cs.filterMap f).getLast?

theorem latest_concat {α β : Type} (f : α → Option β) (cs : List α) (c : α) :
    latest f (cs ++ [c]) = (f c).or (latest f cs) := by
  unfold latest
  rw [List.filterMap_append]
  cases h : f c <;> simp [h]

theorem latest_nil {α β : Type} (f : α → Option β) : latest f [] = none := rfl

theorem tiny_pos : 0 < tiny := by unfold tiny; positivity

theorem tiny_lt_one : tiny < 1 := by
  unfold tiny
  rw [div_lt_one (by positivity)]
  exact one_lt_pow₀ (by norm_num) (by norm_num)

theorem norm2_one {d : V3} (h : dot d d = 1) : norm2 d = 1 := by unfold norm2; rw [h, Real.sqrt_one]

theorem norm2_scale (k : ℝ) (d : V3) : norm2 (V3.scale k d) = |k| * norm2 d := by
  have e : dot (V3.scale k d) (V3.scale k d) = k ^ 2 * dot d d := by simp only [dot, V3.scale]; ring
  unfold norm2
  rw [e, Real.sqrt_mul (sq_nonneg k), Real.sqrt_sq_eq_abs]

/-! ## C125 -/

/-- specification: `p` is `o` moved by `a` along the direction of `d`: at distance `|a|` from `o`, on the line through `o`
along `d`, on the side of `d` when `a` is positive -/
structure Moved (o d : V3) (a : ℝ) (p : V3) : Prop where
  far : norm2 (p - o) = |a|
  along : cross (p - o) d = ⟨0, 0, 0⟩
  side : 0 ≤ a * dot (p - o) d

/-- the last direction, point and value asked for -/
def Shift.Call.direction? : Shift.Call → Option V3
  | .direction d => some d
  | _ => none
def Shift.Call.origin? : Shift.Call → Option V3
  | .origin o => some o
  | _ => none
def Shift.Call.translation? : Shift.Call → Option ℝ
  | .translation a => some a
  | _ => none

theorem shift_calls (s : Shift) (cs : List Shift.Call) :
    (s.calls cs).direction = ((latest Shift.Call.direction? cs).map pointDirection).getD s.direction ∧
    (s.calls cs).origin = (latest Shift.Call.origin? cs).or s.origin ∧
    (s.calls cs).alpha = (latest Shift.Call.translation? cs).getD s.alpha := by
  induction cs using List.reverseRecOn with
  | nil => simp [Shift.calls, latest_nil]
  | append_singleton cs c ih =>
    obtain ⟨h1, h2, h3⟩ := ih
    have e : s.calls (cs ++ [c]) = (s.calls cs).call c := by simp [Shift.calls]
    rw [e, latest_concat, latest_concat, latest_concat]
    cases c <;>
      simp [Shift.call, Shift.Call.direction?, Shift.Call.origin?, Shift.Call.translation?, h1, h2, h3]

/-- the result of a history that ends with an execution -/
theorem shift_result (s : Shift) (cs : List Shift.Call) {d o : V3} {a : ℝ}
    (hd : latest Shift.Call.direction? cs = some d) (ho : latest Shift.Call.origin? cs = some o)
    (ha : latest Shift.Call.translation? cs = some a) (hn : tiny ≤ norm2 d) :
    (s.calls (cs ++ [.execute])).translated = some (o + V3.scale a d) := by
  obtain ⟨h1, h2, h3⟩ := shift_calls s cs
  have e : s.calls (cs ++ [.execute]) = (s.calls cs).call .execute := by simp [Shift.calls]
  rw [e]
  have hp : pointDirection d = some d := if_neg (not_lt.2 hn)
  rw [hd] at h1
  rw [ho] at h2
  rw [ha] at h3
  simp only [Option.map_some, hp, Option.getD_some, Option.some_or] at h1 h2 h3
  simp only [Shift.call, Shift.value, h1, h2, h3]

/-- **C125** (part): after any history of calls in which the last direction has length one, executing gives the last point
moved by the last value along the last direction.  Missing: directions of other lengths, see `C125_length_fails` -/
theorem C125_moved_partial (s : Shift) (cs : List Shift.Call) {d o : V3} {a : ℝ}
    (hd : latest Shift.Call.direction? cs = some d) (ho : latest Shift.Call.origin? cs = some o)
    (ha : latest Shift.Call.translation? cs = some a) (hu : dot d d = 1) :
    ∃ p, (s.calls (cs ++ [.execute])).translated = some p ∧ Moved o d a p := by
  have hn := norm2_one hu
  refine ⟨_, shift_result s cs hd ho ha (by rw [hn]; exact tiny_lt_one.le), ?_⟩
  have e : o + V3.scale a d - o = V3.scale a d := by ext <;> simp
  refine ⟨by rw [e, norm2_scale, hn, mul_one], ?_, ?_⟩
  · rw [e]; ext <;> simp only [cross, V3.scale] <;> ring
  · rw [e]
    have : dot (V3.scale a d) d = a * dot d d := by simp only [dot, V3.scale]; ring
    rw [this, hu]
    nlinarith [sq_nonneg a]

example : ∃ cs : List Shift.Call, ∃ d o : V3, ∃ a : ℝ, latest Shift.Call.direction? cs = some d ∧
    latest Shift.Call.origin? cs = some o ∧ latest Shift.Call.translation? cs = some a ∧ dot d d = 1 ∧ a ≠ 0 ∧
    cs.length = 5 :=
  ⟨[.direction ⟨0, 2, 0⟩, .translation 3, .execute, .origin ⟨1, 1, 1⟩, .direction ⟨0, 0, 1⟩], ⟨0, 0, 1⟩, ⟨1, 1, 1⟩, 3,
    rfl, rfl, rfl, by norm_num [dot], by norm_num, rfl⟩

/-- for a direction of any other length the point is moved by the value times that length -/
theorem C125_length (s : Shift) (cs : List Shift.Call) {d o : V3} {a : ℝ}
    (hd : latest Shift.Call.direction? cs = some d) (ho : latest Shift.Call.origin? cs = some o)
    (ha : latest Shift.Call.translation? cs = some a) (hn : tiny ≤ norm2 d) :
    ∃ p, (s.calls (cs ++ [.execute])).translated = some p ∧ Moved o d (a * norm2 d) p := by
  refine ⟨_, shift_result s cs hd ho ha hn, ?_⟩
  have e : o + V3.scale a d - o = V3.scale a d := by ext <;> simp
  have h0 := norm2_nonneg d
  refine ⟨by rw [e, norm2_scale, abs_mul, abs_of_nonneg h0], ?_, ?_⟩
  · rw [e]; ext <;> simp only [cross, V3.scale] <;> ring
  · rw [e]
    have : dot (V3.scale a d) d = a * dot d d := by simp only [dot, V3.scale]; ring
    rw [this]
    have hs : 0 ≤ dot d d := by simp only [dot]; nlinarith [mul_self_nonneg d.x, mul_self_nonneg d.y, mul_self_nonneg d.z]
    have : a * norm2 d * (a * dot d d) = a ^ 2 * (norm2 d * dot d d) := by ring
    rw [this]
    positivity

example : tiny ≤ norm2 (⟨0, 3, 4⟩ : V3) := by
  have : norm2 (⟨0, 3, 4⟩ : V3) = 5 := by
    unfold norm2
    rw [show dot (⟨0, 3, 4⟩ : V3) ⟨0, 3, 4⟩ = 5 ^ 2 by norm_num [dot]]
    exact Real.sqrt_sq (by norm_num)
  rw [this]
  linarith [tiny_lt_one]

/-- **C125** fails: with direction (0,0,2) and value 1 the point moves by 2 -/
theorem C125_length_fails : ∃ cs : List Shift.Call, ∃ d o : V3, ∃ a : ℝ, latest Shift.Call.direction? cs = some d ∧
    latest Shift.Call.origin? cs = some o ∧ latest Shift.Call.translation? cs = some a ∧ d ≠ ⟨0, 0, 0⟩ ∧
    ∃ p, ((Shift.new).calls (cs ++ [.execute])).translated = some p ∧ ¬ Moved o d a p := by
  have hn : norm2 (⟨0, 0, 2⟩ : V3) = 2 := by
    unfold norm2
    rw [show dot (⟨0, 0, 2⟩ : V3) ⟨0, 0, 2⟩ = 2 ^ 2 by norm_num [dot]]
    exact Real.sqrt_sq (by norm_num)
  refine ⟨[.direction ⟨0, 0, 2⟩, .origin ⟨0, 0, 0⟩, .translation 1], ⟨0, 0, 2⟩, ⟨0, 0, 0⟩, 1, rfl, rfl, rfl, ?_, ?_⟩
  · intro h; have := congrArg V3.z h; norm_num at this
  · refine ⟨_, shift_result _ _ (d := ⟨0, 0, 2⟩) (o := ⟨0, 0, 0⟩) (a := 1) rfl rfl rfl ?_, ?_⟩
    · rw [hn]; linarith [tiny_lt_one]
    · intro h
      have := h.far
      rw [show ((⟨0, 0, 0⟩ : V3) + V3.scale 1 ⟨0, 0, 2⟩ - ⟨0, 0, 0⟩) = ⟨0, 0, 2⟩ by ext <;> simp [V3.scale], hn] at this
      norm_num at this

/-- **C125** fails for an object whose direction is never given: no value, not even zero, gives a point -/
theorem C125_zero_fails (cs : List Shift.Call) (h : latest Shift.Call.direction? cs = none) :
    ((Shift.new).calls (cs ++ [.execute])).translated = none := by
  obtain ⟨h1, -, -⟩ := shift_calls Shift.new cs
  have e : Shift.new.calls (cs ++ [.execute]) = (Shift.new.calls cs).call .execute := by simp [Shift.calls]
  rw [e]
  rw [h] at h1
  have hz : norm2 (⟨0, 0, 0⟩ : V3) = 0 := norm2_eq_zero.2 rfl
  have : Shift.new.direction = none := by
    simp only [Shift.new, pointDirection]
    rw [if_pos (by rw [hz]; exact tiny_pos), if_pos hz]
  rw [this] at h1
  simp only [Option.map_none, Option.getD_none] at h1
  simp only [Shift.call, Shift.value, h1]
  split <;> simp_all

example : latest Shift.Call.direction? [.origin ⟨1, 2, 3⟩, .translation 0] = none := rfl

/-- the point, the direction and the value are left as they are by the execution, so that executing again gives the same
point: the result does not accumulate -/
theorem C125_repeat (s : Shift) (cs : List Shift.Call) :
    (s.calls (cs ++ [.execute])).origin = (s.calls cs).origin ∧
    (s.calls (cs ++ [.execute])).direction = (s.calls cs).direction ∧
    (s.calls (cs ++ [.execute, .execute])).translated = (s.calls (cs ++ [.execute])).translated := by
  simp [Shift.calls, Shift.call, Shift.value]

/-- **C125** the point returned is that of the last execution: settings do not change it until the next. -/
theorem C125_kept (s : Shift) (cs ds : List Shift.Call) (h : ∀ c ∈ ds, c ≠ .execute) :
    (s.calls (cs ++ ds)).translated = (s.calls cs).translated := by
  induction ds using List.reverseRecOn with
  | nil => simp
  | append_singleton ds c ih =>
    have e : s.calls (cs ++ (ds ++ [c])) = (s.calls (cs ++ ds)).call c := by simp [Shift.calls]
    rw [e, ← ih (fun c hc => h c (by simp [hc]))]
    have hc := h c (by simp)
    cases c <;> simp_all [Shift.call]

example : ((Shift.new ⟨1, 0, 0⟩).calls ([.origin ⟨0, 0, 0⟩, .translation 2, .execute] ++ [.origin ⟨5, 5, 5⟩])).translated =
    ((Shift.new ⟨1, 0, 0⟩).calls [.origin ⟨0, 0, 0⟩, .translation 2, .execute]).translated :=
  C125_kept _ _ _ (by simp)

/-- a copy gives the same point when executed -/
theorem C125_copy (s : Shift) (cs : List Shift.Call) :
    (s.copy.calls (cs ++ [.execute])).translated = (s.calls (cs ++ [.execute])).translated := by
  obtain ⟨h1, h2, h3⟩ := shift_calls s cs
  obtain ⟨k1, k2, k3⟩ := shift_calls s.copy cs
  simp only [Shift.copy] at k1 k2 k3
  have e : ∀ t : Shift, t.calls (cs ++ [.execute]) = (t.calls cs).call .execute := by simp [Shift.calls]
  rw [e, e]
  simp only [Shift.call, Shift.value]
  rw [show (s.copy.calls cs).origin = (s.calls cs).origin by rw [h2]; exact k2,
    show (s.copy.calls cs).direction = (s.calls cs).direction by rw [h1]; exact k1,
    show (s.copy.calls cs).alpha = (s.calls cs).alpha by rw [h3]; exact k3]

/-! ## C126 -/

def Turn.Call.origin? : Turn.Call → Option V3
  | .axis o _ => some o
  | .origin o => some o
  | _ => none
def Turn.Call.direction? : Turn.Call → Option V3
  | .axis _ d => some d
  | .direction d => some d
  | _ => none
def Turn.Call.rotation? : Turn.Call → Option ℝ
  | .rotation a => some a
  | _ => none
def Turn.Call.axes? : Turn.Call → Option M3
  | .axes m => some m
  | _ => none
def Turn.Call.axesOrigin? : Turn.Call → Option V3
  | .axesOrigin o => some o
  | _ => none

theorem sub_add (a b : V3) : a + V3.scale (-1) b + b = a := by ext <;> simp [V3.scale]

theorem turn_calls (s : Turn) (cs : List Turn.Call) :
    (s.calls cs).origin = (latest Turn.Call.origin? cs).getD s.origin ∧
    (s.calls cs).direction = ((latest Turn.Call.direction? cs).map axisDirection).getD s.direction ∧
    (s.calls cs).alpha = (latest Turn.Call.rotation? cs).getD s.alpha ∧
    (s.calls cs).axes = (latest Turn.Call.axes? cs).getD s.axes ∧
    (s.calls cs).axesOrigin = (latest Turn.Call.axesOrigin? cs).getD s.axesOrigin := by
  induction cs using List.reverseRecOn with
  | nil => simp [Turn.calls, latest_nil]
  | append_singleton cs c ih =>
    obtain ⟨h1, h2, h3, h4, h5⟩ := ih
    have e : s.calls (cs ++ [c]) = (s.calls cs).call c := by simp [Turn.calls]
    rw [e, latest_concat, latest_concat, latest_concat, latest_concat, latest_concat]
    cases c <;>
      simp [Turn.call, Turn.execute, Turn.Call.direction?, Turn.Call.origin?, Turn.Call.rotation?, Turn.Call.axes?,
        Turn.Call.axesOrigin?, h1, h2, h3, h4, h5, sub_add]

theorem axisDirection_spec {d : V3} (h : tiny < norm2 d) : DirectionOf d (axisDirection d) := by
  unfold axisDirection
  rw [if_pos h]
  apply direction_unit
  intro e
  rw [norm2_eq_zero.2 e] at h
  exact absurd h (not_lt.2 tiny_pos.le)

/-- specification: the reference system `m'` with origin `o'` is `m` with origin `o` turned by `a` about the axis through
`c` with direction `u`; the axes are free vectors, turned about the origin of space -/
structure SystemTurned (c u : V3) (a : ℝ) (o : V3) (m : M3) (o' : V3) (m' : M3) : Prop where
  origin : Turned c u a o o'
  axis0 : Turned ⟨0, 0, 0⟩ u a m.r0 m'.r0
  axis1 : Turned ⟨0, 0, 0⟩ u a m.r1 m'.r1
  axis2 : Turned ⟨0, 0, 0⟩ u a m.r2 m'.r2

theorem turned_free {u : V3} (hu : dot u u = 1) (θ : ℝ) (p : V3) : Turned ⟨0, 0, 0⟩ u θ p (rodrigues u θ p) := by
  have := rodrigues_turned (o := ⟨0, 0, 0⟩) hu θ p
  rwa [show p - (⟨0, 0, 0⟩ : V3) = p by ext <;> simp, show ∀ q : V3, q + (⟨0, 0, 0⟩ : V3) = q by intro q; ext <;> simp] at this

theorem execute_turned (s : Turn) (hu : dot s.direction s.direction = 1) :
    SystemTurned s.origin s.direction s.alpha s.axesOrigin s.axes s.execute.rotaxOrigin s.execute.rotax := by
  refine ⟨?_, turned_free hu _ _, turned_free hu _ _, turned_free hu _ _⟩
  have := rodrigues_turned (o := s.origin) hu s.alpha s.axesOrigin
  rwa [show s.axesOrigin - s.origin = s.axesOrigin + V3.scale (-1) s.origin by
    ext <;> simp only [sub_x, sub_y, sub_z, add_x, add_y, add_z, V3.scale] <;> ring] at this

/-- **C126**: after any history of calls, executing gives the reference system set last turned by the angle set last about
the axis set last, whatever the length of its direction -/
theorem C126_turned (s : Turn) (cs : List Turn.Call) {c d : V3} {a : ℝ} {o : V3} {m : M3}
    (hc : latest Turn.Call.origin? cs = some c) (hd : latest Turn.Call.direction? cs = some d)
    (ha : latest Turn.Call.rotation? cs = some a) (ho : latest Turn.Call.axesOrigin? cs = some o)
    (hm : latest Turn.Call.axes? cs = some m) (hn : tiny < norm2 d) :
    ∃ u, DirectionOf d u ∧ SystemTurned c u a o m (s.calls (cs ++ [.execute])).rotaxOrigin
      (s.calls (cs ++ [.execute])).rotax := by
  obtain ⟨h1, h2, h3, h4, h5⟩ := turn_calls s cs
  have hu := axisDirection_spec hn
  refine ⟨axisDirection d, hu, ?_⟩
  have e : s.calls (cs ++ [.execute]) = (s.calls cs).execute := by simp [Turn.calls, Turn.call]
  rw [e]
  rw [hc] at h1; rw [hd] at h2; rw [ha] at h3; rw [hm] at h4; rw [ho] at h5
  simp only [Option.getD_some, Option.map_some] at h1 h2 h3 h4 h5
  have := execute_turned (s.calls cs) (by rw [h2]; exact hu.unit)
  rwa [h1, h2, h3, h4, h5] at this

example : ∃ cs : List Turn.Call, ∃ c d o : V3, ∃ a : ℝ, ∃ m : M3, latest Turn.Call.origin? cs = some c ∧
    latest Turn.Call.direction? cs = some d ∧ latest Turn.Call.rotation? cs = some a ∧
    latest Turn.Call.axesOrigin? cs = some o ∧ latest Turn.Call.axes? cs = some m ∧ tiny < norm2 d ∧ norm2 d = 5 := by
  have h : norm2 (⟨0, 3, 4⟩ : V3) = 5 := by
    unfold norm2
    rw [show dot (⟨0, 3, 4⟩ : V3) ⟨0, 3, 4⟩ = 5 ^ 2 by norm_num [dot]]
    exact Real.sqrt_sq (by norm_num)
  exact ⟨[.axesOrigin ⟨1, 0, 0⟩, .axes M3.one, .origin ⟨7, 7, 7⟩, .axis ⟨0, 1, 0⟩ ⟨0, 3, 4⟩, .rotation 1, .execute],
    ⟨0, 1, 0⟩, ⟨0, 3, 4⟩, ⟨1, 0, 0⟩, 1, M3.one, rfl, rfl, rfl, rfl, rfl, by rw [h]; linarith [tiny_lt_one], h⟩

theorem rodrigues_inner {u : V3} (hu : dot u u = 1) (θ : ℝ) (v w : V3) :
    dot (rodrigues u θ v) (rodrigues u θ w) = dot v w := by
  have key : ∀ a b : V3, dot (a - b) (a - b) = dot a a - 2 * dot a b + dot b b := by
    intro a b; simp only [dot, sub_x, sub_y, sub_z]; ring
  have h1 := rodrigues_norm hu θ v
  have h2 := rodrigues_norm hu θ w
  have h3 := rodrigues_norm hu θ (v - w)
  rw [← rodrigues_sub] at h3
  have k1 := key (rodrigues u θ v) (rodrigues u θ w)
  have k2 := key v w
  linarith

theorem rodrigues_cross {u : V3} (hu : dot u u = 1) (θ : ℝ) (v w : V3) :
    cross (rodrigues u θ v) (rodrigues u θ w) = rodrigues u θ (cross v w) := by
  have hcs := Real.sin_sq_add_cos_sq θ
  have e : cross (rodrigues u θ v) (rodrigues u θ w) - rodrigues u θ (cross v w) =
      V3.scale (dot u u - 1) (V3.scale (Real.cos θ * (1 - Real.cos θ)) (cross v w) +
        V3.scale ((1 - Real.cos θ) * Real.sin θ) (cross u (cross v w))) +
      V3.scale (Real.sin θ ^ 2 + Real.cos θ ^ 2 - 1) (V3.scale (dot u (cross v w)) u) := by
    ext <;> simp only [rodrigues, dot, cross, V3.scale, add_x, add_y, add_z, sub_x, sub_y, sub_z] <;> ring
  rw [hu, hcs] at e
  ext
  · have := congrArg V3.x e; simp only [V3.scale, add_x, sub_x] at this; linarith
  · have := congrArg V3.y e; simp only [V3.scale, add_y, sub_y] at this; linarith
  · have := congrArg V3.z e; simp only [V3.scale, add_z, sub_z] at this; linarith

theorem turned_eq {u : V3} (hu : dot u u = 1) {θ : ℝ} {p p' : V3} (h : Turned ⟨0, 0, 0⟩ u θ p p') : p' = rodrigues u θ p :=
  turned_unique hu h (turned_free hu θ p)

theorem turned_eq' {o u : V3} (hu : dot u u = 1) {θ : ℝ} {p p' : V3} (h : Turned o u θ p p') :
    p' = rodrigues u θ (p - o) + o :=
  turned_unique hu h (rodrigues_turned hu θ p)

/-- **C126**: lengths of the axes and angles between them are kept, and so is their orientation: the cross product of two
axes turned is the cross product turned.  In particular an orthonormal system stays orthonormal -/
theorem C126_rigid {c u : V3} {a : ℝ} {o o' : V3} {m m' : M3} (hu : dot u u = 1) (h : SystemTurned c u a o m o' m') :
    dot m'.r0 m'.r0 = dot m.r0 m.r0 ∧ dot m'.r1 m'.r1 = dot m.r1 m.r1 ∧ dot m'.r2 m'.r2 = dot m.r2 m.r2 ∧
    dot m'.r0 m'.r1 = dot m.r0 m.r1 ∧ dot m'.r1 m'.r2 = dot m.r1 m.r2 ∧ dot m'.r0 m'.r2 = dot m.r0 m.r2 ∧
    dot m'.r0 (cross m'.r1 m'.r2) = dot m.r0 (cross m.r1 m.r2) ∧ norm2 (o' - c) = norm2 (o - c) := by
  rw [turned_eq hu h.axis0, turned_eq hu h.axis1, turned_eq hu h.axis2, turned_eq' hu h.origin, rodrigues_cross hu]
  simp only [rodrigues_inner hu, true_and]
  unfold norm2
  rw [add_sub_self, rodrigues_norm hu]

example : SystemTurned ⟨0, 0, 0⟩ ⟨0, 0, 1⟩ (Real.pi / 2) ⟨1, 0, 0⟩ M3.one ⟨0, 1, 0⟩
    ⟨⟨0, 1, 0⟩, ⟨-1, 0, 0⟩, ⟨0, 0, 1⟩⟩ := by
  constructor <;> constructor <;>
    simp [dot, radial, cross, V3.scale, M3.one, Real.cos_pi_div_two, Real.sin_pi_div_two]

theorem rodrigues_add {u : V3} (hu : dot u u = 1) (a b : ℝ) (v : V3) :
    rodrigues u b (rodrigues u a v) = rodrigues u (a + b) v := by
  have e : rodrigues u b (rodrigues u a v) - rodrigues u (a + b) v =
      V3.scale (dot u u - 1) (V3.scale ((1 - Real.cos a) * (1 - Real.cos b) * dot u v) u -
        V3.scale (Real.sin a * Real.sin b) v) +
      V3.scale 0 v := by
    ext <;> simp only [rodrigues, dot, cross, V3.scale, add_x, add_y, add_z, sub_x, sub_y, sub_z, Real.cos_add,
      Real.sin_add] <;> ring
  rw [hu] at e
  ext
  · have := congrArg V3.x e; simp only [V3.scale, add_x, sub_x] at this; linarith
  · have := congrArg V3.y e; simp only [V3.scale, add_y, sub_y] at this; linarith
  · have := congrArg V3.z e; simp only [V3.scale, add_z, sub_z] at this; linarith

/-- **C126**: the outputs of one rotation given to a second one about the same axis are the system turned by the sum of the
two angles -/
theorem C126_chain {c u : V3} {a b : ℝ} {o o' o'' : V3} {m m' m'' : M3} (hu : dot u u = 1)
    (h : SystemTurned c u a o m o' m') (k : SystemTurned c u b o' m' o'' m'') :
    SystemTurned c u (a + b) o m o'' m'' := by
  constructor
  · have := rodrigues_turned (o := c) hu (a + b) o
    rwa [turned_eq' hu k.origin, turned_eq' hu h.origin, add_sub_self, rodrigues_add hu]
  · rw [turned_eq hu k.axis0, turned_eq hu h.axis0, rodrigues_add hu]; exact turned_free hu _ _
  · rw [turned_eq hu k.axis1, turned_eq hu h.axis1, rodrigues_add hu]; exact turned_free hu _ _
  · rw [turned_eq hu k.axis2, turned_eq hu h.axis2, rodrigues_add hu]; exact turned_free hu _ _

/-- **C126**: turning by zero gives the system itself, so that turning by an angle and by its opposite gives back the system -/
theorem C126_back {c u : V3} {a : ℝ} {o o' o'' : V3} {m m' m'' : M3} (hu : dot u u = 1)
    (h : SystemTurned c u a o m o' m') (k : SystemTurned c u (-a) o' m' o'' m'') : o'' = o ∧ m'' = m := by
  have hz : ∀ v, rodrigues u 0 v = v := by
    intro v; ext <;> simp [rodrigues, V3.scale, cross, dot]
  have j := C126_chain hu h k
  rw [show a + -a = 0 by ring] at j
  refine ⟨?_, ?_⟩
  · rw [turned_eq' hu j.origin, hz]; ext <;> simp
  · have e0 := turned_eq hu j.axis0
    have e1 := turned_eq hu j.axis1
    have e2 := turned_eq hu j.axis2
    rw [hz] at e0 e1 e2
    exact M3.ext e0 e1 e2

example : dot (⟨0, 0, 1⟩ : V3) ⟨0, 0, 1⟩ = 1 := by norm_num [dot]

/-- **C126**: executing changes none of the inputs, so that executing again gives the same system -/
theorem C126_repeat (s : Turn) : s.execute.origin = s.origin ∧ s.execute.direction = s.direction ∧
    s.execute.axes = s.axes ∧ s.execute.axesOrigin = s.axesOrigin ∧ s.execute.execute = s.execute := by
  refine ⟨rfl, rfl, rfl, sub_add _ _, ?_⟩
  simp only [Turn.execute, sub_add]

/-- **C126** fails for an object whose axes are never given: the third axis of the result is the zero vector, whatever the
axis and the angle -/
theorem C126_default_fails (c d : V3) (cs : List Turn.Call) (h : latest Turn.Call.axes? cs = none) :
    ((Turn.new c d).calls (cs ++ [.execute])).rotax.r2 = ⟨0, 0, 0⟩ := by
  obtain ⟨-, -, -, h4, -⟩ := turn_calls (Turn.new c d) cs
  have e : (Turn.new c d).calls (cs ++ [.execute]) = ((Turn.new c d).calls cs).execute := by simp [Turn.calls, Turn.call]
  rw [e]
  rw [h] at h4
  simp only [Option.getD_none, Turn.new] at h4
  simp only [Turn.execute, turnRows]
  rw [show ((Turn.new c d).calls cs).axes = firstAxes from h4]
  ext <;> simp [rodrigues, firstAxes, V3.scale, cross, dot]

example : latest Turn.Call.axes? [.axis ⟨0, 0, 0⟩ ⟨0, 0, 1⟩, .rotation 1] = none := rfl

/-- **C126** fails for an object whose direction is never given: the axes are not turned but shortened by the cosine of the
angle -/
theorem C126_zero_fails (cs : List Turn.Call) {a : ℝ} {m : M3} (hd : latest Turn.Call.direction? cs = none)
    (ha : latest Turn.Call.rotation? cs = some a) (hm : latest Turn.Call.axes? cs = some m) :
    let r := ((Turn.new).calls (cs ++ [.execute])).rotax
    r.r0 = V3.scale (Real.cos a) m.r0 ∧ r.r1 = V3.scale (Real.cos a) m.r1 ∧ r.r2 = V3.scale (Real.cos a) m.r2 := by
  obtain ⟨-, h2, h3, h4, -⟩ := turn_calls Turn.new cs
  have e : Turn.new.calls (cs ++ [.execute]) = (Turn.new.calls cs).execute := by simp [Turn.calls, Turn.call]
  rw [e]
  rw [hd] at h2; rw [ha] at h3; rw [hm] at h4
  simp only [Option.getD_none, Option.getD_some, Option.map_none] at h2 h3 h4
  have hz : Turn.new.direction = ⟨0, 0, 0⟩ := by
    simp only [Turn.new, axisDirection]
    rw [if_neg]
    rw [norm2_eq_zero.2 rfl]
    exact not_lt.2 tiny_pos.le
  rw [hz] at h2
  simp only [Turn.execute, turnRows, h2, h3, h4]
  refine ⟨?_, ?_, ?_⟩ <;> ext <;> simp [rodrigues, V3.scale, cross, dot]

example : latest Turn.Call.direction? [.axes M3.one, .rotation 1] = none ∧
    latest Turn.Call.rotation? [.axes M3.one, .rotation 1] = some 1 ∧
    latest Turn.Call.axes? [.axes M3.one, .rotation 1] = some M3.one := ⟨rfl, rfl, rfl⟩

/-- a copy gives the same system when executed -/
theorem C126_copy (s : Turn) (cs : List Turn.Call) :
    (s.copy.calls (cs ++ [.execute])).rotax = (s.calls (cs ++ [.execute])).rotax ∧
    (s.copy.calls (cs ++ [.execute])).rotaxOrigin = (s.calls (cs ++ [.execute])).rotaxOrigin := by
  obtain ⟨h1, h2, h3, h4, h5⟩ := turn_calls s cs
  obtain ⟨k1, k2, k3, k4, k5⟩ := turn_calls s.copy cs
  simp only [Turn.copy] at k1 k2 k3 k4 k5
  have e : ∀ t : Turn, t.calls (cs ++ [.execute]) = (t.calls cs).execute := by simp [Turn.calls, Turn.call]
  rw [e, e]
  have q1 : (s.copy.calls cs).origin = (s.calls cs).origin := by rw [h1]; exact k1
  have q2 : (s.copy.calls cs).direction = (s.calls cs).direction := by rw [h2]; exact k2
  have q3 : (s.copy.calls cs).alpha = (s.calls cs).alpha := by rw [h3]; exact k3
  have q4 : (s.copy.calls cs).axes = (s.calls cs).axes := by rw [h4]; exact k4
  have q5 : (s.copy.calls cs).axesOrigin = (s.calls cs).axesOrigin := by rw [h5]; exact k5
  simp only [Turn.execute, q1, q2, q3, q4, q5, and_self]

end
end Verif.Utils
