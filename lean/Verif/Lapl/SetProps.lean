import Verif.Lapl.Propagate
import Mathlib.Algebra.Order.Round
/-
C177: the settings of the propagation blocks and their round trip through a section.
-/
namespace Verif.Lapl

noncomputable section

/-- settings that the setters can leave -/
structure Settings.Ok (s : Settings) : Prop where
  thres : dblMin ≤ s.thres
  tol : dblMin ≤ s.tol
  width : 0 ≤ s.bandwidth
  relax : 0 ≤ s.bandrelax ∧ s.bandrelax ≤ 1
  type : s.dampingType = 0 ∨ s.dampingType = 1
  decay : 0 ≤ s.decay
  radius : 0 ≤ s.radius
  plateau : 0 ≤ s.plateau
  nstep : 1 ≤ s.nstep

/-- half a unit of the sixth decimal -/
def Near (a b : ℝ) : Prop := |a - b| ≤ 1 / 2 / 10 ^ 6

/-- at most six decimals -/
def SixDecimals (x : ℝ) : Prop := ∃ n : ℤ, x = n / 10 ^ 6

theorem fixed6_near (x : ℝ) : Near (fixed6 x) x := by
  unfold Near fixed6
  have h := abs_sub_round (x * 10 ^ 6)
  have e : (round (x * 10 ^ 6) : ℝ) / 10 ^ 6 - x = -(x * 10 ^ 6 - round (x * 10 ^ 6)) / 10 ^ 6 := by field_simp; ring
  rw [e, abs_div, abs_neg, abs_of_pos (by norm_num : (0 : ℝ) < 10 ^ 6)]
  exact div_le_div_of_nonneg_right h (by norm_num)

theorem fixed6_exact {x : ℝ} (h : SixDecimals x) : fixed6 x = x := by
  obtain ⟨n, rfl⟩ := h
  unfold fixed6
  rw [div_mul_cancel₀ _ (by norm_num : (10 : ℝ) ^ 6 ≠ 0), round_intCast]

theorem near_max {a b c : ℝ} (h : Near a b) (hc : c ≤ b) : Near (max c a) b := by
  unfold Near at *
  rw [abs_le] at *
  rcases max_choice c a with e | e
  · have := le_max_right c a
    rw [e] at *
    constructor <;> linarith [h.1, h.2]
  · rw [e]; exact h

theorem near_min {a b c : ℝ} (h : Near a b) (hc : b ≤ c) : Near (min a c) b := by
  unfold Near at *
  rw [abs_le] at *
  rcases min_choice a c with e | e
  · rw [e]; exact h
  · have := min_le_left a c
    rw [e] at *
    constructor <;> linarith [h.1, h.2]

theorem dbl_pos : 0 < dblMin := by unfold dblMin; positivity

/-- **C177.** Every setter leaves its value in range and takes a value in range as it is. -/
theorem C177_setters (s : Settings) (x : ℝ) (t : Int) (n : Nat) :
    (dblMin ≤ (s.setTolerance x).tol ∧ (dblMin ≤ x → (s.setTolerance x).tol = x)) ∧
    (dblMin ≤ (s.setThreshold x).thres ∧ (dblMin ≤ x → (s.setThreshold x).thres = x)) ∧
    (0 ≤ (s.setWidth x).bandwidth ∧ (0 ≤ x → (s.setWidth x).bandwidth = x)) ∧
    (0 ≤ (s.setRelax x).bandrelax ∧ (s.setRelax x).bandrelax ≤ 1 ∧ (0 ≤ x → x ≤ 1 → (s.setRelax x).bandrelax = x)) ∧
    (((s.setType t).dampingType = 0 ∨ (s.setType t).dampingType = 1) ∧ (t = 0 ∨ t = 1 → (s.setType t).dampingType = t)) ∧
    (1 ≤ (s.setStep n).nstep ∧ (1 ≤ n → (s.setStep n).nstep = n)) := by
  refine ⟨⟨le_max_left _ _, fun h => max_eq_right h⟩, ⟨le_max_left _ _, fun h => max_eq_right h⟩, ⟨le_max_right _ _, fun h => max_eq_left h⟩,
    ⟨le_max_left _ _, max_le zero_le_one (min_le_right _ _), fun h0 h1 => ?_⟩, ⟨?_, ?_⟩, ?_⟩
  · show max 0 (min x 1) = x
    rw [min_eq_left h1, max_eq_right h0]
  · show max 0 (min 1 t) = 0 ∨ max 0 (min 1 t) = 1
    omega
  · intro h
    show max 0 (min 1 t) = t
    omega
  · show 1 ≤ setSteps n ∧ (1 ≤ n → setSteps n = n)
    unfold setSteps
    omega

/-- what is read back from a section written by another block -/
def reread (s : Settings) : Settings := Settings.default.absorb (s.flush fun _ => none)

theorem reread_eq (s : Settings) : reread s =
    { thres := max dblMin (fixed6 s.thres)
      tol := max dblMin (max 0 (fixed6 s.tol))
      bandActive := s.bandActive
      bandwidth := if s.bandActive then max (max 0 (fixed6 s.bandwidth)) 0 else 0
      bandrelax := if s.bandActive then max 0 (min (max 0 (fixed6 s.bandrelax)) 1) else 1
      dampingActive := s.dampingActive
      dampingType := if s.dampingActive then max 0 (min 1 s.dampingType) else 0
      decay := if s.dampingActive then max 0 (fixed6 s.decay) else 1
      radius := if s.dampingActive then max 0 (fixed6 s.radius) else 0
      plateau := if s.dampingActive then max 0 (fixed6 s.plateau) else 0
      nstep := setSteps (if 1 ≤ (s.nstep : ℝ) then s.nstep else 1) } := by
  unfold reread Settings.absorb Settings.flush
  cases hb : s.bandActive <;> cases hd : s.dampingActive <;>
    simp [Section.put, via, old, bnum, Settings.setTolerance, Settings.setThreshold, Settings.setWidth, Settings.setRelax, Settings.setType,
      Settings.setStep, Settings.default]

theorem via_inv {σ : Type} {f : σ → ℝ → σ} {I : σ → Prop} (h : ∀ s v, I s → I (f s v)) (e : Option ℝ) {s : σ} (hs : I s) : I (via e f s) := by
  cases e with
  | none => exact hs
  | some v => exact h s v hs

theorem via_none {σ : Type} (f : σ → ℝ → σ) (s : σ) : via none f s = s := rfl

theorem ite_inv {σ : Type} {I : σ → Prop} {c : Prop} [Decidable c] {a b : σ} (h : c → I a) (hb : I b) : I (if c then a else b) := by
  split
  · exact h (by assumption)
  · exact hb

/-- **C177.** A fresh block that reads a section has the documented default for what the section does not have: no band, no damping, one step, tolerance 1e-12. -/
theorem C177_absent (x : Section) :
    (x "NarrowBand" = none → (Settings.default.absorb x).bandActive = false ∧ (Settings.default.absorb x).bandwidth = 0 ∧ (Settings.default.absorb x).bandrelax = 1) ∧
    (x "Damping" = none → x "Dumping" = none → (Settings.default.absorb x).dampingActive = false ∧ (Settings.default.absorb x).dampingType = 0 ∧
      (Settings.default.absorb x).decay = 1 ∧ (Settings.default.absorb x).radius = 0 ∧ (Settings.default.absorb x).plateau = 0) ∧
    (x "MultiStep" = none → (Settings.default.absorb x).nstep = 1) ∧ (x "Tolerance" = none → (Settings.default.absorb x).tol = 1e-12) := by
  refine ⟨fun h => ?_, fun h h' => ?_, fun h => ?_, fun h => ?_⟩
  · let I := fun s : Settings => s.bandActive = false ∧ s.bandwidth = 0 ∧ s.bandrelax = 1
    have h2 : I (via (x "UpdateThres") (fun s v => s.setThreshold v) (via (x "Tolerance") (fun s v => s.setTolerance (max 0 v)) Settings.default)) := by
      repeat' first | exact ⟨rfl, rfl, rfl⟩ | exact fun _ _ h => h | apply via_inv
    show I _
    unfold Settings.absorb
    simp only [h, via_none]
    have hn : ¬ (via (x "UpdateThres") (fun s v => s.setThreshold v) (via (x "Tolerance") (fun s v => s.setTolerance (max 0 v)) Settings.default)).bandActive = true := by
      rw [h2.1]; decide
    simp only [if_neg hn]
    repeat' first | exact h2 | exact fun _ _ h => h | apply via_inv | refine ite_inv (fun _ => ?_) ?_
  · let I := fun s : Settings => s.dampingActive = false ∧ s.dampingType = 0 ∧ s.decay = 1 ∧ s.radius = 0 ∧ s.plateau = 0
    have h3 : I (via (x "NarrowBand") (fun s v => { s with bandActive := decide (v ≠ 0) }) (via (x "UpdateThres") (fun s v => s.setThreshold v)
        (via (x "Tolerance") (fun s v => s.setTolerance (max 0 v)) Settings.default))) := by
      repeat' first | exact ⟨rfl, rfl, rfl, rfl, rfl⟩ | exact fun _ _ h => h | apply via_inv
    have ho : old x "Damping" "Dumping" = none := by unfold old; rw [h, h']
    show I _
    unfold Settings.absorb
    simp only [ho, via_none]
    apply via_inv
    · exact fun _ _ h => h
    generalize hB : (if (via (x "NarrowBand") (fun s v => { s with bandActive := decide (v ≠ 0) }) (via (x "UpdateThres") (fun s v => s.setThreshold v)
        (via (x "Tolerance") (fun s v => s.setTolerance (max 0 v)) Settings.default))).bandActive = true then _ else _) = B
    have h4 : I B := by
      rw [← hB]
      repeat' first | exact h3 | exact fun _ _ h => h | apply via_inv | refine ite_inv (fun _ => ?_) ?_
    rw [if_neg (by rw [h4.1]; decide)]
    exact h4
  · let I := fun s : Settings => s.nstep = 1
    show I _
    unfold Settings.absorb
    simp only [h, via_none]
    repeat' first | exact (rfl : I Settings.default) | exact fun _ _ h => h | apply via_inv | refine ite_inv (fun _ => ?_) ?_
  · let I := fun s : Settings => s.tol = 1e-12
    show I _
    unfold Settings.absorb
    simp only [h, via_none]
    repeat' first | exact (rfl : I Settings.default) | exact fun _ _ h => h | apply via_inv | refine ite_inv (fun _ => ?_) ?_

example : (Section.put (fun _ => none) "UpdateThres" 3) "NarrowBand" = none ∧ (Section.put (fun _ => none) "UpdateThres" 3) "Damping" = none := by
  constructor <;> simp [Section.put]

/-- **C177.** The old spelling of the options of the damping is read as the new one. -/
theorem C177_spelling (s : Settings) (x : Section) (h1 : x "Damping" = none) (h2 : x "DampingType" = none) (h3 : x "DampingInnerDistance" = none)
    (h4 : x "DampingOuterDistance" = none) :
    s.absorb x = s.absorb fun k => if k = "Damping" then x "Dumping" else if k = "DampingType" then x "DumpingType"
      else if k = "DampingInnerDistance" then x "DumpingInnerDistance" else if k = "DampingOuterDistance" then x "DumpingOuterDistance" else x k := by
  have ho : ∀ (k l : String) (y : Section), x k = none → y k = x l → y l = x l → old x k l = old y k l := by
    intro k l y a b c
    unfold old
    rw [a, b, c]
    cases x l <;> rfl
  unfold Settings.absorb
  rw [ho "Damping" "Dumping" _ h1 ?_ ?_, ho "DampingType" "DumpingType" _ h2 ?_ ?_, ho "DampingInnerDistance" "DumpingInnerDistance" _ h3 ?_ ?_,
    ho "DampingOuterDistance" "DumpingOuterDistance" _ h4 ?_ ?_]
  all_goals first | rfl | simp

example : (Section.put (fun _ => none) "Dumping" 1) "Damping" = none ∧ (Settings.default.absorb (Section.put (fun _ => none) "Dumping" 1)).dampingActive = true := by
  constructor <;> simp [Section.put, Settings.absorb, via, old]

/-- **C177.** Settings written and read back by a fresh block: the switches, the type and the number of steps are those, every number is the nearest with six
decimals as long as its feature is on. -/
theorem C177_roundtrip_partial {s : Settings} (h : s.Ok) :
    (reread s).bandActive = s.bandActive ∧ (reread s).dampingActive = s.dampingActive ∧ (reread s).nstep = s.nstep ∧
    Near (reread s).tol s.tol ∧ Near (reread s).thres s.thres ∧
    (s.bandActive = true → Near (reread s).bandwidth s.bandwidth ∧ Near (reread s).bandrelax s.bandrelax) ∧
    (s.dampingActive = true → (reread s).dampingType = s.dampingType ∧ Near (reread s).decay s.decay ∧ Near (reread s).radius s.radius ∧
      Near (reread s).plateau s.plateau) ∧ (reread s).Ok := by
  rw [reread_eq]
  have hn : (1 : ℝ) ≤ s.nstep := by exact_mod_cast h.nstep
  have hst : setSteps s.nstep = s.nstep := by
    have := h.nstep
    unfold setSteps
    omega
  refine ⟨rfl, rfl, ?_, ?_, ?_, ?_, ?_, ?_⟩
  · show setSteps (if 1 ≤ (s.nstep : ℝ) then s.nstep else 1) = _
    rw [if_pos hn, hst]
  · exact near_max (near_max (fixed6_near _) (le_trans dbl_pos.le h.tol)) h.tol
  · exact near_max (fixed6_near _) h.thres
  · intro hb
    simp only [hb, if_true]
    refine ⟨?_, near_max (near_min (near_max (fixed6_near _) h.relax.1) h.relax.2) h.relax.1⟩
    rw [max_comm]
    exact near_max (near_max (fixed6_near _) h.width) h.width
  · intro hd
    simp only [hd, if_true]
    refine ⟨?_, near_max (fixed6_near _) h.decay, near_max (fixed6_near _) h.radius, near_max (fixed6_near _) h.plateau⟩
    have := h.type
    omega
  · constructor <;> simp only
    · exact le_max_left _ _
    · exact le_max_left _ _
    · split
      · exact le_max_right _ _
      · exact le_rfl
    · split
      · exact ⟨le_max_left _ _, max_le zero_le_one (min_le_right _ _)⟩
      · exact ⟨zero_le_one, le_rfl⟩
    · split
      · have := h.type
        omega
      · exact Or.inl rfl
    · split
      · exact le_max_left _ _
      · exact zero_le_one
    · split
      · exact le_max_left _ _
      · exact le_rfl
    · split
      · exact le_max_left _ _
      · exact le_rfl
    · rw [if_pos hn, hst]; exact h.nstep

/-- **C177.** With six decimals and both features on nothing is lost. -/
theorem C177_exact {s : Settings} (h : s.Ok) (hb : s.bandActive = true) (hd : s.dampingActive = true)
    (h6 : ∀ x ∈ [s.thres, s.tol, s.bandwidth, s.bandrelax, s.decay, s.radius, s.plateau], SixDecimals x) : reread s = s := by
  simp only [List.mem_cons, List.not_mem_nil, or_false, forall_eq_or_imp, forall_eq] at h6
  obtain ⟨h1, h2, h3, h4, h5, h6, h7⟩ := h6
  have hn : (1 : ℝ) ≤ s.nstep := by exact_mod_cast h.nstep
  have hst : setSteps s.nstep = s.nstep := by
    have := h.nstep
    unfold setSteps
    omega
  have ht : max 0 (min 1 s.dampingType) = s.dampingType := by
    have := h.type
    omega
  rw [reread_eq, fixed6_exact h1, fixed6_exact h2, fixed6_exact h3, fixed6_exact h4, fixed6_exact h5, fixed6_exact h6, fixed6_exact h7, if_pos hn, hst, hb, hd, ht]
  simp only [if_true]
  rw [max_eq_right h.thres, max_eq_right (le_trans dbl_pos.le h.tol), max_eq_right h.tol, max_eq_right h.width, max_eq_left h.width, max_eq_right h.relax.1,
    min_eq_left h.relax.2, max_eq_right h.relax.1, max_eq_right h.decay, max_eq_right h.radius, max_eq_right h.plateau]
  cases s
  simp only at hb hd
  subst hb hd
  rfl

/-- settings of a user -/
def userSettings : Settings := ⟨1, 1e-5, true, 2, 0.5, true, 1, 2, 3, 0.25, 4⟩

theorem user_ok : userSettings.Ok := by
  have hm : dblMin ≤ 2⁻¹ ^ 20 := pow_le_pow_of_le_one (by norm_num) (by norm_num) (by norm_num)
  have h2 : (2⁻¹ : ℝ) ^ 20 ≤ 1e-5 := by norm_num
  constructor <;> simp only [userSettings] <;> first | exact le_trans hm h2 | exact le_trans (le_trans hm h2) (by norm_num) | norm_num

example : reread userSettings = userSettings := by
  apply C177_exact user_ok rfl rfl
  simp only [userSettings, List.mem_cons, List.not_mem_nil, or_false, forall_eq_or_imp, forall_eq]
  exact ⟨⟨1000000, by norm_num⟩, ⟨10, by norm_num⟩, ⟨2000000, by norm_num⟩, ⟨500000, by norm_num⟩, ⟨2000000, by norm_num⟩, ⟨3000000, by norm_num⟩,
    ⟨250000, by norm_num⟩⟩

theorem fixed_small {x : ℝ} (h0 : 0 ≤ x) (h : x * 10 ^ 6 < 1 / 2) : fixed6 x = 0 := by
  have : round (x * 10 ^ 6) = 0 := by
    rw [round_eq, Int.floor_eq_zero_iff]
    constructor
    · have : 0 ≤ x * 10 ^ 6 := by positivity
      linarith
    · linarith
  unfold fixed6
  rw [this]
  simp

/-- **C177.** Violated: the default tolerance 1e-12 is written as 0.000000 and read as the smallest normal number: the solver never meets it. -/
theorem C177_tolerance_fails : (reread Settings.default).tol = dblMin ∧ dblMin < Settings.default.tol := by
  constructor
  · rw [reread_eq]
    simp only
    have : fixed6 Settings.default.tol = 0 := fixed_small (by norm_num [Settings.default]) (by norm_num [Settings.default])
    rw [this, max_self, max_eq_left dbl_pos.le]
  · have hm : dblMin ≤ 2⁻¹ ^ 60 := pow_le_pow_of_le_one (by norm_num) (by norm_num) (by norm_num)
    have h2 : (2⁻¹ : ℝ) ^ 60 < 1e-12 := by norm_num
    exact lt_of_le_of_lt hm h2

/-- **C177.** Violated: the default update threshold of the scalar block, −1, is read as the smallest normal number. -/
theorem C177_threshold_fails : (reread Settings.default).thres = dblMin ∧ Settings.default.thres < 0 := by
  constructor
  · rw [reread_eq]
    simp only
    have : fixed6 Settings.default.thres = -1 := by
      have := fixed6_exact (x := -1) ⟨-1000000, by norm_num⟩
      exact this
    rw [this, max_eq_left]
    linarith [dbl_pos]
  · norm_num [Settings.default]

/-- **C177.** Violated: so is the one of the vector block, 1e-8: every point is taken as moving. -/
theorem C177_vector_fails : (reread { Settings.default with thres := 1e-8 }).thres = dblMin ∧ dblMin < 1e-8 := by
  constructor
  · rw [reread_eq]
    simp only
    have : fixed6 (1e-8 : ℝ) = 0 := fixed_small (by norm_num) (by norm_num)
    rw [this, max_eq_left dbl_pos.le]
  · have hm : dblMin ≤ 2⁻¹ ^ 60 := pow_le_pow_of_le_one (by norm_num) (by norm_num) (by norm_num)
    have h2 : (2⁻¹ : ℝ) ^ 60 < 1e-8 := by norm_num
    exact lt_of_le_of_lt hm h2

/-- **C177.** Violated: the numbers of a feature that is off are not written. -/
theorem C177_inactive_fails : ∃ s : Settings, s.Ok ∧ s.bandActive = false ∧ (reread s).bandwidth ≠ s.bandwidth ∧ s.dampingActive = false ∧ (reread s).radius ≠ s.radius := by
  refine ⟨{ userSettings with bandActive := false, dampingActive := false }, ?_, rfl, ?_, rfl, ?_⟩
  · obtain ⟨h1, h2, h3, h4, h5, h6, h7, h8, h9⟩ := user_ok
    exact ⟨h1, h2, h3, h4, h5, h6, h7, h8, h9⟩
  · rw [reread_eq]
    norm_num [userSettings]
  · rw [reread_eq]
    norm_num [userSettings]

end

end Verif.Lapl
