import Verif.Nas.NumProps
/-!
# C223: what remains of a coordinate written in a Nastran file
-/
namespace Verif.Nas

open Verif.Xml (Text trim blank toText isDigit digitsVal INT_MAX toText_spec trim_clean)

theorem digitsVal_lt {t : Text} (h : Digits t) : digitsVal t < 10 ^ t.length := by
  have gen : ∀ (t : Text) (x : Nat), Digits t → t.foldl (fun a c => 10 * a + (c.toNat - 48)) x < (x + 1) * 10 ^ t.length := by
    intro t
    induction t with
    | nil => intro x _; simp
    | cons c t ih =>
      intro x h
      have hc : c.toNat - 48 ≤ 9 := by
        have := h c (by simp)
        simp only [isDigit, Bool.and_eq_true, decide_eq_true_eq] at this
        have h9 : c.toNat ≤ 57 := this.2
        omega
      rw [List.foldl_cons]
      refine Nat.lt_of_lt_of_le (ih _ fun d hd => h d (List.mem_cons_of_mem _ hd)) ?_
      rw [List.length_cons, pow_succ, Nat.mul_comm (10 ^ t.length) 10, ← Nat.mul_assoc]
      exact Nat.mul_le_mul_right _ (by omega)
  have := gen t 0 h
  rwa [Nat.zero_add, Nat.one_mul] at this

theorem trim_padLeft (w : Nat) {t : Text} (h : ∀ c ∈ t, blank c = false) : trim (padLeft w t) = t := by
  rw [padLeft]
  generalize w - t.length = k
  have : (List.replicate k ' ' ++ t).dropWhile blank = t.dropWhile blank := by
    induction k with
    | zero => rfl
    | succ k ih => rw [List.replicate_succ, List.cons_append, List.dropWhile_cons]; exact ih
  rw [trim, this]
  exact trim_clean h

/-- The number. -/
def Num.value (k : Nat) (x : Num) : ℚ := signed x.neg * (x.int + x.frac / 10 ^ k)

/-- What is read of a written coordinate. -/
def readBack (long : Bool) (x : Num) : Option ℚ :=
  stod (convertVertex (trim (writeValue long (x.text (width long)))))

theorem mantissa_clean {neg : Bool} {ip fp : Text} (h1 : Digits ip) (h2 : Digits fp) :
    ∀ c ∈ mantissa neg ip fp, blank c = false := by
  intro c hc
  simp only [mantissa, List.mem_append, List.mem_cons] at hc
  rcases hc with hc | hc | rfl | hc
  · cases neg with
    | true => simp [sgn] at hc; subst hc; decide
    | false => cases hc
  · exact (digit_not (h1 c hc)).1
  · decide
  · exact (digit_not (h2 c hc)).1

theorem text_eq (k : Nat) (x : Num) : x.text k = mantissa x.neg (toText x.int) (decimals k x.frac) := rfl

/-- what is kept of a number whose integer part and point fit -/
theorem take_fits (long : Bool) (x : Num) (hfit : (sgn x.neg).length + (toText x.int).length + 1 ≤ width long) :
    (x.text (width long)).take (width long) = mantissa x.neg (toText x.int)
      (decimals (width long - 1 - (sgn x.neg).length - (toText x.int).length)
        (x.frac / 10 ^ ((sgn x.neg).length + (toText x.int).length + 1))) := by
  rw [text_eq]
  generalize hw : width long = w at *
  generalize hj : w - 1 - (sgn x.neg).length - (toText x.int).length = j
  have hk : w = j + ((sgn x.neg).length + (toText x.int).length + 1) := by omega
  have ht : w - (sgn x.neg).length - (toText x.int).length = j + 1 := by omega
  rw [mantissa, List.take_append, List.take_of_length_le (by omega), List.take_append,
    List.take_of_length_le (by omega), ht, List.take_succ_cons]
  rw [show decimals w x.frac = decimals (j + ((sgn x.neg).length + (toText x.int).length + 1)) x.frac by rw [← hk]]
  rw [decimals_take]
  rfl

/-- **C223.**  A coordinate of at most `d` digits before the point (and its sign) is read back from the file with the
decimals which fit in the field: it is at most as far from zero as it was, and by less than one unit of the last one. -/
theorem C223_near_partial (long : Bool) (x : Num) (d : Nat) (hd : 1 ≤ d) (hi : x.int < 10 ^ d)
    (hf : x.frac < 10 ^ width long) (hfit : (if x.neg then 1 else 0) + d + 1 ≤ width long) :
    ∃ r : ℚ, readBack long x = some r ∧ 0 ≤ signed x.neg * (x.value (width long) - r) ∧
      signed x.neg * (x.value (width long) - r) < 1 / 10 ^ (width long - 1 - (if x.neg then 1 else 0) - d) := by
  have hsl : (sgn x.neg).length = if x.neg then 1 else 0 := by cases x.neg <;> rfl
  have hlen := toText_length x.int d hi hd
  have hdig := toText_digits x.int
  have hdd := decimals_digits (width long - 1 - (sgn x.neg).length - (toText x.int).length)
        (x.frac / 10 ^ ((sgn x.neg).length + (toText x.int).length + 1))
  have hne : toText x.int ++ decimals (width long - 1 - (sgn x.neg).length - (toText x.int).length)
        (x.frac / 10 ^ ((sgn x.neg).length + (toText x.int).length + 1)) ≠ [] := by
    intro h
    exact (toText_spec x.int).2.2 (List.append_eq_nil_iff.1 h).1
  have hread : readBack long x = some (mantissaValue x.neg (toText x.int)
      (decimals (width long - 1 - (sgn x.neg).length - (toText x.int).length)
        (x.frac / 10 ^ ((sgn x.neg).length + (toText x.int).length + 1)))) := by
    rw [readBack, writeValue, take_fits long x (by rw [hsl]; omega), trim_padLeft _ (mantissa_clean hdig hdd)]
    exact (C224_nastran_partial x.neg _ _ 0 hdig hdd hne).2.2
  refine ⟨_, hread, ?_⟩
  have hw1 : (sgn x.neg).length + (toText x.int).length + 1 ≤ width long := by rw [hsl]; omega
  rw [← hsl] at hfit ⊢
  generalize hw : width long = w at *
  generalize (sgn x.neg).length = s at *
  have hl1 := toText_pos x.int
  generalize hL : (toText x.int).length = L at *
  generalize hj : w - 1 - s - L = j at *
  have hk : w = j + (s + L + 1) := by omega
  generalize he : s + L + 1 = e at *
  have hfj : x.frac / 10 ^ e < 10 ^ j := by
    rw [Nat.div_lt_iff_lt_mul (by positivity), ← pow_add, ← hk]; exact hf
  have hss : signed x.neg * signed x.neg = 1 := by cases x.neg <;> norm_num [signed]
  have hval : mantissaValue x.neg (toText x.int) (decimals j (x.frac / 10 ^ e)) =
      signed x.neg * ((x.int : ℚ) + ((x.frac / 10 ^ e : ℕ) : ℚ) / 10 ^ j) := by
    rw [mantissaValue, digitsVal_append, decimals_length, (toText_spec _).1, decimals_val _ _ hfj]
    push_cast
    have : (10 : ℚ) ^ j ≠ 0 := by positivity
    rw [add_div, mul_div_assoc, div_self this, mul_one]
  have hdiff : signed x.neg * (x.value w - mantissaValue x.neg (toText x.int) (decimals j (x.frac / 10 ^ e))) =
      (x.frac : ℚ) / 10 ^ w - ((x.frac / 10 ^ e : ℕ) : ℚ) / 10 ^ j := by
    rw [hval, Num.value]
    have : signed x.neg * (signed x.neg * ((x.int : ℚ) + x.frac / 10 ^ w) -
        signed x.neg * ((x.int : ℚ) + ((x.frac / 10 ^ e : ℕ) : ℚ) / 10 ^ j)) =
        (signed x.neg * signed x.neg) * ((x.frac : ℚ) / 10 ^ w - ((x.frac / 10 ^ e : ℕ) : ℚ) / 10 ^ j) := by ring
    rw [this, hss, one_mul]
  have hdm : (x.frac : ℚ) = 10 ^ e * ((x.frac / 10 ^ e : ℕ) : ℚ) + ((x.frac % 10 ^ e : ℕ) : ℚ) := by
    have := Nat.div_add_mod x.frac (10 ^ e)
    exact_mod_cast this.symm
  have hml : ((x.frac % 10 ^ e : ℕ) : ℚ) < 10 ^ e := by
    have := Nat.mod_lt x.frac (show 0 < 10 ^ e by positivity)
    exact_mod_cast this
  have hm0 : (0 : ℚ) ≤ ((x.frac % 10 ^ e : ℕ) : ℚ) := Nat.cast_nonneg _
  have hpe : (0 : ℚ) < 10 ^ e := by positivity
  have hpj : (0 : ℚ) < 10 ^ j := by positivity
  have hval2 : (x.frac : ℚ) / 10 ^ w - ((x.frac / 10 ^ e : ℕ) : ℚ) / 10 ^ j = ((x.frac % 10 ^ e : ℕ) : ℚ) / (10 ^ j * 10 ^ e) := by
    rw [hk, pow_add, hdm]
    generalize ((x.frac % 10 ^ e : ℕ) : ℚ) = m
    have hcast : ((x.frac / 10 ^ e : ℕ) : ℚ) = ((x.frac / 10 ^ e : ℕ) : ℚ) := rfl
    generalize ((x.frac / 10 ^ e : ℕ) : ℚ) = q at *
    field_simp
    ring
  rw [hdiff, hval2]
  constructor
  · exact div_nonneg hm0 (by positivity)
  · have hjd : w - 1 - s - d ≤ j := by omega
    have h1 : ((x.frac % 10 ^ e : ℕ) : ℚ) / (10 ^ j * 10 ^ e) < 1 / 10 ^ j := by
      rw [div_lt_div_iff₀ (by positivity) hpj]
      nlinarith
    have h2 : (1 : ℚ) / 10 ^ j ≤ 1 / 10 ^ (w - 1 - s - d) := by
      rw [div_le_div_iff₀ hpj (by positivity), one_mul, one_mul]
      exact pow_le_pow_right₀ (by norm_num) hjd
    linarith

example : (123 : Nat) < 10 ^ 3 ∧ (45678912 : Nat) < 10 ^ width false ∧
    ((if (⟨true, 123, 45678912⟩ : Num).neg then 1 else 0) + 3 + 1 ≤ width false) := by decide

/-- **C223, violated.**  When the integer part does not fit in the field, the last digits are cut and the number read is at
most a tenth of the one written. -/
theorem C223_large_fails (long : Bool) (x : Num) (hbig : 10 ^ (width long - if x.neg then 1 else 0) ≤ x.int) :
    ∃ r : ℚ, readBack long x = some r ∧ 10 * (signed x.neg * r) ≤ signed x.neg * x.value (width long) := by
  have hdig := toText_digits x.int
  have hsl : (sgn x.neg).length = if x.neg then 1 else 0 := by cases x.neg <;> rfl
  rw [← hsl] at hbig
  have hs1 : (sgn x.neg).length + 1 ≤ width long := by
    cases x.neg <;> cases long <;> decide
  generalize hmm : width long - (sgn x.neg).length = m at hbig
  have hlt := digitsVal_lt hdig
  rw [(toText_spec _).1] at hlt
  have hL : m < (toText x.int).length := by
    by_contra hle
    have : 10 ^ (toText x.int).length ≤ 10 ^ m := Nat.pow_le_pow_right (by omega) (by omega)
    omega
  have htake : (x.text (width long)).take (width long) = sgn x.neg ++ (toText x.int).take m := by
    rw [text_eq, mantissa, List.take_append, List.take_of_length_le (by omega), hmm,
      List.take_append_of_le_length (by omega)]
  have hdt : Digits ((toText x.int).take m) := fun c hc => hdig c (List.mem_of_mem_take hc)
  have hne : (toText x.int).take m ≠ [] := by
    intro h
    have := congrArg List.length h
    rw [List.length_take, List.length_nil] at this
    omega
  have hclean : ∀ c ∈ sgn x.neg ++ (toText x.int).take m, blank c = false := by
    intro c hc
    rw [List.mem_append] at hc
    rcases hc with hc | hc
    · cases hn : x.neg with
      | true => rw [hn] at hc; simp [sgn] at hc; subst hc; decide
      | false => rw [hn] at hc; cases hc
    · exact (digit_not (hdt c hc)).1
  have hnm := digits_not_mem hdt
  refine ⟨signed x.neg * (digitsVal ((toText x.int).take m) : ℚ), ?_, ?_⟩
  · rw [readBack, writeValue, htake, trim_padLeft _ hclean, convert_none _ _ hnm.1 hnm.2, stod_plain _ _ hdt hne]
  · have hss : signed x.neg * signed x.neg = 1 := by cases x.neg <;> norm_num [signed]
    have h1 : signed x.neg * (signed x.neg * (digitsVal ((toText x.int).take m) : ℚ)) =
        (digitsVal ((toText x.int).take m) : ℚ) := by rw [← mul_assoc, hss, one_mul]
    have h2 : signed x.neg * x.value (width long) = (x.int : ℚ) + x.frac / 10 ^ width long := by
      rw [Num.value, ← mul_assoc, hss, one_mul]
    rw [h1, h2]
    have h3 : 10 * digitsVal ((toText x.int).take m) ≤ x.int := by
      have := digitsVal_append ((toText x.int).take m) ((toText x.int).drop m)
      rw [List.take_append_drop, (toText_spec _).1, List.length_drop] at this
      have h10 : 10 ≤ 10 ^ ((toText x.int).length - m) := by
        calc 10 = 10 ^ 1 := rfl
          _ ≤ _ := Nat.pow_le_pow_right (by omega) (by omega)
      have := Nat.mul_le_mul_left (digitsVal ((toText x.int).take m)) h10
      omega
    have h4 : (10 : ℚ) * (digitsVal ((toText x.int).take m) : ℚ) ≤ x.int := by exact_mod_cast h3
    have h5 : (0 : ℚ) ≤ x.frac / 10 ^ width long := div_nonneg (Nat.cast_nonneg _) (by positivity)
    linarith

example : 10 ^ (width false - if (⟨true, 12345678, 0⟩ : Num).neg then 1 else 0) ≤ (⟨true, 12345678, 0⟩ : Num).int := by decide

end Verif.Nas
