import Verif.Nas.Model
import Mathlib.Algebra.Order.Field.Rat
import Mathlib.Tactic.NormNum
import Mathlib.Tactic.Ring
import Mathlib.Tactic.Linarith
import Mathlib.Tactic.FieldSimp
import Mathlib.Algebra.Order.Field.Power
/-!
# C223, C224: numbers in the fields of a Nastran file
-/
namespace Verif.Nas

open Verif.Xml (Text trim blank toText isDigit digitsVal INT_MAX toText_spec trim_clean)

/-! ## Digits -/

def Digits (t : Text) : Prop := ∀ c ∈ t, isDigit c = true

theorem digit_ofNat (n : Nat) (h : n < 10) : isDigit (Char.ofNat (48 + n)) = true ∧ (Char.ofNat (48 + n)).toNat = 48 + n := by
  have : ∀ n : Fin 10, isDigit (Char.ofNat (48 + n)) = true ∧ (Char.ofNat (48 + n)).toNat = 48 + n := by decide
  exact this ⟨n, h⟩

theorem toText_digits (n : Nat) : Digits (toText n) := fun c hc => ((toText_spec n).2.1 c hc).1

theorem digit_not {c : Char} (h : isDigit c = true) : blank c = false ∧ c ≠ '-' ∧ c ≠ '+' ∧ c ≠ '.' ∧ c ≠ 'E' ∧ c ≠ '*' := by
  refine ⟨?_, ?_, ?_, ?_, ?_, ?_⟩
  · cases hb : blank c with
    | false => rfl
    | true =>
      simp only [blank, Bool.or_eq_true, beq_iff_eq] at hb
      rcases hb with ((rfl | rfl) | rfl) | rfl <;> exact absurd h (by decide)
  all_goals rintro rfl; exact absurd h (by decide)

theorem digitsVal_append (a b : Text) : digitsVal (a ++ b) = digitsVal a * 10 ^ b.length + digitsVal b := by
  have gen : ∀ (b : Text) (x : Nat), b.foldl (fun a c => 10 * a + (c.toNat - 48)) x =
      x * 10 ^ b.length + b.foldl (fun a c => 10 * a + (c.toNat - 48)) 0 := by
    intro b
    induction b with
    | nil => intro x; simp
    | cons c b ih =>
      intro x
      rw [List.foldl_cons, List.foldl_cons, ih, ih (10 * 0 + (c.toNat - 48)), List.length_cons, pow_succ]
      ring
  rw [digitsVal, List.foldl_append, gen]
  rfl

theorem takeWhile_digits {a b : Text} (ha : Digits a) (hb : ∀ c ∈ b.head?, isDigit c = false) :
    (a ++ b).takeWhile isDigit = a ∧ (a ++ b).dropWhile isDigit = b := by
  induction a with
  | nil =>
    cases b with
    | nil => exact ⟨rfl, rfl⟩
    | cons c b =>
      have := hb c (by simp)
      simp [this]
  | cons c a ih =>
    have hc : isDigit c = true := ha c (by simp)
    obtain ⟨h1, h2⟩ := ih fun d hd => ha d (List.mem_cons_of_mem _ hd)
    simp [hc, h1, h2]

theorem decimals_digits (k f : Nat) : Digits (decimals k f) := by
  induction k generalizing f with
  | zero => intro c hc; cases hc
  | succ k ih =>
    intro c hc
    rw [decimals, List.mem_append] at hc
    rcases hc with hc | hc
    · exact ih _ c hc
    · rw [List.mem_singleton] at hc
      subst hc
      exact (digit_ofNat _ (Nat.mod_lt _ (by omega))).1

theorem decimals_length (k f : Nat) : (decimals k f).length = k := by
  induction k generalizing f with
  | zero => rfl
  | succ k ih => rw [decimals, List.length_append, ih]; rfl

theorem decimals_val (k f : Nat) (h : f < 10 ^ k) : digitsVal (decimals k f) = f := by
  induction k generalizing f with
  | zero => have : f = 0 := by simpa using h
            subst this; rfl
  | succ k ih =>
    rw [decimals, digitsVal_append, ih (f / 10) (by rw [pow_succ] at h; omega)]
    have : digitsVal [Char.ofNat (48 + f % 10)] = f % 10 := by
      have := (digit_ofNat (f % 10) (Nat.mod_lt _ (by omega))).2
      simp [digitsVal, this]
    rw [this]
    simp
    omega

theorem decimals_take (j d f : Nat) : (decimals (j + d) f).take j = decimals j (f / 10 ^ d) := by
  induction d generalizing f with
  | zero => rw [pow_zero, Nat.div_one, List.take_of_length_le (by rw [decimals_length]; omega)]; rfl
  | succ d ih =>
    have : j + (d + 1) = (j + d) + 1 := rfl
    rw [this, decimals, List.take_append_of_le_length (by rw [decimals_length]; omega), ih, Nat.div_div_eq_div_mul,
      pow_succ, Nat.mul_comm]

theorem toText_length (n k : Nat) (h : n < 10 ^ k) (hk : 1 ≤ k) : (toText n).length ≤ k := by
  induction k generalizing n with
  | zero => omega
  | succ k ih =>
    rw [toText]
    split
    · simp
    · rw [List.length_append]
      have := ih (n / 10) (by rw [pow_succ] at h; omega) (by
        rcases k with _ | k
        · simp at h; omega
        · omega)
      simp
      omega

theorem toText_pos (n : Nat) : 1 ≤ (toText n).length := by
  have := (toText_spec n).2.2
  cases h : toText n with
  | nil => exact absurd h this
  | cons c t => simp

/-! ## Reading a number -/

def sgn (neg : Bool) : Text := if neg then ['-'] else []

def signed (neg : Bool) : ℚ := if neg then -1 else 1

theorem splitSign_sgn (neg : Bool) (u : Text) (h : ∀ c ∈ u.head?, isDigit c = true ∨ c = '.') :
    splitSign ((sgn neg ++ u).dropWhile blank) = (neg, u) := by
  cases neg with
  | true => rfl
  | false =>
    cases u with
    | nil => rfl
    | cons c u =>
      have hc : blank c = false ∧ c ≠ '-' ∧ c ≠ '+' := by
        rcases h c (by simp) with h | rfl
        · exact ⟨(digit_not h).1, (digit_not h).2.1, (digit_not h).2.2.1⟩
        · decide
      simp only [sgn, Bool.false_eq_true, if_false, List.nil_append, List.dropWhile_cons, hc.1]
      unfold splitSign
      split
      · next h => exact absurd (List.cons.inj h).1 hc.2.1
      · next h => exact absurd (List.cons.inj h).1 hc.2.2
      · rfl

theorem stod_mantissa (neg : Bool) (ip fp tail : Text) (h1 : Digits ip) (h2 : Digits fp) (hne : ip ++ fp ≠ [])
    (ht : ∀ c ∈ tail.head?, isDigit c = false) :
    stod (sgn neg ++ (ip ++ '.' :: (fp ++ tail))) =
      some (signed neg * ((digitsVal (ip ++ fp) : ℚ) / 10 ^ fp.length) * 10 ^ exponent tail) := by
  have hsep := takeWhile_digits (a := ip) (b := '.' :: (fp ++ tail)) h1 (by intro c hc; cases hc; decide)
  have htl := takeWhile_digits (a := fp) (b := tail) h2 ht
  have hs := splitSign_sgn neg (ip ++ '.' :: (fp ++ tail)) (by
    cases ip with
    | nil => intro c hc; cases hc; exact Or.inr rfl
    | cons d ip => intro c hc; cases hc; exact Or.inl (h1 _ (by simp)))
  unfold stod
  simp only [hs, hsep.1, hsep.2, fraction, htl.1, htl.2]
  rw [if_neg hne]
  rfl

/-- the same without a point -/
theorem stod_plain (neg : Bool) (ip : Text) (h1 : Digits ip) (hne : ip ≠ []) :
    stod (sgn neg ++ ip) = some (signed neg * (digitsVal ip : ℚ)) := by
  have hsep := takeWhile_digits (a := ip) (b := []) h1 (by intro c hc; cases hc)
  rw [List.append_nil] at hsep
  have hs := splitSign_sgn neg ip (by
    cases ip with
    | nil => exact absurd rfl hne
    | cons d ip => intro c hc; cases hc; exact Or.inl (h1 _ (by simp)))
  unfold stod
  simp only [hs, hsep.1, hsep.2, fraction, List.append_nil]
  rw [if_neg hne]
  simp [exponent, signed]

theorem stoi_blank (k n : Nat) (h : n ≤ INT_MAX) : stoi (List.replicate k ' ' ++ toText n) = some (n : Int) := by
  have hd : (List.replicate k ' ' ++ toText n).dropWhile blank = (sgn false ++ toText n).dropWhile blank := by
    induction k with
    | zero => rfl
    | succ k ih => rw [List.replicate_succ, List.cons_append, List.dropWhile_cons]; exact ih
  have hs := splitSign_sgn false (toText n) (by
    intro c hc
    exact Or.inl (toText_digits n c (List.mem_of_mem_head? hc)))
  have hw := (takeWhile_digits (a := toText n) (b := []) (toText_digits n) (by intro c hc; cases hc)).1
  rw [List.append_nil] at hw
  have ht := toText_spec n
  unfold stoi
  rw [hd]
  simp only [hs, hw]
  rw [if_neg ht.2.2, ht.1, if_pos h]
  rfl

/-! ## Exponents -/

theorem lastIdx_none {c : Char} {t : Text} (h : c ∉ t) : lastIdx c t = none := by
  induction t with
  | nil => rfl
  | cons x t ih =>
    rw [lastIdx, ih fun hm => h (List.mem_cons_of_mem _ hm)]
    exact if_neg fun e => h (by rw [← e]; simp)

theorem lastIdx_at {c : Char} (a t : Text) (h : c ∉ t) : lastIdx c (a ++ c :: t) = some a.length := by
  induction a with
  | nil => rw [List.nil_append, lastIdx, lastIdx_none h]; exact if_pos rfl
  | cons x a ih => rw [List.cons_append, lastIdx, ih]; rfl

theorem insertE_at (a t : Text) : insertE (a ++ t) a.length = a ++ 'E' :: t := by
  rw [insertE, List.take_left' rfl, List.drop_left' rfl]

theorem digits_not_mem {t : Text} (h : Digits t) : '-' ∉ t ∧ '+' ∉ t :=
  ⟨fun hm => (digit_not (h _ hm)).2.1 rfl, fun hm => (digit_not (h _ hm)).2.2.1 rfl⟩

/-- A mantissa: a sign, digits, a point, digits. -/
def mantissa (neg : Bool) (ip fp : Text) : Text := sgn neg ++ (ip ++ '.' :: fp)

def mantissaValue (neg : Bool) (ip fp : Text) : ℚ := signed neg * ((digitsVal (ip ++ fp) : ℚ) / 10 ^ fp.length)

theorem mantissa_ne (neg : Bool) (ip fp : Text) : ∃ n, (mantissa neg ip fp).length = n + 1 := by
  refine ⟨(sgn neg).length + ip.length + fp.length, ?_⟩
  simp [mantissa]; omega

theorem convert_minus (m t : Text) (hm : ∃ n, m.length = n + 1) (ht : '-' ∉ t) :
    convertVertex (m ++ '-' :: t) = m ++ 'E' :: '-' :: t := by
  obtain ⟨n, hn⟩ := hm
  rw [convertVertex, lastIdx_at m t ht, hn]
  simp only
  rw [← hn, insertE_at]

theorem lastIdx_lead (neg : Bool) (rest : Text) (h : '-' ∉ rest) :
    lastIdx '-' (sgn neg ++ rest) = none ∨ lastIdx '-' (sgn neg ++ rest) = some 0 := by
  cases neg with
  | true => exact Or.inr (lastIdx_at [] rest h)
  | false => exact Or.inl (lastIdx_none (by simpa [sgn] using h))

theorem convert_plus (neg : Bool) (m t : Text) (hm : ∃ n, (sgn neg ++ m).length = n + 1) (h1 : '-' ∉ m) (h2 : '-' ∉ t)
    (h3 : '+' ∉ t) : convertVertex (sgn neg ++ m ++ '+' :: t) = sgn neg ++ m ++ 'E' :: '+' :: t := by
  obtain ⟨n, hn⟩ := hm
  have hl : '-' ∉ m ++ '+' :: t := by
    rw [List.mem_append, List.mem_cons]
    rintro (h | h | h)
    · exact h1 h
    · exact absurd h (by decide)
    · exact h2 h
  have h := lastIdx_lead neg (m ++ '+' :: t) hl
  rw [← List.append_assoc] at h
  rw [convertVertex, lastIdx_at (sgn neg ++ m) t h3, hn]
  rcases h with h | h <;> rw [h] <;> simp only <;> rw [← hn, insertE_at]

theorem convert_none (neg : Bool) (m : Text) (h1 : '-' ∉ m) (h2 : '+' ∉ m) : convertVertex (sgn neg ++ m) = sgn neg ++ m := by
  have hp : '+' ∉ sgn neg ++ m := by
    cases neg <;> simp [sgn, h2]
  rw [convertVertex, lastIdx_none hp]
  rcases lastIdx_lead neg m h1 with h | h <;> rw [h]

theorem frame_not_mem {ip fp : Text} (h1 : Digits ip) (h2 : Digits fp) : '-' ∉ ip ++ '.' :: fp ∧ '+' ∉ ip ++ '.' :: fp := by
  constructor
  · rw [List.mem_append, List.mem_cons]
    rintro (h | h | h)
    · exact (digits_not_mem h1).1 h
    · exact absurd h (by decide)
    · exact (digits_not_mem h2).1 h
  · rw [List.mem_append, List.mem_cons]
    rintro (h | h | h)
    · exact (digits_not_mem h1).2 h
    · exact absurd h (by decide)
    · exact (digits_not_mem h2).2 h

/-- **C224.**  A coordinate written as Nastran does, a mantissa with a point followed by a signed exponent without a
letter, or by none, is read as the number it stands for. -/
theorem C224_nastran_partial (neg : Bool) (ip fp : Text) (e : Nat) (h1 : Digits ip) (h2 : Digits fp)
    (hne : ip ++ fp ≠ []) :
    stod (convertVertex (mantissa neg ip fp ++ '-' :: toText e)) = some (mantissaValue neg ip fp / 10 ^ e) ∧
    stod (convertVertex (mantissa neg ip fp ++ '+' :: toText e)) = some (mantissaValue neg ip fp * 10 ^ e) ∧
    stod (convertVertex (mantissa neg ip fp)) = some (mantissaValue neg ip fp) := by
  have he := digits_not_mem (toText_digits e)
  have hf := frame_not_mem h1 h2
  have htw : (toText e).takeWhile isDigit = toText e := by
    have := (takeWhile_digits (a := toText e) (b := []) (toText_digits e) (by intro c hc; cases hc)).1
    rwa [List.append_nil] at this
  have hv := (toText_spec e).1
  refine ⟨?_, ?_, ?_⟩
  · rw [convert_minus _ _ (mantissa_ne neg ip fp) he.1]
    have : mantissa neg ip fp ++ 'E' :: '-' :: toText e = sgn neg ++ (ip ++ '.' :: (fp ++ 'E' :: '-' :: toText e)) := by
      simp [mantissa]
    rw [this, stod_mantissa neg ip fp _ h1 h2 hne (by intro c hc; cases hc; decide)]
    rw [exponent, htw, hv, zpow_neg, zpow_natCast, mantissaValue, div_eq_mul_inv _ ((10 : ℚ) ^ e)]
  · rw [mantissa, convert_plus neg _ _ (mantissa_ne neg ip fp) hf.1 he.1 he.2]
    have : sgn neg ++ (ip ++ '.' :: fp) ++ 'E' :: '+' :: toText e = sgn neg ++ (ip ++ '.' :: (fp ++ 'E' :: '+' :: toText e)) := by
      simp
    rw [this, stod_mantissa neg ip fp _ h1 h2 hne (by intro c hc; cases hc; decide)]
    rw [exponent, htw, hv, zpow_natCast, mantissaValue]
  · rw [mantissa, convert_none neg _ hf.1 hf.2]
    have := stod_mantissa neg ip fp [] h1 h2 hne (by intro c hc; cases hc)
    rw [List.append_nil] at this
    rw [this]
    simp [exponent, mantissaValue]

example : Digits ['1'] ∧ Digits ['2', '5'] ∧ mantissa true ['1'] ['2', '5'] = "-1.25".toList := by
  refine ⟨by unfold Digits; decide, by unfold Digits; decide, by decide⟩

/-- **C224, violated.**  A number with the letter of the exponent, which Nastran allows too, loses its exponent. -/
theorem C224_letter_fails (neg : Bool) (ip fp : Text) (e : Nat) (h1 : Digits ip) (h2 : Digits fp)
    (hne : ip ++ fp ≠ []) :
    stod (convertVertex (mantissa neg ip fp ++ 'E' :: '-' :: toText e)) = some (mantissaValue neg ip fp) ∧
    stod (convertVertex (mantissa neg ip fp ++ 'E' :: '+' :: toText e)) = some (mantissaValue neg ip fp) := by
  have he := digits_not_mem (toText_digits e)
  have hf := frame_not_mem h1 h2
  constructor
  · have e1 : mantissa neg ip fp ++ 'E' :: '-' :: toText e = (mantissa neg ip fp ++ ['E']) ++ '-' :: toText e := by simp
    rw [e1, convert_minus _ _ ⟨(mantissa neg ip fp).length, by simp⟩ he.1]
    have : mantissa neg ip fp ++ ['E'] ++ 'E' :: '-' :: toText e =
        sgn neg ++ (ip ++ '.' :: (fp ++ 'E' :: 'E' :: '-' :: toText e)) := by simp [mantissa]
    rw [this, stod_mantissa neg ip fp _ h1 h2 hne (by intro c hc; cases hc; decide)]
    have : exponent ('E' :: 'E' :: '-' :: toText e) = 0 := rfl
    rw [this]
    simp [mantissaValue]
  · have e1 : mantissa neg ip fp ++ 'E' :: '+' :: toText e = sgn neg ++ ((ip ++ '.' :: fp) ++ ['E']) ++ '+' :: toText e := by
      simp [mantissa]
    rw [e1, convert_plus neg _ _ ⟨(sgn neg ++ (ip ++ '.' :: fp)).length, by simp; omega⟩ (by
      rw [List.mem_append]
      rintro (h | h)
      · exact hf.1 h
      · exact absurd h (by decide)) he.1 he.2]
    have : sgn neg ++ ((ip ++ '.' :: fp) ++ ['E']) ++ 'E' :: '+' :: toText e =
        sgn neg ++ (ip ++ '.' :: (fp ++ 'E' :: 'E' :: '+' :: toText e)) := by simp
    rw [this, stod_mantissa neg ip fp _ h1 h2 hne (by intro c hc; cases hc; decide)]
    have : exponent ('E' :: 'E' :: '+' :: toText e) = 0 := rfl
    rw [this]
    simp [mantissaValue]

end Verif.Nas
