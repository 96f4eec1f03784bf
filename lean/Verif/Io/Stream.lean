import Verif.Create.Xml
/-
Model of the reading of text from streams, as the classes of src/iogeneric use it.

The C++ standard library is external: this is the behaviour of `std::getline` and of the extractions `>>` of words, characters, whole
numbers and floating point numbers in the "C" locale, with the end-of-file and fail bits.  The bad bit (errors of the device) is not
modelled.  Which floating point number a text denotes, and the text a floating point number is written as, are parameters (`Fmt`).
-/
namespace Verif.Io
open Verif.Xml Verif.Create List

/-- white space skipped before an extraction (`isspace`) -/
def space (c : Char) : Bool := blank c || c == Char.ofNat 11 || c == Char.ofNat 12

/-- an input stream: what is left, the end-of-file bit and the fail bit -/
structure In where
  rest : Text
  eof : Bool := false
  fail : Bool := false
deriving DecidableEq

/-- `good()` -/
def In.good (s : In) : Bool := !s.eof && !s.fail

/-- the beginning of each extraction: white space is skipped; nothing is extracted when nothing else is left or a bit is set -/
def In.ready (s : In) : Bool × In :=
  if s.good then
    let r := s.rest.dropWhile space
    if r = [] then (false, ⟨[], true, true⟩) else (true, { s with rest := r })
  else (false, { s with fail := true })

/-- `>> std::string`: `none` when the variable is left as it was -/
def In.word (s : In) : Option Text × In :=
  let q := s.ready
  if q.1 then
    let r := q.2.rest.dropWhile (fun c => !space c)
    (some (q.2.rest.takeWhile (fun c => !space c)), ⟨r, r.isEmpty, false⟩)
  else (none, q.2)

/-- `>> char` -/
def In.char (s : In) : Option Char × In :=
  let q := s.ready
  if q.1 then (q.2.rest.head?, { q.2 with rest := q.2.rest.tail }) else (none, q.2)

/-- the sign and what follows it -/
def signOf : Text → Bool × Text
  | '-' :: u => (true, u)
  | '+' :: u => (false, u)
  | u => (false, u)

/-- `>> int`, `>> long`: 0 without digits, the nearest number of the type outside its range, with the fail bit in both cases -/
def In.whole (lo hi : Int) (s : In) : Option Int × In :=
  let q := s.ready
  if q.1 then
    let u := signOf q.2.rest
    let ds := u.2.takeWhile isDigit
    let r := u.2.dropWhile isDigit
    let v : Int := if u.1 then -(digitsVal ds : Int) else digitsVal ds
    (some (max lo (min hi v)), ⟨r, r.isEmpty, ds.isEmpty || decide (v < lo) || decide (hi < v)⟩)
  else (none, q.2)

def LONG_MIN : Int := -9223372036854775808
def LONG_MAX : Int := 9223372036854775807

/-- `>> long` -/
def In.long (s : In) : Option Int × In := s.whole LONG_MIN LONG_MAX

/-- the characters gathered for a floating point number: digits, one point before the exponent, one exponent after the first digit, a sign
directly after it; the flags tell that a point, an exponent, a digit was seen and that a sign may follow -/
def numGo : Bool → Bool → Bool → Bool → Text → Text × Text
  | _, _, _, _, [] => ([], [])
  | d, e, m, g, c :: t =>
    if isDigit c then let r := numGo d e true false t; (c :: r.1, r.2)
    else if (c = '+' ∨ c = '-') ∧ g = true then let r := numGo d e m false t; (c :: r.1, r.2)
    else if c = '.' ∧ d = false ∧ e = false then let r := numGo true e m false t; (c :: r.1, r.2)
    else if (c = 'e' ∨ c = 'E') ∧ e = false ∧ m = true then let r := numGo d true m true t; (c :: r.1, r.2)
    else ([], c :: t)

/-- with the sign in front -/
def numSpan : Text → Text × Text
  | '-' :: u => let r := numGo false false false false u; ('-' :: r.1, r.2)
  | '+' :: u => let r := numGo false false false false u; ('+' :: r.1, r.2)
  | u => numGo false false false false u

/-- floating point numbers: `zero`, the text written by `<<`, and the number a text denotes, true when it denotes none -/
structure Fmt (D : Type) where
  zero : D
  put : D → Text
  val : Text → D × Bool

variable {D : Type}

/-- the number read from the text a number is written as: the number rounded to the precision of the stream -/
def Fmt.round (F : Fmt D) (d : D) : D := (F.val (F.put d)).1

/-- `>> double` -/
def In.num (F : Fmt D) (s : In) : Option D × In :=
  let q := s.ready
  if q.1 then
    let p := numSpan q.2.rest
    let v := F.val p.1
    (some v.1, ⟨p.2, p.2.isEmpty, v.2⟩)
  else (none, q.2)

/-- the texts that `std::getline` gives until the end-of-file bit is set -/
def linesOf : Text → List Text
  | [] => [[]]
  | c :: t =>
    if c = '\n' then [] :: linesOf t
    else match linesOf t with
      | [] => [[c]]
      | l :: ls => (c :: l) :: ls

/-! ### Specification of numbers in texts -/

/-- a sign or none -/
def IsSign (t : Text) : Prop := t = [] ∨ t = ['-'] ∨ t = ['+']

/-- a floating point number: sign, digits, point and digits, exponent -/
def IsNumber (t : Text) : Prop :=
  ∃ sg i f e, t = sg ++ (i ++ (f ++ e)) ∧ IsSign sg ∧ i ≠ [] ∧ (∀ c ∈ i, isDigit c = true) ∧
    (f = [] ∨ ∃ ds, f = '.' :: ds ∧ ∀ c ∈ ds, isDigit c = true) ∧
    (e = [] ∨ ∃ x ds, e = 'e' :: x :: ds ∧ (x = '+' ∨ x = '-') ∧ ds ≠ [] ∧ ∀ c ∈ ds, isDigit c = true)

/-- what may follow a number: nothing, white space or a comma -/
def Stops (t : Text) : Prop := t = [] ∨ ∃ c u, t = c :: u ∧ (space c = true ∨ c = ',')

/-- the number `d` is written as a number that can be read -/
def Prints (F : Fmt D) (d : D) : Prop := IsNumber (F.put d) ∧ (F.val (F.put d)).2 = false

/-! ### Lemmas -/

theorem digit_not_space {c : Char} (h : isDigit c = true) : space c = false := by
  unfold isDigit at h
  unfold space blank
  simp only [Bool.and_eq_true, decide_eq_true_eq] at h
  have ne : ∀ x : Char, x.toNat < 48 → c ≠ x := by
    rintro x hx rfl; omega
  simp only [beq_eq_false_iff_ne.2 (ne ' ' (by decide)), beq_eq_false_iff_ne.2 (ne '\t' (by decide)), beq_eq_false_iff_ne.2 (ne '\n' (by decide)),
    beq_eq_false_iff_ne.2 (ne '\r' (by decide)), beq_eq_false_iff_ne.2 (ne (Char.ofNat 11) (by decide)),
    beq_eq_false_iff_ne.2 (ne (Char.ofNat 12) (by decide)), Bool.or_false]

theorem go_digits : ∀ (ds : Text), (∀ c ∈ ds, isDigit c = true) → ∀ (d e m g : Bool) (t : Text), ds ≠ [] →
    numGo d e m g (ds ++ t) = (ds ++ (numGo d e true false t).1, (numGo d e true false t).2) := by
  intro ds
  induction ds with
  | nil => intro _ d e m g t h; exact absurd rfl h
  | cons c ds ih =>
    intro h d e m g t _
    rw [cons_append, numGo, if_pos (h c mem_cons_self)]
    cases ds with
    | nil => rfl
    | cons x ds =>
      simp only [ih (fun c hc => h c (mem_cons_of_mem _ hc)) d e true false t (by simp)]
      rfl

theorem go_stop {t : Text} (h : Stops t) (d e m g : Bool) : numGo d e m g t = ([], t) := by
  rcases h with rfl | ⟨c, u, rfl, hc⟩
  · rfl
  · have h1 : isDigit c = false := by
      rcases hc with hc | rfl
      · cases hd : isDigit c with
        | false => rfl
        | true => rw [digit_not_space hd] at hc; exact absurd hc (by simp)
      · decide
    have ne : ∀ x : Char, space x = false → x ≠ ',' → c ≠ x := by
      rintro x h1 h2 rfl
      rcases hc with hc | hc
      · rw [h1] at hc; exact absurd hc (by simp)
      · exact h2 hc
    rw [numGo, if_neg (by simp [h1]),
      if_neg (by rintro ⟨rfl | rfl, -⟩; exacts [ne '+' (by decide) (by decide) rfl, ne '-' (by decide) (by decide) rfl]),
      if_neg (by rintro ⟨rfl, -⟩; exact ne '.' (by decide) (by decide) rfl),
      if_neg (by rintro ⟨rfl | rfl, -⟩; exacts [ne 'e' (by decide) (by decide) rfl, ne 'E' (by decide) (by decide) rfl])]

theorem go_number {i f e t : Text} (hi : i ≠ []) (hd : ∀ c ∈ i, isDigit c = true)
    (hf : f = [] ∨ ∃ ds, f = '.' :: ds ∧ ∀ c ∈ ds, isDigit c = true)
    (he : e = [] ∨ ∃ x ds, e = 'e' :: x :: ds ∧ (x = '+' ∨ x = '-') ∧ ds ≠ [] ∧ ∀ c ∈ ds, isDigit c = true) (ht : Stops t) :
    numGo false false false false (i ++ (f ++ e) ++ t) = (i ++ (f ++ e), t) := by
  have hx : ∀ d, numGo d false true false (e ++ t) = (e, t) := by
    intro d
    rcases he with rfl | ⟨x, ds, rfl, hs, hn, hds⟩
    · exact go_stop ht _ _ _ _
    · have hxd : isDigit x = false := by rcases hs with rfl | rfl <;> decide
      rw [cons_append, cons_append, numGo, if_neg (by decide), if_neg (by rintro ⟨h, -⟩; exact absurd h (by decide)),
        if_neg (by rintro ⟨h, -⟩; exact absurd h (by decide)), if_pos ⟨.inl rfl, rfl, rfl⟩, numGo, if_neg (by simp [hxd]), if_pos ⟨hs, rfl⟩,
        go_digits ds hds _ _ _ _ _ hn]
      simp [go_stop ht]
  rw [append_assoc, go_digits i hd _ _ _ _ _ hi]
  rcases hf with rfl | ⟨ds, rfl, hds⟩
  · simp [hx]
  · rw [cons_append, cons_append, numGo, if_neg (by decide), if_neg (by rintro ⟨h, -⟩; exact absurd h (by decide)), if_pos ⟨rfl, rfl, rfl⟩]
    by_cases hn : ds = []
    · subst hn; simp [hx]
    · rw [append_assoc, go_digits ds hds _ _ _ _ _ hn]
      simp [hx]

theorem sign_digit {c : Char} (h : isDigit c = true) : c ≠ '-' ∧ c ≠ '+' := by
  constructor <;> (rintro rfl; exact absurd h (by decide))

/-- a number is gathered as a whole -/
theorem span_number {n t : Text} (hn : IsNumber n) (ht : Stops t) : numSpan (n ++ t) = (n, t) := by
  obtain ⟨sg, i, f, e, rfl, hs, hi, hd, hf, he⟩ := hn
  have key := go_number hi hd hf he ht
  rcases hs with rfl | rfl | rfl
  · cases i with
    | nil => exact absurd rfl hi
    | cons c i =>
      obtain ⟨n1, n2⟩ := sign_digit (hd c mem_cons_self)
      simp only [nil_append, cons_append] at key ⊢
      unfold numSpan
      split
      · rename_i u hu; exact absurd (cons.inj hu).1 n1
      · rename_i u hu; exact absurd (cons.inj hu).1 n2
      · exact key
  · simp only [cons_append, nil_append, numSpan, key]
  · simp only [cons_append, nil_append, numSpan, key]

theorem number_head {n : Text} (h : IsNumber n) : ∃ c u, n = c :: u ∧ space c = false := by
  obtain ⟨sg, i, f, e, rfl, hs, hi, hd, hf, he⟩ := h
  rcases hs with rfl | rfl | rfl
  · cases i with
    | nil => exact absurd rfl hi
    | cons c i => exact ⟨c, _, rfl, digit_not_space (hd c mem_cons_self)⟩
  · exact ⟨'-', _, rfl, by decide⟩
  · exact ⟨'+', _, rfl, by decide⟩

theorem drop_spaces {b t : Text} (hb : ∀ c ∈ b, space c = true) : (b ++ t).dropWhile space = t.dropWhile space := by
  induction b with
  | nil => rfl
  | cons c b ih =>
    rw [cons_append, dropWhile_cons, if_pos (hb c mem_cons_self)]
    exact ih fun c hc => hb c (mem_cons_of_mem _ hc)

/-- after white space a character that is not white space is next -/
theorem ready_at {b : Text} (hb : ∀ c ∈ b, space c = true) {c : Char} (hc : space c = false) (u : Text) :
    (⟨b ++ c :: u, false, false⟩ : In).ready = (true, ⟨c :: u, false, false⟩) := by
  have : (b ++ c :: u).dropWhile space = c :: u := by rw [drop_spaces hb, dropWhile_cons, hc]; rfl
  simp [In.ready, In.good, this]

/-- reading a number -/
theorem num_at (F : Fmt D) {b : Text} (hb : ∀ c ∈ b, space c = true) {n t : Text} (hn : IsNumber n) (ht : Stops t) :
    (⟨b ++ (n ++ t), false, false⟩ : In).num F = (some (F.val n).1, ⟨t, t.isEmpty, (F.val n).2⟩) := by
  obtain ⟨c, u, rfl, hc⟩ := number_head hn
  have h := span_number hn ht
  rw [cons_append] at h ⊢
  unfold In.num
  simp only [ready_at hb hc]
  rw [if_pos trivial, h]

/-- the text of a whole number -/
def IsWhole (t : Text) (v : Int) : Prop :=
  ∃ sg ds, t = sg ++ ds ∧ IsSign sg ∧ ds ≠ [] ∧ (∀ c ∈ ds, isDigit c = true) ∧
    v = (if sg = ['-'] then -(digitsVal ds : Int) else digitsVal ds)

theorem take_digits {ds t : Text} (h : ∀ c ∈ ds, isDigit c = true) (ht : t = [] ∨ ∃ c u, t = c :: u ∧ isDigit c = false) :
    (ds ++ t).takeWhile isDigit = ds ∧ (ds ++ t).dropWhile isDigit = t := by
  induction ds with
  | nil =>
    rcases ht with rfl | ⟨c, u, rfl, hc⟩
    · exact ⟨rfl, rfl⟩
    · simp [hc]
  | cons a ds ih =>
    obtain ⟨i1, i2⟩ := ih fun c hc => h c (mem_cons_of_mem _ hc)
    rw [cons_append, takeWhile_cons, dropWhile_cons, if_pos (h a mem_cons_self), if_pos (h a mem_cons_self), i1, i2]
    exact ⟨rfl, rfl⟩

theorem stops_no_digit {t : Text} (h : Stops t) : t = [] ∨ ∃ c u, t = c :: u ∧ isDigit c = false := by
  rcases h with rfl | ⟨c, u, rfl, hc⟩
  · exact .inl rfl
  · refine .inr ⟨c, u, rfl, ?_⟩
    rcases hc with hc | rfl
    · cases hd : isDigit c with
      | false => rfl
      | true => rw [digit_not_space hd] at hc; exact absurd hc (by simp)
    · decide

/-- reading a whole number -/
theorem whole_at {b : Text} (hb : ∀ c ∈ b, space c = true) {n t : Text} {v lo hi : Int} (hn : IsWhole n v) (ht : Stops t) (h1 : lo ≤ v)
    (h2 : v ≤ hi) : (⟨b ++ (n ++ t), false, false⟩ : In).whole lo hi = (some v, ⟨t, t.isEmpty, false⟩) := by
  obtain ⟨sg, ds, rfl, hs, hne, hd, hv⟩ := hn
  obtain ⟨t1, t2⟩ := take_digits hd (stops_no_digit ht)
  have he : ds.isEmpty = false := by cases ds with
    | nil => exact absurd rfl hne
    | cons => rfl
  have fin : ∀ x : Int, x = v → (some (max lo (min hi x)), (⟨t, t.isEmpty, false || decide (x < lo) || decide (hi < x)⟩ : In)) =
      (some v, ⟨t, t.isEmpty, false⟩) := by
    rintro x rfl
    rw [decide_eq_false (by omega), decide_eq_false (by omega), show max lo (min hi x) = x by omega]; rfl
  unfold In.whole
  rcases hs with rfl | rfl | rfl
  · cases ds with
    | nil => exact absurd rfl hne
    | cons c ds =>
      obtain ⟨n1, n2⟩ := sign_digit (hd c mem_cons_self)
      simp only [nil_append, cons_append, ready_at hb (digit_not_space (hd c mem_cons_self))] at t1 t2 ⊢
      have hsg : signOf (c :: (ds ++ t)) = (false, c :: (ds ++ t)) := by
        unfold signOf
        split
        · rename_i u hu; exact absurd (cons.inj hu).1 n1
        · rename_i u hu; exact absurd (cons.inj hu).1 n2
        · rfl
      rw [if_pos trivial, hsg]
      simp only [t1, t2, he]
      exact fin _ (by rw [hv]; simp)
  · simp only [cons_append, nil_append, ready_at hb (show space '-' = false by decide)]
    rw [if_pos trivial]
    simp only [signOf, t1, t2, he]
    exact fin _ (by rw [hv]; simp)
  · simp only [cons_append, nil_append, ready_at hb (show space '+' = false by decide)]
    rw [if_pos trivial]
    simp only [signOf, t1, t2, he]
    exact fin _ (by rw [hv]; simp)

/-- reading a word -/
theorem word_at {b : Text} (hb : ∀ c ∈ b, space c = true) {w t : Text} (hw : w ≠ []) (hs : ∀ c ∈ w, space c = false)
    (ht : t = [] ∨ ∃ c u, t = c :: u ∧ space c = true) :
    (⟨b ++ (w ++ t), false, false⟩ : In).word = (some w, ⟨t, t.isEmpty, false⟩) := by
  have key : (w ++ t).takeWhile (fun c => !space c) = w ∧ (w ++ t).dropWhile (fun c => !space c) = t := by
    clear hw
    induction w with
    | nil =>
      rcases ht with rfl | ⟨c, u, rfl, hc⟩
      · exact ⟨rfl, rfl⟩
      · simp [hc]
    | cons a w ih =>
      obtain ⟨i1, i2⟩ := ih fun c hc => hs c (mem_cons_of_mem _ hc)
      have ha := hs a mem_cons_self
      rw [cons_append, takeWhile_cons, dropWhile_cons, ha]
      simp [i1, i2]
  cases w with
  | nil => exact absurd rfl hw
  | cons c w =>
    unfold In.word
    rw [cons_append] at key ⊢
    simp only [ready_at hb (hs c mem_cons_self)]
    rw [if_pos trivial, key.1, key.2]

theorem intText_whole (n : Int) : IsWhole (intText n) n := by
  unfold intText
  split
  · obtain ⟨d1, d2, d3⟩ := toText_spec n.natAbs
    refine ⟨['-'], toText n.natAbs, rfl, .inr (.inl rfl), ?_, fun c hc => (d2 c hc).1, ?_⟩
    · intro h; rw [h] at d3; simp at d3
    · rw [d1, if_pos rfl]; omega
  · obtain ⟨d1, d2, d3⟩ := toText_spec n.toNat
    refine ⟨[], toText n.toNat, rfl, .inl rfl, ?_, fun c hc => (d2 c hc).1, ?_⟩
    · intro h; rw [h] at d3; simp at d3
    · rw [d1, if_neg (by decide)]; omega

theorem whole_number {t : Text} {v : Int} (h : IsWhole t v) : IsNumber t := by
  obtain ⟨sg, ds, rfl, hs, hne, hd, -⟩ := h
  exact ⟨sg, ds, [], [], by simp, hs, hne, hd, .inl rfl, .inl rfl⟩

/-! ### Lines -/

theorem lines_cons {l : Text} (h : '\n' ∉ l) (t : Text) : linesOf (l ++ '\n' :: t) = l :: linesOf t := by
  induction l with
  | nil => simp [linesOf]
  | cons c l ih =>
    rw [cons_append, linesOf, if_neg (fun e => h (by rw [e]; exact mem_cons_self)), ih (fun hm => h (mem_cons_of_mem _ hm))]

/-- lines, each with its end -/
theorem lines_join : ∀ (ls : List Text), (∀ l ∈ ls, '\n' ∉ l) → linesOf (ls.flatMap (fun l => l ++ ['\n'])) = ls ++ [[]] := by
  intro ls
  induction ls with
  | nil => intro _; rfl
  | cons l ls ih =>
    intro h
    rw [flatMap_cons, append_assoc, singleton_append, lines_cons (h l mem_cons_self), ih fun x hx => h x (mem_cons_of_mem _ hx)]
    rfl

/-- lines, the last one without its end -/
theorem lines_last : ∀ (ls : List Text) (l : Text), (∀ l ∈ ls, '\n' ∉ l) → '\n' ∉ l →
    linesOf (ls.flatMap (fun l => l ++ ['\n']) ++ l) = ls ++ [l] := by
  intro ls l
  induction ls with
  | nil =>
    intro _ h
    simp only [flatMap_nil, nil_append]
    induction l with
    | nil => rfl
    | cons c l ih => rw [linesOf, if_neg (fun e => h (by rw [e]; exact mem_cons_self)), ih (fun hm => h (mem_cons_of_mem _ hm))]
  | cons x ls ih =>
    intro h hl
    rw [flatMap_cons, append_assoc, append_assoc, singleton_append, lines_cons (h x mem_cons_self), ih (fun x hx => h x (mem_cons_of_mem _ hx)) hl]
    rfl

/-- a text between blanks -/
theorem trim_between {a b : Text} (ha : ∀ c ∈ a, blank c = true) (hb : ∀ c ∈ b, blank c = true) {m : Text} (hm : m ≠ [])
    (h1 : ∀ c ∈ m.head?, blank c = false) (h2 : ∀ c ∈ m.getLast?, blank c = false) : trim (a ++ (m ++ b)) = m := by
  have drop : ∀ (x y : Text), (∀ c ∈ x, blank c = true) → y ≠ [] → (∀ c ∈ y.head?, blank c = false) → (x ++ y).dropWhile blank = y := by
    intro x y hx hy h
    induction x with
    | nil =>
      cases y with
      | nil => exact absurd rfl hy
      | cons c y => simp [h c (by simp)]
    | cons c x ih =>
      rw [cons_append, dropWhile_cons, if_pos (hx c mem_cons_self)]
      exact ih fun c hc => hx c (mem_cons_of_mem _ hc)
  unfold trim
  rw [drop a (m ++ b) ha (by simp [hm]) (by cases m with
    | nil => exact absurd rfl hm
    | cons c m => simpa using h1), reverse_append, drop b.reverse m.reverse (by simpa using hb) (by simpa using hm) (by simpa using h2), reverse_reverse]

end Verif.Io
