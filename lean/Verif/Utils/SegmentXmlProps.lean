import Verif.Utils.SegmentProps
/-
C143: the settings of a projected segment in XML.
-/
namespace Verif.Utils
open Verif.Shape Verif.Manip Verif.Field Verif.Tree Verif.Mesh Verif.Xml
open Verif.Rbf (huge)
open List hiding get get_of_mem

noncomputable section
open scoped Classical

/-! ### Helpers -/

theorem takeWhile_all {t u : Text} {p : Char → Bool} (h : ∀ c ∈ t, p c = true) (hu : ∀ c ∈ u.head?, p c = false) :
    (t ++ u).takeWhile p = t ∧ (t ++ u).dropWhile p = u := by
  induction t with
  | nil =>
    cases u with
    | nil => simp
    | cons c u => have := hu c (by simp); simp [this]
  | cons c t ih =>
    have := h c (by simp)
    have ih := ih (fun d hd => h d (mem_cons_of_mem _ hd))
    simp [this, ih]

theorem readNums_cons (f n : Nat) (u : Text) (hu : ∀ c ∈ u.head?, isDigit c = false) :
    readNums (f + 1) (toText n ++ u) = n :: readNums f u := by
  obtain ⟨h1, h2, h3⟩ := toText_spec n
  have e : (toText n ++ u).dropWhile blank = toText n ++ u := by
    cases ht : toText n with
    | nil => exact absurd ht h3
    | cons c t =>
      have := (h2 c (by rw [ht]; simp)).2
      simp [this]
  obtain ⟨k1, k2⟩ := takeWhile_all (p := isDigit) (fun c hc => (h2 c hc).1) hu
  rw [readNums]
  simp only [e, k1, k2, h1, h3, if_false]
  rw [if_neg]
  simp [h3]

theorem readNums_blank (f : Nat) (u : Text) : readNums f (' ' :: u) = readNums f u := by
  cases f with
  | zero => rfl
  | succ f => rfl

theorem readNums_nil (f : Nat) : readNums f [] = [] := by cases f <;> rfl

theorem trim_ends {t : Text} (h1 : ∀ c ∈ t.head?, blank c = false) (h2 : ∀ c ∈ t.getLast?, blank c = false) : trim t = t := by
  have d : ∀ {u : Text}, (∀ c ∈ u.head?, blank c = false) → u.dropWhile blank = u := by
    intro u hu
    cases u with
    | nil => rfl
    | cons c u => have := hu c (by simp); simp [this]
  unfold trim
  rw [d h1, d (by simpa using h2), reverse_reverse]

/-- six numbers with blanks between them -/
def sixText (a b c d e f : Nat) : Text :=
  toText a ++ ' ' :: (toText b ++ ' ' :: (toText c ++ ' ' :: (toText d ++ ' ' :: (toText e ++ ' ' :: toText f))))

theorem head_digits (n : Nat) (u : Text) : ∀ c ∈ (toText n ++ u).head?, blank c = false := by
  obtain ⟨-, h2, h3⟩ := toText_spec n
  cases ht : toText n with
  | nil => exact absurd ht h3
  | cons a t =>
    intro c hc
    simp at hc
    subst hc
    exact (h2 _ (by rw [ht]; simp)).2

theorem last_digits (n : Nat) (u : Text) : ∀ c ∈ (u ++ toText n).getLast?, blank c = false := by
  obtain ⟨-, h2, h3⟩ := toText_spec n
  intro c hc
  rw [getLast?_append_of_ne_nil _ h3] at hc
  exact (h2 c (mem_of_getLast? hc)).2

theorem readSegment_six (a b c d e f : Nat) :
    readSegment (sixText a b c d e f) = (⟨a, b, c⟩, ⟨d, e, f⟩) := by
  have ht : trim (sixText a b c d e f) = sixText a b c d e f := by
    refine trim_ends (head_digits a _) ?_
    have : sixText a b c d e f =
        (toText a ++ ' ' :: (toText b ++ ' ' :: (toText c ++ ' ' :: (toText d ++ ' ' :: (toText e ++ [' ']))))) ++ toText f := by
      simp [sixText]
    rw [this]
    exact last_digits f _
  have hb : ∀ u : Text, ∀ x ∈ (' ' :: u).head?, isDigit x = false := by
    intro u x hx
    simp at hx
    subst hx; decide
  have hn : readNums 6 (sixText a b c d e f) = [a, b, c, d, e, f] := by
    unfold sixText
    rw [readNums_cons _ _ _ (hb _), readNums_blank, readNums_cons _ _ _ (hb _), readNums_blank, readNums_cons _ _ _ (hb _),
      readNums_blank, readNums_cons _ _ _ (hb _), readNums_blank, readNums_cons _ _ _ (hb _), readNums_blank]
    have := readNums_cons 0 f [] (by simp)
    simp only [append_nil] at this
    rw [this]
    rfl
  unfold readSegment
  rw [ht, hn]
  rfl

theorem readBool_one : readBool (trim (toText 1)) = true := by rw [trim_one]; decide

theorem flag_eq (t : Text) : flag t = readBool (trim t) := by
  have h2 : readBool (trim []) = false := by decide
  unfold flag; split
  · next h => rw [h, h2]
  · rfl

/-- what an option gives -/
def optVal {α : Type} (x : Section) (k : String) (f : Text → α) (d : α) : α :=
  match x k with
  | none => d
  | some t => f t

/-- the two ends that result -/
def endsAfter (x : Section) (s : Segment) : V3 × V3 :=
  let r := option x "Segment" (fun t s => if t = [] then s.setSegment ⟨0, 0, 0⟩ ⟨1, 1, 1⟩ else s.setSegment (readSegment t).1 (readSegment t).2) s
  (r.a, r.b)

theorem absorb_eq (x : Section) (s : Segment) : s.absorb x =
    { s with
      a := (endsAfter x s).1
      b := (endsAfter x s).2
      nC := optVal x "nCells" (fun t => if trim t = [] then 1000 else readInt (trim t)) s.nC
      skd := optVal x "SkdTree" (fun t => readBool (trim t)) (optVal x "BvTree" (fun t => readBool (trim t)) s.skd)
      kd := optVal x "KdTree" (fun t => readBool (trim t)) s.kd } := by
  have key : ∀ (s : Segment) (p q : V3), s.setSegment p q = { s with a := (s.setSegment p q).a, b := (s.setSegment p q).b } := by
    intro s p q; unfold Segment.setSegment; split <;> rfl
  have h0 : option x "Segment" (fun t s => if t = [] then s.setSegment ⟨0, 0, 0⟩ ⟨1, 1, 1⟩ else s.setSegment (readSegment t).1 (readSegment t).2) s =
      { s with a := (endsAfter x s).1, b := (endsAfter x s).2 } := by
    unfold endsAfter option
    cases x "Segment" with
    | none => rfl
    | some t => simp only; split <;> exact key _ _ _
  have h1 : ∀ s : Segment, option x "nCells" (fun t s => s.setCells (if trim t = [] then 1000 else readInt (trim t))) s =
      { s with nC := optVal x "nCells" (fun t => if trim t = [] then 1000 else readInt (trim t)) s.nC } := by
    intro s; unfold option optVal; cases x "nCells" <;> rfl
  have h2 : ∀ (s : Segment) (k : String), option x k (fun t s => s.setSkd (flag t)) s =
      { s with skd := optVal x k (fun t => readBool (trim t)) s.skd } := by
    intro s k; unfold option optVal; cases x k <;> simp [Segment.setSkd, flag_eq]
  have h3 : ∀ (s : Segment) (k : String), option x k (fun t s => s.setKd (flag t)) s =
      { s with kd := optVal x k (fun t => readBool (trim t)) s.kd } := by
    intro s k; unfold option optVal; cases x k <;> simp [Segment.setKd, flag_eq]
  unfold Segment.absorb
  simp only [h0, h1, h2, h3]

/-! ### C143 -/

/-- **C143** reading: an option that is missing leaves its setting as it was; each option decides its own setting alone; `SkdTree` wins over
the old name `BvTree` -/
theorem C143_absorb (x : Section) (s : Segment) :
    let r := s.absorb x
    (x "Segment" = none → r.a = s.a ∧ r.b = s.b) ∧ (x "nCells" = none → r.nC = s.nC) ∧
    (∀ t, x "nCells" = some t → trim t ≠ [] → r.nC = readInt (trim t)) ∧
    (x "SkdTree" = none → x "BvTree" = none → r.skd = s.skd) ∧
    (∀ t, x "SkdTree" = some t → r.skd = readBool (trim t)) ∧
    (∀ t, x "SkdTree" = none → x "BvTree" = some t → r.skd = readBool (trim t)) ∧
    (x "KdTree" = none → r.kd = s.kd) ∧ (∀ t, x "KdTree" = some t → r.kd = readBool (trim t)) ∧
    r.geom = s.geom ∧ r.result = s.result := by
  rw [absorb_eq]
  refine ⟨?_, ?_, ?_, ?_, ?_, ?_, ?_, ?_, rfl, rfl⟩
  · intro h; simp [endsAfter, option, h]
  · intro h; simp [optVal, h]
  · intro t h h2; simp [optVal, h, h2]
  · intro h h2; simp [optVal, h, h2]
  · intro t h; simp [optVal, h]
  · intro t h h2; simp [optVal, h, h2]
  · intro h; simp [optVal, h]
  · intro t h; simp [optVal, h]

/-- **C143** six numbers apart by blanks are the two ends -/
theorem C143_ends (x : Section) (s : Segment) (a b c d e f : Nat) (hx : x "Segment" = some (sixText a b c d e f)) (hd : (a, b, c) ≠ (d, e, f)) :
    (s.absorb x).a = ⟨a, b, c⟩ ∧ (s.absorb x).b = ⟨d, e, f⟩ := by
  have hne : sixText a b c d e f ≠ [] := by simp [sixText]
  have hlen : ¬ norm2 ((⟨d, e, f⟩ : V3) - ⟨a, b, c⟩) < 1 / 10 ^ 18 := by
    rw [not_lt]
    have h1 : (1 : ℝ) ≤ norm2 ((⟨d, e, f⟩ : V3) - ⟨a, b, c⟩) := by
      unfold norm2
      rw [Real.one_le_sqrt]
      have hk : ∀ m n : Nat, m ≠ n → (1 : ℝ) ≤ ((n : ℝ) - m) * ((n : ℝ) - m) := by
        intro m n hmn
        have : (1 : ℤ) ≤ ((n : ℤ) - m) * ((n : ℤ) - m) := by
          rcases lt_or_gt_of_ne hmn with h | h
          · have : (1 : ℤ) ≤ n - m := by omega
            nlinarith
          · have : (n : ℤ) - m ≤ -1 := by omega
            nlinarith
        exact_mod_cast this
      simp only [dot, sub_x, sub_y, sub_z]
      simp only [ne_eq, Prod.mk.injEq, not_and_or] at hd
      have n1 := mul_self_nonneg ((d : ℝ) - a)
      have n2 := mul_self_nonneg ((e : ℝ) - b)
      have n3 := mul_self_nonneg ((f : ℝ) - c)
      rcases hd with h | h | h
      · have := hk _ _ h; linarith
      · have := hk _ _ h; linarith
      · have := hk _ _ h; linarith
    refine le_trans ?_ h1
    norm_num
  rw [absorb_eq]
  have hs : s.setSegment ⟨a, b, c⟩ ⟨d, e, f⟩ = { s with a := ⟨a, b, c⟩, b := ⟨d, e, f⟩ } := by
    unfold Segment.setSegment; rw [if_neg hlen]
  have he : endsAfter x s = (⟨a, b, c⟩, ⟨d, e, f⟩) := by
    simp only [endsAfter, option, hx, if_neg hne, readSegment_six, hs]
  rw [he]
  exact ⟨rfl, rfl⟩

/-- **C143** (full statement: the ends come back too, false by `C143_segment_fails`) written and read by a new block, the number of
cells and the trees asked for come back -/
theorem C143_round_trip_partial (p : ℝ → Text) (s : Segment) (h0 : 0 ≤ s.nC) (h1 : s.nC ≤ INT_MAX) :
    let r := Segment.new.absorb (s.flush p fun _ => none)
    r.nC = s.nC ∧ r.skd = s.skd ∧ r.kd = s.kd := by
  intro r
  obtain ⟨-, -, a3, a4, a5, -, a7, a8, -, -⟩ := C143_absorb (s.flush p fun _ => none) Segment.new
  have hn : (s.flush p fun _ => none) "nCells" = some (toText s.nC.toNat) := by
    unfold Segment.flush Section.set
    rw [if_neg (not_lt.2 h0)]
    cases s.skd <;> cases s.kd <;> simp
  have hsk : (s.flush p fun _ => none) "SkdTree" = if s.skd then some (toText 1) else none := by
    unfold Segment.flush Section.set
    cases s.skd <;> cases s.kd <;> simp
  have hbv : (s.flush p fun _ => none) "BvTree" = none := by
    unfold Segment.flush Section.set
    cases s.skd <;> cases s.kd <;> simp
  have hkd : (s.flush p fun _ => none) "KdTree" = if s.kd then some (toText 1) else none := by
    unfold Segment.flush Section.set
    cases s.skd <;> cases s.kd <;> simp
  refine ⟨?_, ?_, ?_⟩
  · have ht := toText_spec s.nC.toNat
    have htr : trim (toText s.nC.toNat) ≠ [] := by
      rw [trim_clean (fun c hc => (ht.2.1 c hc).2)]; exact ht.2.2
    show r.nC = _
    rw [a3 _ hn htr, readInt_toText]
    omega
  · cases hs : s.skd with
    | false => rw [hs] at hsk; exact a4 (by simpa using hsk) hbv
    | true => rw [hs] at hsk; exact (a5 _ (by simpa using hsk)).trans readBool_one
  · cases hs : s.kd with
    | false => rw [hs] at hkd; exact a7 (by simpa using hkd)
    | true => rw [hs] at hkd; exact (a8 _ (by simpa using hkd)).trans readBool_one

/-- the ends are written without anything between the coordinates: no segment with whole coordinates comes back -/
theorem C143_segment_fails (p : ℝ → Text) (hp : ∀ n : Nat, n < 1000000 → p n = toText n) (s s0 : Segment) (a b c d e f : Nat)
    (hm : a < 1000000 ∧ b < 1000000 ∧ c < 1000000 ∧ d < 1000000 ∧ e < 1000000 ∧ f < 1000000) (ha : s.a = ⟨a, b, c⟩) (hb : s.b = ⟨d, e, f⟩) :
    let r := s0.absorb (s.flush p fun _ => none)
    ¬ (r.a = s.a ∧ r.b = s.b) := by
  intro r
  obtain ⟨m1, m2, m3, m4, m5, m6⟩ := hm
  set T := toText a ++ toText b ++ toText c ++ toText d ++ toText e ++ toText f with hT
  have hx : (s.flush p fun _ => none) "Segment" = some T := by
    unfold Segment.flush Section.set
    rw [ha, hb]
    simp only [hp _ m1, hp _ m2, hp _ m3, hp _ m4, hp _ m5, hp _ m6]
    cases s.skd <;> cases s.kd <;> simp [hT]
  have hd : ∀ z ∈ T, isDigit z = true ∧ blank z = false := by
    intro z hz
    simp only [hT, mem_append] at hz
    rcases hz with ((((h | h) | h) | h) | h) | h
    all_goals exact (toText_spec _).2.1 z h
  have hne : T ≠ [] := by
    have := (toText_spec a).2.2
    simp [hT, this]
  have hr : readSegment T = (⟨digitsVal T, 0, 0⟩, ⟨1, 1, 1⟩) := by
    unfold readSegment
    rw [trim_clean (fun z hz => (hd z hz).2)]
    have h1 : T.dropWhile blank = T := dropWhile_none (fun z hz => (hd z hz).2)
    obtain ⟨k1, k2⟩ := takeWhile_all (t := T) (u := []) (p := isDigit) (fun z hz => (hd z hz).1) (by simp)
    rw [append_nil] at k1 k2
    have : readNums 6 T = [digitsVal T] := by
      unfold readNums
      simp only [h1, k1, k2, hne, if_false, readNums_nil]
    rw [this]
    rfl
  have hlen : ¬ norm2 ((⟨1, 1, 1⟩ : V3) - ⟨digitsVal T, 0, 0⟩) < 1 / 10 ^ 18 := by
    rw [not_lt]
    have h1 : (1 : ℝ) ≤ norm2 ((⟨1, 1, 1⟩ : V3) - ⟨digitsVal T, 0, 0⟩) := by
      unfold norm2
      rw [Real.one_le_sqrt]
      simp only [dot, sub_x, sub_y, sub_z]
      nlinarith [mul_self_nonneg ((1 : ℝ) - digitsVal T)]
    exact le_trans (by norm_num) h1
  have hra : r.a = ⟨digitsVal T, 0, 0⟩ ∧ r.b = ⟨1, 1, 1⟩ := by
    have hs : s0.setSegment ⟨digitsVal T, 0, 0⟩ ⟨1, 1, 1⟩ = { s0 with a := ⟨digitsVal T, 0, 0⟩, b := ⟨1, 1, 1⟩ } := by
      unfold Segment.setSegment; rw [if_neg hlen]
    have he : endsAfter (s.flush p fun _ => none) s0 = (⟨digitsVal T, 0, 0⟩, ⟨1, 1, 1⟩) := by
      simp only [endsAfter, option, hx, if_neg hne, hr, hs]
    show (s0.absorb _).a = _ ∧ (s0.absorb _).b = _
    rw [absorb_eq, he]
    exact ⟨rfl, rfl⟩
  rintro ⟨e1, e2⟩
  rw [hra.1, ha] at e1
  rw [hra.2, hb] at e2
  have f1 : digitsVal T = a := by have := congrArg V3.x e1; simp only at this; exact_mod_cast this
  have f2 : b = 0 := by have := congrArg V3.y e1; simp only at this; exact_mod_cast this.symm
  have f3 : c = 0 := by have := congrArg V3.z e1; simp only at this; exact_mod_cast this.symm
  have f4 : d = 1 := by have := congrArg V3.x e2; simp only at this; exact_mod_cast this.symm
  have f5 : e = 1 := by have := congrArg V3.y e2; simp only at this; exact_mod_cast this.symm
  have f6 : f = 1 := by have := congrArg V3.z e2; simp only at this; exact_mod_cast this.symm
  have z0 : toText 0 = ['0'] := by rw [toText]; decide
  have z1 : toText 1 = ['1'] := by rw [toText]; decide
  have hv := (toText_spec a).1
  rw [hT, f2, f3, f4, f5, f6, z0, z1] at f1
  unfold digitsVal at f1 hv
  simp only [foldl_append, foldl_cons, foldl_nil, hv] at f1
  have g0 : ('0' : Char).toNat = 48 := rfl
  have g1 : ('1' : Char).toNat = 49 := rfl
  rw [g0, g1] at f1
  clear m1 m2 m3 m4 m5 m6
  omega

/-- a block as built: number of cells in range, ends (0,0,0) and (1,1,1) -/
example : 0 ≤ Segment.new.nC ∧ Segment.new.nC ≤ INT_MAX ∧ Segment.new.a = ⟨(0 : Nat), (0 : Nat), (0 : Nat)⟩ ∧
    Segment.new.b = ⟨(1 : Nat), (1 : Nat), (1 : Nat)⟩ := by
  refine ⟨by decide, by decide, ?_, ?_⟩ <;> simp [Segment.new]

end
end Verif.Utils
