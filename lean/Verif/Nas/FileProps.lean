import Verif.Nas.CoordProps
/-!
# C222, C225, C226: the cards of a Nastran file
-/
namespace Verif.Nas

open Verif.Xml (Text trim blank toText isDigit digitsVal INT_MAX toText_spec trim_clean)

/-! ## Lines -/

/-- What a line stands for by itself: a point, a face, or nothing. -/
def line (l : Text) (g : Got) : Option Got :=
  match (cardOf (key l)).filter Card.enabled with
  | some c => process l c g
  | none => some g

/-- What a file stands for: its lines one after the other. -/
def allLines : List Text → Got → Option Got
  | [], g => some g
  | l :: ls, g => (line l g).bind (allLines ls)

theorem allLines_append (a b : List Text) (g : Got) : allLines (a ++ b) g = (allLines a g).bind (allLines b) := by
  induction a generalizing g with
  | nil => rfl
  | cons l a ih =>
    simp only [List.cons_append, allLines]
    cases line l g with
    | none => rfl
    | some g' => exact ih g'

theorem card_nil : cardOf (key []) = none := by decide

theorem loop_newline (cur : Text) (rest : List Text) (g : Got) :
    loop cur (rest ++ [[]]) g = (line cur g).bind (allLines rest) := by
  induction rest generalizing cur g with
  | nil =>
    simp only [List.nil_append, loop, line]
    cases (cardOf (key cur)).filter Card.enabled with
    | none => simp only [if_true, card_nil]; rfl
    | some c =>
      simp only
      cases process cur c g <;> rfl
  | cons l rest ih =>
    simp only [List.cons_append, loop, line]
    cases (cardOf (key cur)).filter Card.enabled with
    | none =>
      simp only [List.append_eq_nil_iff]
      rw [if_neg (by simp), ih]
      rfl
    | some c =>
      simp only
      cases process cur c g with
      | none => rfl
      | some g' => exact ih l g'

/-- **C225.**  A file whose last line is ended is read card by card: each line stands for what it says by itself, the
others are skipped, in the order of the file. -/
theorem C225_lines_partial (ls : List Text) : read (ls ++ [[]]) = allLines ls ⟨[], []⟩ := by
  rw [read, loop_newline]
  rfl

theorem C225_ignored (a b : List Text) (l : Text) (h : cardOf (key l) = none) :
    read (a ++ l :: b ++ [[]]) = read (a ++ b ++ [[]]) := by
  rw [C225_lines_partial, C225_lines_partial, allLines_append, allLines_append]
  have : allLines (l :: b) = allLines b := by
    funext g
    rw [allLines, line, h]
    rfl
  rw [this]

example : cardOf (key "$ a comment".toList) = none ∧ cardOf (key "CBAR           1".toList) = some .bar ∧
    cardOf (key "GRID           1".toList) = some .grid := by decide

theorem loop_open (cur : Text) (rest : List Text) (l : Text) (g : Got) :
    loop cur (rest ++ [l]) g = (allLines (cur :: rest) g).bind fun g' =>
      if ((cardOf (key ((cur :: rest).getLast (by simp)))).filter Card.enabled).isSome then some g'
      else match cardOf (key l) with
        | some c => process l c g'
        | none => some g' := by
  induction rest generalizing cur g with
  | nil =>
    obtain ⟨x, hx⟩ : ∃ x, (cardOf (key cur)).filter Card.enabled = x := ⟨_, rfl⟩
    simp only [List.nil_append, loop, allLines, line, List.getLast_singleton, hx]
    cases x with
    | none => simp only [if_true]; cases cardOf (key l) <;> rfl
    | some c =>
      simp only
      cases process cur c g <;> rfl
  | cons r rest ih =>
    simp only [List.cons_append, loop]
    rw [allLines, line]
    simp only [List.getLast_cons (List.cons_ne_nil r rest)]
    cases (cardOf (key cur)).filter Card.enabled with
    | none =>
      simp only
      rw [if_neg (by simp), ih]
      rfl
    | some c =>
      simp only
      cases process cur c g with
      | none => rfl
      | some g' => exact ih r g'

/-- **C225, violated.**  When the last line of the file has no end and follows a card, it is lost. -/
theorem C225_lost_fails (ls : List Text) (c l : Text) (k : Card) (hc : cardOf (key c) = some k) (hk : k.enabled = true) :
    read (ls ++ [c] ++ [l]) = read (ls ++ [c] ++ [[]]) := by
  rw [C225_lines_partial, read, loop_open]
  have hlast : ([] :: (ls ++ [c])).getLast (by simp) = c := by
    rw [List.getLast_cons (by simp), List.getLast_append_singleton]
  rw [hlast, hc]
  have : allLines ([] :: (ls ++ [c])) ⟨[], []⟩ = allLines (ls ++ [c]) ⟨[], []⟩ := rfl
  rw [this]
  simp only [Option.filter, hk, Option.isSome, if_true]
  cases allLines (ls ++ [c]) ⟨[], []⟩ <;> rfl

/-- **C225, violated.**  When it follows something else, a card which is not enabled is read there. -/
theorem C225_bar_fails (ls : List Text) (u l : Text) (hu : cardOf (key u) = none) (hl : cardOf (key l) = some .bar) :
    read (ls ++ [u] ++ [l]) = (allLines (ls ++ [u]) ⟨[], []⟩).bind (process l .bar) ∧
    read (ls ++ [u] ++ [l] ++ [[]]) = allLines (ls ++ [u]) ⟨[], []⟩ := by
  constructor
  · rw [read, loop_open]
    have hlast : ([] :: (ls ++ [u])).getLast (by simp) = u := by
      rw [List.getLast_cons (by simp), List.getLast_append_singleton]
    rw [hlast, hu, hl]
    rfl
  · rw [C225_lines_partial, allLines_append]
    have : allLines [l] = some := by
      funext g
      rw [allLines, line, hl]
      rfl
    rw [this]
    cases allLines (ls ++ [u]) ⟨[], []⟩ <;> rfl

/-! ## Fields -/

theorem writeValue_length (t : Text) : (writeValue false t).length = 8 := by
  simp [writeValue, padLeft, width]

theorem sub_skip {a : Text} (h : a.length = 8) (t : Text) (p len : Nat) : sub (a ++ t) (p + 8) len = sub t p len := by
  unfold sub
  rw [List.length_append, h, Nat.add_comm p 8, List.drop_append, h]
  by_cases hp : p ≤ t.length
  · rw [if_pos hp, if_pos (by omega), List.drop_eq_nil_of_le (by omega)]
    simp
  · rw [if_neg hp, if_neg (by omega)]

theorem sub_here {a : Text} (h : a.length = 8) (t : Text) : sub (a ++ t) 0 8 = some a := by
  unfold sub
  rw [if_pos (Nat.zero_le _), List.drop_zero, List.take_append_of_le_length (by omega), List.take_of_length_le (by omega)]

theorem sub_last {a : Text} (h : a.length = 8) : sub a 0 8 = some a := by
  have := sub_here h []
  rwa [List.append_nil] at this

theorem stoi_field (n : Nat) (h : n < 10 ^ 8) : stoi (writeValue false (toText n)) = some (n : Int) := by
  have hl := toText_length n 8 h (by omega)
  rw [writeValue, List.take_of_length_le (by simpa [width] using hl), padLeft]
  exact stoi_blank _ n (Nat.le_trans (Nat.le_of_lt h) (by decide))

theorem key_word {k : Text} (h : k.length = 8) (t : Text) : key (k ++ t) = trim k := by
  rw [key, List.take_append_of_le_length (by omega), List.take_of_length_le (by omega)]

theorem line_none {l : Text} (h : cardOf (key l) = none) (g : Got) : line l g = some g := by
  rw [line, h]; rfl

/-! ## Points and faces -/

def Point.Small (p : Point) : Prop := p.id < 10 ^ 8

/-- The point which is read, given what is read of its coordinates. -/
theorem line_point (p : Point) (hp : p.id < 10 ^ 8) (x y z : ℚ) (hx : readBack false p.x = some x)
    (hy : readBack false p.y = some y) (hz : readBack false p.z = some z) (g : Got) (l : Text)
    (hl : l ∈ writeCoord false p) : line l g = some { g with pts := g.pts ++ [((p.id : Int), x, y, z)] } := by
  have hw := writeValue_length
  have hk : (writeKeyword false "GRID".toList).length = 8 := by decide
  simp only [writeCoord, Bool.false_eq_true, if_false, List.mem_singleton] at hl
  subst hl
  have hc : cardOf (key (writeKeyword false "GRID".toList ++ (writeValue false (toText p.id) ++ (writeValue false [] ++
      (writeValue false (p.x.text (width false)) ++ (writeValue false (p.y.text (width false)) ++
        writeValue false (p.z.text (width false)))))))) = some .grid := by
    rw [key_word hk]; decide
  rw [line, hc]
  simp only [Option.filter, Card.enabled, if_true, process, readPoint, int, real]
  have e8 : ∀ t len, sub t 8 len = sub t (0 + 8) len := fun _ _ => rfl
  have e24 : ∀ t len, sub t 24 len = sub t (0 + 8 + 8 + 8) len := fun _ _ => rfl
  have e32 : ∀ t len, sub t 32 len = sub t (0 + 8 + 8 + 8 + 8) len := fun _ _ => rfl
  have e40 : ∀ t len, sub t 40 len = sub t (0 + 8 + 8 + 8 + 8 + 8) len := fun _ _ => rfl
  rw [e8, e24, e32, e40]
  simp only [sub_skip hk, sub_skip (hw _), sub_here (hw _), sub_last (hw _), Option.bind_some, stoi_field _ hp]
  rw [readBack] at hx hy hz
  rw [hx, hy, hz]
  rfl

theorem line_tria (a b c id pid : Nat) (ha : a < 10 ^ 8) (hb : b < 10 ^ 8) (hc' : c < 10 ^ 8) (hid : id < 10 ^ 8)
    (hpid : pid < 10 ^ 8) (g : Got) : line (writeFace "CTRIA3".toList [a, b, c] id pid) g =
      some { g with faces := g.faces ++ [⟨id, pid, [(a : Int), b, c]⟩] } := by
  have hw := writeValue_length
  have hk : (writeKeyword false "CTRIA3".toList).length = 8 := by decide
  have hc : cardOf (key (writeFace "CTRIA3".toList [a, b, c] id pid)) = some .tria := by
    rw [writeFace, key_word hk]; decide
  rw [line, hc]
  simp only [Option.filter, Card.enabled, if_true, process, readFace, int, writeFace, List.flatMap_cons, List.flatMap_nil,
    List.mapM_cons, List.mapM_nil]
  have e8 : ∀ t len, sub t 8 len = sub t (0 + 8) len := fun _ _ => rfl
  have e16 : ∀ t len, sub t 16 len = sub t (0 + 8 + 8) len := fun _ _ => rfl
  have e24 : ∀ t len, sub t 24 len = sub t (0 + 8 + 8 + 8) len := fun _ _ => rfl
  have e32 : ∀ t len, sub t 32 len = sub t (0 + 8 + 8 + 8 + 8) len := fun _ _ => rfl
  have e40 : ∀ t len, sub t 40 len = sub t (0 + 8 + 8 + 8 + 8 + 8) len := fun _ _ => rfl
  rw [e8, e16, e24, e32, e40]
  simp only [sub_skip hk, sub_skip (hw _), sub_here (hw _), Option.bind_some, stoi_field _ hid, stoi_field _ hpid,
    stoi_field _ ha, stoi_field _ hb, stoi_field _ hc']
  rfl

theorem line_quad (a b c d id pid : Nat) (ha : a < 10 ^ 8) (hb : b < 10 ^ 8) (hc' : c < 10 ^ 8) (hd : d < 10 ^ 8)
    (hid : id < 10 ^ 8) (hpid : pid < 10 ^ 8) (g : Got) : line (writeFace "CQUAD4".toList [a, b, c, d] id pid) g =
      some { g with faces := g.faces ++ [⟨id, pid, [(a : Int), b, c, d]⟩] } := by
  have hw := writeValue_length
  have hk : (writeKeyword false "CQUAD4".toList).length = 8 := by decide
  have hc : cardOf (key (writeFace "CQUAD4".toList [a, b, c, d] id pid)) = some .quad := by
    rw [writeFace, key_word hk]; decide
  rw [line, hc]
  simp only [Option.filter, Card.enabled, if_true, process, readFace, int, writeFace, List.flatMap_cons, List.flatMap_nil,
    List.mapM_cons, List.mapM_nil]
  have e8 : ∀ t len, sub t 8 len = sub t (0 + 8) len := fun _ _ => rfl
  have e16 : ∀ t len, sub t 16 len = sub t (0 + 8 + 8) len := fun _ _ => rfl
  have e24 : ∀ t len, sub t 24 len = sub t (0 + 8 + 8 + 8) len := fun _ _ => rfl
  have e32 : ∀ t len, sub t 32 len = sub t (0 + 8 + 8 + 8 + 8) len := fun _ _ => rfl
  have e40 : ∀ t len, sub t 40 len = sub t (0 + 8 + 8 + 8 + 8 + 8) len := fun _ _ => rfl
  have e48 : ∀ t len, sub t 48 len = sub t (0 + 8 + 8 + 8 + 8 + 8 + 8) len := fun _ _ => rfl
  rw [e8, e16, e24, e32, e40, e48]
  simp only [sub_skip hk, sub_skip (hw _), sub_here (hw _), Option.bind_some, stoi_field _ hid, stoi_field _ hpid,
    stoi_field _ ha, stoi_field _ hb, stoi_field _ hc', stoi_field _ hd]
  rfl

end Verif.Nas
