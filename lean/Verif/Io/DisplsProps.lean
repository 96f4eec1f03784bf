import Verif.Io.Displs
import Mathlib.Data.Finset.Card
import Mathlib.Data.Fintype.BigOperators
import Mathlib.Data.List.TakeWhile
import Mathlib.Data.List.Forall2
/-
C163: reading and writing of lists of displacements.
-/
namespace Verif.Io
open Verif.Xml Verif.Create List

variable {D : Type}

/-! ### Specification -/

/-- blanks within a line -/
def Gap (b : Text) : Prop := ∀ c ∈ b, blank c = true ∧ c ≠ '\n'

/-- a text that denotes a floating point number -/
def Denotes (F : Fmt D) (t : Text) (d : D) : Prop := IsNumber t ∧ F.val t = (d, false)

/-- a line of a file: something else, or a row with a label and a point -/
inductive Item (D : Type) where
  | other
  | row (l : Int) (p : P3 D)

/-- the first word of a line -/
def firstWord (t : Text) : Text := (t.dropWhile space).takeWhile (fun c => !space c)

/-- what a line says, for a keyword -/
def Says (F : Fmt D) (key : Text) : Item D → Text → Prop
  | .other, t => '\n' ∉ t ∧ firstWord t ≠ key
  | .row l p, t => ∃ b0 b1 b2 b3 b4 b5 tl tx ty tz, t = b0 ++ (key ++ (b1 ++ (tl ++ (b2 ++ (tx ++ (b3 ++ (ty ++ (b4 ++ (tz ++ b5))))))))) ∧
      Gap b0 ∧ Gap b1 ∧ Gap b2 ∧ Gap b3 ∧ Gap b4 ∧ Gap b5 ∧ b1 ≠ [] ∧ b2 ≠ [] ∧ b3 ≠ [] ∧ b4 ≠ [] ∧
      IsWhole tl l ∧ LONG_MIN ≤ l ∧ l ≤ LONG_MAX ∧ Denotes F tx p.1 ∧ Denotes F ty p.2.1 ∧ Denotes F tz p.2.2

/-- a keyword: a word -/
def IsKey (key : Text) : Prop := key ≠ [] ∧ ∀ c ∈ key, space c = false

def Item.rows : List (Item D) → List (Int × P3 D)
  | [] => []
  | .other :: l => Item.rows l
  | .row i p :: l => (i, p) :: Item.rows l

/-! ### Lemmas -/

theorem blank_space {c : Char} (h : blank c = true) : space c = true := by simp [space, h]

theorem gap_space {b : Text} (h : Gap b) : ∀ c ∈ b, space c = true := fun c hc => blank_space (h c hc).1

theorem gap_stop {b t : Text} (h : Gap b) (hn : b ≠ []) : ∃ c u, b ++ t = c :: u ∧ space c = true := by
  cases b with
  | nil => exact absurd rfl hn
  | cons c b => exact ⟨c, b ++ t, rfl, gap_space h c mem_cons_self⟩

theorem gap_stops {b t : Text} (h : Gap b) (hn : b ≠ []) : Stops (b ++ t) := by
  obtain ⟨c, u, e, hc⟩ := gap_stop (t := t) h hn
  exact .inr ⟨c, u, e, .inl hc⟩

theorem number_clean {n : Text} (h : IsNumber n) : ∀ c ∈ n, space c = false := by
  obtain ⟨sg, i, f, e, rfl, hs, hi, hd, hf, he⟩ := h
  intro c hc
  rcases mem_append.1 hc with hc | hc
  · rcases hs with rfl | rfl | rfl
    · exact absurd hc (by simp)
    · rw [mem_singleton.1 hc]; decide
    · rw [mem_singleton.1 hc]; decide
  rcases mem_append.1 hc with hc | hc
  · exact digit_not_space (hd c hc)
  rcases mem_append.1 hc with hc | hc
  · rcases hf with rfl | ⟨ds, rfl, hds⟩
    · exact absurd hc (by simp)
    · rcases mem_cons.1 hc with rfl | hc
      · decide
      · exact digit_not_space (hds c hc)
  · rcases he with rfl | ⟨x, ds, rfl, hx, -, hds⟩
    · exact absurd hc (by simp)
    · rcases mem_cons.1 hc with rfl | hc
      · decide
      rcases mem_cons.1 hc with rfl | hc
      · rcases hx with rfl | rfl <;> decide
      · exact digit_not_space (hds c hc)

theorem not_space_blank {c : Char} (h : space c = false) : blank c = false := by
  cases hb : blank c with
  | false => rfl
  | true => rw [blank_space hb] at h; exact absurd h (by simp)

theorem number_ne {n : Text} (h : IsNumber n) : n ≠ [] := by
  obtain ⟨c, u, rfl, -⟩ := number_head h; simp

/-- blanks around a line -/
theorem trim_split (t : Text) : ∃ a b, t = a ++ (trim t ++ b) ∧ (∀ c ∈ a, blank c = true) ∧ ∀ c ∈ b, blank c = true := by
  refine ⟨t.takeWhile blank, ((t.dropWhile blank).reverse.takeWhile blank).reverse, ?_, ?_, ?_⟩
  · unfold trim
    rw [← reverse_append, takeWhile_append_dropWhile, reverse_reverse, takeWhile_append_dropWhile]
  · intro c hc; exact mem_takeWhile_imp hc
  · intro c hc; exact mem_takeWhile_imp (mem_reverse.1 hc)

theorem word_of_trim (t : Text) : ((⟨trim t, false, false⟩ : In).word.1).getD [] = firstWord t := by
  obtain ⟨a, b, e, ha, hb⟩ := trim_split t
  have h1 : firstWord t = firstWord (trim t) := by
    have : firstWord t = firstWord (a ++ (trim t ++ b)) := by rw [← e]
    rw [this]
    unfold firstWord
    rw [drop_spaces fun c hc => blank_space (ha c hc)]
    generalize trim t = x
    induction x with
    | nil =>
      have := drop_spaces (b := b) (t := []) fun c hc => blank_space (hb c hc)
      rw [append_nil] at this
      rw [nil_append, this]
    | cons c x ih =>
      rw [cons_append, dropWhile_cons, dropWhile_cons]
      split
      · exact ih
      · rw [takeWhile_cons, takeWhile_cons]
        split
        · congr 1
          clear ih e
          rename_i hc hc'
          clear hc hc'
          induction x with
          | nil =>
            cases b with
            | nil => rfl
            | cons y b => simp [blank_space (hb y mem_cons_self)]
          | cons y x ih =>
            rw [cons_append, takeWhile_cons, takeWhile_cons]
            split
            · rw [ih]
            · rfl
        · rfl
  rw [h1]
  unfold In.word In.ready In.good firstWord
  by_cases hd : (trim t).dropWhile space = []
  · simp [hd]
  · simp [hd]

theorem firstWord_trim (t : Text) : trim (firstWord t) = firstWord t := by
  refine trim_clean fun c hc => not_space_blank ?_
  have := mem_takeWhile_imp (p := fun c => !space c) hc
  simpa using this

theorem keyOf_other {t : Text} : (keyOf t).1 = firstWord t := by
  unfold keyOf
  simp only
  rw [word_of_trim, firstWord_trim]

/-- the words of a row: its keyword, its label and its coordinates -/
theorem row_parse (F : Fmt D) {key : Text} (hk : IsKey key) {l : Int} {p : P3 D} {t : Text} (h : Says F key (.row l p) t) :
    ∃ s s', keyOf t = (key, s) ∧ s.long = (some l, s') ∧ three F s' = p := by
  obtain ⟨b0, b1, b2, b3, b4, b5, tl, tx, ty, tz, rfl, g0, g1, g2, g3, g4, g5, n1, n2, n3, n4, hl, l1, l2, hx, hy, hz⟩ := h
  have key_head : ∃ c u, key = c :: u ∧ space c = false := by
    cases key with
    | nil => exact absurd rfl hk.1
    | cons c u => exact ⟨c, u, rfl, hk.2 c mem_cons_self⟩
  have ht : trim (b0 ++ (key ++ (b1 ++ (tl ++ (b2 ++ (tx ++ (b3 ++ (ty ++ (b4 ++ (tz ++ b5)))))))))) =
      key ++ (b1 ++ (tl ++ (b2 ++ (tx ++ (b3 ++ (ty ++ (b4 ++ tz))))))) := by
    have e : b0 ++ (key ++ (b1 ++ (tl ++ (b2 ++ (tx ++ (b3 ++ (ty ++ (b4 ++ (tz ++ b5))))))))) =
        b0 ++ ((key ++ (b1 ++ (tl ++ (b2 ++ (tx ++ (b3 ++ (ty ++ (b4 ++ tz)))))))) ++ b5) := by simp [append_assoc]
    rw [e]
    refine trim_between (fun c hc => (g0 c hc).1) (fun c hc => (g5 c hc).1) (by simp [hk.1]) ?_ ?_
    · obtain ⟨c, u, rfl, hc⟩ := key_head
      intro x hx
      simp at hx
      rw [← hx]; exact not_space_blank hc
    · intro c hc
      have hne := number_ne hz.1
      simp only [getLast?_append] at hc
      cases hg : tz.getLast? with
      | none => exact absurd (getLast?_eq_none_iff.1 hg) hne
      | some y =>
        rw [hg] at hc
        simp at hc
        rw [← hc]
        exact not_space_blank (number_clean hz.1 y (mem_of_getLast? hg))
  have hw : (⟨key ++ (b1 ++ (tl ++ (b2 ++ (tx ++ (b3 ++ (ty ++ (b4 ++ tz))))))), false, false⟩ : In).word =
      (some key, ⟨b1 ++ (tl ++ (b2 ++ (tx ++ (b3 ++ (ty ++ (b4 ++ tz)))))), false, false⟩) := by
    obtain ⟨c, u, e, hc⟩ := gap_stop (t := tl ++ (b2 ++ (tx ++ (b3 ++ (ty ++ (b4 ++ tz)))))) g1 n1
    have := word_at (b := []) (by simp) hk.1 hk.2 (t := b1 ++ (tl ++ (b2 ++ (tx ++ (b3 ++ (ty ++ (b4 ++ tz))))))) (.inr ⟨c, u, e, hc⟩)
    rw [nil_append] at this
    rw [this, show (b1 ++ (tl ++ (b2 ++ (tx ++ (b3 ++ (ty ++ (b4 ++ tz))))))).isEmpty = false by rw [e]; rfl]
  have hq : keyOf (b0 ++ (key ++ (b1 ++ (tl ++ (b2 ++ (tx ++ (b3 ++ (ty ++ (b4 ++ (tz ++ b5)))))))))) =
      (key, ⟨b1 ++ (tl ++ (b2 ++ (tx ++ (b3 ++ (ty ++ (b4 ++ tz)))))), false, false⟩) := by
    unfold keyOf
    simp only
    rw [ht, hw]
    simp only [Option.getD_some]
    rw [trim_clean fun c hc => not_space_blank (hk.2 c hc)]
  have ne_of : ∀ {b t : Text}, Gap b → b ≠ [] → (b ++ t).isEmpty = false := by
    intro b t _ hn
    cases b with
    | nil => exact absurd rfl hn
    | cons => rfl
  have hlong := whole_at (gap_space g1) hl (gap_stops (t := tx ++ (b3 ++ (ty ++ (b4 ++ tz)))) g2 n2) l1 l2
  rw [ne_of g2 n2] at hlong
  have h3 := num_at F (gap_space g2) hx.1 (gap_stops (t := ty ++ (b4 ++ tz)) g3 n3)
  rw [ne_of g3 n3, hx.2] at h3
  have h4 := num_at F (gap_space g3) hy.1 (gap_stops (t := tz) g4 n4)
  rw [ne_of g4 n4, hy.2] at h4
  have h5 := num_at F (gap_space g4) hz.1 (t := []) (.inl rfl)
  rw [hz.2, append_nil] at h5
  have hthree : three F ⟨b2 ++ (tx ++ (b3 ++ (ty ++ (b4 ++ tz)))), false, false⟩ = p := by
    unfold three
    simp only [h3, h4, h5, Option.getD_some]
  exact ⟨_, _, hq, hlong, hthree⟩

theorem row_word (F : Fmt D) {key : Text} (hk : IsKey key) {l : Int} {p : P3 D} {t : Text} (h : Says F key (.row l p) t) : firstWord t = key := by
  obtain ⟨s, s', e, -⟩ := row_parse F hk h
  rw [← keyOf_other, e]

/-- a row is read as what it says -/
theorem row_step (F : Fmt D) {key : Text} (hk : IsKey key) {i : Item D} {t : Text} (h : Says F key i t)
    (v : Option Int) (ls : List Int) (ps : List (P3 D)) :
    ∃ v', rowStep F key (v, ls, ps) t = some (v', ls ++ (Item.rows [i]).map Prod.fst, ps ++ (Item.rows [i]).map Prod.snd) := by
  cases i with
  | other =>
    refine ⟨v, ?_⟩
    unfold rowStep
    simp only
    rw [keyOf_other, if_neg h.2]
    simp [Item.rows]
  | row l p =>
    obtain ⟨s, s', e1, e2, e3⟩ := row_parse F hk h
    refine ⟨some l, ?_⟩
    unfold rowStep
    simp only [e1, if_pos, e2, e3]
    rfl

theorem rows_append (i : Item D) (l : List (Item D)) : Item.rows (i :: l) = Item.rows [i] ++ Item.rows l := by cases i <;> rfl

theorem fold_rows (F : Fmt D) {key : Text} (hk : IsKey key) : ∀ (is : List (Item D)) (ts : List Text), Forall₂ (Says F key) is ts →
    ∀ (v : Option Int) (ls : List Int) (ps : List (P3 D)),
    ∃ v', ts.foldlM (rowStep F key) (v, ls, ps) = some (v', ls ++ (Item.rows is).map Prod.fst, ps ++ (Item.rows is).map Prod.snd) := by
  intro is ts h
  induction h with
  | nil => intro v ls ps; exact ⟨v, by simp [Item.rows]⟩
  | @cons i t is ts h _ ih =>
    intro v ls ps
    obtain ⟨v1, e1⟩ := row_step F hk h v ls ps
    obtain ⟨v2, e2⟩ := ih v1 (ls ++ (Item.rows [i]).map Prod.fst) (ps ++ (Item.rows [i]).map Prod.snd)
    refine ⟨v2, ?_⟩
    rw [foldlM_cons, e1, Option.bind_eq_bind, Option.bind_some, e2, rows_append i is]
    simp

theorem says_line {F : Fmt D} {key : Text} (hk : IsKey key) {i : Item D} {t : Text} (h : Says F key i t) : '\n' ∉ t := by
  cases i with
  | other => exact h.1
  | row l p =>
    obtain ⟨b0, b1, b2, b3, b4, b5, tl, tx, ty, tz, rfl, g0, g1, g2, g3, g4, g5, -, -, -, -, hl, -, -, hx, hy, hz⟩ := h
    have gn : ∀ {b : Text}, Gap b → '\n' ∉ b := fun g h => (g _ h).2 rfl
    have cn : ∀ {b : Text}, (∀ c ∈ b, space c = false) → '\n' ∉ b := fun g h => absurd (g _ h) (by decide)
    simp only [mem_append, not_or]
    exact ⟨gn g0, cn hk.2, gn g1, cn (number_clean (whole_number hl)), gn g2, cn (number_clean hx.1), gn g3, cn (number_clean hy.1), gn g4,
      cn (number_clean hz.1), gn g5⟩

theorem key_displ : IsKey displKey := ⟨by decide, by decide⟩

theorem read_rows (F : Fmt D) {key : Text} (hk : IsKey key) {is : List (Item D)} {ts : List Text} (h : Forall₂ (Says F key) is ts)
    {last : Text} (hl : '\n' ∉ last) {i : Item D} (hi : Says F key i last) :
    readRows F key (ts.flatMap (fun l => l ++ ['\n']) ++ last) =
      some ((Item.rows (is ++ [i])).map Prod.fst, (Item.rows (is ++ [i])).map Prod.snd) := by
  have hn : ∀ l ∈ ts, '\n' ∉ l := by
    intro l hl
    clear hi
    induction h with
    | nil => exact absurd hl (by simp)
    | cons h _ ih =>
      rcases mem_cons.1 hl with rfl | hl
      · exact says_line hk h
      · exact ih hl
  have h2 : Forall₂ (Says F key) (is ++ [i]) (ts ++ [last]) := by
    refine rel_append h (.cons hi .nil)
  obtain ⟨v, e⟩ := fold_rows F hk _ _ h2 none [] []
  unfold readRows
  rw [lines_last ts last hn hl, e]
  simp

/-! ### C163 -/

/-- **C163**: reading a file: the rows with the keyword are read in order, with their labels and coordinates, however they are spaced;
everything else is passed over.  The last line may lack its end. -/
theorem C163_read (F : Fmt D) (fs : Files) (b : Displs D) {is : List (Item D)} {ts : List Text} {i : Item D} {last : Text}
    (h : Forall₂ (Says F displKey) is ts) (hi : Says F displKey i last)
    (hf : fs (b.dir ++ '/' :: b.file) = some (ts.flatMap (fun l => l ++ ['\n']) ++ last)) :
    b.load F fs = .done { b with
      labels := (Item.rows (is ++ [i])).map Prod.fst, displ := (Item.rows (is ++ [i])).map Prod.snd, n := (Item.rows (is ++ [i])).length } := by
  unfold Displs.load Displs.path
  rw [hf]
  simp only
  rw [read_rows F key_displ h (says_line key_displ hi) hi]
  simp

theorem says_empty (F : Fmt D) {key : Text} (hk : IsKey key) : Says F key .other [] := ⟨by simp, by
  intro h; exact hk.1 h.symm⟩

/-- **C163**: without the file reading ends with an exception -/
theorem C163_missing (F : Fmt D) (fs : Files) (b : Displs D) (hb : b.read = true) (h : fs (b.dir ++ '/' :: b.file) = none) :
    b.execute F fs = .thrown := by
  unfold Displs.execute Displs.load Displs.path
  rw [if_pos hb, h]

theorem gap_tab : Gap ['\t'] := by
  intro c hc
  rw [mem_singleton.1 hc]
  exact ⟨by decide, by decide⟩

/-- a row that was written says what was written -/
theorem says_row {F : Fmt D} {key : Text} {l : Int} {p : P3 D} (h1 : LONG_MIN ≤ l) (h2 : l ≤ LONG_MAX) (hx : Prints F p.1)
    (hy : Prints F p.2.1) (hz : Prints F p.2.2) :
    Says F key (.row l (F.round p.1, F.round p.2.1, F.round p.2.2)) (rowText F key false l p) := by
  have den : ∀ {d : D}, Prints F d → Denotes F (F.put d) (F.round d) := fun h => ⟨h.1, Prod.ext rfl h.2⟩
  refine ⟨[], ['\t'], ['\t'], ['\t'], ['\t'], [], intText l, F.put p.1, F.put p.2.1, F.put p.2.2, ?_, by intro c hc; exact absurd hc (by simp), gap_tab,
    gap_tab, gap_tab, gap_tab, by intro c hc; exact absurd hc (by simp), by simp, by simp, by simp, by simp, intText_whole l, h1, h2, den hx, den hy, den hz⟩
  simp [rowText]

theorem rows_of (f : Int × P3 D → Int × P3 D) : ∀ l : List (Int × P3 D), Item.rows (l.map (fun x => Item.row (f x).1 (f x).2) ++ [.other]) = l.map f := by
  intro l
  induction l with
  | nil => rfl
  | cons a l ih => rw [map_cons, cons_append, Item.rows, ih, map_cons]

theorem more_labels : ∀ (k : Nat) (m : Int) (l : List Int), moreLabels k m l = l ++ (range k).map (fun i : Nat => m + 1 + (i : Int)) := by
  intro k
  induction k with
  | zero => intro m l; simp [moreLabels]
  | succ k ih =>
    intro m l
    rw [moreLabels, ih, range_succ_eq_map, append_assoc, map_cons, map_map]
    congr 1
    simp only [singleton_append, Nat.cast_zero, Int.add_zero]
    congr 1
    apply map_congr_left
    intro i _
    simp only [Function.comp, Nat.cast_succ]
    omega

theorem fit_length (l : List Int) (n : Nat) : (fitLabels l n).length = n := by
  unfold fitLabels
  rw [more_labels]
  simp
  omega

/-- **C163**: what is written can be read: the same labels, and the displacements as their numbers are written -/
theorem C163_round_trip (F : Fmt D) (fs : Files) (b r : Displs D) (hb : b.read = false) (hr : r.read = true) (ht : b.template = false)
    (hd : r.dir = b.dir) (hn : r.file = b.file)
    (hp : ∀ p ∈ b.displ, Prints F p.1 ∧ Prints F p.2.1 ∧ Prints F p.2.2) (hl : ∀ l ∈ fitLabels b.labels b.displ.length, LONG_MIN ≤ l ∧ l ≤ LONG_MAX) :
    ∃ b' fs', b.execute F fs = .done (b', fs') ∧ b'.displ = b.displ ∧ b'.labels = fitLabels b.labels b.displ.length ∧
      r.execute F fs' = .done ({ r with
        labels := b'.labels
        displ := b.displ.map (fun p => (F.round p.1, F.round p.2.1, F.round p.2.2))
        n := b.displ.length }, fs') := by
  have hlen := fit_length b.labels b.displ.length
  refine ⟨(b.save F fs).1, (b.save F fs).2, by unfold Displs.execute; rw [if_neg (by simp [hb])], rfl, rfl, ?_⟩
  unfold Displs.execute
  rw [if_pos hr]
  let f : Int × P3 D → Int × P3 D := fun x => (x.1, (F.round x.2.1, F.round x.2.2.1, F.round x.2.2.2))
  let z := (fitLabels b.labels b.displ.length).zip b.displ
  have hs : Forall₂ (Says F displKey) (z.map (fun x => Item.row (f x).1 (f x).2)) (z.map (fun x => rowText F displKey false x.1 x.2)) := by
    rw [forall₂_map_left_iff, forall₂_map_right_iff, forall₂_same]
    intro x hx
    obtain ⟨m1, m2⟩ := of_mem_zip hx
    obtain ⟨p1, p2, p3⟩ := hp _ m2
    exact says_row (hl _ m1).1 (hl _ m1).2 p1 p2 p3
  have key := C163_read F (b.save F fs).2 r hs (says_empty F key_displ) (by
    show (Files.put fs b.path _) _ = _
    unfold Files.put Displs.path
    rw [hd, hn, if_pos rfl, append_nil, flatMap_map]
    simp only [ht]
    rfl)
  rw [rows_of] at key
  have e1 : (z.map f).map Prod.fst = fitLabels b.labels b.displ.length := by
    rw [map_map]
    show z.map Prod.fst = _
    exact map_fst_zip (by omega)
  have e2 : (z.map f).map Prod.snd = b.displ.map (fun p => (F.round p.1, F.round p.2.1, F.round p.2.2)) := by
    rw [map_map]
    have : z.map (Prod.snd ∘ f) = (z.map Prod.snd).map (fun p => (F.round p.1, F.round p.2.1, F.round p.2.2)) := by rw [map_map]; rfl
    rw [this, map_snd_zip (by omega)]
  have e3 : (z.map f).length = b.displ.length := by simp [z, hlen]
  rw [e1, e2, e3] at key
  rw [key]
  rfl

/-- a row whose first coordinate is not a number is read with zeros -/
theorem row_holder (F : Fmt D) {key : Text} (hk : IsKey key) (hv : F.val [] = (F.zero, true)) {l : Int} (h1 : LONG_MIN ≤ l) (h2 : l ≤ LONG_MAX)
    (p : P3 D) (v : Option Int) (ls : List Int) (ps : List (P3 D)) :
    rowStep F key (v, ls, ps) (rowText F key true l p) = some (some l, ls ++ [l], ps ++ [(F.zero, F.zero, F.zero)]) := by
  obtain ⟨u, hu, hlast⟩ : ∃ u, rowText F key true l p = key ++ (['\t'] ++ (intText l ++ (['\t'] ++ '{' :: u))) ∧ ('{' :: u).getLast? = some '}' := by
    refine ⟨_, by simp [rowText, holder]; rfl, ?_⟩
    simp [getLast?_cons, getLast?_append]
  have ht : trim (rowText F key true l p) = rowText F key true l p := by
    have := trim_between (a := []) (b := []) (m := rowText F key true l p) (by simp) (by simp) (by rw [hu]; simp [hk.1]) (by
      rw [hu]
      cases key with
      | nil => exact absurd rfl hk.1
      | cons c u =>
        intro x hx
        simp at hx
        rw [← hx]; exact not_space_blank (hk.2 c mem_cons_self)) (by
      rw [hu]
      intro c hc
      simp only [getLast?_append, hlast, Option.or_some] at hc
      simp at hc
      rw [← hc]; decide)
    rwa [nil_append, append_nil] at this
  have hw := word_at (b := []) (by simp) hk.1 hk.2 (t := ['\t'] ++ (intText l ++ (['\t'] ++ '{' :: u))) (.inr ⟨'\t', _, rfl, by decide⟩)
  rw [nil_append] at hw
  have hq : keyOf (rowText F key true l p) = (key, ⟨['\t'] ++ (intText l ++ (['\t'] ++ '{' :: u)), false, false⟩) := by
    unfold keyOf
    simp only
    rw [ht, hu, hw]
    simp only [Option.getD_some]
    rw [trim_clean fun c hc => not_space_blank (hk.2 c hc)]
    rfl
  have hlong := whole_at (b := ['\t']) (gap_space gap_tab) (intText_whole l) (t := ['\t'] ++ '{' :: u) (.inr ⟨'\t', _, rfl, .inl (by decide)⟩) h1 h2
  have hthree : three F ⟨['\t'] ++ '{' :: u, false, false⟩ = (F.zero, F.zero, F.zero) := by
    unfold three In.num
    simp only [ready_at (b := ['\t']) (gap_space gap_tab) (show space '{' = false by decide)]
    have : numSpan ('{' :: u) = ([], '{' :: u) := by
      unfold numSpan
      split
      · rename_i h; exact absurd (cons.inj h).1 (by decide)
      · rename_i h; exact absurd (cons.inj h).1 (by decide)
      · rw [numGo, if_neg (by decide), if_neg (by decide), if_neg (by decide), if_neg (by decide)]
    rw [this]
    simp [hv, In.ready, In.good]
  unfold rowStep
  simp only
  rw [hq, if_pos rfl]
  simp only [In.long]
  rw [hlong]
  show some (some l, ls ++ [l], ps ++ [three F ⟨['\t'] ++ '{' :: u, false, false⟩]) = _
  rw [hthree]

theorem holder_line (c : Char) (hc : c ≠ '\n') (l : Int) : '\n' ∉ holder c l := by
  unfold holder
  simp only [mem_cons, mem_append, not_or, not_mem_nil, not_false_eq_true, and_true]
  refine ⟨by decide, hc.symm, fun h => ?_, by decide⟩
  exact absurd (number_clean (whole_number (intText_whole l)) _ h) (by decide)

/-- **C163**: a template reads as a file with the same labels and displacements that are all zero; nothing tells that it is a template -/
theorem C163_template_fails (F : Fmt D) (hv : F.val [] = (F.zero, true)) (fs : Files) (b r : Displs D) (hb : b.read = false) (hr : r.read = true)
    (ht : b.template = true) (hd : r.dir = b.dir) (hn : r.file = b.file)
    (hl : ∀ l ∈ fitLabels b.labels b.displ.length, LONG_MIN ≤ l ∧ l ≤ LONG_MAX) :
    ∃ b' fs', b.execute F fs = .done (b', fs') ∧
      r.execute F fs' = .done ({ r with
        labels := fitLabels b.labels b.displ.length
        displ := replicate b.displ.length (F.zero, F.zero, F.zero)
        n := b.displ.length }, fs') := by
  have hlen := fit_length b.labels b.displ.length
  refine ⟨(b.save F fs).1, (b.save F fs).2, by unfold Displs.execute; rw [if_neg (by simp [hb])], ?_⟩
  unfold Displs.execute
  rw [if_pos hr]
  have hf : (b.save F fs).2 r.path = some (((fitLabels b.labels b.displ.length).zip b.displ).flatMap (fun x : Int × P3 D => rowText F displKey true x.1 x.2 ++ ['\n'])) := by
    show (Files.put fs b.path _) _ = _
    unfold Files.put Displs.path
    rw [hd, hn, if_pos rfl]
    simp only [ht]
  have hfold : ∀ (z : List (Int × P3 D)), (∀ x ∈ z, LONG_MIN ≤ x.1 ∧ x.1 ≤ LONG_MAX) → ∀ v ls (ps : List (P3 D)), ∃ v',
      ((z.map (fun x : Int × P3 D => rowText F displKey true x.1 x.2)) ++ [[]]).foldlM (rowStep F displKey) (v, ls, ps) =
        some (v', ls ++ z.map Prod.fst, ps ++ replicate z.length (F.zero, F.zero, F.zero)) := by
    intro z
    induction z with
    | nil =>
      intro _ v ls ps
      obtain ⟨v', e⟩ := row_step F key_displ (says_empty F key_displ) v ls ps
      exact ⟨v', by simp only [map_nil, nil_append, foldlM_cons, foldlM_nil, e]; simp [Item.rows]⟩
    | cons x z ih =>
      intro h v ls ps
      obtain ⟨v', e⟩ := ih (fun y hy => h y (mem_cons_of_mem _ hy)) (some x.1) (ls ++ [x.1]) (ps ++ [(F.zero, F.zero, F.zero)])
      refine ⟨v', ?_⟩
      rw [map_cons, cons_append, foldlM_cons, row_holder F key_displ hv (h x mem_cons_self).1 (h x mem_cons_self).2, Option.bind_eq_bind, Option.bind_some, e]
      simp [replicate_succ]
  have hlines : ∀ l ∈ ((fitLabels b.labels b.displ.length).zip b.displ).map (fun x : Int × P3 D => rowText F displKey true x.1 x.2), '\n' ∉ l := by
    intro l hl
    obtain ⟨x, -, rfl⟩ := mem_map.1 hl
    unfold rowText
    rw [if_pos rfl]
    simp only [mem_append, mem_cons, not_or]
    have hi : '\n' ∉ intText x.1 := fun h => absurd (number_clean (whole_number (intText_whole x.1)) _ h) (by decide)
    exact ⟨by decide, by decide, hi, by decide, holder_line _ (by decide) _, by decide, holder_line _ (by decide) _, by decide, holder_line _ (by decide) _⟩
  unfold Displs.load
  rw [hf]
  simp only
  obtain ⟨v', e⟩ := hfold ((fitLabels b.labels b.displ.length).zip b.displ) (fun x hx => hl _ (of_mem_zip hx).1) none [] []
  have hr2 : readRows F displKey (((fitLabels b.labels b.displ.length).zip b.displ).flatMap (fun x : Int × P3 D => rowText F displKey true x.1 x.2 ++ ['\n'])) =
      some (fitLabels b.labels b.displ.length, replicate b.displ.length (F.zero, F.zero, F.zero)) := by
    unfold readRows
    have := lines_join _ hlines
    rw [flatMap_map] at this
    rw [this, e]
    simp only [nil_append, Option.map_some]
    rw [map_fst_zip (by omega)]
    simp [hlen]
  rw [hr2]
  simp

/-- **C163**: a row without anything after the keyword, before any other row, leaves the label unset: its value is undefined -/
theorem C163_unset_fails (F : Fmt D) (fs : Files) (b : Displs D) {ts : List Text} (h : Forall₂ (Says F displKey) (ts.map (fun _ => .other)) ts) {u : Text}
    (hf : fs (b.dir ++ '/' :: b.file) = some (ts.flatMap (fun l => l ++ ['\n']) ++ ("$DISPL\n".toList ++ u))) :
    b.load F fs = .undefined := by
  unfold Displs.load Displs.path
  rw [hf]
  have hn : ∀ l ∈ ts, '\n' ∉ l := by
    intro l hl
    rw [forall₂_map_left_iff, forall₂_same] at h
    exact (h l hl).1
  have hr : readRows F displKey (ts.flatMap (fun l => l ++ ['\n']) ++ ("$DISPL\n".toList ++ u)) = none := by
    have hl : linesOf (ts.flatMap (fun l => l ++ ['\n']) ++ ("$DISPL\n".toList ++ u)) = ts ++ displKey :: linesOf u := by
      clear h hf
      induction ts with
      | nil => exact lines_cons (l := displKey) (by decide) u
      | cons x ts ih =>
        rw [flatMap_cons, append_assoc, append_assoc, singleton_append, lines_cons (hn x mem_cons_self), ih fun y hy => hn y (mem_cons_of_mem _ hy)]
        rfl
    have hskip : ∀ s, ts.foldlM (rowStep F displKey) s = some s := by
      intro s
      clear hf hn hl
      induction ts generalizing s with
      | nil => rfl
      | cons x ts ih =>
        rw [map_cons] at h
        cases h with
        | cons h1 h2 =>
          have e : rowStep F displKey s x = some s := by
            unfold rowStep
            simp only
            rw [keyOf_other, if_neg h1.2]
          rw [foldlM_cons, e, Option.bind_eq_bind, Option.bind_some, ih h2]
    unfold readRows
    rw [hl, foldlM_append, hskip, Option.bind_eq_bind, Option.bind_some, foldlM_cons]
    have e : rowStep F displKey ((none, [], []) : Option Int × List Int × List (P3 D)) displKey = none := by
      unfold rowStep
      have hk : keyOf displKey = (displKey, ⟨[], true, false⟩) := by decide
      simp only [hk, In.long, In.whole, In.ready, In.good]
      simp
    rw [e]
    rfl
  simp only [hr]

/-- **C163**: later such a row repeats the label of the row before it, with a displacement that is zero -/
theorem C163_bare_fails (F : Fmt D) (l : Int) (ls : List Int) (ps : List (P3 D)) :
    rowStep F displKey (some l, ls, ps) displKey = some (some l, ls ++ [l], ps ++ [(F.zero, F.zero, F.zero)]) := by
  unfold rowStep
  have hk : keyOf displKey = (displKey, ⟨[], true, false⟩) := by decide
  simp [hk, In.long, In.whole, In.ready, In.good, three, In.num]

/-- the characters of numbers as they are written -/
def letters : Text := "0123456789-+.e".toList

/-- **C163**: no numbers survive being written in general: with the six digits that are written every number has at most thirteen
characters (as in -1.23457e-308), so of more than 15 ^ 13 numbers (there are more than 10 ^ 19 finite ones) one is not read back -/
theorem C163_precision_fails [DecidableEq D] (F : Fmt D) (S : Finset D) (hS : 15 ^ 13 < S.card)
    (hp : ∀ d ∈ S, (F.put d).length ≤ 13 ∧ ∀ c ∈ F.put d, c ∈ letters) : ∃ d ∈ S, F.round d ≠ d := by
  classical
  refine Classical.byContradiction fun hno => ?_
  have hr : ∀ d ∈ S, F.round d = d := fun d hd => Classical.byContradiction fun h => hno ⟨d, hd, h⟩
  let code : D → (Fin 13 → Fin 15) := fun d i => ⟨match (F.put d)[i.1]? with | some c => letters.idxOf c | none => 14, by
    split
    · have : letters.idxOf _ ≤ letters.length := idxOf_le_length (a := ‹Char›)
      have h14 : letters.length = 14 := by decide
      omega
    · omega⟩
  have hinj : Set.InjOn code (S : Set D) := by
    intro a ha b hb hab
    have ha' := hp a ha
    have hb' := hp b hb
    have : F.put a = F.put b := by
      apply ext_getElem?
      intro i
      by_cases hi : i < 13
      · have h := congrArg Fin.val (congrFun hab ⟨i, hi⟩)
        simp only [code] at h
        cases ea : (F.put a)[i]? with
        | none =>
          cases eb : (F.put b)[i]? with
          | none => rfl
          | some y =>
            rw [ea, eb] at h
            have := idxOf_lt_length_iff.2 (hb'.2 y (mem_of_getElem? eb))
            have h14 : letters.length = 14 := by decide
            simp only at h
            omega
        | some x =>
          have hx := idxOf_lt_length_iff.2 (ha'.2 x (mem_of_getElem? ea))
          have h14 : letters.length = 14 := by decide
          cases eb : (F.put b)[i]? with
          | none =>
            rw [ea, eb] at h
            simp only at h
            omega
          | some y =>
            rw [ea, eb] at h
            simp only at h
            rw [(idxOf_inj (ha'.2 x (mem_of_getElem? ea))).1 h]
      · rw [getElem?_eq_none (by omega), getElem?_eq_none (by omega)]
    rw [← hr a ha, ← hr b hb, Fmt.round, Fmt.round, this]
  have := Finset.card_le_card_of_injOn (t := Finset.univ) code (fun _ _ => Finset.mem_coe.2 (Finset.mem_univ _)) hinj
  rw [Finset.card_univ, Fintype.card_fun, Fintype.card_fin, Fintype.card_fin] at this
  omega

/-! ### Examples -/

/-- whole numbers in place of floating point numbers -/
def demoFmt : Fmt Int where
  zero := 0
  put := intText
  val := fun t => if t = [] then (0, true) else (readSigned t, false)

theorem demo_prints {d : Int} (h1 : INT_MIN ≤ d) (h2 : d ≤ INT_MAX) : Prints demoFmt d := by
  refine ⟨whole_number (intText_whole d), ?_⟩
  simp [demoFmt, intText_ne]

theorem demo_round {d : Int} (h1 : INT_MIN ≤ d) (h2 : d ≤ INT_MAX) : demoFmt.round d = d := by
  simp [Fmt.round, demoFmt, intText_ne, readSigned_intText h1 h2]

/-- C163: a comment, a row with blanks of all kinds, a row without the end of its line -/
example : ∃ b, Displs.load demoFmt (fun _ => some "# nothing\n\t$DISPL  7 -1\t2  +3 \n\n$DISPL\t4\t5\t6\t7".toList) { read := true } = .done b ∧
    b.labels = [7, 4] ∧ b.displ = [(-1, 2, 3), (5, 6, 7)] ∧ b.n = 2 := by
  refine ⟨_, rfl, ?_, ?_, ?_⟩ <;> decide +kernel

example : Forall₂ (Says demoFmt displKey) [.other, .row 7 (-1, 2, 3)] ["# nothing".toList, "\t$DISPL  7 -1\t2  +3 ".toList] := by
  refine .cons ⟨by decide, by decide⟩ (.cons ?_ .nil)
  have num : ∀ (sg ds : Text), IsSign sg → ds ≠ [] → (∀ c ∈ ds, isDigit c = true) → IsNumber (sg ++ ds) :=
    fun sg ds h1 h2 h3 => ⟨sg, ds, [], [], by simp, h1, h2, h3, .inl rfl, .inl rfl⟩
  refine ⟨"\t".toList, "  ".toList, " ".toList, "\t".toList, "  ".toList, " ".toList, "7".toList, "-1".toList, "2".toList, "+3".toList, by decide,
    ?_, ?_, ?_, ?_, ?_, ?_, by decide, by decide, by decide, by decide, ⟨[], "7".toList, rfl, .inl rfl, by decide, by decide, by decide⟩,
    by decide, by decide, ⟨num ['-'] ['1'] (.inr (.inl rfl)) (by decide) (by decide), by decide +kernel⟩,
    ⟨num [] ['2'] (.inl rfl) (by decide) (by decide), by decide +kernel⟩, ⟨num ['+'] ['3'] (.inr (.inr rfl)) (by decide) (by decide), by decide +kernel⟩⟩ <;>
    (unfold Gap; decide)

/-- C163: writing and reading -/
example : ∃ b' fs', Displs.execute demoFmt (fun _ => none) { read := false, displ := [(1, -2, 3), (4, 5, 6)], labels := [9] } = .done (b', fs') ∧
    ∃ r fs'', Displs.execute demoFmt fs' { read := true } = .done (r, fs'') ∧ r.labels = [9, 10] ∧ r.displ = [(1, -2, 3), (4, 5, 6)] := by
  obtain ⟨b', fs', e1, e2, e3, e4⟩ := C163_round_trip demoFmt (fun _ => none)
    { read := false, displ := [(1, -2, 3), (4, 5, 6)], labels := [9] } { read := true } rfl rfl rfl rfl rfl
    (by
      intro p hp
      rcases mem_cons.1 hp with rfl | hp
      · exact ⟨demo_prints (by decide) (by decide), demo_prints (by decide) (by decide), demo_prints (by decide) (by decide)⟩
      · rw [mem_singleton.1 hp]
        exact ⟨demo_prints (by decide) (by decide), demo_prints (by decide) (by decide), demo_prints (by decide) (by decide)⟩)
    (by decide)
  refine ⟨b', fs', e1, _, _, e4, by rw [e3]; decide, ?_⟩
  show [((1 : Int), (-2 : Int), (3 : Int)), (4, 5, 6)].map (fun p => (demoFmt.round p.1, demoFmt.round p.2.1, demoFmt.round p.2.2)) = _
  decide +kernel

example : demoFmt.val [] = (demoFmt.zero, true) := rfl

example : ∃ S : Finset Nat, 15 ^ 13 < S.card ∧ ∀ d ∈ S, ((⟨0, fun _ => ['0'], fun _ => (0, false)⟩ : Fmt Nat).put d).length ≤ 13 :=
  ⟨Finset.range (15 ^ 13 + 1), by simp, by intro d _; show 1 ≤ 13; omega⟩

end Verif.Io
