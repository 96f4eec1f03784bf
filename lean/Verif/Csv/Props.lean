import Verif.Csv.Model
import Verif.Io.DisplsProps
/-
C167: numbers, arrays and vectors in files.
-/
namespace Verif.Csv
open Verif.Xml Verif.Create Verif.Io Verif.Field
open List hiding get get_of_mem

variable {D α : Type}

/-- white space only -/
def Blank (w : Text) : Prop := ∀ c ∈ w, space c = true

/-- `x`, written by `<<`, is read as `y` by `>>`, whatever white space is before it, if white space, a comma or nothing follows -/
structure Reads (S : Scal D) (x y : D) : Prop where
  ne : S.put x ≠ []
  get : ∀ w r, Blank w → Stops r → S.get ⟨w ++ (S.put x ++ r), false, false⟩ = (some y, ⟨r, r.isEmpty, false⟩)

/-- nothing is read from white space -/
def Ends (S : Scal D) : Prop := ∀ w, Blank w → S.get ⟨w, false, false⟩ = (none, ⟨[], true, true⟩)

theorem ready_blank {w : Text} (hw : Blank w) : (⟨w, false, false⟩ : In).ready = (false, ⟨[], true, true⟩) := by
  have h := drop_spaces (t := []) hw
  simp only [append_nil] at h
  simp [In.ready, In.good, h]

theorem good_open (t : Text) : (⟨t, false, false⟩ : In).good = true := rfl

theorem char_blank {w : Text} (hw : Blank w) : (⟨w, false, false⟩ : In).char.2 = ⟨[], true, true⟩ := by
  unfold In.char
  simp only
  rw [ready_blank hw]
  rfl

theorem char_comma (u : Text) : (⟨',' :: u, false, false⟩ : In).char = (some ',', ⟨u, false, false⟩) := by
  have := ready_at (b := []) (by simp) (c := ',') (by decide) u
  unfold In.char
  simp only
  rw [show (⟨',' :: u, false, false⟩ : In) = ⟨[] ++ ',' :: u, false, false⟩ from rfl, this]
  rfl

/-- **C167**: which numbers are read as they are written: floating point numbers as they are printed, `int`, `bool`; nothing is read from
white space -/
theorem C167_numbers (F : Fmt D) :
    (∀ x, Prints F x → Reads (realS F) x (F.round x)) ∧ (∀ v, INT_MIN ≤ v → v ≤ INT_MAX → Reads intS v v) ∧
    (∀ v, LONG_MIN ≤ v → v ≤ LONG_MAX → Reads longS v v) ∧ (∀ b, Reads boolS b b) ∧ Ends (realS F) ∧ Ends intS ∧ Ends longS ∧ Ends boolS := by
  have hint : ∀ v, intText v ≠ [] := intText_ne
  have hl : ∀ v, LONG_MIN ≤ v → v ≤ LONG_MAX → Reads longS v v := fun v h1 h2 =>
    ⟨hint v, fun w r hw hr => whole_at hw (intText_whole v) hr h1 h2⟩
  have el : Ends longS := by
    intro w hw
    show In.whole _ _ _ = _
    unfold In.whole; simp only; rw [ready_blank hw]; rfl
  refine ⟨fun x hx => ⟨number_ne hx.1, fun w r hw hr => ?_⟩, fun v h1 h2 => ⟨hint v, fun w r hw hr => whole_at hw (intText_whole v) hr h1 h2⟩, hl,
    fun b => ⟨by cases b <;> simp [boolS], fun w r hw hr => ?_⟩, ?_, ?_, el, ?_⟩
  · show In.num F _ = _
    have h := num_at F hw hx.1 hr
    rw [hx.2] at h
    exact h
  · cases b
    · have h := (hl 0 (by decide) (by decide)).get w r hw hr
      have e : longS.put 0 = ['0'] := by show intText 0 = _; unfold intText; rw [if_neg (by omega)]; show toText 0 = _; rw [toText]; decide
      rw [e] at h
      show (boolS.get ⟨w ++ (['0'] ++ r), false, false⟩) = _
      have h' : (⟨w ++ (['0'] ++ r), false, false⟩ : In).long = _ := h
      simp only [boolS, h']
      simp
    · have h := (hl 1 (by decide) (by decide)).get w r hw hr
      have e : longS.put 1 = ['1'] := by show intText 1 = _; unfold intText; rw [if_neg (by omega)]; show toText 1 = _; rw [toText]; decide
      rw [e] at h
      show (boolS.get ⟨w ++ (['1'] ++ r), false, false⟩) = _
      have h' : (⟨w ++ (['1'] ++ r), false, false⟩ : In).long = _ := h
      simp only [boolS, h']
      simp
  · intro w hw
    show In.num F _ = _
    unfold In.num; simp only; rw [ready_blank hw]; rfl
  · intro w hw
    show In.whole _ _ _ = _
    unfold In.whole; simp only; rw [ready_blank hw]; rfl
  · intro w hw
    have h' : (⟨w, false, false⟩ : In).long = _ := el w hw
    simp only [boolS, h']
    simp

theorem stops_comma (u : Text) : Stops (',' :: u) := .inr ⟨',', u, rfl, .inr rfl⟩
theorem stops_blank {w : Text} (hw : Blank w) : Stops w := by
  cases w with
  | nil => exact .inl rfl
  | cons c u => exact .inr ⟨c, u, rfl, .inl (hw c mem_cons_self)⟩
theorem stops_line (u : Text) : Stops ('\n' :: u) := .inr ⟨'\n', u, rfl, .inl (by decide)⟩

theorem mid_at {S : Scal D} {x y : D} (h : Reads S x y) (v : Option D) {w : Text} (hw : Blank w) (u : Text) :
    readMid S v ⟨w ++ (S.put x ++ ',' :: u), false, false⟩ = (some y, ⟨u, false, false⟩) := by
  unfold readMid
  rw [if_pos (good_open _), h.get w _ hw (stops_comma u)]
  simp only [isEmpty_cons, char_comma]
  rfl

theorem last_at {S : Scal D} {x y : D} (h : Reads S x y) (v : Option D) {w : Text} (hw : Blank w) {r : Text} (hr : Stops r) :
    readLast S v ⟨w ++ (S.put x ++ r), false, false⟩ = (some y, ⟨r, r.isEmpty, false⟩) := by
  unfold readLast
  rw [if_pos (good_open _), h.get w r hw hr]
  rfl

/-- a number that no delimiter follows is not read -/
theorem mid_open {S : Scal D} {x y : D} (h : Reads S x y) (v : Option D) {w e : Text} (hw : Blank w) (he : Blank e) :
    (readMid S v ⟨w ++ (S.put x ++ e), false, false⟩).1 = v ∧ (readMid S v ⟨w ++ (S.put x ++ e), false, false⟩).2.fail = true ∧
      (readMid S v ⟨w ++ (S.put x ++ e), false, false⟩).2.rest = [] := by
  unfold readMid
  rw [if_pos (good_open _), h.get w e hw (stops_blank he)]
  simp only
  cases e with
  | nil => exact ⟨rfl, rfl, rfl⟩
  | cons c u =>
    have := char_blank he
    simp only [isEmpty_cons] at this ⊢
    rw [this]
    exact ⟨rfl, rfl, rfl⟩

theorem mid_blank {S : Scal D} (hS : Ends S) (v : Option D) {w : Text} (hw : Blank w) : readMid S v ⟨w, false, false⟩ = (v, ⟨[], true, true⟩) := by
  unfold readMid
  rw [if_pos (good_open _), hS w hw]
  rfl

/-- **C167**: a number that was written is read, in CSV mode and outside of it -/
theorem C167_number {S : Scal D} {x y : D} (h : Reads S x y) :
    csvOne (scalE S) ((scalE S).putMid x) = .done y ∧ plainOne S (S.put x) = .done y := by
  constructor
  · have := mid_at h none (w := []) (by simp [Blank]) []
    unfold csvOne
    show ofVar (readMid S none ⟨S.put x ++ [','], false, false⟩).1 = _
    rw [show (⟨S.put x ++ [','], false, false⟩ : In) = ⟨[] ++ (S.put x ++ ',' :: []), false, false⟩ from rfl, this]
    rfl
  · have := h.get [] [] (by simp [Blank]) (.inl rfl)
    rw [nil_append, append_nil] at this
    unfold plainOne
    rw [this]
    rfl

/-- **C167**: a file with one number and nothing or white space after it, in CSV mode: the number is not taken and a variable that was never set
is returned -/
theorem C167_number_fails {S : Scal D} {x y : D} (h : Reads S x y) {e : Text} (he : Blank e) : csvOne (scalE S) (S.put x ++ e) = .undefined := by
  obtain ⟨h1, -, -⟩ := mid_open h none (w := []) (by simp [Blank]) he
  unfold csvOne
  show ofVar (readMid S none ⟨S.put x ++ e, false, false⟩).1 = _
  rw [nil_append] at h1
  rw [h1]
  rfl

/-- numbers separated by commas -/
def row (S : Scal D) : List D → Text
  | [] => []
  | [x] => S.put x
  | x :: xs => S.put x ++ ',' :: row S xs

theorem put_row (S : Scal D) : ∀ l : List D, l ≠ [] → putList (fun x => S.put x ++ [',']) (fun x => S.put x ++ ['\n']) l = row S l ++ ['\n'] := by
  intro l
  induction l with
  | nil => intro h; exact absurd rfl h
  | cons x l ih =>
    intro _
    cases l with
    | nil => rfl
    | cons y l =>
      have e : row S (x :: y :: l) = S.put x ++ ',' :: row S (y :: l) := by rw [row]; simp
      rw [putList, ih (by simp), e]
      · simp
      · simp

theorem arr_at {S : Scal D} {l l' : List D} (h : Forall₂ (Reads S) l l') : l ≠ [] → ∀ (v : Option D) (vs : List (Option D)), vs.length = l.length →
    ∀ {w : Text}, Blank w → ∀ {r : Text}, Stops r →
    readArr S v vs ⟨w ++ (row S l ++ r), false, false⟩ = (l'.map some, ⟨r, r.isEmpty, false⟩) := by
  induction h with
  | nil => intro h; exact absurd rfl h
  | @cons x y l l' hx hl ih =>
    intro _ v vs hlen w hw r hr
    cases vs with
    | nil => cases hlen
    | cons a vs =>
      have hlen' : vs.length = l.length := by simpa using hlen
      cases hl with
      | nil =>
        have : vs = [] := length_eq_zero_iff.1 hlen'
        subst this
        rw [readArr, row, last_at hx v hw hr]
        rfl
      | @cons x2 y2 l2 l2' hx2 hl2 =>
        cases vs with
        | nil => cases hlen'
        | cons b vs =>
          rw [readArr, if_pos (good_open _)]
          · have e : w ++ (row S (x :: x2 :: l2) ++ r) = w ++ (S.put x ++ ',' :: (row S (x2 :: l2) ++ r)) := by
              rw [row]
              · simp
              · simp
            rw [e, mid_at hx v hw]
            have := ih (by simp) (some y) (b :: vs) hlen' (w := []) (by simp [Blank]) hr
            rw [nil_append] at this
            simp only [this]
            rfl
          · simp

theorem all_set : ∀ l : List D, allSet (l.map some) = some l := by
  intro l
  induction l with
  | nil => rfl
  | cons x l ih => rw [map_cons, allSet, ih]; rfl

/-- **C167**: an array that was written is read -/
theorem C167_array {S : Scal D} (zero : D) {l l' : List D} (h : Forall₂ (Reads S) l l') (hne : l ≠ []) :
    csvOne (arrE S zero l.length) ((arrE S zero l.length).putMid l) = .done l' := by
  have := arr_at h hne (some zero) (replicate l.length none) (by simp) (w := []) (by simp [Blank]) (stops_line [])
  unfold csvOne
  show ofVar (allSet (readArr S (some zero) (replicate l.length none) ⟨putList _ _ l, false, false⟩).1) = _
  rw [put_row S l hne]
  rw [nil_append] at this
  rw [this]
  rw [all_set]
  rfl

theorem vec_step (E : Elem α) {v v' : E.Var} {acc : List α} {s s' : In} {x : α} (hg : s.good = true) (h : E.readMid v s = (v', s')) (hf : s'.fail = false)
    (hv : E.value v' = some x) (hl : s'.rest.length < s.rest.length) : readVec E v acc s = readVec E v' (acc ++ [x]) s' := by
  rw [readVec, if_pos hg]
  simp only [h, hf, hv]
  simp [hl]

theorem vec_stop (E : Elem α) {v : E.Var} {acc : List α} {s : In} (hg : s.good = false) : readVec E v acc s = .done (acc, s) := by
  rw [readVec, if_neg (by simp [hg])]

theorem vec_fail (E : Elem α) {v : E.Var} {acc : List α} {s : In} (hg : s.good = true) (hf : (E.readMid v s).2.fail = true) :
    ∃ s', readVec E v acc s = .done (acc, s') := by
  have hb : (E.readMid v s).2.good = false := by simp [In.good, hf]
  rw [readVec, if_pos hg]
  simp only [hf, if_true]
  split
  · exact ⟨_, vec_stop E hb⟩
  · rw [if_neg (by simp [hb])]; exact ⟨_, rfl⟩

theorem arr_blank {S : Scal D} (hS : Ends S) (v : Option D) {w : Text} (hw : Blank w) : ∀ vs : List (Option D), vs ≠ [] →
    (readArr S v vs ⟨w, false, false⟩).2.fail = true := by
  intro vs
  have stuck : ∀ (vs : List (Option D)) (v : Option D), (readArr S v vs ⟨[], true, true⟩).2.fail = true := by
    intro vs v
    cases vs with
    | nil => rfl
    | cons a vs =>
      cases vs with
      | nil => rfl
      | cons b vs => rw [readArr]; · rfl
                     · simp
  cases vs with
  | nil => intro h; exact absurd rfl h
  | cons a vs =>
    intro _
    cases vs with
    | nil =>
      rw [readArr]
      unfold readLast
      rw [if_pos (good_open _), hS w hw]
      rfl
    | cons b vs =>
      rw [readArr, if_pos (good_open _), mid_blank hS v hw]
      · exact stuck (b :: vs) v
      · simp

theorem row_ne {S : Scal D} {l l' : List D} (h : Forall₂ (Reads S) l l') (hne : l ≠ []) : row S l ≠ [] := by
  cases h with
  | nil => exact absurd rfl hne
  | @cons x y l l' hx hl =>
    cases l with
    | nil => exact hx.ne
    | cons z l => rw [row]; · simp
                  · simp

theorem rows_at {S : Scal D} (hS : Ends S) (zero : D) {n : Nat} (hn : n ≠ 0) {ls ls' : List (List D)} (h : Forall₂ (Forall₂ (Reads S)) ls ls') :
    (∀ l ∈ ls, l.length = n) → ∀ (v : List (Option D)) (acc : List (List D)) (w e : Text), v.length = n → Blank w → Blank e →
    ∃ s, readVec (arrE S zero n) v acc ⟨w ++ (ls.flatMap (fun l => row S l ++ ['\n']) ++ e), false, false⟩ = .done (acc ++ ls', s) := by
  induction h with
  | nil =>
    intro _ v acc w e hv hw he
    have hb : Blank (w ++ e) := by
      intro c hc
      rcases mem_append.1 hc with hc | hc
      · exact hw c hc
      · exact he c hc
    have := arr_blank hS (some zero) hb v (by intro h; rw [h] at hv; exact hn hv.symm)
    obtain ⟨s, e'⟩ := vec_fail (arrE S zero n) (v := v) (acc := acc) (s := ⟨w ++ e, false, false⟩) rfl this
    exact ⟨s, by rw [append_nil, ← e']; rfl⟩
  | @cons l l' ls ls' hl hls ih =>
    intro hlen v acc w e hv hw he
    have hll := hlen l mem_cons_self
    have hne : l ≠ [] := by intro h; rw [h] at hll; exact hn hll.symm
    have h1 := arr_at hl hne (some zero) v (by rw [hv, hll]) hw (stops_line (ls.flatMap (fun l => row S l ++ ['\n']) ++ e))
    have e1 : w ++ ((l :: ls).flatMap (fun l => row S l ++ ['\n']) ++ e) = w ++ (row S l ++ '\n' :: (ls.flatMap (fun l => row S l ++ ['\n']) ++ e)) := by
      simp
    have hlen2 : l'.length = n := by rw [← hl.length_eq, hll]
    obtain ⟨s, e2⟩ := ih (fun l hm => hlen l (mem_cons_of_mem _ hm)) (l'.map some) (acc ++ [l']) ['\n'] e (by simp [hlen2])
      (by intro c hc; rw [mem_singleton.1 hc]; decide) he
    refine ⟨s, ?_⟩
    rw [e1, vec_step (arrE S zero n) (v' := l'.map some) (s' := ⟨'\n' :: (ls.flatMap (fun l => row S l ++ ['\n']) ++ e), false, false⟩) (x := l') rfl h1 rfl
      (all_set l') (by have := length_pos_iff.2 (row_ne hl hne); simp; omega)]
    rw [show acc ++ l' :: ls' = acc ++ [l'] ++ ls' by simp, ← e2]
    rfl

theorem put_rows (S : Scal D) (zero : D) (n : Nat) (hn : n ≠ 0) : ∀ ls : List (List D), (∀ l ∈ ls, l.length = n) →
    putVec (arrE S zero n) ls = ls.flatMap (fun l => row S l ++ ['\n']) := by
  intro ls
  induction ls with
  | nil => intro _; rfl
  | cons l ls ih =>
    intro h
    have hl : l ≠ [] := by intro e; have := h l mem_cons_self; rw [e] at this; exact hn this.symm
    have := ih fun l hm => h l (mem_cons_of_mem _ hm)
    unfold putVec at this ⊢
    cases ls with
    | nil =>
      show putList (fun x => S.put x ++ [',']) (fun x => S.put x ++ ['\n']) l = _
      rw [put_row S l hl]
      simp
    | cons l2 ls =>
      rw [putList, this]
      · show putList (fun x => S.put x ++ [',']) (fun x => S.put x ++ ['\n']) l ++ _ = _
        rw [put_row S l hl]
        simp
      · simp

/-- **C167**: a vector of arrays that was written is read; also with more white space at the end -/
theorem C167_arrays {S : Scal D} (hS : Ends S) (zero : D) {n : Nat} (hn : n ≠ 0) {ls ls' : List (List D)} (h : Forall₂ (Forall₂ (Reads S)) ls ls')
    (hlen : ∀ l ∈ ls, l.length = n) {e : Text} (he : Blank e) : csvVec (arrE S zero n) (putVec (arrE S zero n) ls ++ e) = .done ls' := by
  obtain ⟨s, h1⟩ := rows_at hS zero hn h hlen (replicate n none) [] [] e (by simp) (by simp [Blank]) he
  unfold csvVec
  rw [put_rows S zero n hn ls hlen]
  rw [nil_append, nil_append] at h1
  show (readVec (arrE S zero n) (replicate n none) [] _).bind _ = _
  rw [h1]
  rfl

theorem nums_at {S : Scal D} {l l' : List D} (h : Forall₂ (Reads S) l l') : ∀ (v : Option D) (acc : List D) (u : Text),
    ∃ v', readVec (scalE S) v acc ⟨l.flatMap (fun x => S.put x ++ [',']) ++ u, false, false⟩ = readVec (scalE S) v' (acc ++ l') ⟨u, false, false⟩ := by
  induction h with
  | nil => intro v acc u; exact ⟨v, by simp⟩
  | @cons x y l l' hx hl ih =>
    intro v acc u
    obtain ⟨v', e⟩ := ih (some y) (acc ++ [y]) u
    refine ⟨v', ?_⟩
    have h1 := mid_at hx v (w := []) (by simp [Blank]) (l.flatMap (fun x => S.put x ++ [',']) ++ u)
    have e1 : (x :: l).flatMap (fun x => S.put x ++ [',']) ++ u = [] ++ (S.put x ++ ',' :: (l.flatMap (fun x => S.put x ++ [',']) ++ u)) := by simp
    rw [e1]
    have e2 := vec_step (scalE S) (v := v) (acc := acc) (s := ⟨[] ++ (S.put x ++ ',' :: (l.flatMap (fun x => S.put x ++ [',']) ++ u)), false, false⟩) (v' := some y)
      (s' := ⟨l.flatMap (fun x => S.put x ++ [',']) ++ u, false, false⟩) (x := y) rfl h1 rfl rfl (by simp; omega)
    rw [e2]
    refine e.trans ?_
    simp

/-- **C167** (partial): numbers, each with a comma after it, are read as a vector.  Full statement: also the vectors that are written;
`C167_vector_fails` -/
theorem C167_vector_partial {S : Scal D} (hS : Ends S) {l l' : List D} (h : Forall₂ (Reads S) l l') {e : Text} (he : Blank e) :
    csvVec (scalE S) (l.flatMap (fun x => S.put x ++ [',']) ++ e) = .done l' := by
  obtain ⟨v', e1⟩ := nums_at h none [] e
  obtain ⟨s, e2⟩ := vec_fail (scalE S) (v := v') (acc := [] ++ l') (s := ⟨e, false, false⟩) rfl (by
    show (readMid S v' ⟨e, false, false⟩).2.fail = true
    rw [mid_blank hS v' he])
  unfold csvVec
  show (readVec (scalE S) none [] _).bind _ = _
  rw [e1, e2]
  rfl

/-- **C167**: a vector of numbers that was written is read without its last number -/
theorem C167_vector_fails {S : Scal D} {l l' : List D} {x y : D} (h : Forall₂ (Reads S) l l') (hx : Reads S x y) :
    csvVec (scalE S) (putVec (scalE S) (l ++ [x])) = .done l' := by
  have hput : ∀ l : List D, putVec (scalE S) (l ++ [x]) = l.flatMap (fun x => S.put x ++ [',']) ++ (S.put x ++ ['\n']) := by
    intro l
    induction l with
    | nil => rfl
    | cons z l ih =>
      unfold putVec at ih ⊢
      rw [cons_append, putList, ih]
      · simp [scalE]
      · simp
  obtain ⟨v', e1⟩ := nums_at h none [] (S.put x ++ ['\n'])
  obtain ⟨-, hf, -⟩ := mid_open hx v' (w := []) (e := ['\n']) (by simp [Blank]) (by intro c hc; rw [mem_singleton.1 hc]; decide)
  obtain ⟨s, e2⟩ := vec_fail (scalE S) (v := v') (acc := [] ++ l') (s := ⟨S.put x ++ ['\n'], false, false⟩) rfl hf
  unfold csvVec
  show (readVec (scalE S) none [] _).bind _ = _
  rw [hput, e1, e2]
  rfl

/-- **C167**: the empty vector is read as it is written -/
theorem C167_empty {S : Scal D} (hS : Ends S) : putVec (scalE S) [] = [] ∧ csvVec (scalE S) [] = .done [] := by
  have := C167_vector_partial hS (l := []) (l' := []) .nil (e := []) (by simp [Blank])
  exact ⟨rfl, this⟩

/-! ### Examples -/

/-- C167: two rows of three whole numbers; three numbers in a vector come back as two -/
example : csvVec (arrE intS 0 3) "1,2,3\n-4,5,6\n".toList = .done [[1, 2, 3], [-4, 5, 6]] := by
  have h := C167_arrays (C167_numbers demoFmt).2.2.2.2.2.1 (0 : Int) (n := 3) (by omega) (ls := [[1, 2, 3], [-4, 5, 6]]) (ls' := [[1, 2, 3], [-4, 5, 6]])
    (by
      have r : ∀ v ∈ ([1, 2, 3, -4, 5, 6] : List Int), Reads intS v v := by
        intro v hv
        have : ∀ v ∈ ([1, 2, 3, -4, 5, 6] : List Int), INT_MIN ≤ v ∧ v ≤ INT_MAX := by decide
        exact (C167_numbers demoFmt).2.1 v (this v hv).1 (this v hv).2
      exact .cons (.cons (r _ (by simp)) (.cons (r _ (by simp)) (.cons (r _ (by simp)) .nil)))
        (.cons (.cons (r _ (by simp)) (.cons (r _ (by simp)) (.cons (r _ (by simp)) .nil))) .nil))
    (by decide) (e := []) (by simp [Blank])
  have e : putVec (arrE intS 0 3) [[1, 2, 3], [-4, 5, 6]] ++ [] = "1,2,3\n-4,5,6\n".toList := by decide +kernel
  rw [e] at h
  exact h

example : ∃ x : Int, Reads intS x x ∧ csvVec (scalE intS) (putVec (scalE intS) [7, x]) = .done [7] := by
  have r := (C167_numbers demoFmt).2.1
  exact ⟨8, r 8 (by decide) (by decide), C167_vector_fails (.cons (r 7 (by decide) (by decide)) .nil) (r 8 (by decide) (by decide))⟩

end Verif.Csv
