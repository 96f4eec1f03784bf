import Verif.Csv.Props
/-
C168: fields in files.
-/
namespace Verif.Csv
open Verif.Xml Verif.Create Verif.Io Verif.Field
open List hiding get get_of_mem

variable {D α : Type}

/-- `x`, written at the end of a row, is read as `y`, whatever the variable (with `I`) held before -/
def Reads₁ (E : Elem α) (I : E.Var → Prop) (x y : α) : Prop :=
  (∃ u, E.putLast x = u ++ ['\n']) ∧ ∀ v w r, I v → Blank w →
    ∃ v', E.readLast v ⟨w ++ (E.putLast x ++ r), false, false⟩ = (v', ⟨'\n' :: r, false, false⟩) ∧ E.value v' = some y ∧ I v'

theorem reads_scal {S : Scal D} {x y : D} (h : Reads S x y) : Reads₁ (scalE S) (fun _ => True) x y := by
  refine ⟨⟨_, rfl⟩, ?_⟩
  intro v w r _ hw
  refine ⟨some y, ?_, rfl, trivial⟩
  have := last_at h v hw (stops_line r)
  show readLast S v ⟨w ++ (S.put x ++ ['\n'] ++ r), false, false⟩ = _
  rw [append_assoc]
  exact this

theorem reads_arr {S : Scal D} (zero : D) {n : Nat} (hn : n ≠ 0) {l l' : List D} (h : Forall₂ (Reads S) l l') (hl : l.length = n) :
    Reads₁ (arrE S zero n) (fun v => length v = n) l l' := by
  have hne : l ≠ [] := by intro e; rw [e] at hl; exact hn hl.symm
  have e : (arrE S zero n).putLast l = row S l ++ ['\n'] := put_row S l hne
  refine ⟨⟨_, e⟩, ?_⟩
  intro v w r hv hw
  refine ⟨l'.map some, ?_, all_set l', (by rw [length_map, ← h.length_eq, hl] : (l'.map some).length = n)⟩
  have := arr_at h hne (some zero) v (by rw [hv, hl]) hw (stops_line r)
  rw [e, append_assoc]
  exact this

theorem has_ids {d : Data α} {k : Nat} (h : k ∉ d.map Prod.fst) : has d k = false := by
  cases e : has d k with
  | false => rfl
  | true =>
    obtain ⟨x, hx, he⟩ := any_eq_true.1 e
    exact absurd (mem_map.2 ⟨x, hx, by simpa using he⟩) h

theorem rows_read (E : Elem α) (I : E.Var → Prop) {d d' : Data α} (h : Forall₂ (fun a b => a.1 = b.1 ∧ Reads₁ E I a.2 b.2) d d') :
    (∀ e ∈ d, (e.1 : Int) ≤ LONG_MAX) → ∀ (acc : Data α) (id : Option Int) (v : E.Var) (w r : Text), I v → Blank w →
    ((acc ++ d').map Prod.fst).Nodup →
    ∃ s, readRows E d.length id v acc ⟨w ++ (d.flatMap (fun e => intText e.1 ++ ',' :: E.putLast e.2) ++ r), false, false⟩ = .done (acc ++ d', s) := by
  induction h with
  | nil => intro _ acc id v w r _ _ _; exact ⟨_, by rw [length_nil, readRows, append_nil]⟩
  | @cons a b d d' hab hd ih =>
    intro hl acc id v w r hv hw hnd
    obtain ⟨e1, -, hr⟩ := hab
    have hk := (C167_numbers demoFmt).2.2.1 (a.1 : Int) (by unfold LONG_MIN; omega) (hl a mem_cons_self)
    have h1 := mid_at hk id hw (E.putLast a.2 ++ (d.flatMap (fun e => intText e.1 ++ ',' :: E.putLast e.2) ++ r))
    obtain ⟨v', h2, h3, h4⟩ := hr v [] (d.flatMap (fun e => intText e.1 ++ ',' :: E.putLast e.2) ++ r) hv (by simp [Blank])
    have hnot : b.1 ∉ acc.map Prod.fst := by
      rw [map_append, map_cons] at hnd
      intro hm
      exact (nodup_append.1 hnd).2.2 _ hm _ mem_cons_self rfl
    obtain ⟨s, h5⟩ := ih (fun e he => hl e (mem_cons_of_mem _ he)) (acc ++ [(b.1, b.2)]) (some (a.1 : Int)) v' ['\n'] r h4
      (by intro c hc; rw [mem_singleton.1 hc]; decide) (by simpa using hnd)
    refine ⟨s, ?_⟩
    have e0 : w ++ ((a :: d).flatMap (fun e => intText e.1 ++ ',' :: E.putLast e.2) ++ r) =
        w ++ (longS.put (a.1 : Int) ++ ',' :: (E.putLast a.2 ++ (d.flatMap (fun e => intText e.1 ++ ',' :: E.putLast e.2) ++ r))) := by
      simp [longS]
    rw [nil_append] at h2
    rw [length_cons, readRows, e0, h1]
    simp only [h2, h3]
    rw [if_neg (by omega), show ((a.1 : Int)).toNat = b.1 from by rw [e1]; rfl]
    unfold ins
    rw [has_ids hnot]
    simp only [Bool.false_eq_true, if_false]
    rw [show acc ++ b :: d' = acc ++ [(b.1, b.2)] ++ d' by simp, ← h5]
    rfl

/-- a name of one word -/
def OneWord (t : Text) : Prop := t ≠ [] ∧ ∀ c ∈ t, space c = false

theorem word_last {a : Text} (h : OneWord a) (x : Option Text) {w u : Text} (hw : Blank w) {c : Char} (hc : space c = true) :
    readLast wordS x ⟨w ++ (a ++ c :: u), false, false⟩ = (some a, ⟨c :: u, false, false⟩) := by
  unfold readLast
  rw [if_pos (good_open _)]
  have := word_at hw h.1 h.2 (t := c :: u) (.inr ⟨c, u, rfl, hc⟩)
  simp only [wordS, this]
  rfl

/-- **C168** (partial): a field with values and a name of one word that was written to a CSV file is read with its name, its location, its
ids in order and its values.  Full statement: for all fields; `C168_empty_fails`, `C168_words_fails`, `C168_no_name_fails` -/
theorem C168_round_trip_partial (E : Elem α) (I : E.Var → Prop) (h0 : I E.init) (arr : Bool) {m : Mpv α} {d' : Data α} (hname : OneWord m.name)
    (hl1 : INT_MIN ≤ m.loc) (hl2 : m.loc ≤ INT_MAX) (hne : m.data ≠ []) (hids : Ok m.data) (hlong : ∀ e ∈ m.data, (e.1 : Int) ≤ LONG_MAX)
    (hlen : (m.data.length : Int) < LONG_MAX) (h : Forall₂ (fun a b => a.1 = b.1 ∧ Reads₁ E I a.2 b.2) m.data d') :
    csvMpv E arr (putMpv E m) = .done { m with data := d' } := by
  have hkeys : m.data.map Prod.fst = d'.map Prod.fst := by
    clear hids hlong hne hlen
    generalize m.data = d at h
    induction h with
    | nil => rfl
    | cons hab _ ih => rw [map_cons, map_cons, hab.1, ih]
  obtain ⟨-, hint, hlg, -⟩ := C167_numbers demoFmt
  have h1 := word_last hname (some []) (w := []) (u := intText m.loc ++ '\n' :: (intText m.data.length ++ '\n' ::
    (m.data.flatMap (fun e => intText e.1 ++ ',' :: E.putLast e.2) ++ []))) (by simp [Blank]) (c := '\n') (by decide)
  have hb : Blank ['\n'] := by intro c hc; rw [mem_singleton.1 hc]; decide
  have h2 := last_at (hint m.loc hl1 hl2) none hb (stops_line (intText m.data.length ++ '\n' ::
    (m.data.flatMap (fun e => intText e.1 ++ ',' :: E.putLast e.2) ++ [])))
  have h3 := last_at (hlg m.data.length (by unfold LONG_MIN; omega) (by omega)) none hb (stops_line
    (m.data.flatMap (fun e => intText e.1 ++ ',' :: E.putLast e.2) ++ []))
  obtain ⟨s, h4⟩ := rows_read E I h hlong [] none E.init ['\n'] [] h0 hb (by rw [nil_append, ← hkeys]; exact hids)
  have hv : validLoc m.loc = true := by
    unfold validLoc
    by_cases h : m.loc < 0
    · simp [h]; omega
    · simp [h]
  unfold csvMpv putMpv
  rw [if_neg (by intro h; exact hne (length_eq_zero_iff.1 h))]
  unfold readMpv
  rw [nil_append, append_nil] at h1
  rw [append_nil] at h2 h3 h4
  simp only [h1]
  have h2' : readLast intS none ⟨'\n' :: (intText m.loc ++ '\n' :: (intText m.data.length ++ '\n' ::
    (m.data.flatMap (fun e => intText e.1 ++ ',' :: E.putLast e.2)))), false, false⟩ = _ := h2
  have h3' : readLast longS none ⟨'\n' :: (intText m.data.length ++ '\n' ::
    (m.data.flatMap (fun e => intText e.1 ++ ',' :: E.putLast e.2))), false, false⟩ = _ := h3
  have h4' : readRows E m.data.length none E.init [] ⟨'\n' :: (m.data.flatMap (fun e => intText e.1 ++ ',' :: E.putLast e.2)), false, false⟩ = _ := h4
  simp only [h2', h3', isEmpty_cons, hv]
  simp only [Bool.false_eq_true, if_false, if_true]
  have hk' : (if (arr && decide ((m.data.length : Int) = LONG_MAX)) = true then 0 else (m.data.length : Int)) = m.data.length :=
    if_neg (by simp; intros; omega)
  rw [hk', if_neg (by omega), Int.toNat_natCast, h4']
  rfl

/-- a field without values is written as an empty file: its name and location are lost -/
theorem C168_empty_fails (E : Elem α) (arr : Bool) (m : Mpv α) (h : m.data = []) :
    putMpv E m = [] ∧ csvMpv E arr (putMpv E m) = .done { name := "data".toList, loc := 0, data := [] } := by
  have e : putMpv E m = [] := by unfold putMpv; rw [if_pos (by rw [h]; rfl)]
  refine ⟨e, ?_⟩
  rw [e]
  have h1 : readLast wordS (some []) ⟨[], false, false⟩ = (some [], ⟨[], true, true⟩) := rfl
  have h2 : readLast intS none ⟨[], true, true⟩ = (none, ⟨[], true, true⟩) := rfl
  have h3 : readLast longS none ⟨[], true, true⟩ = (none, ⟨[], true, true⟩) := rfl
  unfold csvMpv readMpv
  simp only [h1, h2, h3]
  cases arr <;> rfl

theorem whole_none {lo hi : Int} {w : Text} (hw : Blank w) {c : Char} (hs : space c = false) (hd : isDigit c = false) (hm : c ≠ '-') (hp : c ≠ '+') (u : Text) :
    ((⟨w ++ c :: u, false, false⟩ : In).whole lo hi).2 = ⟨c :: u, false, true⟩ := by
  unfold In.whole
  simp only
  rw [ready_at hw hs]
  have e : signOf (c :: u) = (false, c :: u) := by
    unfold signOf
    split
    · rename_i h; injection h with h; exact absurd h hm
    · rename_i h; injection h with h; exact absurd h hp
    · rfl
  simp only [e, takeWhile_cons, dropWhile_cons, hd]
  simp

theorem last_none {lo hi : Int} (S : Scal Int) (hS : S.get = In.whole lo hi) (x : Option Int) {w : Text} (hw : Blank w) {c : Char} (hs : space c = false)
    (hd : isDigit c = false) (hm : c ≠ '-') (hp : c ≠ '+') (u : Text) : readLast S x ⟨w ++ c :: u, false, false⟩ = (x, ⟨c :: u, false, true⟩) := by
  unfold readLast
  rw [if_pos (good_open _), hS]
  simp only [whole_none hw hs hd hm hp]
  rfl

/-- **C168**: a name of several words: only the first of them is read, and all values are lost, without any sign of it -/
theorem C168_words_fails (E : Elem α) (arr : Bool) {m : Mpv α} (hne : m.data ≠ []) {a b : Text} {c : Char} (hn : m.name = a ++ ' ' :: c :: b)
    (ha : OneWord a) (hs : space c = false) (hd : isDigit c = false) (hm : c ≠ '-') (hp : c ≠ '+') :
    csvMpv E arr (putMpv E m) = .done { name := a, loc := 0, data := [] } := by
  unfold csvMpv putMpv
  rw [if_neg (by intro h; exact hne (length_eq_zero_iff.1 h)), hn]
  generalize intText m.loc ++ _ = u
  have h1 := word_last ha (some []) (w := []) (u := c :: (b ++ '\n' :: u)) (by simp [Blank]) (c := ' ') (by decide)
  have h2 := last_none intS rfl none (w := [' ']) (by intro c hc; rw [mem_singleton.1 hc]; decide) hs hd hm hp (b ++ '\n' :: u)
  have e : a ++ ' ' :: c :: b ++ '\n' :: u = [] ++ (a ++ ' ' :: c :: (b ++ '\n' :: u)) := by simp
  unfold readMpv
  rw [e, h1]
  have h2' : readLast intS none ⟨' ' :: c :: (b ++ '\n' :: u), false, false⟩ = _ := h2
  have h3 : readLast longS none ⟨c :: (b ++ '\n' :: u), false, true⟩ = (none, ⟨c :: (b ++ '\n' :: u), false, true⟩) := rfl
  simp only [h2', h3]
  cases arr <;> rfl

/-- **C168**: a field without a name: the location is read as the name, the number of values as the location and the first id as the number of
values; with the first id 0 a field without values is read, otherwise a variable is used that was never set -/
theorem C168_no_name_fails (E : Elem α) (arr : Bool) {m : Mpv α} {k : Nat} {x : α} {d : Data α} (hn : m.name = []) (hd : m.data = (k, x) :: d)
    (hlen : (m.data.length : Int) ≤ INT_MAX) (hk : (k : Int) < LONG_MAX) :
    (k = 0 → csvMpv E arr (putMpv E m) = .done { name := intText m.loc, loc := m.data.length, data := [] }) ∧
    (k ≠ 0 → csvMpv E arr (putMpv E m) = .undefined) := by
  obtain ⟨-, hint, hlg, -⟩ := C167_numbers demoFmt
  have hb : Blank ['\n'] := by intro c hc; rw [mem_singleton.1 hc]; decide
  have hword : OneWord (intText m.loc) := by
    refine ⟨intText_ne _, ?_⟩
    have := whole_number (intText_whole m.loc)
    exact fun c hc => number_clean this c hc
  unfold csvMpv putMpv
  rw [if_neg (by rw [hd]; simp), hn, nil_append]
  have e1 : m.data.flatMap (fun e => intText e.1 ++ ',' :: E.putLast e.2) = intText k ++ ',' :: (E.putLast x ++ d.flatMap (fun e => intText e.1 ++ ',' :: E.putLast e.2)) := by
    rw [hd]; simp
  rw [e1]
  generalize E.putLast x ++ _ = u
  have h1 : readLast wordS (some []) ⟨'\n' :: (intText m.loc ++ '\n' :: (intText m.data.length ++ '\n' :: (intText k ++ ',' :: u))), false, false⟩ = _ :=
    word_last hword (some []) hb (c := '\n') (by decide)
  have h2 : readLast intS none ⟨'\n' :: (intText m.data.length ++ '\n' :: (intText k ++ ',' :: u)), false, false⟩ = _ :=
    last_at (hint m.data.length (by unfold INT_MIN; omega) hlen) none hb (stops_line _)
  have h3 : readLast longS none ⟨'\n' :: (intText k ++ ',' :: u), false, false⟩ = _ :=
    last_at (hlg (k : Int) (by unfold LONG_MIN; omega) (by omega)) none hb (stops_comma u)
  have hv : validLoc (m.data.length : Int) = true := by
    unfold validLoc
    have : ¬ ((m.data.length : Int) < 0) := by omega
    simp [this]
  unfold readMpv
  simp only [h1, h2, h3, isEmpty_cons, hv]
  simp only [Bool.false_eq_true, if_false, if_true]
  have hk' : (if (arr && decide ((k : Int) = LONG_MAX)) = true then 0 else (k : Int)) = k := if_neg (by simp; intros; omega)
  rw [hk', if_neg (by omega), Int.toNat_natCast]
  constructor
  · rintro rfl
    rfl
  · intro hk0
    cases k with
    | zero => exact absurd rfl hk0
    | succ k =>
      have h4 : readMid longS none ⟨',' :: u, false, false⟩ = (none, ⟨',' :: u, false, true⟩) := by
        unfold readMid
        rw [if_pos (good_open _)]
        have := whole_none (lo := LONG_MIN) (hi := LONG_MAX) (w := []) (by simp [Blank]) (c := ',') (by decide) (by decide) (by decide) (by decide) u
        rw [nil_append] at this
        show (if ((⟨',' :: u, false, false⟩ : In).whole LONG_MIN LONG_MAX).2.fail = true then _ else _) = _
        simp only [longS, In.long, this]
        rfl
      rw [readRows, h4]
      rfl

/-- **C168**: a location that does not exist is taken from a CSV file as it is -/
theorem C168_location_fails (E : Elem α) (I : E.Var → Prop) (h0 : I E.init) (arr : Bool) {m : Mpv α} {d' : Data α} (hname : OneWord m.name)
    (hl1 : INT_MIN ≤ m.loc) (hl2 : m.loc ≤ INT_MAX) (hbad : m.loc < 0 ∨ 3 < m.loc) (hne : m.data ≠ []) (hids : Ok m.data)
    (hlong : ∀ e ∈ m.data, (e.1 : Int) ≤ LONG_MAX) (hlen : (m.data.length : Int) < LONG_MAX)
    (h : Forall₂ (fun a b => a.1 = b.1 ∧ Reads₁ E I a.2 b.2) m.data d') :
    ∃ f, csvMpv E arr (putMpv E m) = .done f ∧ (f.loc < 0 ∨ 3 < f.loc) :=
  ⟨_, C168_round_trip_partial E I h0 arr hname hl1 hl2 hne hids hlong hlen h, hbad⟩

/-! ### Binary files -/

/-- what is written is read -/
def Codec.Ok (C : Codec α) : Prop := ∀ x r, C.get (C.put x ++ r) = some (x, r)

structure Codecs.Ok (C : Codecs α) : Prop where
  size : C.size.Ok
  char : C.char.Ok
  int : C.int.Ok
  long : C.long.Ok
  elem : C.elem.Ok

theorem chars_read {C : Codec Char} (h : C.Ok) : ∀ (l : List Char) (r : Text), getChars C l.length (l.flatMap C.put ++ r) = some (l, r) := by
  intro l
  induction l with
  | nil => intro r; rfl
  | cons c l ih =>
    intro r
    rw [length_cons, getChars, flatMap_cons, append_assoc, h, Option.bind_some, ih]
    rfl

theorem bin_rows {C : Codecs α} (h : C.Ok) : ∀ (d acc : Data α) (r : Text), ((acc ++ d).map Prod.fst).Nodup →
    getRows C d.length acc (d.flatMap (fun e => C.long.put e.1 ++ C.elem.put e.2) ++ r) = .done (acc ++ d) := by
  intro d
  induction d with
  | nil => intro acc r _; rw [length_nil, getRows, append_nil]
  | cons a d ih =>
    intro acc r hnd
    have hnot : a.1 ∉ acc.map Prod.fst := by
      rw [map_append, map_cons] at hnd
      intro hm
      exact (nodup_append.1 hnd).2.2 _ hm _ mem_cons_self rfl
    have := ih (acc ++ [(a.1, a.2)]) r (by simpa using hnd)
    rw [length_cons, getRows, flatMap_cons, append_assoc, append_assoc, h.long]
    have he : C.elem.get (C.elem.put a.2 ++ (d.flatMap (fun e => C.long.put e.1 ++ C.elem.put e.2) ++ r)) = some _ := h.elem a.2 _
    simp only [he]
    rw [if_neg (by omega), Int.toNat_natCast]
    unfold ins
    rw [has_ids hnot]
    simp only [Bool.false_eq_true, if_false]
    rw [this]
    simp

/-- **C168**: a field that was written to a binary file is read with its location (a location that does not exist becomes the undefined one),
its ids and values, but without its name -/
theorem C168_binary_name_fails {C : Codecs α} (h : C.Ok) {m : Mpv α} (hids : Field.Ok m.data) :
    getBin C (putBin C m) = .done { name := [], loc := if 0 ≤ m.loc ∧ m.loc ≤ 3 then m.loc else 0, data := m.data } := by
  have hr := bin_rows h m.data [] [] (by rw [nil_append]; exact hids)
  rw [append_nil] at hr
  unfold getBin putBin
  rw [h.size]
  have h1 : C.int.get (C.int.put m.loc ++ (C.long.put m.data.length ++ m.data.flatMap (fun e => C.long.put e.1 ++ C.elem.put e.2))) = some _ := h.int m.loc _
  have h2 : C.long.get (C.long.put m.data.length ++ m.data.flatMap (fun e => C.long.put e.1 ++ C.elem.put e.2)) = some _ := h.long _ _
  simp only [chars_read h.char, h1, h2]
  rw [if_neg (by omega), Int.toNat_natCast, hr]
  have : clampLoc m.loc = if 0 ≤ m.loc ∧ m.loc ≤ 3 then m.loc else 0 := by
    unfold clampLoc
    simp only
    split <;> split <;> omega
  simp only [Res.bind, nil_append, this]

/-! ### Blocks -/

/-- **C168**: what one block wrote is what another block with the same directory, file and mode reads; the mode for tables overrides the
binary one; other files are not touched -/
theorem C168_same_file (E : Elem α) (arr : Bool) (C : Codecs α) (asc : Mpv α → Text) (asc' : Text → Res (Mpv α)) (fs : Files) {o : MOutput α}
    {i : MInput α} (hd : i.dir = o.dir) (hf : i.file = o.file) (hc : i.csv = o.csv) (hb : i.binary = o.binary) (hg : i.geo = none) (m f : Mpv α)
    (h : (if o.csv then csvMpv E arr (putMpv E m) else if o.binary then getBin C (putBin C m) else asc' (asc m)) = .done f) :
    (∃ i', i.getResult E arr C asc' (o.setInput E C asc fs m).2 = .done i' ∧ i'.result = some (f, none)) ∧
    (∀ p, p ≠ o.dir ++ '/' :: o.file → (o.setInput E C asc fs m).2 p = fs p) := by
  obtain ⟨d, fl, c, b, inp⟩ := o
  obtain ⟨c', b', d', fl', g, res⟩ := i
  simp only at hd hf hc hb hg h
  subst hd hf hc hb hg
  constructor
  · unfold MInput.getResult MOutput.setInput
    cases c' <;> cases b' <;> simp_all [Files.put, Res.bind]
  · intro p hp
    unfold MOutput.setInput
    cases c' <;> cases b' <;> simp_all [Files.put]

/-- **C168**: a missing file is refused -/
theorem C168_missing (E : Elem α) (arr : Bool) (C : Codecs α) (asc : Text → Res (Mpv α)) (fs : Files) (b : MInput α)
    (h : fs (b.dir ++ '/' :: b.file) = none) : b.getResult E arr C asc fs = .thrown := by
  unfold MInput.getResult
  cases hc : b.csv <;> simp [h]

/-- the ids of a geometry at a location -/
def idsOf (g : Geo) (v : Int) : List Nat := if v = 1 then g.vertices else if v = 2 then g.cells else if v = 3 then g.interfaces else []

/-- **C168** (partial): with a geometry the field has the values of the ids of the geometry, and no others.  Full statement: and its name -/
theorem C168_geometry_partial (E : Elem α) (arr : Bool) (C : Codecs α) (asc : Text → Res (Mpv α)) (fs : Files) (b : MInput α) (hc : b.csv = true) {g : Geo}
    (hg : b.geo = some g) {t : Text} (ht : fs (b.dir ++ '/' :: b.file) = some t) {m : Mpv α} (hm : csvMpv E arr t = .done m) (hok : Field.Ok m.data) :
    ∃ b' f, b.getResult E arr C asc fs = .done b' ∧ b'.result = some (f, some g) ∧ f.name = "data".toList ∧ f.loc = m.loc ∧
      ∀ j, get f.data j = if j ∈ idsOf g m.loc then get m.data j else none := by
  obtain ⟨f', h1, -, -, -, h5⟩ := C54_resize_partial (f := (⟨some g, [], locOf m.loc, m.data⟩ : Field Geo α)) hok
  refine ⟨{ b with binary := false, result := some (⟨"data".toList, m.loc, f'.data⟩, some g) }, ⟨"data".toList, m.loc, f'.data⟩, ?_, rfl, rfl, rfl, ?_⟩
  · obtain ⟨c, bi, d, fl, g', res⟩ := b
    simp only at hc hg ht
    subst hc hg
    unfold MInput.getResult
    simp [ht, hm, Res.bind, h1]
  · intro j
    show get f'.data j = _
    rw [h5 j]
    have : entities (⟨some g, [], locOf m.loc, m.data⟩ : Field Geo α) = idsOf g m.loc := by
      unfold idsOf locOf
      by_cases h1 : m.loc = 1
      · rw [if_pos h1, if_pos h1]; rfl
      · by_cases h2 : m.loc = 2
        · rw [if_neg h1, if_neg h1, if_pos h2, if_pos h2]; rfl
        · by_cases h3 : m.loc = 3
          · rw [if_neg h1, if_neg h1, if_neg h2, if_neg h2, if_pos h3, if_pos h3]; rfl
          · rw [if_neg h1, if_neg h1, if_neg h2, if_neg h2, if_neg h3, if_neg h3]; rfl
    rw [this]

/-- **C168**: a field with a geometry has lost its name, and with a location that is not points, cells or interfaces all its values -/
theorem C168_geometry_fails (E : Elem α) (arr : Bool) (C : Codecs α) (asc : Text → Res (Mpv α)) (fs : Files) (b : MInput α) (hc : b.csv = true) {g : Geo}
    (hg : b.geo = some g) {t : Text} (ht : fs (b.dir ++ '/' :: b.file) = some t) {m : Mpv α} (hm : csvMpv E arr t = .done m)
    (hl : m.loc < 1 ∨ 3 < m.loc) : ∃ b', b.getResult E arr C asc fs = .done b' ∧ b'.result = some (⟨"data".toList, m.loc, []⟩, some g) := by
  have hu : locOf m.loc = .undefined := by
    unfold locOf
    rw [if_neg (by omega), if_neg (by omega), if_neg (by omega)]
  obtain ⟨c, bi, d, fl, g', res⟩ := b
  simp only at hc hg ht
  subst hc hg
  refine ⟨_, by unfold MInput.getResult; simp only [if_true, ht, Bool.false_eq_true, if_false, hm, Res.bind, hu]; rfl, rfl⟩

/-- a field of two values -/
def demoField : Mpv Int := { name := "pressure".toList, loc := 2, data := [(4, 10), (0, -3)] }

example : csvMpv (scalE intS) false "pressure\n2\n2\n4,10\n0,-3\n".toList = .done demoField := by
  have r : ∀ v ∈ ([10, -3] : List Int), Reads intS v v := by
    intro v hv
    have : ∀ v ∈ ([10, -3] : List Int), INT_MIN ≤ v ∧ v ≤ INT_MAX := by decide
    exact (C167_numbers demoFmt).2.1 v (this v hv).1 (this v hv).2
  have h := C168_round_trip_partial (scalE intS) (fun _ => True) trivial false (m := demoField) (d' := demoField.data)
    (by unfold OneWord demoField; decide +kernel) (by decide) (by decide) (by decide) (by unfold Field.Ok; decide) (by decide) (by decide)
    (.cons ⟨rfl, reads_scal (r _ (by simp))⟩ (.cons ⟨rfl, reads_scal (r _ (by simp))⟩ .nil))
  have e : putMpv (scalE intS) demoField = "pressure\n2\n2\n4,10\n0,-3\n".toList := by decide +kernel
  rw [e] at h
  exact h

example : csvMpv (arrE intS 0 3) true (putMpv (arrE intS 0 3) { name := "u".toList, loc := 1, data := [(7, [1, 2, 3])] }) =
    .done { name := "u".toList, loc := 1, data := [(7, [1, 2, 3])] } := by
  have r : ∀ v ∈ ([1, 2, 3] : List Int), Reads intS v v := by
    intro v hv
    have : ∀ v ∈ ([1, 2, 3] : List Int), INT_MIN ≤ v ∧ v ≤ INT_MAX := by decide
    exact (C167_numbers demoFmt).2.1 v (this v hv).1 (this v hv).2
  exact C168_round_trip_partial (arrE intS 0 3) (fun v => length v = 3) rfl true (by unfold OneWord; decide +kernel) (by decide) (by decide) (by simp)
    (by unfold Field.Ok; decide) (by decide) (by decide)
    (.cons ⟨rfl, reads_arr 0 (by omega) (.cons (r _ (by simp)) (.cons (r _ (by simp)) (.cons (r _ (by simp)) .nil))) rfl⟩ .nil)

/-- lost values -/
def demoWords : Mpv Int := { demoField with name := "total".toList ++ ' ' :: 'p' :: "ressure".toList }

example : csvMpv (scalE intS) false (putMpv (scalE intS) demoWords) = .done { name := "total".toList, loc := 0, data := [] } :=
  C168_words_fails (scalE intS) false (m := demoWords) (cons_ne_nil _ _) (a := "total".toList) (c := 'p') (b := "ressure".toList) rfl
    (by unfold OneWord; decide +kernel) (by decide) (by decide) (by decide) (by decide)

example : csvMpv (scalE intS) false (putMpv (scalE intS) { demoField with name := [] }) = .undefined :=
  (C168_no_name_fails (scalE intS) false rfl (k := 4) (x := 10) (d := [(0, -3)]) rfl (by decide) (by decide)).2 (by omega)

/-- a binary format: numbers as texts that end with a blank -/
def demoNat : Codec Nat := ⟨fun v => replicate v '1' ++ [' '], fun t => some ((t.takeWhile (· == '1')).length, (t.dropWhile (· == '1')).tail)⟩

theorem demoNat_ok : demoNat.Ok := by
  have t1 : ∀ (n : Nat) (r : Text), (replicate n '1' ++ ' ' :: r).takeWhile (· == '1') = replicate n '1' := by
    intro n r
    induction n with
    | zero => rfl
    | succ n ih => rw [replicate_succ, cons_append, takeWhile_cons, ih]; rfl
  have t2 : ∀ (n : Nat) (r : Text), (replicate n '1' ++ ' ' :: r).dropWhile (· == '1') = ' ' :: r := by
    intro n r
    induction n with
    | zero => rfl
    | succ n ih => rw [replicate_succ, cons_append, dropWhile_cons, ih]; rfl
  intro x r
  unfold demoNat
  simp [t1, t2]

def demoInt : Codec Int := ⟨fun v => (if v < 0 then '-' else '+') :: demoNat.put v.natAbs, fun t =>
  match t with
  | [] => none
  | c :: t => (demoNat.get t).map fun p => (if c = '-' then - (p.1 : Int) else p.1, p.2)⟩

theorem demoInt_ok : demoInt.Ok := by
  intro x r
  unfold demoInt
  simp only [cons_append]
  rw [demoNat_ok]
  simp only [Option.map_some]
  by_cases hx : x < 0
  · rw [if_pos hx, if_pos rfl, show -(x.natAbs : Int) = x by omega]
  · rw [if_neg hx, if_neg (by decide), show (x.natAbs : Int) = x by omega]

def demoCodecs : Codecs Int :=
  { size := demoNat, char := ⟨fun c => [c], fun t => match t with | [] => none | c :: t => some (c, t)⟩
    int := demoInt, long := demoInt, elem := demoInt }

theorem demoCodecs_ok : demoCodecs.Ok := ⟨demoNat_ok, fun _ _ => rfl, demoInt_ok, demoInt_ok, demoInt_ok⟩

example : getBin demoCodecs (putBin demoCodecs demoField) = .done ⟨[], 2, [(4, 10), (0, -3)]⟩ :=
  C168_binary_name_fails demoCodecs_ok (by unfold Field.Ok; decide)

end Verif.Csv
