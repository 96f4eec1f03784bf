import Verif.Main.Args
/-!
# C208, C209: the arguments of `mimmo++`
-/
namespace Verif.Main

open Verif.Xml (Text trim)

/-- The options of the help. -/
inductive Opt where
  | dictionary | log | console | results | path | expert
  deriving DecidableEq, Repr

/-- The spellings of the help, and a third one the help does not list. -/
def Opt.spells : Opt → List Text
  | .dictionary => ["--dictionary=".toList, "-d=".toList, "dict=".toList]
  | .log => ["--log-verbosity=".toList, "-lv=".toList, "vlog=".toList]
  | .console => ["--console-verbosity=".toList, "-cv=".toList, "vconsole=".toList]
  | .results => ["--optional-results=".toList, "-or=".toList, "opt-res=".toList]
  | .path => ["--optional-results-path=".toList, "-orp=".toList, "opt-res-path=".toList]
  | .expert => ["--expert=".toList, "-e=".toList, "expert=".toList]

/-- An argument: option, spelling and value. -/
structure Arg where
  opt : Opt
  sp : Text
  v : Text
  deriving DecidableEq, Repr

def Arg.text (a : Arg) : Text := a.sp ++ a.v

/-- An argument as documented: one of the spellings, a value without blanks at its ends and without `=`. -/
structure Arg.Ok (a : Arg) : Prop where
  spell : a.sp ∈ a.opt.spells
  noEq : '=' ∉ a.v
  trimmed : trim a.text = a.text

/-! ## Finding the keys -/

/-- A key: characters other than `=`, then `=`. -/
def IsKey (k : Text) : Prop := ∃ s, k = s ++ ['='] ∧ '=' ∉ s

theorem prefix_append {key sp v : Text} (hk : IsKey key) (hs : IsKey sp) :
    key.isPrefixOf (sp ++ v) = key.isPrefixOf sp := by
  obtain ⟨k, rfl, hk⟩ := hk
  obtain ⟨s, rfl, hs⟩ := hs
  rw [Bool.eq_iff_iff, List.isPrefixOf_iff_prefix, List.isPrefixOf_iff_prefix]
  constructor
  · intro h
    by_cases hl : (k ++ ['=']).length ≤ (s ++ ['=']).length
    · exact List.prefix_of_prefix_length_le h (List.prefix_append _ _) hl
    · exfalso
      have h2 : (s ++ ['=']) <+: (k ++ ['=']) :=
        List.prefix_of_prefix_length_le (List.prefix_append _ _) h (by omega)
      have h3 : (s ++ ['=']) <+: k :=
        List.prefix_of_prefix_length_le h2 (List.prefix_append _ _) (by simp at hl ⊢; omega)
      exact hk (h3.subset (by simp))
  · intro h
    exact h.trans (List.prefix_append _ _)

theorem find_none {key v : Text} (hk : IsKey key) (hv : '=' ∉ v) : find key v = none := by
  obtain ⟨k, rfl, hk⟩ := hk
  induction v with
  | nil => simp [find]
  | cons c v ih =>
    rw [find, if_neg, ih fun h => hv (List.mem_cons_of_mem _ h)]
    · rfl
    · intro h
      exact hv ((List.isPrefixOf_iff_prefix.1 h).subset (by simp))

theorem find_append {key : Text} (hk : IsKey key) (v : Text) (hv : '=' ∉ v) :
    ∀ s, '=' ∉ s → find key (s ++ ['='] ++ v) = find key (s ++ ['=']) := by
  intro s
  induction s with
  | nil =>
    intro _
    show find key ('=' :: v) = find key ['=']
    have h := prefix_append (v := v) hk ⟨[], rfl, by simp⟩
    rw [find, find]
    have h' : key.isPrefixOf ('=' :: v) = key.isPrefixOf ['='] := h
    rw [h', find_none hk hv]
    rw [find_none hk (by simp)]
  | cons c s ih =>
    intro hs
    have h := prefix_append (v := v) hk (sp := c :: s ++ ['=']) ⟨c :: s, rfl, hs⟩
    have e : c :: s ++ ['='] ++ v = c :: (s ++ ['='] ++ v) := rfl
    have e' : c :: s ++ ['='] = c :: (s ++ ['=']) := rfl
    rw [e] at h ⊢
    rw [e'] at h ⊢
    rw [find, find, h, ih fun hm => hs (List.mem_cons_of_mem _ hm)]

theorem search_append {sp v : Text} (hs : IsKey sp) (hv : '=' ∉ v) :
    ∀ (keys : List Text) (k : Nat), (∀ key ∈ keys, IsKey key ∨ key = []) →
      search (sp ++ v) keys k = search sp keys k := by
  intro keys
  induction keys with
  | nil => intros; rfl
  | cons key keys ih =>
    intro k hk
    have h1 : find key (sp ++ v) = find key sp := by
      obtain ⟨s, rfl, hs'⟩ := hs
      rcases hk key (by simp) with h | rfl
      · exact find_append h v hv s hs'
      · cases s <;> rfl
    rw [search, search, h1, ih (k + 1) fun key hm => hk key (List.mem_cons_of_mem _ hm)]

theorem isKey_of {k : Text} (h : k.getLast? = some '=' ∧ '=' ∉ k.dropLast) : IsKey k := by
  obtain ⟨h1, h2⟩ := h
  have hne : k ≠ [] := by rintro rfl; cases h1
  rw [List.getLast?_eq_some_getLast hne] at h1
  exact ⟨k.dropLast, by rw [← Option.some.inj h1]; exact (List.dropLast_append_getLast hne).symm, h2⟩

theorem keymap_keys : ∀ key ∈ keymap ++ [[]], IsKey key ∨ key = [] := by
  have h : ∀ key ∈ keymap, key.getLast? = some '=' ∧ '=' ∉ key.dropLast := by decide
  intro key hk
  rcases List.mem_append.1 hk with hk | hk
  · exact .inl (isKey_of (h key hk))
  · exact .inr (List.mem_singleton.1 hk)

/-- The number of an option in the map. -/
def Opt.num : Opt → Nat
  | .dictionary => 0 | .log => 1 | .console => 2 | .results => 3 | .path => 4 | .expert => 5

theorem num_inj {a b : Opt} (h : a.num = b.num) : a = b := by cases a <;> cases b <;> first | rfl | cases h

theorem spells_key (o : Opt) : ∀ sp ∈ o.spells, sp.getLast? = some '=' ∧ '=' ∉ sp.dropLast := by
  cases o <;> decide

theorem spells_search (o : Opt) : ∀ sp ∈ o.spells,
    (search sp (keymap ++ [[]]) 0).map (fun r => (r.1 % 6, r.2.2 + r.2.1.length)) = some (o.num, sp.length) := by
  cases o <;> decide

theorem classify_arg {a : Arg} (h : a.Ok) : classify a.text = some (a.opt.num, a.v) := by
  have h1 := search_append (isKey_of (spells_key a.opt a.sp h.spell)) h.noEq (keymap ++ [[]]) 0 keymap_keys
  have h2 := spells_search a.opt a.sp h.spell
  rw [classify, Arg.text, h1]
  cases hs : search a.sp (keymap ++ [[]]) 0 with
  | none => rw [hs] at h2; cases h2
  | some r =>
    rw [hs] at h2
    have h3 := Option.some.inj h2
    have h4 := (Prod.mk.inj h3)
    show some (r.1 % 6, (a.sp ++ a.v).drop (r.2.2 + r.2.1.length)) = _
    rw [h4.1, h4.2, List.drop_left]

/-! ## The map -/

theorem assign_fold (l : List Text) (m : Nat → Option Text) (j : Nat) (t : Text)
    (hd : l.Pairwise fun a b => ∀ x y, classify a = some x → classify b = some y → x.1 ≠ y.1) :
    l.foldl assign m j = some t ↔
      (∃ a ∈ l, classify a = some (j, t)) ∨ ((∀ a ∈ l, ∀ x, classify a = some x → x.1 ≠ j) ∧ m j = some t) := by
  induction l generalizing m with
  | nil => simp
  | cons a l ih =>
    obtain ⟨h1, h2⟩ := List.pairwise_cons.1 hd
    rw [List.foldl_cons, ih _ h2]
    cases hc : classify a with
    | none =>
      have e : assign m a = m := by rw [assign, hc]
      rw [e]
      simp [hc]
    | some r =>
      have e : assign m a = fun j => if j = r.1 then some r.2 else m j := by rw [assign, hc]
      rw [e]
      by_cases hj : j = r.1
      · subst hj
        constructor
        · rintro (⟨b, hb, hbc⟩ | ⟨_, hm⟩)
          · exact (h1 b hb _ _ hc hbc rfl).elim
          · simp only [if_true, Option.some.injEq] at hm
            exact .inl ⟨a, by simp, by rw [hc, ← hm]⟩
        · rintro (⟨b, hb, hbc⟩ | ⟨hn, _⟩)
          · rcases List.mem_cons.1 hb with rfl | hb
            · rw [hc] at hbc
              right
              refine ⟨fun b hb x hx he => h1 b hb _ _ hc hx he.symm, ?_⟩
              show (if r.1 = r.1 then some r.2 else m r.1) = some t
              rw [if_pos rfl, Option.some.inj hbc]
            · exact .inl ⟨b, hb, hbc⟩
          · exact (hn a (by simp) r hc rfl).elim
      · simp only [if_neg hj]
        constructor
        · rintro (⟨b, hb, hbc⟩ | ⟨hn, hm⟩)
          · exact .inl ⟨b, List.mem_cons_of_mem _ hb, hbc⟩
          · refine .inr ⟨fun b hb x hx => ?_, hm⟩
            rcases List.mem_cons.1 hb with rfl | hb
            · rw [hc] at hx
              rw [← Option.some.inj hx]
              exact fun h => hj h.symm
            · exact hn b hb x hx
        · rintro (⟨b, hb, hbc⟩ | ⟨hn, hm⟩)
          · rcases List.mem_cons.1 hb with rfl | hb
            · rw [hc] at hbc
              exact (hj (by rw [Option.some.inj hbc])).elim
            · exact .inl ⟨b, hb, hbc⟩
          · exact .inr ⟨fun b hb => hn b (List.mem_cons_of_mem _ hb), hm⟩

/-- The table of the arguments lists each of them once. -/
def Table (hash : List Text → List Text) : Prop := ∀ l, (hash l).Perm l.dedup

theorem table_fold {hash : List Text → List Text} (hh : Table hash) (l : List Text)
    (hd : ∀ a ∈ l, ∀ b ∈ l, a ≠ b → ∀ x y, classify a = some x → classify b = some y → x.1 ≠ y.1)
    (j : Nat) (t : Text) :
    (hash l).foldl assign (fun _ => none) j = some t ↔ ∃ a ∈ l, classify a = some (j, t) := by
  have hmem : ∀ a, a ∈ hash l ↔ a ∈ l := fun a => by rw [(hh l).mem_iff, List.mem_dedup]
  have hnd : (hash l).Nodup := (hh l).nodup_iff.2 (List.nodup_dedup l)
  rw [assign_fold]
  · simp only [hmem, reduceCtorEq, and_false, or_false]
  · refine List.Pairwise.imp_of_mem ?_ hnd
    intro a b ha hb hne
    exact hd a ((hmem a).1 ha) b ((hmem b).1 hb) hne

/-- The verbosity of the words of the help. -/
def wordOf (dflt : Verbose) (t : Text) : Verbose :=
  if t = "quiet".toList then .quiet else if t = "normal".toList then .normal
  else if t = "full".toList then .full else dflt

theorem verbosity_word (t : Text) (d : Verbose) : verbosity t d = wordOf d t := by
  by_cases h1 : t = "quiet".toList
  · subst h1; cases d <;> decide
  · by_cases h2 : t = "normal".toList
    · subst h2; cases d <;> decide
    · by_cases h3 : t = "full".toList
      · subst h3; cases d <;> decide
      · rw [verbosity, wordOf]
        simp only [if_neg h1, if_neg h2, if_neg h3]
        rfl

theorem opt_eq {o : Option Text} {x : Option Text} (h : ∀ t, o = some t ↔ x = some t) : o = x := by
  cases o with
  | none =>
    cases x with
    | none => rfl
    | some t => exact absurd ((h t).2 rfl) (by simp)
  | some t => exact ((h t).1 rfl).symm

/-- The value given to an option. -/
def valueOf (L : List Arg) (o : Opt) : Option Text := (L.find? (·.opt == o)).map Arg.v

theorem valueOf_iff {L : List Arg} (hd : (L.map Arg.opt).Nodup) (o : Opt) (t : Text) :
    valueOf L o = some t ↔ ∃ a ∈ L, a.opt = o ∧ a.v = t := by
  induction L with
  | nil => simp [valueOf]
  | cons a L ih =>
    obtain ⟨h1, h2⟩ := List.nodup_cons.1 hd
    rw [valueOf, List.find?_cons]
    by_cases ho : a.opt = o
    · simp only [ho, BEq.rfl, Option.map_some, Option.some.injEq, List.mem_cons]
      constructor
      · intro h; exact ⟨a, .inl rfl, ho, h⟩
      · rintro ⟨b, rfl | hb, hbo, hbt⟩
        · exact hbt
        · exact (h1 (List.mem_map.2 ⟨b, hb, hbo.trans ho.symm⟩)).elim
    · have hne : (a.opt == o) = false := by simpa using ho
      rw [hne]
      show valueOf L o = some t ↔ _
      rw [ih h2]
      constructor
      · rintro ⟨b, hb, h⟩; exact ⟨b, List.mem_cons_of_mem _ hb, h⟩
      · rintro ⟨b, hb, h⟩
        rcases List.mem_cons.1 hb with rfl | hb
        · exact (ho h.1).elim
        · exact ⟨b, hb, h⟩

/-- **C208.**  Options of the help, each at most once, in any order, with values without `=`: the executable
runs with the dictionary given, the other values given, and the documented defaults; words other than those of
the help leave the default verbosity.  Values with `=` and other arguments are missing. -/
theorem C208_documented_partial (hash : List Text → List Text) (hh : Table hash) (prog : Text) (L : List Arg)
    (hok : ∀ a ∈ L, a.Ok) (hd : (L.map Arg.opt).Nodup) (d : Text) (hdict : valueOf L .dictionary = some d) :
    readArguments hash (prog :: L.map Arg.text) = .run
      { dict := d
        path := (valueOf L .path).getD ".".toList
        optres := valueOf L .results == some "yes".toList
        expert := valueOf L .expert == some "yes".toList
        vlog := ((valueOf L .log).map (wordOf .full)).getD .full
        vconsole := ((valueOf L .console).map (wordOf .normal)).getD .normal } := by
  have htrim : (L.map Arg.text).map trim = L.map Arg.text := by
    rw [List.map_map]
    exact List.map_congr_left fun a ha => (hok a ha).trimmed
  have hL : L ≠ [] := by rintro rfl; cases hdict
  have hlen := List.length_pos_iff.2 hL
  have heq : ∀ a ∈ L, '=' ∈ a.text := by
    intro a ha
    obtain ⟨s, hs, _⟩ := isKey_of (spells_key a.opt a.sp (hok a ha).spell)
    rw [Arg.text, hs]; simp
  have hmem : ∀ x, x ∈ hash (L.map Arg.text) ↔ x ∈ L.map Arg.text := fun x => by
    rw [(hh _).mem_iff, List.mem_dedup]
  have hhelp : ∀ t : Text, '=' ∉ t → (hash (L.map Arg.text)).contains t = false := by
    intro t ht
    rw [← Bool.not_eq_true, List.contains_iff_mem, hmem]
    intro hm
    obtain ⟨a, ha, rfl⟩ := List.mem_map.1 hm
    exact ht (heq a ha)
  have hmap : ∀ o : Opt, (hash (L.map Arg.text)).foldl assign (fun _ => none) o.num = valueOf L o := by
    intro o
    refine opt_eq fun t => ?_
    rw [table_fold hh, valueOf_iff hd]
    · constructor
      · rintro ⟨x, hx, hc⟩
        obtain ⟨a, ha, rfl⟩ := List.mem_map.1 hx
        rw [classify_arg (hok a ha)] at hc
        have := Prod.mk.inj (Option.some.inj hc)
        exact ⟨a, ha, num_inj this.1, this.2⟩
      · rintro ⟨a, ha, rfl, rfl⟩
        exact ⟨a.text, List.mem_map.2 ⟨a, ha, rfl⟩, classify_arg (hok a ha)⟩
    · intro x hx y hy hne p q hp hq he
      obtain ⟨a, ha, rfl⟩ := List.mem_map.1 hx
      obtain ⟨b, hb, rfl⟩ := List.mem_map.1 hy
      rw [classify_arg (hok a ha)] at hp
      rw [classify_arg (hok b hb)] at hq
      rw [← Option.some.inj hp, ← Option.some.inj hq] at he
      refine hne (congrArg Arg.text ?_)
      exact List.inj_on_of_nodup_map hd ha hb (num_inj he)
  rw [readArguments, if_neg (by simp; omega)]
  simp only [List.tail_cons, htrim, hhelp "--help".toList (by decide), hhelp "-h".toList (by decide),
    Bool.or_self, Bool.false_eq_true, if_false]
  have h0 := hmap .dictionary
  rw [Opt.num] at h0
  rw [h0, hdict]
  have h1 := hmap .log
  have h2 := hmap .console
  have h3 := hmap .results
  have h4 := hmap .path
  have h5 := hmap .expert
  simp only [Opt.num] at h1 h2 h3 h4 h5
  simp only [infoOf, h1, h2, h3, h4, h5, verbosity_word]
  congr 2
  · cases valueOf L .results <;> rfl
  · cases valueOf L .expert <;> rfl

/-- `mimmo++ -d=run.xml --console-verbosity=full -e=yes` -/
def usual : List Arg :=
  [⟨.dictionary, "-d=".toList, "run.xml".toList⟩, ⟨.console, "--console-verbosity=".toList, "full".toList⟩,
   ⟨.expert, "-e=".toList, "yes".toList⟩]

theorem table_dedup : Table List.dedup := fun _ => .refl _

example : readArguments List.dedup ("mimmo++".toList :: usual.map Arg.text) = .run
    { dict := "run.xml".toList, vconsole := .full, expert := true } := by
  rw [C208_documented_partial List.dedup table_dedup _ usual
    (fun a ha => by
      simp only [usual, List.mem_cons, List.not_mem_nil, or_false] at ha
      rcases ha with rfl | rfl | rfl <;> exact ⟨by decide, by decide, by decide⟩)
    (by decide) "run.xml".toList (by decide)]
  decide

/-- **C208, violated.**  An argument which is no option at all is taken for the dictionary. -/
theorem C208_stray_fails : classify "-verbose".toList = some (0, "-verbose".toList) ∧
    (∃ hash, Table hash ∧ readArguments hash ["mimmo++".toList, "-d=run.xml".toList, "-verbose".toList]
      = .run { dict := "-verbose".toList }) ∧
    ∃ hash, Table hash ∧ readArguments hash ["mimmo++".toList, "-d=run.xml".toList, "-verbose".toList]
      = .run { dict := "run.xml".toList } := by
  refine ⟨by decide, ⟨List.dedup, table_dedup, by decide⟩, ⟨fun l => l.dedup.reverse, ?_, by decide⟩⟩
  exact fun l => List.reverse_perm _

/-- **C208, violated.**  An option is searched for in the middle of the argument: the path of the results is
taken for the dictionary when it has `-d=` inside. -/
theorem C208_inside_fails : classify "-orp=out-d=2".toList = some (0, "2".toList) := by decide

/-! ## C209 -/

/-- **C209.**  When no two different arguments are taken for the same option, what `mimmo++` does depends
neither on the order of the arguments nor on that of the table. -/
theorem C209_order_partial (h₁ h₂ : List Text → List Text) (t₁ : Table h₁) (t₂ : Table h₂) (p₁ p₂ : Text)
    (a₁ a₂ : List Text) (hp : a₁.Perm a₂)
    (hd : ∀ a ∈ a₁.map trim, ∀ b ∈ a₁.map trim, a ≠ b → ∀ x y, classify a = some x → classify b = some y →
      x.1 ≠ y.1) : readArguments h₁ (p₁ :: a₁) = readArguments h₂ (p₂ :: a₂) := by
  have hpt : (a₁.map trim).Perm (a₂.map trim) := hp.map _
  have hm1 : ∀ x, x ∈ h₁ (a₁.map trim) ↔ x ∈ a₁.map trim := fun x => by rw [(t₁ _).mem_iff, List.mem_dedup]
  have hm2 : ∀ x, x ∈ h₂ (a₂.map trim) ↔ x ∈ a₁.map trim := fun x => by
    rw [(t₂ _).mem_iff, List.mem_dedup, hpt.mem_iff]
  have hmap : (h₁ (a₁.map trim)).foldl assign (fun _ => none) = (h₂ (a₂.map trim)).foldl assign (fun _ => none) := by
    funext j
    refine opt_eq fun t => ?_
    rw [table_fold t₁ _ hd, table_fold t₂ _ (fun a ha b hb => hd a (hpt.mem_iff.2 ha) b (hpt.mem_iff.2 hb))]
    simp only [hpt.mem_iff]
  have hc : ∀ t : Text, (h₁ (a₁.map trim)).contains t = (h₂ (a₂.map trim)).contains t := by
    intro t
    rw [Bool.eq_iff_iff, List.contains_iff_mem, List.contains_iff_mem, hm1, hm2]
  have hl := hp.length_eq
  unfold readArguments
  simp only [List.tail_cons, List.length_cons, hl, hmap]
  have h1 := hc "--help".toList
  have h2 := hc "-h".toList
  simp only [h1, h2]
  rfl

example : ∀ a ∈ ["-d=x".toList, "-e=yes".toList].map trim, ∀ b ∈ ["-d=x".toList, "-e=yes".toList].map trim,
    a ≠ b → ∀ x y, classify a = some x → classify b = some y → x.1 ≠ y.1 := by
  intro a ha b hb hne x y hx hy
  simp only [List.map_cons, List.map_nil, List.mem_cons, List.not_mem_nil, or_false] at ha hb
  have e1 : trim "-d=x".toList = "-d=x".toList := by decide
  have e2 : trim "-e=yes".toList = "-e=yes".toList := by decide
  rw [e1, e2] at ha hb
  have c1 : classify "-d=x".toList = some (0, "x".toList) := by decide
  have c2 : classify "-e=yes".toList = some (5, "yes".toList) := by decide
  rcases ha with rfl | rfl <;> rcases hb with rfl | rfl
  · exact (hne rfl).elim
  · rw [c1] at hx; rw [c2] at hy; rw [← Option.some.inj hx, ← Option.some.inj hy]; decide
  · rw [c2] at hx; rw [c1] at hy; rw [← Option.some.inj hx, ← Option.some.inj hy]; decide
  · exact (hne rfl).elim

/-- **C209, violated.**  Of two values of the same option the table chooses. -/
theorem C209_twice_fails : ∃ h₁ h₂, Table h₁ ∧ Table h₂ ∧
    readArguments h₁ ["mimmo++".toList, "-d=a".toList, "-d=b".toList] = .run { dict := "b".toList } ∧
    readArguments h₂ ["mimmo++".toList, "-d=a".toList, "-d=b".toList] = .run { dict := "a".toList } :=
  ⟨List.dedup, fun l => l.dedup.reverse, table_dedup, fun l => List.reverse_perm _, by decide, by decide⟩

/-- **C209.**  The help is shown whatever the other arguments are. -/
theorem C209_help (hash : List Text → List Text) (hh : Table hash) (prog : Text) (args : List Text)
    (h : "--help".toList ∈ args ∨ "-h".toList ∈ args) : readArguments hash (prog :: args) = .help := by
  have hm : ∀ x, x ∈ hash (args.map trim) ↔ x ∈ args.map trim := fun x => by
    rw [(hh _).mem_iff, List.mem_dedup]
  have hne : args ≠ [] := by rintro rfl; simp at h
  have hl := List.length_pos_iff.2 hne
  have hc : ((hash (args.map trim)).contains "--help".toList || (hash (args.map trim)).contains "-h".toList) = true := by
    rw [Bool.or_eq_true, List.contains_iff_mem, List.contains_iff_mem, hm, hm]
    rcases h with h | h
    · exact .inl (List.mem_map.2 ⟨_, h, by decide⟩)
    · exact .inr (List.mem_map.2 ⟨_, h, by decide⟩)
  rw [readArguments, if_neg (by simp; omega)]
  exact if_pos hc

example : "-h".toList ∈ ["-d=x".toList, "-h".toList] := by decide

end Verif.Main
