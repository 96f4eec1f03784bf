import Verif.Pids.Model
import Verif.Select.PidProps
/-
C233: the settings of the selection by PID in the dictionary.
-/
namespace Verif.Pids
open Verif.Xml Verif.Io Verif.Select Verif.Field Verif.Mesh Verif.Create
open List hiding get

variable {P : Type}

/-! ### Texts of PIDs -/

/-- a text of whole numbers separated by white space -/
inductive Numbers : Text → List Int → Prop
  | none {t : Text} : (∀ c ∈ t, space c = true) → Numbers t []
  | more {g n t : Text} {v : Int} {vs : List Int} : (∀ c ∈ g, space c = true) → IsWhole n v → LONG_MIN ≤ v → v ≤ LONG_MAX →
      (t = [] ∨ ∃ c u, t = c :: u ∧ space c = true) → Numbers t vs → Numbers (g ++ (n ++ t)) (v :: vs)

theorem readAll_over : ∀ (l : List Int) (s : In), s.good = false → readAll l s = l
  | [], _, _ => rfl
  | v :: vs, s, h => by
    have hr : s.ready = (false, { s with fail := true }) := by unfold In.ready; rw [h]; rfl
    have hl : s.long = (none, { s with fail := true }) := by unfold In.long In.whole; simp only [hr]; rfl
    rw [readAll, hl, readAll_over vs _ (by simp [In.good])]
    rfl

theorem readAll_blank {t : Text} (h : ∀ c ∈ t, space c = true) : ∀ l : List Int, readAll l ⟨t, false, false⟩ = l
  | [] => rfl
  | v :: vs => by
    have hd : t.dropWhile space = [] := by
      have := drop_spaces (t := []) h
      simpa using this
    have hr : (⟨t, false, false⟩ : In).ready = (false, ⟨[], true, true⟩) := by simp [In.ready, In.good, hd]
    have hl : (⟨t, false, false⟩ : In).long = (none, ⟨[], true, true⟩) := by unfold In.long In.whole; simp only [hr]; rfl
    rw [readAll, hl, readAll_over vs _ (by simp [In.good])]
    rfl

theorem readAll_numbers {t : Text} {vs : List Int} (h : Numbers t vs) : ∀ l : List Int,
    readAll l ⟨t, false, false⟩ = vs.take l.length ++ l.drop vs.length := by
  induction h with
  | none h => intro l; simp [readAll_blank h]
  | @more g n t v vs hg hn h1 h2 ht hv ih =>
    intro l
    cases l with
    | nil => simp [readAll]
    | cons a l =>
      have hs : Stops t := by
        rcases ht with rfl | ⟨c, u, rfl, hc⟩
        · exact .inl rfl
        · exact .inr ⟨c, u, rfl, .inl hc⟩
      have hl : (⟨g ++ (n ++ t), false, false⟩ : In).long = (some v, ⟨t, t.isEmpty, false⟩) := whole_at hg hn hs h1 h2
      rw [readAll, hl]
      simp only [Option.getD_some, length_cons, take_succ_cons, cons_append, drop_succ_cons, cons.injEq, true_and]
      cases t with
      | nil =>
        have : vs = [] := by
          generalize hz : ([] : Text) = z at hv
          cases hv with
          | none => rfl
          | @more g n t v vs hg hn =>
            obtain ⟨sg, ds, rfl, -, hne, -, -⟩ := hn
            simp at hz
            exact absurd hz.2.2.1 hne
        subst this
        rw [readAll_over _ _ (by simp [In.good])]
        simp
      | cons c u => exact ih l

/-! ### Reading -/

theorem count_of {x : Section} {t : Text} {n : Int} (hx : x "nPID" = some t) (hn : IsWhole (trim t) n) (h1 : -2147483648 ≤ n)
    (h2 : n ≤ 2147483647) : count x = n := by
  have hne : trim t ≠ [] := by
    obtain ⟨sg, ds, h, -, hd, -⟩ := hn
    rw [h]; simp [hd]
  have := whole_at (b := []) (t := []) (by simp) hn (.inl rfl) h1 h2
  simp only [nil_append, append_nil] at this
  unfold count
  rw [hx]
  simp only [if_neg hne, this, Option.getD_some]

/-- C233: a section with a number of PIDs and at least so many PIDs has the effect of asking for these PIDs, one by one, in their order;
what follows them is ignored. -/
theorem C233_read {x : Section} {tn t : Text} {n : Nat} (hn : x "nPID" = some tn) (hw : IsWhole (trim tn) n) (h2 : n ≤ 2147483647)
    (ht : x "PID" = some t) {vs : List Int} (hv : Numbers (trim t) vs) (hl : n ≤ vs.length) (b : Block) :
    ∃ b', absorb x b = some b' ∧ b'.pid = (vs.take n).foldl Pid.setPID { b.pid with dual := b'.pid.dual } ∧
      (x "Dual" = none → b'.pid.dual = b.pid.dual) := by
  have hc := count_of hn hw (by omega) (by omega)
  have hd : ∀ (l : List Int) (s : Pid), (l.foldl Pid.setPID s).dual = s.dual := by
    intro l
    induction l with
    | nil => intro s; rfl
    | cons a l ih => intro s; rw [foldl_cons, ih]; rfl
  have hr : (if trim t = [] then replicate n (-1) else readAll (replicate n (-1)) ⟨trim t, false, false⟩) = vs.take n := by
    have := readAll_numbers hv (replicate n (-1))
    split
    · rename_i h0
      rw [h0, readAll_blank (by simp)] at this
      rw [this]; simp; omega
    · rw [this]; simp; omega
  refine ⟨_, by unfold absorb; simp only [hc]; rw [if_neg (by omega)], ?_⟩
  simp only [ht, Int.toNat_natCast, hr, Pid.setPIDs, hd]
  refine ⟨trivial, fun h => ?_⟩
  rw [h]

theorem set_all (s : Pid) : (s.setPID (-1)).set = [-1] := by
  unfold Pid.setPID
  split
  · simp [insSet]
  · rename_i h
    have : s.set = [] := by
      by_contra hne
      exact h (.inr ⟨hne, rfl⟩)
    simp [this, insSet]

theorem set_alls (s : Pid) : ∀ k, 0 < k → ((replicate k (-1)).foldl Pid.setPID s).set = [-1]
  | 1, _ => by simp [set_all]
  | k + 2, _ => by
    rw [replicate_succ, foldl_cons]
    exact set_alls _ (k + 1) (by omega)

/-- C233 does not hold if fewer PIDs are listed than announced: all the PIDs of the geometry are asked for instead of those listed. -/
theorem C233_short_fails {x : Section} {tn t : Text} {n : Nat} (hn : x "nPID" = some tn) (hw : IsWhole (trim tn) n) (h2 : n ≤ 2147483647)
    (ht : x "PID" = some t) {vs : List Int} (hv : Numbers (trim t) vs) (hl : vs.length < n) (b : Block) :
    ∃ b', absorb x b = some b' ∧ b'.pid.set = [-1] := by
  have hc := count_of hn hw (by omega) (by omega)
  have hr : (if trim t = [] then replicate n (-1) else readAll (replicate n (-1)) ⟨trim t, false, false⟩) =
      vs ++ replicate (n - vs.length) (-1) := by
    have := readAll_numbers hv (replicate n (-1))
    rw [length_replicate, take_of_length_le (by omega), drop_replicate] at this
    split
    · rename_i h0
      rw [h0, readAll_blank (by simp)] at this
      exact this
    · exact this
  refine ⟨_, by unfold absorb; simp only [hc]; rw [if_neg (by omega)], ?_⟩
  simp only [ht, Int.toNat_natCast, hr, Pid.setPIDs, foldl_append]
  exact set_alls _ _ (by omega)

/-- C233 does not hold for a negative number of PIDs: it is not taken as 0, and the reading ends with an exception. -/
theorem C233_negative_fails {x : Section} {tn : Text} {n : Int} (hn : x "nPID" = some tn) (hw : IsWhole (trim tn) n) (h1 : -2147483648 ≤ n)
    (h2 : n < 0) (b : Block) : absorb x b = none := by
  unfold absorb
  simp only [count_of hn hw h1 (by omega), if_pos h2]

/-- C233: without a number of PIDs none is asked for, whatever is listed. -/
theorem C233_uncounted {x : Section} (hn : x "nPID" = none) (b : Block) : ∃ b', absorb x b = some b' ∧ b'.pid.set = b.pid.set ∧
    b'.pid.active = b.pid.active := by
  have hc : count x = 0 := by unfold count; rw [hn]
  refine ⟨_, by unfold absorb; simp only [hc]; rw [if_neg (by omega)], ?_⟩
  cases hx : x "PID" with
  | none => exact ⟨rfl, rfl⟩
  | some t => by_cases h : trim t = [] <;> simp [h, readAll, Pid.setPIDs]

/-! ### The trip -/

theorem whole_head {n : Text} {v : Int} (h : IsWhole n v) : n ≠ [] ∧ (∀ c ∈ n, blank c = false) := by
  obtain ⟨sg, ds, rfl, hs, hne, hd, -⟩ := h
  refine ⟨by simp [hne], fun c hc => ?_⟩
  rcases mem_append.1 hc with hc | hc
  · rcases hs with rfl | rfl | rfl
    · simp at hc
    · simp at hc; subst hc; decide
    · simp at hc; subst hc; decide
  · have := digit_not_space (hd c hc)
    unfold space at this
    simp only [Bool.or_eq_false_iff] at this
    exact this.1.1

theorem trim_int (n : Int) : trim (intText n) = intText n := trim_clean (whole_head (intText_whole n)).2

/-- the list as written, without the last tab -/
def core : List Int → Text
  | [] => []
  | [p] => intText p
  | p :: q :: l => intText p ++ '\t' :: core (q :: l)

theorem written_core : ∀ l : List Int, l ≠ [] → (l.flatMap fun p => intText p ++ ['\t']) = core l ++ ['\t']
  | [], h => absurd rfl h
  | [p], _ => by simp [core]
  | p :: q :: l, _ => by
    rw [flatMap_cons, written_core (q :: l) (by simp)]
    simp [core]

theorem core_ends : ∀ l : List Int, l ≠ [] → core l ≠ [] ∧ (∀ c ∈ (core l).head?, blank c = false) ∧ (∀ c ∈ (core l).getLast?, blank c = false)
  | [], h => absurd rfl h
  | [p], _ => by
    obtain ⟨h1, h2⟩ := whole_head (intText_whole p)
    exact ⟨h1, fun c hc => h2 c (mem_of_mem_head? hc), fun c hc => h2 c (mem_of_mem_getLast? hc)⟩
  | p :: q :: l, _ => by
    obtain ⟨h1, h2⟩ := whole_head (intText_whole p)
    obtain ⟨i1, -, i3⟩ := core_ends (q :: l) (by simp)
    rw [core]
    refine ⟨by simp, fun c hc => ?_, fun c hc => ?_⟩
    · rw [head?_append_of_ne_nil _ h1] at hc
      exact h2 c (mem_of_mem_head? hc)
    · refine i3 c ?_
      rw [getLast?_append_of_ne_nil _ (by simp)] at hc
      rwa [getLast?_cons_of_ne_nil i1] at hc

theorem core_numbers : ∀ l : List Int, (∀ p ∈ l, LONG_MIN ≤ p ∧ p ≤ LONG_MAX) → Numbers (core l) l
  | [], _ => .none (by simp [core])
  | [p], h => by
    have := Numbers.more (g := []) (t := []) (by simp) (intText_whole p) (h p (by simp)).1 (h p (by simp)).2 (.inl rfl) (.none (by simp))
    simpa [core] using this
  | p :: q :: l, h => by
    have ih := core_numbers (q :: l) (fun r hr => h r (mem_cons_of_mem _ hr))
    have hs : ∀ {t : Text} {v : List Int}, Numbers t v → Numbers ('\t' :: t) v := by
      intro t v ht
      cases ht with
      | none h =>
        refine .none fun c hc => ?_
        rcases mem_cons.1 hc with rfl | hc
        · decide
        · exact h c hc
      | @more g n t v vs hg hn h1 h2 h3 h4 =>
        refine Numbers.more (g := '\t' :: g) (fun c hc => ?_) hn h1 h2 h3 h4
        rcases mem_cons.1 hc with rfl | hc
        · decide
        · exact hg c hc
    have := Numbers.more (g := []) (by simp) (intText_whole p) (h p (by simp)).1 (h p (by simp)).2 (.inr ⟨'\t', core (q :: l), rfl, by decide⟩) (hs ih)
    simpa [core] using this

theorem set_many : ∀ (l : List Int) (s : Pid), (∀ p ∈ l, 0 ≤ p) → -1 ∉ s.set →
    -1 ∉ (l.foldl Pid.setPID s).set ∧ (∀ p, p ∈ (l.foldl Pid.setPID s).set ↔ p ∈ s.set ∨ p ∈ l) ∧ (l.foldl Pid.setPID s).active = s.active ∧
      (l.foldl Pid.setPID s).dual = s.dual
  | [], s, _, hs => by simp [hs]
  | a :: l, s, h, hs => by
    have ha := h a (by simp)
    have e : (s.setPID a).set = insSet s.set a := by
      unfold Pid.setPID
      rw [if_neg]
      rintro (h | ⟨-, h⟩)
      · exact hs h
      · omega
    have hn : -1 ∉ (s.setPID a).set := by
      rw [e, mem_insSet]
      rintro (h | h)
      · exact hs h
      · omega
    obtain ⟨i1, i2, i3, i4⟩ := set_many l (s.setPID a) (fun p hp => h p (mem_cons_of_mem _ hp)) hn
    rw [foldl_cons]
    refine ⟨i1, fun p => ?_, i3, i4⟩
    rw [i2, e, mem_insSet, mem_cons, or_assoc]

theorem flag_read (d : Bool) : (if trim (intText (if d then 1 else 0)) = [] then false else readBool (trim (intText (if d then 1 else 0)))) = d := by
  rw [trim_int, if_neg (whole_head (intText_whole _)).1]
  have h0 : intText 0 = ['0'] := by unfold intText; rw [if_neg (by omega)]; show toText 0 = _; rw [toText]; decide
  have h1 : intText 1 = ['1'] := by unfold intText; rw [if_neg (by omega)]; show toText 1 = _; rw [toText]; decide
  cases d
  · simp only [Bool.false_eq_true, if_false, h0]; decide
  · simp only [if_true, h1]; decide

theorem base_keys (s : Settings) : flushSection s (fun _ => none) "nPID" = none ∧ flushSection s (fun _ => none) "PID" = none := by
  cases hp : s.apply <;> cases hq : s.plot <;> simp [Section.set, flushSection, hp, hq]

/-- what comes back of the active PIDs -/
theorem trip {b : Block} (hp : ∀ p ∈ b.pid.activePIDs true, 0 ≤ p ∧ p ≤ LONG_MAX) (hl : (b.pid.activePIDs true).length ≤ 2147483647) :
    ∃ b', absorb (flush b fun _ => none) fresh = some b' ∧ b'.pid = (b.pid.activePIDs true).foldl Pid.setPID { dual := b.pid.dual } := by
  obtain ⟨k1, k2⟩ := base_keys b.base
  by_cases h0 : b.pid.activePIDs true = []
  · have e : flush b (fun _ => none) = (flushSection b.base fun _ => none).set "Dual" (intText (if b.pid.dual then 1 else 0)) := by
      unfold flush; simp [h0]
    have n0 : flush b (fun _ => none) "nPID" = none := by rw [e]; simp [Section.set, k1]
    have p0 : flush b (fun _ => none) "PID" = none := by rw [e]; simp [Section.set, k2]
    have d0 : flush b (fun _ => none) "Dual" = some (intText (if b.pid.dual then 1 else 0)) := by rw [e]; simp [Section.set]
    have hc : count (flush b fun _ => none) = 0 := by unfold count; rw [n0]
    refine ⟨_, by unfold absorb; simp only [hc]; rw [if_neg (by omega)], ?_⟩
    simp only [p0, d0, flag_read, h0]
    rfl
  · have e : flush b (fun _ => none) = ((((flushSection b.base fun _ => none).set "Dual" (intText (if b.pid.dual then 1 else 0))).set "nPID"
        (intText (b.pid.activePIDs true).length)).set "PID" ((b.pid.activePIDs true).flatMap fun p => intText p ++ ['\t'])) := by
      unfold flush; simp [h0]
    have n0 : flush b (fun _ => none) "nPID" = some (intText (b.pid.activePIDs true).length) := by rw [e]; simp [Section.set]
    have p0 : flush b (fun _ => none) "PID" = some ((b.pid.activePIDs true).flatMap fun p => intText p ++ ['\t']) := by rw [e]; simp [Section.set]
    have d0 : flush b (fun _ => none) "Dual" = some (intText (if b.pid.dual then 1 else 0)) := by rw [e]; simp [Section.set]
    obtain ⟨c1, c2, c3⟩ := core_ends _ h0
    have ht : trim ((b.pid.activePIDs true).flatMap fun p => intText p ++ ['\t']) = core (b.pid.activePIDs true) := by
      rw [written_core _ h0]
      exact trim_between (a := []) (b := ['\t']) (by simp) (by simp; decide) c1 c2 c3
    have hv := core_numbers (b.pid.activePIDs true) (fun p h => ⟨by have := (hp p h).1; unfold LONG_MIN; omega, (hp p h).2⟩)
    rw [← ht] at hv
    obtain ⟨b', h1, h2, -⟩ := C233_read n0 (by rw [trim_int]; exact intText_whole _) hl p0 hv le_rfl fresh
    refine ⟨b', h1, ?_⟩
    rw [take_length] at h2
    have hd : b'.pid.dual = b.pid.dual := by
      unfold absorb at h1
      simp only [count_of n0 (by rw [trim_int]; exact intText_whole _) (by omega) (by omega)] at h1
      rw [if_neg (by omega)] at h1
      simp only [Option.some.injEq] at h1
      rw [← h1]
      have hd : ∀ (l : List Int) (s : Pid), (l.foldl Pid.setPID s).dual = s.dual := by
        intro l
        induction l with
        | nil => intro s; rfl
        | cons a l ih => intro s; rw [foldl_cons, ih]; rfl
      simp only [Pid.setPIDs, hd, d0, flag_read]
    rw [h2, hd]
    rfl

/-- C233, partial (full statement: for every block): a block that was executed, written in the dictionary and read into a new block on the
same geometry, makes the same selection.  Missing, because false: a block with requests not yet executed. -/
theorem C233_roundtrip_partial {o : Obj P} (ht : o.type ≠ 3) (ho : Ok o.cells) (hl : PidsListed o) (base : Settings) (s : Pid)
    (hp : ∀ p ∈ (s.extract o).1.activePIDs true, 0 ≤ p ∧ p ≤ LONG_MAX) (hn : ((s.extract o).1.activePIDs true).length ≤ 2147483647) :
    ∃ b', absorb (flush ⟨base, (s.extract o).1⟩ fun _ => none) fresh = some b' ∧
      ((b'.pid.setGeometry o).extract o).2 = (s.extract o).2 ∧ b'.pid.dual = s.dual := by
  obtain ⟨b', h1, h2⟩ := trip (b := ⟨base, (s.extract o).1⟩) hp hn
  obtain ⟨m1, m2, m3, m4⟩ := set_many ((s.extract o).1.activePIDs true) { dual := (s.extract o).1.dual } (fun p h => (hp p h).1) (by simp)
  have hd : b'.pid.dual = s.dual := by rw [h2, m4]; exact sync_dual s
  refine ⟨b', h1, ?_, hd⟩
  obtain ⟨r, r1, r2, r3⟩ := extract_spec s ho
  obtain ⟨q, q1, q2, q3⟩ := extract_spec (b'.pid.setGeometry o) ho
  have hg : b'.pid.setGeometry o = { b'.pid with active := o.pids.foldl insActive [] } := by
    unfold Pid.setGeometry
    rw [if_neg ht, h2, m3]
  have hA : ∀ id, Active (b'.pid.setGeometry o) o id ↔ Active s o id := by
    intro id
    unfold Active
    refine exists_congr fun c => and_congr_right fun hc => and_congr_right fun hm => ?_
    rw [sync_active, hg]
    obtain ⟨f1, f2⟩ := insActive_fold o.pids []
    simp only [f2, f1]
    rw [h2]
    simp only [m1, m2, false_or, not_mem_nil, exists_false, hm, true_and]
    rw [mem_activePIDs]
    rfl
  rw [r1, q1]
  congr 1
  have hgd : (b'.pid.setGeometry o).dual = s.dual := by rw [hg]; exact hd
  have hmem : ∀ id, id ∈ q ↔ id ∈ r := fun id => by rw [q3, r3, hA, hgd]
  have nq : q.Nodup := q2.imp (fun h => Nat.ne_of_lt h)
  have nr : r.Nodup := r2.imp (fun h => Nat.ne_of_lt h)
  exact ((perm_ext_iff_of_nodup nq nr).2 hmem).eq_of_pairwise (fun x y _ _ h1 h2 => by omega) q2 r2

/-- C233 does not hold for requests not yet executed: they are not written. -/
theorem C233_pending_fails {b : Block} (h : b.pid.activePIDs true = []) (base : Settings) (l : List Int) :
    ∃ b', absorb (flush ⟨base, b.pid.setPIDs l⟩ fun _ => none) fresh = some b' ∧ b'.pid.set = [] := by
  have ha : ∀ (l : List Int) (s : Pid), (l.foldl Pid.setPID s).active = s.active := by
    intro l
    induction l with
    | nil => intro s; rfl
    | cons a l ih => intro s; rw [foldl_cons, ih]; rfl
  have e : (b.pid.setPIDs l).activePIDs true = [] := by
    unfold Pid.activePIDs Pid.setPIDs
    rw [ha]; exact h
  obtain ⟨b', h1, h2⟩ := trip (b := ⟨base, b.pid.setPIDs l⟩) (by simp [e]) (by simp [e])
  refine ⟨b', h1, ?_⟩
  rw [h2]
  simp [e]

/-! ### Cases -/

example : IsWhole (trim ['2']) (2 : Nat) ∧ Numbers (trim "3 15\t7".toList) [3, 15, 7] ∧ 2 ≤ [3, 15, (7 : Int)].length := by
  have e : trim "3 15\t7".toList = [] ++ (['3'] ++ ([' '] ++ (['1', '5'] ++ (['\t'] ++ (['7'] ++ []))))) := by decide
  refine ⟨⟨[], ['2'], by decide, .inl rfl, by simp, by decide, by decide⟩, ?_, by decide⟩
  rw [e]
  refine .more (by simp) ⟨[], ['3'], rfl, .inl rfl, by simp, by decide, by decide⟩ (by decide) (by decide) (.inr ⟨' ', _, rfl, by decide⟩) ?_
  refine .more (by decide) ⟨[], ['1', '5'], rfl, .inl rfl, by simp, by decide, by decide⟩ (by decide) (by decide) (.inr ⟨'\t', _, rfl, by decide⟩) ?_
  exact .more (by decide) ⟨[], ['7'], rfl, .inl rfl, by simp, by decide, by decide⟩ (by decide) (by decide) (.inl rfl) (.none (by simp))

example : IsWhole (trim "-2".toList) (-2) := ⟨['-'], ['2'], by decide, .inr (.inl rfl), by simp, by decide, by decide⟩

example : strip.type ≠ 3 ∧ Ok strip.cells ∧ PidsListed strip ∧
    (((({ dual := true } : Pid).setGeometry strip).setPID 1).extract strip).1.activePIDs true = [1] := by
  refine ⟨by decide, by unfold Ok; decide, by unfold PidsListed; decide, ?_⟩
  show ((({ dual := true } : Pid).setGeometry strip).setPID 1).sync.activePIDs true = [1]
  decide

example : ((({} : Pid).setGeometry strip).activePIDs true) = [] := by decide

end Verif.Pids
