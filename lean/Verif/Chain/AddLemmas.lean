import Verif.Chain.Lemmas
/-
The correctness of the insertion algorithm on acyclic networks.
-/
namespace Verif.Chain

open List

theorem objs_eq_map {ch : Chain} (h : ch.Ok) : ch.objs = ch.entries.map Prod.fst := by
  unfold Chain.entries
  rw [map_fst_zip]
  rw [h.len]; exact Nat.le_refl _

theorem ids_eq_map {ch : Chain} (h : ch.Ok) : ch.ids = ch.entries.map Prod.snd := by
  unfold Chain.entries
  rw [map_snd_zip]
  rw [h.len]; exact Nat.le_refl _

/-- what one successful insertion guarantees -/
structure Added (g : Graph) (ch : Chain) (obj : Obj) (id_ : Int) (ch' : Chain) : Prop where
  ok : ch'.Ok
  perm : ch'.entries ~ (obj, pick ch id_) :: ch.entries
  counter : ch'.counter = (bump ch id_).counter
  plot : ch'.plotDeb = ch.plotDeb
  out : ch'.outDeb = ch.outDeb
  ord : OrdP g ch.objs → OrdP g ch'.objs

theorem bump_plot (ch : Chain) (i : Int) : (bump ch i).plotDeb = ch.plotDeb := by
  unfold bump; split <;> rfl
theorem bump_out (ch : Chain) (i : Int) : (bump ch i).outDeb = ch.outDeb := by
  unfold bump; split <;> rfl
theorem bump_counter_nonneg (ch : Chain) (i : Int) (h : 0 ≤ ch.counter) :
    0 ≤ (bump ch i).counter := by
  unfold bump; split
  · show 0 ≤ ch.counter + 1; omega
  · exact h

theorem bump_ok {ch : Chain} (h : ch.Ok) (i : Int) : (bump ch i).Ok :=
  ⟨by simpa using h.len, by simpa using h.nodup, by simpa using h.ids_nonneg,
    bump_counter_nonneg _ _ h.counter_nonneg⟩

theorem parentIdx_of_mem {objs : List Obj} {p : Obj} (h : p ∈ objs) :
    parentIdx objs p = (objs.idxOf p : Int) := by simp [parentIdx, h]
theorem parentIdx_of_not_mem {objs : List Obj} {p : Obj} (h : p ∉ objs) :
    parentIdx objs p = -1 := by simp [parentIdx, h]

/-- in an acyclic network no parent can sit at the position of the first child -/
theorem no_clash {g : Graph} (wf : WellFormed g) (ac : Acyclic g) (objs : List Obj) (obj : Obj) :
    (g.parents obj).any
      (fun p => parentIdx objs p == (childIdx objs (g.children obj) : Int)) = false := by
  rw [Bool.eq_false_iff]
  intro h
  rw [any_eq_true] at h
  obtain ⟨p, hp, he⟩ := h
  simp only [beq_iff_eq] at he
  by_cases hm : p ∈ objs
  · rw [parentIdx_of_mem hm] at he
    have he' : objs.idxOf p = childIdx objs (g.children obj) := by omega
    have hlt := idxOf_lt_iff_mem.2 hm
    rcases childIdx_cases objs (g.children obj) with hc | ⟨c, hc, hco, hce⟩
    · omega
    · have : p = c := by
        have h1 := getElem_idxOf (idxOf_lt_iff_mem.2 hm)
        have h2 := getElem_idxOf (idxOf_lt_iff_mem.2 hco)
        have : objs.idxOf p = objs.idxOf c := by omega
        rw [← h1, ← h2]
        simp only [this]
      subst this
      exact ac p ((Relation.TransGen.single ((wf.sym p obj).2 hp)).tail hc)
  · rw [parentIdx_of_not_mem hm] at he
    omega

/-- insertion without rearrangement -/
theorem add_direct {g : Graph} (wf : WellFormed g) (ac : Acyclic g) (n : Nat) (ch : Chain)
    (obj : Obj) (id_ : Int) (hok : ch.Ok) (hnew : obj ∉ ch.objs)
    (hpar : ∀ p ∈ g.parents obj, p ∈ ch.objs → ch.objs.idxOf p < childIdx ch.objs (g.children obj)) :
    ∃ ch', addObject g (n + 1) ch obj id_ =
        some (ch', (childIdx ch.objs (g.children obj) : Int)) ∧ Added g ch obj id_ ch' := by
  rw [addObject_succ]
  by_cases he : ch.objs = []
  · have hids : ch.ids = [] := by
      have := hok.len
      rw [he] at this
      exact eq_nil_of_length_eq_zero (by simpa using this.symm)
    have hc : childIdx ch.objs (g.children obj) = 0 := by
      have := childIdx_le_length ch.objs (g.children obj)
      rw [he] at this ⊢
      simpa using this
    rw [if_pos he, hc]
    refine ⟨_, rfl, ⟨?_, ?_, ?_, ?_⟩, ?_, rfl, bump_plot _ _, bump_out _ _, ?_⟩
    · simp
    · simp
    · intro i hi
      simp only [mem_singleton] at hi
      subst hi
      exact pick_nonneg _ _ hok.counter_nonneg
    · exact bump_counter_nonneg _ _ hok.counter_nonneg
    · simp [Chain.entries, he]
    · intro _; simp [OrdP]
  · rw [if_neg he, no_clash wf ac]
    have hno : (g.parents obj).any (fun p => decide (parentIdx ch.objs p >
        (childIdx ch.objs (g.children obj) : Int))) = false := by
      rw [Bool.eq_false_iff]
      intro h
      rw [any_eq_true] at h
      obtain ⟨p, hp, hd⟩ := h
      simp only [decide_eq_true_eq] at hd
      by_cases hm : p ∈ ch.objs
      · rw [parentIdx_of_mem hm] at hd
        have := hpar p hp hm
        omega
      · rw [parentIdx_of_not_mem hm] at hd
        omega
    rw [hno]
    refine ⟨_, rfl, ⟨?_, ?_, ?_, ?_⟩, ?_, rfl, bump_plot _ _, bump_out _ _, ?_⟩
    · simp [length_insertAt, hok.len]
    · exact (insertAt_perm _ _ _).nodup_iff.2 (nodup_cons.2 ⟨hnew, hok.nodup⟩)
    · intro i hi
      have hi' : i ∈ pick ch id_ :: ch.ids := (insertAt_perm _ _ _).mem_iff.1 hi
      rcases mem_cons.1 hi' with rfl | hi'
      · exact pick_nonneg _ _ hok.counter_nonneg
      · exact hok.ids_nonneg i hi'
    · exact bump_counter_nonneg _ _ hok.counter_nonneg
    · unfold Chain.entries
      simp only [zip_insertAt _ _ _ _ _ hok.len]
      exact insertAt_perm _ _ _
    · intro hord
      have hle := childIdx_le_length ch.objs (g.children obj)
      have hord' := hord
      rw [OrdP, ← take_append_drop (childIdx ch.objs (g.children obj)) ch.objs, pairwise_append] at hord'
      obtain ⟨h1, h2, h3⟩ := hord'
      unfold OrdP insertAt
      rw [pairwise_append]
      refine ⟨h1, ?_, ?_⟩
      · rw [pairwise_cons]
        refine ⟨?_, h2⟩
        intro y hy hs
        -- y supplies obj but sits after the first child
        obtain ⟨hy1, hy2⟩ := mem_drop_of_nodup hle hok.nodup hy
        have := hpar y ((wf.sym y obj).1 hs) hy1
        omega
      · intro x hx y hy
        rcases mem_cons.1 hy with rfl | hy
        · intro hs
          have hx1 := (mem_take_iff_idxOf hle).1 hx
          have := childIdx_le ch.objs (g.children y) x hs (mem_of_mem_take hx)
          omega
        · exact h3 x hx y hy

theorem added_mem {g : Graph} {ch ch' : Chain} {obj : Obj} {id_ : Int} (hok : ch.Ok)
    (h : Added g ch obj id_ ch') (x : Obj) : x ∈ ch'.objs ↔ x = obj ∨ x ∈ ch.objs := by
  rw [objs_eq_map h.ok, objs_eq_map hok, (h.perm.map Prod.fst).mem_iff]
  simp

/-- re-insertion of the removed parents, given that single insertions work -/
theorem readd_spec {g : Graph} (n : Nat) (S : Obj → Prop) (univ : List Obj)
    (hadd : ∀ ch obj id_, S obj → obj ∈ univ → ch.Ok → obj ∉ ch.objs → (∀ x ∈ ch.objs, x ∈ univ) →
      ∃ ch' i, addObject g n ch obj id_ = some (ch', i) ∧ 0 ≤ i ∧ Added g ch obj id_ ch') :
    ∀ (xs : List (Obj × Int)) (ch : Chain), ch.Ok → (∀ x ∈ ch.objs, x ∈ univ) →
      (xs.map Prod.fst).Nodup → (∀ x ∈ xs, S x.1 ∧ x.1 ∈ univ ∧ x.1 ∉ ch.objs ∧ 0 ≤ x.2) →
      ∃ ch', xs.foldlM (fun c x => (addObject g n c x.1 x.2).map Prod.fst) ch = some ch' ∧
        ch'.Ok ∧ ch'.entries ~ xs ++ ch.entries ∧ ch'.counter = ch.counter ∧
        ch'.plotDeb = ch.plotDeb ∧ ch'.outDeb = ch.outDeb ∧ (OrdP g ch.objs → OrdP g ch'.objs) := by
  intro xs
  induction xs with
  | nil => intro ch hok _ _ _; exact ⟨ch, rfl, hok, by simp, rfl, rfl, rfl, id⟩
  | cons x xs ih =>
    intro ch hok huniv hnd hx
    obtain ⟨hS, hu, hnot, hpos⟩ := hx x (by simp)
    obtain ⟨ch1, i, he, _, hA⟩ := hadd ch x.1 x.2 hS hu hok hnot huniv
    rw [map_cons, nodup_cons] at hnd
    obtain ⟨ch', h1, h2, h3, h4, h5, h6, h7⟩ := ih ch1 hA.ok
      (by
        intro y hy
        rcases (added_mem hok hA y).1 hy with rfl | hy
        · exact hu
        · exact huniv y hy)
      hnd.2
      (by
        intro y hy
        obtain ⟨a, b, c, d⟩ := hx y (by simp [hy])
        refine ⟨a, b, ?_, d⟩
        intro hc
        rcases (added_mem hok hA y.1).1 hc with h | h
        · exact hnd.1 (h ▸ mem_map_of_mem hy)
        · exact c h)
    refine ⟨ch', ?_, h2, ?_, ?_, by rw [h5, hA.plot], by rw [h6, hA.out], fun h => h7 (hA.ord h)⟩
    · simp [foldlM_cons, he, h1]
    · refine h3.trans ?_
      refine (Perm.append_left xs hA.perm).trans ?_
      rw [pick_of_nonneg _ _ hpos]
      simpa using perm_middle
    · rw [h4, hA.counter, bump_of_nonneg _ _ hpos]

/-- after removing the late parents the insertion is direct -/
theorem late_direct {g : Graph} (objs objs1 : List Obj) (obj : Obj) (hn : objs.Nodup)
    (h1 : objs1 = objs.filter (fun x => decide (x ∉ (g.parents obj).filter
      (fun p => decide (parentIdx objs p > (childIdx objs (g.children obj) : Int))))))
    (hclash : (g.parents obj).any
      (fun p => parentIdx objs p == (childIdx objs (g.children obj) : Int)) = false) :
    ∀ p ∈ g.parents obj, p ∈ objs1 → objs1.idxOf p < childIdx objs1 (g.children obj) := by
  have hsub : ∀ x, x ∈ objs1 → x ∈ objs := by
    intro x hx; rw [h1] at hx; exact (mem_filter.1 hx).1
  have hle := childIdx_le_length objs (g.children obj)
  -- the prefix before the first child is untouched
  have htake : objs1 = objs.take (childIdx objs (g.children obj)) ++
      (objs.drop (childIdx objs (g.children obj))).filter (fun x => decide (x ∉ (g.parents obj).filter
      (fun p => decide (parentIdx objs p > (childIdx objs (g.children obj) : Int))))) := by
    conv => lhs; rw [h1, ← take_append_drop (childIdx objs (g.children obj)) objs]
    rw [filter_append]
    rw [take_append_drop]
    congr 1
    rw [filter_eq_self]
    intro a ha
    simp only [mem_filter, decide_eq_true_eq, not_and]
    intro _ hgt
    have hlt := (mem_take_iff_idxOf hle).1 ha
    rw [parentIdx_of_mem (mem_of_mem_take ha)] at hgt
    omega
  have hlen : childIdx objs (g.children obj) ≤ objs1.length := by
    rw [htake, length_append, length_take]; omega
  have htake1 : objs1.take (childIdx objs (g.children obj)) = objs.take (childIdx objs (g.children obj)) := by
    rw [htake, take_append_of_le_length (by rw [length_take]; omega), take_take, Nat.min_self]
  have hmin : childIdx objs (g.children obj) ≤ childIdx objs1 (g.children obj) := by
    rcases childIdx_cases objs1 (g.children obj) with hc | ⟨c, hc, hco, hce⟩
    · omega
    · rw [hce]
      have hc2 := childIdx_le objs (g.children obj) c hc (hsub c hco)
      rcases Nat.lt_or_ge (objs1.idxOf c) (childIdx objs (g.children obj)) with h | h
      · have := (mem_take_iff_idxOf hlen).2 h
        rw [htake1] at this
        have := (mem_take_iff_idxOf hle).1 this
        omega
      · exact h
  intro p hp hpo
  have hpo' := hsub p hpo
  refine Nat.lt_of_lt_of_le ?_ hmin
  rw [← mem_take_iff_idxOf hlen, htake1, mem_take_iff_idxOf hle]
  have hnl : p ∉ (g.parents obj).filter
      (fun p => decide (parentIdx objs p > (childIdx objs (g.children obj) : Int))) := by
    rw [h1] at hpo
    exact of_decide_eq_true (mem_filter.1 hpo).2
  rcases Nat.lt_trichotomy (objs.idxOf p) (childIdx objs (g.children obj)) with h | h | h
  · exact h
  · exfalso
    rw [Bool.eq_false_iff] at hclash
    apply hclash
    rw [any_eq_true]
    exact ⟨p, hp, by rw [parentIdx_of_mem hpo', h]; simp⟩
  · exfalso
    apply hnl
    rw [mem_filter]
    refine ⟨hp, ?_⟩
    rw [parentIdx_of_mem hpo']
    simpa using h

/-- main induction: on an acyclic network every insertion of a new block succeeds -/
theorem add_main {g : Graph} (wf : WellFormed g) (ac : Acyclic g) (univ : List Obj) :
    ∀ (k n : Nat) (ch : Chain) (obj : Obj) (id_ : Int), rank g univ obj < k → k + 1 ≤ n →
      obj ∈ univ → ch.Ok → obj ∉ ch.objs → (∀ x ∈ ch.objs, x ∈ univ) →
      ∃ ch' i, addObject g n ch obj id_ = some (ch', i) ∧ 0 ≤ i ∧ Added g ch obj id_ ch' := by
  intro k
  induction k with
  | zero => intro n ch obj id_ h; omega
  | succ k ih =>
    intro n ch obj id_ hr hn hu hok hnew huniv
    obtain ⟨m, rfl⟩ : ∃ m, n = m + 1 := ⟨n - 1, by omega⟩
    have hclash := no_clash wf ac ch.objs obj
    by_cases hdir : ∀ p ∈ g.parents obj, p ∈ ch.objs →
        ch.objs.idxOf p < childIdx ch.objs (g.children obj)
    · obtain ⟨ch', h1, h2⟩ := add_direct wf ac m ch obj id_ hok hnew hdir
      exact ⟨ch', _, h1, by omega, h2⟩
    · -- rearrangement
      have hne : ch.objs ≠ [] := by
        intro h
        apply hdir
        intro p _ hpo
        rw [h] at hpo
        simp at hpo
      have hany : (g.parents obj).any (fun p => decide (parentIdx ch.objs p >
          (childIdx ch.objs (g.children obj) : Int))) = true := by
        rw [any_eq_true]
        apply Classical.byContradiction
        intro hcon
        apply hdir
        intro p hp hpo
        rcases Nat.lt_trichotomy (ch.objs.idxOf p) (childIdx ch.objs (g.children obj)) with h | h | h
        · exact h
        · exfalso
          rw [Bool.eq_false_iff] at hclash
          apply hclash
          rw [any_eq_true]
          exact ⟨p, hp, by rw [parentIdx_of_mem hpo, h]; simp⟩
        · exfalso
          apply hcon
          refine ⟨p, hp, ?_⟩
          rw [parentIdx_of_mem hpo]
          simpa using h
      generalize hlate : (g.parents obj).filter (fun p => decide (parentIdx ch.objs p >
          (childIdx ch.objs (g.children obj) : Int))) = late
      have hlmem : ∀ p ∈ late, p ∈ g.parents obj ∧ p ∈ ch.objs := by
        intro p hp
        rw [← hlate, mem_filter] at hp
        refine ⟨hp.1, ?_⟩
        apply Classical.byContradiction
        intro hno
        have := hp.2
        rw [parentIdx_of_not_mem hno] at this
        simp only [decide_eq_true_eq] at this
        omega
      have hlnd : late.Nodup := by
        rw [← hlate]; exact (wf.nodupP obj).sublist filter_sublist
      obtain ⟨r1, r2, r2a, r2b, r3, r4, r5, r6, r7⟩ :=
        removeLate_spec late (bump ch id_) (bump_ok hok id_) hlnd
          (by intro p hp; simpa using (hlmem p hp).2)
      simp only [bump_objs] at r3 r6
      generalize hr1 : removeLate (bump ch id_) late = r at *
      have hpick : 0 ≤ pick ch id_ := pick_nonneg _ _ hok.counter_nonneg
      have hnew1 : obj ∉ r.1.objs := fun h => hnew (r3.subset h)
      obtain ⟨m', rfl⟩ : ∃ m', m = m' + 1 := ⟨m - 1, by omega⟩
      obtain ⟨ch2, hadd2, hA2⟩ := add_direct wf ac m' r.1 obj (pick ch id_) r1 hnew1
        (late_direct ch.objs r.1.objs obj hok.nodup (by rw [r6, ← hlate]) hclash)
      have huniv2 : ∀ x ∈ ch2.objs, x ∈ univ := by
        intro x hx
        rcases (added_mem r1 hA2 x).1 hx with rfl | hx
        · exact hu
        · exact huniv x (r3.subset hx)
      obtain ⟨ch3, hf, hok3, hp3, hc3, hpl3, ho3, hord3⟩ :=
        readd_spec (g := g) (m' + 1) (fun p => rank g univ p < k) univ
          (by
            intro c o i hS hou hcok hno hcu
            exact ih (m' + 1) c o i hS (by omega) hou hcok hno hcu)
          r.2 ch2 hA2.ok huniv2 (by rw [r5]; exact hlnd)
          (by
            intro x hx
            have hxl : x.1 ∈ late := by rw [← r5]; exact mem_map_of_mem hx
            obtain ⟨hxp, hxo⟩ := hlmem x.1 hxl
            have hs : Supplies g x.1 obj := (wf.sym _ _).2 hxp
            refine ⟨?_, huniv _ hxo, ?_, r7 x hx⟩
            · have := rank_lt ac univ x.1 obj (huniv _ hxo) hs
              omega
            · intro hc
              rcases (added_mem r1 hA2 x.1).1 hc with h | h
              · exact not_self_of_acyclic ac obj (h ▸ hs)
              · rw [r6] at h
                have := (mem_filter.1 h).2
                simp [hxl] at this)
      refine ⟨ch3, (childIdx r.1.objs (g.children obj) : Int) + 1, ?_, ?_, ⟨hok3, ?_, ?_, ?_, ?_, ?_⟩⟩
      · rw [addObject_succ, if_neg hne, hclash, hany, hlate, hr1, hadd2]
        simp only [hf, Bool.false_eq_true, if_false, if_true]
      · omega
      · refine hp3.trans ?_
        refine (Perm.append_left _ hA2.perm).trans ?_
        rw [pick_of_nonneg _ _ hpick]
        refine perm_middle.trans (Perm.cons _ ?_)
        have : (bump ch id_).entries = ch.entries := by simp [Chain.entries]
        rw [this] at r4
        exact r4.symm
      · rw [hc3, hA2.counter, bump_of_nonneg _ _ hpick, r2]
      · rw [hpl3, hA2.plot, r2a, bump_plot]
      · rw [ho3, hA2.out, r2b, bump_out]
      · intro hord
        exact hord3 (hA2.ord (hord.sublist r3))

/-- fuel needed on a given network and chain -/
noncomputable def enough (g : Graph) (ch : Chain) (obj : Obj) : Nat :=
  rank g (obj :: ch.objs) obj + 2

theorem add_enough {g : Graph} (wf : WellFormed g) (ac : Acyclic g) (ch : Chain) (obj : Obj)
    (id_ : Int) (hok : ch.Ok) (hnew : obj ∉ ch.objs) (n : Nat) (hn : enough g ch obj ≤ n) :
    ∃ ch' i, addObject g n ch obj id_ = some (ch', i) ∧ 0 ≤ i ∧ Added g ch obj id_ ch' :=
  add_main wf ac (obj :: ch.objs) (rank g (obj :: ch.objs) obj + 1) n ch obj id_ (by omega)
    (by unfold enough at hn; omega) (by simp) hok hnew (by intro x hx; simp [hx])

/-! ### Fuel monotonicity: the result does not depend on the fuel -/

theorem foldlM_mono {α : Type} (f f' : Chain → α → Option Chain)
    (h : ∀ c x r, f c x = some r → f' c x = some r) :
    ∀ (xs : List α) (c r : Chain), xs.foldlM f c = some r → xs.foldlM f' c = some r := by
  intro xs
  induction xs with
  | nil => intro c r hr; simpa using hr
  | cons x xs ih =>
    intro c r hr
    rw [foldlM_cons] at hr ⊢
    cases hf : f c x with
    | none => rw [hf] at hr; simp at hr
    | some c1 =>
      rw [hf] at hr
      rw [h c x c1 hf]
      exact ih c1 r hr

theorem addObject_mono (g : Graph) : ∀ (n : Nat) (ch : Chain) (obj : Obj) (id_ : Int)
    (r : Chain × Int), addObject g n ch obj id_ = some r → addObject g (n + 1) ch obj id_ = some r := by
  intro n
  induction n with
  | zero => intro ch obj id_ r h; simp [addObject] at h
  | succ n ih =>
    intro ch obj id_ r h
    rw [addObject_succ] at h
    rw [addObject_succ]
    split
    · next he => rw [if_pos he] at h; exact h
    · next he =>
      rw [if_neg he] at h
      split
      · next h1 => rw [if_pos h1] at h; exact h
      · next h1 =>
        rw [if_neg h1] at h
        split
        · next h2 =>
          rw [if_pos h2] at h
          generalize removeLate (bump ch id_) _ = rl at *
          cases ha : addObject g n rl.1 obj (pick ch id_) with
          | none => rw [ha] at h; simp at h
          | some p =>
            obtain ⟨ch2, idx⟩ := p
            rw [ha] at h
            rw [ih _ _ _ _ ha]
            simp only at h ⊢
            cases hf : rl.2.foldlM (fun c x => (addObject g n c x.1 x.2).map Prod.fst) ch2 with
            | none => rw [hf] at h; simp at h
            | some ch3 =>
              rw [hf] at h
              rw [foldlM_mono _ _ ?_ _ _ _ hf]
              · exact h
              · intro c x r hr
                cases hx : addObject g n c x.1 x.2 with
                | none => rw [hx] at hr; simp at hr
                | some q => rw [hx] at hr; rw [ih _ _ _ _ hx]; exact hr
        · next h2 => rw [if_neg h2] at h; exact h

theorem addObject_mono_le (g : Graph) {n m : Nat} (hnm : n ≤ m) (ch : Chain) (obj : Obj) (id_ : Int)
    (r : Chain × Int) (h : addObject g n ch obj id_ = some r) : addObject g m ch obj id_ = some r := by
  induction hnm with
  | refl => exact h
  | step _ ih => exact addObject_mono g _ _ _ _ _ ih

theorem addObject_det (g : Graph) {n m : Nat} (ch : Chain) (obj : Obj) (id_ : Int)
    (r r' : Chain × Int) (h : addObject g n ch obj id_ = some r)
    (h' : addObject g m ch obj id_ = some r') : r = r' := by
  rcases Nat.le_total n m with hle | hle
  · have := addObject_mono_le g hle _ _ _ _ h
    rw [this] at h'; exact Option.some.inj h'
  · have := addObject_mono_le g hle _ _ _ _ h'
    rw [this] at h; exact (Option.some.inj h).symm

/-- any terminating insertion on an acyclic network has the good outcome -/
theorem add_any {g : Graph} (wf : WellFormed g) (ac : Acyclic g) {n : Nat} {ch : Chain} {obj : Obj}
    {id_ : Int} {ch' : Chain} {i : Int} (hok : ch.Ok) (hnew : obj ∉ ch.objs)
    (h : addObject g n ch obj id_ = some (ch', i)) : 0 ≤ i ∧ Added g ch obj id_ ch' := by
  obtain ⟨ch1, j, h1, h2, h3⟩ := add_enough wf ac ch obj id_ hok hnew _ (Nat.le_refl _)
  have := addObject_det g _ _ _ _ _ h h1
  cases this
  exact ⟨h2, h3⟩

end Verif.Chain
