import Verif.ObjData.Model
import Mathlib.Analysis.InnerProductSpace.PiL2
/-!
# What becomes of the data of an OBJ mesh
-/
namespace Verif.ObjData

/-- The names of the annotations which hold a cell, in the order in which they were added. -/
def saidOf (notes : List Note) (id : Int) : List Name :=
  (notes.filter fun a => a.ids.contains id).map Note.name

theorem foldl_mark (m : Mode) (name : Name) (ids : List Int) : ∀ (g : Int → Name) (j : Int), ids.Nodup →
    ids.foldl (fun g id => fun j => if j = id then mark m (g id) name else g j) g j =
      if j ∈ ids then mark m (g j) name else g j := by
  induction ids with
  | nil => intro g j _; simp
  | cons i ids ih =>
    intro g j hn
    rw [List.nodup_cons] at hn
    rw [List.foldl_cons, ih _ _ hn.2]
    by_cases hj : j = i
    · subst hj
      simp [hn.1]
    · simp [hj]

theorem annotate1_eq (m : Mode) (cells : List Int) (g : Int → Name) (a : Note) (j : Int) (hn : a.ids.Nodup) :
    annotate1 m cells g a j = if j ∈ cells ∧ j ∈ a.ids then mark m (g j) a.name else g j := by
  unfold annotate1
  rw [foldl_mark _ _ _ _ _ (hn.filter _)]
  by_cases h1 : j ∈ cells <;> by_cases h2 : j ∈ a.ids <;> simp [h1, h2]

/-- What a cell becomes depends only on the names of the annotations which hold it. -/
theorem annotate_eq (m : Mode) (cells : List Int) (notes : List Note) : ∀ (g : Int → Name) (j : Int),
    (∀ a ∈ notes, a.ids.Nodup) →
    annotate m cells notes g j = if j ∈ cells then (saidOf notes j).foldl (mark m) (g j) else g j := by
  induction notes with
  | nil => intro g j _; simp [annotate, saidOf]
  | cons a notes ih =>
    intro g j hn
    have : annotate m cells (a :: notes) g = annotate m cells notes (annotate1 m cells g a) := rfl
    rw [this, ih _ _ (fun b hb => hn b (by simp [hb])), annotate1_eq _ _ _ _ _ (hn a (by simp))]
    unfold saidOf
    by_cases h1 : j ∈ cells <;> by_cases h2 : j ∈ a.ids <;> simp [h1, h2]

theorem fold_hard (ns : List Name) : ∀ old, ns.foldl (mark .hard) old = (ns.getLast?).getD old := by
  induction ns with
  | nil => intro old; rfl
  | cons n ns ih =>
    intro old
    rw [List.foldl_cons, ih]
    cases ns with
    | nil => rfl
    | cons b bs => simp [List.getLast?_cons]

theorem fold_soft (ns : List Name) (h : ∀ n ∈ ns, n ≠ []) : ∀ old, ns.foldl (mark .soft) old =
    if old = [] then (ns.head?).getD [] else old := by
  induction ns with
  | nil => intro old; by_cases h : old = [] <;> simp [h]
  | cons n ns ih =>
    intro old
    have hn := h n (by simp)
    rw [List.foldl_cons, ih (fun x hx => h x (by simp [hx]))]
    by_cases ho : old = []
    · simp [mark, ho, hn]
    · simp [mark, ho]

/-- Names joined by blanks. -/
def joined : List Name → Name
  | [] => []
  | [n] => n
  | n :: m :: ns => n ++ ' ' :: joined (m :: ns)

theorem joined_cons2 (a b : Name) (ns : List Name) : joined (a :: b :: ns) = joined ((a ++ ' ' :: b) :: ns) := by
  cases ns with
  | nil => rfl
  | cons c cs => simp [joined]

theorem fold_all (ns : List Name) (h : ∀ n ∈ ns, n ≠ []) : ∀ old, ns.foldl (mark .all) old =
    if old = [] then joined ns else joined (old :: ns) := by
  induction ns with
  | nil => intro old; by_cases ho : old = [] <;> simp [ho, joined]
  | cons n ns ih =>
    intro old
    have hn := h n (by simp)
    rw [List.foldl_cons, ih (fun x hx => h x (by simp [hx]))]
    by_cases ho : old = []
    · simp [mark, ho, hn]
    · rw [if_neg ho]
      have hm : mark .all old n = old ++ ' ' :: n := by simp [mark, ho]
      rw [hm, if_neg (by simp), joined_cons2]

theorem mark_infix (old n : Name) : n <:+: mark .allNoBlanks old n ∧ old <+: mark .allNoBlanks old n := by
  unfold mark
  by_cases ho : old = []
  · simp [ho]
  · by_cases hi : n <:+: old
    · simp [ho, hi]
    · simp only [ho, hi, if_false]
      exact ⟨⟨old, [], by simp⟩, ⟨n, rfl⟩⟩

theorem fold_noBlanks (ns : List Name) : ∀ old, old <+: ns.foldl (mark .allNoBlanks) old ∧
    ∀ n ∈ ns, n <:+: ns.foldl (mark .allNoBlanks) old := by
  induction ns with
  | nil => intro old; exact ⟨List.prefix_rfl, by simp⟩
  | cons n ns ih =>
    intro old
    obtain ⟨h1, h2⟩ := ih (mark .allNoBlanks old n)
    obtain ⟨m1, m2⟩ := mark_infix old n
    refine ⟨m2.trans h1, ?_⟩
    intro x hx
    rcases List.mem_cons.1 hx with rfl | hx
    · exact m1.trans h1.isInfix
    · exact h2 x hx

/-! ## C197: annotations -/

/-- The group of a cell after the annotations: the last name with the first strategy, the old group or the
first name with the second, the old group and all names with blanks between them with the third; cells without
annotations and what is not a cell stay as they were. -/
theorem C197_strategies (cells : List Int) (notes : List Note) (g : Int → Name) (j : Int)
    (hn : ∀ a ∈ notes, a.ids.Nodup ∧ a.name ≠ []) :
    annotate .hard cells notes g j = (if j ∈ cells then (saidOf notes j).getLast?.getD (g j) else g j) ∧
    annotate .soft cells notes g j =
      (if j ∈ cells ∧ g j = [] then (saidOf notes j).head?.getD [] else g j) ∧
    annotate .all cells notes g j =
      (if j ∈ cells then (if g j = [] then joined (saidOf notes j) else joined (g j :: saidOf notes j)) else g j) := by
  have hs : ∀ n ∈ saidOf notes j, n ≠ [] := by
    intro n hn'
    simp only [saidOf, List.mem_map, List.mem_filter] at hn'
    obtain ⟨a, ⟨ha, -⟩, rfl⟩ := hn'
    exact (hn a ha).2
  refine ⟨?_, ?_, ?_⟩
  · rw [annotate_eq _ _ _ _ _ (fun a ha => (hn a ha).1), fold_hard]
  · rw [annotate_eq _ _ _ _ _ (fun a ha => (hn a ha).1), fold_soft _ hs]
    by_cases h1 : j ∈ cells <;> by_cases h2 : g j = [] <;> simp [h1, h2]
  · rw [annotate_eq _ _ _ _ _ (fun a ha => (hn a ha).1), fold_all _ hs]

/-- With the fourth strategy the old group comes first and every name is found in the new one. -/
theorem C197_noBlanks_partial (cells : List Int) (notes : List Note) (g : Int → Name) (j : Int)
    (hn : ∀ a ∈ notes, a.ids.Nodup) :
    g j <+: annotate .allNoBlanks cells notes g j ∧
    (j ∈ cells → ∀ n ∈ saidOf notes j, n <:+: annotate .allNoBlanks cells notes g j) ∧
    (j ∉ cells → annotate .allNoBlanks cells notes g j = g j) := by
  rw [annotate_eq _ _ _ _ _ hn]
  by_cases hj : j ∈ cells
  · rw [if_pos hj]
    exact ⟨(fold_noBlanks _ _).1, fun _ => (fold_noBlanks _ _).2, fun h => absurd hj h⟩
  · rw [if_neg hj]
    exact ⟨List.prefix_rfl, fun h => absurd h hj, fun _ => rfl⟩

theorem fold_stay (ns : List Name) (old : Name) (h : ∀ n ∈ ns, n <:+: old) (h0 : ∀ n ∈ ns, n ≠ []) :
    ns.foldl (mark .allNoBlanks) old = old := by
  induction ns with
  | nil => rfl
  | cons n ns ih =>
    have h1 := h n (by simp)
    have ho : old ≠ [] := by
      rintro rfl
      exact h0 n (by simp) (by simpa using h1)
    rw [List.foldl_cons]
    have : mark .allNoBlanks old n = old := by simp [mark, ho, h1]
    rw [this]
    exact ih (fun x hx => h x (by simp [hx])) (fun x hx => h0 x (by simp [hx]))

/-- Executing the block a second time changes nothing, except with the third strategy. -/
theorem C197_again_partial (m : Mode) (hm : m ≠ .all) (cells : List Int) (notes : List Note) (g : Int → Name)
    (hn : ∀ a ∈ notes, a.ids.Nodup ∧ a.name ≠ []) :
    annotate m cells notes (annotate m cells notes g) = annotate m cells notes g := by
  funext j
  have hs : ∀ n ∈ saidOf notes j, n ≠ [] := by
    intro n hn'
    simp only [saidOf, List.mem_map, List.mem_filter] at hn'
    obtain ⟨a, ⟨ha, -⟩, rfl⟩ := hn'
    exact (hn a ha).2
  have hn' := fun a ha => (hn a ha).1
  rw [annotate_eq _ _ _ _ _ hn', annotate_eq _ _ _ _ _ hn']
  by_cases hj : j ∈ cells
  · simp only [if_pos hj]
    cases m with
    | all => exact absurd rfl hm
    | hard =>
      rw [fold_hard, fold_hard]
      cases (saidOf notes j).getLast? <;> rfl
    | soft =>
      rw [fold_soft _ hs, fold_soft _ hs]
      by_cases h0 : g j = []
      · rw [if_pos h0]
        split <;> rfl
      · simp [h0]
    | allNoBlanks =>
      exact fold_stay _ _ (fold_noBlanks _ _).2 hs
  · simp only [if_neg hj]

/-- With the third strategy the names are added again at each execution. -/
theorem C197_again_fails : annotate .all [1] [⟨"a".toList, [1]⟩]
    (annotate .all [1] [⟨"a".toList, [1]⟩] fun _ => []) 1 = "a a".toList := by decide

/-- With the fourth strategy a name found inside the group is not added, although no annotation had it. -/
theorem C197_inside_fails : annotate .allNoBlanks [1] [⟨"wingtip".toList, [1]⟩, ⟨"wing".toList, [1]⟩]
    (fun _ => []) 1 = "wingtip".toList ∧
    annotate .allNoBlanks [1] [⟨"wing".toList, [1]⟩, ⟨"wingtip".toList, [1]⟩] (fun _ => []) 1 =
      "wingwingtip".toList := by decide

/-- Annotations without a name are never kept. -/
theorem C197_named (as : List Note) : ∀ a ∈ as.foldl addNote [], a.name ≠ [] := by
  have : ∀ (as : List Note) (ns : List Note), (∀ a ∈ ns, a.name ≠ []) → ∀ a ∈ as.foldl addNote ns, a.name ≠ [] := by
    intro as
    induction as with
    | nil => intro ns h; exact h
    | cons b as ih =>
      intro ns h
      apply ih
      unfold addNote
      split
      · exact h
      · intro a ha
        rcases List.mem_append.1 ha with ha | ha
        · exact h a ha
        · simp only [List.mem_singleton] at ha; subst ha; assumption
  exact this as [] (by simp)

example := C197_strategies [1, 2, 3] [⟨"a".toList, [1, 2]⟩, ⟨"b".toList, [2, 9]⟩] (fun j => if j = 3 then "c".toList else []) 2
  (by decide)
example : annotate .all [1, 2, 3] [⟨"a".toList, [1, 2]⟩, ⟨"b".toList, [2, 9]⟩]
  (fun j => if j = 2 then "c".toList else []) 2 = "c a b".toList := by decide
example := C197_again_partial .allNoBlanks (by decide) [1, 2, 3] [⟨"a".toList, [1, 2]⟩, ⟨"ab".toList, [2, 9]⟩]
  (fun _ => []) (by decide)

/-! ## C198: pinned lists -/

theorem insertNames_lookup (ps : List (Int × Name)) : ∀ (m : List (Name × Int)) (n : Name),
    (insertNames ps m).lookup n = match m.lookup n with
      | some p => some p
      | none => (ps.find? fun e => e.2 == n).map Prod.fst := by
  induction ps with
  | nil => intro m n; cases h : m.lookup n <;> simp [insertNames, h]
  | cons e ps ih =>
    intro m n
    obtain ⟨p, k⟩ := e
    rw [insertNames, ih]
    cases hk : m.lookup k with
    | some q =>
      simp only [Option.isSome_some, if_true]
      cases hn : m.lookup n with
      | some q' => rfl
      | none =>
        have : k ≠ n := by rintro rfl; rw [hk] at hn; simp at hn
        simp [this]
    | none =>
      simp only [Option.isSome_none, Bool.false_eq_true, if_false]
      by_cases hkn : k = n
      · subst hkn
        simp [hk]
      · have h2 : (n == k) = false := by simpa using fun h => hkn h.symm
        rw [List.lookup_cons, h2]
        simp only
        cases hn : m.lookup n with
        | some q' => rfl
        | none => simp [hkn]

/-- The cells pinned by material and by smoothing group are those which have one of them; those pinned by
group are those whose group contains one of the names; those pinned by object are those whose PID has one of
the names, when no two PIDs have the same name. -/
theorem C198_lists_partial (geo : Geo) (d : Data) (q : Pins) (hg : (geo.pids.map Prod.fst).Nodup)
    (hd : (geo.pids.map Prod.snd).Nodup) :
    ∃ r, extract (some geo) d q = some r ∧
      (∀ c, c ∈ r.materials ↔ ∃ n, (c, n) ∈ d.materials ∧ n ∈ q.materials) ∧
      (∀ c, c ∈ r.groups ↔ ∃ g, (c, g) ∈ d.groups ∧ ∃ n ∈ q.groups, n <:+: g) ∧
      (∀ c, c ∈ r.smooths ↔ ∃ k, (c, k) ∈ d.smooths ∧ k ∈ q.smooths) ∧
      (∀ c, c ∈ r.objects ↔ ∃ p n, (c, p) ∈ geo.cells ∧ (p, n) ∈ geo.pids ∧ n ∈ q.objects) := by
  refine ⟨_, rfl, ?_, ?_, ?_, ?_⟩
  · intro c; simp
  · intro c
    simp only [List.mem_map, List.mem_filter]
    constructor
    · rintro ⟨⟨c', g⟩, ⟨h1, h2⟩, rfl⟩
      refine ⟨g, h1, ?_⟩
      split at h2
      · rename_i h
        exact ⟨g, by simpa using h, List.infix_rfl⟩
      · obtain ⟨n, hn, hi⟩ := List.any_eq_true.1 h2
        exact ⟨n, hn, by simpa using hi⟩
    · rintro ⟨g, h1, n, hn, hi⟩
      refine ⟨(c, g), ⟨h1, ?_⟩, rfl⟩
      split
      · rfl
      · exact List.any_eq_true.2 ⟨n, hn, by simpa using hi⟩
  · intro c; simp
  · intro c
    simp only [List.mem_map, List.mem_filter, List.contains_iff_mem, List.mem_filterMap]
    have look : ∀ n p, (insertNames geo.pids []).lookup n = some p ↔ (p, n) ∈ geo.pids := by
      intro n p
      rw [insertNames_lookup]
      simp only [List.lookup_nil]
      constructor
      · intro h
        obtain ⟨e, he, rfl⟩ := Option.map_eq_some_iff.1 h
        have h1 := List.mem_of_find?_eq_some he
        have h2 := List.find?_some he
        have : e.2 = n := by simpa using h2
        rw [← this]; exact h1
      · intro h
        cases hf : geo.pids.find? (fun e => e.2 == n) with
        | none =>
          have := List.find?_eq_none.1 hf _ h
          simp at this
        | some e =>
          have h1 := List.mem_of_find?_eq_some hf
          have h2 : e.2 = n := by simpa using List.find?_some hf
          have : e = (p, n) := List.inj_on_of_nodup_map hd h1 h h2
          rw [this]; rfl
    constructor
    · rintro ⟨⟨c', p⟩, ⟨h1, n, hn, hl⟩, rfl⟩
      exact ⟨p, n, h1, (look n p).1 hl, hn⟩
    · rintro ⟨p, n, h1, h2, h3⟩
      exact ⟨(c, p), ⟨h1, n, h3, (look n p).2 h2⟩, rfl⟩

example := C198_lists_partial ⟨[(1, 0), (2, 0), (3, 4)], [(0, "left".toList), (4, "right".toList)]⟩
  ⟨[(1, "steel".toList)], [(1, "wing".toList), (2, "wingtip".toList)], [(3, 2)]⟩
  ⟨["steel".toList], ["wing".toList], [2], ["right".toList]⟩ (by decide) (by decide)

/-- Pinning a group also pins the groups whose name contains it, and an empty name pins every cell. -/
theorem C198_inside_fails : (extract (some ⟨[], []⟩) ⟨[], [(1, "wing".toList), (2, "wingtip".toList), (3, [])], []⟩
      { groups := ["wing".toList] }).map Pinned.groups = some [1, 2] ∧
    (extract (some ⟨[], []⟩) ⟨[], [(1, "wing".toList), (2, "wingtip".toList), (3, [])], []⟩
      { groups := [[]] }).map Pinned.groups = some [1, 2, 3] := by decide

/-- Of two objects with the same name only one is pinned. -/
theorem C198_twice_fails : (extract (some ⟨[(1, 0), (2, 4)], [(0, "part".toList), (4, "part".toList)]⟩) ⟨[], [], []⟩
      { objects := ["part".toList] }).map Pinned.objects = some [1] := by decide

/-- Without a geometry the pointer is followed all the same. -/
theorem C198_null_fails (d : Data) (q : Pins) : extract none d q = none := rfl

/-! ## C199: normals -/

section Normals
variable {V : Type} [NormedAddCommGroup V] [InnerProductSpace ℝ V]

theorem norm_sum_le (ring : List (ℝ × V)) (hw : ∀ e ∈ ring, 0 ≤ e.1) (hu : ∀ e ∈ ring, ‖e.2‖ = 1) :
    ‖(ring.map fun e => e.1 • e.2).sum‖ ≤ (ring.map Prod.fst).sum := by
  induction ring with
  | nil => simp
  | cons e ring ih =>
    simp only [List.map_cons, List.sum_cons]
    refine (norm_add_le _ _).trans ?_
    have h1 : ‖e.1 • e.2‖ = e.1 := by
      rw [norm_smul, hu e (by simp), mul_one, Real.norm_of_nonneg (hw e (by simp))]
    have h2 := ih (fun x hx => hw x (by simp [hx])) (fun x hx => hu x (by simp [hx]))
    linarith

/-- The normal computed at a vertex is never longer than one, and is one when all cells around the vertex have
the same normal. -/
theorem C199_average_partial (ring : List (ℝ × V)) (hw : ∀ e ∈ ring, 0 ≤ e.1) (hp : 0 < (ring.map Prod.fst).sum)
    (hu : ∀ e ∈ ring, ‖e.2‖ = 1) :
    ‖average ring‖ ≤ 1 ∧ (∀ n, (∀ e ∈ ring, e.2 = n) → average ring = n) := by
  constructor
  · unfold average
    rw [norm_smul, Real.norm_of_nonneg (by positivity), div_mul_eq_mul_div, one_mul, div_le_one hp]
    exact norm_sum_le ring hw hu
  · intro n hn
    unfold average
    have : (ring.map fun e => e.1 • e.2).sum = (ring.map Prod.fst).sum • n := by
      clear hw hp hu
      induction ring with
      | nil => simp
      | cons e ring ih =>
        simp only [List.map_cons, List.sum_cons]
        rw [ih (fun x hx => hn x (by simp [hx])), hn e (by simp), add_smul]
    rw [this, smul_smul, one_div, inv_mul_cancel₀ hp.ne', one_smul]

/-- A normal which is checked is left alone when its length is close to one or not positive, and has length one
otherwise; its direction does not change. -/
theorem C199_check (eq : ℝ → ℝ → Prop) (least : ℝ) (hl : 0 ≤ least) (v : V) :
    (eq ‖fixNormal eq least v‖ 1 ∨ ‖fixNormal eq least v‖ = 1 ∨ ‖fixNormal eq least v‖ ≤ least) ∧
    ∃ k : ℝ, (v ≠ 0 → 0 < k) ∧ fixNormal eq least v = k • v := by
  unfold fixNormal
  by_cases h : ¬ eq ‖v‖ 1 ∧ ‖v‖ > least
  · rw [if_pos h]
    have hv : 0 < ‖v‖ := lt_of_le_of_lt hl h.2
    refine ⟨Or.inr (Or.inl ?_), 1 / ‖v‖, fun _ => by positivity, rfl⟩
    rw [norm_smul, Real.norm_of_nonneg (by positivity), one_div, inv_mul_cancel₀ hv.ne']
  · rw [if_neg h]
    refine ⟨?_, 1, fun _ => one_pos, by rw [one_smul]⟩
    by_cases he : eq ‖v‖ 1
    · exact Or.inl he
    · right; right
      by_contra hc
      exact h ⟨he, not_le.1 hc⟩

/-- Two cells of equal area at a right angle: the normal of their vertices is shorter than one, even when the
magnitudes are to be checked. -/
theorem C199_length_fails (eq : ℝ → ℝ → Prop) (least : ℝ) (a b v : V) (ha : ‖a‖ = 1) (hb : ‖b‖ = 1)
    (hab : inner ℝ a b = 0) :
    ∀ n ∈ runNormals eq least true [(v, some [(1, a), (1, b)])], ‖n‖ ^ 2 = 1 / 2 := by
  intro n hn
  simp only [runNormals, List.map_cons, List.map_nil, List.mem_singleton] at hn
  subst hn
  unfold average
  simp only [List.map_cons, List.map_nil, List.sum_cons, List.sum_nil, one_smul, add_zero]
  rw [norm_smul, mul_pow, @norm_add_sq_real, hab, ha, hb, Real.norm_of_nonneg (by norm_num)]
  norm_num

/-- Opposite cells give a zero normal. -/
theorem C199_zero_fails (a : V) : average [(1, a), (1, -a)] = 0 := by
  simp [average]

end Normals

noncomputable example := C199_average_partial (V := EuclideanSpace ℝ (Fin 3))
  [(2, EuclideanSpace.single 0 1), (1, EuclideanSpace.single 1 1)] (by simp) (by norm_num) (by simp)
example := C199_length_fails (V := EuclideanSpace ℝ (Fin 3)) (fun a b => a = b) 0
  (EuclideanSpace.single 0 1) (EuclideanSpace.single 1 1) 0 (by simp) (by simp)
  (by rw [EuclideanSpace.inner_single_left]; simp)
example := C199_check (V := EuclideanSpace ℝ (Fin 3)) (fun a b => a = b) 0 le_rfl (EuclideanSpace.single 0 2)

/-! ## C200: settings -/

theorem words_append_blank (n rest : Name) (h0 : n ≠ []) (hb : ' ' ∉ n) : words (n ++ ' ' :: rest) = n :: words rest := by
  induction n with
  | nil => exact absurd rfl h0
  | cons c n ih =>
    have hc : c ≠ ' ' := by rintro rfl; exact hb (by simp)
    cases n with
    | nil =>
      show words (c :: ' ' :: rest) = _
      simp [words, hc]
    | cons d n =>
      have hd : d ≠ ' ' := by rintro rfl; exact hb (by simp)
      have := ih (by simp) (fun h => hb (by simp [h]))
      show words (c :: d :: (n ++ ' ' :: rest)) = _
      rw [words, if_neg hc]
      simp only [List.cons_append] at this
      rw [this]
      simp [hd]

theorem words_flat (ns : List Name) (h : ∀ n ∈ ns, n ≠ [] ∧ ' ' ∉ n) : words (ns.flatMap fun n => n ++ [' ']) = ns := by
  induction ns with
  | nil => rfl
  | cons n ns ih =>
    rw [List.flatMap_cons, List.append_assoc, List.singleton_append,
      words_append_blank n _ (h n (by simp)).1 (h n (by simp)).2, ih (fun x hx => h x (by simp [hx]))]

/-- Settings written to a section and read by a new block are the same, except for the fourth strategy of the
annotations, for names with blanks and for an empty list of smoothing groups. -/
theorem C200_roundtrip_partial (junk : Int) (s t : Settings) (hm : s.annMode ≠ .allNoBlanks)
    (hn : s.normalsMode ≤ 2) (hs : s.pins.smooths ≠ [])
    (hw : ∀ n, n ∈ s.pins.materials ∨ n ∈ s.pins.groups ∨ n ∈ s.pins.objects → n ≠ [] ∧ ' ' ∉ n) :
    t.absorb junk s.flush = s := by
  obtain ⟨check, annMode, normalsMode, ⟨mats, grps, smooths, objs⟩⟩ := s
  simp only at hm hn hs hw
  unfold Settings.absorb Settings.flush
  simp only
  rw [words_flat mats (fun n h => hw n (Or.inl h)), words_flat grps (fun n h => hw n (Or.inr (Or.inl h))),
    words_flat objs (fun n h => hw n (Or.inr (Or.inr h)))]
  have h1 : Mode.ofNum (min 2 (max 0 annMode.num)) = annMode := by
    cases annMode <;> first | rfl | exact absurd rfl hm
  have h2 : (min 2 (max 0 (normalsMode : Int))).toNat = normalsMode := by omega
  rw [h1, h2]
  simp [readInts, hs]

example := C200_roundtrip_partial 77 ⟨true, .all, 1, ⟨["steel".toList], ["a".toList, "b".toList], [3], []⟩⟩ {}
  (by decide) (by decide) (by decide) (by
    intro n h
    simp only [List.mem_cons, List.not_mem_nil, or_false] at h
    rcases h with rfl | rfl | rfl <;> decide)

/-- The fourth strategy comes back as the third, whatever else is set. -/
theorem C200_strategy_fails (junk : Int) (s t : Settings) (h : s.annMode = .allNoBlanks) :
    (t.absorb junk s.flush).annMode = .all := by
  unfold Settings.absorb Settings.flush
  simp only [h]
  rfl

/-- When no smoothing group is pinned the block that reads the section pins one which was never given. -/
theorem C200_smooth_fails (junk : Int) (s t : Settings) (h : s.pins.smooths = []) :
    (t.absorb junk s.flush).pins.smooths = [junk] := by
  unfold Settings.absorb Settings.flush
  simp only [h]
  rfl

/-- A name with a blank comes back as two. -/
theorem C200_words_fails : (({} : Settings).absorb 0
    ({ pins := { materials := ["old steel".toList] } } : Settings).flush).pins.materials =
      ["old".toList, "steel".toList] := by decide

/-- Whatever a section holds, the modes read are among those the class documents; what is not said stays. -/
theorem C200_absorb (junk : Int) (t : Settings) (x : Section) (h : t.normalsMode ≤ 2) :
    (t.absorb junk x).normalsMode ≤ 2 ∧ (x.check = none → (t.absorb junk x).check = t.check) ∧
    (x.annMode = none → (t.absorb junk x).annMode = t.annMode) ∧
    (x.materials = none → (t.absorb junk x).pins.materials = t.pins.materials) ∧
    (x.groups = none → (t.absorb junk x).pins.groups = t.pins.groups) ∧
    (x.smooths = none → (t.absorb junk x).pins.smooths = t.pins.smooths) ∧
    (x.objects = none → (t.absorb junk x).pins.objects = t.pins.objects) ∧
    (∀ l, x.materials = some l → (t.absorb junk x).pins.materials = l) ∧
    (∀ l, x.groups = some l → (t.absorb junk x).pins.groups = l) ∧
    (∀ l, x.objects = some l → (t.absorb junk x).pins.objects = l) ∧
    (∀ l, x.smooths = some l → l ≠ [] → (t.absorb junk x).pins.smooths = l) := by
  obtain ⟨c, a, n, m, g, s, o⟩ := x
  unfold Settings.absorb
  refine ⟨?_, ?_, ?_, ?_, ?_, ?_, ?_, ?_, ?_, ?_, ?_⟩
  · cases c <;> cases a <;> cases n <;> cases m <;> cases g <;> cases s <;> cases o <;>
      (try simp only) <;> omega
  all_goals
    intros
    cases c <;> cases a <;> cases n <;> cases m <;> cases g <;> cases s <;> cases o <;> (try simp_all [readInts])

example := C200_absorb 5 {} { annMode := some 9, groups := some ["a".toList] } (by decide)

end Verif.ObjData
