import Verif.Obj.WriteProps
/-!
# The attributes of the cells, written and read again
-/
namespace Verif.Obj

variable {α : Type} [Zero α]

theorem app_cons {β : Type} (A : List β) (x y : β) (l : List β) : A ++ (x :: y :: l) = (A ++ [x]) ++ (y :: l) := by
  simp

/-! ## What a line says of the attributes -/

theorem names_snoc (A : List (Line α)) (l : Line α) (h : ∀ s, l ≠ .obj s) : names (A ++ [l]) = names A := by
  rw [names_append]
  cases l <;> simp_all [names]

theorem mat_snoc (A : List (Line α)) (l : Line α) (h : ∀ s, l ≠ .obj s) :
    matOf (A ++ [l]) = match (generalizing := false) l with | .usemtl (w :: _) => w | _ => matOf A := by
  unfold matOf
  rw [chunk_append A l h, last_append]
  cases l <;> try rfl
  rename_i ws
  cases ws <;> rfl

theorem smooth_snoc (A : List (Line α)) (l : Line α) (h : ∀ s, l ≠ .obj s) :
    smoothOf (A ++ [l]) = match (generalizing := false) l with | .s (some (some k)) => k | .s _ => 0 | _ => smoothOf A := by
  unfold smoothOf
  rw [chunk_append A l h, last_append]
  cases l <;> try rfl
  rename_i w
  match w with
  | none => rfl
  | some none => rfl
  | some (some k) => rfl

theorem grp_snoc (ign : Bool) (A : List (Line α)) (l : Line α) (h : ∀ s, l ≠ .obj s) :
    grpOf ign (A ++ [l]) = if ign then "" else
      match (generalizing := false) l with | .g (w :: _) => (if some w = (names A).getLast? then "" else w) | _ => grpOf ign A := by
  unfold grpOf
  cases ign
  · rw [names_snoc A l h, chunk_append A l h, last_append]
    cases l <;> try rfl
    rename_i ws
    cases ws <;> rfl
  · rfl

theorem refsOf_length (p : Pen) : ∀ (vs : List Int) (t n : Option (List Int)) (refs : List Ref),
    refsOf p vs t n = some refs → refs.length = vs.length := by
  intro vs
  induction vs with
  | nil => intro t n refs h; simp only [refsOf, Option.some.injEq] at h; subst h; rfl
  | cons v vs ih =>
    intro t n refs h
    simp only [refsOf, Option.bind_eq_bind, Option.bind_eq_some_iff] at h
    obtain ⟨a, -, b, -, c, -, d, h4, h5⟩ := h
    simp only [Option.some.injEq] at h5
    subst h5
    simp [ih _ _ _ h4]

/-- The cell read from the lines of a cell. -/
theorem emitCell_read {F : Fmt α} {M : Mesh α} {name : String} {p : Pen} {c : WCell}
    {r : List (Line α) × Pen} (ign : Bool) (h : emitCell F M name p c = some r) (h3 : 3 ≤ c.conn.length)
    (A : List (Line α)) :
    ∃ d gk mk gs ms, (grpKeys M).lookup c.grp = some gk ∧ (matKeys M).lookup c.mat = some mk ∧
      grpName name (grpKeys M) gk = some gs ∧ unkey (matKeys M) mk = some ms ∧
      cellsOf ign A r.1 = [d] ∧ r.2.g = gk ∧ r.2.m = mk ∧ r.2.s = c.smooth ∧
      names (A ++ r.1) = names A ∧
      d.grp = grpOf ign (A ++ r.1) ∧ d.mat = matOf (A ++ r.1) ∧ d.smooth = smoothOf (A ++ r.1) ∧
      grpOf ign (A ++ r.1) = (if p.g ≠ gk then (if ign then "" else
        match F.split gs with | [] => grpOf ign A | w :: _ => if some w = (names A).getLast? then "" else w)
        else if ign then "" else grpOf ign A) ∧
      matOf (A ++ r.1) = (if p.m ≠ mk then match F.split ms with | [] => matOf A | w :: _ => w else matOf A) ∧
      smoothOf (A ++ r.1) = (if p.s ≠ c.smooth then c.smooth else smoothOf A) := by
  obtain ⟨gk, mk, gs, ms, tc, nc, refs, h1, h2, h4, h5, -, -, h7, h8, h9⟩ := emitCell_inv h
  have hl := refsOf_length _ _ _ _ _ h7
  obtain ⟨B, hB⟩ : ∃ B, B = (if p.g ≠ gk then [(.g (F.split gs) : Line α)] else []) ++
        (if p.m ≠ mk then [.usemtl (F.split ms)] else []) ++
        (if p.s ≠ c.smooth then [.s (some (if c.smooth = 0 then none else some c.smooth))] else []) := ⟨_, rfl⟩
  rw [← hB] at h8
  have hBo : ∀ l ∈ B, ∀ s, l ≠ .obj s := by
    intro l hl s
    rw [hB] at hl
    rintro rfl
    by_cases a : p.g = gk <;> by_cases b : p.m = mk <;> by_cases d : p.s = c.smooth <;> simp [a, b, d] at hl
  have hBf : cellsOf ign A B = [] := by
    rw [hB]
    by_cases a : p.g = gk <;> by_cases b : p.m = mk <;> by_cases d : p.s = c.smooth <;>
      simp [a, b, d, cellsOf]
  have nm : ∀ (B A : List (Line α)), (∀ l ∈ B, ∀ s, l ≠ .obj s) → names (A ++ B) = names A := by
    intro B
    induction B with
    | nil => simp
    | cons l B ih =>
      intro A hb
      rw [show A ++ l :: B = (A ++ [l]) ++ B by simp, ih _ (fun x hx => hb x (by simp [hx])),
        names_snoc _ _ (hb l (by simp))]
  have hf : ∀ s, (.f refs true : Line α) ≠ .obj s := by simp
  have eA : A ++ r.1 = (A ++ B) ++ [.f refs true] := by rw [h8]; simp
  have e1 : grpOf ign (A ++ r.1) = grpOf ign (A ++ B) := by
    rw [eA, grp_snoc _ _ _ hf]; unfold grpOf; cases ign <;> rfl
  have e2 : matOf (A ++ r.1) = matOf (A ++ B) := by rw [eA, mat_snoc _ _ hf]
  have e3 : smoothOf (A ++ r.1) = smoothOf (A ++ B) := by rw [eA, smooth_snoc _ _ hf]
  refine ⟨cellOf ign (A ++ B) refs, gk, mk, gs, ms, h1, h2, h4, h5, ?_, by rw [h9], by rw [h9], by rw [h9], ?_,
    by rw [e1]; rfl, by rw [e2]; rfl, by rw [e3]; rfl, ?_, ?_, ?_⟩
  · rw [h8, cellsOf_append, hBf, cellsOf, if_neg (by omega)]
    simp [cellsOf]
  · rw [eA, names_snoc _ _ hf, nm B A hBo]
  · rw [e1, hB]
    cases ign
    · by_cases a : p.g = gk <;> by_cases b : p.m = mk <;> by_cases d : p.s = c.smooth <;>
        simp only [a, b, d, ne_eq, not_true_eq_false, not_false_eq_true, if_true, if_false, List.append_nil,
          List.nil_append, List.cons_append, app_cons] <;>
        (try simp [-List.append_assoc, grp_snoc, names_snoc]) <;> (cases F.split gs <;> first | rfl | simp)
    · simp [grpOf]
  · rw [e2, hB]
    by_cases a : p.g = gk <;> by_cases b : p.m = mk <;> by_cases d : p.s = c.smooth <;>
        simp only [a, b, d, ne_eq, not_true_eq_false, not_false_eq_true, if_true, if_false, List.append_nil,
          List.nil_append, List.cons_append, app_cons] <;>
        (try simp [-List.append_assoc, mat_snoc]) <;> (cases F.split ms <;> first | rfl | simp)
  · have hs : ∀ X : List (Line α),
        smoothOf (X ++ [.s (some (if c.smooth = 0 then none else some c.smooth))]) = c.smooth := by
      intro X
      rw [smooth_snoc _ _ (by simp)]
      by_cases z : c.smooth = 0
      · rw [if_pos z, z]
      · rw [if_neg z]
    rw [e3, hB]
    generalize (.s (some (if c.smooth = 0 then none else some c.smooth)) : Line α) = L at hs
    by_cases d : p.s = c.smooth
    · by_cases a : p.g = gk <;> by_cases b : p.m = mk <;>
        simp only [a, b, d, ne_eq, not_true_eq_false, not_false_eq_true, if_true, if_false, List.append_nil,
          List.nil_append, List.cons_append, app_cons] <;>
        (try simp [-List.append_assoc, smooth_snoc])
    · rw [if_pos d, if_pos d, ← List.append_assoc, hs]

/-- A fact kept from cell to cell. -/
theorem emitCells_rel {F : Fmt α} {M : Mesh α} {name : String} (ign : Bool) (Inv : Pen → List (Line α) → Prop)
    (R : WCell → Cell → Prop) (cs : List WCell)
    (step : ∀ c ∈ cs, ∀ p A r, Inv p A → emitCell F M name p c = some r →
      ∃ d, cellsOf ign A r.1 = [d] ∧ R c d ∧ Inv r.2 (A ++ r.1)) :
    ∀ p A r, Inv p A → emitCells F M name cs p = some r → List.Forall₂ R cs (cellsOf ign A r.1) := by
  induction cs with
  | nil =>
    intro p A r _ h
    simp only [emitCells, Option.some.injEq] at h
    subst h
    exact .nil
  | cons c cs ih =>
    intro p A r hi h
    simp only [emitCells, Option.bind_eq_bind, Option.bind_eq_some_iff] at h
    obtain ⟨a, h1, b, h2, h3⟩ := h
    simp only [Option.some.injEq] at h3
    subst h3
    obtain ⟨d, e1, e2, e3⟩ := step c (by simp) p A a hi h1
    simp only
    rw [cellsOf_append, e1]
    exact .cons e2 (ih (fun x hx => step x (by simp [hx])) _ _ _ e3 h2)

/-- The lines of points say nothing of the attributes, and are no cells. -/
theorem points_quiet (ign : Bool) (X : List (Line α))
    (h : ∀ l ∈ X, (∃ c t, l = .v c t) ∨ (∃ c t, l = .vt c t) ∨ ∃ c t, l = .vn c t) :
    ∀ A, cellsOf ign A X = [] ∧ matOf (A ++ X) = matOf A ∧ smoothOf (A ++ X) = smoothOf A ∧
      names (A ++ X) = names A := by
  induction X with
  | nil => intro A; simp [cellsOf]
  | cons l X ih =>
    intro A
    obtain ⟨h1, h2, h3, h4⟩ := ih (fun x hx => h x (by simp [hx])) (A ++ [l])
    rw [List.append_assoc, List.singleton_append] at h2 h3 h4
    have hl := h l (by simp)
    have ho : ∀ s, l ≠ .obj s := by
      rintro s rfl
      simp at hl
    rw [h2, h3, h4, mat_snoc _ _ ho, smooth_snoc _ _ ho, names_snoc _ _ ho]
    rcases hl with ⟨c, t, rfl⟩ | ⟨c, t, rfl⟩ | ⟨c, t, rfl⟩ <;> exact ⟨h1, rfl, rfl, rfl⟩

/-- The lines of an object before its cells. -/
def Out.top (o : Out α) : List (Line α) := .obj o.name :: (o.vs ++ (o.ts ++ o.ns))

theorem Obj.top {F : Fmt α} {M : Mesh α} {pre : List (Line α)} {part : Int × String} {p : Pen} {r : Out α × Pen}
    (h : Obj F M pre part p r) (ign : Bool) :
    cellsOf ign pre r.1.lines = cellsOf ign (pre ++ r.1.top) r.1.body ∧ matOf (pre ++ r.1.top) = "" ∧
    smoothOf (pre ++ r.1.top) = 0 ∧ (names (pre ++ r.1.top)).getLast? = some (F.trim part.2) := by
  have hx : ∀ l ∈ r.1.vs ++ (r.1.ts ++ r.1.ns),
      (∃ c t, l = .v c t) ∨ (∃ c t, l = .vt c t) ∨ ∃ c t, l = .vn c t := by
    intro l hl
    simp only [List.mem_append] at hl
    rcases hl with hl | hl | hl
    · obtain ⟨q, rfl⟩ := h.vs l hl
      exact Or.inl ⟨_, _, rfl⟩
    · obtain ⟨q, rfl⟩ := h.ts l hl
      refine Or.inr (Or.inl ?_)
      unfold Fmt.vt
      split <;> exact ⟨_, _, rfl⟩
    · obtain ⟨q, rfl⟩ := h.ns l hl
      exact Or.inr (Or.inr ⟨_, _, rfl⟩)
  obtain ⟨h1, h2, h3, h4⟩ := points_quiet ign _ hx (pre ++ [.obj r.1.name])
  have e : pre ++ r.1.top = pre ++ [.obj r.1.name] ++ (r.1.vs ++ (r.1.ts ++ r.1.ns)) := by simp [Out.top]
  refine ⟨?_, ?_, ?_, ?_⟩
  · have : r.1.lines = .obj r.1.name :: ((r.1.vs ++ (r.1.ts ++ r.1.ns)) ++ r.1.body) := by simp [Out.lines]
    rw [this]
    show cellsOf ign (pre ++ [.obj r.1.name]) ((r.1.vs ++ (r.1.ts ++ r.1.ns)) ++ r.1.body) = _
    rw [cellsOf_append, h1, e, List.nil_append]
  · rw [e, h2, matOf, chunk_obj]; rfl
  · rw [e, h3, smoothOf, chunk_obj]; rfl
  · rw [e, h4, names_append, h.name]; simp [names]

/-- A fact kept from object to object. -/
theorem writeParts_rel {F : Fmt α} {M : Mesh α} (ign : Bool) (R : WCell → Cell → Prop) (ps : List (Int × String))
    (step : ∀ part ∈ ps, ∀ pre p r, Obj F M pre part p r →
      List.Forall₂ R (regroup M (M.cells.filter fun c => c.pid == part.1)) (cellsOf ign pre r.1.lines)) :
    ∀ pre p os, Wrote F M pre p → writeParts F M ps p = some os →
      List.Forall₂ R (inOrder M ps) (cellsOf ign pre (os.flatMap Out.lines)) := by
  induction ps with
  | nil =>
    intro pre p os _ h
    simp only [writeParts, Option.some.injEq] at h
    subst h
    exact .nil
  | cons part ps ih =>
    intro pre p os hw h
    simp only [writeParts, Option.bind_eq_bind, Option.bind_eq_some_iff] at h
    obtain ⟨a, h1, b, h2, h4⟩ := h
    simp only [Option.some.injEq] at h4
    subst h4
    have ho := writeObj_spec hw h1
    rw [List.flatMap_cons, cellsOf_append, inOrder, List.flatMap_cons]
    exact List.rel_append (step part (by simp) _ _ _ ho)
      (ih (fun x hx => step x (by simp [hx])) _ _ _ ho.wrote h2)

theorem mem_regroup {M : Mesh α} {pid : Int} {c : WCell}
    (h : c ∈ regroup M (M.cells.filter fun c => c.pid == pid)) : c ∈ M.cells ∧ c.pid = pid := by
  have hp := C195_regroup M (M.cells.filter fun c => c.pid == pid) (fun c hc => (List.mem_filter.1 hc).1)
  have hm := hp.mem_iff.1 h
  rw [List.mem_filter] at hm
  exact ⟨hm.1, by simpa using hm.2⟩

/-- The groups of an object. -/
theorem groups_obj {F : Fmt α} {M : Mesh α} {ign : Bool} {pre : List (Line α)} {part : Int × String} {p : Pen}
    {r : Out α × Pen} (h3 : ∀ c ∈ M.cells, 3 ≤ c.conn.length) (hs : F.split part.2 = [F.trim part.2])
    (hc : ∀ c ∈ M.cells, c.pid = part.1 → c.grp = "" ∨ (F.split c.grp = [c.grp] ∧ c.grp ≠ F.trim part.2))
    (h : Obj F M pre part p r) :
    List.Forall₂ (fun c d => d.grp = if ign then "" else c.grp)
      (regroup M (M.cells.filter fun c => c.pid == part.1)) (cellsOf ign pre r.1.lines) := by
  obtain ⟨t1, -, -, t4⟩ := h.top ign
  obtain ⟨q, -, hg, -, -, he⟩ := h.body
  rw [t1]
  refine emitCells_rel ign (fun p A => (names A).getLast? = some (F.trim part.2) ∧
    ∀ x (k : Nat), (grpKeys M).lookup x = some k → p.g = k → grpOf ign A = if ign then "" else x) _ _ ?_ q _ _
    ⟨t4, fun x k _ e => by rw [hg] at e; omega⟩ he
  intro c hcm p A r' hi hr
  obtain ⟨hm, hpid⟩ := mem_regroup hcm
  obtain ⟨d, gk, mk, gs, ms, k1, k2, k3, k4, e1, e2, -, -, e5, e6, -, -, e9, -, -⟩ :=
    emitCell_read ign hr (h3 c hm) A
  have K := C195_keys (M.cells.map WCell.grp)
  have hgrp : grpOf ign (A ++ r'.1) = if ign then "" else c.grp := by
    rw [e9]
    cases ign
    · by_cases hpg : p.g = gk
      · have := hi.2 c.grp gk k1 hpg
        simpa [hpg] using this
      · rw [if_pos hpg]
        have hz := K.2.2.1 _ _ k1
        unfold grpName at k3
        by_cases h0 : gk = 0
        · rw [if_pos h0] at k3
          simp only [Option.some.injEq] at k3
          subst k3
          rw [hs, hi.1, hz.1 h0]
          simp
        · rw [if_neg h0] at k3
          have hu := K.2.2.2.1 _ _ k1
          have hgs : gs = c.grp := by
            rw [grpKeys] at k3
            rw [hu] at k3
            simpa using k3.symm
          rcases hc c hm hpid with hce | ⟨hsp, hne⟩
          · exact absurd (hz.2 hce) h0
          · rw [hgs, hsp, hi.1]
            simp [hne]
    · by_cases hpg : p.g = gk <;> simp [hpg]
  refine ⟨d, e1, by rw [e6, hgrp], by rw [e5]; exact hi.1, ?_⟩
  intro x k hx hk
  have : k = gk := by rw [e2] at hk; omega
  subst this
  rw [hgrp, K.2.1 _ _ _ hx k1]

/-- The materials of an object written first. -/
theorem materials_obj {F : Fmt α} {M : Mesh α} {ign : Bool} {pre : List (Line α)} {part : Int × String} {p : Pen}
    {r : Out α × Pen} (h3 : ∀ c ∈ M.cells, 3 ≤ c.conn.length) (hp : p.m = 0)
    (hc : (∀ c ∈ M.cells, F.split c.mat = [c.mat]) ∨ ∀ c ∈ M.cells, c.mat = "")
    (h : Obj F M pre part p r) :
    List.Forall₂ (fun c d => d.mat = c.mat)
      (regroup M (M.cells.filter fun c => c.pid == part.1)) (cellsOf ign pre r.1.lines) := by
  obtain ⟨t1, t2, -, -⟩ := h.top ign
  obtain ⟨q, -, -, hm, -, he⟩ := h.body
  rw [t1]
  have K := C195_keys (M.cells.map WCell.mat)
  refine emitCells_rel ign (fun p A => ((∀ c ∈ M.cells, F.split c.mat = [c.mat]) ∨ p.m = 0) ∧
    ∀ x (k : Nat), (matKeys M).lookup x = some k → p.m = k → matOf A = x) _ _ ?_ q _ _
    ⟨Or.inr (hm.trans hp), fun x k hx e => by
      rw [t2]
      exact ((K.2.2.1 _ _ hx).1 (by omega)).symm⟩ he
  intro c hcm p A r' hi hr
  obtain ⟨hm, hpid⟩ := mem_regroup hcm
  obtain ⟨d, gk, mk, gs, ms, k1, k2, k3, k4, e1, -, e3, -, -, -, e7, -, -, e10, -⟩ :=
    emitCell_read ign hr (h3 c hm) A
  have hms : ms = c.mat := by
    have hu := K.2.2.2.1 _ _ k2
    rw [matKeys] at k4
    rw [hu] at k4
    simpa using k4.symm
  have hmat : matOf (A ++ r'.1) = c.mat := by
    rw [e10]
    by_cases hpm : p.m = mk
    · simpa [hpm] using hi.2 c.mat mk k2 hpm
    · rw [if_pos hpm]
      rcases hc with hc | hc
      · rw [hms, hc c hm]
      · rcases hi.1 with hc' | h0
        · rw [hms, hc' c hm]
        · exact absurd (h0.trans ((K.2.2.1 _ _ k2).2 (hc c hm)).symm) hpm
  refine ⟨d, e1, by rw [e7, hmat], ?_, ?_⟩
  · rcases hc with hc | hc
    · exact Or.inl hc
    · right
      rw [e3]
      exact (K.2.2.1 _ _ k2).2 (hc c hm)
  · intro x k hx hk
    have : k = mk := by rw [e3] at hk; exact hk.symm
    subst this
    rw [hmat, K.2.1 _ _ _ hx k2]

/-- The smoothing groups of an object written first. -/
theorem smooth_obj {F : Fmt α} {M : Mesh α} {ign : Bool} {pre : List (Line α)} {part : Int × String} {p : Pen}
    {r : Out α × Pen} (h3 : ∀ c ∈ M.cells, 3 ≤ c.conn.length) (hp : p.s = 0)
    (h : Obj F M pre part p r) :
    List.Forall₂ (fun c d => d.smooth = c.smooth)
      (regroup M (M.cells.filter fun c => c.pid == part.1)) (cellsOf ign pre r.1.lines) := by
  obtain ⟨t1, -, t3, -⟩ := h.top ign
  obtain ⟨q, -, -, -, hs, he⟩ := h.body
  rw [t1]
  refine emitCells_rel ign (fun p A => smoothOf A = p.s) _ _ ?_ q _ _ (by rw [t3, hs, hp]) he
  intro c hcm p A r' hi hr
  obtain ⟨hm, hpid⟩ := mem_regroup hcm
  obtain ⟨d, gk, mk, gs, ms, k1, k2, k3, k4, e1, -, -, e4, -, -, -, e8, -, -, e11⟩ :=
    emitCell_read ign hr (h3 c hm) A
  have hsm : smoothOf (A ++ r'.1) = c.smooth := by
    rw [e11]
    by_cases hps : p.s = c.smooth
    · simpa [hps] using hi
    · rw [if_pos hps]
  exact ⟨d, e1, by rw [e8, hsm], by rw [hsm, e4]⟩

theorem forall₂_and {β γ : Type} {R S : β → γ → Prop} {a : List β} {b : List γ} (h : List.Forall₂ R a b)
    (g : List.Forall₂ S a b) : List.Forall₂ (fun x y => R x y ∧ S x y) a b := by
  induction h with
  | nil => exact .nil
  | cons h _ ih =>
    cases g with
    | cons g1 g2 => exact .cons ⟨h, g1⟩ (ih g2)

/-! ## C196: the attributes read back -/

/-- The groups of the cells come back, whatever the number of parts, when they are single words other than
the name of the object, or empty, and the names of the parts are single words; with the option which drops
the groups they come back empty. -/
theorem C196_groups_partial (F : Fmt α) (M : Mesh α) (ign : Bool) (file : List (Line α))
    (hb : F.bag [] = []) (huv : F.uv = false) (hn : (M.parts.map Prod.fst).Nodup)
    (h3 : ∀ c ∈ M.cells, 3 ≤ c.conn.length)
    (hs : ∀ part ∈ M.parts, F.split part.2 = [F.trim part.2])
    (hc : ∀ c ∈ M.cells, ∀ part ∈ M.parts, c.pid = part.1 →
      c.grp = "" ∨ (F.split c.grp = [c.grp] ∧ c.grp ≠ F.trim part.2))
    (h : write F M = some file) :
    ∃ r cs, scanFile ign file = .ok r ∧
      List.Perm cs (M.cells.filter fun c => (M.parts.map Prod.fst).contains c.pid) ∧
      List.Forall₂ (fun c d => Back F M r c d ∧ d.grp = if ign then "" else c.grp) cs r.cells := by
  unfold write at h
  simp only [Option.bind_eq_bind, Option.bind_eq_some_iff] at h
  obtain ⟨os, h1, h2⟩ := h
  simp only [Option.some.injEq] at h2
  obtain ⟨r, e, hr⟩ := scanFile_neat ign (write_neat hb huv h1)
  rw [h2] at e hr
  refine ⟨r, inOrder M M.parts, e, pid_perm M.parts hn, ?_⟩
  have g1 := writeParts_back hr hb huv h3 M.parts [] [.other, .other, .other] {} os (wrote_nil F M) rfl rfl h1 h2.symm
  have g2 := writeParts_rel (F := F) ign (fun c d => d.grp = if ign then "" else c.grp) M.parts
    (fun part hp pre p r ho => groups_obj h3 (hs part hp) (fun c hm hpid => hc c hm part hp hpid) ho)
    [.other, .other, .other] {} os (wrote_nil F M) h1
  rw [hr.cells, ← h2]
  exact forall₂_and g1 g2

/-- The materials and the smoothing groups of a mesh with one part come back, when the materials are single
words, or when there are none. -/
theorem C196_single_partial (F : Fmt α) (M : Mesh α) (ign : Bool) (file : List (Line α)) (part : Int × String)
    (hb : F.bag [] = []) (huv : F.uv = false) (hp : M.parts = [part])
    (h3 : ∀ c ∈ M.cells, 3 ≤ c.conn.length)
    (hc : (∀ c ∈ M.cells, F.split c.mat = [c.mat]) ∨ ∀ c ∈ M.cells, c.mat = "")
    (h : write F M = some file) :
    ∃ r cs, scanFile ign file = .ok r ∧ List.Perm cs (M.cells.filter fun c => c.pid == part.1) ∧
      List.Forall₂ (fun c d => Back F M r c d ∧ d.mat = c.mat ∧ d.smooth = c.smooth) cs r.cells := by
  unfold write at h
  simp only [Option.bind_eq_bind, Option.bind_eq_some_iff] at h
  obtain ⟨os, h1, h2⟩ := h
  simp only [Option.some.injEq] at h2
  obtain ⟨r, e, hr⟩ := scanFile_neat ign (write_neat hb huv h1)
  rw [h2] at e hr
  have g1 := writeParts_back hr hb huv h3 M.parts [] [.other, .other, .other] {} os (wrote_nil F M) rfl rfl h1 h2.symm
  have ec := hr.cells
  rw [← h2] at ec
  rw [hp] at g1 h1
  simp only [writeParts, Option.bind_eq_bind, Option.bind_eq_some_iff] at h1
  obtain ⟨a, i1, b, i2, i3⟩ := h1
  simp only [Option.some.injEq] at i2 i3
  subst i2
  subst i3
  have ho := writeObj_spec (wrote_nil F M) i1
  have m1 := materials_obj (ign := ign) h3 rfl hc ho
  have m2 := smooth_obj (ign := ign) h3 rfl ho
  have er := C195_regroup M (M.cells.filter fun c => c.pid == part.1) (fun c hc => (List.mem_filter.1 hc).1)
  refine ⟨r, _, e, er, ?_⟩
  rw [ec]
  have g1' : List.Forall₂ (Back F M r) (regroup M (M.cells.filter fun c => c.pid == part.1))
      (cellsOf ign [.other, .other, .other] a.1.lines) := by
    simpa [inOrder] using g1
  have : cellsOf ign [] ([.other, .other, .other] ++ [a.1].flatMap Out.lines) =
      cellsOf ign [.other, .other, .other] a.1.lines := by
    simp [cellsOf]
  rw [this]
  exact forall₂_and g1' (forall₂_and m1 m2)

/-! ## Cases -/

/-- Numbers as they are, names of one word. -/
def plainFmt : Fmt Int := ⟨id, fun s => if s = "" then [] else [s], id, List.eraseDups, false⟩

/-- Two parts with a common edge, three materials, two groups and two smoothing groups. -/
def twin : Mesh Int where
  verts := [(10, 0, 0, 0), (11, 1, 0, 0), (12, 1, 1, 0), (13, 0, 1, 0)]
  cells := [⟨7, [10, 11, 12], 3, "steel", "wing", 1⟩, ⟨8, [12, 13, 10], 5, "steel", "", 1⟩,
    ⟨9, [11, 12, 13], 3, "wood", "", 0⟩]
  parts := [(3, "left"), (5, "right")]
  txt := some ⟨[(1, 0, 0, 5), (2, 1, 0, 6)], [(7, [1, 2, 2]), (8, [2, 1, 1]), (9, [1, 1, 2])]⟩
  nrm := some ⟨[(4, 0, 0, 1)], [(7, [4, 4, 4]), (8, [4, 4, 4]), (9, [4, 4, 4])]⟩

theorem twin_written : write plainFmt twin = some
    [.other, .other, .other, .obj "left", .v [0, 0, 0] false, .v [1, 0, 0] false, .v [1, 1, 0] false,
      .v [0, 1, 0] false, .vt [0, 0, 5] false, .vt [1, 0, 6] false, .vn [0, 0, 1] false,
      .g ["left"], .usemtl ["wood"], .f [⟨2, some 1, some 1⟩, ⟨3, some 1, some 1⟩, ⟨4, some 2, some 1⟩] true,
      .g ["wing"], .usemtl ["steel"], .s (some (some 1)),
      .f [⟨1, some 1, some 1⟩, ⟨2, some 2, some 1⟩, ⟨3, some 2, some 1⟩] true,
      .obj "right", .g ["right"], .f [⟨3, some 2, some 1⟩, ⟨4, some 1, some 1⟩, ⟨1, some 1, some 1⟩] true] := by
  decide +kernel

example := C193_facets plainFmt twin _ (by decide) twin_written
example := C193_once plainFmt twin _ (by intro l x; simp [plainFmt]) twin_written
example := C194_roundtrip_partial plainFmt twin false _ rfl rfl (by decide) (by decide) twin_written
example := C196_groups_partial plainFmt twin false _ rfl rfl (by decide) (by decide) (by decide +kernel)
  (by decide +kernel) twin_written

/-- The same mesh with one part, without textures. -/
def lone : Mesh Int := { twin with
  cells := twin.cells.map fun c => { c with pid := 3 }, parts := [(3, "left")], txt := none }

example : ∃ file r cs, write plainFmt lone = some file ∧ scanFile false file = .ok r ∧
    List.Perm cs lone.cells ∧
    List.Forall₂ (fun c d => Back plainFmt lone r c d ∧ d.mat = c.mat ∧ d.smooth = c.smooth) cs r.cells := by
  cases h : write plainFmt lone with
  | none => exact absurd h (by decide +kernel)
  | some file =>
    obtain ⟨r, cs, h1, h2, h3⟩ := C196_single_partial plainFmt lone false file (3, "left") rfl rfl rfl (by decide)
      (Or.inl (by decide +kernel)) h
    exact ⟨file, r, cs, rfl, h1, h2, h3⟩

example : ∃ file, write plainFmt lone = some file ∧ readFile true file = .error .null := by
  cases h : write plainFmt lone with
  | none => exact absurd h (by decide +kernel)
  | some file => exact ⟨file, rfl, C194_bare_fails plainFmt lone true file rfl rfl (Or.inl rfl) h⟩

/-- The second object of a file loses the material and the smoothing group it shares with the end of the
first one: they are not written again, and the reader forgets them. -/
theorem C196_second_fails : ((write plainFmt twin).map fun file =>
    (scanFile false file).map fun r => r.cells.map fun c => (c.pid, c.mat, c.smooth)) =
    some (.ok [(0, "wood", 0), (0, "steel", 1), (1, "", 0)]) ∧
    twin.cells.map (fun c => (c.pid, c.mat, c.smooth)) = [(3, "steel", 1), (5, "steel", 1), (3, "wood", 0)] :=
  ⟨rfl, rfl⟩

/-- A cell without material which comes after another group takes the material of the cell before it. -/
theorem C196_bare_fails : ((write plainFmt { lone with
      cells := [⟨7, [10, 11, 12], 3, "steel", "", 0⟩, ⟨8, [12, 13, 10], 3, "", "wing", 0⟩] }).map fun file =>
    (scanFile false file).map fun r => r.cells.map fun c => (c.grp, c.mat)) =
    some (.ok [("", "steel"), ("wing", "steel")]) := rfl

/-- With two coordinates the textures come back with a third one, equal to the second: a blank is written
after them. -/
theorem C194_uv_fails : ((write (⟨id, plainFmt.split, id, plainFmt.bag, true⟩ : Fmt Int)
      ⟨twin.verts, twin.cells, [(3, "left")],
        some ⟨[(1, 2, 3, 0)], [(7, [1, 1, 1]), (9, [1, 1, 1])]⟩, none⟩).map fun file =>
    (scanFile false file).map fun r => r.txts) = some (.ok [(2, 3, 3)]) := rfl

end Verif.Obj
