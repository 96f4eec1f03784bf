import Verif.Refine.Spread
/-
Red-green refinement: the insertion of the middles and of the new triangles.
-/
namespace Verif.Refine
open Verif.Field Verif.Mesh
open List hiding get get_of_mem

variable {P : Type}

/-- positions of some vertices -/
def pts (o : Obj P) (l : List Nat) : List P := l.filterMap (fun v => get o.verts v)

theorem mapM_pts {o s : Obj P} {vs : Data P} {cs : Data Cell} (h : Grows o s vs cs) : ∀ (l : List Nat),
    (∀ v ∈ l, has o.verts v = true) → l.mapM (fun v => get s.verts v) = some (pts o l) := by
  intro l
  induction l with
  | nil => intro _; rfl
  | cons v l ih =>
    intro hl
    have hv := hl v (by simp)
    rw [has_eq_isSome, Option.isSome_iff_exists] at hv
    obtain ⟨p, hp⟩ := hv
    rw [mapM_cons, h.get_vert hp, ih (fun w hw => hl w (by simp [hw]))]
    simp [pts, hp]

theorem addMiddles_spec {g : Gen P} (hg : GenOk g) (mean : List P → P) (T : Topo) {o : Obj P} : ∀ (is : List Nat),
    (∀ i ∈ is, ∀ v ∈ T.ends i, has o.verts v = true) → ∀ (s : Obj P) (em : Data Nat) (vs0 : Data P) (cs0 : Data Cell),
      Grows o s vs0 cs0 →
      ∃ s' em', addMiddles g mean T is (s, em) = some (s', em ++ em') ∧ em'.map Prod.fst = is ∧
        Grows s s' (em'.map fun e => (e.2, mean (pts o (T.ends e.1)))) [] := by
  intro is
  induction is with
  | nil =>
    intro _ s em vs0 cs0 h
    exact ⟨s, [], by simp [addMiddles], rfl, Grows.refl h.okv h.okc⟩
  | cons i is ih =>
    intro hi s em vs0 cs0 h
    have g1 := newVertex_grows hg h.okv h.okc (mean (pts o (T.ends i)))
    obtain ⟨s', em', e1, e2, e3⟩ := ih (fun j hj => hi j (by simp [hj])) _ (em ++ [(i, g.vert s.verts)]) _ _ (h.trans g1)
    refine ⟨s', (i, g.vert s.verts) :: em', ?_, by simp [e2], ?_⟩
    · rw [addMiddles, addMiddle]
      simp only [mapM_pts h _ (hi i (by simp)), Option.bind_some]
      rw [e1]
      simp
    · have := g1.trans e3
      simpa using this

theorem splitLoop_spec {g : Gen P} (hg : GenOk g) {T : Topo} {m : Marks} {em : Data Nat} {o : Obj P}
    (ts : Nat × Cell → List (List Nat)) : ∀ (l : Data Cell), (∀ e ∈ l, get o.cells e.1 = some e.2 ∧ Known o e.2.pid ∧
      childTris T m em e.1 e.2 = some (ts e) ∧ ∀ t ∈ ts e, t.length = 3) →
      ∀ (s : Obj P) (del : List Nat) (vs0 : Data P) (cs0 : Data Cell), Grows o s vs0 cs0 →
      ∃ s' cs, splitLoop g T m em (l.map Prod.fst) (s, del) =
          some (s', ((l.filter fun e => !(ts e).isEmpty).map Prod.fst).foldl insSet del) ∧
        Grows s s' [] cs ∧ cs.map Prod.snd = l.flatMap fun e => (ts e).map (tri e.2.pid) := by
  intro l
  induction l with
  | nil =>
    intro _ s del vs0 cs0 h
    exact ⟨s, [], rfl, Grows.refl h.okv h.okc, rfl⟩
  | cons e l ih =>
    intro hr s del vs0 cs0 h
    obtain ⟨r1, r2, r3, r4⟩ := hr e (by simp)
    obtain ⟨cs1, g1, c1⟩ := newTris_grows hg (pid := e.2.pid) (ts e) h.okv h.okc (h.known r2) r4
    obtain ⟨s', cs, e1, e2, e3⟩ := ih (fun x hx => hr x (by simp [hx])) (newTris g e.2.pid s (ts e))
      (if ts e = [] then del else insSet del e.1) _ _ (h.trans g1)
    refine ⟨s', cs1 ++ cs, ?_, g1.trans e2, ?_⟩
    · rw [map_cons, splitLoop, splitCell]
      simp only [h.get_cell r1, r3, Option.map_some, Option.bind_some]
      rw [e1]
      by_cases hts : ts e = []
      · simp [hts]
      · have : (ts e).isEmpty = false := by simpa using hts
        simp [hts, this]
    · rw [map_append, c1, e3]; simp

/-- a list in another order, seen through a map -/
theorem perm_lift {α β : Type} (f : α → β) : ∀ {ord : List β} {m : List β}, ord.Perm m → ∀ (d : List α), m = d.map f →
    ∃ l : List α, l.Perm d ∧ l.map f = ord := by
  intro ord m h
  induction h with
  | nil => intro d hd; have : d = [] := by simpa using hd.symm
           subst this; exact ⟨[], .nil, rfl⟩
  | cons x _ ih =>
    intro d hd
    match d with
    | [] => simp at hd
    | y :: d =>
      simp only [map_cons, cons.injEq] at hd
      obtain ⟨l, h1, h2⟩ := ih d hd.2
      exact ⟨y :: l, h1.cons y, by rw [map_cons, h2, hd.1]⟩
  | swap x y l =>
    intro d hd
    match d with
    | [] => simp at hd
    | [_] => simp at hd
    | a :: b :: d =>
      simp only [map_cons, cons.injEq] at hd
      refine ⟨b :: a :: d, .swap .., ?_⟩
      rw [map_cons, map_cons, ← hd.1, ← hd.2.1, ← hd.2.2]
  | trans _ _ ih1 ih2 =>
    intro d hd
    obtain ⟨l, h1, h2⟩ := ih2 d hd
    obtain ⟨l', h3, h4⟩ := ih1 l h2.symm
    exact ⟨l', h3.trans h1, h4⟩

/-- what `split` makes of a mesh: `em` gives the new vertex of each interface, `ts` the triangles of each cell, `l` are
the cells in the order of the tags -/
structure Splits (mean : List P → P) (T : Topo) (o o' : Obj P) (em : Data Nat) (l : Data Cell)
    (ts : Nat × Cell → List (List Nat)) : Prop where
  verts : o'.verts = o.verts ++ em.map fun e => (e.2, mean (pts o (T.ends e.1)))
  okv : Ok o'.verts
  okc : Ok o'.cells
  cells : ∃ cs, o'.cells = o.cells.filter (fun e => (ts e).isEmpty) ++ cs ∧ (∀ c ∈ cs, has o.cells c.1 = false) ∧
    cs.map Prod.snd = l.flatMap fun e => (ts e).map (tri e.2.pid)
  pids : o'.pids = o.pids
  names : o'.names = o.names
  type : o'.type = o.type

theorem split_spec {g : Gen P} (hg : GenOk g) (mean : List P → P) {T : Topo} {m : Marks} {o : Obj P} (h : SurfOk o)
    (ht : TreeOk o) {ord : List Nat} (hord : ord.Perm (cellIds o)) (hends : ∀ i ∈ m.edges, ∀ v ∈ T.ends i, has o.verts v = true)
    (ts : Data Nat → Nat × Cell → List (List Nat))
    (hts : ∀ em : Data Nat, em.map Prod.fst = ordered m.edges → ∀ e ∈ o.cells, childTris T m em e.1 e.2 = some (ts em e) ∧
      ∀ t ∈ ts em e, t.length = 3 ∧ ∀ v ∈ t, v ∈ vertexIds e.2 ∨ v ∈ em.map Prod.snd) :
    ∃ o' em l, split g mean T ord m o = some o' ∧ l.Perm o.cells ∧ em.map Prod.fst = ordered m.edges ∧
      Splits mean T o o' em l (ts em) ∧ TreeOk o' ∧ Fresh o' ∧ complete o' = true := by
  obtain ⟨l, hl, hlo⟩ := perm_lift Prod.fst hord o.cells rfl
  obtain ⟨s, em, e1, e2, e3⟩ := addMiddles_spec hg mean T (ordered m.edges)
    (fun i hi => hends i ((mem_ordered _ _).1 hi)) o [] [] [] (Grows.refl h.verts h.cells)
  rw [nil_append] at e1
  have hall : ∀ e ∈ l, get o.cells e.1 = some e.2 ∧ Known o e.2.pid ∧ childTris T m em e.1 e.2 = some (ts em e) ∧
      ∀ t ∈ ts em e, t.length = 3 := by
    intro e he
    have he' := hl.mem_iff.1 he
    have := hts em e2 e he'
    exact ⟨get_of_mem h.cells he', h.pids e he', this.1, fun t ht => (this.2 t ht).1⟩
  obtain ⟨s2, cs, f1, f2, f3⟩ := splitLoop_spec hg (ts em) l hall s [] _ _ e3
  have gr := e3.trans f2
  rw [nil_append] at gr
  have hgr : Grows o s2 (em.map fun e => (e.2, mean (pts o (T.ends e.1)))) cs := by simpa using gr
  have hmem : ∀ i, i ∈ ((l.filter fun e => !(ts em e).isEmpty).map Prod.fst).foldl insSet [] ↔
      ∃ e ∈ o.cells, e.1 = i ∧ ts em e ≠ [] := by
    intro i
    rw [mem_foldl_insSet]
    simp only [not_mem_nil, false_or, mem_map, mem_filter, Bool.not_eq_true', isEmpty_eq_false_iff]
    constructor
    · rintro ⟨e, ⟨he, hne⟩, rfl⟩; exact ⟨e, hl.mem_iff.1 he, rfl, hne⟩
    · rintro ⟨e, he, rfl, hne⟩; exact ⟨e, ⟨hl.mem_iff.2 he, hne⟩, rfl⟩
  have hgd : Grows o (destroyInt s2) (em.map fun e => (e.2, mean (pts o (T.ends e.1)))) cs :=
    ⟨hgr.verts, hgr.cells, hgr.okv, hgr.okc, hgr.pids, hgr.names, ⟨hgr.tree.type, hgr.tree.tree, hgr.tree.skd⟩, hgr.tol⟩
  have hdel := delCells_grown hgd (ids := ((l.filter fun e => !(ts em e).isEmpty).map Prod.fst).foldl insSet []) (by
    intro i hi
    obtain ⟨e, he, rfl, _⟩ := (hmem i).1 hi
    exact (has_iff _ _).2 (mem_map_of_mem he))
  have hfil : o.cells.filter (fun c => !(((l.filter fun e => !(ts em e).isEmpty).map Prod.fst).foldl insSet []).contains c.1)
      = o.cells.filter (fun e => (ts em e).isEmpty) := by
    apply filter_congr
    intro e he
    have : (((l.filter fun e => !(ts em e).isEmpty).map Prod.fst).foldl insSet []).contains e.1 = !(ts em e).isEmpty := by
      rw [Bool.eq_iff_iff, contains_iff_mem, hmem]
      simp only [Bool.not_eq_true', isEmpty_eq_false_iff]
      constructor
      · rintro ⟨e', he', h1, h2⟩
        have : e' = e := by
          have a := get_of_mem h.cells he'
          have b := get_of_mem h.cells he
          rw [h1, b] at a
          injection a with a
          exact Prod.ext h1 a.symm
        rwa [this] at h2
      · intro hne; exact ⟨e, he, rfl, hne⟩
    rw [this, Bool.not_not]
  rw [hfil] at hdel
  have hcsm : ∀ c ∈ cs, ∃ e ∈ o.cells, ∃ t ∈ ts em e, c.2 = tri e.2.pid t := by
    intro c hc
    have : c.2 ∈ cs.map Prod.snd := mem_map_of_mem hc
    rw [f3] at this
    obtain ⟨e, he, hx⟩ := mem_flatMap.1 this
    obtain ⟨t, ht, hx⟩ := mem_map.1 hx
    exact ⟨e, hl.mem_iff.1 he, t, ht, hx.symm⟩
  have hoc := h.comp
  unfold complete at hoc
  rw [all_eq_true] at hoc
  have hcomp : complete (delCells (destroyInt s2)
      (((l.filter fun e => !(ts em e).isEmpty).map Prod.fst).foldl insSet [])) = true := by
    unfold complete
    rw [hdel, all_eq_true]
    intro c hc
    rw [all_eq_true]
    intro v hv
    have hvo : ∀ w, has o.verts w = true → has s2.verts w = true := fun w hw => hgr.has_vert hw
    rcases mem_append.1 hc with hc | hc
    · have := hoc c (mem_filter.1 hc).1
      rw [all_eq_true] at this
      exact hvo v (this v hv)
    · obtain ⟨e, he, t, ht, hct⟩ := hcsm c hc
      rw [hct] at hv
      rcases ((hts em e2 e he).2 t ht).2 v hv with h' | h'
      · have := hoc e he
        rw [all_eq_true] at this
        exact hvo v (this v h')
      · show has s2.verts v = true
        rw [has_iff, hgr.verts, map_append, mem_append, map_map]
        exact Or.inr h'
  obtain ⟨r, r1, r2, r3, r4, r5, r6, r7, r8, r9⟩ := finish (treeOk_of ht hgd.tree.type hgd.tree.tree hgd.tree.skd :
    TreeOk (delCells (destroyInt s2) (((l.filter fun e => !(ts em e).isEmpty).map Prod.fst).foldl insSet []))) hcomp
  refine ⟨r, em, l, ?_, hl, e2, ⟨?_, ?_, ?_, ⟨cs, ?_, ?_, f3⟩, ?_, ?_, ?_⟩, r8, r7, r9⟩
  · unfold split
    rw [e1]
    simp only [Option.bind_some]
    rw [← hlo, f1]
    simp only [Option.bind_some]
    exact r1
  · rw [r3]; exact hgr.verts
  · rw [r3]; exact hgr.okv
  · rw [r4]
    exact hgd.okc.sublist ((filter_sublist).map _)
  · rw [r4, hdel]
  · intro c hc
    apply has_false_of
    intro hm
    have := hgr.okc
    rw [hgr.cells] at this
    unfold Ok at this
    rw [map_append, nodup_append] at this
    exact this.2.2 _ hm _ (mem_map_of_mem hc) rfl
  · rw [r5]; exact hgr.pids
  · rw [r6]; exact hgr.names
  · rw [r2]; exact hgr.tree.type

end Verif.Refine
