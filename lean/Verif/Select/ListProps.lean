import Verif.Select.SubProps
/-
C104: selection by lists of elements.  C105: the constrained boundary of a selection.
-/
namespace Verif.Select
open Verif.Field Verif.Mesh
open List hiding get

variable {P : Type}

/-! ### C104 -/

/-- the calls that add a list; annotated lists are fields with a location -/
inductive Given
  | annCells (f : Option (Loc × Data Int))
  | annVerts (f : Option (Loc × Data Int))
  | rawCells (l : List Nat)
  | rawVerts (l : List Nat)

def Elems.give (s : Elems) : Given → Elems
  | .annCells f => s.addAnnCells f
  | .annVerts f => s.addAnnVerts f
  | .rawCells l => s.addRawCells l
  | .rawVerts l => s.addRawVerts l

/-- cell (vertex) ids of one call: fields at another location are refused -/
def Given.cells : Given → List Nat
  | .annCells (some (.cell, d)) => d.map Prod.fst
  | .rawCells l => l
  | _ => []
def Given.verts : Given → List Nat
  | .annVerts (some (.point, d)) => d.map Prod.fst
  | .rawVerts l => l
  | _ => []

theorem give_spec : ∀ (gs : List Given) (s : Elems),
    (∀ id, id ∈ (gs.foldl Elems.give s).annCells.flatten ++ (gs.foldl Elems.give s).rawCells.flatten ↔
      id ∈ s.annCells.flatten ++ s.rawCells.flatten ∨ ∃ g ∈ gs, id ∈ g.cells) ∧
    (∀ id, id ∈ (gs.foldl Elems.give s).annVerts.flatten ++ (gs.foldl Elems.give s).rawVerts.flatten ↔
      id ∈ s.annVerts.flatten ++ s.rawVerts.flatten ∨ ∃ g ∈ gs, id ∈ g.verts) := by
  intro gs
  induction gs with
  | nil => intro s; simp
  | cons g gs ih =>
    intro s
    obtain ⟨i1, i2⟩ := ih (s.give g)
    have key : (∀ id, id ∈ (s.give g).annCells.flatten ++ (s.give g).rawCells.flatten ↔ id ∈ s.annCells.flatten ++ s.rawCells.flatten ∨ id ∈ g.cells) ∧
        (∀ id, id ∈ (s.give g).annVerts.flatten ++ (s.give g).rawVerts.flatten ↔ id ∈ s.annVerts.flatten ++ s.rawVerts.flatten ∨ id ∈ g.verts) := by
      cases g with
      | annCells f =>
        rcases f with _ | ⟨_ | _ | _ | _, d⟩ <;>
          simp [Elems.give, Elems.addAnnCells, Given.cells, Given.verts] <;> grind
      | annVerts f =>
        rcases f with _ | ⟨_ | _ | _ | _, d⟩ <;>
          simp [Elems.give, Elems.addAnnVerts, Given.cells, Given.verts] <;> grind
      | rawCells l =>
        by_cases h : l = [] <;> simp [Elems.give, Elems.addRawCells, Given.cells, Given.verts, h] <;> grind
      | rawVerts l =>
        by_cases h : l = [] <;> simp [Elems.give, Elems.addRawVerts, Given.cells, Given.verts, h] <;> grind
    refine ⟨fun id => ?_, fun id => ?_⟩
    · rw [foldl_cons, i1, key.1]; simp [or_assoc]
    · rw [foldl_cons, i2, key.2]; simp [or_assoc]

/-- C104, partial (full statement: the complement with the dual option): after any lists were given, the selection is made
of the cells of the mesh that were listed and of those all of whose vertices were listed, each once; unknown ids are
ignored. -/
theorem C104_cells_partial {o : Obj P} (ht : o.type ≠ 3) (ho : Good o) (gs : List Given) :
    let r := (gs.foldl Elems.give {}).extract o o.type
    r.Nodup ∧ ∀ id, id ∈ r ↔ ∃ c, get o.cells id = some c ∧
      ((∃ g ∈ gs, id ∈ g.cells) ∨ (vertexIds c ≠ [] ∧ ∀ v ∈ vertexIds c, ∃ g ∈ gs, v ∈ g.verts)) := by
  obtain ⟨g1, g2⟩ := give_spec gs {}
  intro r
  have hr : r = (cellIds o).filter (fun i => i ∈ distinct (cellFromVertices o ((o.verts.map Prod.fst).filter (fun i => i ∈
      distinct ((gs.foldl Elems.give {}).annVerts.flatten ++ (gs.foldl Elems.give {}).rawVerts.flatten))) true ++
      (gs.foldl Elems.give {}).annCells.flatten ++ (gs.foldl Elems.give {}).rawCells.flatten)) := by
    show Elems.extract _ _ _ = _
    unfold Elems.extract
    simp only [if_neg ht]
  refine ⟨by rw [hr]; exact ho.cells.sublist filter_sublist, fun id => ?_⟩
  obtain ⟨k1, -, -⟩ := C37_cells o ht ho.cells ((o.verts.map Prod.fst).filter (fun i => i ∈
      distinct ((gs.foldl Elems.give {}).annVerts.flatten ++ (gs.foldl Elems.give {}).rawVerts.flatten)))
  have hid : id ∈ cellIds o ↔ ∃ c, get o.cells id = some c := by
    show id ∈ o.cells.map Prod.fst ↔ _
    rw [← has_iff, has_eq_isSome, Option.isSome_iff_exists]
  have hvert : ∀ v, v ∈ (o.verts.map Prod.fst).filter (fun i => i ∈
      distinct ((gs.foldl Elems.give {}).annVerts.flatten ++ (gs.foldl Elems.give {}).rawVerts.flatten)) ↔
      has o.verts v = true ∧ ∃ g ∈ gs, v ∈ g.verts := by
    intro v
    rw [mem_filter, decide_eq_true_eq, mem_distinct, g2, has_iff]
    simp
  have hg1 : ∀ id, (id ∈ (gs.foldl Elems.give {}).annCells.flatten ∨ id ∈ (gs.foldl Elems.give {}).rawCells.flatten) ↔ ∃ g ∈ gs, id ∈ g.cells := by
    intro id
    have := g1 id
    rw [mem_append] at this
    rw [this]; simp
  rw [hr, mem_filter, decide_eq_true_eq, mem_distinct, append_assoc, mem_append, mem_append, hg1, hid, k1]
  constructor
  · rintro ⟨⟨c, hc⟩, ⟨c', h1, h2, h3⟩ | h⟩
    · exact ⟨c', h1, Or.inr ⟨h2, fun v hv => ((hvert v).1 (h3 v hv)).2⟩⟩
    · exact ⟨c, hc, Or.inl h⟩
  · rintro ⟨c, hc, h | ⟨h1, h2⟩⟩
    · exact ⟨⟨c, hc⟩, Or.inr h⟩
    · exact ⟨⟨c, hc⟩, Or.inl ⟨c, hc, h1, fun v hv => (hvert v).2 ⟨ho.complete id c hc v hv, h2 v hv⟩⟩⟩

/-- C104: on a point cloud the selection is made of the points that were listed, each once. -/
theorem C104_points_partial {o : Obj P} (ht : o.type = 3) (ho : Ok o.verts) (gs : List Given) :
    let r := (gs.foldl Elems.give {}).extract o o.type
    r.Nodup ∧ ∀ id, id ∈ r ↔ has o.verts id = true ∧ ∃ g ∈ gs, id ∈ g.verts := by
  obtain ⟨-, g2⟩ := give_spec gs {}
  intro r
  have hr : r = (o.verts.map Prod.fst).filter (fun i => i ∈
      distinct ((gs.foldl Elems.give {}).annVerts.flatten ++ (gs.foldl Elems.give {}).rawVerts.flatten)) := by
    show Elems.extract _ _ _ = _
    unfold Elems.extract
    simp only [if_pos ht]
  refine ⟨by rw [hr]; exact List.Nodup.sublist filter_sublist ho, fun id => ?_⟩
  rw [hr, mem_filter, decide_eq_true_eq, mem_distinct, g2, has_iff]
  simp

/-- the triangle by its vertices, the polygon by its id, an unknown id and a field at the wrong location -/
example : strip.type ≠ 3 ∧ Good strip ∧
    ([Given.rawVerts [0, 1], .annVerts (some (.point, [(2, 5)])), .rawCells [6, 99], .annCells (some (.point, [(9, 0)]))].foldl Elems.give {}).extract
      strip strip.type = [4, 6] := by
  refine ⟨by decide, strip_good, by decide⟩

/-- C102 does not hold for lists of elements: the dual option changes nothing. -/
theorem C102_list_fails (s : Elems) (o : Obj P) (topo : Nat) : { s with dual := true }.extract o topo = { s with dual := false }.extract o topo := rfl

/-! ### C105 -/

/-- the vertices of the border faces -/
def BorderVertex (fv : Cell → Nat → List Nat) (o : Obj P) (b : Data (List Nat)) (v : Nat) : Prop :=
  ∃ id c f, get o.cells id = some c ∧ (∃ l, get b id = some l ∧ f ∈ l) ∧ v ∈ fv c f

theorem survivors_spec (bm : Data (List Nat)) : ∀ (bd s : Data (List Nat)), (∀ e ∈ bd, has s e.1 = false) → (bd.map Prod.fst).Nodup →
    ∀ id f, (∃ l, get (bd.foldl (fun s e =>
      if has bm e.1 then
        e.2.foldl (fun s f => if f ∈ (get bm e.1).getD [] then s else mapSet s e.1 (insSet ((get s e.1).getD []) f)) s
      else mapSet s e.1 e.2) s) id = some l ∧ f ∈ l) ↔
      (∃ l, get s id = some l ∧ f ∈ l) ∨ ((∃ l, get bd id = some l ∧ f ∈ l) ∧ ¬ ∃ l, get bm id = some l ∧ f ∈ l) := by
  intro bd
  induction bd with
  | nil => intro s _ _ id f; simp [Field.get]
  | cons e bd ih =>
    intro s hs hn id f
    rw [map_cons, nodup_cons] at hn
    have he := hs e (by simp)
    rw [foldl_cons]
    -- the step
    have step : ∀ (l : List Nat) (s : Data (List Nat)), ∀ id f, (∃ k, get (l.foldl (fun s f => if f ∈ (get bm e.1).getD [] then s else
        mapSet s e.1 (insSet ((get s e.1).getD []) f)) s) id = some k ∧ f ∈ k) ↔
        (∃ k, get s id = some k ∧ f ∈ k) ∨ (id = e.1 ∧ f ∈ l ∧ f ∉ (get bm e.1).getD []) := by
      intro l
      induction l with
      | nil => intro s id f; simp
      | cons a l ih =>
        intro s id f
        rw [foldl_cons, ih]
        by_cases ha : a ∈ (get bm e.1).getD []
        · rw [if_pos ha]
          constructor
          · rintro (h | ⟨h1, h2, h3⟩)
            · exact Or.inl h
            · exact Or.inr ⟨h1, by simp [h2], h3⟩
          · rintro (h | ⟨h1, h2, h3⟩)
            · exact Or.inl h
            · rcases mem_cons.1 h2 with rfl | h2
              · exact absurd ha h3
              · exact Or.inr ⟨h1, h2, h3⟩
        · rw [if_neg ha, get_mapSet]
          by_cases hid : e.1 = id
          · subst hid
            simp only [if_true, Option.some.injEq, exists_eq_left', mem_insSet, true_and, mem_cons]
            have : f ∈ (get s e.1).getD [] ↔ ∃ k, get s e.1 = some k ∧ f ∈ k := by
              cases get s e.1 <;> simp
            rw [this]
            constructor
            · rintro ((h | rfl) | ⟨h1, h2⟩)
              · exact Or.inl h
              · exact Or.inr ⟨Or.inl rfl, ha⟩
              · exact Or.inr ⟨Or.inr h1, h2⟩
            · rintro (h | ⟨rfl | h1, h2⟩)
              · exact Or.inl (Or.inl h)
              · exact Or.inl (Or.inr rfl)
              · exact Or.inr ⟨h1, h2⟩
          · simp [hid, Ne.symm hid]
    have hbm : ∀ f, f ∉ (get bm e.1).getD [] ↔ ¬ ∃ l, get bm e.1 = some l ∧ f ∈ l := by
      intro f; cases get bm e.1 <;> simp
    have hstep : ∀ id f, (∃ k, get (if has bm e.1 then
        e.2.foldl (fun s f => if f ∈ (get bm e.1).getD [] then s else mapSet s e.1 (insSet ((get s e.1).getD []) f)) s
        else mapSet s e.1 e.2) id = some k ∧ f ∈ k) ↔
        (∃ k, get s id = some k ∧ f ∈ k) ∨ (id = e.1 ∧ f ∈ e.2 ∧ ¬ ∃ l, get bm e.1 = some l ∧ f ∈ l) := by
      intro id f
      by_cases hb : has bm e.1 = true
      · rw [if_pos hb, step, hbm]
      · rw [if_neg hb, get_mapSet]
        have hnone : get bm e.1 = none := get_none_of_has (by simpa using hb)
        by_cases hid : e.1 = id
        · subst hid
          simp [hnone, get_none_of_has he]
        · simp [hid, Ne.symm hid]
    have hfree : ∀ e' ∈ bd, has (if has bm e.1 then
        e.2.foldl (fun s f => if f ∈ (get bm e.1).getD [] then s else mapSet s e.1 (insSet ((get s e.1).getD []) f)) s
        else mapSet s e.1 e.2) e'.1 = false := by
      intro e' he'
      have hne : e'.1 ≠ e.1 := fun h => hn.1 (by rw [← h]; exact mem_map.2 ⟨e', he', rfl⟩)
      have hs' := hs e' (by simp [he'])
      have hset : ∀ (s : Data (List Nat)) k, has s e'.1 = false → has (mapSet s e.1 k) e'.1 = false := by
        intro s k h
        rw [has_eq_isSome, get_mapSet, if_neg hne, get_none_of_has h]; rfl
      split
      · have hfold : ∀ (l : List Nat) (s : Data (List Nat)), has s e'.1 = false → has (l.foldl (fun s f =>
            if f ∈ (get bm e.1).getD [] then s else mapSet s e.1 (insSet ((get s e.1).getD []) f)) s) e'.1 = false := by
          intro l
          induction l with
          | nil => intro s h; exact h
          | cons a l ihl =>
            intro s h
            rw [foldl_cons]
            apply ihl
            split
            · exact h
            · exact hset s _ h
        exact hfold _ s hs'
      · exact hset s _ hs'
    rw [ih _ hfree hn.2, hstep]
    rw [get_cons]
    by_cases hid : e.1 = id
    · subst hid
      have : get bd e.1 = none := (get_none_iff _ _).2 hn.1
      simp [this]
    · simp [hid, Ne.symm hid]

theorem boundary_fold (fv : Cell → Nat → List Nat) (d : Obj P) : ∀ (sv : Data (List Nat)) (s : List Nat),
    (∀ e ∈ sv, has d.cells e.1 = true) →
    ∃ r, sv.foldlM (fun s e => (get d.cells e.1).map fun c => e.2.foldl (fun s f => (fv c f).foldl insSet s) s) s = some r ∧
      (s.Nodup → r.Nodup) ∧
      ∀ v, v ∈ r ↔ v ∈ s ∨ ∃ e ∈ sv, ∃ c, get d.cells e.1 = some c ∧ ∃ f ∈ e.2, v ∈ fv c f := by
  intro sv
  induction sv with
  | nil => intro s _; exact ⟨s, rfl, id, by simp⟩
  | cons e sv ih =>
    intro s hs
    have he := hs e (by simp)
    rw [has_eq_isSome] at he
    obtain ⟨c, hc⟩ := Option.isSome_iff_exists.1 he
    obtain ⟨r, r1, r2, r3⟩ := ih (e.2.foldl (fun s f => (fv c f).foldl insSet s) s) (fun e' h => hs e' (by simp [h]))
    have hf : ∀ (l : List Nat) (s : List Nat), (s.Nodup → (l.foldl (fun s f => (fv c f).foldl insSet s) s).Nodup) ∧
        ∀ v, v ∈ l.foldl (fun s f => (fv c f).foldl insSet s) s ↔ v ∈ s ∨ ∃ f ∈ l, v ∈ fv c f := by
      intro l
      induction l with
      | nil => intro s; exact ⟨id, by simp⟩
      | cons a l ih =>
        intro s
        obtain ⟨i1, i2⟩ := ih ((fv c a).foldl insSet s)
        refine ⟨fun h => i1 (nodup_foldl_insSet _ h), fun v => ?_⟩
        rw [foldl_cons, i2, mem_foldl_insSet]
        simp [or_assoc]
    refine ⟨r, ?_, fun h => r2 ((hf _ _).1 h), fun v => ?_⟩
    · rw [foldlM_cons, hc]; exact r1
    · rw [r3, (hf _ _).2]
      simp [hc, or_assoc]

theorem survivors_keys (bm : Data (List Nat)) : ∀ (bd s : Data (List Nat)) (id : Nat), has (bd.foldl (fun s e =>
      if has bm e.1 then
        e.2.foldl (fun s f => if f ∈ (get bm e.1).getD [] then s else mapSet s e.1 (insSet ((get s e.1).getD []) f)) s
      else mapSet s e.1 e.2) s) id = true → has s id = true ∨ has bd id = true := by
  intro bd
  induction bd with
  | nil => intro s id h; exact Or.inl h
  | cons e bd ih =>
    intro s id h
    rw [foldl_cons] at h
    have hset : ∀ (s : Data (List Nat)) k, has (mapSet s e.1 k) id = true → has s id = true ∨ id = e.1 := by
      intro s k h
      rw [has_eq_isSome, get_mapSet] at h
      by_cases hid : id = e.1
      · exact Or.inr hid
      · rw [if_neg hid] at h; left; rw [has_eq_isSome]; exact h
    have hcons : has bd id = true → has (e :: bd) id = true := by
      intro h; rw [has_iff] at h ⊢; simp only [map_cons, mem_cons]; exact Or.inr h
    have hhead : id = e.1 → has (e :: bd) id = true := by rintro rfl; rw [has_iff]; simp
    rcases ih _ _ h with h | h
    · split at h
      · have hfold : ∀ (l : List Nat) (s : Data (List Nat)), has (l.foldl (fun s f =>
            if f ∈ (get bm e.1).getD [] then s else mapSet s e.1 (insSet ((get s e.1).getD []) f)) s) id = true → has s id = true ∨ id = e.1 := by
          intro l
          induction l with
          | nil => intro s h; exact Or.inl h
          | cons a l ihl =>
            intro s h
            rw [foldl_cons] at h
            rcases ihl _ h with h | h
            · split at h
              · exact Or.inl h
              · exact hset s _ h
            · exact Or.inr h
        rcases hfold _ _ h with h | h
        · exact Or.inl h
        · exact Or.inr (hhead h)
      · rcases hset s _ h with h | h
        · exact Or.inl h
        · exact Or.inr (hhead h)
    · exact Or.inr (hcons h)

theorem once_mapSet {α : Type} {s : Data α} (h : Ok s) (k : Nat) (v : α) : Ok (mapSet s k v) := by
  unfold mapSet
  split
  · unfold Ok; rw [keys_setAt]; exact h
  · next hk => exact ok_append h (by simpa using hk)

theorem survivors_once (bd bm : Data (List Nat)) : Ok (survivors bd bm) := by
  unfold survivors
  have : ∀ (bd s : Data (List Nat)), Ok s → Ok (bd.foldl (fun s e =>
      if has bm e.1 then
        e.2.foldl (fun s f => if f ∈ (get bm e.1).getD [] then s else mapSet s e.1 (insSet ((get s e.1).getD []) f)) s
      else mapSet s e.1 e.2) s) := by
    intro bd
    induction bd with
    | nil => intro s h; exact h
    | cons e bd ih =>
      intro s h
      rw [foldl_cons]
      apply ih
      split
      · generalize e.2 = l
        revert s
        induction l with
        | nil => intro s h; exact h
        | cons a l ihl =>
          intro s h
          rw [foldl_cons]
          apply ihl
          split
          · exact h
          · exact once_mapSet h _ _
      · exact once_mapSet h _ _
  exact this bd [] (by simp [Ok])

/-- what `constrainedBoundary` returns: the vertices of the faces on the border of the patch and not on the border of
the mother -/
theorem boundary_spec (fv : Cell → Nat → List Nat) (d : Obj P) {bd bm : Data (List Nat)} (hn : Ok bd)
    (hd : ∀ id, has bd id = true → has d.cells id = true) :
    ∃ r, constrainedBoundary fv d bd bm = some r ∧ r.Nodup ∧
      ∀ v, v ∈ r ↔ ∃ id c f, get d.cells id = some c ∧ (∃ l, get bd id = some l ∧ f ∈ l) ∧
        (¬ ∃ l, get bm id = some l ∧ f ∈ l) ∧ v ∈ fv c f := by
  have hkeys : ∀ e ∈ survivors bd bm, has d.cells e.1 = true := by
    intro e he
    apply hd
    have : has (survivors bd bm) e.1 = true := by rw [has_iff]; exact mem_map.2 ⟨e, he, rfl⟩
    rcases survivors_keys bm bd [] e.1 this with h | h
    · simp [has] at h
    · exact h
  obtain ⟨r, r1, r2, r3⟩ := boundary_fold fv d (survivors bd bm) [] hkeys
  have hsp := survivors_spec bm bd [] (by simp [has]) hn
  refine ⟨r, r1, r2 (by simp), fun v => ?_⟩
  rw [r3]
  constructor
  · rintro (h | ⟨e, he, c, hc, f, hf, hv⟩)
    · cases h
    · have h1 := (hsp e.1 f).1 ⟨e.2, get_of_mem (survivors_once bd bm) he, hf⟩
      rcases h1 with ⟨l, h1, -⟩ | ⟨h1, h2⟩
      · simp [Field.get] at h1
      · exact ⟨e.1, c, f, hc, h1, h2, hv⟩
  · rintro ⟨id, c, f, hc, h1, h2, hv⟩
    obtain ⟨l, hl, hf⟩ := (hsp id f).2 (Or.inr ⟨h1, h2⟩)
    exact Or.inr ⟨(id, l), get_some_mem hl, c, hc, f, hf, hv⟩

/-- C105, partial (full statement: exactly the border vertices of the patch that are not border vertices of the mother):
every one of these is returned, and whatever is returned is a border vertex of the patch, once.  Missing, because false:
nothing returned is on the border of the mother. -/
theorem C105_boundary_partial (fv : Cell → Nat → List Nat) {o d : Obj P} {S : Nat → Prop} (hs : SubMesh o d S)
    {bd bm : Data (List Nat)} (hn : Ok bd) (hd : ∀ id, has bd id = true → has d.cells id = true) :
    ∃ r, constrainedBoundary fv d bd bm = some r ∧ r.Nodup ∧
      (∀ v, BorderVertex fv d bd v → ¬ BorderVertex fv o bm v → v ∈ r) ∧
      (∀ v ∈ r, BorderVertex fv d bd v) := by
  obtain ⟨r, r1, r2, r3⟩ := boundary_spec (bm := bm) fv d hn hd
  refine ⟨r, r1, r2, ?_, ?_⟩
  · rintro v ⟨id, c, f, hc, hf, hv⟩ hno
    rw [r3]
    refine ⟨id, c, f, hc, hf, fun hm => hno ?_, hv⟩
    exact ⟨id, c, f, ((hs.cells id c).1 hc).2, hm, hv⟩
  · intro v hv
    obtain ⟨id, c, f, hc, hf, -, hfv⟩ := (r3 v).1 hv
    exact ⟨id, c, f, hc, hf, hfv⟩

/-- the edges of a triangle or quadrilateral -/
def edge (c : Cell) (f : Nat) : List Nat := [c.conn.getD f 0, c.conn.getD ((f + 1) % c.conn.length) 0]

/-- the border edges, for a surface of triangles and quadrilaterals: the edges of a single cell -/
def borderEdges (o : Obj P) : Data (List Nat) :=
  (o.cells.map (fun c => (c.1, (range c.2.conn.length).filter (fun f =>
    o.cells.all (fun c' => c'.1 == c.1 || (range c'.2.conn.length).all (fun f' =>
      ! ((edge c'.2 f').all (fun v => v ∈ edge c.2 f))))))))

/-- two quadrilaterals 0 1 4 3 and 1 2 5 4 side by side -/
def pair : Obj Int :=
  { strip with
    verts := [(0, 0), (1, 1), (2, 2), (3, 3), (4, 4), (5, 5)]
    cells := [(0, ⟨.quad, [0, 1, 4, 3], 0, true⟩), (1, ⟨.quad, [1, 2, 5, 4], 0, true⟩)]
    pids := [0], names := [(0, "")] }

/-- the first of them -/
def half : Obj Int :=
  { pair with verts := [(0, 0), (1, 1), (3, 3), (4, 4)], cells := [(0, ⟨.quad, [0, 1, 4, 3], 0, true⟩)] }

theorem half_sub : SubMesh pair half (· = 0) := by
  refine ⟨rfl, ?_, ?_, ?_, ?_, rfl, by unfold Ok; decide⟩
  · intro id c
    by_cases h0 : id = 0
    · subst h0; simp [half, pair, Field.get]
    · simp [half, Field.get, h0, Ne.symm h0]
  · intro v p
    have h1 : (∃ id c, id = 0 ∧ get pair.cells id = some c ∧ v ∈ vertexIds c) ↔ v ∈ [0, 1, 4, 3] := by
      constructor
      · rintro ⟨id, c, rfl, hc, hv⟩
        have : c = ⟨.quad, [0, 1, 4, 3], 0, true⟩ := by simpa [pair, Field.get] using hc.symm
        subst this; exact hv
      · intro hv; exact ⟨0, ⟨.quad, [0, 1, 4, 3], 0, true⟩, rfl, by decide, hv⟩
    rw [h1]
    by_cases h : v ∈ [0, 1, 4, 3]
    · simp only [h, true_and]
      simp only [mem_cons, not_mem_nil, or_false] at h
      rcases h with rfl | rfl | rfl | rfl <;> simp [half, pair, Field.get]
    · simp only [h, false_and, iff_false]
      simp only [mem_cons, not_mem_nil, or_false, not_or] at h
      obtain ⟨a, b, c, e⟩ := h
      simp [half, Field.get, Ne.symm a, Ne.symm b, Ne.symm c, Ne.symm e]
  · intro p
    constructor
    · intro h
      have : p = 0 := by simpa [half, pair] using h
      subst this
      exact ⟨0, ⟨.quad, [0, 1, 4, 3], 0, true⟩, rfl, by decide, rfl⟩
    · rintro ⟨id, c, rfl, hc, rfl⟩
      have : c = ⟨.quad, [0, 1, 4, 3], 0, true⟩ := by simpa [pair, Field.get] using hc.symm
      subst this; decide
  · intro p hp
    have : p = 0 := by simpa [half, pair] using hp
    subst this; decide

example : Ok (borderEdges half) ∧ (∀ id, has (borderEdges half) id = true → has half.cells id = true) ∧ SubMesh pair half (· = 0) := by
  refine ⟨by unfold Ok; decide, ?_, half_sub⟩
  intro id h
  rw [has_iff] at h ⊢
  exact h

/-- C105 does not hold where the cut meets the border of the mother: on two quadrilaterals side by side of which one is
selected, both vertices returned are border vertices of the mother. -/
theorem C105_corner_fails : constrainedBoundary edge half (borderEdges half) (borderEdges pair) = some [1, 4] ∧
    ∀ v ∈ [1, 4], BorderVertex edge pair (borderEdges pair) v := by
  refine ⟨by decide, ?_⟩
  intro v hv
  simp only [mem_cons, not_mem_nil, or_false] at hv
  rcases hv with rfl | rfl
  · exact ⟨0, ⟨.quad, [0, 1, 4, 3], 0, true⟩, 0, by decide, ⟨[0, 2, 3], by decide, by decide⟩, by decide⟩
  · exact ⟨0, ⟨.quad, [0, 1, 4, 3], 0, true⟩, 2, by decide, ⟨[0, 2, 3], by decide, by decide⟩, by decide⟩

end Verif.Select
