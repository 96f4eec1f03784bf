import Verif.Refine.Split
import Verif.Refine.TernProps
/-
Red-green refinement of all cells: every triangle becomes four.
-/
namespace Verif.Refine
open Verif.Field Verif.Mesh
open List hiding get get_of_mem

variable {P : Type}

/-- a surface of triangles in order, each with three different vertices -/
structure TriMesh (o : Obj P) : Prop where
  surf : SurfOk o
  tri : ∀ c ∈ o.cells, c.2.elem = .triangle ∧ c.2.conn.Nodup

theorem tri_conn {o : Obj P} (h : TriMesh o) {e : Nat × Cell} (he : e ∈ o.cells) :
    ∃ a b d, e.2.conn = [a, b, d] ∧ a ≠ b ∧ b ≠ d ∧ a ≠ d ∧ vertexIds e.2 = [a, b, d] := by
  obtain ⟨h1, h2⟩ := h.tri e he
  have h3 := (h.surf.surf e he).2
  rw [h1] at h3
  simp only [checkConn, length_map, beq_iff_eq] at h3
  match hc : e.2.conn with
  | [a, b, d] =>
    rw [hc] at h2
    simp at h2
    exact ⟨a, b, d, rfl, by grind, by grind, by grind, by simp [vertexIds, h1, hc]⟩
  | [] | [_] | [_, _] | _ :: _ :: _ :: _ :: _ => simp [hc] at h3

/-- building adjacencies and interfaces changes nothing of the mesh -/
theorem prepared (o : Obj P) : SameMesh o (updateInt (updateAdj o)) ∧ (updateInt (updateAdj o)).skd = o.skd := by
  refine ⟨(same_updateAdj o).trans (same_updateInt _), ?_⟩
  have h1 : ∀ o : Obj P, (updateAdj o).skd = o.skd := by intro o; unfold updateAdj; split <;> rfl
  have h2 : ∀ o : Obj P, (updateInt o).skd = o.skd := by
    intro o
    unfold updateInt
    simp only
    split <;> split <;> first | rfl | exact h1 o
  rw [h2, h1]

theorem surfOk_same {o o' : Obj P} (h : SurfOk o) (hs : SameMesh o o') : SurfOk o' := by
  refine ⟨hs.type.trans h.type, ?_, ?_, ?_, ?_, ?_⟩
  · rw [hs.verts]; exact h.verts
  · rw [hs.cells]; exact h.cells
  · rw [hs.cells]; exact h.surf
  · rw [hs.cells, hs.pids, hs.names]; exact h.pids
  · have := h.comp
    unfold complete at *
    rw [hs.cells, hs.verts]; exact this

theorem treeOk_prepared {o : Obj P} (h : TreeOk o) : TreeOk (updateInt (updateAdj o)) := by
  obtain ⟨h1, h2⟩ := prepared o
  exact treeOk_of h h1.type h1.tree (by rw [h2])

/-! The map from interfaces to new vertices -/

/-- the new vertex of an interface -/
def mid (em : Data Nat) (i : Nat) : Nat := (get em i).getD 0

theorem get_mid {em : Data Nat} {i : Nat} (h : i ∈ em.map Prod.fst) : get em i = some (mid em i) := by
  have := (has_iff em i).2 h
  rw [has_eq_isSome, Option.isSome_iff_exists] at this
  obtain ⟨v, hv⟩ := this
  simp [mid, hv]

theorem mid_mem {em : Data Nat} {i : Nat} (h : i ∈ em.map Prod.fst) : mid em i ∈ em.map Prod.snd :=
  mem_map.2 ⟨(i, mid em i), get_some_mem (get_mid h), rfl⟩

theorem snd_inj {v i j : Nat} : ∀ {em : Data Nat}, (em.map Prod.snd).Nodup → (i, v) ∈ em → (j, v) ∈ em → i = j := by
  intro em
  induction em with
  | nil => intro _ h; cases h
  | cons e em ih =>
    intro hn hi hj
    rw [map_cons, nodup_cons] at hn
    rcases mem_cons.1 hi with h1 | h1 <;> rcases mem_cons.1 hj with h2 | h2
    · rw [← h1] at h2; injection h2 with h2; exact h2.symm
    · exfalso; apply hn.1; rw [← h1]; exact mem_map.2 ⟨_, h2, rfl⟩
    · exfalso; apply hn.1; rw [← h2]; exact mem_map.2 ⟨_, h1, rfl⟩
    · exact ih hn.2 h1 h2

theorem mid_inj {em : Data Nat} (hn : (em.map Prod.snd).Nodup) {i j : Nat} (hi : i ∈ em.map Prod.fst)
    (hj : j ∈ em.map Prod.fst) (h : mid em i = mid em j) : i = j := by
  have h1 := get_some_mem (get_mid hi)
  have h2 := get_some_mem (get_mid hj)
  rw [h] at h1
  exact snd_inj hn h1 h2

theorem ordered_nodup {l : List Nat} (h : l.Nodup) : (ordered l).Nodup := (ordered_perm l).nodup_iff.2 h

/-- the new vertices are different and new -/
theorem splits_new {mean : List P → P} {T : Topo} {o o' : Obj P} {em : Data Nat} {l : Data Cell}
    {ts : Nat × Cell → List (List Nat)} (h : Splits mean T o o' em l ts) :
    (em.map Prod.snd).Nodup ∧ ∀ x ∈ em.map Prod.snd, has o.verts x = false := by
  have hk := h.okv
  rw [h.verts] at hk
  unfold Ok at hk
  rw [map_append, nodup_append, map_map] at hk
  have e : (Prod.fst ∘ fun e : Nat × Nat => (e.2, mean (pts o (T.ends e.1)))) = Prod.snd := rfl
  rw [e] at hk
  refine ⟨hk.2.1, fun x hx => has_false_of fun hm => hk.2.2 x hm x hx rfl⟩

theorem splits_at {mean : List P → P} {T : Topo} {o o' : Obj P} {em : Data Nat} {l : Data Cell}
    {ts : Nat × Cell → List (List Nat)} (h : Splits mean T o o' em l ts) {i : Nat} (hi : i ∈ em.map Prod.fst) :
    get o'.verts (mid em i) = some (mean (pts o (T.ends i))) := by
  have := get_some_mem (get_mid hi)
  have hm : (mid em i, mean (pts o (T.ends i))) ∈ o'.verts := by
    rw [h.verts, mem_append]
    exact Or.inr (mem_map.2 ⟨_, this, rfl⟩)
  exact get_of_mem h.okv hm

/-- the mean of two points does not depend on their order (external arithmetic; true in floating point) -/
def Symm (mean : List P → P) : Prop := ∀ a b, mean [a, b] = mean [b, a]

theorem perm_two {α : Type} {l : List α} {a b : α} (h : l.Perm [a, b]) : l = [a, b] ∨ l = [b, a] := by
  match l, h.length_eq with
  | [x, y], _ =>
    have h1 := h.mem_iff (a := x)
    have hx : x = a ∨ x = b := by simpa using h1
    rcases hx with rfl | rfl
    · have := (perm_cons x).1 h
      rw [perm_singleton] at this
      injection this with h
      left; rw [h]
    · have : [x, y].Perm [x, a] := h.trans (Perm.swap ..)
      have := (perm_cons x).1 this
      rw [perm_singleton] at this
      injection this with h
      right; rw [h]

theorem mean_pts {mean : List P → P} (hm : Symm mean) {o : Obj P} {l : List Nat} {a b : Nat} (h : l.Perm [a, b]) {pa pb : P}
    (ha : get o.verts a = some pa) (hb : get o.verts b = some pb) : mean (pts o l) = mean [pa, pb] := by
  rcases perm_two h with rfl | rfl
  · simp [pts, ha, hb]
  · simp only [pts, filterMap_cons, ha, hb, filterMap_nil]; exact hm _ _

/-! ### C150 -/

/-- specification: a triangle cut in four by the middles `x`, `y`, `z` of its sides: the corners and the centre -/
def quarter (a b c x y z : Nat) : List (List Nat) := [[x, y, z], [b, y, x], [c, z, y], [a, x, z]]

/-- the four triangles of the cell `e`, `w f` being the middle of its side `f` -/
def quarters (w : Nat → Nat) (e : Cell) : List Cell :=
  match e.conn with
  | [a, b, c] => (quarter a b c (w 0) (w 1) (w 2)).map (tri e.pid)
  | _ => []

/-- C150: the result of the refinement of all cells; `w id f` is the new vertex on the side `f` of the cell `id` -/
structure Quartered (mean : List P → P) (T : Topo) (o o' : Obj P) (w : Nat → Nat → Nat) : Prop where
  /-- old vertices as they were; every new vertex is on a side of a cell -/
  verts : ∃ vs, o'.verts = o.verts ++ vs ∧ ∀ v ∈ vs, ∃ id f, has o.cells id = true ∧ f < 3 ∧ v.1 = w id f
  new : ∀ id f, has o.cells id = true → f < 3 → has o.verts (w id f) = false
  /-- the new vertex is the mean of the ends of the side -/
  pos : ∀ id c f pa pb, get o.cells id = some c → f < 3 → get o.verts (c.conn.getD f 0) = some pa →
    get o.verts (c.conn.getD ((f + 1) % 3) 0) = some pb → get o'.verts (w id f) = some (mean [pa, pb])
  /-- two sides have the same new vertex exactly when they have the same interface -/
  shared : ∀ id f id' f', has o.cells id = true → f < 3 → has o.cells id' = true → f' < 3 →
    (w id f = w id' f' ↔ T.itf id f = T.itf id' f')
  /-- the cells are the quarters of the old cells -/
  cells : (o'.cells.map Prod.snd).Perm (o.cells.flatMap fun e => quarters (w e.1) e.2)
  ids : ∀ c ∈ o'.cells, has o.cells c.1 = false
  pids : o'.pids = o.pids
  names : o'.names = o.names

/-- the triangles of a red cell, as the code makes them -/
theorem child_red {T : Topo} {m : Marks} {em : Data Nat} {id : Nat} {c : Cell} {a b d : Nat} (ht : c.elem = .triangle)
    (hc : c.conn = [a, b, d]) (hv : vertexIds c = [a, b, d]) (htag : 2 ≤ m.tag id)
    (hem : ∀ f, f < 3 → T.itf id f ∈ em.map Prod.fst) :
    childTris T m em id c = some (quarter a b d (mid em (T.itf id 0)) (mid em (T.itf id 1)) (mid em (T.itf id 2))) := by
  unfold childTris
  have h1 : m.tag id ≠ 0 := by omega
  have h2 : min 2 (m.tag id) = 2 := by omega
  have h3 : List.range 3 = [0, 1, 2] := rfl
  rw [if_neg h1, if_pos h2, hv]
  simp only [length_cons, length_nil, h3, mapM_cons, mapM_nil, get_mid (hem 0 (by omega)), get_mid (hem 1 (by omega)),
    get_mid (hem 2 (by omega))]
  simp [ht, hc, redTris, quarter, h3]

theorem quarter_spec (a b c x y z : Nat) : ∀ t ∈ quarter a b c x y z, t.length = 3 ∧
    ∀ v ∈ t, v ∈ [a, b, c] ∨ v ∈ [x, y, z] := by
  intro t ht
  simp only [quarter, mem_cons, not_mem_nil, or_false] at ht
  rcases ht with rfl | rfl | rfl | rfl <;> simp

/-- sides of one triangle have different interfaces -/
theorem itf_inj {o : Obj P} (h : TriMesh o) {T : Topo} (hw : Wired T o.cells) {e : Nat × Cell} (he : e ∈ o.cells) {f f' : Nat}
    (hf : f < 3) (hf' : f' < 3) (hi : T.itf e.1 f = T.itf e.1 f') : f = f' := by
  obtain ⟨a, b, d, hc, h1, h2, h3, _⟩ := tri_conn h he
  have hg := get_of_mem h.surf.cells he
  have p := hw.ends e.1 e.2 f hg hf
  have p' := hw.ends e.1 e.2 f' hg hf'
  rw [hi] at p
  have q := p.symm.trans p'
  rw [hc] at q
  have hff : f = 0 ∨ f = 1 ∨ f = 2 := by omega
  have hff' : f' = 0 ∨ f' = 1 ∨ f' = 2 := by omega
  rcases hff with rfl | rfl | rfl <;> rcases hff' with rfl | rfl | rfl <;> try rfl
  all_goals
    exfalso
    have m1 := (q.mem_iff (a := a)).1
    have m2 := (q.mem_iff (a := b)).1
    have m3 := (q.mem_iff (a := d)).1
    have m4 := (q.mem_iff (a := a)).2
    have m5 := (q.mem_iff (a := b)).2
    have m6 := (q.mem_iff (a := d)).2
    simp at m1 m2 m3 m4 m5 m6
    grind

/-- C150: on a surface of triangles the red-green refinement of all cells ends and succeeds, whatever the order of the
tags; every triangle is cut in four by the middles of its sides, which neighbours through one interface share; the
result is again such a surface, with everything derived up to date. -/
theorem C150_redgreen {g : Gen P} (hg : GenOk g) {mean : List P → P} (hm : Symm mean) {T : Topo} {o : Obj P} (h : TriMesh o)
    (ht : TreeOk o) (hw : Wired T o.cells) {ord : List Nat} (hord : ord.Perm (cellIds o)) :
    ∃ o' w, RedGreen g mean T ord (cellIds o) o o' ∧ Quartered mean T o o' w ∧ TriMesh o' ∧ TreeOk o' ∧ Fresh o' := by
  obtain ⟨reds, m, r1, r2, r3, r4⟩ := spread hw (fun c hc => (h.tri c hc).1) (active := cellIds o) h.surf.cells
    (fun i hi => (has_iff _ _).2 hi)
  obtain ⟨hsm, hsk⟩ := prepared o
  have hs1 := surfOk_same h.surf hsm
  have ht1 := treeOk_prepared ht
  have htag : ∀ e ∈ o.cells, 2 ≤ m.tag e.1 := by
    intro e he
    rw [r2.mid.tag, if_pos (show e.1 ∈ cellIds o from mem_map_of_mem he)]
    omega
  have hred : ∀ e ∈ o.cells, e.1 ∈ reds := by
    intro e he
    have := (r2.mid.red e.1).2 (htag e he)
    rw [r3] at this
    simpa using this
  have hedge : ∀ e ∈ o.cells, ∀ f, f < 3 → T.itf e.1 f ∈ m.edges :=
    fun e he f hf => (r2.edges _).2 ⟨e.1, hred e he, f, hf, rfl⟩
  have hcell : ∀ id, has o.cells id = true → ∃ c, (id, c) ∈ o.cells := by
    intro id hid
    rw [has_eq_isSome, Option.isSome_iff_exists] at hid
    obtain ⟨c, hc⟩ := hid
    exact ⟨c, get_some_mem hc⟩
  have hcomp := h.surf.comp
  unfold complete at hcomp
  rw [all_eq_true] at hcomp
  have hsides : ∀ e ∈ o.cells, ∀ f, f < 3 → ∀ v ∈ T.ends (T.itf e.1 f), has o.verts v = true := by
    intro e he f hf v hv
    have hp := hw.ends e.1 e.2 f (get_of_mem h.surf.cells he) hf
    obtain ⟨a, b, d, hc, -, -, -, hvi⟩ := tri_conn h he
    have hall := hcomp e he
    rw [all_eq_true, hvi] at hall
    rw [hp.mem_iff, hc] at hv
    apply hall
    have hff : f = 0 ∨ f = 1 ∨ f = 2 := by omega
    rcases hff with rfl | rfl | rfl <;> simp at hv ⊢ <;> grind
  have hends : ∀ i ∈ m.edges, ∀ v ∈ T.ends i, has (updateInt (updateAdj o)).verts v = true := by
    intro i hi v hv
    rw [hsm.verts]
    obtain ⟨r, hr, f, hf, rfl⟩ := (r2.edges i).1 hi
    obtain ⟨c, hc⟩ := hcell r (r4 r hr)
    exact hsides (r, c) hc f hf v hv
  let ts : Data Nat → Nat × Cell → List (List Nat) := fun em e =>
    match e.2.conn with
    | [a, b, d] => quarter a b d (mid em (T.itf e.1 0)) (mid em (T.itf e.1 1)) (mid em (T.itf e.1 2))
    | _ => []
  have hkey : ∀ em : Data Nat, em.map Prod.fst = ordered m.edges → ∀ e ∈ o.cells, ∀ f, f < 3 → T.itf e.1 f ∈ em.map Prod.fst := by
    intro em hem e he f hf
    rw [hem, mem_ordered]
    exact hedge e he f hf
  obtain ⟨o', em, l, s1, s2, s3, s4, s5, s6, s7⟩ := split_spec hg mean (T := T) (m := m) hs1 ht1 (ord := ord)
    (by unfold cellIds; rw [hsm.cells]; exact hord) hends ts (by
      rw [hsm.cells]
      intro em hem e he
      obtain ⟨a, b, d, hc, -, -, -, hvi⟩ := tri_conn h he
      have hk := hkey em hem e he
      refine ⟨?_, ?_⟩
      · rw [child_red (h.tri e he).1 hc hvi (htag e he) hk]
        simp only [ts, hc]
      · intro t htm
        simp only [ts, hc] at htm
        obtain ⟨q1, q2⟩ := quarter_spec a b d _ _ _ t htm
        refine ⟨q1, fun v hv => ?_⟩
        rcases q2 v hv with h' | h'
        · exact Or.inl (by rw [hvi]; exact h')
        · right
          simp only [mem_cons, not_mem_nil, or_false] at h'
          rcases h' with rfl | rfl | rfl
          · exact mid_mem (hk 0 (by omega))
          · exact mid_mem (hk 1 (by omega))
          · exact mid_mem (hk 2 (by omega)))
  have s4' := s4
  obtain ⟨v1, v2, v3, ⟨cs, c1, c2, c3⟩, v5, v6, v7⟩ := s4
  rw [hsm.cells] at s2
  have hk := hkey em s3
  obtain ⟨n1, n2⟩ := splits_new s4'
  rw [hsm.verts] at n2
  have hts0 : ∀ e ∈ o.cells, ts em e ≠ [] := by
    intro e he
    obtain ⟨a, b, d, hc, -⟩ := tri_conn h he
    simp [ts, hc, quarter]
  have hkeep : (updateInt (updateAdj o)).cells.filter (fun e => (ts em e).isEmpty) = [] := by
    rw [hsm.cells, filter_eq_nil_iff]
    intro e he
    simpa using hts0 e he
  rw [hkeep, nil_append] at c1
  have hcells : (o'.cells.map Prod.snd).Perm (o.cells.flatMap fun e => quarters (fun f => mid em (T.itf e.1 f)) e.2) := by
    rw [c1, c3]
    refine (s2.flatMap_right _).trans ?_
    refine Perm.of_eq (congrArg List.flatten (map_congr_left fun e he => ?_))
    obtain ⟨a, b, d, hc, -⟩ := tri_conn h he
    simp [ts, quarters, hc]
  have hmem : ∀ c ∈ o'.cells, ∃ e ∈ o.cells, ∃ a b d, e.2.conn = [a, b, d] ∧ ∃ t ∈ quarter a b d (mid em (T.itf e.1 0))
      (mid em (T.itf e.1 1)) (mid em (T.itf e.1 2)), c.2 = tri e.2.pid t := by
    intro c hc
    have := hcells.mem_iff.1 (mem_map_of_mem hc)
    obtain ⟨e, he, hx⟩ := mem_flatMap.1 this
    obtain ⟨a, b, d, hcn, -⟩ := tri_conn h he
    simp only [quarters, hcn] at hx
    obtain ⟨t, ht, hx⟩ := mem_map.1 hx
    exact ⟨e, he, a, b, d, hcn, t, ht, hx.symm⟩
  refine ⟨o', fun id f => mid em (T.itf id f), ⟨m, r1, s1⟩, ⟨?_, ?_, ?_, ?_, hcells, ?_, ?_, ?_⟩, ⟨⟨?_, v2, v3, ?_, ?_, s7⟩, ?_⟩, s5, s6⟩
  · refine ⟨_, by rw [v1, hsm.verts], ?_⟩
    intro v hv
    obtain ⟨e, he, rfl⟩ := mem_map.1 hv
    have : e.1 ∈ m.edges := by
      rw [← mem_ordered, ← s3]; exact mem_map_of_mem he
    obtain ⟨r, hr, f, hf, hi⟩ := (r2.edges _).1 this
    refine ⟨r, f, r4 r hr, hf, ?_⟩
    have hkk : Ok em := by
      unfold Ok
      rw [s3]; exact ordered_nodup r2.nodup
    show e.2 = mid em (T.itf r f)
    unfold mid
    rw [← hi, get_of_mem hkk he]
    rfl
  · intro id f hid hf
    obtain ⟨c, hc⟩ := hcell id hid
    exact n2 _ (mid_mem (hk (id, c) hc f hf))
  · intro id c f pa pb hc hf ha hb
    have := splits_at s4' (hk (id, c) (get_some_mem hc) f hf)
    rw [this]
    congr 1
    apply mean_pts hm (hw.ends id c f hc hf)
    · rw [hsm.verts]; exact ha
    · rw [hsm.verts]; exact hb
  · intro id f id' f' hid hf hid' hf'
    obtain ⟨c, hc⟩ := hcell id hid
    obtain ⟨c', hc'⟩ := hcell id' hid'
    constructor
    · exact fun he => mid_inj n1 (hk (id, c) hc f hf) (hk (id', c') hc' f' hf') he
    · intro he; rw [he]
  · rw [c1]
    intro c hc
    have := c2 c hc
    rwa [hsm.cells] at this
  · rw [v5, hsm.pids]
  · rw [v6, hsm.names]
  · rw [v7, hsm.type]; exact h.surf.type
  · intro c hc
    obtain ⟨e, he, a, b, d, hcn, t, ht, hx⟩ := hmem c hc
    rw [hx]
    exact ⟨by simp [tri], by simp [tri, checkConn, (quarter_spec _ _ _ _ _ _ t ht).1]⟩
  · intro c hc
    obtain ⟨e, he, a, b, d, hcn, t, ht, hx⟩ := hmem c hc
    rw [hx, v5, v6, hsm.pids, hsm.names]
    exact h.surf.pids e he
  · intro c hc
    obtain ⟨e, he, a, b, d, hcn, t, ht, hx⟩ := hmem c hc
    rw [hx]
    refine ⟨rfl, ?_⟩
    obtain ⟨a', b', d', hcn', k1, k2, k3, hvi⟩ := tri_conn h he
    rw [hcn] at hcn'
    simp only [cons.injEq, and_true] at hcn'
    obtain ⟨rfl, rfl, rfl⟩ := hcn'
    have hall := hcomp e he
    rw [all_eq_true, hvi] at hall
    have ne : ∀ f f', f < 3 → f' < 3 → f ≠ f' → mid em (T.itf e.1 f) ≠ mid em (T.itf e.1 f') := by
      intro f f' hf hf' hne hh
      exact hne (itf_inj h hw he hf hf' (mid_inj n1 (hk e he f hf) (hk e he f' hf') hh))
    have old : ∀ v ∈ [a, b, d], ∀ f, f < 3 → v ≠ mid em (T.itf e.1 f) := by
      intro v hv f hf hh
      have := n2 _ (mid_mem (hk e he f hf))
      rw [← hh, hall v hv] at this
      cases this
    have e01 := ne 0 1 (by omega) (by omega) (by omega)
    have e02 := ne 0 2 (by omega) (by omega) (by omega)
    have e12 := ne 1 2 (by omega) (by omega) (by omega)
    simp only [quarter, mem_cons, not_mem_nil, or_false] at ht
    rcases ht with rfl | rfl | rfl | rfl
    · simp [tri, e01, e02, e12]
    · have := old b (by simp) 0 (by omega)
      have := old b (by simp) 1 (by omega)
      simp [tri, *, Ne.symm e01]
    · have := old d (by simp) 1 (by omega)
      have := old d (by simp) 2 (by omega)
      simp [tri, *, Ne.symm e12]
    · have := old a (by simp) 0 (by omega)
      have := old a (by simp) 2 (by omega)
      simp [tri, *]

end Verif.Refine
