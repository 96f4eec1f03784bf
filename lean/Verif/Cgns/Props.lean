import Verif.Cgns.Model
/-
C234: the elements of CGNS files written and read back, by type.  C235: sections of mixed and of higher-order elements.
-/
namespace Verif.Cgns
open List

/-! ### C234: writing -/

/-- the nodes of a cell in the order of CGNS, which for wedges is another one than that of bitpit -/
def nodes (num : Nat → Nat) (c : Cell) : List Nat :=
  if c.type = .wedge then ([0, 2, 1, 3, 5, 4] : List Nat).filterMap (fun i => (c.conn.map num)[i]?) else c.conn.map num

/-- the number of vertices of a type -/
def corners : El → Nat
  | .tetra => 4
  | .pyramid => 5
  | .wedge => 6
  | .hexa => 8
  | .triangle => 3
  | .quad => 4
  | .other => 0

/-- the type is one of those of a volume -/
def Solid (e : El) : Prop := e = .tetra ∨ e = .pyramid ∨ e = .wedge ∨ e = .hexa

/-- the mesh has the cells, with known vertices -/
structure Here (cells : Nat → Option Cell) (loc : Nat → Option Nat) (num : Nat → Nat) (l : List Cell) : Prop where
  cell : ∀ c ∈ l, cells c.id = some c
  vert : ∀ c ∈ l, ∀ v ∈ c.conn, loc v = some (num v)

theorem Here.tail {cells loc num c l} (h : Here cells loc num (c :: l)) : Here cells loc num l :=
  ⟨fun d hd => h.cell d (mem_cons_of_mem _ hd), fun d hd => h.vert d (mem_cons_of_mem _ hd)⟩

theorem mapM_known {loc : Nat → Option Nat} {num : Nat → Nat} : ∀ {l : List Nat}, (∀ v ∈ l, loc v = some (num v)) → l.mapM loc = some (l.map num)
  | [], _ => rfl
  | a :: l, h => by
    rw [mapM_cons, h a mem_cons_self, mapM_known fun v hv => h v (mem_cons_of_mem _ hv)]
    rfl

theorem six {α : Type} {l : List α} (h : l.length = 6) : ∃ a b c d e f, l = [a, b, c, d, e, f] := by
  match l, h with
  | [a, b, c, d, e, f], _ => exact ⟨a, b, c, d, e, f, rfl⟩

theorem solid_code {e : El} (h : Solid e) : ∃ k, volCode e = some k := by
  rcases h with rfl | rfl | rfl | rfl <;> exact ⟨_, rfl⟩

theorem code_wedge {e : El} : volCode e = some 14 ↔ e = .wedge := by cases e <;> simp [volCode]

theorem nodes_written {num : Nat → Nat} {c : Cell} (hs : Solid c.type) (hw : c.type = .wedge → c.conn.length = 6) :
    (if (volCode c.type).getD 0 = 14 then turn (c.conn.map num) else c.conn.map num) = nodes num c := by
  obtain ⟨k, hk⟩ := solid_code hs
  by_cases h : c.type = .wedge
  · obtain ⟨x1, x2, x3, x4, x5, x6, e⟩ := six (hw h)
    unfold nodes
    rw [if_pos h, h, e]
    rfl
  · have : (volCode c.type).getD 0 ≠ 14 := by
      intro h'
      rw [hk] at h'
      exact h (code_wedge.1 (hk.trans (congrArg some h')))
    unfold nodes
    rw [if_neg this, if_neg h]

theorem zone_solid {cells : Nat → Option Cell} {loc : Nat → Option Nat} {num : Nat → Nat} : ∀ {l : List Cell} (m : List Nat) (o : Out), Here cells loc num l →
    (∀ c ∈ l, Solid c.type) → (∀ c ∈ l, c.type = .wedge → c.conn.length = 6) →
    ∃ o', zoneLoop cells loc (l.map Cell.id ++ m) false o = zoneLoop cells loc m false o' ∧
      (∀ k, o'.conn k = o.conn k ++ (l.filter fun c => volCode c.type = some k).flatMap (nodes num)) ∧
      (∀ k, o'.n k = o.n k + (l.filter fun c => volCode c.type = some k).length)
  | [], m, o, _, _, _ => ⟨o, rfl, by simp, by simp⟩
  | c :: l, m, o, h, hs, hw => by
    obtain ⟨k, hk⟩ := solid_code (hs c mem_cons_self)
    obtain ⟨o', h1, h2, h3⟩ := zone_solid m (o.add k (nodes num c)) h.tail (fun d hd => hs d (mem_cons_of_mem _ hd)) (fun d hd => hw d (mem_cons_of_mem _ hd))
    refine ⟨o', ?_, fun j => ?_, fun j => ?_⟩
    · rw [← h1, map_cons, cons_append, zoneLoop, h.cell c mem_cons_self]
      simp only [hk, Option.isNone_some, Bool.or_false, Bool.false_eq_true, if_false]
      rw [mapM_known (h.vert c mem_cons_self)]
      simp only
      have := nodes_written (num := num) (hs c mem_cons_self) (hw c mem_cons_self)
      rw [hk] at this
      rw [this]
      rfl
    · rw [h2, filter_cons]
      by_cases hj : j = k
      · subst hj; simp [Out.add, hk]
      · have : ¬ k = j := fun h => hj h.symm
        simp [Out.add, hk, hj, this]
    · rw [h3, filter_cons]
      by_cases hj : j = k
      · subst hj; simp [Out.add, hk]; omega
      · have : ¬ k = j := fun h => hj h.symm
        simp [Out.add, hk, hj, this]

/-- C234, partial (full statement: for all cells, those of other types being skipped): the section of each type holds the cells of the type, in
the order of the mesh, with the nodes in the order of CGNS, and their number is that of the cells. -/
theorem C234_volume_partial {cells : Nat → Option Cell} {loc : Nat → Option Nat} {num : Nat → Nat} {l : List Cell} (h : Here cells loc num l)
    (hs : ∀ c ∈ l, Solid c.type) (hw : ∀ c ∈ l, c.type = .wedge → c.conn.length = 6) :
    ∃ o, zoneConn cells loc (l.map Cell.id) = some o ∧ ∀ e k, volCode e = some k →
      o.conn k = (l.filter fun c => c.type = e).flatMap (nodes num) ∧ o.n k = (l.filter fun c => c.type = e).length := by
  obtain ⟨o, h1, h2, h3⟩ := zone_solid [] Out.empty h hs hw
  refine ⟨o, by unfold zoneConn; rw [append_nil] at h1; rw [h1]; rfl, fun e k hk => ?_⟩
  have : (l.filter fun c => volCode c.type = some k) = l.filter fun c => c.type = e := by
    congr 1
    funext c
    rw [← hk]
    cases e <;> cases hc : c.type <;> simp [volCode] at hk ⊢
  rw [h2, h3, this]
  simp [Out.empty]

theorem zone_stuck {cells : Nat → Option Cell} {loc : Nat → Option Nat} : ∀ (l : List Cell) (o : Out), (∀ c ∈ l, cells c.id = some c) →
    zoneLoop cells loc (l.map Cell.id) true o = some o
  | [], _, _ => rfl
  | c :: l, o, h => by
    rw [map_cons, zoneLoop, h c mem_cons_self]
    simp only [Bool.true_or, if_true]
    exact zone_stuck l o fun d hd => h d (mem_cons_of_mem _ hd)

/-- C234 does not hold if there is a cell of another type, as a polyhedron: the cells after it are lost as well, whatever they are. -/
theorem C234_after_fails {cells : Nat → Option Cell} {loc : Nat → Option Nat} {num : Nat → Nat} {l m : List Cell} {u : Cell} (h : Here cells loc num l)
    (hs : ∀ c ∈ l, Solid c.type) (hw : ∀ c ∈ l, c.type = .wedge → c.conn.length = 6) (hu : volCode u.type = none)
    (hm : ∀ c ∈ u :: m, cells c.id = some c) :
    zoneConn cells loc ((l ++ u :: m).map Cell.id) = zoneConn cells loc (l.map Cell.id) := by
  obtain ⟨o, h1, -, -⟩ := zone_solid (u.id :: m.map Cell.id) Out.empty h hs hw
  obtain ⟨p, p1, p2, p3⟩ := zone_solid [] Out.empty h hs hw
  obtain ⟨q, q1, q2, q3⟩ := zone_solid (u.id :: m.map Cell.id) Out.empty h hs hw
  have e : q = p := by
    obtain ⟨qa, qb⟩ := q
    obtain ⟨pa, pb⟩ := p
    have ha : qa = pa := funext fun k => (q2 k).trans (p2 k).symm
    have hb : qb = pb := funext fun k => (q3 k).trans (p3 k).symm
    rw [ha, hb]
  unfold zoneConn
  rw [map_append, map_cons, q1, zoneLoop, hm u mem_cons_self]
  simp only [hu, Option.isNone_none, Bool.false_or, if_true, Bool.or_true]
  rw [zone_stuck m q fun c hc => hm c (mem_cons_of_mem _ hc), e]
  rw [append_nil] at p1
  rw [p1]
  rfl

/-- a wedge and a tetrahedron, and a polyhedron between -/
def wedge : Cell := ⟨7, .wedge, [0, 1, 2, 3, 4, 5]⟩
def tet : Cell := ⟨3, .tetra, [3, 4, 5, 6]⟩
def poly : Cell := ⟨5, .other, [0, 6]⟩
def three (id : Nat) : Option Cell := [wedge, tet, poly].find? fun c => c.id == id

theorem three_here : Here three (fun v => some (v + 1)) (· + 1) [wedge, tet] := ⟨by decide, by simp⟩

example : Here three (fun v => some (v + 1)) (· + 1) [wedge, tet] ∧ (∀ c ∈ [wedge, tet], Solid c.type) ∧
    (∀ c ∈ [wedge, tet], c.type = .wedge → c.conn.length = 6) ∧ nodes (· + 1) wedge = [1, 3, 2, 4, 6, 5] :=
  ⟨three_here, by simp [Solid, wedge, tet], by decide, by decide⟩

example : Here three (fun v => some (v + 1)) (· + 1) [wedge] ∧ volCode poly.type = none ∧ (∀ c ∈ poly :: [tet], three c.id = some c) :=
  ⟨⟨by decide, by simp⟩, rfl, by decide⟩

/-! ### C234: the boundary -/

theorem surf_code {e : El} (h : e = .triangle ∨ e = .quad) : ∃ k, surfCode e = some k := by rcases h with rfl | rfl <;> exact ⟨_, rfl⟩

theorem surf_loop {cells : Nat → Option Cell} {loc : Nat → Option Nat} {num : Nat → Nat} : ∀ {l : List Cell} (m i : Nat → List Nat), Here cells loc num l →
    (∀ c ∈ l, c.type = .triangle ∨ c.type = .quad) →
    ∃ m' i', surfLoop cells loc (l.map Cell.id) false m i = some (m', i') ∧
      (∀ k, m' k = m k ++ (l.filter fun c => surfCode c.type = some k).flatMap fun c => c.conn.map num) ∧
      (∀ k, i' k = i k ++ (l.filter fun c => surfCode c.type = some k).map Cell.id)
  | [], m, i, _, _ => ⟨m, i, rfl, by simp, by simp⟩
  | c :: l, m, i, h, hs => by
    obtain ⟨k, hk⟩ := surf_code (hs c mem_cons_self)
    obtain ⟨m', i', h1, h2, h3⟩ := surf_loop (fun j => if j = k then m j ++ c.conn.map num else m j) (fun j => if j = k then i j ++ [c.id] else i j)
      h.tail (fun d hd => hs d (mem_cons_of_mem _ hd))
    refine ⟨m', i', ?_, fun j => ?_, fun j => ?_⟩
    · rw [← h1, map_cons, surfLoop, h.cell c mem_cons_self]
      simp only [hk, Option.isNone_some, Bool.or_false, Bool.false_eq_true, if_false]
      rw [mapM_known (h.vert c mem_cons_self)]
      rfl
    · rw [h2, filter_cons]
      by_cases hj : j = k
      · subst hj; simp [hk]
      · have : ¬ k = j := fun h => hj h.symm
        simp [hk, hj, this]
    · rw [h3, filter_cons]
      by_cases hj : j = k
      · subst hj; simp [hk]
      · have : ¬ k = j := fun h => hj h.symm
        simp [hk, hj, this]

theorem number_all : ∀ (l : List Nat) (g : (Nat → Option Nat) × Nat), l.Nodup → (∀ id ∈ l, g.1 id = none) →
    (l.foldl number g).2 = g.2 + l.length ∧ (∀ (i : Nat) id, l[i]? = some id → (l.foldl number g).1 id = some (g.2 + i)) ∧
      (∀ id, id ∉ l → (l.foldl number g).1 id = g.1 id)
  | [], g, _, _ => ⟨rfl, by simp, by simp⟩
  | a :: l, g, hn, hg => by
    obtain ⟨n1, n2⟩ := nodup_cons.1 hn
    have hg' : ∀ id ∈ l, (number g a).1 id = none := by
      intro id hid
      have : id ≠ a := fun h => n1 (h ▸ hid)
      simp [number, this, hg id (mem_cons_of_mem _ hid)]
    obtain ⟨i1, i2, i3⟩ := number_all l (number g a) n2 hg'
    refine ⟨by rw [foldl_cons, i1, length_cons]; simp only [number]; omega, fun i id hi => ?_, fun id hid => ?_⟩
    · cases i with
      | zero =>
        simp at hi
        subst hi
        rw [foldl_cons, i3 a n1]
        simp [number, hg a mem_cons_self]
      | succ i =>
        rw [foldl_cons, i2 i id (by simpa using hi)]
        simp only [number, Option.some.injEq]; omega
    · rw [mem_cons, not_or] at hid
      rw [foldl_cons, i3 id hid.2]
      simp [number, hid.1]

/-- C234, partial (full statement: for all cells): for a boundary of triangles and quads, the sections hold the cells of their type in
the order given, and the number of each cell is its position among all, triangles first. -/
theorem C234_boundary_partial {cells : Nat → Option Cell} {loc : Nat → Option Nat} {num : Nat → Nat} {l : List Cell} (h : Here cells loc num l)
    (hs : ∀ c ∈ l, c.type = .triangle ∨ c.type = .quad) (hn : (l.map Cell.id).Nodup) :
    ∃ o g, surfConn cells loc (l.map Cell.id) = some (o, g) ∧
      (∀ e k, surfCode e = some k → o.conn k = (l.filter fun c => c.type = e).flatMap (fun c => c.conn.map num) ∧
        o.n k = (l.filter fun c => c.type = e).length) ∧
      (∀ (i : Nat) c, ((l.filter fun c => c.type = .triangle) ++ l.filter fun c => c.type = .quad)[i]? = some c → g c.id = some i) := by
  obtain ⟨m, i, h1, h2, h3⟩ := surf_loop (fun _ => []) (fun _ => []) h hs
  have hf : ∀ e k, surfCode e = some k → (l.filter fun c => surfCode c.type = some k) = l.filter fun c => c.type = e := by
    intro e k hk
    congr 1
    funext c
    rw [← hk]
    cases e <;> cases hc : c.type <;> simp [surfCode] at hk ⊢
  refine ⟨_, _, by unfold surfConn; rw [h1]; rfl, fun e k hk => ?_, fun j c hj => ?_⟩
  · simp only [h2, h3, hf e k hk, nil_append, length_map, and_self]
  · have e5 : i 5 = (l.filter fun c => c.type = .triangle).map Cell.id := by rw [h3, hf .triangle 5 rfl]; rfl
    have e7 : i 7 = (l.filter fun c => c.type = .quad).map Cell.id := by rw [h3, hf .quad 7 rfl]; rfl
    simp only [e5, e7]
    rw [← foldl_append, ← map_append]
    have hnd : (((l.filter fun c => c.type = .triangle) ++ l.filter fun c => c.type = .quad).map Cell.id).Nodup := by
      have hp : (((l.filter fun c => c.type = .triangle) ++ l.filter fun c => c.type = .quad)).Perm l := by
        have := filter_append_perm (fun c : Cell => decide (c.type = .triangle)) l
        refine Perm.trans (Perm.of_eq ?_) this
        congr 1
        refine filter_congr fun c hc => ?_
        rcases hs c hc with h | h <;> simp [h]
      exact (hp.map Cell.id).nodup_iff.2 hn
    have := (number_all _ (fun _ => none, 0) hnd (by simp)).2.1 j c.id (by rw [getElem?_map, hj]; rfl)
    simpa using this

example : Here (fun id => ([⟨9, .quad, [0, 1, 2, 3]⟩, ⟨4, .triangle, [1, 2, 4]⟩] : List Cell).find? fun c => c.id == id) (fun v => some (v + 1)) (· + 1)
    [⟨9, .quad, [0, 1, 2, 3]⟩, ⟨4, .triangle, [1, 2, 4]⟩] := ⟨by decide, by simp⟩

/-! ### C234: reading back -/

theorem section_groups (f : Fam) (voff coff : Nat) (hf : 0 < taken f 0) : ∀ (gs : List (List Nat)) (fuel : Nat) (g : Got), (∀ x ∈ gs, x.length = taken f 0) →
    gs.flatten.length ≤ fuel → sectionLoop f voff coff fuel gs.flatten g = .done (gs.foldl (fun g x => g.add f voff coff x) g)
  | [], fuel, g, _, _ => by cases fuel <;> rfl
  | x :: gs, fuel, g, hx, hl => by
    have h0 := hx x mem_cons_self
    rw [flatten_cons, length_append] at hl
    obtain ⟨a, x', rfl⟩ : ∃ a x', x = a :: x' := by
      cases x with
      | nil => simp at h0; omega
      | cons a x' => exact ⟨a, x', rfl⟩
    obtain ⟨fuel, rfl⟩ : ∃ n, fuel = n + 1 := ⟨fuel - 1, by simp at hl; omega⟩
    have e : sectionLoop f voff coff (fuel + 1) ((a :: x') :: gs).flatten g =
        if ((a :: x') ++ gs.flatten).length < taken f 0 then .undefined
        else sectionLoop f voff coff fuel (((a :: x') ++ gs.flatten).drop (taken f 0)) (g.add f voff coff (((a :: x') ++ gs.flatten).take (taken f 0))) := by
      rw [flatten_cons, cons_append, sectionLoop]
      simp
    rw [e, if_neg (by rw [length_append]; omega), ← h0, drop_left, take_left]
    exact section_groups f voff coff hf gs fuel _ (fun y hy => hx y (mem_cons_of_mem _ hy)) (by rw [length_cons] at hl; omega)

/-- the cells as they are found again: ids given one by one, vertices by their numbers counted from 0 -/
def again (num : Nat → Nat) (voff first : Nat) (l : List Cell) : List Cell :=
  l.zipIdx.map fun p => ⟨first + p.2, p.1.type, p.1.conn.map fun v => voff + (num v - 1)⟩

theorem turn_turn {l : List Nat} (h : l.length = 6) : turn (turn l) = l := by
  obtain ⟨a, b, c, d, e, f, rfl⟩ := six h
  rfl

/-- the family of a type of volume cells -/
def famOf : El → Fam
  | .tetra => .tetra
  | .pyramid => .pyra
  | .wedge => .penta
  | _ => .hexa

theorem vertices_back {num : Nat → Nat} {c : Cell} (hs : Solid c.type) (hc : c.conn.length = corners c.type) (voff : Nat) :
    vertices (famOf c.type) voff ((nodes num c).map (· - 1)) = c.conn.map fun v => voff + (num v - 1) := by
  by_cases h : c.type = .wedge
  · rw [h] at hc
    obtain ⟨x1, x2, x3, x4, x5, x6, e⟩ := six hc
    unfold vertices nodes
    rw [h, e]
    rfl
  · have hf : famOf c.type ≠ .penta := by
      rcases hs with h' | h' | h' | h' <;> rw [h'] at h ⊢ <;> first | exact absurd rfl h | (intro h2; cases h2)
    unfold vertices nodes
    rw [if_neg hf, if_neg h]
    simp

theorem nodes_length {num : Nat → Nat} {c : Cell} (hc : c.conn.length = corners c.type) : (nodes num c).length = corners c.type := by
  by_cases h : c.type = .wedge
  · rw [h] at hc
    obtain ⟨x1, x2, x3, x4, x5, x6, e⟩ := six hc
    unfold nodes
    rw [h, e]
    rfl
  · unfold nodes
    rw [if_neg h, length_map, hc]

theorem fold_back {num : Nat → Nat} {e : El} (he : Solid e) (voff coff : Nat) : ∀ (l : List Cell) (g : Got) , (∀ c ∈ l, c.type = e) →
    (∀ c ∈ l, c.conn.length = corners e) →
    (l.map fun c => (nodes num c).map (· - 1)).foldl (fun g x => g.add (famOf e) voff coff x) g =
      ⟨g.vol ++ again num voff (g.next + coff) l, g.surf, g.next + l.length⟩
  | [], g, _, _ => by simp [again]
  | c :: l, g, ht, hc => by
    have h1 := ht c mem_cons_self
    have hv : volOf (famOf e) = some e := by rcases he with rfl | rfl | rfl | rfl <;> rfl
    have ha : g.add (famOf e) voff coff ((nodes num c).map (· - 1)) =
        { g with vol := g.vol ++ [⟨g.next + coff, c.type, c.conn.map fun v => voff + (num v - 1)⟩], next := g.next + 1 } := by
      unfold Got.add
      rw [hv]
      have := vertices_back (num := num) (c := c) (by rw [h1]; exact he) (by rw [h1]; exact hc c mem_cons_self) voff
      rw [h1] at this
      simp only [this, h1]
    rw [map_cons, foldl_cons, ha, fold_back he voff coff l _ (fun d hd => ht d (mem_cons_of_mem _ hd)) (fun d hd => hc d (mem_cons_of_mem _ hd))]
    simp only [again, zipIdx_cons, map_cons, append_assoc, cons_append, nil_append, length_cons, Nat.add_zero]
    congr 1
    · congr 2
      rw [zipIdx_succ, map_map]
      refine map_congr_left fun p _ => ?_
      simp only [Function.comp, Cell.mk.injEq, and_true]
      omega
    · omega

/-- C234: the section written for a type of volume cells, read back, gives the cells of the type in their order, each with its own vertices in
their own order, the vertices being numbered as in the file, from 0. -/
theorem C234_back {cells : Nat → Option Cell} {loc : Nat → Option Nat} {num : Nat → Nat} {l : List Cell} (h : Here cells loc num l)
    (hs : ∀ c ∈ l, Solid c.type) (hc : ∀ c ∈ l, c.conn.length = corners c.type) {o : Out} (ho : zoneConn cells loc (l.map Cell.id) = some o)
    {e : El} {k : Nat} (hk : volCode e = some k) (voff coff : Nat) (g : Got) :
    readSection k voff coff (o.conn k) g =
      .done ⟨g.vol ++ again num voff (g.next + coff) (l.filter fun c => c.type = e), g.surf, g.next + (l.filter fun c => c.type = e).length⟩ := by
  obtain ⟨o', h1, h2⟩ := C234_volume_partial h hs (fun c hcl hw => by rw [hc c hcl, hw]; rfl)
  rw [ho] at h1
  cases h1
  have he : Solid e := by cases e <;> simp_all [Solid, volCode]
  have hread : ∀ file, readSection k voff coff file g = sectionLoop (famOf e) voff coff (file.map (· - 1)).length (file.map (· - 1)) g := by
    intro file
    rcases he with rfl | rfl | rfl | rfl <;> (simp [volCode] at hk; subst hk; rfl)
  rw [hread, (h2 e k hk).1]
  have hfl : ((l.filter fun c => c.type = e).flatMap (nodes num)).map (· - 1) =
      ((l.filter fun c => c.type = e).map fun c => (nodes num c).map (· - 1)).flatten := by
    rw [map_flatMap]; rfl
  have ht : ∀ c ∈ l.filter (fun c => c.type = e), c.type = e := fun c hcl => by simpa using (mem_filter.1 hcl).2
  have hl : ∀ c ∈ l.filter (fun c => c.type = e), c.conn.length = corners e := fun c hcl => by
    rw [hc c (mem_filter.1 hcl).1, ht c hcl]
  have htk : taken (famOf e) 0 = corners e := by rcases he with rfl | rfl | rfl | rfl <;> rfl
  rw [hfl, section_groups (famOf e) voff coff (by rcases he with rfl | rfl | rfl | rfl <;> decide) _ _ g ?_ (Nat.le_refl _)]
  · rw [fold_back he voff coff _ g ht hl]
  · intro x hx
    obtain ⟨c, hcl, rfl⟩ := mem_map.1 hx
    rw [length_map, htk]
    have := nodes_length (num := num) (c := c) (by rw [ht c hcl]; exact hl c hcl)
    rw [this, ht c hcl]

example : ∀ c ∈ [wedge, tet], c.conn.length = corners c.type := by decide

/-- the boundary cells as they are found again: positions from the one given, vertices by their numbers counted from 0 -/
def againSurf (num : Nat → Nat) (voff first : Nat) (l : List Cell) : List (Nat × List Nat) :=
  l.zipIdx.map fun p => (first + p.2, p.1.conn.map fun v => voff + (num v - 1))

theorem fold_surf {num : Nat → Nat} {f : Fam} (hf : f = .tri ∨ f = .quad) (voff coff : Nat) : ∀ (l : List Cell) (g : Got),
    (l.map fun c => (c.conn.map num).map (· - 1)).foldl (fun g x => g.add f voff coff x) g =
      ⟨g.vol, g.surf ++ againSurf num voff g.next l, g.next + l.length⟩
  | [], g => by simp [againSurf]
  | c :: l, g => by
    have ha : g.add f voff coff ((c.conn.map num).map (· - 1)) =
        { g with surf := g.surf ++ [(g.next, c.conn.map fun v => voff + (num v - 1))], next := g.next + 1 } := by
      rcases hf with rfl | rfl <;> simp [Got.add, volOf, vertices]
    rw [map_cons, foldl_cons, ha, fold_surf hf voff coff l]
    simp only [againSurf, zipIdx_cons, map_cons, append_assoc, cons_append, nil_append, length_cons, Nat.add_zero]
    congr 1
    · congr 2
      rw [zipIdx_succ, map_map]
      refine map_congr_left fun p _ => ?_
      simp only [Function.comp, Prod.mk.injEq, and_true]
      omega
    · omega

/-- C234: the section written for the triangles or the quads of a boundary, read back, gives them in their order, each with its own vertices. -/
theorem C234_boundary_back {cells : Nat → Option Cell} {loc : Nat → Option Nat} {num : Nat → Nat} {l : List Cell} (h : Here cells loc num l)
    (hs : ∀ c ∈ l, c.type = .triangle ∨ c.type = .quad) (hn : (l.map Cell.id).Nodup) (hc : ∀ c ∈ l, c.conn.length = corners c.type)
    {r : Out × (Nat → Option Nat)} (hr : surfConn cells loc (l.map Cell.id) = some r) {e : El} {k : Nat} (hk : surfCode e = some k)
    (voff coff : Nat) (g : Got) :
    readSection k voff coff (r.1.conn k) g =
      .done ⟨g.vol, g.surf ++ againSurf num voff g.next (l.filter fun c => c.type = e), g.next + (l.filter fun c => c.type = e).length⟩ := by
  obtain ⟨o, n, h1, h2, -⟩ := C234_boundary_partial h hs hn
  rw [hr] at h1
  cases h1
  obtain ⟨f, hf, hread, htk⟩ : ∃ f : Fam, (f = .tri ∨ f = .quad) ∧
      (∀ file, readSection k voff coff file g = sectionLoop f voff coff (file.map (· - 1)).length (file.map (· - 1)) g) ∧ taken f 0 = corners e := by
    cases e <;> simp [surfCode] at hk <;> subst hk
    · exact ⟨.tri, .inl rfl, fun _ => rfl, rfl⟩
    · exact ⟨.quad, .inr rfl, fun _ => rfl, rfl⟩
  rw [hread, (h2 e k hk).1]
  have hfl : ((l.filter fun c => c.type = e).flatMap fun c => c.conn.map num).map (· - 1) =
      ((l.filter fun c => c.type = e).map fun c => (c.conn.map num).map (· - 1)).flatten := by
    rw [map_flatMap]; rfl
  rw [hfl, section_groups f voff coff (by rcases hf with rfl | rfl <;> decide) _ _ g ?_ (Nat.le_refl _), fold_surf hf]
  intro x hx
  obtain ⟨c, hcl, rfl⟩ := mem_map.1 hx
  have ht : c.type = e := by simpa using (mem_filter.1 hcl).2
  rw [length_map, length_map, htk, hc c (mem_filter.1 hcl).1, ht]

example : (([⟨9, .quad, [0, 1, 2, 3]⟩, ⟨4, .triangle, [1, 2, 4]⟩] : List Cell).map Cell.id).Nodup ∧
    ∀ c ∈ ([⟨9, .quad, [0, 1, 2, 3]⟩, ⟨4, .triangle, [1, 2, 4]⟩] : List Cell), c.conn.length = corners c.type := by decide

/-! ### C235 -/

/-- an element of a mixed section: its type and its nodes -/
abbrev Elem := Nat × List Nat

/-- the types of CGNS of first order, and the bars of all orders, with their numbers of nodes, as the standard has them -/
def standard : List (Nat × Nat) := [(2, 1), (3, 2), (4, 3), (24, 4), (40, 5), (5, 3), (7, 4), (10, 4), (12, 5), (14, 6), (17, 8)]

/-- an element of one of these types with its nodes -/
def Linear (e : Elem) : Prop := (e.1, e.2.length) ∈ standard

theorem linear_known {e : Elem} (h : Linear e) : ∃ f, elementOf e.1 = some (f, e.2.length) ∧ taken f e.2.length = e.2.length := by
  have : ∀ p ∈ standard, ∃ f, elementOf p.1 = some (f, p.2) ∧ taken f p.2 = p.2 := by
    intro p hp
    simp only [standard, mem_cons, not_mem_nil, or_false] at hp
    rcases hp with rfl | rfl | rfl | rfl | rfl | rfl | rfl | rfl | rfl | rfl | rfl <;> exact ⟨_, rfl, rfl⟩
  exact this _ h

theorem linear_step {e : Elem} (h : Linear e) (voff coff fuel : Nat) (r : List Nat) (g : Got) :
    ∃ f, mixedLoop voff coff (fuel + 1) (e.1 :: (e.2 ++ r)) g = mixedLoop voff coff fuel r (g.add f voff coff e.2) ∧
      elementOf e.1 = some (f, e.2.length) := by
  obtain ⟨f, h1, h3⟩ := linear_known h
  refine ⟨f, ?_, h1⟩
  rw [mixedLoop, h1]
  simp only [h3]
  rw [if_neg (by rw [length_append]; omega), drop_left, take_left]

/-- the volume cell an element of a mixed section is: 10 for tetrahedra, 12 for pyramids, 14 for wedges, 17 for hexahedra -/
def cellOf (voff first : Nat) (p : Elem × Nat) : Option Cell :=
  if p.1.1 = 10 then some ⟨first + p.2, .tetra, p.1.2.map (voff + ·)⟩
  else if p.1.1 = 12 then some ⟨first + p.2, .pyramid, p.1.2.map (voff + ·)⟩
  else if p.1.1 = 14 then some ⟨first + p.2, .wedge, ([0, 2, 1, 3, 5, 4] : List Nat).filterMap fun i => (p.1.2.map (voff + ·))[i]?⟩
  else if p.1.1 = 17 then some ⟨first + p.2, .hexa, p.1.2.map (voff + ·)⟩
  else none

theorem add_cell {e : Elem} (h : Linear e) {f : Fam} (hf : elementOf e.1 = some (f, e.2.length)) (voff coff : Nat) (g : Got) :
    (g.add f voff coff e.2).vol = g.vol ++ (cellOf voff (g.next + coff) (e, 0)).toList ∧ (g.add f voff coff e.2).next = g.next + 1 := by
  obtain ⟨t, x⟩ := e
  unfold Linear at h
  simp only [standard, mem_cons, not_mem_nil, or_false, Prod.mk.injEq] at h hf
  rcases h with ⟨rfl, h2⟩ | ⟨rfl, h2⟩ | ⟨rfl, h2⟩ | ⟨rfl, h2⟩ | ⟨rfl, h2⟩ | ⟨rfl, h2⟩ | ⟨rfl, h2⟩ | ⟨rfl, h2⟩ | ⟨rfl, h2⟩ | ⟨rfl, h2⟩ | ⟨rfl, h2⟩ <;>
    simp only [elementOf, Option.some.injEq, Prod.mk.injEq] at hf <;> obtain ⟨rfl, -⟩ := hf
  case inr.inr.inr.inr.inr.inr.inr.inr.inr.inl =>
    have h6 : (x.map (voff + ·)).length = 6 := by rw [length_map, h2]
    obtain ⟨a, b, c, d, x, y, hq⟩ := six h6
    simp [Got.add, volOf, vertices, hq, turn, cellOf]
  all_goals simp [Got.add, volOf, vertices, cellOf]

theorem mixed_all (voff coff : Nat) : ∀ (es : List Elem) (fuel : Nat) (g : Got), (∀ e ∈ es, Linear e) →
    (es.flatMap fun e => e.1 :: e.2).length ≤ fuel →
    ∃ r, mixedLoop voff coff fuel (es.flatMap fun e => e.1 :: e.2) g = .done r ∧
      r.vol = g.vol ++ es.zipIdx.filterMap (cellOf voff (g.next + coff)) ∧ r.next = g.next + es.length
  | [], fuel, g, _, _ => ⟨g, by cases fuel <;> rfl, by simp, rfl⟩
  | e :: es, fuel, g, he, hl => by
    obtain ⟨fuel, rfl⟩ : ∃ n, fuel = n + 1 := ⟨fuel - 1, by simp at hl; omega⟩
    obtain ⟨f, h1, h2⟩ := linear_step (he e mem_cons_self) voff coff fuel (es.flatMap fun e => e.1 :: e.2) g
    obtain ⟨a1, a2⟩ := add_cell (he e mem_cons_self) h2 voff coff g
    obtain ⟨r, r1, r2, r3⟩ := mixed_all voff coff es fuel (g.add f voff coff e.2) (fun x hx => he x (mem_cons_of_mem _ hx)) (by simp at hl ⊢; omega)
    refine ⟨r, ?_, ?_, by rw [r3, a2, length_cons]; omega⟩
    · rw [flatMap_cons, cons_append, h1, r1]
    · rw [r2, a1, a2, append_assoc]
      congr 1
      rw [zipIdx_cons, filterMap_cons, zipIdx_succ, filterMap_map]
      have : (cellOf voff (g.next + coff) ∘ fun p : Elem × Nat => (p.1, p.2 + 1)) = cellOf voff (g.next + 1 + coff) := by
        funext p
        unfold cellOf
        simp only [Function.comp, show g.next + coff + (p.2 + 1) = g.next + 1 + coff + p.2 by omega]
      rw [show (fun x : Elem × Nat => match x with | (a, i) => (a, i + 1)) = fun p : Elem × Nat => (p.1, p.2 + 1) from rfl, this]
      cases cellOf voff (g.next + coff) (e, 0) <;> rfl

/-- C235, partial (full statement: for the sections of a file, and for all types of elements): a list of types and nodes of elements of first
order is unpacked into the volume cells among them, in their order, with ids by their position and nodes in the order of bitpit. -/
theorem C235_mixed_partial (voff coff : Nat) {es : List Elem} (he : ∀ e ∈ es, Linear e) (g : Got) :
    ∃ r, unpackMixed voff coff (es.flatMap fun e => e.1 :: e.2) g = .done r ∧
      r.vol = g.vol ++ es.zipIdx.filterMap (cellOf voff (g.next + coff)) ∧ r.next = g.next + es.length := by
  obtain ⟨r, h1, h2, h3⟩ := mixed_all voff coff es _ g he (Nat.le_refl _)
  refine ⟨{ r with surf := g.surf }, by unfold unpackMixed; rw [h1], h2, h3⟩

example : ∀ e ∈ ([(14, [0, 1, 2, 3, 4, 5]), (5, [0, 1, 2]), (10, [3, 4, 5, 6])] : List Elem), Linear e := by
  intro e he
  simp only [mem_cons, not_mem_nil, or_false] at he
  rcases he with rfl | rfl | rfl
  all_goals simp [Linear, standard]

/-- C235 does not hold for triangles and quads of mixed sections: none is kept, as the map of the caller is passed by value. -/
theorem C235_surface_fails (voff coff : Nat) (l : List Nat) (g r : Got) (h : unpackMixed voff coff l g = .done r) : r.surf = g.surf := by
  unfold unpackMixed at h
  split at h
  · cases h; rfl
  · rename_i hne
    exact absurd h (hne r)

example : unpackMixed 0 0 [5, 0, 1, 2] ⟨[], [], 0⟩ = .done ⟨[], [], 1⟩ := by decide

theorem shifted (voff coff : Nat) : ∀ (ts : List (List Nat)) (fuel : Nat) (g : Got), (∀ t ∈ ts, t.length = 4) →
    (ts.flatMap fun t => 9 :: t).length ≤ fuel →
    ∃ r, mixedLoop voff coff fuel (ts.flatMap fun t => 9 :: t) g = .done r ∧ r.vol = g.vol ∧ r.next = g.next + ts.length
  | [], fuel, g, _, _ => ⟨g, by cases fuel <;> rfl, rfl, rfl⟩
  | t :: ts, fuel, g, ht, hl => by
    obtain ⟨fuel, rfl⟩ : ∃ n, fuel = n + 1 := ⟨fuel - 1, by simp at hl; omega⟩
    have h4 := ht t mem_cons_self
    obtain ⟨r, r1, r2, r3⟩ := shifted voff coff ts fuel (g.add .quad voff coff t) (fun x hx => ht x (mem_cons_of_mem _ hx)) (by simp at hl ⊢; omega)
    refine ⟨r, ?_, by rw [r2]; rfl, by rw [r3, length_cons]; simp only [Got.add, volOf]; simp; omega⟩
    have h9 : taken .quad 9 = t.length := h4.symm
    rw [flatMap_cons, cons_append, mixedLoop]
    simp only [elementOf]
    rw [if_neg (by rw [length_append]; omega), h9, drop_left, take_left, r1]

/-- C235 does not hold for the mixed sections of a file: 1 is subtracted from the types as well as from the nodes, so that tetrahedra (10) are
taken for quads (9), and a section of tetrahedra gives no cell. -/
theorem C235_type_fails (voff coff : Nat) {ts : List (List Nat)} (ht : ∀ t ∈ ts, t.length = 4) (g : Got) :
    readSection 20 voff coff (ts.flatMap fun t => 10 :: t) g = .done { g with next := g.next + ts.length } := by
  have e : (ts.flatMap fun t => 10 :: t).map (· - 1) = (ts.map fun t => t.map (· - 1)).flatMap fun t => 9 :: t := by
    rw [map_flatMap, flatMap_map]
    rfl
  obtain ⟨r, r1, r2, r3⟩ := shifted voff coff (ts.map fun t => t.map (· - 1)) _ g (by
    intro t h
    obtain ⟨u, hu, rfl⟩ := mem_map.1 h
    rw [length_map]; exact ht u hu) (Nat.le_refl _)
  unfold readSection
  simp only [if_true]
  rw [e]
  unfold unpackMixed
  rw [r1]
  simp only [r2, r3, length_map]

example : readSection 20 0 0 [10, 1, 2, 3, 4, 10, 2, 3, 4, 5] ⟨[], [], 0⟩ = .done ⟨[], [], 2⟩ := by decide

/-- C235 does not hold for elements of higher order: of a tetrahedron of ten nodes four are taken, and the fifth is taken for the type of the
next element; in a section of such tetrahedra every four nodes make a cell. -/
theorem C235_order_fails (voff coff : Nat) (a b c d x : Nat) (r : List Nat) (g : Got) (hx : elementOf x = none) :
    unpackMixed voff coff (11 :: a :: b :: c :: d :: x :: r) g = .throws ∧
    ∀ k (file : List Nat), file.length = 4 * k → ∃ s, readSection 11 voff coff file g = .done s ∧ s.vol.length = g.vol.length + k := by
  constructor
  · unfold unpackMixed
    have : mixedLoop voff coff (11 :: a :: b :: c :: d :: x :: r).length (11 :: a :: b :: c :: d :: x :: r) g = .throws := by
      have h4 : taken .tetra 10 = 4 := rfl
      simp only [length_cons, mixedLoop, elementOf, h4]
      rw [if_neg (by simp)]
      simp [mixedLoop, hx]
    rw [this]
  · have key : ∀ k fuel (l : List Nat) (g : Got), l.length = 4 * k → l.length ≤ fuel →
        ∃ s, sectionLoop .tetra voff coff fuel l g = .done s ∧ s.vol.length = g.vol.length + k := by
      intro k
      induction k with
      | zero =>
        intro fuel l g hl _
        have : l = [] := length_eq_zero_iff.1 (by omega)
        subst this
        exact ⟨g, by cases fuel <;> rfl, rfl⟩
      | succ k ih =>
        intro fuel l g hl hf
        obtain ⟨fuel, rfl⟩ : ∃ n, fuel = n + 1 := ⟨fuel - 1, by omega⟩
        cases l with
        | nil => simp at hl
        | cons a l =>
          obtain ⟨s, s1, s2⟩ := ih fuel ((a :: l).drop 4) (g.add .tetra voff coff ((a :: l).take 4)) (by rw [length_drop]; omega) (by rw [length_drop]; omega)
          refine ⟨s, ?_, ?_⟩
          · rw [sectionLoop]
            · have h4 : taken .tetra 0 = 4 := rfl
              rw [if_neg (by omega), h4, s1]
            · simp
          · rw [s2]
            simp [Got.add, volOf]
            omega
    intro k file hk
    exact key k _ _ g (by rw [length_map]; exact hk) (Nat.le_refl _)

example : elementOf 100 = none ∧ (replicate 20 1).length = 4 * 5 := ⟨rfl, rfl⟩

end Verif.Cgns
