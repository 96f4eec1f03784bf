import Verif.Obj.Write
import Verif.Obj.ReadProps
import Verif.Obj.KeyProps
import Mathlib.Data.List.Forall2
import Mathlib.Data.List.Perm.Basic
/-!
# What is written to an OBJ file, and read back

The specification of a facet is stated on the lines of the file: the points its numbers stand for are those
of the vertices of the cell.
-/
namespace Verif.Obj

variable {α : Type} [Zero α]

/-- The point of the file for a vertex. -/
def Fmt.pt (F : Fmt α) (p : Pt α) : Pt α := (F.rd p.1, F.rd p.2.1, F.rd p.2.2)
def Fmt.tex (F : Fmt α) (p : Pt α) : Pt α := if F.uv then (F.rd p.1, F.rd p.2.1, 0) else F.pt p

/-- The number `k` stands for the vertex `id`. -/
def Stands (pts : List (Pt α)) (verts : List (Int × Pt α)) (f : Pt α → Pt α) (id k : Int) : Prop :=
  ∃ p, verts.lookup id = some p ∧ 1 ≤ k ∧ pts[(k - 1).toNat]? = some (f p)

/-- The optional number of a corner stands for the vertex of the corner in the textures or normals. -/
def StandsSide (pts : List (Pt α)) (S : Option (Side α)) (f : Pt α → Pt α) (cell : Int) (i : Nat)
    (k : Option Int) : Prop :=
  match S with
  | none => k = none
  | some S => ∃ conn id j, S.conn.lookup cell = some conn ∧ conn[i]? = some id ∧ k = some j ∧
      Stands pts S.verts f id j

/-- The words of a facet stand for the corners of a cell. -/
def Says (F : Fmt α) (M : Mesh α) (file : List (Line α)) (c : WCell) (refs : List Ref) : Prop :=
  refs.length = c.conn.length ∧ ∀ i r, refs[i]? = some r →
    (∃ id, c.conn[i]? = some id ∧ Stands (vPts file) M.verts F.pt id r.v) ∧
    StandsSide (tPts file) M.txt F.tex c.id i r.t ∧ StandsSide (nPts file) M.nrm F.pt c.id i r.n

/-- The facets of a file. -/
def facets (ls : List (Line α)) : List (List Ref) :=
  ls.filterMap fun | .f refs _ => some refs | _ => none

/-! ## Lemmas -/

theorem vPts_append (a b : List (Line α)) : vPts (a ++ b) = vPts a ++ vPts b := by
  unfold vPts; rw [List.filterMap_append]
theorem tPts_append (a b : List (Line α)) : tPts (a ++ b) = tPts a ++ tPts b := by
  unfold tPts; rw [List.filterMap_append]
theorem nPts_append (a b : List (Line α)) : nPts (a ++ b) = nPts a ++ nPts b := by
  unfold nPts; rw [List.filterMap_append]
theorem facets_append (a b : List (Line α)) : facets (a ++ b) = facets a ++ facets b := by
  unfold facets; rw [List.filterMap_append]
theorem names_append (a b : List (Line α)) : names (a ++ b) = names a ++ names b := by
  unfold names; rw [List.filterMap_append]

theorem Stands.mono {pts more : List (Pt α)} {verts : List (Int × Pt α)} {f : Pt α → Pt α} {id k : Int}
    (h : Stands pts verts f id k) : Stands (pts ++ more) verts f id k := by
  obtain ⟨p, h1, h2, h3⟩ := h
  exact ⟨p, h1, h2, by rw [List.getElem?_append_left (List.getElem?_eq_some_iff.1 h3).1]; exact h3⟩

theorem StandsSide.mono {pts more : List (Pt α)} {S : Option (Side α)} {f : Pt α → Pt α} {cell : Int} {i : Nat}
    {k : Option Int} (h : StandsSide pts S f cell i k) : StandsSide (pts ++ more) S f cell i k := by
  unfold StandsSide at h ⊢
  cases S with
  | none => exact h
  | some S =>
    obtain ⟨a, b, c, h1, h2, h3, h4⟩ := h
    exact ⟨a, b, c, h1, h2, h3, h4.mono⟩

theorem Says.mono {F : Fmt α} {M : Mesh α} {file more : List (Line α)} {c : WCell} {refs : List Ref}
    (h : Says F M file c refs) : Says F M (file ++ more) c refs := by
  refine ⟨h.1, fun i r hr => ?_⟩
  obtain ⟨⟨id, h1, h2⟩, h3, h4⟩ := h.2 i r hr
  rw [vPts_append, tPts_append, nPts_append]
  exact ⟨⟨id, h1, h2.mono⟩, h3.mono, h4.mono⟩

/-- The points written so far are those of the vertices seen. -/
def Seen (verts : List (Int × Pt α)) (f : Pt α → Pt α) (seen : List Int) (pts : List (Pt α)) : Prop :=
  List.Forall₂ (fun id q => ∃ p, verts.lookup id = some p ∧ q = f p) seen pts

/-- The lines of points. -/
theorem emitPts_spec (mk : Pt α → Line α) (verts : List (Int × Pt α)) (f : Pt α → Pt α)
    (P : List (Line α) → List (Pt α)) (hP : ∀ p ls, P (mk p :: ls) = f p :: P ls) (hP0 : P [] = [])
    (ids : List Int) : ∀ (seen : List Int) (pts : List (Pt α)) (ls : List (Line α)) (seen' : List Int),
      emitPts mk verts ids seen = some (ls, seen') → Seen verts f seen pts →
      Seen verts f seen' (pts ++ P ls) ∧ (∀ id ∈ ids, id ∈ seen') ∧ (∀ id ∈ seen, id ∈ seen') ∧
      (∀ l ∈ ls, ∃ p, l = mk p) := by
  induction ids with
  | nil =>
    intro seen pts ls seen' h hs
    simp only [emitPts, Option.some.injEq, Prod.mk.injEq] at h
    obtain ⟨rfl, rfl⟩ := h
    exact ⟨by simpa [hP0] using hs, by simp, fun _ h => h, by simp⟩
  | cons id ids ih =>
    intro seen pts ls seen' h hs
    rw [emitPts] at h
    by_cases hc : seen.contains id = true
    · rw [if_pos hc] at h
      obtain ⟨h1, h2, h3, h4⟩ := ih seen pts ls seen' h hs
      refine ⟨h1, ?_, h3, h4⟩
      intro x hx
      rcases List.mem_cons.1 hx with rfl | hx
      · exact h3 _ (by simpa using hc)
      · exact h2 x hx
    · rw [if_neg hc] at h
      cases hl : verts.lookup id with
      | none => simp [hl] at h
      | some p =>
        simp only [hl, Option.bind_eq_bind, Option.bind_some] at h
        cases hr : emitPts mk verts ids (seen ++ [id]) with
        | none => simp [hr] at h
        | some r =>
          simp only [hr, Option.bind_some, Option.some.injEq, Prod.mk.injEq] at h
          obtain ⟨rfl, rfl⟩ := h
          have hs' : Seen verts f (seen ++ [id]) (pts ++ [f p]) :=
            List.rel_append hs (List.Forall₂.cons ⟨p, hl, rfl⟩ List.Forall₂.nil)
          obtain ⟨h1, h2, h3, h4⟩ := ih (seen ++ [id]) (pts ++ [f p]) r.1 r.2 hr hs'
          refine ⟨by rw [hP]; simpa using h1, ?_, fun x hx => h3 x (by simp [hx]), ?_⟩
          · intro x hx
            rcases List.mem_cons.1 hx with rfl | hx
            · exact h3 _ (by simp)
            · exact h2 x hx
          · intro l hl
            rcases List.mem_cons.1 hl with rfl | hl
            · exact ⟨p, rfl⟩
            · exact h4 l hl

theorem index_spec {verts : List (Int × Pt α)} {f : Pt α → Pt α} {seen : List Int} {pts : List (Pt α)}
    (h : Seen verts f seen pts) {id k : Int} (hk : index seen id = some k) : Stands pts verts f id k := by
  unfold index at hk
  split at hk
  · rename_i hc
    have hm : id ∈ seen := by simpa using hc
    have hlt : seen.idxOf id < seen.length := List.idxOf_lt_length_iff.2 hm
    obtain ⟨p, h1, h2⟩ := (List.forall₂_iff_get.1 h).2 (seen.idxOf id) hlt
      (by rw [← (List.forall₂_iff_get.1 h).1]; exact hlt)
    simp only [Option.some.injEq] at hk
    refine ⟨p, ?_, by omega, ?_⟩
    · rw [← h1]; simp
    · have : (k - 1).toNat = seen.idxOf id := by omega
      rw [this, List.getElem?_eq_getElem (by rw [← (List.forall₂_iff_get.1 h).1]; exact hlt)]
      simpa using h2
  · simp at hk

/-- What is known of the lines written so far. -/
structure Wrote (F : Fmt α) (M : Mesh α) (pre : List (Line α)) (p : Pen) : Prop where
  v : Seen M.verts F.pt p.v (vPts pre)
  t : Seen (sidePts M.txt) F.tex p.t (tPts pre)
  n : Seen (sidePts M.nrm) F.pt p.n (nPts pre)

/-- The number of the textures or normals. -/
theorem sideIndex_spec {S : Option (Side α)} {f : Pt α → Pt α} {seen : List Int} {pts : List (Pt α)}
    (h : Seen (sidePts S) f seen pts) {cell : Int} {conn : Option (List Int)} {i : Nat} {k : Option Int}
    (hc : sideConn S cell = some conn)
    (hk : sideIndex seen (conn.map (List.drop i)) = some k) : StandsSide pts S f cell i k := by
  unfold sideConn at hc
  unfold StandsSide
  cases S with
  | none =>
    simp only [Option.some.injEq] at hc
    subst hc
    simpa [sideIndex] using hk.symm
  | some S =>
    simp only [Option.map_eq_some_iff] at hc
    obtain ⟨cn, h1, rfl⟩ := hc
    simp only [Option.map_some] at hk
    cases hd : cn.drop i with
    | nil => simp [hd, sideIndex] at hk
    | cons x xs =>
      simp only [hd, sideIndex, Option.map_eq_some_iff] at hk
      obtain ⟨j, hj, rfl⟩ := hk
      refine ⟨cn, x, j, h1, ?_, rfl, index_spec h hj⟩
      have := congrArg List.head? hd
      simpa [List.head?_drop] using this

/-- The corners of a facet. -/
theorem refsOf_spec {F : Fmt α} {M : Mesh α} {pre : List (Line α)} {p : Pen} (h : Wrote F M pre p)
    (c : WCell) (tc nc : Option (List Int)) (ht : sideConn M.txt c.id = some tc)
    (hn : sideConn M.nrm c.id = some nc) : ∀ (k : Nat) (vs : List Int) (refs : List Ref),
      vs = c.conn.drop k → refsOf p vs (tc.map (List.drop k)) (nc.map (List.drop k)) = some refs →
      refs.length = vs.length ∧ ∀ i r, refs[i]? = some r →
        (∃ id, vs[i]? = some id ∧ Stands (vPts pre) M.verts F.pt id r.v) ∧
        StandsSide (tPts pre) M.txt F.tex c.id (k + i) r.t ∧
        StandsSide (nPts pre) M.nrm F.pt c.id (k + i) r.n := by
  intro k vs
  induction vs generalizing k with
  | nil =>
    intro refs _ hr
    simp only [refsOf, Option.some.injEq] at hr
    subst hr
    exact ⟨rfl, by simp⟩
  | cons v vs ih =>
    intro refs hv hr
    rw [refsOf] at hr
    cases h1 : index p.v v with
    | none => simp [h1] at hr
    | some a =>
      cases h2 : sideIndex p.t (tc.map (List.drop k)) with
      | none => simp [h1, h2] at hr
      | some b =>
        cases h3 : sideIndex p.n (nc.map (List.drop k)) with
        | none => simp [h1, h2, h3] at hr
        | some d =>
          have et : (tc.map (List.drop k)).map List.tail = tc.map (List.drop (k + 1)) := by
            cases tc <;> simp
          have en : (nc.map (List.drop k)).map List.tail = nc.map (List.drop (k + 1)) := by
            cases nc <;> simp
          rw [et, en] at hr
          cases h4 : refsOf p vs (tc.map (List.drop (k + 1))) (nc.map (List.drop (k + 1))) with
          | none => simp [h1, h2, h3, h4] at hr
          | some rs =>
            simp only [h1, h2, h3, h4, Option.bind_eq_bind, Option.bind_some, Option.some.injEq] at hr
            subst hr
            have hv' : vs = c.conn.drop (k + 1) := by
              have := congrArg List.tail hv
              simpa using this
            obtain ⟨g1, g2⟩ := ih (k + 1) rs hv' h4
            refine ⟨by simp [g1], ?_⟩
            intro i r hir
            cases i with
            | zero =>
              simp only [List.getElem?_cons_zero, Option.some.injEq] at hir
              subst hir
              exact ⟨⟨v, rfl, index_spec h.v h1⟩, sideIndex_spec h.t ht h2, sideIndex_spec h.n hn h3⟩
            | succ i =>
              simp only [List.getElem?_cons_succ] at hir
              obtain ⟨q1, q2, q3⟩ := g2 i r hir
              refine ⟨by simpa using q1, ?_, ?_⟩
              · rw [show k + (i + 1) = k + 1 + i by omega]; exact q2
              · rw [show k + (i + 1) = k + 1 + i by omega]; exact q3

/-- The form of the corners of a mesh. -/
def Mesh.form (M : Mesh α) : Nat :=
  match M.txt, M.nrm with
  | none, none => 0
  | some _, none => 1
  | some _, some _ => 2
  | none, some _ => 3

theorem emitCell_inv {F : Fmt α} {M : Mesh α} {name : String} {p : Pen} {c : WCell}
    {r : List (Line α) × Pen} (h : emitCell F M name p c = some r) :
    ∃ gk mk gs ms tc nc refs, (grpKeys M).lookup c.grp = some gk ∧ (matKeys M).lookup c.mat = some mk ∧
      grpName name (grpKeys M) gk = some gs ∧ unkey (matKeys M) mk = some ms ∧
      sideConn M.txt c.id = some tc ∧ sideConn M.nrm c.id = some nc ∧ refsOf p c.conn tc nc = some refs ∧
      r.1 = (if p.g ≠ gk then [.g (F.split gs)] else []) ++
        (if p.m ≠ mk then [.usemtl (F.split ms)] else []) ++
        (if p.s ≠ c.smooth then [.s (some (if c.smooth = 0 then none else some c.smooth))] else []) ++
        [.f refs true] ∧
      r.2 = { p with g := gk, m := mk, s := c.smooth } := by
  unfold emitCell at h
  simp only [Option.bind_eq_bind, Option.bind_eq_some_iff] at h
  obtain ⟨gk, h1, mk, h2, gs, h3, ms, h4, tc, h5, nc, h6, refs, h7, h8⟩ := h
  simp only [Option.some.injEq] at h8
  subst h8
  exact ⟨gk, mk, gs, ms, tc, nc, refs, h1, h2, h3, h4, h5, h6, h7, rfl, rfl⟩

/-- The lines of a cell: the facet, and no points. -/
theorem emitCell_spec {F : Fmt α} {M : Mesh α} {name : String} {pre : List (Line α)} {p : Pen} {c : WCell}
    {r : List (Line α) × Pen} (hw : Wrote F M pre p) (h : emitCell F M name p c = some r) :
    (∃ refs, facets r.1 = [refs] ∧ Says F M pre c refs) ∧ vPts r.1 = [] ∧ tPts r.1 = [] ∧ nPts r.1 = [] ∧
    names r.1 = [] ∧ r.2.v = p.v ∧ r.2.t = p.t ∧ r.2.n = p.n := by
  obtain ⟨gk, mk, gs, ms, tc, nc, refs, h1, h2, h3, h4, h5, h6, h7, h8, h9⟩ := emitCell_inv h
  rw [h8, h9]
  have e : ∀ q : Option (List Int), q.map (List.drop 0) = q := by intro q; cases q <;> simp
  have hs := refsOf_spec hw c tc nc h5 h6 0 c.conn refs (by simp) (by rw [e, e]; exact h7)
  simp only [Nat.zero_add] at hs
  refine ⟨⟨refs, ?_, hs⟩, ?_, ?_, ?_, ?_, rfl, rfl, rfl⟩
  · by_cases a : p.g = gk <;> by_cases b : p.m = mk <;> by_cases d : p.s = c.smooth <;>
      simp [a, b, d, facets]
  all_goals
    by_cases a : p.g = gk <;> by_cases b : p.m = mk <;> by_cases d : p.s = c.smooth <;>
      simp [a, b, d, vPts, tPts, nPts, names]

theorem Wrote.quiet {F : Fmt α} {M : Mesh α} {pre ls : List (Line α)} {p q : Pen} (h : Wrote F M pre p)
    (hv : vPts ls = []) (ht : tPts ls = []) (hn : nPts ls = []) (h1 : q.v = p.v) (h2 : q.t = p.t)
    (h3 : q.n = p.n) : Wrote F M (pre ++ ls) q := by
  constructor
  · rw [vPts_append, hv, List.append_nil, h1]; exact h.v
  · rw [tPts_append, ht, List.append_nil, h2]; exact h.t
  · rw [nPts_append, hn, List.append_nil, h3]; exact h.n

theorem emitCells_spec {F : Fmt α} {M : Mesh α} {name : String} (cs : List WCell) :
    ∀ (pre : List (Line α)) (p : Pen) (r : List (Line α) × Pen), Wrote F M pre p →
    emitCells F M name cs p = some r →
    List.Forall₂ (Says F M pre) cs (facets r.1) ∧ vPts r.1 = [] ∧ tPts r.1 = [] ∧ nPts r.1 = [] ∧
    names r.1 = [] ∧ r.2.v = p.v ∧ r.2.t = p.t ∧ r.2.n = p.n := by
  induction cs with
  | nil =>
    intro pre p r hw h
    simp only [emitCells, Option.some.injEq] at h
    subst h
    refine ⟨List.Forall₂.nil, rfl, rfl, rfl, rfl, rfl, rfl, rfl⟩
  | cons c cs ih =>
    intro pre p r hw h
    simp only [emitCells, Option.bind_eq_bind, Option.bind_eq_some_iff] at h
    obtain ⟨a, h1, b, h2, h3⟩ := h
    simp only [Option.some.injEq] at h3
    subst h3
    obtain ⟨⟨refs, f1, f2⟩, v1, t1, n1, o1, pv, pt, pn⟩ := emitCell_spec hw h1
    have hw' : Wrote F M pre a.2 := ⟨by rw [pv]; exact hw.v, by rw [pt]; exact hw.t, by rw [pn]; exact hw.n⟩
    obtain ⟨g1, v2, t2, n2, o2, qv, qt, qn⟩ := ih pre a.2 b hw' h2
    refine ⟨?_, ?_, ?_, ?_, ?_, qv.trans pv, qt.trans pt, qn.trans pn⟩
    · rw [facets_append, f1]
      exact List.Forall₂.cons f2 g1
    · rw [vPts_append, v1, v2]; rfl
    · rw [tPts_append, t1, t2]; rfl
    · rw [nPts_append, n1, n2]; rfl
    · rw [names_append, o1, o2]; rfl

/-- The texture line. -/
theorem tPts_vt (F : Fmt α) (p : Pt α) (ls : List (Line α)) : tPts (F.vt p :: ls) = F.tex p :: tPts ls := by
  unfold Fmt.vt Fmt.tex
  split <;> rfl

theorem quiet_of {f : Line α → Option (Pt α)} {ls : List (Line α)} {mk : Pt α → Line α}
    (h : ∀ l ∈ ls, ∃ p, l = mk p) (hf : ∀ p, f (mk p) = none) : ls.filterMap f = [] := by
  rw [List.filterMap_eq_nil_iff]
  intro l hl
  obtain ⟨p, rfl⟩ := h l hl
  exact hf p

theorem facets_of {ls : List (Line α)} {mk : Pt α → Line α}
    (h : ∀ l ∈ ls, ∃ p, l = mk p) (hf : ∀ p (q : List Ref × Bool), mk p ≠ .f q.1 q.2) : facets ls = [] := by
  unfold facets
  rw [List.filterMap_eq_nil_iff]
  intro l hl
  obtain ⟨p, rfl⟩ := h l hl
  have := hf p
  split
  · rename_i a b e
    exact absurd e (this (a, b))
  · rfl

/-- What an object of the file is. -/
structure Obj (F : Fmt α) (M : Mesh α) (pre : List (Line α)) (part : Int × String) (p : Pen)
    (r : Out α × Pen) : Prop where
  wrote : Wrote F M (pre ++ r.1.lines) r.2
  facet : List.Forall₂ (Says F M (pre ++ r.1.lines)) (regroup M (M.cells.filter fun c => c.pid == part.1))
    (facets r.1.lines)
  name : r.1.name = F.trim part.2
  vs : ∀ l ∈ r.1.vs, ∃ q, l = .v (F.three q) false
  ts : ∀ l ∈ r.1.ts, ∃ q, l = F.vt q
  ns : ∀ l ∈ r.1.ns, ∃ q, l = .vn (F.three q) false
  none : (M.cells.filter fun c => c.pid == part.1) = [] → F.bag [] = [] → r.1.vs = [] ∧ r.1.ts = [] ∧ r.1.ns = []
  body : ∃ q : Pen, Wrote F M (pre ++ (.obj r.1.name :: (r.1.vs ++ (r.1.ts ++ r.1.ns)))) q ∧
    q.g = -1000 ∧ q.m = p.m ∧ q.s = p.s ∧
    emitCells F M part.2 (regroup M (M.cells.filter fun c => c.pid == part.1)) q = some (r.1.body, r.2)

theorem writeObj_spec {F : Fmt α} {M : Mesh α} {pre : List (Line α)} {part : Int × String} {p : Pen}
    {r : Out α × Pen} (hw : Wrote F M pre p) (h : writeObj F M part p = some r) : Obj F M pre part p r := by
  unfold writeObj at h
  simp only [Option.bind_eq_bind, Option.bind_eq_some_iff] at h
  obtain ⟨a, h1, b, h2, c, h3, d, h4, h5⟩ := h
  simp only [Option.some.injEq] at h5
  subst h5
  obtain ⟨a1, a2⟩ := a
  obtain ⟨b1, b2⟩ := b
  obtain ⟨c1, c2⟩ := c
  obtain ⟨d1, d2⟩ := d
  obtain ⟨v1, -, -, v4⟩ := emitPts_spec _ _ F.pt vPts (fun q ls => rfl) rfl _ _ _ _ _ h1 hw.v
  obtain ⟨t1, -, -, t4⟩ := emitPts_spec _ _ F.tex tPts (tPts_vt F) rfl _ _ _ _ _ h2 hw.t
  obtain ⟨n1, -, -, n4⟩ := emitPts_spec _ _ F.pt nPts (fun q ls => rfl) rfl _ _ _ _ _ h3 hw.n
  have vt : ∀ q, F.vt q = .vt [F.rd q.1, F.rd q.2.1] true ∨ F.vt q = .vt (F.three q) false := by
    intro q; unfold Fmt.vt; split <;> simp
  have tv : tPts a1 = [] := quiet_of v4 (fun q => rfl)
  have nv : nPts a1 = [] := quiet_of v4 (fun q => rfl)
  have vt' : vPts b1 = [] := quiet_of t4 (fun q => by rcases vt q with e | e <;> rw [e])
  have nt : nPts b1 = [] := quiet_of t4 (fun q => by rcases vt q with e | e <;> rw [e])
  have vn : vPts c1 = [] := quiet_of n4 (fun q => rfl)
  have tn : tPts c1 = [] := quiet_of n4 (fun q => rfl)
  have fv : facets a1 = [] := facets_of v4 (fun q _ => by simp)
  have ft : facets b1 = [] := facets_of t4 (fun q _ => by rcases vt q with e | e <;> rw [e] <;> simp)
  have fn : facets c1 = [] := facets_of n4 (fun q _ => by simp)
  simp only at h4
  have hw' : Wrote F M (pre ++ (.obj (F.trim part.2) :: (a1 ++ (b1 ++ c1))))
      { p with v := a2, t := b2, n := c2, g := -1000 } := by
    constructor
    · rw [vPts_append, show vPts (.obj (F.trim part.2) :: (a1 ++ (b1 ++ c1))) = vPts a1 by
        show vPts (a1 ++ (b1 ++ c1)) = _
        rw [vPts_append, vPts_append, vt', vn]; simp]
      exact v1
    · rw [tPts_append, show tPts (.obj (F.trim part.2) :: (a1 ++ (b1 ++ c1))) = tPts b1 by
        show tPts (a1 ++ (b1 ++ c1)) = _
        rw [tPts_append, tPts_append, tv, tn]; simp]
      exact t1
    · rw [nPts_append, show nPts (.obj (F.trim part.2) :: (a1 ++ (b1 ++ c1))) = nPts c1 by
        show nPts (a1 ++ (b1 ++ c1)) = _
        rw [nPts_append, nPts_append, nv, nt]; simp]
      exact n1
  obtain ⟨g1, g2, g3, g4, g5, g6, g7, g8⟩ := emitCells_spec _ _ _ _ hw' h4
  have el : pre ++ (Out.lines ⟨F.trim part.2, a1, b1, c1, d1⟩) =
      (pre ++ (.obj (F.trim part.2) :: (a1 ++ (b1 ++ c1)))) ++ d1 := by
    simp [Out.lines]
  have hnone : (M.cells.filter fun c => c.pid == part.1) = [] → F.bag [] = [] → a1 = [] ∧ b1 = [] ∧ c1 = [] := by
    intro he hb
    rw [he] at h1 h2 h3
    have e2 : ∀ S : Option (Side α), sideVerts F S [] = [] := by
      intro S; cases S <;> simp [sideVerts, hb]
    rw [e2] at h2 h3
    simp only [List.flatMap_nil, hb, emitPts, Option.some.injEq, Prod.mk.injEq] at h1 h2 h3
    exact ⟨h1.1.symm, h2.1.symm, h3.1.symm⟩
  refine ⟨?_, ?_, rfl, v4, t4, n4, hnone,
    ⟨{ p with v := a2, t := b2, n := c2, g := -1000 }, hw', rfl, rfl, rfl, h4⟩⟩
  · show Wrote F M (pre ++ (Out.lines ⟨F.trim part.2, a1, b1, c1, d1⟩)) d2
    rw [el]
    exact hw'.quiet g2 g3 g4 g6 g7 g8
  · show List.Forall₂ (Says F M (pre ++ (Out.lines ⟨F.trim part.2, a1, b1, c1, d1⟩))) _
      (facets (Out.lines ⟨F.trim part.2, a1, b1, c1, d1⟩))
    rw [el]
    have : facets (Out.lines ⟨F.trim part.2, a1, b1, c1, d1⟩) = facets d1 := by
      show facets (a1 ++ (b1 ++ (c1 ++ d1))) = _
      rw [facets_append, facets_append, facets_append, fv, ft, fn]; rfl
    rw [this]
    exact g1.imp fun _ _ hs => hs.mono

/-- The order in which the cells are written. -/
def inOrder (M : Mesh α) (ps : List (Int × String)) : List WCell :=
  ps.flatMap fun part => regroup M (M.cells.filter fun c => c.pid == part.1)

theorem writeParts_spec {F : Fmt α} {M : Mesh α} (ps : List (Int × String)) :
    ∀ (pre : List (Line α)) (p : Pen) (os : List (Out α)), Wrote F M pre p →
    writeParts F M ps p = some os →
    List.Forall₂ (Says F M (pre ++ os.flatMap Out.lines)) (inOrder M ps) (facets (os.flatMap Out.lines)) ∧
    ∃ q, Wrote F M (pre ++ os.flatMap Out.lines) q := by
  induction ps with
  | nil =>
    intro pre p os hw h
    simp only [writeParts, Option.some.injEq] at h
    subst h
    exact ⟨List.Forall₂.nil, p, by simpa using hw⟩
  | cons part ps ih =>
    intro pre p os hw h
    simp only [writeParts, Option.bind_eq_bind, Option.bind_eq_some_iff] at h
    obtain ⟨a, h1, b, h2, h3⟩ := h
    simp only [Option.some.injEq] at h3
    subst h3
    have ho := writeObj_spec hw h1
    obtain ⟨i1, q, i2⟩ := ih _ a.2 b ho.wrote h2
    rw [List.append_assoc] at i1 i2
    refine ⟨?_, q, i2⟩
    rw [List.flatMap_cons, facets_append, inOrder, List.flatMap_cons]
    refine List.rel_append ?_ i1
    have := ho.facet
    refine this.imp fun _ _ hs => ?_
    rw [← List.append_assoc]
    exact hs.mono

theorem pid_perm {M : Mesh α} (ps : List (Int × String)) (hn : (ps.map Prod.fst).Nodup) :
    (inOrder M ps).Perm (M.cells.filter fun c => (ps.map Prod.fst).contains c.pid) := by
  induction ps with
  | nil => simp [inOrder]
  | cons part ps ih =>
    rw [List.map_cons, List.nodup_cons] at hn
    have h1 := C195_regroup M (M.cells.filter fun c => c.pid == part.1) (fun c hc => (List.mem_filter.1 hc).1)
    have h2 := ih hn.2
    rw [inOrder, List.flatMap_cons]
    refine (List.Perm.append h1 h2).trans ?_
    refine List.Perm.trans (List.Perm.of_eq ?_) (List.filter_append_perm (fun c => c.pid == part.1)
      (M.cells.filter fun c => ((part :: ps).map Prod.fst).contains c.pid))
    rw [List.filter_filter, List.filter_filter]
    congr 1
    · apply List.filter_congr
      intro c _
      by_cases e : c.pid = part.1 <;> simp [e]
    · apply List.filter_congr
      intro c _
      by_cases e : c.pid = part.1
      · have : (ps.map Prod.fst).contains c.pid = false := by
          rw [← Bool.not_eq_true, List.contains_iff_mem, e]; exact hn.1
        rw [this, e]
        simp
      · rw [Bool.eq_iff_iff]
        simp [e]

/-! ## C193: the facets written -/

/-- Every cell of a mesh has its facet in the file, and there are no other facets: the cells of the facets,
in the order of the file, are those of the mesh whose part is written, each once, and the numbers of a facet
stand for the points of the vertices of the cell. -/
theorem C193_facets (F : Fmt α) (M : Mesh α) (file : List (Line α)) (hn : (M.parts.map Prod.fst).Nodup)
    (h : write F M = some file) :
    ∃ cs, List.Perm cs (M.cells.filter fun c => (M.parts.map Prod.fst).contains c.pid) ∧
      List.Forall₂ (Says F M file) cs (facets file) := by
  unfold write at h
  simp only [Option.bind_eq_bind, Option.bind_eq_some_iff] at h
  obtain ⟨os, h1, h2⟩ := h
  simp only [Option.some.injEq] at h2
  subst h2
  have hw : Wrote F M [.other, .other, .other] {} :=
    ⟨List.Forall₂.nil, List.Forall₂.nil, List.Forall₂.nil⟩
  obtain ⟨i1, -⟩ := writeParts_spec M.parts _ _ os hw h1
  exact ⟨inOrder M M.parts, pid_perm M.parts hn, i1⟩

theorem emitPts_nodup (mk : Pt α → Line α) (verts : List (Int × Pt α)) (ids : List Int) :
    ∀ (seen : List Int) (r : List (Line α) × List Int), emitPts mk verts ids seen = some r → seen.Nodup →
      r.2.Nodup ∧ ∀ x ∈ r.2, x ∈ seen ∨ x ∈ ids := by
  induction ids with
  | nil =>
    intro seen r h hs
    simp only [emitPts, Option.some.injEq] at h
    subst h
    exact ⟨hs, fun x hx => Or.inl hx⟩
  | cons id ids ih =>
    intro seen r h hs
    rw [emitPts] at h
    by_cases hc : seen.contains id = true
    · rw [if_pos hc] at h
      obtain ⟨h1, h2⟩ := ih seen r h hs
      exact ⟨h1, fun x hx => (h2 x hx).imp_right fun h => by simp [h]⟩
    · rw [if_neg hc] at h
      simp only [Option.bind_eq_bind, Option.bind_eq_some_iff] at h
      obtain ⟨p, -, q, h2, h3⟩ := h
      simp only [Option.some.injEq] at h3
      subst h3
      have hn : (seen ++ [id]).Nodup := by
        refine List.nodup_append.2 ⟨hs, by simp, ?_⟩
        intro a ha b hb
        simp only [List.mem_singleton] at hb
        subst hb
        rintro rfl
        exact hc (by simpa using ha)
      obtain ⟨h4, h5⟩ := ih _ q h2 hn
      refine ⟨h4, fun x hx => ?_⟩
      rcases h5 x hx with h | h
      · rcases List.mem_append.1 h with h | h
        · exact Or.inl h
        · right; simp only [List.mem_singleton] at h; simp [h]
      · right; simp [h]

theorem writeObj_pts {F : Fmt α} {M : Mesh α} {pre : List (Line α)} {part : Int × String} {p : Pen}
    {r : Out α × Pen} (hw : Wrote F M pre p) (h : writeObj F M part p = some r) :
    emitPts (fun q => .v (F.three q) false) M.verts
      (F.bag ((M.cells.filter fun c => c.pid == part.1).flatMap WCell.conn)) p.v = some (r.1.vs, r.2.v) := by
  have ho := writeObj_spec hw h
  unfold writeObj at h
  simp only [Option.bind_eq_bind, Option.bind_eq_some_iff] at h
  obtain ⟨a, h1, b, h2, c, h3, d, h4, h5⟩ := h
  simp only [Option.some.injEq] at h5
  subst h5
  have pen : ∀ (cs : List WCell) (p : Pen) (r : List (Line α) × Pen),
      emitCells F M part.2 cs p = some r → r.2.v = p.v := by
    intro cs
    induction cs with
    | nil => intro p r h; simp only [emitCells, Option.some.injEq] at h; subst h; rfl
    | cons c cs ih =>
      intro p r h
      simp only [emitCells, Option.bind_eq_bind, Option.bind_eq_some_iff] at h
      obtain ⟨a, h1, b, h2, h3⟩ := h
      simp only [Option.some.injEq] at h3
      subst h3
      obtain ⟨gk, mk, gs, ms, tc, nc, refs, -, -, -, -, -, -, -, -, h9⟩ := emitCell_inv h1
      have := ih _ _ h2
      simp only
      rw [this, h9]
  have := pen _ _ _ h4
  simp only at this ⊢
  rw [this]
  exact h1

theorem writeParts_once {F : Fmt α} {M : Mesh α} (hb : ∀ l x, x ∈ F.bag l ↔ x ∈ l) (ps : List (Int × String)) :
    ∀ (pre : List (Line α)) (p : Pen) (os : List (Out α)), Wrote F M pre p → p.v.Nodup →
    writeParts F M ps p = some os →
    ∃ ids, ids.Nodup ∧ Seen M.verts F.pt ids (vPts (pre ++ os.flatMap Out.lines)) ∧
      ∀ x, x ∈ ids ↔ x ∈ p.v ∨ ∃ c ∈ M.cells, (∃ part ∈ ps, part.1 = c.pid) ∧ x ∈ c.conn := by
  induction ps with
  | nil =>
    intro pre p os hw hn h
    simp only [writeParts, Option.some.injEq] at h
    subst h
    exact ⟨p.v, hn, by simpa using hw.v, by simp⟩
  | cons part ps ih =>
    intro pre p os hw hn h
    simp only [writeParts, Option.bind_eq_bind, Option.bind_eq_some_iff] at h
    obtain ⟨a, h1, b, h2, h4⟩ := h
    simp only [Option.some.injEq] at h4
    subst h4
    have ho := writeObj_spec hw h1
    have he := writeObj_pts hw h1
    obtain ⟨n1, n2⟩ := emitPts_nodup _ _ _ _ _ he hn
    obtain ⟨-, m2, m3, -⟩ := emitPts_spec _ _ F.pt vPts (fun q ls => rfl) rfl _ _ _ _ _ he hw.v
    obtain ⟨ids, i1, i2, i3⟩ := ih _ a.2 b ho.wrote n1 h2
    refine ⟨ids, i1, by simpa using i2, fun x => ?_⟩
    have hcell : x ∈ F.bag ((M.cells.filter fun c => c.pid == part.1).flatMap WCell.conn) ↔
        ∃ c ∈ M.cells, part.1 = c.pid ∧ x ∈ c.conn := by
      rw [hb, List.mem_flatMap]
      constructor
      · rintro ⟨c, hc, hx⟩
        rw [List.mem_filter] at hc
        exact ⟨c, hc.1, (by simpa using hc.2 : c.pid = part.1).symm, hx⟩
      · rintro ⟨c, hc, hp, hx⟩
        exact ⟨c, List.mem_filter.2 ⟨hc, by simpa using hp.symm⟩, hx⟩
    rw [i3]
    constructor
    · rintro (hx | ⟨c, hc, ⟨q, hq, e⟩, hx⟩)
      · rcases n2 x hx with hx | hx
        · exact Or.inl hx
        · obtain ⟨c, hc, hp, hx⟩ := hcell.1 hx
          exact Or.inr ⟨c, hc, ⟨part, by simp, hp⟩, hx⟩
      · exact Or.inr ⟨c, hc, ⟨q, by simp [hq], e⟩, hx⟩
    · rintro (hx | ⟨c, hc, ⟨q, hq, e⟩, hx⟩)
      · exact Or.inl (m3 x hx)
      · rcases List.mem_cons.1 hq with rfl | hq
        · exact Or.inl (m2 x (hcell.2 ⟨c, hc, e, hx⟩))
        · exact Or.inr ⟨c, hc, ⟨q, hq, e⟩, hx⟩

/-- The points of the file are those of the vertices of the cells written, each vertex once even when
several parts share it. -/
theorem C193_once (F : Fmt α) (M : Mesh α) (file : List (Line α)) (hb : ∀ l x, x ∈ F.bag l ↔ x ∈ l)
    (h : write F M = some file) :
    ∃ ids, ids.Nodup ∧
      (∀ x, x ∈ ids ↔ ∃ c ∈ M.cells, (∃ part ∈ M.parts, part.1 = c.pid) ∧ x ∈ c.conn) ∧
      List.Forall₂ (fun id q => ∃ p, M.verts.lookup id = some p ∧ q = F.pt p) ids (vPts file) := by
  unfold write at h
  simp only [Option.bind_eq_bind, Option.bind_eq_some_iff] at h
  obtain ⟨os, h1, h2⟩ := h
  simp only [Option.some.injEq] at h2
  subst h2
  obtain ⟨ids, i1, i2, i3⟩ := writeParts_once hb M.parts [.other, .other, .other] {} os
    ⟨List.Forall₂.nil, List.Forall₂.nil, List.Forall₂.nil⟩ (by simp) h1
  exact ⟨ids, i1, fun x => by rw [i3]; simp, i2⟩

/-! ## C194: what is read back -/

/-- What has been read of the textures or of the normals of a cell with so many corners. -/
def BackSide (pts : List (Pt α)) (S : Option (Side α)) (f : Pt α → Pt α) (cell : Int) (n : Nat)
    (ks : List Int) : Prop :=
  match S with
  | none => ks = []
  | some S => ∃ conn, S.conn.lookup cell = some conn ∧ List.Forall₂ (Stands pts S.verts f) (conn.take n) ks

/-- The cell read is the cell of the mesh: its corners are at the points of the vertices, its textures and
normals are those of the corners, its PID is the place of its part. -/
structure Back (F : Fmt α) (M : Mesh α) (r : Res α) (c : WCell) (d : Cell) : Prop where
  conn : List.Forall₂ (Stands r.verts M.verts F.pt) c.conn d.conn
  txt : BackSide r.txts M.txt F.tex c.id c.conn.length d.txt
  nrm : BackSide r.nrms M.nrm F.pt c.id c.conn.length d.nrm
  pid : ∃ name, M.parts[d.pid]? = some (c.pid, name)

theorem forall₂_of {β γ : Type} {R : β → γ → Prop} : ∀ {a : List β} {b : List γ}, a.length = b.length →
    (∀ (i : Nat) x y, a[i]? = some x → b[i]? = some y → R x y) → List.Forall₂ R a b
  | [], [], _, _ => .nil
  | x :: a, y :: b, hl, h =>
    .cons (h 0 x y rfl rfl) (forall₂_of (by simpa using hl) fun i u v hu hv => h (i + 1) u v (by simpa) (by simpa))
  | [], _ :: _, hl, _ => by simp at hl
  | _ :: _, [], hl, _ => by simp at hl

theorem backSide_of {pts : List (Pt α)} {S : Option (Side α)} {f : Pt α → Pt α} {cell : Int}
    {refs : List Ref} {g : Ref → Option Int} (cnt : Nat)
    (h : ∀ i r, refs[i]? = some r → StandsSide pts S f cell i (g r)) (hne : refs ≠ []) :
    BackSide pts S f cell refs.length (refs.filterMap fun r => (g r).map (abs cnt)) := by
  unfold BackSide
  cases S with
  | none =>
    simp only [StandsSide] at h
    rw [List.filterMap_eq_nil_iff]
    intro r hr
    obtain ⟨i, hi⟩ := List.mem_iff_getElem?.1 hr
    rw [h i r hi]; rfl
  | some S =>
    simp only [StandsSide] at h
    have h0 : ∃ conn, S.conn.lookup cell = some conn := by
      cases refs with
      | nil => exact absurd rfl hne
      | cons r rs =>
        obtain ⟨conn, -, -, h1, -⟩ := h 0 r rfl
        exact ⟨conn, h1⟩
    obtain ⟨conn, hc⟩ := h0
    refine ⟨conn, hc, ?_⟩
    have hh : ∀ (i : Nat) r, refs[i]? = some r → ∃ id j, conn[i]? = some id ∧ g r = some j ∧ Stands pts S.verts f id j := by
      intro i r hr
      obtain ⟨cn, id, j, h1, h2, h3, h4⟩ := h i r hr
      rw [hc] at h1
      simp only [Option.some.injEq] at h1
      subst h1
      exact ⟨id, j, h2, h3, h4⟩
    have hm : (refs.filterMap fun r => (g r).map (abs cnt)) = refs.map fun r => (g r).getD 0 := by
      clear h hc hne
      have : ∀ r ∈ refs, (g r).map (abs cnt) = some ((g r).getD 0) := by
        intro r hr
        obtain ⟨i, hi⟩ := List.mem_iff_getElem?.1 hr
        obtain ⟨id, j, -, h3, ⟨p, -, h5, -⟩⟩ := hh i r hi
        rw [h3]
        simp only [Option.map_some, Option.getD_some, Option.some.injEq]
        unfold abs
        rw [if_neg (by omega)]
      clear hh
      induction refs with
      | nil => rfl
      | cons r rs ih =>
        rw [List.filterMap_cons, this r (by simp), List.map_cons]
        simp only
        rw [ih (fun q hq => this q (by simp [hq]))]
    rw [hm]
    apply forall₂_of
    · rw [List.length_take, List.length_map]
      have : refs.length ≤ conn.length := by
        cases hr : refs.length with
        | zero => omega
        | succ k =>
          obtain ⟨id, j, h2, -⟩ := hh k refs[k] (List.getElem?_eq_getElem (by omega))
          have := (List.getElem?_eq_some_iff.1 h2).1
          omega
      omega
    · intro i x y hx hy
      rw [List.getElem?_map, Option.map_eq_some_iff] at hy
      obtain ⟨r, hr, rfl⟩ := hy
      obtain ⟨id, j, h2, h3, h4⟩ := hh i r hr
      have hi : i < refs.length := (List.getElem?_eq_some_iff.1 hr).1
      rw [List.getElem?_take, if_pos hi, h2] at hx
      simp only [Option.some.injEq] at hx
      subst hx
      rw [h3]; exact h4

/-- A facet which stands for a cell, read after some lines. -/
theorem back_of {F : Fmt α} {M : Mesh α} {ign : Bool} {file A : List (Line α)} {c : WCell} {refs : List Ref}
    {r : Res α} (hr : Read ign file r) (h : Says F M file c refs) (hne : refs ≠ [])
    (hp : ∃ name, M.parts[(names A).length - 1]? = some (c.pid, name)) :
    Back F M r c (cellOf ign A refs) := by
  refine ⟨?_, ?_, ?_, hp⟩
  · rw [hr.verts]
    apply forall₂_of
    · simp [cellOf, h.1]
    · intro i x y hx hy
      simp only [cellOf, List.getElem?_map, Option.map_eq_some_iff] at hy
      obtain ⟨q, hq, rfl⟩ := hy
      obtain ⟨⟨id, h1, h2⟩, -, -⟩ := h.2 i q hq
      rw [hx] at h1
      simp only [Option.some.injEq] at h1
      subst h1
      have : abs (vPts A).length q.v = q.v := by
        obtain ⟨p, -, h5, -⟩ := h2
        unfold abs
        rw [if_neg (by omega)]
      rw [this]; exact h2
  · rw [hr.txts, ← h.1]
    exact backSide_of (g := Ref.t) (tPts A).length (fun i q hq => (h.2 i q hq).2.1) hne
  · rw [hr.nrms, ← h.1]
    exact backSide_of (g := Ref.n) (nPts A).length (fun i q hq => (h.2 i q hq).2.2) hne

/-- The cells read from lines which hold their facets. -/
theorem cells_back {F : Fmt α} {M : Mesh α} {ign : Bool} {file : List (Line α)} {r : Res α}
    (hr : Read ign file r) (pid : Int) (ls : List (Line α)) : ∀ (A : List (Line α)) (cs : List WCell),
    names ls = [] → List.Forall₂ (Says F M file) cs (facets ls) →
    (∀ c ∈ cs, 3 ≤ c.conn.length ∧ c.pid = pid) → (∃ name, M.parts[(names A).length - 1]? = some (pid, name)) →
    List.Forall₂ (Back F M r) cs (cellsOf ign A ls) := by
  induction ls with
  | nil =>
    intro A cs _ h _ _
    cases h
    exact .nil
  | cons l ls ih =>
    intro A cs hn h hc hp
    have hn' : names ls = [] := by
      cases l <;> simp_all [names]
    have hA : names (A ++ [l]) = names A := by
      rw [names_append]
      cases l <;> simp_all [names]
    cases l
    case f refs t =>
      cases h with
      | cons h1 h2 =>
        rename_i c cs
        obtain ⟨h3, rfl⟩ := hc c (by simp)
        rw [cellsOf, if_neg (by rw [h1.1]; omega)]
        refine .cons (back_of hr h1 ?_ hp) (ih _ cs hn' h2 (fun d hd => hc d (by simp [hd])) (by rw [hA]; exact hp))
        intro e
        have := h1.1
        rw [e] at this
        simp at this
        omega
    all_goals exact ih _ cs hn' h hc (by rw [hA]; exact hp)

theorem form_of {F : Fmt α} {M : Mesh α} {file : List (Line α)} {c : WCell} {refs : List Ref}
    (h : Says F M file c refs) : ∀ r ∈ refs, r.form = M.form := by
  intro r hr
  obtain ⟨i, hi⟩ := List.mem_iff_getElem?.1 hr
  obtain ⟨-, h2, h3⟩ := h.2 i r hi
  unfold Ref.form Mesh.form
  unfold StandsSide at h2 h3
  cases ht : M.txt <;> cases hn : M.nrm <;> rw [ht] at h2 <;> rw [hn] at h3 <;> simp only at h2 h3
  · rw [h2, h3]
  · obtain ⟨_, _, _, _, _, e, _⟩ := h3
    rw [h2, e]
  · obtain ⟨_, _, _, _, _, e, _⟩ := h2
    rw [h3, e]
  · obtain ⟨_, _, _, _, _, e, _⟩ := h2
    obtain ⟨_, _, _, _, _, e', _⟩ := h3
    rw [e, e']

theorem emitCells_plain {F : Fmt α} {M : Mesh α} {name : String} (cs : List WCell) :
    ∀ (pre : List (Line α)) (p : Pen) (r : List (Line α) × Pen), Wrote F M pre p →
    emitCells F M name cs p = some r → ∀ l ∈ r.1, Plain M.form l := by
  induction cs with
  | nil =>
    intro pre p r hw h
    simp only [emitCells, Option.some.injEq] at h
    subst h
    simp
  | cons c cs ih =>
    intro pre p r hw h
    simp only [emitCells, Option.bind_eq_bind, Option.bind_eq_some_iff] at h
    obtain ⟨a, h1, b, h2, h3⟩ := h
    simp only [Option.some.injEq] at h3
    subst h3
    obtain ⟨⟨refs, f1, f2⟩, v1, t1, n1, o1, pv, pt, pn⟩ := emitCell_spec hw h1
    have hw' : Wrote F M pre a.2 := ⟨by rw [pv]; exact hw.v, by rw [pt]; exact hw.t, by rw [pn]; exact hw.n⟩
    intro l hl
    rcases List.mem_append.1 hl with hl | hl
    · obtain ⟨gk, mk, gs, ms, tc, nc, refs', -, -, -, -, -, -, -, h8, -⟩ := emitCell_inv h1
      have hf : facets a.1 = [refs'] := by
        rw [h8]
        by_cases u : p.g = gk <;> by_cases v : p.m = mk <;> by_cases w : p.s = c.smooth <;>
          simp [u, v, w, facets]
      rw [f1] at hf
      simp only [List.cons.injEq, and_true] at hf
      subst hf
      rw [h8] at hl
      simp only [List.mem_append, List.mem_singleton] at hl
      rcases hl with ((hl | hl) | hl) | hl
      · split at hl
        · simp only [List.mem_singleton] at hl; subst hl; trivial
        · simp at hl
      · split at hl
        · simp only [List.mem_singleton] at hl; subst hl; trivial
        · simp at hl
      · split at hl
        · simp only [List.mem_singleton] at hl; subst hl; trivial
        · simp at hl
      · subst hl
        exact ⟨form_of f2, fun _ => rfl⟩
    · exact ih pre a.2 b hw' h2 l hl

/-- The object as the reader sees it. -/
def Out.sect (d : Nat) (o : Out α) : Sect α := ⟨o.name, [], o.vs, o.ts, o.ns, o.body, d⟩

theorem Out.sect_lines (d : Nat) (o : Out α) : (o.sect d).lines = o.lines := rfl

/-- The objects written are as the reader asks for. -/
theorem Obj.neat {F : Fmt α} {M : Mesh α} {pre : List (Line α)} {part : Int × String} {p : Pen} {r : Out α × Pen}
    (h : Obj F M pre part p r) (hb : F.bag [] = []) (huv : F.uv = false) : (r.1.sect M.form).Neat := by
  obtain ⟨q, hq, hg, -, -, hc⟩ := h.body
  refine ⟨by simp [Out.sect], ?_, ?_, ?_, ?_, ?_⟩
  · intro l hl
    obtain ⟨x, rfl⟩ := h.vs l hl
    simp [GoodV, Fmt.three]
  · intro l hl
    obtain ⟨x, rfl⟩ := h.ts l hl
    simp [Fmt.vt, huv, GoodT, Fmt.three]
  · intro l hl
    obtain ⟨x, rfl⟩ := h.ns l hl
    simp [GoodN, Fmt.three]
  · exact emitCells_plain _ _ _ _ hq hc
  · cases he : regroup M (M.cells.filter fun c => c.pid == part.1) with
    | nil =>
      left
      have hp := C195_regroup M (M.cells.filter fun c => c.pid == part.1) (fun c hc => (List.mem_filter.1 hc).1)
      rw [he] at hp
      exact h.none (List.Perm.nil_eq hp).symm hb
    | cons c cs =>
      right
      rw [he] at hc
      simp only [emitCells, Option.bind_eq_bind, Option.bind_eq_some_iff] at hc
      obtain ⟨a, h1, b, h2, h3⟩ := hc
      simp only [Option.some.injEq] at h3
      obtain ⟨gk, mk, gs, ms, tc, nc, refs', -, -, -, -, -, -, -, h8, -⟩ := emitCell_inv h1
      have h4 := congrArg Prod.fst h3
      simp only at h4
      rw [h8, if_pos (by rw [hg]; omega)] at h4
      simp only [List.cons_append, List.nil_append, List.append_assoc] at h4
      exact ⟨_, _, h4.symm, by simp⟩

theorem names_of {ls : List (Line α)} {mk : Pt α → Line α}
    (h : ∀ l ∈ ls, ∃ p, l = mk p) (hf : ∀ p q, mk p ≠ .obj q) : names ls = [] := by
  unfold names
  rw [List.filterMap_eq_nil_iff]
  intro l hl
  obtain ⟨p, rfl⟩ := h l hl
  have := hf p
  split
  · rename_i a e
    exact absurd e (this a)
  · rfl

theorem Obj.quiet_names {F : Fmt α} {M : Mesh α} {pre : List (Line α)} {part : Int × String} {p : Pen}
    {r : Out α × Pen} (h : Obj F M pre part p r) :
    names (r.1.vs ++ (r.1.ts ++ (r.1.ns ++ r.1.body))) = [] := by
  obtain ⟨q, hq, -, -, -, hc⟩ := h.body
  obtain ⟨-, -, -, -, h5, -⟩ := emitCells_spec _ _ _ _ hq hc
  rw [names_append, names_append, names_append, h5, names_of h.vs (by simp), names_of h.ns (by simp),
    names_of h.ts]
  · rfl
  · intro p q
    unfold Fmt.vt
    split <;> simp

/-- What is read back from the objects. -/
theorem writeParts_back {F : Fmt α} {M : Mesh α} {ign : Bool} {file : List (Line α)} {r : Res α}
    (hr : Read ign file r) (hb : F.bag [] = []) (huv : F.uv = false) (h3 : ∀ c ∈ M.cells, 3 ≤ c.conn.length)
    (ps : List (Int × String)) : ∀ (done : List (Int × String)) (pre : List (Line α)) (p : Pen) (os : List (Out α)),
    Wrote F M pre p → M.parts = done ++ ps → (names pre).length = done.length →
    writeParts F M ps p = some os → file = pre ++ os.flatMap Out.lines →
    List.Forall₂ (Back F M r) (inOrder M ps) (cellsOf ign pre (os.flatMap Out.lines)) := by
  induction ps with
  | nil =>
    intro done pre p os hw hd hn h hf
    simp only [writeParts, Option.some.injEq] at h
    subst h
    exact .nil
  | cons part ps ih =>
    intro done pre p os hw hd hn h hf
    simp only [writeParts, Option.bind_eq_bind, Option.bind_eq_some_iff] at h
    obtain ⟨a, h1, b, h2, h4⟩ := h
    simp only [Option.some.injEq] at h4
    subst h4
    have ho := writeObj_spec hw h1
    have hno := ho.quiet_names
    have hl : names a.1.lines = [a.1.name] := by
      show a.1.name :: names _ = _
      rw [hno]
    have hi := ih (done ++ [part]) (pre ++ a.1.lines) a.2 b ho.wrote (by simpa using hd)
      (by rw [names_append, hl]; simp [hn]) h2 (by rw [hf]; simp)
    rw [List.flatMap_cons, cellsOf_append, inOrder, List.flatMap_cons]
    refine List.rel_append ?_ hi
    show List.Forall₂ (Back F M r) _ (cellsOf ign (pre ++ [.obj a.1.name]) (a.1.vs ++ (a.1.ts ++ (a.1.ns ++ a.1.body))))
    refine cells_back hr part.1 _ _ _ hno ?_ ?_ ?_
    · have := ho.facet
      refine List.Forall₂.imp (fun _ _ hs => ?_) this
      rw [hf, List.flatMap_cons, ← List.append_assoc]
      exact hs.mono
    · intro c hc
      have hp := C195_regroup M (M.cells.filter fun c => c.pid == part.1) (fun c hc => (List.mem_filter.1 hc).1)
      have hm := hp.mem_iff.1 hc
      rw [List.mem_filter] at hm
      exact ⟨h3 c hm.1, by simpa using hm.2⟩
    · refine ⟨part.2, ?_⟩
      have : (names (pre ++ [(.obj a.1.name : Line α)])).length - 1 = done.length := by
        rw [names_append]
        simp [names, hn]
        show (names pre).length = _
        exact hn
      rw [this, hd]
      simp

theorem writeParts_neat {F : Fmt α} {M : Mesh α} (hb : F.bag [] = []) (huv : F.uv = false)
    (ps : List (Int × String)) : ∀ (pre : List (Line α)) (p : Pen) (os : List (Out α)), Wrote F M pre p →
    writeParts F M ps p = some os → ∀ S ∈ os.map (Out.sect M.form), S.Neat := by
  induction ps with
  | nil =>
    intro pre p os hw h
    simp only [writeParts, Option.some.injEq] at h
    subst h
    simp
  | cons part ps ih =>
    intro pre p os hw h
    simp only [writeParts, Option.bind_eq_bind, Option.bind_eq_some_iff] at h
    obtain ⟨a, h1, b, h2, h4⟩ := h
    simp only [Option.some.injEq] at h4
    subst h4
    have ho := writeObj_spec hw h1
    intro S hS
    rcases List.mem_cons.1 hS with rfl | hS
    · exact ho.neat hb huv
    · exact ih _ a.2 b ho.wrote h2 S hS

theorem wrote_nil (F : Fmt α) (M : Mesh α) : Wrote F M [.other, .other, .other] {} :=
  ⟨List.Forall₂.nil, List.Forall₂.nil, List.Forall₂.nil⟩

/-- A written file is as the reader asks for. -/
theorem write_neat {F : Fmt α} {M : Mesh α} (hb : F.bag [] = []) (huv : F.uv = false) {os : List (Out α)}
    (h : writeParts F M M.parts {} = some os) :
    NeatFile ([.other, .other, .other] ++ os.flatMap Out.lines) [.other, .other, .other]
      (os.map (Out.sect M.form)) := by
  refine ⟨?_, by simp, writeParts_neat hb huv M.parts _ _ os (wrote_nil F M) h⟩
  rw [List.flatMap_map]
  rfl

/-- A mesh written to a file and read again: every cell whose part is written comes back once, with its
corners at the points written, with the textures and the normals of its corners, in the part with the same
place.  What is missing: the coordinates are those of the digits written (`F.pt`), the textures need their
three coordinates, the cells come in another order and with other ids, and it is `read` itself which fails
when there are no textures or no normals (`C194_bare_fails`). -/
theorem C194_roundtrip_partial (F : Fmt α) (M : Mesh α) (ign : Bool) (file : List (Line α))
    (hb : F.bag [] = []) (huv : F.uv = false) (hn : (M.parts.map Prod.fst).Nodup)
    (h3 : ∀ c ∈ M.cells, 3 ≤ c.conn.length) (h : write F M = some file) :
    ∃ r cs, scanFile ign file = .ok r ∧
      List.Perm cs (M.cells.filter fun c => (M.parts.map Prod.fst).contains c.pid) ∧
      List.Forall₂ (Back F M r) cs r.cells := by
  unfold write at h
  simp only [Option.bind_eq_bind, Option.bind_eq_some_iff] at h
  obtain ⟨os, h1, h2⟩ := h
  simp only [Option.some.injEq] at h2
  obtain ⟨r, e, hr⟩ := scanFile_neat ign (write_neat hb huv h1)
  rw [h2] at e hr
  refine ⟨r, inOrder M M.parts, e, pid_perm M.parts hn, ?_⟩
  have := writeParts_back hr hb huv h3 M.parts [] [.other, .other, .other] {} os (wrote_nil F M) rfl rfl h1 h2.symm
  rw [hr.cells, ← h2]
  exact this

/-- When the mesh has no textures or no normals the file cannot be read. -/
theorem C194_bare_fails (F : Fmt α) (M : Mesh α) (ign : Bool) (file : List (Line α))
    (hb : F.bag [] = []) (huv : F.uv = false) (he : M.txt = none ∨ M.nrm = none) (h : write F M = some file) :
    readFile ign file = .error .null := by
  unfold write at h
  simp only [Option.bind_eq_bind, Option.bind_eq_some_iff] at h
  obtain ⟨os, h1, h2⟩ := h
  simp only [Option.some.injEq] at h2
  have hN := write_neat hb huv h1
  rw [h2] at hN
  apply C192_null_fails ign hN
  obtain ⟨-, q, hw⟩ := writeParts_spec M.parts _ _ os (wrote_nil F M) h1
  rw [h2] at hw
  have key : ∀ (f : Pt α → Pt α) (seen : List Int) (pts : List (Pt α)), Seen ([] : List (Int × Pt α)) f seen pts →
      pts = [] := by
    intro f seen pts hs
    cases hs with
    | nil => rfl
    | cons h _ => obtain ⟨p, hp, -⟩ := h; simp at hp
  rcases he with he | he
  · left
    have := hw.t
    rw [he] at this
    exact key _ _ _ this
  · right
    have := hw.n
    rw [he] at this
    exact key _ _ _ this

end Verif.Obj
