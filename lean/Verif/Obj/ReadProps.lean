import Verif.Obj.Model
/-!
# What is read from an OBJ file

The specification says what the lines of a file mean, from the lines which come before them, without the
counters, the offsets and the modes of the reader.
-/
namespace Verif.Obj

section Spec
variable {α : Type} [Zero α]

/-- The points of the `v` lines, in the order of the file. -/
def vPts (ls : List (Line α)) : List (Pt α) :=
  ls.filterMap fun | .v (x :: y :: z :: _) _ => some (x, y, z) | _ => none

/-- The points of the `vt` lines: one, two or three coordinates, the missing ones are zero. -/
def tPts (ls : List (Line α)) : List (Pt α) :=
  ls.filterMap fun
    | .vt [x] _ => some (x, 0, 0)
    | .vt [x, y] _ => some (x, y, 0)
    | .vt (x :: y :: z :: _) _ => some (x, y, z)
    | _ => none

/-- The points of the `vn` lines. -/
def nPts (ls : List (Line α)) : List (Pt α) :=
  ls.filterMap fun | .vn (x :: y :: z :: _) _ => some (x, y, z) | _ => none

/-- An object line. -/
def isObj : Line α → Bool
  | .obj _ => true
  | _ => false

/-- The lines after the last object line. -/
def chunk (ls : List (Line α)) : List (Line α) := (ls.reverse.takeWhile fun l => ! isObj l).reverse

/-- The names of the objects. -/
def names (ls : List (Line α)) : List String :=
  ls.filterMap fun | .obj s => some s | _ => none

/-- The last value said by a list of lines. -/
def last {β : Type} (d : β) (f : Line α → Option β) (ls : List (Line α)) : β :=
  ((ls.filterMap f).getLast?).getD d

/-- The number of a facet: from one on, or from the last one back. -/
def abs (count : Nat) (k : Int) : Int := if k < 0 then count + 1 + k else k

/-- The cell of a facet which comes after the lines `pre` of the file. -/
def cellOf (ign : Bool) (pre : List (Line α)) (refs : List Ref) : Cell where
  conn := refs.map fun r => abs (vPts pre).length r.v
  txt := refs.filterMap fun r => r.t.map (abs (tPts pre).length)
  nrm := refs.filterMap fun r => r.n.map (abs (nPts pre).length)
  pid := (names pre).length - 1
  mat := last "" (fun | .usemtl (w :: _) => some w | _ => none) (chunk pre)
  grp := if ign then "" else
    last "" (fun | .g (w :: _) => some (if some w = (names pre).getLast? then "" else w) | _ => none) (chunk pre)
  smooth := last 0 (fun | .s (some (some k)) => some k | .s _ => some 0 | _ => none) (chunk pre)

/-- The cells of the lines `ls` which come after the lines `pre`: one for every facet of at least three
vertices. -/
def cellsOf (ign : Bool) (pre : List (Line α)) : List (Line α) → List Cell
  | [] => []
  | .f refs t :: ls =>
    (if refs.length < 3 then [] else [cellOf ign pre refs]) ++ cellsOf ign (pre ++ [.f refs t]) ls
  | l :: ls => cellsOf ign (pre ++ [l]) ls

/-- Lines which are neither objects nor points; the facets have one form, and blanks
follow those without slashes. -/
def Plain (d : Nat) : Line α → Prop
  | .blank => True
  | .f refs t => (∀ r ∈ refs, r.form = d) ∧ (d = 0 → t = true)
  | .usemtl _ => True
  | .g _ => True
  | .s _ => True
  | .other => True
  | _ => False

/-- A `v` line with its three coordinates. -/
def GoodV : Line α → Prop
  | .v c _ => 3 ≤ c.length
  | _ => False

/-- A `vt` line with its three coordinates, or less of them and no blank at the end. -/
def GoodT : Line α → Prop
  | .vt c t => 3 ≤ c.length ∨ (c ≠ [] ∧ t = false)
  | _ => False

/-- A `vn` line with its three coordinates. -/
def GoodN : Line α → Prop
  | .vn c _ => 3 ≤ c.length
  | _ => False

/-- An object: its lines come in the order the class asks for. -/
structure Sect (α : Type) where
  name : String
  pre : List (Line α) := []
  vs : List (Line α)
  ts : List (Line α)
  ns : List (Line α)
  body : List (Line α)
  form : Nat

/-- The lines of an object. -/
def Sect.lines (S : Sect α) : List (Line α) :=
  .obj S.name :: (S.pre ++ (S.vs ++ (S.ts ++ (S.ns ++ S.body))))

/-- An object as the class asks for: `pre` and `body` hold no points, the points come in three blocks
without anything in between, no blank line follows the blocks. -/
structure Sect.Neat (S : Sect α) : Prop where
  pre : ∀ l ∈ S.pre, Plain S.form l
  vs : ∀ l ∈ S.vs, GoodV l
  ts : ∀ l ∈ S.ts, GoodT l
  ns : ∀ l ∈ S.ns, GoodN l
  body : ∀ l ∈ S.body, Plain S.form l
  after : (S.vs = [] ∧ S.ts = [] ∧ S.ns = []) ∨ ∃ l ls, S.body = l :: ls ∧ l ≠ .blank

/-- A whole file: a header without points, facets and objects, then the objects. -/
structure NeatFile (file : List (Line α)) (head : List (Line α)) (Ss : List (Sect α)) : Prop where
  eq : file = head ++ Ss.flatMap Sect.lines
  head : ∀ l ∈ head, match l with
    | .v _ _ => False | .vt _ _ => False | .vn _ _ => False | .f _ _ => False | .obj _ => False | _ => True
  neat : ∀ S ∈ Ss, S.Neat

end Spec

/-! ## Corners -/

/-- The corner of a word. -/
def Ref.corner (o : Offs) (r : Ref) : Corner :=
  ⟨shift o.v r.v, r.t.map (shift o.t), r.n.map (shift o.n)⟩

theorem corners_eq (d : Nat) (o : Offs) (t : Bool) (refs : List Ref) (h : ∀ r ∈ refs, r.form = d)
    (ht : d = 0 → t = true) :
    ∀ st, ∃ st', corners d o t (refs.flatMap Ref.toks) st = .ok (refs.map (Ref.corner o), st') := by
  induction refs with
  | nil => intro st; exact ⟨st, by simp [corners]⟩
  | cons r rs ih =>
    intro st
    have ih := ih (fun q hq => h q (by simp [hq]))
    have hr := h r (by simp)
    obtain ⟨v, rt, rn⟩ := r
    cases rt with
    | none =>
      cases rn with
      | none =>
        have hd : d = 0 := by simpa [Ref.form] using hr.symm
        subst hd
        have ht := ht rfl
        subst ht
        simp only [List.flatMap_cons, Ref.toks, Option.toList_none, List.append_nil, List.singleton_append,
          List.map_cons]
        obtain ⟨st', e⟩ := ih st
        generalize rs.flatMap Ref.toks = T at e ⊢
        refine ⟨st', ?_⟩
        match T, e with
        | [], e =>
          simp [corners] at e
          simp [corners, Ref.corner, e.1, e.2]
        | [a], e =>
          simp [corners] at e
          simp [corners, Ref.corner, bind, Except.bind, e.1, e.2]
        | a :: b :: c, e => simp only [corners, e, Ref.corner, bind, Except.bind]; rfl
      | some n =>
        have hd : d = 3 := by simpa [Ref.form] using hr.symm
        subst hd
        simp only [List.flatMap_cons, Ref.toks, Option.toList_none, Option.toList_some, List.nil_append,
          List.map_cons, List.cons_append]
        obtain ⟨st', e⟩ := ih { st with n := some n }
        generalize rs.flatMap Ref.toks = T at e ⊢
        refine ⟨st', ?_⟩
        match T, e with
        | [], e =>
          simp [corners] at e
          simp [corners, Ref.corner, e.1, e.2]
        | b :: c, e => simp only [corners, e, Ref.corner, bind, Except.bind]; rfl
    | some x =>
      cases rn with
      | none =>
        have hd : d = 1 := by simpa [Ref.form] using hr.symm
        subst hd
        simp only [List.flatMap_cons, Ref.toks, Option.toList_none, Option.toList_some, List.append_nil,
          List.map_cons, List.cons_append, List.nil_append]
        obtain ⟨st', e⟩ := ih { st with t := some x }
        generalize rs.flatMap Ref.toks = T at e ⊢
        refine ⟨st', ?_⟩
        match T, e with
        | [], e =>
          simp [corners] at e
          simp [corners, Ref.corner, e.1, e.2]
        | b :: c, e => simp only [corners, e, Ref.corner, bind, Except.bind]; rfl
      | some n =>
        have hd : d = 2 := by simpa [Ref.form] using hr.symm
        subst hd
        simp only [List.flatMap_cons, Ref.toks, Option.toList_some, List.singleton_append,
          List.map_cons, List.cons_append, List.nil_append]
        obtain ⟨st', e⟩ := ih { t := some x, n := some n }
        generalize rs.flatMap Ref.toks = T at e ⊢
        refine ⟨st', ?_⟩
        simp only [corners, e, Ref.corner, bind, Except.bind]; rfl

theorem shift_abs (m : Nat) (k : Int) : shift (m + 1) k = abs m k := by
  unfold shift abs
  split
  · push_cast; omega
  · rfl

/-! ## One line -/

section Steps
variable {α : Type} [Zero α]

theorem chunk_append (pre : List (Line α)) (l : Line α) (h : ∀ s, l ≠ .obj s) :
    chunk (pre ++ [l]) = chunk pre ++ [l] := by
  unfold chunk
  rw [List.reverse_append]
  have : (! isObj l) = true := by
    cases l <;> simp [isObj]
    exact absurd rfl (h _)
  simp [List.takeWhile_cons, this]

theorem chunk_obj (pre : List (Line α)) (s : String) : chunk (pre ++ [.obj s]) = [] := by
  unfold chunk
  simp [isObj]

theorem last_append {β : Type} (d : β) (f : Line α → Option β) (ls : List (Line α)) (l : Line α) :
    last d f (ls ++ [l]) = (f l).getD (last d f ls) := by
  unfold last
  rw [List.filterMap_append]
  cases h : f l <;> simp [h]

theorem cellsOf_append (ign : Bool) (a b : List (Line α)) :
    ∀ pre, cellsOf ign pre (a ++ b) = cellsOf ign pre a ++ cellsOf ign (pre ++ a) b := by
  induction a with
  | nil => intro pre; simp [cellsOf]
  | cons l ls ih =>
    intro pre
    cases l <;> simp [cellsOf, ih]

/-- The values of the chunk so far. -/
def matOf (ls : List (Line α)) : String := last "" (fun | .usemtl (w :: _) => some w | _ => none) (chunk ls)
def grpOf (ign : Bool) (ls : List (Line α)) : String := if ign then "" else
    last "" (fun | .g (w :: _) => some (if some w = (names ls).getLast? then "" else w) | _ => none) (chunk ls)
def smoothOf (ls : List (Line α)) : Int :=
  last 0 (fun | .s (some (some k)) => some k | .s _ => some 0 | _ => none) (chunk ls)

/-- What the reader knows after the lines `pre` of a file. -/
structure Tied (e : Env) (d : Nat) (pre : List (Line α)) (s : Loc α × Res α) : Prop where
  name : (names pre).getLast? = some e.name
  pid : (names pre).length = e.pid + 1
  verts : s.2.verts = vPts pre
  txts : s.2.txts = tPts pre
  nrms : s.2.nrms = nPts pre
  cells : s.2.cells = cellsOf e.ign [] pre
  mat : s.1.mat = matOf pre
  grp : s.1.grp = grpOf e.ign pre
  smooth : s.1.smooth = smoothOf pre
  form : s.1.form = none ∨ s.1.form = some d

theorem Tied.mode {e : Env} {d : Nat} {pre : List (Line α)} {s : Loc α × Res α} (h : Tied e d pre s)
    (m : Mode) : Tied e d pre ({ s.1 with mode := m }, s.2) :=
  ⟨h.name, h.pid, h.verts, h.txts, h.nrms, h.cells, h.mat, h.grp, h.smooth, h.form⟩

/-- A line which says nothing of the state. -/
theorem Tied.skip {e : Env} {d : Nat} {pre : List (Line α)} {s : Loc α × Res α} (h : Tied e d pre s)
    {l : Line α} (hl : l = .blank ∨ l = .other) : Tied e d (pre ++ [l]) s := by
  have hc : chunk (pre ++ [l]) = chunk pre ++ [l] := chunk_append _ _ (by rcases hl with rfl | rfl <;> simp)
  refine ⟨?_, ?_, ?_, ?_, ?_, ?_, ?_, ?_, ?_, h.form⟩
  · rw [← h.name]; rcases hl with rfl | rfl <;> simp [names]
  · rw [← h.pid]; rcases hl with rfl | rfl <;> simp [names]
  · rw [h.verts]; rcases hl with rfl | rfl <;> simp [vPts]
  · rw [h.txts]; rcases hl with rfl | rfl <;> simp [tPts]
  · rw [h.nrms]; rcases hl with rfl | rfl <;> simp [nPts]
  · rw [h.cells, cellsOf_append]; rcases hl with rfl | rfl <;> simp [cellsOf]
  · rw [h.mat, matOf, matOf, hc, last_append]; rcases hl with rfl | rfl <;> simp
  · rw [h.grp, grpOf, grpOf, hc, last_append]; rcases hl with rfl | rfl <;> simp [names]
  · rw [h.smooth, smoothOf, smoothOf, hc, last_append]; rcases hl with rfl | rfl <;> simp

/-- A group is never the name of the object, unless both are empty. -/
theorem grp_name (name : String) (ls : List (Line α)) (h : (names ls).getLast? = some name)
    (hg : last "" (fun | .g (w :: _) => some (if some w = (names ls).getLast? then "" else w) | _ => none)
      (chunk ls) = name) :
    "" = last "" (fun | .g (w :: _) => some (if some w = (names ls).getLast? then "" else w) | _ => none)
      (chunk ls) := by
  rw [h] at hg ⊢
  unfold last at hg ⊢
  cases hl : ((chunk ls).filterMap fun
      | .g (w :: _) => some (if some w = some name then "" else w) | _ => none).getLast? with
  | none => rfl
  | some x =>
    rw [hl] at hg
    have hx : x = name := hg
    have hm := List.mem_of_getLast? hl
    rw [List.mem_filterMap] at hm
    obtain ⟨l, _, hl'⟩ := hm
    match l, hl' with
    | .g (w :: _), hl' =>
      simp only [Option.some.injEq] at hl'
      show "" = x
      split at hl'
      · exact hl'
      · rename_i hne
        exact absurd (hl'.trans hx) hne

/-- The switch on a plain line. -/
theorem dispatch_plain {e : Env} {d : Nat} {pre : List (Line α)} {s : Loc α × Res α} (h : Tied e d pre s)
    {l : Line α} (hl : Plain d l) :
    ∃ s', dispatch e l s = .ok (s', false) ∧ s'.1.mode = s.1.mode ∧ Tied e d (pre ++ [l]) s' := by
  match l, hl with
  | .blank, _ => exact ⟨s, rfl, rfl, h.skip (Or.inl rfl)⟩
  | .other, _ => exact ⟨s, rfl, rfl, h.skip (Or.inr rfl)⟩
  | .usemtl ws, _ =>
    have hc := chunk_append pre (.usemtl ws) (by simp)
    refine ⟨_, rfl, rfl, ?_⟩
    refine ⟨?_, ?_, ?_, ?_, ?_, ?_, ?_, ?_, ?_, h.form⟩
    · rw [← h.name]; simp [names]
    · rw [← h.pid]; simp [names]
    · simp [h.verts, vPts]
    · simp [h.txts, tPts]
    · simp [h.nrms, nPts]
    · simp [h.cells, cellsOf_append, cellsOf]
    · cases ws <;> simp [h.mat, matOf, hc, last_append]
    · simp only [h.grp, grpOf, hc, last_append]; simp [names]
    · simp only [h.smooth, smoothOf, hc, last_append]; simp
  | .g ws, _ =>
    have hc := chunk_append pre (.g ws) (by simp)
    cases hi : e.ign with
    | true =>
      refine ⟨s, by simp [dispatch, hi], rfl, ?_⟩
      refine ⟨?_, ?_, ?_, ?_, ?_, ?_, ?_, ?_, ?_, h.form⟩
      · rw [← h.name]; simp [names]
      · rw [← h.pid]; simp [names]
      · simp [h.verts, vPts]
      · simp [h.txts, tPts]
      · simp [h.nrms, nPts]
      · simp [h.cells, cellsOf_append, cellsOf]
      · simp only [h.mat, matOf, hc, last_append]; simp
      · simp [h.grp, grpOf, hi]
      · simp only [h.smooth, smoothOf, hc, last_append]; simp
    | false =>
      refine ⟨({ s.1 with grp := if ws.headD s.1.grp = e.name then "" else ws.headD s.1.grp }, s.2),
        by simp [dispatch, hi], rfl, ?_⟩
      refine ⟨?_, ?_, ?_, ?_, ?_, ?_, ?_, ?_, ?_, h.form⟩
      · rw [← h.name]; simp [names]
      · rw [← h.pid]; simp [names]
      · simp [h.verts, vPts]
      · simp [h.txts, tPts]
      · simp [h.nrms, nPts]
      · simp [h.cells, cellsOf_append, cellsOf]
      · simp only [h.mat, matOf, hc, last_append]; simp
      · simp only [grpOf, hc, last_append, hi]
        have hn : names (pre ++ [.g ws]) = names pre := by simp [names]
        rw [hn]
        cases ws with
        | cons w ws => simp [h.name]
        | nil =>
          have hg := h.grp
          simp only [grpOf, hi] at hg
          rw [List.headD_nil]
          by_cases hq : s.1.grp = e.name
          · rw [if_pos hq]
            have h2 := grp_name e.name pre h.name
            rw [hg] at hq
            simpa using h2 (by simpa using hq)
          · rw [if_neg hq]
            simpa using hg
      · simp only [h.smooth, smoothOf, hc, last_append]; simp
  | .s w, _ =>
    have hc := chunk_append pre (.s w) (by simp)
    refine ⟨_, rfl, rfl, ?_⟩
    refine ⟨?_, ?_, ?_, ?_, ?_, ?_, ?_, ?_, ?_, h.form⟩
    · rw [← h.name]; simp [names]
    · rw [← h.pid]; simp [names]
    · simp [h.verts, vPts]
    · simp [h.txts, tPts]
    · simp [h.nrms, nPts]
    · simp [h.cells, cellsOf_append, cellsOf]
    · simp only [h.mat, matOf, hc, last_append]; simp
    · simp only [h.grp, grpOf, hc, last_append]; simp [names]
    · simp only [smoothOf, hc, last_append]
      rcases w with _ | _ | k <;> simp
  | .f refs t, hl =>
    have hc := chunk_append pre (.f refs t) (by simp)
    obtain ⟨h1, h2⟩ := hl
    have key : ∀ s' : Loc α × Res α, s'.1.mat = s.1.mat → s'.1.grp = s.1.grp → s'.1.smooth = s.1.smooth →
        s'.2.verts = s.2.verts → s'.2.txts = s.2.txts → s'.2.nrms = s.2.nrms →
        s'.2.cells = s.2.cells ++ (if refs.length < 3 then [] else [cellOf e.ign pre refs]) →
        (s'.1.form = none ∨ s'.1.form = some d) → Tied e d (pre ++ [.f refs t]) s' := by
      intro s' a b c v w x y z
      refine ⟨?_, ?_, ?_, ?_, ?_, ?_, ?_, ?_, ?_, z⟩
      · rw [← h.name]; simp [names]
      · rw [← h.pid]; simp [names]
      · simp [v, h.verts, vPts]
      · simp [w, h.txts, tPts]
      · simp [x, h.nrms, nPts]
      · simp [y, h.cells, cellsOf_append, cellsOf]
      · simp only [a, h.mat, matOf, hc, last_append]; simp
      · simp only [b, h.grp, grpOf, hc, last_append]; simp [names]
      · simp only [c, h.smooth, smoothOf, hc, last_append]; simp
    cases refs with
    | nil =>
      obtain ⟨st', ec⟩ := corners_eq d (offs s.2) t [] h1 h2 s.1.stale
      simp only [List.flatMap_nil] at ec
      rcases h.form with hf | hf
      · refine ⟨s, by simp [dispatch, facet, formOf, hf, bind, Except.bind], rfl, ?_⟩
        exact key s rfl rfl rfl rfl rfl rfl (by simp) h.form
      · refine ⟨({ s.1 with form := some d, stale := st' }, s.2),
          by simp [dispatch, facet, formOf, hf, ec, bind, Except.bind], rfl, ?_⟩
        exact key _ rfl rfl rfl rfl rfl rfl (by simp) (Or.inr rfl)
    | cons r rs =>
      obtain ⟨st', ec⟩ := corners_eq d (offs s.2) t (r :: rs) h1 h2 s.1.stale
      have hd : formOf s.1.form (r :: rs) = some d := by
        rcases h.form with hf | hf
        · simp [formOf, hf, h1 r (by simp)]
        · simp [formOf, hf]
      by_cases hlt : (r :: rs).length < 3
      · refine ⟨({ s.1 with form := some d, stale := st' }, s.2), ?_, rfl, ?_⟩
        · simp only [dispatch, facet, hd, ec, bind, Except.bind, List.length_map]
          rw [if_pos hlt]
        · exact key _ rfl rfl rfl rfl rfl rfl (by rw [if_pos hlt]; simp) (Or.inr rfl)
      · refine ⟨({ s.1 with form := some d, stale := st' },
          { s.2 with cells := s.2.cells ++ [cellOf e.ign pre (r :: rs)] }), ?_, rfl, ?_⟩
        · simp only [dispatch, facet, hd, ec, bind, Except.bind, List.length_map]
          rw [if_neg hlt]
          have : cellOf e.ign pre (r :: rs) = ⟨((r :: rs).map (Ref.corner (offs s.2))).map Corner.v,
              ((r :: rs).map (Ref.corner (offs s.2))).filterMap Corner.t,
              ((r :: rs).map (Ref.corner (offs s.2))).filterMap Corner.n, e.pid,
              s.1.mat, s.1.grp, s.1.smooth⟩ := by
            unfold cellOf
            simp only [Cell.mk.injEq, List.map_map, List.filterMap_map]
            have h0 : (Corner.v ∘ Ref.corner (offs s.2)) = fun q => abs (vPts pre).length q.v := by
              funext q; simp [Ref.corner, offs, shift_abs, h.verts]
            have h1 : (Corner.t ∘ Ref.corner (offs s.2)) = fun q => q.t.map (abs (tPts pre).length) := by
              funext q; obtain ⟨_, b, _⟩ := q; cases b <;> simp [Ref.corner, offs, shift_abs, h.txts]
            have h2 : (Corner.n ∘ Ref.corner (offs s.2)) = fun q => q.n.map (abs (nPts pre).length) := by
              funext q; obtain ⟨_, _, b⟩ := q; cases b <;> simp [Ref.corner, offs, shift_abs, h.nrms]
            rw [h0, h1, h2]
            exact ⟨rfl, rfl, rfl, by rw [h.pid]; rfl, h.mat.symm, h.grp.symm, h.smooth.symm⟩
          rw [this]
        · exact key _ rfl rfl rfl rfl rfl rfl (by rw [if_neg hlt]) (Or.inr rfl)

/-- The reader is between two turns of its loop, or just past the last line of a block. -/
def Mode.Ready : Mode → Prop
  | .idle => True
  | .inV k => k = 0
  | .inT k => k = 0
  | .inN k => k = 0

/-- A line of points. -/
theorem Tied.point {e : Env} {d : Nat} {pre : List (Line α)} {s s' : Loc α × Res α} (h : Tied e d pre s)
    {l : Line α} (hl : GoodV l ∨ GoodT l ∨ GoodN l)
    (hv : s'.2.verts = vPts (pre ++ [l])) (ht : s'.2.txts = tPts (pre ++ [l]))
    (hn : s'.2.nrms = nPts (pre ++ [l])) (hc : s'.2.cells = s.2.cells) (hm : s'.1.mat = s.1.mat)
    (hg : s'.1.grp = s.1.grp) (hs : s'.1.smooth = s.1.smooth) (hf : s'.1.form = s.1.form) :
    Tied e d (pre ++ [l]) s' := by
  have ho : ∀ q, l ≠ .obj q := by rintro q rfl; rcases hl with hl | hl | hl <;> exact hl
  have hcc := chunk_append pre l ho
  have hnm : names (pre ++ [l]) = names pre := by
    cases l <;> simp_all [names]
  refine ⟨by rw [hnm]; exact h.name, by rw [hnm]; exact h.pid, hv, ht, hn, ?_, ?_, ?_, ?_, by rw [hf]; exact h.form⟩
  · rw [hc, h.cells, cellsOf_append]
    cases l <;> simp_all [cellsOf, GoodV, GoodT, GoodN]
  · rw [hm, h.mat, matOf, matOf, hcc, last_append]
    cases l <;> simp_all [GoodV, GoodT, GoodN]
  · rw [hg, h.grp, grpOf, grpOf, hcc, last_append, hnm]
    cases l <;> simp_all [GoodV, GoodT, GoodN]
  · rw [hs, h.smooth, smoothOf, smoothOf, hcc, last_append]
    cases l <;> simp_all [GoodV, GoodT, GoodN]

theorem absorbV_good {e : Env} {d : Nat} {pre : List (Line α)} {s : Loc α × Res α} (h : Tied e d pre s)
    {l : Line α} (hl : GoodV l) : ∃ s', absorbV l s = .ok s' ∧ Tied e d (pre ++ [l]) s' := by
  match l, hl with
  | .v (x :: y :: z :: c) t, hl =>
    refine ⟨_, rfl, h.point (Or.inl hl) ?_ ?_ ?_ rfl rfl rfl rfl rfl⟩
    · simp [h.verts, vPts]
    · simp [h.txts, tPts]
    · simp [h.nrms, nPts]
  | .v [] t, hl => simp [GoodV] at hl
  | .v [_] t, hl => simp [GoodV] at hl
  | .v [_, _] t, hl => simp [GoodV] at hl

theorem absorbN_good {e : Env} {d : Nat} {pre : List (Line α)} {s : Loc α × Res α} (h : Tied e d pre s)
    {l : Line α} (hl : GoodN l) : ∃ s', absorbN l s = .ok s' ∧ Tied e d (pre ++ [l]) s' := by
  match l, hl with
  | .vn (x :: y :: z :: c) t, hl =>
    refine ⟨_, rfl, h.point (Or.inr (Or.inr hl)) ?_ ?_ ?_ rfl rfl rfl rfl rfl⟩
    · simp [h.verts, vPts]
    · simp [h.txts, tPts]
    · simp [h.nrms, nPts]
  | .vn [] t, hl => simp [GoodN] at hl
  | .vn [_] t, hl => simp [GoodN] at hl
  | .vn [_, _] t, hl => simp [GoodN] at hl

theorem absorbT_good {e : Env} {d : Nat} {pre : List (Line α)} {s : Loc α × Res α} (h : Tied e d pre s)
    {l : Line α} (hl : GoodT l) : ∃ s', absorbT l s = .ok s' ∧ Tied e d (pre ++ [l]) s' := by
  match l, hl with
  | .vt (x :: y :: z :: c) t, hl =>
    refine ⟨_, rfl, h.point (Or.inr (Or.inl hl)) ?_ ?_ ?_ rfl rfl rfl rfl rfl⟩
    · simp [h.verts, vPts]
    · simp [h.txts, tPts]
    · simp [h.nrms, nPts]
  | .vt [x] t, hl =>
    have ht : t = false := by simpa [GoodT] using hl
    subst ht
    refine ⟨_, rfl, h.point (Or.inr (Or.inl hl)) ?_ ?_ ?_ rfl rfl rfl rfl rfl⟩
    · simp [h.verts, vPts]
    · simp [h.txts, tPts]
    · simp [h.nrms, nPts]
  | .vt [x, y] t, hl =>
    have ht : t = false := by simpa [GoodT] using hl
    subst ht
    refine ⟨_, rfl, h.point (Or.inr (Or.inl hl)) ?_ ?_ ?_ rfl rfl rfl rfl rfl⟩
    · simp [h.verts, vPts]
    · simp [h.txts, tPts]
    · simp [h.nrms, nPts]
  | .vt [] t, hl => simp [GoodT] at hl

/-- The rest of a block of `v` lines. -/
theorem run_inV {e : Env} {d : Nat} (tail : List (Line α)) (vs : List (Line α)) :
    ∀ (pre : List (Line α)) (s : Loc α × Res α), Tied e d pre s → (∀ l ∈ vs, GoodV l) →
      s.1.mode = .inV vs.length →
      ∃ s', readObj e (vs ++ tail) s = readObj e tail s' ∧ Tied e d (pre ++ vs) s' ∧ s'.1.mode = .inV 0 := by
  induction vs with
  | nil => intro pre s h _ hm; exact ⟨s, rfl, by simpa using h, hm⟩
  | cons l ls ih =>
    intro pre s h hg hm
    have hl := hg l (by simp)
    obtain ⟨s', e1, h1⟩ := absorbV_good h hl
    obtain ⟨s'', e2, h2, h3⟩ := ih (pre ++ [l]) ({ s'.1 with mode := .inV ls.length }, s'.2) (h1.mode _)
      (fun q hq => hg q (by simp [hq])) rfl
    refine ⟨s'', ?_, by simpa using h2, h3⟩
    rw [← e2, List.cons_append, readObj]
    have : line e l s = .ok (({ s'.1 with mode := .inV ls.length }, s'.2), false) := by
      unfold line
      rw [hm]
      match l, hl with
      | .v c t, _ => simp [e1, bind, Except.bind]
    simp [this, bind, Except.bind]

theorem run_inT {e : Env} {d : Nat} (tail : List (Line α)) (vs : List (Line α)) :
    ∀ (pre : List (Line α)) (s : Loc α × Res α), Tied e d pre s → (∀ l ∈ vs, GoodT l) →
      s.1.mode = .inT vs.length →
      ∃ s', readObj e (vs ++ tail) s = readObj e tail s' ∧ Tied e d (pre ++ vs) s' ∧ s'.1.mode = .inT 0 := by
  induction vs with
  | nil => intro pre s h _ hm; exact ⟨s, rfl, by simpa using h, hm⟩
  | cons l ls ih =>
    intro pre s h hg hm
    have hl := hg l (by simp)
    obtain ⟨s', e1, h1⟩ := absorbT_good h hl
    obtain ⟨s'', e2, h2, h3⟩ := ih (pre ++ [l]) ({ s'.1 with mode := .inT ls.length }, s'.2) (h1.mode _)
      (fun q hq => hg q (by simp [hq])) rfl
    refine ⟨s'', ?_, by simpa using h2, h3⟩
    rw [← e2, List.cons_append, readObj]
    have : line e l s = .ok (({ s'.1 with mode := .inT ls.length }, s'.2), false) := by
      unfold line
      rw [hm]
      match l, hl with
      | .vt c t, _ => simp [e1, bind, Except.bind]
    simp [this, bind, Except.bind]

theorem run_inN {e : Env} {d : Nat} (tail : List (Line α)) (vs : List (Line α)) :
    ∀ (pre : List (Line α)) (s : Loc α × Res α), Tied e d pre s → (∀ l ∈ vs, GoodN l) →
      s.1.mode = .inN vs.length →
      ∃ s', readObj e (vs ++ tail) s = readObj e tail s' ∧ Tied e d (pre ++ vs) s' ∧ s'.1.mode = .inN 0 := by
  induction vs with
  | nil => intro pre s h _ hm; exact ⟨s, rfl, by simpa using h, hm⟩
  | cons l ls ih =>
    intro pre s h hg hm
    have hl := hg l (by simp)
    obtain ⟨s', e1, h1⟩ := absorbN_good h hl
    obtain ⟨s'', e2, h2, h3⟩ := ih (pre ++ [l]) ({ s'.1 with mode := .inN ls.length }, s'.2) (h1.mode _)
      (fun q hq => hg q (by simp [hq])) rfl
    refine ⟨s'', ?_, by simpa using h2, h3⟩
    rw [← e2, List.cons_append, readObj]
    have : line e l s = .ok (({ s'.1 with mode := .inN ls.length }, s'.2), false) := by
      unfold line
      rw [hm]
      match l, hl with
      | .vn c t, _ => simp [e1, bind, Except.bind]
    simp [this, bind, Except.bind]

/-- The block of the `v` lines. -/
theorem run_vs {e : Env} {d : Nat} (tail vs pre : List (Line α)) (s : Loc α × Res α) (h : Tied e d pre s)
    (hg : ∀ l ∈ vs, GoodV l) (hm : s.1.mode = .idle) (hc : e.cnt.v = vs.length) :
    ∃ s', readObj e (vs ++ tail) s = readObj e tail s' ∧ Tied e d (pre ++ vs) s' ∧
      (s'.1.mode = .idle ∧ vs = [] ∨ s'.1.mode = .inV 0 ∧ vs ≠ []) := by
  cases vs with
  | nil => exact ⟨s, rfl, by simpa using h, Or.inl ⟨hm, rfl⟩⟩
  | cons l ls =>
    have hl := hg l (by simp)
    obtain ⟨s', e1, h1⟩ := absorbV_good h hl
    obtain ⟨s'', e2, h2, h3⟩ := run_inV tail ls (pre ++ [l]) ({ s'.1 with mode := .inV ls.length }, s'.2)
      (h1.mode _) (fun q hq => hg q (by simp [hq])) rfl
    refine ⟨s'', ?_, by simpa using h2, Or.inr ⟨h3, by simp⟩⟩
    rw [← e2, List.cons_append, readObj]
    have : line e l s = .ok (({ s'.1 with mode := .inV ls.length }, s'.2), false) := by
      unfold line
      rw [hm]
      match l, hl with
      | .v c t, _ => simp [stageV, hc, e1, bind, Except.bind]
    simp [this, bind, Except.bind]

/-- The block of the `vt` lines. -/
theorem run_ts {e : Env} {d : Nat} (tail vs pre : List (Line α)) (s : Loc α × Res α) (h : Tied e d pre s)
    (hg : ∀ l ∈ vs, GoodT l) (hm : s.1.mode = .idle ∨ s.1.mode = .inV 0) (hc : e.cnt.t = vs.length) :
    ∃ s', readObj e (vs ++ tail) s = readObj e tail s' ∧ Tied e d (pre ++ vs) s' ∧
      (s'.1.mode = s.1.mode ∧ vs = [] ∨ s'.1.mode = .inT 0 ∧ vs ≠ []) := by
  cases vs with
  | nil => exact ⟨s, rfl, by simpa using h, Or.inl ⟨rfl, rfl⟩⟩
  | cons l ls =>
    have hl := hg l (by simp)
    obtain ⟨s', e1, h1⟩ := absorbT_good h hl
    obtain ⟨s'', e2, h2, h3⟩ := run_inT tail ls (pre ++ [l]) ({ s'.1 with mode := .inT ls.length }, s'.2)
      (h1.mode _) (fun q hq => hg q (by simp [hq])) rfl
    refine ⟨s'', ?_, by simpa using h2, Or.inr ⟨h3, by simp⟩⟩
    rw [← e2, List.cons_append, readObj]
    have : line e l s = .ok (({ s'.1 with mode := .inT ls.length }, s'.2), false) := by
      unfold line
      match l, hl with
      | .vt c t, _ =>
        rcases hm with hm | hm <;> rw [hm] <;> simp [stageV, stageT, hc, e1, bind, Except.bind]
    simp [this, bind, Except.bind]

/-- The block of the `vn` lines. -/
theorem run_ns {e : Env} {d : Nat} (tail vs pre : List (Line α)) (s : Loc α × Res α) (h : Tied e d pre s)
    (hg : ∀ l ∈ vs, GoodN l) (hm : s.1.mode = .idle ∨ s.1.mode = .inV 0 ∨ s.1.mode = .inT 0)
    (hc : e.cnt.n = vs.length) :
    ∃ s', readObj e (vs ++ tail) s = readObj e tail s' ∧ Tied e d (pre ++ vs) s' ∧
      (s'.1.mode = s.1.mode ∧ vs = [] ∨ s'.1.mode = .inN 0 ∧ vs ≠ []) := by
  cases vs with
  | nil => exact ⟨s, rfl, by simpa using h, Or.inl ⟨rfl, rfl⟩⟩
  | cons l ls =>
    have hl := hg l (by simp)
    obtain ⟨s', e1, h1⟩ := absorbN_good h hl
    obtain ⟨s'', e2, h2, h3⟩ := run_inN tail ls (pre ++ [l]) ({ s'.1 with mode := .inN ls.length }, s'.2)
      (h1.mode _) (fun q hq => hg q (by simp [hq])) rfl
    refine ⟨s'', ?_, by simpa using h2, Or.inr ⟨h3, by simp⟩⟩
    rw [← e2, List.cons_append, readObj]
    have : line e l s = .ok (({ s'.1 with mode := .inN ls.length }, s'.2), false) := by
      unfold line
      match l, hl with
      | .vn c t, _ =>
        rcases hm with hm | hm | hm <;> rw [hm] <;>
          simp [stageV, stageT, stageN, hc, e1, bind, Except.bind]
    simp [this, bind, Except.bind]

/-- Past the blocks, or between two turns, a line which is not of points goes to the switch. -/
theorem line_ready {e : Env} {s : Loc α × Res α} {l : Line α} (hm : s.1.mode.Ready) (hb : l ≠ .blank)
    (hv : ∀ c t, l ≠ .v c t) (ht : ∀ c t, l ≠ .vt c t) (hn : ∀ c t, l ≠ .vn c t) :
    line e l s = dispatch e l ({ s.1 with mode := .idle }, s.2) := by
  unfold line
  cases hs : s.1.mode with
  | idle => cases l <;> simp_all [stageV, stageT, stageN]
  | inV k =>
    have : k = 0 := by simpa [hs, Mode.Ready] using hm
    subst this
    cases l <;> simp_all [stageT, stageN]
  | inT k =>
    have : k = 0 := by simpa [hs, Mode.Ready] using hm
    subst this
    cases l <;> simp_all [stageN]
  | inN k =>
    have : k = 0 := by simpa [hs, Mode.Ready] using hm
    subst this
    cases l <;> simp_all

/-- Plain lines between two turns of the loop. -/
theorem run_plain {e : Env} {d : Nat} (tail ls : List (Line α)) :
    ∀ (pre : List (Line α)) (s : Loc α × Res α), Tied e d pre s → (∀ l ∈ ls, Plain d l) →
      s.1.mode = .idle →
      ∃ s', readObj e (ls ++ tail) s = readObj e tail s' ∧ Tied e d (pre ++ ls) s' ∧ s'.1.mode = .idle := by
  induction ls with
  | nil => intro pre s h _ hm; exact ⟨s, rfl, by simpa using h, hm⟩
  | cons l ls ih =>
    intro pre s h hg hm
    have hl := hg l (by simp)
    have hs : ({ s.1 with mode := Mode.idle }, s.2) = s := by rw [← hm]
    obtain ⟨s', e1, hm', h1⟩ : ∃ s', line e l s = .ok (s', false) ∧ s'.1.mode = .idle ∧
        Tied e d (pre ++ [l]) s' := by
      by_cases hb : l = .blank
      · subst hb
        exact ⟨s, by unfold line; rw [hm], hm, h.skip (Or.inl rfl)⟩
      · obtain ⟨s', e1, hm', h1⟩ := dispatch_plain h hl
        refine ⟨s', ?_, by rw [hm', hm], h1⟩
        rw [line_ready (by rw [hm]; trivial) hb, hs, e1]
        all_goals (rintro c t rfl; exact hl)
    obtain ⟨s'', e2, h2, h3⟩ := ih (pre ++ [l]) s' h1 (fun q hq => hg q (by simp [hq])) hm'
    refine ⟨s'', ?_, by simpa using h2, h3⟩
    rw [← e2, List.cons_append, readObj, e1]
    simp [bind, Except.bind]

/-- The lines after the blocks. -/
theorem run_body {e : Env} {d : Nat} (tail ls pre : List (Line α)) (s : Loc α × Res α) (h : Tied e d pre s)
    (hg : ∀ l ∈ ls, Plain d l) (hm : s.1.mode.Ready)
    (ha : s.1.mode = .idle ∨ ∃ l q, ls = l :: q ∧ l ≠ .blank) :
    ∃ s', readObj e (ls ++ tail) s = readObj e tail s' ∧ Tied e d (pre ++ ls) s' ∧ s'.1.mode = .idle := by
  by_cases hi : s.1.mode = .idle
  · exact run_plain tail ls pre s h hg hi
  · obtain ⟨l, q, rfl, hb⟩ := ha.resolve_left hi
    have hl := hg l (by simp)
    obtain ⟨s', e1, hm', h1⟩ := dispatch_plain (h.mode .idle) hl
    obtain ⟨s'', e2, h2, h3⟩ := run_plain tail q (pre ++ [l]) s' h1 (fun z hz => hg z (by simp [hz])) hm'
    refine ⟨s'', ?_, by simpa using h2, h3⟩
    rw [← e2, List.cons_append, readObj, line_ready hm hb, e1]
    · simp [bind, Except.bind]
    all_goals (rintro c t rfl; exact hl)

theorem objects_skip (a b : List (Line α)) (h : ∀ l ∈ a, isObj l = false) : objects (a ++ b) = objects b := by
  induction a with
  | nil => rfl
  | cons l ls ih =>
    have ih := ih fun q hq => h q (by simp [hq])
    have hl := h l (by simp)
    cases l <;> simp_all [objects, isObj]

theorem plain_obj {d : Nat} {l : Line α} (h : Plain d l) : isObj l = false := by
  cases l <;> simp_all [Plain, isObj]

theorem tally_plain {d : Nat} (a b : List (Line α)) (h : ∀ l ∈ a, Plain d l) : tally (a ++ b) = tally b := by
  induction a with
  | nil => rfl
  | cons l ls ih =>
    have ih := ih fun q hq => h q (by simp [hq])
    have hl := h l (by simp)
    cases l <;> simp_all [tally, Plain]

theorem tally_vs (a b : List (Line α)) (h : ∀ l ∈ a, GoodV l) :
    tally (a ++ b) = { tally b with v := (tally b).v + a.length } := by
  induction a with
  | nil => rfl
  | cons l ls ih =>
    have ih := ih fun q hq => h q (by simp [hq])
    have hl := h l (by simp)
    cases l <;> simp_all [tally, GoodV]
    omega

theorem tally_ts (a b : List (Line α)) (h : ∀ l ∈ a, GoodT l) :
    tally (a ++ b) = { tally b with t := (tally b).t + a.length } := by
  induction a with
  | nil => rfl
  | cons l ls ih =>
    have ih := ih fun q hq => h q (by simp [hq])
    have hl := h l (by simp)
    cases l <;> simp_all [tally, GoodT]
    omega

theorem tally_ns (a b : List (Line α)) (h : ∀ l ∈ a, GoodN l) :
    tally (a ++ b) = { tally b with n := (tally b).n + a.length } := by
  induction a with
  | nil => rfl
  | cons l ls ih =>
    have ih := ih fun q hq => h q (by simp [hq])
    have hl := h l (by simp)
    cases l <;> simp_all [tally, GoodN]
    omega

/-- What is known of the result after the lines `pre` of a file. -/
structure Read (ign : Bool) (pre : List (Line α)) (r : Res α) : Prop where
  verts : r.verts = vPts pre
  txts : r.txts = tPts pre
  nrms : r.nrms = nPts pre
  cells : r.cells = cellsOf ign [] pre

/-- An object in the file. -/
theorem readObj_neat (ign : Bool) (pid : Nat) (S : Sect α) (hS : S.Neat) (pre tail : List (Line α))
    (htail : tail = [] ∨ ∃ n q, tail = .obj n :: q) (r : Res α) (hr : Read ign pre r)
    (hp : (names pre).length = pid) :
    ∃ r', readObj ⟨S.name, pid, tally (S.pre ++ (S.vs ++ (S.ts ++ (S.ns ++ S.body))) ++ tail), ign⟩
      (S.pre ++ (S.vs ++ (S.ts ++ (S.ns ++ S.body))) ++ tail) ({}, r) = .ok r' ∧
      Read ign (pre ++ S.lines) r' := by
  have ht : tally tail = ⟨0, 0, 0⟩ := by rcases htail with rfl | ⟨n, q, rfl⟩ <;> rfl
  have hcnt : tally (S.pre ++ (S.vs ++ (S.ts ++ (S.ns ++ S.body))) ++ tail) =
      ⟨S.vs.length, S.ts.length, S.ns.length⟩ := by
    simp only [List.append_assoc]
    rw [tally_plain _ _ hS.pre, tally_vs _ _ hS.vs, tally_ts _ _ hS.ts, tally_ns _ _ hS.ns,
      tally_plain _ _ hS.body, ht]
    simp
  rw [hcnt]
  generalize he : (⟨S.name, pid, ⟨S.vs.length, S.ts.length, S.ns.length⟩, ign⟩ : Env) = e
  have hn : e.name = S.name := by rw [← he]
  have hi : e.ign = ign := by rw [← he]
  have hpid : e.pid = pid := by rw [← he]
  have hc : e.cnt = ⟨S.vs.length, S.ts.length, S.ns.length⟩ := by rw [← he]
  have h0 : Tied e S.form (pre ++ [.obj S.name]) (({} : Loc α), r) := by
    refine ⟨?_, ?_, ?_, ?_, ?_, ?_, ?_, ?_, ?_, Or.inl rfl⟩
    · simp [names, hn]
    · rw [hpid, ← hp]; simp [names]
    · simp [hr.verts, vPts]
    · simp [hr.txts, tPts]
    · simp [hr.nrms, nPts]
    · simp [hr.cells, hi, cellsOf_append, cellsOf]
    · simp [matOf, chunk_obj, last]
    · simp [grpOf, chunk_obj, last]
    · simp [smoothOf, chunk_obj, last]
  simp only [List.append_assoc]
  obtain ⟨s1, e1, h1, m1⟩ := run_plain (S.vs ++ (S.ts ++ (S.ns ++ (S.body ++ tail)))) S.pre _ _ h0 hS.pre rfl
  obtain ⟨s2, e2, h2, m2⟩ := run_vs (S.ts ++ (S.ns ++ (S.body ++ tail))) S.vs _ _ h1 hS.vs m1 (by rw [hc])
  obtain ⟨s3, e3, h3, m3⟩ := run_ts (S.ns ++ (S.body ++ tail)) S.ts _ _ h2 hS.ts
    (m2.elim (fun m => Or.inl m.1) fun m => Or.inr m.1) (by rw [hc])
  obtain ⟨s4, e4, h4, m4⟩ := run_ns (S.body ++ tail) S.ns _ _ h3 hS.ns
    (by
      rcases m3 with m | m
      · rw [m.1]; exact m2.elim (fun m => Or.inl m.1) fun m => Or.inr (Or.inl m.1)
      · exact Or.inr (Or.inr m.1)) (by rw [hc])
  have hready : s4.1.mode.Ready := by
    rcases m4 with m | m
    · rw [m.1]
      rcases m3 with m | m
      · rw [m.1]
        rcases m2 with m | m
        · rw [m.1]; trivial
        · rw [m.1]; rfl
      · rw [m.1]; rfl
    · rw [m.1]; rfl
  have hafter : s4.1.mode = .idle ∨ ∃ l q, S.body = l :: q ∧ l ≠ .blank := by
    rcases hS.after with ⟨a, b, c⟩ | h
    · left
      rw [(m4.resolve_right fun m => m.2 c).1, (m3.resolve_right fun m => m.2 b).1,
        (m2.resolve_right fun m => m.2 a).1]
    · exact Or.inr h
  obtain ⟨s5, e5, h5, m5⟩ := run_body tail S.body _ _ h4 hS.body hready hafter
  rw [e1, e2, e3, e4, e5]
  refine ⟨s5.2, ?_, ?_⟩
  · rcases htail with rfl | ⟨n, q, rfl⟩
    · simp [readObj, m5]
    · rw [readObj, line_ready (by rw [m5]; trivial) (by simp) (by simp) (by simp) (by simp)]
      simp [dispatch, bind, Except.bind]
  · have : pre ++ S.lines = pre ++ [.obj S.name] ++ S.pre ++ S.vs ++ S.ts ++ S.ns ++ S.body := by
      simp [Sect.lines]
    rw [this]
    exact ⟨h5.verts, h5.txts, h5.nrms, by rw [h5.cells, hi]⟩

theorem lines_head (Ss : List (Sect α)) :
    Ss.flatMap Sect.lines = [] ∨ ∃ n q, Ss.flatMap Sect.lines = .obj n :: q := by
  cases Ss with
  | nil => exact Or.inl rfl
  | cons S Ss => exact Or.inr ⟨_, _, by rw [List.flatMap_cons, Sect.lines, List.cons_append]⟩

theorem good_obj {l : Line α} (h : GoodV l ∨ GoodT l ∨ GoodN l) : isObj l = false := by
  cases l <;> simp_all [GoodV, GoodT, GoodN, isObj]

/-- All the objects of a file. -/
theorem readObjs_neat (ign : Bool) (Ss : List (Sect α)) :
    ∀ (pre : List (Line α)) (pid : Nat) (r : Res α), (∀ S ∈ Ss, S.Neat) → Read ign pre r →
      (names pre).length = pid →
      ∃ r', readObjs ign pid (objects (Ss.flatMap Sect.lines)) r = .ok r' ∧
        Read ign (pre ++ Ss.flatMap Sect.lines) r' := by
  induction Ss with
  | nil => intro pre pid r _ hr _; exact ⟨r, rfl, by simpa using hr⟩
  | cons S Ss ih =>
    intro pre pid r hS hr hp
    have hN := hS S (by simp)
    obtain ⟨r1, e1, h1⟩ := readObj_neat ign pid S hN pre (Ss.flatMap Sect.lines) (lines_head Ss) r hr hp
    have hnames : (names (pre ++ S.lines)).length = pid + 1 := by
      have : ∀ ls : List (Line α), (∀ l ∈ ls, isObj l = false) → names ls = [] := by
        intro ls h
        unfold names
        rw [List.filterMap_eq_nil_iff]
        intro l hl
        have := h l hl
        cases l <;> simp_all [isObj]
      have h' : names S.lines = [S.name] := by
        have e : names S.lines = S.name :: names (S.pre ++ (S.vs ++ (S.ts ++ (S.ns ++ S.body)))) := rfl
        rw [e, this]
        intro l hl
        simp only [List.mem_append] at hl
        rcases hl with h | h | h | h | h
        · exact plain_obj (hN.pre l h)
        · exact good_obj (Or.inl (hN.vs l h))
        · exact good_obj (Or.inr (Or.inl (hN.ts l h)))
        · exact good_obj (Or.inr (Or.inr (hN.ns l h)))
        · exact plain_obj (hN.body l h)
      have e : names (pre ++ S.lines) = names pre ++ names S.lines := by
        unfold names; rw [List.filterMap_append]
      rw [e, h', List.length_append, hp]
      rfl
    obtain ⟨r2, e2, h2⟩ := ih (pre ++ S.lines) (pid + 1) r1 (fun T hT => hS T (by simp [hT])) h1 hnames
    refine ⟨r2, ?_, by simpa using h2⟩
    have ho : objects ((S :: Ss).flatMap Sect.lines) =
        (S.name, S.pre ++ (S.vs ++ (S.ts ++ (S.ns ++ S.body))) ++ Ss.flatMap Sect.lines) ::
          objects (Ss.flatMap Sect.lines) := by
      rw [List.flatMap_cons, Sect.lines, List.cons_append, objects]
      congr 1
      apply objects_skip
      intro l hl
      simp only [List.mem_append] at hl
      rcases hl with h | h | h | h | h
      · exact plain_obj (hN.pre l h)
      · exact good_obj (Or.inl (hN.vs l h))
      · exact good_obj (Or.inr (Or.inl (hN.ts l h)))
      · exact good_obj (Or.inr (Or.inr (hN.ns l h)))
      · exact plain_obj (hN.body l h)
    rw [ho, readObjs, e1]
    exact e2

/-- A whole file. -/
theorem scanFile_neat (ign : Bool) {file head : List (Line α)} {Ss : List (Sect α)}
    (h : NeatFile file head Ss) : ∃ r, scanFile ign file = .ok r ∧ Read ign file r := by
  have hh : ∀ l ∈ head, isObj l = false := by
    intro l hl
    have := h.head l hl
    cases l <;> simp_all [isObj]
  have h0 : Read ign head ({} : Res α) := by
    refine ⟨?_, ?_, ?_, ?_⟩
    · symm; unfold vPts; rw [List.filterMap_eq_nil_iff]; intro l hl
      have := h.head l hl
      cases l <;> simp_all
    · symm; unfold tPts; rw [List.filterMap_eq_nil_iff]; intro l hl
      have := h.head l hl
      cases l <;> simp_all
    · symm; unfold nPts; rw [List.filterMap_eq_nil_iff]; intro l hl
      have := h.head l hl
      cases l <;> simp_all
    · have : ∀ (ls pre : List (Line α)), (∀ l ∈ ls, ∀ a b, l ≠ .f a b) → cellsOf ign pre ls = [] := by
        intro ls
        induction ls with
        | nil => intro pre _; rfl
        | cons l ls ih =>
          intro pre hl
          have h1 := hl l (by simp)
          have h2 := ih (pre ++ [l]) fun q hq => hl q (by simp [hq])
          cases l <;> simp_all [cellsOf]
      symm
      apply this
      intro l hl a b e
      have := h.head l hl
      simp_all
  have hn : (names head).length = 0 := by
    have : names head = [] := by
      unfold names
      rw [List.filterMap_eq_nil_iff]
      intro l hl
      have := hh l hl
      cases l <;> simp_all [isObj]
    rw [this]; rfl
  obtain ⟨r, e, hr⟩ := readObjs_neat ign Ss head 0 {} h.neat h0 hn
  refine ⟨r, ?_, by rw [h.eq]; exact hr⟩
  rw [scanFile, h.eq, objects_skip _ _ hh]
  exact e

/-! ## C189: the points -/

/-- A file laid out as the class asks for is read to the end, and the points, the textures and the
normals are those of its lines, in the order of the file. -/
theorem C189_points_partial (ign : Bool) {file head : List (Line α)} {Ss : List (Sect α)}
    (h : NeatFile file head Ss) :
    ∃ r, scanFile ign file = .ok r ∧ r.verts = vPts file ∧ r.txts = tPts file ∧ r.nrms = nPts file := by
  obtain ⟨r, e, hr⟩ := scanFile_neat ign h
  exact ⟨r, e, hr.verts, hr.txts, hr.nrms⟩

/-! ## C190: the facets -/

/-- Every facet of at least three corners becomes a cell, in the order of the file, with all its corners
in their order and numbers below zero counted back from the last point above the facet; the part is the
object it stands in.  The form of the facets must be one in each object, and blanks must follow those
without slashes. -/
theorem C190_facets_partial (ign : Bool) {file head : List (Line α)} {Ss : List (Sect α)}
    (h : NeatFile file head Ss) : ∃ r, scanFile ign file = .ok r ∧ r.cells = cellsOf ign [] file := by
  obtain ⟨r, e, hr⟩ := scanFile_neat ign h
  exact ⟨r, e, hr.cells⟩

/-! ## C191: the attributes -/

/-- The facet which comes after the lines `A` has the material, the group and the smoothing group said
last in its own object. -/
theorem C191_attributes_partial (ign : Bool) {file head : List (Line α)} {Ss : List (Sect α)}
    (h : NeatFile file head Ss) (A B : List (Line α)) (refs : List Ref) (t : Bool)
    (hf : file = A ++ .f refs t :: B) (hl : 3 ≤ refs.length) :
    ∃ r c, scanFile ign file = .ok r ∧ r.cells[(cellsOf ign [] A).length]? = some c ∧
      c.mat = last "" (fun | .usemtl (w :: _) => some w | _ => none) (chunk A) ∧
      c.smooth = last 0 (fun | .s (some (some k)) => some k | .s _ => some 0 | _ => none) (chunk A) ∧
      c.grp = if ign then "" else
        last "" (fun | .g (w :: _) => some (if some w = (names A).getLast? then "" else w) | _ => none) (chunk A) := by
  obtain ⟨r, e, hr⟩ := scanFile_neat ign h
  refine ⟨r, cellOf ign A refs, e, ?_, rfl, rfl, rfl⟩
  rw [hr.cells, hf, cellsOf_append, cellsOf, if_neg (by omega)]
  simp

end Steps

/-- Two objects, with a texture and normals. -/
def sample : List (Line Int) :=
  [.other, .obj "one", .v [0, 0, 0] false, .v [1, 0, 0] false, .v [0, 1, 0] false, .vt [0, 0] false,
   .vn [0, 0, 1] false, .usemtl ["steel"], .g ["front"], .f [⟨1, some 1, some 1⟩, ⟨2, some 1, some 1⟩, ⟨-1, some 1, some 1⟩] false,
   .blank, .obj "two", .v [5, 5, 5] false, .s (some (some 2)), .f [⟨1, none, some 1⟩, ⟨2, none, some 1⟩, ⟨4, none, some 1⟩] false]

/-- It is laid out as the class asks for. -/
theorem sample_neat : NeatFile sample [.other]
    [⟨"one", [], [.v [0, 0, 0] false, .v [1, 0, 0] false, .v [0, 1, 0] false], [.vt [0, 0] false],
      [.vn [0, 0, 1] false], [.usemtl ["steel"], .g ["front"],
        .f [⟨1, some 1, some 1⟩, ⟨2, some 1, some 1⟩, ⟨-1, some 1, some 1⟩] false, .blank], 2⟩,
     ⟨"two", [], [.v [5, 5, 5] false], [], [], [.s (some (some 2)),
        .f [⟨1, none, some 1⟩, ⟨2, none, some 1⟩, ⟨4, none, some 1⟩] false], 3⟩] := by
  refine ⟨rfl, by simp, ?_⟩
  intro S hS
  simp only [List.mem_cons, List.not_mem_nil, or_false] at hS
  rcases hS with rfl | rfl
  · refine ⟨by simp, by simp [GoodV], by simp [GoodT], by simp [GoodN], by simp [Plain, Ref.form], ?_⟩
    exact Or.inr ⟨_, _, rfl, by simp⟩
  · refine ⟨by simp, by simp [GoodV], by simp [GoodT], by simp [GoodN], by simp [Plain, Ref.form], ?_⟩
    exact Or.inr ⟨_, _, rfl, by simp⟩

example : vPts sample = [(0, 0, 0), (1, 0, 0), (0, 1, 0), (5, 5, 5)] := by decide
example : cellsOf false [] sample =
    [⟨[1, 2, 3], [1, 1, 1], [1, 1, 1], 0, "steel", "front", 0⟩,
     ⟨[1, 2, 4], [], [1, 1, 1], 1, "", "", 2⟩] := by decide
example := C189_points_partial false sample_neat
example := C190_facets_partial true sample_neat
example := C191_attributes_partial false sample_neat (sample.take 9) _ _ _ rfl (by decide)

/-- A blank line after the points of an object ends the reading with an exception. -/
theorem C189_blank_fails : scanFile false
    ([.obj "one", .v [0, 0, 0] false, .v [1, 0, 0] false, .v [0, 1, 0] false, .blank,
      .f [⟨1, none, none⟩, ⟨2, none, none⟩, ⟨3, none, none⟩] true] : List (Line Int)) =
    .error .outOfRange := rfl

/-- The points before the first object are lost, and so is the whole of a file without objects. -/
theorem C189_header_fails (ign : Bool) (file : List (Line Int)) (h : ∀ l ∈ file, isObj l = false) :
    scanFile ign file = .ok {} := by
  rw [scanFile, ← List.append_nil file, objects_skip _ _ h]
  rfl

example : scanFile false ([.v [0, 0, 0] false, .v [1, 0, 0] false, .v [0, 1, 0] false,
    .f [⟨1, none, none⟩, ⟨2, none, none⟩, ⟨3, none, none⟩] true] : List (Line Int)) = .ok {} :=
  C189_header_fails _ _ (by decide)

/-- When the normals come before the textures, the first texture is lost and the line after the block is
taken for the last one. -/
theorem C189_order_fails : scanFile false
    ([.obj "one", .v [0, 0, 0] false, .vn [0, 0, 1] false, .vt [7, 7] false, .vt [8, 8] false,
      .f [⟨1, some 1, some 1⟩, ⟨1, some 1, some 1⟩, ⟨1, some 2, some 1⟩] false] : List (Line Int)) =
    .error .stray := rfl

/-- A comment between two points is taken for one. -/
theorem C189_comment_fails : scanFile false
    ([.obj "one", .v [0, 0, 0] false, .other, .v [1, 0, 0] false, .other] : List (Line Int)) =
    .error .stray := rfl

/-- A facet without slashes and without a blank at its end loses its last corner: a triangle is skipped, a
quadrilateral becomes a triangle. -/
theorem C190_last_fails (o : Offs) (st : Stale) (vs : List Int) (v : Int) :
    corners 0 o false (vs ++ [v]) st = .ok (vs.map fun k => ⟨shift o.v k, none, none⟩, st) := by
  induction vs with
  | nil => rfl
  | cons a vs ih =>
    match vs, ih with
    | [], ih => rfl
    | b :: vs, ih =>
      cases vs with
      | nil => rfl
      | cons c vs =>
        simp only [List.cons_append] at ih ⊢
        simp only [corners, ih, bind, Except.bind]
        rfl

theorem C190_quad_fails : (scanFile false
    ([.obj "one", .v [0, 0, 0] false, .v [1, 0, 0] false, .v [1, 1, 0] false, .v [0, 1, 0] false,
      .f [⟨1, none, none⟩, ⟨2, none, none⟩, ⟨3, none, none⟩] false,
      .f [⟨1, none, none⟩, ⟨2, none, none⟩, ⟨3, none, none⟩, ⟨4, none, none⟩] false] :
      List (Line Int))).map (fun r => r.cells.map Cell.conn) = .ok [[1, 2, 3]] := rfl

/-- Facets of two forms in one object are read with the form of the first. -/
theorem C190_mixed_fails : (scanFile false
    ([.obj "one", .v [0, 0, 0] false, .v [1, 0, 0] false, .v [1, 1, 0] false, .vt [0, 0] false,
      .f [⟨1, none, none⟩, ⟨2, none, none⟩, ⟨3, none, none⟩] true,
      .f [⟨1, some 1, none⟩, ⟨2, some 1, none⟩, ⟨3, some 1, none⟩] true] :
      List (Line Int))).map (fun r => r.cells.map Cell.conn) = .ok [[1, 2, 3], [1, 1, 2, 1, 3, 1]] := rfl

/-- The material and the smoothing group do not last beyond an object, although they do in the format. -/
theorem C191_objects_fails : (scanFile false
    ([.obj "one", .v [0, 0, 0] false, .v [1, 0, 0] false, .v [1, 1, 0] false, .usemtl ["steel"], .s (some (some 1)),
      .f [⟨1, none, none⟩, ⟨2, none, none⟩, ⟨3, none, none⟩] true, .obj "two",
      .f [⟨1, none, none⟩, ⟨3, none, none⟩, ⟨2, none, none⟩] true] :
      List (Line Int))).map (fun r => r.cells.map fun c => (c.mat, c.smooth)) =
      .ok [("steel", 1), ("", 0)] := rfl

/-- A line without a name leaves the material as it was; only the first word of a name is kept; a group
with the name of the object is taken for none. -/
theorem C191_words_fails : (scanFile false
    ([.obj "one", .v [0, 0, 0] false, .v [1, 0, 0] false, .v [1, 1, 0] false, .usemtl ["old", "steel"],
      .g ["one"], .f [⟨1, none, none⟩, ⟨2, none, none⟩, ⟨3, none, none⟩] true, .usemtl [], .g ["left", "wing"],
      .f [⟨1, none, none⟩, ⟨3, none, none⟩, ⟨2, none, none⟩] true] :
      List (Line Int))).map (fun r => r.cells.map fun c => (c.mat, c.grp)) =
      .ok [("old", ""), ("old", "left")] := rfl

/-! ## C192: the end of the reading -/

/-- A file without textures or without normals makes the class follow a null pointer. -/
theorem C192_null_fails {α : Type} [Zero α] (ign : Bool) {file head : List (Line α)} {Ss : List (Sect α)}
    (h : NeatFile file head Ss) (he : tPts file = [] ∨ nPts file = []) :
    readFile ign file = .error .null := by
  obtain ⟨r, e, hr⟩ := scanFile_neat ign h
  unfold readFile
  rw [e]
  simp only [bind, Except.bind]
  rw [if_pos (by rw [hr.txts, hr.nrms]; exact he)]

example : readFile false ([.obj "one", .v [0, 0, 0] false, .v [1, 0, 0] false, .v [0, 1, 0] false,
    .f [⟨1, none, none⟩, ⟨2, none, none⟩, ⟨3, none, none⟩] true] : List (Line Int)) = .error .null := by
  refine C192_null_fails false (head := []) (Ss := [⟨"one", [],
    [.v [0, 0, 0] false, .v [1, 0, 0] false, .v [0, 1, 0] false], [], [],
    [.f [⟨1, none, none⟩, ⟨2, none, none⟩, ⟨3, none, none⟩] true], 0⟩]) ⟨rfl, by simp, ?_⟩ (Or.inl rfl)
  intro S hS
  simp only [List.mem_cons, List.not_mem_nil, or_false] at hS
  subst hS
  exact ⟨by simp, by simp [GoodV], by simp, by simp, by simp [Plain, Ref.form], Or.inr ⟨_, _, rfl, by simp⟩⟩

/-- With both, the reading ends with the points and the cells of the file. -/
theorem C192_both_partial {α : Type} [Zero α] (ign : Bool) {file head : List (Line α)} {Ss : List (Sect α)}
    (h : NeatFile file head Ss) (ht : tPts file ≠ []) (hn : nPts file ≠ []) :
    ∃ r, readFile ign file = .ok r ∧ r.verts = vPts file ∧ r.cells = cellsOf ign [] file := by
  obtain ⟨r, e, hr⟩ := scanFile_neat ign h
  refine ⟨r, ?_, hr.verts, hr.cells⟩
  unfold readFile
  rw [e]
  simp only [bind, Except.bind]
  rw [if_neg (by rw [hr.txts, hr.nrms]; simp [ht, hn])]

example := C192_both_partial false sample_neat (by decide) (by decide)

end Verif.Obj
