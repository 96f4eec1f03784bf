import Verif.Io.Cloud
import Verif.Io.DisplsProps
import Verif.Mesh.SyncProps
/-
C165: reading of clouds of points with fields.
-/
namespace Verif.Io
open Verif.Xml Verif.Create Verif.Field Verif.Mesh
open List hiding get get_of_mem

variable {D : Type}

/-! ### Specification -/

/-- a line of a file -/
inductive CItem (D : Type) where
  | other
  | point (l : Nat) (p : P3 D)
  | scalar (l : Nat) (v : D)
  | vector (l : Nat) (p : P3 D)

/-- a row with a label and one number -/
def SaysOne (F : Fmt D) (key : Text) (l : Int) (v : D) (t : Text) : Prop :=
  ∃ b0 b1 b2 b3 tl tx, t = b0 ++ (key ++ (b1 ++ (tl ++ (b2 ++ (tx ++ b3))))) ∧ Gap b0 ∧ Gap b1 ∧ Gap b2 ∧ Gap b3 ∧ b1 ≠ [] ∧ b2 ≠ [] ∧
    IsWhole tl l ∧ LONG_MIN ≤ l ∧ l ≤ LONG_MAX ∧ Denotes F tx v

/-- what a line says -/
def CSays (F : Fmt D) : CItem D → Text → Prop
  | .other, t => '\n' ∉ t ∧ firstWord t ≠ "$POINT".toList ∧ firstWord t ≠ "$SCALARF".toList ∧ firstWord t ≠ "$VECTORF".toList
  | .point l p, t => Says F "$POINT".toList (.row l p) t
  | .scalar l v, t => SaysOne F "$SCALARF".toList l v t
  | .vector l p, t => Says F "$VECTORF".toList (.row l p) t

def CItem.points : List (CItem D) → List (Nat × P3 D) := filterMap fun i => match i with | .point l p => some (l, p) | _ => none
def CItem.scalars : List (CItem D) → List (Nat × D) := filterMap fun i => match i with | .scalar l v => some (l, v) | _ => none
def CItem.vectors : List (CItem D) → List (Nat × P3 D) := filterMap fun i => match i with | .vector l p => some (l, p) | _ => none

/-- a file with lines that say `is` -/
def FileSays (F : Fmt D) (is : List (CItem D)) (t : Text) : Prop :=
  ∃ ts last init i, is = init ++ [i] ∧ t = ts.flatMap (fun l => l ++ ['\n']) ++ last ∧ Forall₂ (CSays F) init ts ∧ CSays F i last

/-- the cloud of points: a vertex and a cell for each, with the label as id -/
structure IsPc (ps : List (Nat × P3 D)) (o : Pc D) : Prop where
  type : o.type = 3
  verts : o.verts = ps
  cells : o.cells = ps.map (fun e => (e.1, ⟨.vertex, [e.1], 0, true⟩))

/-- the labels of points -/
def labelsOf (ps : List (Nat × P3 D)) : List Int := ps.map (fun e => ((e.1 : Nat) : Int))

/-- the position of a label -/
def posIn (ps : List (Nat × P3 D)) (l : Nat) : Nat := (ps.map Prod.fst).idxOf l

/-! ### Lemmas -/

theorem key_point : IsKey pointKey := ⟨by decide, by decide⟩
theorem key_scalar : IsKey scalarKey := ⟨by decide, by decide⟩
theorem key_vector : IsKey vectorKey := ⟨by decide, by decide⟩

/-- the words of a row with one number -/
theorem one_parse (F : Fmt D) {key : Text} (hk : IsKey key) {l : Int} {v : D} {t : Text} (h : SaysOne F key l v t) :
    ∃ s s' s'', keyOf t = (key, s) ∧ s.long = (some l, s') ∧ s'.num F = (some v, s'') := by
  obtain ⟨b0, b1, b2, b3, tl, tx, rfl, g0, g1, g2, g3, n1, n2, hl, l1, l2, hx⟩ := h
  have ht : trim (b0 ++ (key ++ (b1 ++ (tl ++ (b2 ++ (tx ++ b3)))))) = key ++ (b1 ++ (tl ++ (b2 ++ tx))) := by
    have e : b0 ++ (key ++ (b1 ++ (tl ++ (b2 ++ (tx ++ b3))))) = b0 ++ ((key ++ (b1 ++ (tl ++ (b2 ++ tx)))) ++ b3) := by simp [append_assoc]
    rw [e]
    refine trim_between (fun c hc => (g0 c hc).1) (fun c hc => (g3 c hc).1) (by simp [hk.1]) ?_ ?_
    · cases key with
      | nil => exact absurd rfl hk.1
      | cons c u =>
        intro x hx
        simp at hx
        rw [← hx]; exact not_space_blank (hk.2 c mem_cons_self)
    · intro c hc
      have hne := number_ne hx.1
      simp only [getLast?_append] at hc
      cases hg : tx.getLast? with
      | none => exact absurd (getLast?_eq_none_iff.1 hg) hne
      | some y =>
        rw [hg] at hc
        simp at hc
        rw [← hc]
        exact not_space_blank (number_clean hx.1 y (mem_of_getLast? hg))
  obtain ⟨c, u, e, hc⟩ := gap_stop (t := tl ++ (b2 ++ tx)) g1 n1
  have hw := word_at (b := []) (by simp) hk.1 hk.2 (t := b1 ++ (tl ++ (b2 ++ tx))) (.inr ⟨c, u, e, hc⟩)
  rw [nil_append, show (b1 ++ (tl ++ (b2 ++ tx))).isEmpty = false by rw [e]; rfl] at hw
  have hq : keyOf (b0 ++ (key ++ (b1 ++ (tl ++ (b2 ++ (tx ++ b3)))))) = (key, ⟨b1 ++ (tl ++ (b2 ++ tx)), false, false⟩) := by
    unfold keyOf
    simp only
    rw [ht, hw]
    simp only [Option.getD_some]
    rw [trim_clean fun c hc => not_space_blank (hk.2 c hc)]
  have hlong := whole_at (gap_space g1) hl (gap_stops (t := tx) g2 n2) l1 l2
  have ne : (b2 ++ tx).isEmpty = false := by
    cases b2 with
    | nil => exact absurd rfl n2
    | cons => rfl
  rw [ne] at hlong
  have h3 := num_at F (gap_space g2) hx.1 (t := []) (.inl rfl)
  rw [hx.2, append_nil] at h3
  exact ⟨_, _, _, hq, hlong, h3⟩

theorem one_line {F : Fmt D} {key : Text} (hk : IsKey key) {l : Int} {v : D} {t : Text} (h : SaysOne F key l v t) : '\n' ∉ t := by
  obtain ⟨b0, b1, b2, b3, tl, tx, rfl, g0, g1, g2, g3, -, -, hl, -, -, hx⟩ := h
  have gn : ∀ {b : Text}, Gap b → '\n' ∉ b := fun g h => (g _ h).2 rfl
  have cn : ∀ {b : Text}, (∀ c ∈ b, space c = false) → '\n' ∉ b := fun g h => absurd (g _ h) (by decide)
  simp only [mem_append, not_or]
  exact ⟨gn g0, cn hk.2, gn g1, cn (number_clean (whole_number hl)), gn g2, cn (number_clean hx.1), gn g3⟩

theorem csays_line {F : Fmt D} {i : CItem D} {t : Text} (h : CSays F i t) : '\n' ∉ t := by
  cases i with
  | other => exact h.1
  | point l p => exact says_line key_point (show Says F pointKey (.row l p) t from h)
  | scalar l v => exact one_line key_scalar h
  | vector l p => exact says_line key_vector (show Says F vectorKey (.row l p) t from h)

/-- the lines of the first loop -/
def CItem.first : CItem D → Item D
  | .point l p => .row l p
  | _ => .other

theorem csays_first {F : Fmt D} {i : CItem D} {t : Text} (h : CSays F i t) : Says F pointKey i.first t := by
  cases i with
  | other => exact ⟨h.1, h.2.1⟩
  | point l p => exact h
  | scalar l v =>
    obtain ⟨s, s', s'', e, -⟩ := one_parse F key_scalar h
    refine ⟨one_line key_scalar h, ?_⟩
    rw [← keyOf_other, show keyOf t = _ from e]; show scalarKey ≠ pointKey; decide
  | vector l p =>
    refine ⟨says_line key_vector (show Says F vectorKey (.row l p) t from h), ?_⟩
    rw [show firstWord t = _ from row_word F key_vector h]; decide

theorem rows_first : ∀ is : List (CItem D), Item.rows (is.map CItem.first) = (CItem.points is).map (fun e : Nat × P3 D => (((e.1 : Nat) : Int), e.2)) := by
  intro is
  induction is with
  | nil => rfl
  | cons i is ih =>
    rw [map_cons]
    cases i with
    | point l p =>
      show (_ :: Item.rows (is.map CItem.first)) = _
      rw [ih]; rfl
    | other => exact ih
    | scalar => exact ih
    | vector => exact ih

theorem file_lines {F : Fmt D} {is : List (CItem D)} {t : Text} (h : FileSays F is t) : Forall₂ (CSays F) is (linesOf t) := by
  obtain ⟨ts, last, init, i, rfl, rfl, h1, h2⟩ := h
  have hn : ∀ l ∈ ts, '\n' ∉ l := by
    intro l hl
    clear h2
    induction h1 with
    | nil => exact absurd hl (by simp)
    | cons h _ ih =>
      rcases mem_cons.1 hl with rfl | hl
      · exact csays_line h
      · exact ih hl
  rw [lines_last ts last hn (csays_line h2)]
  exact rel_append h1 (.cons h2 .nil)

/-- the first loop -/
theorem first_loop (F : Fmt D) {is : List (CItem D)} {ts : List Text} (h : Forall₂ (CSays F) is ts) :
    ∃ v, ts.foldlM (rowStep F pointKey) (none, [], []) =
      some (v, labelsOf (CItem.points is), (CItem.points is).map Prod.snd) := by
  have h2 : Forall₂ (Says F pointKey) (is.map CItem.first) ts := by
    rw [forall₂_map_left_iff]
    exact h.imp fun _ _ h => csays_first h
  obtain ⟨v, e⟩ := fold_rows F key_point _ _ h2 none [] []
  refine ⟨v, ?_⟩
  rw [e, rows_first]
  simp [Function.comp_def, labelsOf]

theorem bind_fold {α σ : Type} (f : σ → α → Res σ) (x : Res σ) (hx : ∀ s, x ≠ .done s) : ∀ l : List α,
    l.foldl (fun r a => r.bind fun s => f s a) x = x := by
  intro l
  induction l with
  | nil => rfl
  | cons a l ih =>
    rw [foldl_cons]
    have : (x.bind fun s => f s a) = x := by
      cases x with
      | done s => exact absurd rfl (hx s)
      | thrown => rfl
      | undefined => rfl
    rw [this, ih]

theorem fieldRows_cons (F : Fmt D) (pos : Int → Nat) (s : Fields D) (t : Text) (ts : List Text) :
    fieldRows F pos s (t :: ts) = (fieldStep F pos s t).bind fun s => fieldRows F pos s ts := by
  unfold fieldRows
  rw [foldl_cons]
  show foldl _ (fieldStep F pos s t) ts = _
  cases fieldStep F pos s t with
  | done s => rfl
  | thrown => exact bind_fold (fun s t => fieldStep F pos s t) _ (fun s h => by cases h) ts
  | undefined => exact bind_fold (fun s t => fieldStep F pos s t) _ (fun s h => by cases h) ts

/-- a line in the second loop -/
theorem field_step (F : Fmt D) (pos : Int → Nat) (s : Fields D) {i : CItem D} {t : Text} (h : CSays F i t)
    (h1 : ∀ l v, i = .scalar l v → has s.scalar (pos l) = false) (h2 : ∀ l p, i = .vector l p → has s.vector (pos l) = false) :
    ∃ a b, fieldStep F pos s t = .done ⟨a, b, s.scalar ++ (CItem.scalars [i]).map (fun e => (pos e.1, e.2)),
      s.vector ++ (CItem.vectors [i]).map (fun e => (pos e.1, e.2))⟩ := by
  unfold fieldStep
  cases i with
  | other =>
    refine ⟨s.label, s.temp, ?_⟩
    simp only
    rw [keyOf_other, if_neg (show firstWord t ≠ scalarKey from h.2.2.1), if_neg (show firstWord t ≠ vectorKey from h.2.2.2)]
    simp [CItem.scalars, CItem.vectors]
  | point l p =>
    refine ⟨s.label, s.temp, ?_⟩
    simp only
    rw [keyOf_other, show firstWord t = _ from row_word F key_point h, if_neg (by decide), if_neg (by decide)]
    simp [CItem.scalars, CItem.vectors]
  | scalar l v =>
    obtain ⟨q, q', q'', e1, e2, e3⟩ := one_parse F key_scalar h
    refine ⟨some l, some v, ?_⟩
    simp only [show keyOf t = _ from e1, e2, e3, if_pos]
    simp [ins, h1 l v rfl, CItem.scalars, CItem.vectors]
  | vector l p =>
    obtain ⟨q, q', e1, e2, e3⟩ := row_parse F key_vector h
    refine ⟨some l, s.temp, ?_⟩
    simp only [show keyOf t = _ from e1, e2, e3]
    rw [if_neg (by decide)]
    simp [ins, h2 l p rfl, CItem.scalars, CItem.vectors]

theorem scalars_cons (i : CItem D) (is : List (CItem D)) : CItem.scalars (i :: is) = CItem.scalars [i] ++ CItem.scalars is := by
  cases i <;> rfl
theorem vectors_cons (i : CItem D) (is : List (CItem D)) : CItem.vectors (i :: is) = CItem.vectors [i] ++ CItem.vectors is := by
  cases i <;> rfl
theorem points_cons (i : CItem D) (is : List (CItem D)) : CItem.points (i :: is) = CItem.points [i] ++ CItem.points is := by
  cases i <;> rfl

theorem second_loop (F : Fmt D) (pos : Int → Nat) : ∀ (is : List (CItem D)) (ts : List Text), Forall₂ (CSays F) is ts → ∀ s : Fields D,
    Ok (s.scalar ++ (CItem.scalars is).map (fun e => (pos e.1, e.2))) → Ok (s.vector ++ (CItem.vectors is).map (fun e => (pos e.1, e.2))) →
    ∃ a b, fieldRows F pos s ts = .done ⟨a, b, s.scalar ++ (CItem.scalars is).map (fun e => (pos e.1, e.2)),
      s.vector ++ (CItem.vectors is).map (fun e => (pos e.1, e.2))⟩ := by
  intro is ts h
  induction h with
  | nil => intro s _ _; exact ⟨s.label, s.temp, by simp [fieldRows, CItem.scalars, CItem.vectors]⟩
  | @cons i t is ts h _ ih =>
    intro s h1 h2
    have free : ∀ {α : Type} {d rest : Data α} {j : Nat} {x : α}, Ok (d ++ (j, x) :: rest) → has d j = false := by
      intro α d rest j x hok
      apply has_false_of
      unfold Ok at hok
      rw [map_append, map_cons, nodup_append] at hok
      intro hm
      exact hok.2.2 _ hm _ mem_cons_self rfl
    obtain ⟨a, b, e⟩ := field_step F pos s h
      (by rintro l v rfl; rw [scalars_cons] at h1; exact free h1) (by rintro l p rfl; rw [vectors_cons] at h2; exact free h2)
    rw [scalars_cons, map_append, ← append_assoc] at h1
    rw [vectors_cons, map_append, ← append_assoc] at h2
    obtain ⟨a', b', e'⟩ := ih ⟨a, b, _, _⟩ h1 h2
    refine ⟨a', b', ?_⟩
    rw [fieldRows_cons, e]
    show fieldRows F pos _ ts = _
    rw [e', scalars_cons i is, vectors_cons i is]
    simp only [map_append, append_assoc]

theorem put_spec : ∀ (ps : List (Nat × P3 D)) (o : Pc D), Ok (o.verts ++ ps) → o.cells.map Prod.fst = o.verts.map Prod.fst → Fresh o → TreeOk o →
    ∃ r, putPoints (ps.map (fun e : Nat × P3 D => (((e.1 : Nat) : Int), e.2))) o = .done r ∧ r.verts = o.verts ++ ps ∧
      r.cells = o.cells ++ ps.map (fun e => (e.1, ⟨.vertex, [e.1], 0, true⟩)) ∧ r.type = o.type ∧ Fresh r ∧ TreeOk r
  | [], o, _, _, hf, ht => ⟨o, by simp [putPoints, hf, ht]⟩
  | e :: ps, o, hok, hk, hf, ht => by
    have hok1 : Ok (o.verts ++ [e]) := by
      unfold Ok at hok ⊢
      have : o.verts ++ e :: ps = (o.verts ++ [e]) ++ ps := by simp
      rw [this, map_append] at hok
      exact hok.of_append_left
    have heq : putPoint o e.1 e.2 = fillCells (fillVerts o [e]) [(e.1, ⟨.vertex, [e.1], 0, true⟩)] := rfl
    obtain ⟨v1, v2, v3, -, -, -, v5, v6⟩ := fillVerts_spec [e] o hok1 hf ht
    have hfil : Fillable (⟨.vertex, [e.1], 0, true⟩ : Cell) := by
      refine ⟨by simp, ?_, by simp [toInt32], rfl⟩
      simp [checkConn]
    obtain ⟨c1, c2, c3, -, -, c5, c6⟩ := fillCells_spec [(e.1, ⟨.vertex, [e.1], 0, true⟩)] (fillVerts o [e])
      (by rw [v2]; unfold Ok at hok1 ⊢; simpa [hk] using hok1) (by simpa using hfil) v5 v6
    obtain ⟨r, t0, t1, t2, t3, t4, t5⟩ := put_spec ps (putPoint o e.1 e.2) (by rw [heq, c2, v1]; simpa using hok)
      (by rw [heq, c1, c2, v1, v2]; simp [hk]) (by rw [heq]; exact c5) (by rw [heq]; exact c6)
    refine ⟨r, ?_, ?_, ?_, ?_, t4, t5⟩
    · rw [← t0]
      unfold putPoints
      rw [map_cons, foldl_cons]
      congr 1
    · rw [t1, heq, c2, v1]; simp
    · rw [t2, heq, c1, v2]; simp
    · rw [t3, heq, c3, v3]

theorem pos_fold : ∀ (ls : List Int) (k : Nat) (m : Int → Nat), ls.Nodup → ∀ j : Int,
    ((ls.zipIdx k).foldl (fun m e => fun j => if j = e.1 then e.2 else m j) m) j = if j ∈ ls then k + ls.idxOf j else m j := by
  intro ls
  induction ls with
  | nil => intro k m _ j; simp
  | cons a ls ih =>
    intro k m hn j
    rw [nodup_cons] at hn
    rw [zipIdx_cons, foldl_cons, ih (k + 1) _ hn.2 j]
    by_cases ha : j = a
    · subst ha
      rw [if_neg hn.1, if_pos mem_cons_self, idxOf_cons_self]
      simp
    · by_cases hj : j ∈ ls
      · rw [if_pos hj, if_pos (mem_cons_of_mem _ hj), idxOf_cons_ne _ (Ne.symm ha)]
        omega
      · rw [if_neg hj, if_neg ha, if_neg (by simp [ha, hj])]

theorem idxOf_cast (l : Nat) : ∀ ls : List Nat, (ls.map (fun n : Nat => (n : Int))).idxOf (l : Int) = ls.idxOf l := by
  intro ls
  induction ls with
  | nil => rfl
  | cons a ls ih =>
    rw [map_cons]
    by_cases h : a = l
    · subst h; simp
    · rw [idxOf_cons_ne _ (by simpa using h), idxOf_cons_ne _ h, ih]

/-- the position that is used for a label: that of the point, or that of the first one -/
theorem pos_of {ps : List (Nat × P3 D)} (hn : (ps.map Prod.fst).Nodup) (l : Nat) :
    posOf (labelsOf ps) l = if l ∈ ps.map Prod.fst then posIn ps l else 0 := by
  unfold posOf posIn
  have e : labelsOf ps = (ps.map Prod.fst).map (fun n : Nat => (n : Int)) := by simp [Function.comp_def, labelsOf]
  rw [e, pos_fold _ 0 _ (hn.map (fun a b h => by simpa using h)), idxOf_cast, Nat.zero_add]
  congr 1
  simp

/-- the general form of what is read -/
theorem load_spec (F : Fmt D) (fs : Files) (b : Cloud D) {is : List (CItem D)} {t : Text} (hf : fs (b.dir ++ '/' :: b.file) = some t)
    (h : FileSays F is t) (hp : Ok (CItem.points is))
    (h1 : Ok ((CItem.scalars is).map (fun e => (posOf (labelsOf (CItem.points is)) e.1, e.2))))
    (h2 : Ok ((CItem.vectors is).map (fun e => (posOf (labelsOf (CItem.points is)) e.1, e.2)))) :
    ∃ o, IsPc (CItem.points is) o ∧ Fresh o ∧ b.load F fs = .done { b with
      geo := some o
      scalar := ⟨some (idsOf o), scalarName, .point, (CItem.scalars is).map (fun e => (posOf (labelsOf (CItem.points is)) e.1, e.2))⟩
      vector := ⟨some (idsOf o), vectorName, .point, (CItem.vectors is).map (fun e => (posOf (labelsOf (CItem.points is)) e.1, e.2))⟩ } := by
  have hl := file_lines h
  obtain ⟨v, e1⟩ := first_loop F hl
  obtain ⟨a, c, e2⟩ := second_loop F (posOf (labelsOf (CItem.points is))) is _ hl ⟨v, none, [], []⟩ h1 h2
  obtain ⟨o, -, ho, -⟩ := filled (P := P3 D) (t := 3) (by omega) (by omega) (vs := []) (cs := []) (by simp [Ok]) (by simp [Ok]) (by simp) (by simp)
  have e : o.verts = [] ∧ o.cells = [] ∧ o.type = 3 := by
    have ho' := ho
    unfold ctor at ho'
    simp only at ho'
    rw [if_neg (by omega)] at ho'
    injection ho' with ho'
    subst ho'
    exact ⟨rfl, rfl, rfl⟩
  obtain ⟨o1, o2, o3⟩ := e
  obtain ⟨r, r0, r1, r2, r3, r4, r5⟩ := put_spec (CItem.points is) o (by rw [o1]; exact hp) (by rw [o1, o2]; rfl) (fresh_ctor ho) (treeOk_ctor ho)
  rw [o1, nil_append] at r1
  rw [o2, nil_append] at r2
  have hcm : complete r = true := by
    unfold complete
    rw [r1, r2]
    simp only [all_eq_true]
    intro e he v hvv
    obtain ⟨x, hx, rfl⟩ := mem_map.1 he
    have : v = x.1 := by simpa [vertexIds] using hvv
    rw [this]
    exact (has_iff _ _).2 (mem_map_of_mem hx)
  obtain ⟨q, hq⟩ := update_succeeds r5 hcm
  have em := update_mesh hq
  refine ⟨q, ⟨by rw [em.type, r3, o3], by rw [em.verts, r1], by rw [em.cells, r2]⟩, fresh_update r4 hq, ?_⟩
  have hz : (labelsOf (CItem.points is)).zip ((CItem.points is).map Prod.snd) =
      (CItem.points is).map (fun e : Nat × P3 D => (((e.1 : Nat) : Int), e.2)) := by
    induction CItem.points is with
    | nil => rfl
    | cons x l ih => simp only [labelsOf, map_cons, zip_cons_cons] at ih ⊢; rw [ih]
  unfold Cloud.load Cloud.path
  rw [hf]
  simp only
  rw [e1]
  simp only
  rw [e2]
  simp only [Res.bind, ho, hz, r0, hq, nil_append]

/-! ### C165 -/

/-- the rows of a file are in order: no two points have the same label, no two values of a field are for the same point, and all values are
for points of the file -/
structure GoodRows (is : List (CItem D)) : Prop where
  points : ((CItem.points is).map Prod.fst).Nodup
  scalars : ((CItem.scalars is).map Prod.fst).Nodup
  vectors : ((CItem.vectors is).map Prod.fst).Nodup
  scalarOf : ∀ l ∈ (CItem.scalars is).map Prod.fst, l ∈ (CItem.points is).map Prod.fst
  vectorOf : ∀ l ∈ (CItem.vectors is).map Prod.fst, l ∈ (CItem.points is).map Prod.fst

theorem pos_ok {α : Type} {ps : List (Nat × P3 D)} (hp : (ps.map Prod.fst).Nodup) {rows : List (Nat × α)} (hn : (rows.map Prod.fst).Nodup)
    (hm : ∀ l ∈ rows.map Prod.fst, l ∈ ps.map Prod.fst) :
    rows.map (fun e => (posOf (labelsOf ps) e.1, e.2)) = rows.map (fun e => (posIn ps e.1, e.2)) ∧ Ok (rows.map (fun e => (posIn ps e.1, e.2))) := by
  refine ⟨?_, ?_⟩
  · apply map_congr_left
    intro e he
    rw [pos_of hp, if_pos (hm _ (mem_map_of_mem he))]
  · unfold Ok
    rw [map_map]
    have : (rows.map Prod.fst).map (posIn ps) = rows.map (Prod.fst ∘ fun e => (posIn ps e.1, e.2)) := by rw [map_map]; rfl
    rw [← this]
    refine hn.map_on ?_
    intro a ha b hb h
    exact (List.idxOf_inj (hm a ha)).1 h

/-- **C165**: what is read from a file: a vertex and a cell for each point, in order, with the label as id and the coordinates in the row;
values of the fields in order, at the positions of their points -/
theorem C165_read (F : Fmt D) (fs : Files) (b : Cloud D) {is : List (CItem D)} {t : Text} (hf : fs (b.dir ++ '/' :: b.file) = some t)
    (h : FileSays F is t) (hg : GoodRows is) :
    ∃ o b', b.load F fs = .done b' ∧ b'.geo = some o ∧ IsPc (CItem.points is) o ∧ Fresh o ∧
      b'.scalar.loc = .point ∧ b'.scalar.geo = some (idsOf o) ∧ b'.scalar.data = (CItem.scalars is).map (fun e => (posIn (CItem.points is) e.1, e.2)) ∧
      b'.vector.loc = .point ∧ b'.vector.geo = some (idsOf o) ∧ b'.vector.data = (CItem.vectors is).map (fun e => (posIn (CItem.points is) e.1, e.2)) ∧
      b'.read = b.read ∧ b'.dir = b.dir ∧ b'.file = b.file := by
  obtain ⟨s1, s2⟩ := pos_ok hg.points hg.scalars hg.scalarOf
  obtain ⟨v1, v2⟩ := pos_ok hg.points hg.vectors hg.vectorOf
  obtain ⟨o, ho, hfr, e⟩ := load_spec F fs b hf h hg.points (by rw [s1]; exact s2) (by rw [v1]; exact v2)
  rw [s1, v1] at e
  exact ⟨o, _, e, rfl, ho, hfr, rfl, rfl, rfl, rfl, rfl, rfl, rfl, rfl, rfl⟩

theorem map_pos_id {α : Type} {ps : List (Nat × P3 D)} (hr : ps.map Prod.fst = range ps.length) {rows : List (Nat × α)}
    (hm : ∀ l ∈ rows.map Prod.fst, l ∈ ps.map Prod.fst) : rows.map (fun e => (posIn ps e.1, e.2)) = rows := by
  have : ∀ e ∈ rows, (posIn ps e.1, e.2) = e := by
    intro e he
    have hl := hm _ (mem_map_of_mem he)
    unfold posIn
    rw [hr] at hl ⊢
    rw [mem_range] at hl
    have hlt : idxOf e.1 (range ps.length) < (range ps.length).length := idxOf_lt_length_iff.2 (mem_range.2 hl)
    have h1 := getElem_idxOf hlt
    rw [getElem_range] at h1
    rw [h1]
  exact (map_congr_left this).trans (map_id _)

/-- **C165**, partial: the fields have, at each point, the value its row gives, if the labels are 0, 1, 2, … in the order of the file.  Full
statement: for all labels; `C165_fields_fails`. -/
theorem C165_fields_partial (F : Fmt D) (fs : Files) (b : Cloud D) {is : List (CItem D)} {t : Text} (hf : fs (b.dir ++ '/' :: b.file) = some t)
    (h : FileSays F is t) (hg : GoodRows is) (hr : (CItem.points is).map Prod.fst = range (CItem.points is).length) :
    ∃ b', b.load F fs = .done b' ∧ b'.scalar.data = CItem.scalars is ∧ b'.vector.data = CItem.vectors is ∧
      (∀ l v, (l, v) ∈ CItem.scalars is → get b'.scalar.data l = some v) ∧ (∀ l v, (l, v) ∈ CItem.vectors is → get b'.vector.data l = some v) := by
  obtain ⟨o, b', e, -, -, -, -, -, e1, -, -, e2, -⟩ := C165_read F fs b hf h hg
  rw [map_pos_id hr hg.scalarOf] at e1
  rw [map_pos_id hr hg.vectorOf] at e2
  refine ⟨b', e, e1, e2, ?_, ?_⟩
  · intro l v hm
    rw [e1]
    exact Verif.Mesh.get_of_mem (e := (l, v)) hg.scalars hm
  · intro l v hm
    rw [e2]
    exact Verif.Mesh.get_of_mem (e := (l, v)) hg.vectors hm

/-- **C165**: in general a value is found at the position of its point in the file, not at its label; if every label is larger than the
number of points no point of the cloud has any value, and the field does not fit the cloud -/
theorem C165_fields_fails (F : Fmt D) (fs : Files) (b : Cloud D) {is : List (CItem D)} {t : Text} (hf : fs (b.dir ++ '/' :: b.file) = some t)
    (h : FileSays F is t) (hg : GoodRows is) :
    ∃ b', b.load F fs = .done b' ∧ (∀ l v, (l, v) ∈ CItem.scalars is → get b'.scalar.data (posIn (CItem.points is) l) = some v) ∧
      ((∀ l ∈ (CItem.points is).map Prod.fst, (CItem.points is).length ≤ l) →
        (∀ l ∈ (CItem.points is).map Prod.fst, get b'.scalar.data l = none) ∧ (CItem.scalars is ≠ [] → idsCoherent b'.scalar = false)) := by
  obtain ⟨o, b', e, -, ho, -, hl, hgeo, e1, -⟩ := C165_read F fs b hf h hg
  obtain ⟨-, s2⟩ := pos_ok hg.points hg.scalars hg.scalarOf
  have keys : ∀ j ∈ b'.scalar.data.map Prod.fst, j < (CItem.points is).length := by
    intro j hj
    rw [e1, map_map] at hj
    obtain ⟨x, hx, rfl⟩ := mem_map.1 hj
    have := idxOf_lt_length_iff.2 (hg.scalarOf _ (mem_map_of_mem hx))
    rw [length_map] at this
    exact this
  refine ⟨b', e, ?_, fun hlarge => ⟨?_, ?_⟩⟩
  · intro l v hm
    rw [e1]
    exact Verif.Mesh.get_of_mem (e := (posIn (CItem.points is) l, v)) s2 (mem_map.2 ⟨_, hm, rfl⟩)
  · intro l hm
    rw [get_none_iff]
    intro hk
    have := keys l hk
    have := hlarge l hm
    omega
  · intro hne
    unfold idsCoherent
    rw [hgeo, hl]
    obtain ⟨x, rows, hx⟩ := exists_cons_of_ne_nil hne
    have hmem : (posIn (CItem.points is) x.1, x.2) ∈ b'.scalar.data := by rw [e1, hx]; exact mem_cons_self
    have hemp : b'.scalar.data.isEmpty = false := by
      cases hd : b'.scalar.data with
      | nil => rw [hd] at hmem; exact absurd hmem (by simp)
      | cons => rfl
    simp only [hemp]
    rw [if_neg (by simp), all_eq_false]
    refine ⟨_, hmem, ?_⟩
    simp only [idsOf, ho.verts, contains_iff_mem]
    intro hm
    have h1 := hlarge _ hm
    have h2 := keys _ (mem_map_of_mem hmem)
    omega

/-- **C165**: a value for a label that no point has is given to the first point of the file -/
theorem C165_unknown_fails (F : Fmt D) (fs : Files) (b : Cloud D) {is : List (CItem D)} {t : Text} (hf : fs (b.dir ++ '/' :: b.file) = some t)
    (h : FileSays F is t) (hp : ((CItem.points is).map Prod.fst).Nodup) {l : Nat} {v : D} (hs : CItem.scalars is = [(l, v)])
    (hv : CItem.vectors is = []) (hl : l ∉ (CItem.points is).map Prod.fst) : ∃ b', b.load F fs = .done b' ∧ b'.scalar.data = [(0, v)] := by
  obtain ⟨o, ho, hfr, e⟩ := load_spec F fs b hf h hp (by rw [hs]; simp [Ok]) (by rw [hv]; simp [Ok])
  refine ⟨_, e, ?_⟩
  simp only [hs, map_cons, map_nil]
  rw [pos_of hp, if_neg hl]

/-- a point without a value has none, not zero -/
theorem C165_missing_fails (F : Fmt D) (fs : Files) (b : Cloud D) {is : List (CItem D)} {t : Text} (hf : fs (b.dir ++ '/' :: b.file) = some t)
    (h : FileSays F is t) (hg : GoodRows is) (hr : (CItem.points is).map Prod.fst = range (CItem.points is).length) :
    ∃ b', b.load F fs = .done b' ∧ ∀ l, l ∉ (CItem.scalars is).map Prod.fst → get b'.scalar.data l = none := by
  obtain ⟨b', e, e1, -⟩ := C165_fields_partial F fs b hf h hg hr
  exact ⟨b', e, fun l hl => by rw [e1, get_none_iff]; exact hl⟩

theorem second_loop_thrown (F : Fmt D) (pos : Int → Nat) : ∀ (is : List (CItem D)) (ts : List Text), Forall₂ (CSays F) is ts → ∀ s : Fields D,
    Ok s.scalar → Ok s.vector →
    ¬ (Ok (s.scalar ++ (CItem.scalars is).map (fun e => (pos e.1, e.2))) ∧ Ok (s.vector ++ (CItem.vectors is).map (fun e => (pos e.1, e.2)))) →
    fieldRows F pos s ts = .thrown := by
  intro is ts h
  induction h with
  | nil => intro s h1 h2 hn; exact absurd ⟨by simpa [CItem.scalars] using h1, by simpa [CItem.vectors] using h2⟩ hn
  | @cons i t is ts h _ ih =>
    intro s h1 h2 hn
    have more : ∀ {α : Type} {d : Data α} {j : Nat} {x : α}, Ok d → has d j = false → Ok (d ++ [(j, x)]) := by
      intro α d j x hd hj
      unfold Ok at hd ⊢
      rw [map_append, nodup_append]
      refine ⟨hd, by simp, ?_⟩
      intro a ha b hb hab
      simp at hb
      subst hb
      subst hab
      rw [(has_iff _ _).2 ha] at hj
      exact absurd hj (by simp)
    rw [fieldRows_cons]
    by_cases c1 : ∀ l v, i = .scalar l v → has s.scalar (pos l) = false
    · by_cases c2 : ∀ l p, i = .vector l p → has s.vector (pos l) = false
      · obtain ⟨a, b, e⟩ := field_step F pos s h c1 c2
        rw [e]
        refine ih _ ?_ ?_ ?_
        · cases i with
          | scalar l v => exact more h1 (c1 l v rfl)
          | other => simpa [CItem.scalars] using h1
          | point => simpa [CItem.scalars] using h1
          | vector => simpa [CItem.scalars] using h1
        · cases i with
          | vector l v => exact more h2 (c2 l v rfl)
          | other => simpa [CItem.vectors] using h2
          | point => simpa [CItem.vectors] using h2
          | scalar => simpa [CItem.vectors] using h2
        · rw [scalars_cons, vectors_cons] at hn
          simpa only [map_append, append_assoc] using hn
      · obtain ⟨l, p, hc⟩ : ∃ l p, i = .vector l p ∧ has s.vector (pos l) = true := by
          simpa using c2
        obtain ⟨rfl, hc⟩ := hc
        obtain ⟨q, q', e1, e2, e3⟩ := row_parse F key_vector h
        unfold fieldStep
        simp only [show keyOf t = _ from e1, e2, e3]
        rw [if_neg (by decide)]
        simp [ins, hc, Res.bind]
    · obtain ⟨l, v, hc⟩ : ∃ l v, i = .scalar l v ∧ has s.scalar (pos l) = true := by
        simpa using c1
      obtain ⟨rfl, hc⟩ := hc
      obtain ⟨q, q', q'', e1, e2, e3⟩ := one_parse F key_scalar h
      unfold fieldStep
      simp only [show keyOf t = _ from e1, e2, e3, if_pos]
      simp [ins, hc, Res.bind]

/-- **C165**: two values of a field for the same point, and a file that is not there, end the reading with an exception -/
theorem C165_twice (F : Fmt D) (fs : Files) (b : Cloud D) {is : List (CItem D)} {t : Text} (hf : fs (b.dir ++ '/' :: b.file) = some t)
    (h : FileSays F is t) (hp : ((CItem.points is).map Prod.fst).Nodup)
    (hd : ¬ ((CItem.scalars is).map Prod.fst).Nodup ∨ ¬ ((CItem.vectors is).map Prod.fst).Nodup) : b.load F fs = .thrown := by
  have hl := file_lines h
  obtain ⟨v, e1⟩ := first_loop F hl
  have up : ∀ {α : Type} (rows : List (Nat × α)) (pos : Int → Nat), ¬ (rows.map Prod.fst).Nodup → ¬ Ok ([] ++ rows.map (fun e => (pos e.1, e.2))) := by
    intro α rows pos hn hok
    apply hn
    unfold Ok at hok
    rw [nil_append, map_map] at hok
    have : rows.map (Prod.fst ∘ fun e => (pos e.1, e.2)) = (rows.map Prod.fst).map (fun n : Nat => pos n) := by rw [map_map]; rfl
    rw [this] at hok
    exact hok.of_map _
  have e2 := second_loop_thrown F (posOf (labelsOf (CItem.points is))) is _ hl ⟨v, none, [], []⟩ (by simp [Ok]) (by simp [Ok]) (by
    rintro ⟨a, b⟩
    rcases hd with hd | hd
    · exact up _ _ hd a
    · exact up _ _ hd b)
  unfold Cloud.load Cloud.path
  rw [hf]
  simp only
  rw [e1]
  simp only
  rw [e2]
  rfl

theorem C165_missing_file (F : Fmt D) (fs : Files) (b : Cloud D) (hb : b.read = true) (h : fs (b.dir ++ '/' :: b.file) = none) :
    b.execute F fs = .thrown := by
  unfold Cloud.execute Cloud.load Cloud.path
  rw [if_pos hb, h]
  rfl

/-- **C165**: a value that is missing in the first row of a field of scalars leaves the variable unset: whatever follows, the behaviour is
undefined -/
theorem C165_unset_fails (F : Fmt D) (fs : Files) (b : Cloud D) {is : List (CItem D)} {ts : List Text} (h : Forall₂ (CSays F) is ts)
    (h1 : CItem.scalars is = []) (h2 : CItem.vectors is = []) {u : Text}
    (hf : fs (b.dir ++ '/' :: b.file) = some (ts.flatMap (fun l => l ++ ['\n']) ++ ("$SCALARF\n".toList ++ u))) : b.load F fs = .undefined := by
  have hn : ∀ l ∈ ts, '\n' ∉ l := by
    intro l hl
    clear hf h1 h2
    induction h with
    | nil => exact absurd hl (by simp)
    | cons h _ ih =>
      rcases mem_cons.1 hl with rfl | hl
      · exact csays_line h
      · exact ih hl
  have hl : linesOf (ts.flatMap (fun l => l ++ ['\n']) ++ ("$SCALARF\n".toList ++ u)) = ts ++ scalarKey :: linesOf u := by
    clear h hf
    induction ts with
    | nil => exact lines_cons (l := scalarKey) (by decide) u
    | cons x ts ih =>
      rw [flatMap_cons, append_assoc, append_assoc, singleton_append, lines_cons (hn x mem_cons_self), ih fun y hy => hn y (mem_cons_of_mem _ hy)]
      rfl
  unfold Cloud.load Cloud.path
  rw [hf]
  simp only
  rw [hl]
  cases hr : foldlM (rowStep F pointKey) (none, [], []) (ts ++ scalarKey :: linesOf u) with
  | none => rfl
  | some r =>
    simp only
    have happ : ∀ (pos : Int → Nat) (xs ys : List Text) (s : Fields D),
        fieldRows F pos s (xs ++ ys) = (fieldRows F pos s xs).bind fun s => fieldRows F pos s ys := by
      intro pos xs ys
      induction xs with
      | nil => intro s; rfl
      | cons x xs ih =>
        intro s
        rw [cons_append, fieldRows_cons, fieldRows_cons]
        cases fieldStep F pos s x with
        | done s => exact ih s
        | thrown => rfl
        | undefined => rfl
    have hkeep : ∀ (pos : Int → Nat), ∃ a, fieldRows F pos ⟨r.1, none, [], []⟩ ts = .done ⟨a, none, [], []⟩ := by
      intro pos
      clear hf hl hr hn
      generalize r.1 = v
      induction h generalizing v with
      | nil => exact ⟨v, rfl⟩
      | @cons i t is ts h _ ih =>
        rw [scalars_cons, append_eq_nil_iff] at h1
        rw [vectors_cons, append_eq_nil_iff] at h2
        have hs : fieldStep F pos ⟨v, none, [], []⟩ t = .done ⟨v, none, [], []⟩ := by
          unfold fieldStep
          cases i with
          | other =>
            simp only
            rw [keyOf_other, if_neg (show firstWord t ≠ scalarKey from h.2.2.1), if_neg (show firstWord t ≠ vectorKey from h.2.2.2)]
          | point l p =>
            simp only
            rw [keyOf_other, show firstWord t = _ from row_word F key_point h, if_neg (by decide), if_neg (by decide)]
          | scalar l v => exact absurd h1.1 (by simp [CItem.scalars])
          | vector l v => exact absurd h2.1 (by simp [CItem.vectors])
        obtain ⟨a, e⟩ := ih h1.2 h2.2 v
        exact ⟨a, by rw [fieldRows_cons, hs]; exact e⟩
    obtain ⟨a, e⟩ := hkeep (posOf r.2.1)
    rw [happ, e]
    simp only [Res.bind]
    rw [fieldRows_cons]
    have e3 : fieldStep F (posOf r.2.1) (⟨a, none, [], []⟩ : Fields D) scalarKey = .undefined := by
      unfold fieldStep
      have hk : keyOf scalarKey = (scalarKey, ⟨[], true, false⟩) := by decide
      simp [hk, In.long, In.whole, In.ready, In.good, In.num]
    rw [e3]
    rfl

/-! ### Examples -/

/-- two points with the labels 0 and 1, a value and a vector, a comment -/
def demoCloudText : Text := "$POINT 0 1 2 3\n$POINT 1 4 5 6\n# nothing\n$SCALARF 1 9\n$VECTORF 0 7 7 7".toList

def demoItems : List (CItem Int) := [.point 0 (1, 2, 3), .point 1 (4, 5, 6), .other, .scalar 1 9, .vector 0 (7, 7, 7)]

theorem demo_row (key : Text) (l x y z : Char) (hl : isDigit l = true) (hx : isDigit x = true) (hy : isDigit y = true) (hz : isDigit z = true)
    {n : Nat} {a b c : Int} (h1 : digitsVal [l] = n) (h2 : demoFmt.val [x] = (a, false)) (h3 : demoFmt.val [y] = (b, false))
    (h4 : demoFmt.val [z] = (c, false)) (hb : (n : Int) ≤ LONG_MAX) :
    Says demoFmt key (.row n (a, b, c)) (key ++ ([' '] ++ ([l] ++ ([' '] ++ ([x] ++ ([' '] ++ ([y] ++ ([' '] ++ [z])))))))) := by
  have num : ∀ {d : Char}, isDigit d = true → IsNumber [d] :=
    fun {d} h => ⟨[], [d], [], [], by simp, .inl rfl, by simp, by simpa using h, .inl rfl, .inl rfl⟩
  have gap : Gap [' '] := by unfold Gap; decide
  have emp : Gap [] := by unfold Gap; simp
  exact ⟨[], [' '], [' '], [' '], [' '], [], [l], [x], [y], [z], by simp, emp, gap, gap, gap, gap, emp, by simp, by simp, by simp, by simp,
    ⟨[], [l], rfl, .inl rfl, by simp, by simpa using hl, by simp [h1]⟩, by unfold LONG_MIN; omega, hb, ⟨num hx, h2⟩, ⟨num hy, h3⟩, ⟨num hz, h4⟩⟩

theorem demo_says : FileSays demoFmt demoItems demoCloudText := by
  refine ⟨["$POINT 0 1 2 3".toList, "$POINT 1 4 5 6".toList, "# nothing".toList, "$SCALARF 1 9".toList], "$VECTORF 0 7 7 7".toList,
    [.point 0 (1, 2, 3), .point 1 (4, 5, 6), .other, .scalar 1 9], .vector 0 (7, 7, 7), rfl, by decide, ?_, ?_⟩
  · refine .cons ?_ (.cons ?_ (.cons ?_ (.cons ?_ .nil)))
    · exact demo_row "$POINT".toList '0' '1' '2' '3' (by decide) (by decide) (by decide) (by decide) (by decide) (by decide +kernel)
        (by decide +kernel) (by decide +kernel) (by decide)
    · exact demo_row "$POINT".toList '1' '4' '5' '6' (by decide) (by decide) (by decide) (by decide) (by decide) (by decide +kernel)
        (by decide +kernel) (by decide +kernel) (by decide)
    · refine ⟨by decide, by decide, by decide, by decide⟩
    · have gap : Gap [' '] := by unfold Gap; decide
      have emp : Gap [] := by unfold Gap; simp
      exact ⟨[], [' '], [' '], [], ['1'], ['9'], by decide, emp, gap, gap, emp, by simp, by simp,
        ⟨[], ['1'], rfl, .inl rfl, by simp, by decide, by decide⟩, by decide, by decide,
        ⟨⟨[], ['9'], [], [], by simp, .inl rfl, by simp, by decide, .inl rfl, .inl rfl⟩, by decide +kernel⟩⟩
  · exact demo_row "$VECTORF".toList '0' '7' '7' '7' (by decide) (by decide) (by decide) (by decide) (by decide) (by decide +kernel)
      (by decide +kernel) (by decide +kernel) (by decide)

/-- C165 -/
example : GoodRows demoItems ∧ (CItem.points demoItems).map Prod.fst = range (CItem.points demoItems).length ∧ CItem.scalars demoItems = [(1, 9)] :=
  ⟨⟨by decide, by decide, by decide, by decide, by decide⟩, by decide, by decide⟩

/-- C165: labels that are larger than the number of points -/
example : let is : List (CItem Int) := [.point 10 (1, 2, 3), .point 20 (4, 5, 6), .scalar 20 9]
    GoodRows is ∧ CItem.scalars is ≠ [] ∧ ∀ l ∈ (CItem.points is).map Prod.fst, (CItem.points is).length ≤ l :=
  ⟨⟨by decide, by decide, by decide, by decide, by decide⟩, by decide, by decide⟩

example : let is : List (CItem Int) := [.point 0 (1, 2, 3), .scalar 0 9, .scalar 0 8]
    ((CItem.points is).map Prod.fst).Nodup ∧ ¬ ((CItem.scalars is).map Prod.fst).Nodup := ⟨by decide, by decide⟩

end Verif.Io
