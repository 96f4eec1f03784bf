import Verif.Io.CloudProps
import Verif.Recon.ChooseXml
/-
C166: writing of clouds of points with fields; settings and XML section.
-/
namespace Verif.Io
open Verif.Xml Verif.Create Verif.Field Verif.Mesh
open List hiding get get_of_mem

variable {D : Type}

/-- a point as it is written -/
def round3 (F : Fmt D) (p : P3 D) : P3 D := (F.round p.1, F.round p.2.1, F.round p.2.2)

def Prints3 (F : Fmt D) (p : P3 D) : Prop := Prints F p.1 ∧ Prints F p.2.1 ∧ Prints F p.2.2

/-- what the lines of a file say -/
def itemsOf (F : Fmt D) (o : Pc D) (sc : Data D) (ve : Data (P3 D)) : List (CItem D) :=
  o.verts.map (fun e => CItem.point e.1 (round3 F e.2)) ++ (.other ::
    ((o.verts.map Prod.fst).filterMap (fun l => (get sc l).map fun v => CItem.scalar l (F.round v)) ++ (.other ::
      ((o.verts.map Prod.fst).filterMap (fun l => (get ve l).map fun v => CItem.vector l (round3 F v)) ++ [.other, .other]))))

theorem points_append (a b : List (CItem D)) : CItem.points (a ++ b) = CItem.points a ++ CItem.points b := filterMap_append ..
theorem scalars_append (a b : List (CItem D)) : CItem.scalars (a ++ b) = CItem.scalars a ++ CItem.scalars b := filterMap_append ..
theorem vectors_append (a b : List (CItem D)) : CItem.vectors (a ++ b) = CItem.vectors a ++ CItem.vectors b := filterMap_append ..

theorem points_other (l : List (CItem D)) : CItem.points (.other :: l) = CItem.points l := rfl
theorem scalars_other (l : List (CItem D)) : CItem.scalars (.other :: l) = CItem.scalars l := rfl
theorem vectors_other (l : List (CItem D)) : CItem.vectors (.other :: l) = CItem.vectors l := rfl

theorem none_of {α β γ : Type} (g : β → Option γ) (f : α → β) (h : ∀ a, g (f a) = none) : ∀ l : List α, (l.map f).filterMap g = [] := by
  intro l
  induction l with
  | nil => rfl
  | cons a l ih => rw [map_cons, filterMap_cons_none (h a), ih]

theorem none_of' {α β γ : Type} (g : β → Option γ) (f : α → Option β) (h : ∀ a b, f a = some b → g b = none) : ∀ l : List α,
    (l.filterMap f).filterMap g = [] := by
  intro l
  rw [filterMap_filterMap]
  induction l with
  | nil => rfl
  | cons a l ih =>
    rw [filterMap_cons_none, ih]
    cases e : f a with
    | none => rfl
    | some b => exact h a b e

theorem items_points (F : Fmt D) (o : Pc D) (sc : Data D) (ve : Data (P3 D)) :
    CItem.points (itemsOf F o sc ve) = o.verts.map (fun e => (e.1, round3 F e.2)) := by
  unfold itemsOf
  rw [points_append, points_other, points_append, points_other, points_append]
  have e1 : CItem.points (o.verts.map (fun e => CItem.point e.1 (round3 F e.2))) = o.verts.map (fun e => (e.1, round3 F e.2)) := by
    induction o.verts with
    | nil => rfl
    | cons a l ih => rw [map_cons, points_cons, ih]; rfl
  have e2 : CItem.points ((o.verts.map Prod.fst).filterMap (fun l => (get sc l).map fun v => CItem.scalar l (F.round v))) = [] := by
    refine none_of' _ _ ?_ _
    intro a b h
    obtain ⟨v, -, rfl⟩ := Option.map_eq_some_iff.1 h
    rfl
  have e3 : CItem.points ((o.verts.map Prod.fst).filterMap (fun l => (get ve l).map fun v => CItem.vector l (round3 F v))) = [] := by
    refine none_of' _ _ ?_ _
    intro a b h
    obtain ⟨v, -, rfl⟩ := Option.map_eq_some_iff.1 h
    rfl
  rw [e1, e2, e3]
  simp [CItem.points]

theorem items_scalars (F : Fmt D) (o : Pc D) (sc : Data D) (ve : Data (P3 D)) :
    CItem.scalars (itemsOf F o sc ve) = (o.verts.map Prod.fst).filterMap (fun l => (get sc l).map fun v => (l, F.round v)) := by
  unfold itemsOf
  rw [scalars_append, scalars_other, scalars_append, scalars_other, scalars_append]
  have e1 : CItem.scalars (o.verts.map (fun e => CItem.point e.1 (round3 F e.2))) = [] := none_of _ _ (fun _ => rfl) _
  have e2 : CItem.scalars ((o.verts.map Prod.fst).filterMap (fun l => (get sc l).map fun v => CItem.scalar l (F.round v))) =
      (o.verts.map Prod.fst).filterMap (fun l => (get sc l).map fun v => (l, F.round v)) := by
    unfold CItem.scalars
    rw [filterMap_filterMap]
    congr 1
    funext l
    cases get sc l <;> rfl
  have e3 : CItem.scalars ((o.verts.map Prod.fst).filterMap (fun l => (get ve l).map fun v => CItem.vector l (round3 F v))) = [] := by
    refine none_of' _ _ ?_ _
    intro a b h
    obtain ⟨v, -, rfl⟩ := Option.map_eq_some_iff.1 h
    rfl
  rw [e1, e2, e3]
  simp [CItem.scalars]

theorem items_vectors (F : Fmt D) (o : Pc D) (sc : Data D) (ve : Data (P3 D)) :
    CItem.vectors (itemsOf F o sc ve) = (o.verts.map Prod.fst).filterMap (fun l => (get ve l).map fun v => (l, round3 F v)) := by
  unfold itemsOf
  rw [vectors_append, vectors_other, vectors_append, vectors_other, vectors_append]
  have e1 : CItem.vectors (o.verts.map (fun e => CItem.point e.1 (round3 F e.2))) = [] := none_of _ _ (fun _ => rfl) _
  have e2 : CItem.vectors ((o.verts.map Prod.fst).filterMap (fun l => (get sc l).map fun v => CItem.scalar l (F.round v))) = [] := by
    refine none_of' _ _ ?_ _
    intro a b h
    obtain ⟨v, -, rfl⟩ := Option.map_eq_some_iff.1 h
    rfl
  have e3 : CItem.vectors ((o.verts.map Prod.fst).filterMap (fun l => (get ve l).map fun v => CItem.vector l (round3 F v))) =
      (o.verts.map Prod.fst).filterMap (fun l => (get ve l).map fun v => (l, round3 F v)) := by
    unfold CItem.vectors
    rw [filterMap_filterMap]
    congr 1
    funext l
    cases get ve l <;> rfl
  rw [e1, e2, e3]
  simp [CItem.vectors]

theorem lines_of_get {α : Type} (d : Data α) (f : Nat → α → Text) (g : Nat → Text) (h0 : ∀ l, get d l = none → g l = [])
    (h1 : ∀ l v, get d l = some v → g l = f l v ++ ['\n']) : ∀ ids : List Nat,
    ids.flatMap g = (ids.filterMap (fun l => (get d l).map (f l))).flatMap (fun t => t ++ ['\n']) := by
  intro ids
  induction ids with
  | nil => rfl
  | cons l ids ih =>
    rw [flatMap_cons, ih]
    cases h : get d l with
    | none => rw [filterMap_cons_none (by rw [h]; rfl), h0 l h]; rfl
    | some v => rw [filterMap_cons_some (by rw [h]; rfl), flatMap_cons, h1 l v h]

theorem says_scalar {F : Fmt D} {l : Nat} {v : D} (h2 : (l : Int) ≤ LONG_MAX) (hx : Prints F v) :
    CSays F (.scalar l (F.round v)) (scalarText F false l v) := by
  show SaysOne F scalarKey (l : Int) (F.round v) (scalarText F false l v)
  refine ⟨[], ['\t'], ['\t'], [], intText l, F.put v, ?_, by intro c hc; exact absurd hc (by simp), gap_tab, gap_tab,
    by intro c hc; exact absurd hc (by simp), by simp, by simp, intText_whole l, by unfold LONG_MIN; omega, h2, hx.1, Prod.ext rfl hx.2⟩
  simp [scalarText]

theorem csays_empty (F : Fmt D) : CSays F .other [] := by
  refine ⟨by simp, ?_, ?_, ?_⟩ <;> (show ([] : Text) ≠ _; decide)

/-- a file that was written says what was written -/
theorem text_says (F : Fmt D) (o : Pc D) (sc : Data D) (ve : Data (P3 D)) (hl : ∀ e ∈ o.verts, (e.1 : Int) ≤ LONG_MAX)
    (hp : ∀ e ∈ o.verts, Prints3 F e.2) (hs : ∀ e ∈ o.verts, ∀ v, get sc e.1 = some v → Prints F v)
    (hv : ∀ e ∈ o.verts, ∀ v, get ve e.1 = some v → Prints3 F v) : FileSays F (itemsOf F o sc ve) (cloudText F false o sc ve) := by
  refine ⟨o.verts.map (fun e => rowText F pointKey false e.1 e.2) ++ ([] ::
      ((o.verts.map Prod.fst).filterMap (fun l => (get sc l).map fun v => scalarText F false l v) ++ ([] ::
        ((o.verts.map Prod.fst).filterMap (fun l => (get ve l).map fun v => rowText F vectorKey false l v) ++ [[]])))), [],
    o.verts.map (fun e => CItem.point e.1 (round3 F e.2)) ++ (.other ::
      ((o.verts.map Prod.fst).filterMap (fun l => (get sc l).map fun v => CItem.scalar l (F.round v)) ++ (.other ::
        ((o.verts.map Prod.fst).filterMap (fun l => (get ve l).map fun v => CItem.vector l (round3 F v)) ++ [.other])))), .other, ?_, ?_, ?_,
    csays_empty F⟩
  · simp [itemsOf]
  · unfold cloudText
    rw [lines_of_get sc (fun l v => scalarText F false l v) _ ?_ ?_, lines_of_get ve (fun l v => rowText F vectorKey false l v) _ ?_ ?_]
    · simp [flatMap_append, flatMap_cons, flatMap_map]
    · intro l h; simp [h]
    · intro l v h; simp [h]
    · intro l h; simp [h]
    · intro l v h; simp [h]
  · have two : ∀ {α : Type} (d : Data α) (f : Nat → α → CItem D) (g : Nat → α → Text) (ids : List Nat),
        (∀ l ∈ ids, ∀ v, get d l = some v → CSays F (f l v) (g l v)) →
        Forall₂ (CSays F) (ids.filterMap (fun l => (get d l).map (f l))) (ids.filterMap (fun l => (get d l).map (g l))) := by
      intro α d f g ids
      induction ids with
      | nil => intro _; exact .nil
      | cons l ids ih =>
        intro h
        cases e : get d l with
        | none =>
          rw [filterMap_cons_none (by rw [e]; rfl), filterMap_cons_none (by rw [e]; rfl)]
          exact ih fun x hx => h x (mem_cons_of_mem _ hx)
        | some v =>
          rw [filterMap_cons_some (by rw [e]; rfl), filterMap_cons_some (by rw [e]; rfl)]
          exact .cons (h l mem_cons_self v e) (ih fun x hx => h x (mem_cons_of_mem _ hx))
    refine rel_append ?_ (.cons (csays_empty F) (rel_append ?_ (.cons (csays_empty F) (rel_append ?_ (.cons (csays_empty F) .nil)))))
    · rw [forall₂_map_left_iff, forall₂_map_right_iff, forall₂_same]
      intro e he
      obtain ⟨p1, p2, p3⟩ := hp e he
      exact says_row (key := pointKey) (by unfold LONG_MIN; omega) (hl e he) p1 p2 p3
    · refine two sc (fun l v => CItem.scalar l (F.round v)) (fun l v => scalarText F false l v) _ ?_
      intro l hm v e
      obtain ⟨x, hx, rfl⟩ := mem_map.1 hm
      exact says_scalar (hl x hx) (hs x hx v e)
    · refine two ve (fun l v => CItem.vector l (round3 F v)) (fun l v => rowText F vectorKey false l v) _ ?_
      intro l hm v e
      obtain ⟨x, hx, rfl⟩ := mem_map.1 hm
      obtain ⟨p1, p2, p3⟩ := hv x hx v e
      exact says_row (key := vectorKey) (by unfold LONG_MIN; omega) (hl x hx) p1 p2 p3

theorem keys_filterMap {α β : Type} (d : Data α) (f : α → β) : ∀ ids : List Nat,
    (ids.filterMap (fun l => (get d l).map fun v => (l, f v))).map Prod.fst = ids.filter (fun l => (get d l).isSome) := by
  intro ids
  induction ids with
  | nil => rfl
  | cons l ids ih =>
    cases e : get d l with
    | none => rw [filterMap_cons_none (by rw [e]; rfl), filter_cons_of_neg (by simp [e]), ih]
    | some v => rw [filterMap_cons_some (by rw [e]; rfl), filter_cons_of_pos (by simp [e]), map_cons, ih]

theorem items_good (F : Fmt D) (o : Pc D) (ho : Ok o.verts) (sc : Data D) (ve : Data (P3 D)) : GoodRows (itemsOf F o sc ve) := by
  have hk : (CItem.points (itemsOf F o sc ve)).map Prod.fst = o.verts.map Prod.fst := by
    rw [items_points, map_map]; rfl
  refine ⟨by rw [hk]; exact ho, ?_, ?_, ?_, ?_⟩
  · rw [items_scalars, keys_filterMap]; exact Nodup.filter _ ho
  · rw [items_vectors, keys_filterMap]; exact Nodup.filter _ ho
  · rw [items_scalars, keys_filterMap, hk]; intro l hl; exact (mem_filter.1 hl).1
  · rw [items_vectors, keys_filterMap, hk]; intro l hl; exact (mem_filter.1 hl).1

/-- a field that fits a cloud: values at points of it, attached to it or to nothing -/
structure Fits {α : Type} (o : Pc D) (f : Field Geo α) : Prop where
  ids : Ok f.data
  mem : ∀ e ∈ f.data, e.1 ∈ o.verts.map Prod.fst
  geo : f.geo = none ∨ f.geo = some (idsOf o)

/-- the value of a field at a point: zero if the field has values but none there -/
def valueAt {α : Type} (zero : α) (f : Field Geo α) (l : Nat) : Option α := if f.data = [] then none else some ((get f.data l).getD zero)

theorem ready_spec {α : Type} {o : Pc D} (ho : Ok o.verts) (hoc : Ok o.cells) (zero : α) {f : Field Geo α} (hf : Fits o f) :
    ∃ f', ready o zero f = some f' ∧ ∀ l ∈ o.verts.map Prod.fst, get f'.data l = valueAt zero f l := by
  have hgeo : f.geo.getD (idsOf o) = idsOf o := by
    rcases hf.geo with h | h <;> rw [h] <;> rfl
  unfold ready valueAt
  simp only [hgeo]
  cases hd : f.data with
  | nil =>
    refine ⟨_, rfl, fun l _ => ?_⟩
    simp [hd, Verif.Field.get]
  | cons x d =>
    have hok : FieldOk ({ f with geo := some (idsOf o), loc := .point } : Field Geo α) := by
      refine ⟨hf.ids, ?_⟩
      intro g hg
      injection hg with hg
      subst hg
      exact ⟨ho, hoc, by simp [idsOf]⟩
    obtain ⟨f', e, -, -, -, -, h1, -⟩ := C25_complete hok (by simp) (by simp) zero (by
      intro e he
      exact hf.mem e he)
    refine ⟨f', ?_, ?_⟩
    · rw [if_neg (by simp)]
      have e' := e
      simp only [hd] at e'
      rw [e']
      rfl
    · intro l hl
      rw [if_neg (by simp), h1 l hl]
      simp only [hd]

/-- **C166**: a cloud that was written is read as it was written: the same labels, the coordinates as they are printed, and at the position
of each point the value of each field that has values, as it is printed, zero where it had none -/
theorem C166_round_trip (F : Fmt D) (fs : Files) (b r : Cloud D) {o : Pc D} (hb : b.read = false) (hr : r.read = true) (ht : b.template = false)
    (hd : r.dir = b.dir) (hn : r.file = b.file) (hg : b.geo = some o) (ho : Ok o.verts) (hoc : Ok o.cells) (hs : Fits o b.scalar) (hv : Fits o b.vector)
    (hl : ∀ e ∈ o.verts, (e.1 : Int) ≤ LONG_MAX) (hp : ∀ e ∈ o.verts, Prints3 F e.2)
    (hps : ∀ e ∈ o.verts, ∀ v, valueAt F.zero b.scalar e.1 = some v → Prints F v)
    (hpv : ∀ e ∈ o.verts, ∀ v, valueAt (F.zero, F.zero, F.zero) b.vector e.1 = some v → Prints3 F v) :
    ∃ b' fs' q r', b.execute F fs = .done (b', fs') ∧ r.execute F fs' = .done (r', fs') ∧ r'.geo = some q ∧
      IsPc (o.verts.map (fun e => (e.1, round3 F e.2))) q ∧
      r'.scalar.data = (o.verts.map Prod.fst).filterMap (fun l => (valueAt F.zero b.scalar l).map fun v => ((o.verts.map Prod.fst).idxOf l, F.round v)) ∧
      r'.vector.data = (o.verts.map Prod.fst).filterMap
        (fun l => (valueAt (F.zero, F.zero, F.zero) b.vector l).map fun v => ((o.verts.map Prod.fst).idxOf l, round3 F v)) := by
  obtain ⟨sc, es, gs⟩ := ready_spec ho hoc F.zero hs
  obtain ⟨ve, ev, gv⟩ := ready_spec ho hoc (F.zero, F.zero, F.zero) hv
  have e1 : b.execute F fs = .done ({ b with scalar := sc, vector := ve }, fs.put b.path (cloudText F false o sc.data ve.data)) := by
    unfold Cloud.execute Cloud.save
    rw [if_neg (by simp [hb]), hg]
    simp only [es, ev, ht]
  have hsays := text_says F o sc.data ve.data hl hp
    (fun e he v h => hps e he v (by rw [← gs _ (mem_map_of_mem he)]; exact h))
    (fun e he v h => hpv e he v (by rw [← gv _ (mem_map_of_mem he)]; exact h))
  obtain ⟨q, r', e2, e3, e4, -, -, -, e5, -, -, e6, -⟩ := C165_read F (fs.put b.path (cloudText F false o sc.data ve.data)) r
    (by unfold Files.put Cloud.path; rw [hd, hn, if_pos rfl]) hsays (items_good F o ho sc.data ve.data)
  have hpos : posIn (CItem.points (itemsOf F o sc.data ve.data)) = fun l => (o.verts.map Prod.fst).idxOf l := by
    funext l
    unfold posIn
    rw [items_points, map_map]
    rfl
  refine ⟨_, _, q, r', e1, ?_, e3, ?_, ?_, ?_⟩
  · unfold Cloud.execute
    rw [if_pos hr, e2]
    rfl
  · rw [items_points] at e4; exact e4
  · rw [e5, hpos, items_scalars, map_filterMap]
    apply filterMap_congr
    intro l hm
    rw [gs l hm]
    cases valueAt F.zero b.scalar l <;> rfl
  · rw [e6, hpos, items_vectors, map_filterMap]
    apply filterMap_congr
    intro l hm
    rw [gv l hm]
    cases valueAt (F.zero, F.zero, F.zero) b.vector l <;> rfl

end Verif.Io
