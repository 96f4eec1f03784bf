import Verif.Mesh.QueryProps
/-
The loop of `degradeDegenerateElements` (lemmas for C30 and C40).
-/
namespace Verif.Mesh
open Verif.Field
open List hiding get

variable {P : Type} [DecidableEq P]

/-- the vertices of a cell that are kept: the first one met at each position -/
def keptOf (d : Data P) : List Nat → List (Nat × P) → List (Nat × P)
  | [], k => k
  | v :: l, k =>
    match get d v with
    | none => k
    | some p => if k.any (fun e => decide (e.2 = p)) then keptOf d l k else keptOf d l (k ++ [(v, p)])

/-- pairs of vertices at the same position -/
def SamePos (d : Data P) (m : List (Nat × Nat)) : Prop :=
  ∀ e ∈ m, ∃ p, get d e.1 = some p ∧ get d e.2 = some p

/-- vertices with their position -/
def Located (d : Data P) (k : List (Nat × P)) : Prop := ∀ e ∈ k, get d e.1 = some e.2

theorem find_none_any {k : List (Nat × P)} {p : P} :
    k.find? (fun e => decide (e.2 = p)) = none ↔ k.any (fun e => decide (e.2 = p)) = false := by
  simp [find?_eq_none]

theorem uniq_some (o : Obj P) : ∀ (vs : List Nat) (kept : List (Nat × P)) (vmap : List (Nat × Nat))
    (fill : Option (List Nat)) {r}, uniq o vs kept vmap fill = some r → Located o.verts kept →
    r.1 = keptOf o.verts vs kept ∧ (SamePos o.verts vmap → SamePos o.verts r.2.1) ∧
    kept.length ≤ r.1.length ∧ r.1.length ≤ kept.length + vs.length ∧
    (r.1.length = kept.length + vs.length → r.2.1 = vmap) := by
  intro vs
  induction vs with
  | nil =>
    intro kept vmap fill r hr _
    injection hr with hr; subst hr
    exact ⟨rfl, id, Nat.le_refl _, by simp, fun _ => rfl⟩
  | cons v vs ih =>
    intro kept vmap fill r hr hl
    rw [uniq] at hr
    cases hg : get o.verts v with
    | none => rw [hg] at hr; cases hr
    | some p =>
      rw [hg] at hr
      simp only at hr
      cases hf : kept.find? (fun e => decide (e.2 = p)) with
      | none =>
        rw [hf] at hr
        simp only at hr
        have hl' : Located o.verts (kept ++ [(v, p)]) := by
          intro e he
          rcases mem_append.1 he with h | h
          · exact hl e h
          · rw [mem_singleton] at h; subst h; exact hg
        obtain ⟨h1, h2, h3, h4, h5⟩ := ih (kept ++ [(v, p)]) vmap fill hr hl'
        simp only [length_append, length_cons, length_nil] at h3 h4 h5
        refine ⟨?_, h2, by omega, by simp only [length_cons]; omega, ?_⟩
        · rw [h1, keptOf, hg]
          simp only
          rw [if_neg (by rw [find_none_any.1 hf]; simp)]
        · intro h; apply h5; simp only [length_cons] at h; omega
      | some w =>
        rw [hf] at hr
        simp only at hr
        have hany : kept.any (fun e => decide (e.2 = p)) = true := by
          cases h : kept.any (fun e => decide (e.2 = p)) with
          | true => rfl
          | false => rw [find_none_any.2 h] at hf; cases hf
        have hw : get o.verts w.1 = some p := by
          have h1 := hl w (mem_of_find?_eq_some hf)
          have h2 := find?_some hf
          simp only [decide_eq_true_eq] at h2
          rw [h1, h2]
        have hsp : SamePos o.verts vmap → SamePos o.verts
            (if vmap.any (fun e => e.1 == v) then vmap else vmap ++ [(v, w.1)]) := by
          intro hs
          split
          · exact hs
          · intro e he
            rcases mem_append.1 he with h | h
            · exact hs e h
            · rw [mem_singleton] at h; subst h; exact ⟨p, hg, hw⟩
        have key : ∀ fill', uniq o vs kept (if vmap.any (fun e => e.1 == v) then vmap else vmap ++ [(v, w.1)]) fill' =
            some r → r.1 = keptOf o.verts (v :: vs) kept ∧ (SamePos o.verts vmap → SamePos o.verts r.2.1) ∧
            kept.length ≤ r.1.length ∧ r.1.length ≤ kept.length + (v :: vs).length ∧
            (r.1.length = kept.length + (v :: vs).length → r.2.1 = vmap) := by
          intro fill' hr'
          obtain ⟨h1, h2, h3, h4, h5⟩ := ih kept _ fill' hr' hl
          refine ⟨?_, h2 ∘ hsp, h3, by simp only [length_cons]; omega, ?_⟩
          · rw [h1, keptOf, hg]
            simp only
            rw [if_pos hany]
          · intro h; simp only [length_cons] at h; omega
        cases fill with
        | none => exact key _ hr
        | some l =>
          simp only at hr
          split at hr
          · cases hr
          · exact key _ hr

/-- without the list of collapsed vertices the loop over the vertices of a cell does not fail -/
theorem uniq_none (o : Obj P) : ∀ (vs : List Nat) (kept : List (Nat × P)) (vmap : List (Nat × Nat)),
    (∀ v ∈ vs, has o.verts v = true) → ∃ k m, uniq o vs kept vmap none = some (k, m, none) := by
  intro vs
  induction vs with
  | nil => intro kept vmap _; exact ⟨_, _, rfl⟩
  | cons v vs ih =>
    intro kept vmap hv
    have h1 := hv v (by simp)
    rw [has_eq_isSome, Option.isSome_iff_exists] at h1
    obtain ⟨p, hp⟩ := h1
    rw [uniq, hp]
    simp only
    split
    · exact ih _ _ (fun v h => hv v (by simp [h]))
    · exact ih _ _ (fun v h => hv v (by simp [h]))

/-- the kept vertices: located, at distinct positions, in the order of the cell, one for each of its positions -/
theorem keptOf_spec (d : Data P) : ∀ (vs : List Nat) (kept : List (Nat × P)), (∀ v ∈ vs, has d v = true) →
    Located d kept → (kept.map Prod.snd).Nodup →
    Located d (keptOf d vs kept) ∧ ((keptOf d vs kept).map Prod.snd).Nodup ∧
    (∃ l, keptOf d vs kept = kept ++ l ∧ (l.map Prod.fst).Sublist vs) ∧
    (∀ v ∈ vs, ∀ p, get d v = some p → p ∈ (keptOf d vs kept).map Prod.snd) := by
  intro vs
  induction vs with
  | nil => intro kept _ hl hn; exact ⟨hl, hn, ⟨[], by simp [keptOf]⟩, by simp⟩
  | cons v vs ih =>
    intro kept hv hl hn
    have h1 := hv v (by simp)
    rw [has_eq_isSome, Option.isSome_iff_exists] at h1
    obtain ⟨p, hp⟩ := h1
    rw [keptOf, hp]
    simp only
    split
    · next hany =>
      obtain ⟨i1, i2, ⟨l, hk, hs⟩, i4⟩ := ih kept (fun v h => hv v (by simp [h])) hl hn
      refine ⟨i1, i2, ⟨l, hk, hs.cons v⟩, ?_⟩
      intro w hw q hq
      rcases mem_cons.1 hw with rfl | hw
      · rw [hp] at hq; injection hq with hq; subst hq
        rw [any_eq_true] at hany
        obtain ⟨e, he, h⟩ := hany
        simp only [decide_eq_true_eq] at h
        rw [hk, map_append, mem_append]
        exact Or.inl (h ▸ mem_map_of_mem he)
      · exact i4 w hw q hq
    · next hany =>
      have hl' : Located d (kept ++ [(v, p)]) := by
        intro e he
        rcases mem_append.1 he with h | h
        · exact hl e h
        · rw [mem_singleton] at h; subst h; exact hp
      have hn' : ((kept ++ [(v, p)]).map Prod.snd).Nodup := by
        rw [map_append, nodup_append]
        refine ⟨hn, by simp, ?_⟩
        intro a ha b hb hab
        simp only [map_cons, map_nil, mem_singleton] at hb
        apply hany
        rw [any_eq_true]
        obtain ⟨e, he, h⟩ := mem_map.1 ha
        exact ⟨e, he, by simp only [decide_eq_true_eq]; rw [h, hab, hb]⟩
      obtain ⟨i1, i2, ⟨l, hk, hs⟩, i4⟩ := ih (kept ++ [(v, p)]) (fun v h => hv v (by simp [h])) hl' hn'
      refine ⟨i1, i2, ⟨(v, p) :: l, by rw [hk]; simp, by simpa using hs⟩, ?_⟩
      intro w hw q hq
      rcases mem_cons.1 hw with rfl | hw
      · rw [hp] at hq; injection hq with hq; subst hq
        rw [hk]; simp
      · exact i4 w hw q hq

/-- element of a mesh type with a given number of vertices (specification) -/
def canon (type n : Nat) : Option Elem :=
  match type, n with
  | 1, 3 => some .triangle
  | 1, 4 => some .quad
  | 2, 4 => some .tetra
  | 2, 5 => some .pyramid
  | 2, 6 => some .wedge
  | 2, 8 => some .hexahedron
  | 3, 1 => some .vertex
  | 4, 2 => some .line
  | _, _ => none

/-- a cell whose element is the one its mesh type gives to its number of vertices: triangle, quadrilateral,
tetrahedron, pyramid, wedge, hexahedron, vertex, line -/
def Canon (type : Nat) (c : Cell) : Prop := canon type c.conn.length = some c.elem

theorem canon_some {type n : Nat} {e : Elem} (h : canon type n = some e) : e ≠ .undefined ∧
    e ≠ .polygon ∧ e ≠ .polyhedron ∧ n ≤ 8 ∧ (type = 1 → n ≤ 4) := by
  unfold canon at h
  split at h <;> first
    | (injection h with h; subst h; refine ⟨by decide, by decide, by decide, by omega, by omega⟩)
    | cases h

theorem canon_vertexIds {type : Nat} {c : Cell} (h : Canon type c) : vertexIds c = c.conn := by
  obtain ⟨_, h2, h3, _, _⟩ := canon_some h
  unfold vertexIds
  cases he : c.elem <;> simp_all

theorem desume_canon {type : Nat} {l : List Int} (h : l.length ≤ 8) (h1 : type = 1 → l.length ≤ 4) :
    desume type l = (canon type l.length).getD .undefined := by
  unfold desume
  split
  · have hl := h1 rfl
    simp only
    rw [if_neg (by omega)]
    have : l.length = 0 ∨ l.length = 1 ∨ l.length = 2 ∨ l.length = 3 ∨ l.length = 4 := by omega
    rcases this with h | h | h | h | h <;> simp [h, canon]
  · simp only
    rw [if_neg (by omega)]
    have : l.length = 0 ∨ l.length = 1 ∨ l.length = 2 ∨ l.length = 3 ∨ l.length = 4 ∨ l.length = 5 ∨ l.length = 6 ∨
      l.length = 7 ∨ l.length = 8 := by omega
    rcases this with h | h | h | h | h | h | h | h | h <;> simp [h, canon]
  · split
    · next h => simp [h, canon]
    · next h =>
      unfold canon
      split <;> first | rfl | omega
  · split
    · next h => simp [h, canon]
    · next h =>
      unfold canon
      split <;> first | rfl | omega
  · next h1 h2 h3 h4 =>
    unfold canon
    split <;> first | rfl | exact absurd rfl h1 | exact absurd rfl h2 | exact absurd rfl h3 | exact absurd rfl h4

/-- a cell of such a mesh is kept exactly when none of its vertices is collapsed -/
theorem canon_inj {type n n' : Nat} {e : Elem} (h : canon type n = some e) (h' : canon type n' = some e) : n = n' := by
  unfold canon at h
  split at h <;> first
    | (injection h with h; subst h; unfold canon at h'; split at h' <;> first | rfl | (injection h' with h'; cases h') | (cases h') | omega)
    | cases h

theorem degrStep_canon (o : Obj P) {s s' : Degr} {c : Nat × Cell} (hc : Canon o.type c.2)
    (hs : degrStep o s c = some s') : (s'.vmap = s.vmap ∧ s'.del = s.del) ∨ s'.del ≠ [] := by
  unfold degrStep at hs
  split at hs
  · cases hs
  · next kept vmap fill hu =>
    have hl : Located o.verts [] := by intro e he; cases he
    obtain ⟨h1, _, _, h4, h5⟩ := uniq_some o _ [] _ _ hu hl
    simp only at h1 h4 h5
    simp only at hs
    split at hs
    · injection hs with hs; subst hs; right; simp
    · next ht =>
      injection hs with hs; subst hs
      left
      refine ⟨h5 ?_, rfl⟩
      have hlen : (((kept.map Prod.fst).map Int.ofNat)).length = kept.length := by simp
      rw [canon_vertexIds hc] at h4 ⊢
      simp only [length_nil, Nat.zero_add] at h4 ⊢
      obtain ⟨hnu, _, _, h8, h41⟩ := canon_some hc
      have hd := desume_canon (type := o.type) (l := (kept.map Prod.fst).map Int.ofNat) (by rw [hlen]; omega)
        (by intro ht1; have := h41 ht1; rw [hlen]; omega)
      rw [hlen] at hd
      have ht' : desume o.type ((kept.map Prod.fst).map Int.ofNat) = c.2.elem := by simpa using ht
      rw [hd] at ht'
      cases hcn : canon o.type kept.length with
      | none => rw [hcn] at ht'; exact absurd ht'.symm hnu
      | some e =>
        rw [hcn] at ht'
        simp only [Option.getD_some] at ht'
        subst ht'
        exact canon_inj hcn hc

/-- in such a mesh, if vertices are collapsed then cells are deleted or replaced -/
theorem degr_collapse (o : Obj P) : ∀ (cs : List (Nat × Cell)) {s s' : Degr}, (∀ c ∈ cs, Canon o.type c.2) →
    cs.foldlM (degrStep o) s = some s' → (s.vmap = [] ∨ s.del ≠ []) → s'.vmap = [] ∨ s'.del ≠ [] := by
  intro cs
  induction cs with
  | nil => intro s s' _ hs h; injection hs with hs; subst hs; exact h
  | cons c cs ih =>
    intro s s' hc hs h
    rw [foldlM_cons] at hs
    simp only [Option.bind_eq_bind, Option.bind_eq_some_iff] at hs
    obtain ⟨s1, h1, h2⟩ := hs
    refine ih (fun c h => hc c (by simp [h])) h2 ?_
    rcases degrStep_canon o (hc c (by simp)) h1 with ⟨h3, h4⟩ | h3
    · rw [h3, h4]; exact h
    · exact Or.inr h3

end Verif.Mesh
