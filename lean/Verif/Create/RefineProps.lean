import Verif.Create.CloudProps
/-
Refinement of a curve: the invariant of the loop that splits the longest line (src/iogeneric/Create3DCurve.cpp:461-516)
-/
namespace Verif.Create
open Verif.Shape Verif.Field Verif.Mesh
open List hiding get get_of_mem

noncomputable section

/-- what a vertex of a curve has: its place and the values of its fields -/
structure Val where
  p : V3
  f : ℝ
  w : V3

/-- linear interpolation -/
def mix (τ : ℝ) (x y : Val) : Val :=
  ⟨V3.scale (1 - τ) x.p + V3.scale τ y.p, (1 - τ) * x.f + τ * y.f, V3.scale (1 - τ) x.w + V3.scale τ y.w⟩

/-- the queue takes out an element with the greatest first component -/
structure GoodPop (pop : Pop) : Prop where
  nil : pop [] = none
  some : ∀ q, q ≠ [] → ∃ e r, pop q = some (e, r) ∧ q.Perm (e :: r) ∧ ∀ x ∈ r, x.1 ≤ e.1

theorem exists_max : ∀ q : List (ℝ × Nat), q ≠ [] → ∃ e r, q.Perm (e :: r) ∧ ∀ x ∈ r, x.1 ≤ e.1
  | [], h => absurd rfl h
  | [a], _ => ⟨a, [], Perm.refl _, by simp⟩
  | a :: b :: q, _ => by
    obtain ⟨e, r, h1, h2⟩ := exists_max (b :: q) (by simp)
    rcases le_total a.1 e.1 with h | h
    · refine ⟨e, a :: r, (h1.cons a).trans (Perm.swap e a r), ?_⟩
      intro x hx
      rcases mem_cons.1 hx with rfl | hx
      · exact h
      · exact h2 x hx
    · refine ⟨a, e :: r, h1.cons a, ?_⟩
      intro x hx
      rcases mem_cons.1 hx with rfl | hx
      · exact h
      · exact (h2 x hx).trans h

theorem goodPop_exists : ∃ pop, GoodPop pop := by
  classical
  refine ⟨fun q => if h : q ≠ [] then some ((exists_max q h).choose, (exists_max q h).choose_spec.choose) else none, by simp, ?_⟩
  intro q h
  exact ⟨_, _, by simp only [dif_pos h], (exists_max q h).choose_spec.choose_spec⟩

/-- place and values of a vertex -/
def valOf (points : Data V3) (scalar : Data ℝ) (vector : Data V3) (v : Nat) : Option Val :=
  match get points v, get scalar v, get vector v with
  | some p, some f, some w => some ⟨p, f, w⟩
  | _, _, _ => none

def Refine.val (s : Refine) (v : Nat) : Option Val := valOf s.points s.scalar s.vector v

theorem valOf_some {points : Data V3} {scalar : Data ℝ} {vector : Data V3} {v : Nat} {x : Val} :
    valOf points scalar vector v = some x ↔ get points v = some x.p ∧ get scalar v = some x.f ∧ get vector v = some x.w := by
  unfold valOf
  cases hp : get points v <;> cases hf : get scalar v <;> cases hw : get vector v <;> simp
  constructor
  · rintro rfl; exact ⟨rfl, rfl, rfl⟩
  · rintro ⟨rfl, rfl, rfl⟩; rfl

/-- a line of the curve: id, first and second vertex, parameters of the two -/
structure Seg where
  c : Nat
  a : Nat
  b : Nat
  s : ℝ
  t : ℝ

/-- the lines go one after the other from a vertex and parameter to another -/
inductive Linked : Nat × ℝ → List Seg → Nat × ℝ → Prop
  | nil (x) : Linked x [] x
  | cons (g : Seg) (l z) : Linked (g.b, g.t) l z → Linked (g.a, g.s) (g :: l) z

theorem linked_append {x z : Nat × ℝ} {l r : List Seg} : Linked x (l ++ r) z ↔ ∃ y, Linked x l y ∧ Linked y r z := by
  induction l generalizing x with
  | nil =>
    constructor
    · intro h; exact ⟨x, .nil x, h⟩
    · rintro ⟨y, h1, h2⟩; cases h1; exact h2
  | cons g l ih =>
    constructor
    · intro h
      cases h with
      | cons _ _ _ h =>
        obtain ⟨y, h1, h2⟩ := ih.1 h
        exact ⟨y, .cons g l y h1, h2⟩
    · rintro ⟨y, h1, h2⟩
      cases h1 with
      | cons _ _ _ h1 => exact .cons g (l ++ r) z (ih.2 ⟨y, h1, h2⟩)

/-- length of a line -/
def len (points : Data V3) (g : Seg) : ℝ := norm2 ((get points g.b).getD ⟨0, 0, 0⟩ - (get points g.a).getD ⟨0, 0, 0⟩)

/-- invariant of the loop: `n` lines at first, values `D i` at the original points `orig`, current lines `segs` -/
structure RefInv (n : Nat) (D : Nat → Val) (orig : List Nat) (x z : Nat × ℝ) (st : Refine) (segs : List Seg) : Prop where
  okP : Ok st.points
  keysS : st.scalar.map Prod.fst = st.points.map Prod.fst
  keysV : st.vector.map Prod.fst = st.points.map Prod.fst
  maxV : ∀ id ∈ st.points.map Prod.fst, id ≤ st.idV
  kept : ∀ id ∈ orig, id ∈ st.points.map Prod.fst
  okC : Ok st.conn
  maxC : ∀ id ∈ st.conn.map Prod.fst, id ≤ st.idC
  linked : Linked x segs z
  conn : st.conn.Perm (segs.map fun g => (g.c, (g.a, g.b)))
  queue : st.queue.Perm (segs.map fun g => (len st.points g, g.c))
  inter : ∀ g ∈ segs, g.s < g.t ∧ ∃ i < n, (i : ℝ) ≤ g.s ∧ g.t ≤ i + 1 ∧
    st.val g.a = some (mix (g.s - i) (D i) (D (i + 1))) ∧ st.val g.b = some (mix (g.t - i) (D i) (D (i + 1)))
  longest : ∀ g ∈ segs, (g.a ∉ orig ∨ g.b ∉ orig) → ∀ h ∈ segs, len st.points h ≤ 2 * len st.points g

theorem mix_mid (σ τ : ℝ) (x y : Val) :
    (⟨half (mix τ x y).p (mix σ x y).p, 1 / 2 * ((mix τ x y).f + (mix σ x y).f), half (mix τ x y).w (mix σ x y).w⟩ : Val) =
      mix ((σ + τ) / 2) x y := by
  unfold mix half
  have e : ∀ a b : V3, V3.scale (1 / 2) (V3.scale (1 - τ) a + V3.scale τ b + (V3.scale (1 - σ) a + V3.scale σ b)) =
      V3.scale (1 - (σ + τ) / 2) a + V3.scale ((σ + τ) / 2) b := by
    intro a b
    apply V3.ext <;> simp only [V3.scale, add_x, add_y, add_z] <;> ring
  simp only [e]
  congr 1
  ring

theorem norm2_half (v : V3) : norm2 (V3.scale (1 / 2) v) = 1 / 2 * norm2 v := by
  have h1 := norm2_sq v
  have h2 := norm2_sq (V3.scale (1 / 2) v)
  have h3 : dot (V3.scale (1 / 2) v) (V3.scale (1 / 2) v) = 1 / 4 * dot v v := by unfold dot V3.scale; simp only; ring
  have n1 := norm2_nonneg v
  have n2 := norm2_nonneg (V3.scale (1 / 2) v)
  rw [h3, ← h1] at h2
  nlinarith

theorem half_first (a b : V3) : norm2 (half b a - a) = 1 / 2 * norm2 (b - a) := by
  rw [← norm2_half]
  congr 1
  unfold half
  apply V3.ext <;> simp only [V3.scale, add_x, add_y, add_z, sub_x, sub_y, sub_z] <;> ring

theorem half_second (a b : V3) : norm2 (b - half b a) = 1 / 2 * norm2 (b - a) := by
  rw [← norm2_half]
  congr 1
  unfold half
  apply V3.ext <;> simp only [V3.scale, add_x, add_y, add_z, sub_x, sub_y, sub_z] <;> ring

theorem get_snoc_of {α : Type} {d : Data α} {v j : Nat} {x y : α} (h : get d j = some y) : get (d ++ [(v, x)]) j = some y := by
  rw [get_append, h]; rfl

theorem get_snoc_new {α : Type} {d : Data α} {v : Nat} {x : α} (h : get d v = none) : get (d ++ [(v, x)]) v = some x := by
  rw [get_append, h]; simp [Verif.Field.get]

theorem setAt_mid {α : Type} {l r : Data α} {c : Nat} {x y : α} (h : Ok (l ++ (c, x) :: r)) :
    setAt (l ++ (c, x) :: r) c y = l ++ (c, y) :: r := by
  have id_of : ∀ d : Data α, c ∉ d.map Prod.fst → setAt d c y = d := by
    intro d hd
    unfold setAt
    conv_rhs => rw [← map_id d]
    apply map_congr_left
    intro e he
    have : e.1 ≠ c := fun h => hd (h ▸ mem_map_of_mem he)
    simp [this]
  unfold Ok at h
  simp only [map_append, map_cons] at h
  have h' := nodup_middle.1 h
  rw [nodup_cons, mem_append, not_or] at h'
  have e : setAt (l ++ (c, x) :: r) c y = setAt l c y ++ (c, y) :: setAt r c y := by
    simp [setAt]
  rw [e, id_of l h'.1.1, id_of r h'.1.2]

theorem perm_mid {α : Type} (l r : List α) (x y : α) : (l ++ x :: r ++ [y]).Perm (l ++ x :: y :: r) := by
  have : l ++ x :: r ++ [y] = l ++ (x :: (r ++ [y])) := by simp
  rw [this]
  exact ((perm_append_singleton y r).cons x).append_left l

/-- one pass of the loop splits a longest line and keeps the invariant -/
theorem step_inv {pop : Pop} (hp : GoodPop pop) {n : Nat} {D : Nat → Val} {orig : List Nat} {x z : Nat × ℝ} {st : Refine} {segs : List Seg}
    (hi : RefInv n D orig x z st segs) (hne : segs ≠ []) :
    ∃ st' segs', refineStep pop st = some st' ∧ RefInv n D orig x z st' segs' ∧ segs'.length = segs.length + 1 ∧
      st'.points.length = st.points.length + 1 ∧
      (∀ v y, st.val v = some y → st'.val v = some y) ∧
      (∀ g ∈ segs, ∃ g' ∈ segs', g'.b = g.b ∧ g'.t = g.t) ∧
      (∀ v ∈ st'.points.map Prod.fst, v ∈ st.points.map Prod.fst ∨ ∃ g ∈ segs', g.b = v) ∧
      st'.idC = st.idC + 1 ∧ st'.conn.map Prod.fst = st.conn.map Prod.fst ++ [st.idC + 1] := by
  have hq : st.queue ≠ [] := by
    intro h
    have := hi.queue.length_eq
    rw [h, length_map] at this
    exact hne (length_eq_zero_iff.1 this.symm)
  obtain ⟨e, r, hpop, hperm, hmax⟩ := hp.some _ hq
  have he : e ∈ segs.map fun g => (len st.points g, g.c) := hi.queue.subset (hperm.symm.subset mem_cons_self)
  obtain ⟨g, hg, rfl⟩ := mem_map.1 he
  obtain ⟨hst, i, hin, hlo, hhi, hva, hvb⟩ := hi.inter g hg
  obtain ⟨pa, fa, wa⟩ := valOf_some.1 hva
  obtain ⟨pb, fb, wb⟩ := valOf_some.1 hvb
  have hconn : get st.conn g.c = some (g.a, g.b) :=
    get_of_mem hi.okC (e := (g.c, (g.a, g.b))) (hi.conn.symm.subset (mem_map_of_mem (f := fun g : Seg => (g.c, (g.a, g.b))) hg))
  have newP : st.idV + 1 ∉ st.points.map Prod.fst := fun h => by have := hi.maxV _ h; omega
  have gP : get st.points (st.idV + 1) = none := get_none_of_has (has_false_of newP)
  have gS : get st.scalar (st.idV + 1) = none := get_none_of_has (has_false_of (by rw [hi.keysS]; exact newP))
  have gV : get st.vector (st.idV + 1) = none := get_none_of_has (has_false_of (by rw [hi.keysV]; exact newP))
  have iP : has st.points (st.idV + 1) = false := has_false_of newP
  have iS : has st.scalar (st.idV + 1) = false := has_false_of (by rw [hi.keysS]; exact newP)
  have iV : has st.vector (st.idV + 1) = false := has_false_of (by rw [hi.keysV]; exact newP)
  have newC : st.idC + 1 ∉ st.conn.map Prod.fst := fun h => by have := hi.maxC _ h; omega
  obtain ⟨l1, l2, rfl⟩ := append_of_mem hg
  -- the new state
  generalize hm : mix ((g.s - i + (g.t - i)) / 2) (D i) (D (i + 1)) = M
  have hmid := mix_mid (g.s - i) (g.t - i) (D i) (D (i + 1))
  rw [hm] at hmid
  let st' : Refine := {
    points := st.points ++ [(st.idV + 1, M.p)]
    scalar := st.scalar ++ [(st.idV + 1, M.f)]
    vector := st.vector ++ [(st.idV + 1, M.w)]
    conn := setAt st.conn g.c (g.a, st.idV + 1) ++ [(st.idC + 1, (st.idV + 1, g.b))]
    queue := (1 / 2 * len st.points g, st.idC + 1) :: (1 / 2 * len st.points g, g.c) :: r
    idV := st.idV + 1
    idC := st.idC + 1 }
  have hstep : refineStep pop st = some st' := by
    have hp' : half (mix (g.t - i) (D i) (D (i + 1))).p (mix (g.s - i) (D i) (D (i + 1))).p = M.p := congrArg Val.p hmid
    have hf' : 1 / 2 * ((mix (g.t - i) (D i) (D (i + 1))).f + (mix (g.s - i) (D i) (D (i + 1))).f) = M.f := congrArg Val.f hmid
    have hw' : half (mix (g.t - i) (D i) (D (i + 1))).w (mix (g.s - i) (D i) (D (i + 1))).w = M.w := congrArg Val.w hmid
    unfold refineStep
    simp only [hpop, Option.bind_eq_bind, Option.bind_some, hconn, pa, pb, fa, fb, wa, wb, ins, iP, iS, iV, hp', hf', hw']
    simp [st']
  have keep : ∀ v y, st.val v = some y → st'.val v = some y := by
    intro v y h
    obtain ⟨h1, h2, h3⟩ := valOf_some.1 h
    exact valOf_some.2 ⟨get_snoc_of h1, get_snoc_of h2, get_snoc_of h3⟩
  have hvM : st'.val (st.idV + 1) = some M := valOf_some.2 ⟨get_snoc_new gP, get_snoc_new gS, get_snoc_new gV⟩
  have lenKeep : ∀ h ∈ l1 ++ g :: l2, len st'.points h = len st.points h := by
    intro h hh
    obtain ⟨-, j, -, -, -, ha, hb⟩ := hi.inter h hh
    obtain ⟨qa, -, -⟩ := valOf_some.1 ha
    obtain ⟨qb, -, -⟩ := valOf_some.1 hb
    unfold len
    rw [qa, qb, get_snoc_of qa, get_snoc_of qb]
  have lenA : len st'.points ⟨g.c, g.a, st.idV + 1, g.s, (g.s + g.t) / 2⟩ = 1 / 2 * len st.points g := by
    unfold len
    rw [get_snoc_of pa, get_snoc_new gP, pa, pb]
    simp only [Option.getD_some]
    rw [← half_first]
    congr 2
    exact (congrArg Val.p hmid).symm
  have lenB : len st'.points ⟨st.idC + 1, st.idV + 1, g.b, (g.s + g.t) / 2, g.t⟩ = 1 / 2 * len st.points g := by
    unfold len
    rw [get_snoc_of pb, get_snoc_new gP, pa, pb]
    simp only [Option.getD_some]
    rw [← half_second]
    congr 2
    exact (congrArg Val.p hmid).symm
  have lenMax : ∀ h ∈ l1 ++ g :: l2, len st.points h ≤ len st.points g := by
    intro h hh
    have : (len st.points h, h.c) ∈ (len st.points g, g.c) :: r :=
      hperm.subset (hi.queue.symm.subset (mem_map_of_mem (f := fun g : Seg => (len st.points g, g.c)) hh))
    rcases mem_cons.1 this with h1 | h1
    · exact le_of_eq (congrArg Prod.fst h1)
    · exact hmax _ h1
  have lenPos : 0 ≤ len st.points g := norm2_nonneg _
  refine ⟨st', l1 ++ ⟨g.c, g.a, st.idV + 1, g.s, (g.s + g.t) / 2⟩ :: ⟨st.idC + 1, st.idV + 1, g.b, (g.s + g.t) / 2, g.t⟩ :: l2, hstep, ?_, ?_,
    by simp [st'], keep, ?_, ?_, rfl, ?_⟩
  · refine ⟨?_, ?_, ?_, ?_, ?_, ?_, ?_, ?_, ?_, ?_, ?_, ?_⟩
    · have := hi.okP
      unfold Ok at this ⊢
      simp only [st', map_append, map_cons, map_nil]
      exact nodup_append.2 ⟨this, by simp, by intro a ha b hb; rw [mem_singleton.1 hb]; rintro rfl; exact newP ha⟩
    · simp [st', hi.keysS]
    · simp [st', hi.keysV]
    · intro id h
      simp only [st', map_append, map_cons, map_nil, mem_append, mem_singleton] at h ⊢
      rcases h with h | h
      · have := hi.maxV id h; omega
      · omega
    · intro id h
      simp only [st', map_append, mem_append]
      exact Or.inl (hi.kept id h)
    · have := hi.okC
      unfold Ok at this ⊢
      simp only [st', map_append, map_cons, map_nil, keys_setAt]
      exact nodup_append.2 ⟨this, by simp, by intro a ha b hb; rw [mem_singleton.1 hb]; rintro rfl; exact newC ha⟩
    · intro id h
      simp only [st', map_append, map_cons, map_nil, mem_append, mem_singleton, keys_setAt] at h ⊢
      rcases h with h | h
      · have := hi.maxC id h; omega
      · omega
    · obtain ⟨y, h1, h2⟩ := linked_append.1 hi.linked
      refine linked_append.2 ⟨y, h1, ?_⟩
      cases h2 with
      | cons _ _ _ h2 => exact .cons ⟨g.c, g.a, st.idV + 1, g.s, (g.s + g.t) / 2⟩ _ _ (.cons ⟨st.idC + 1, st.idV + 1, g.b, (g.s + g.t) / 2, g.t⟩ _ _ h2)
    · have h1 : (setAt st.conn g.c (g.a, st.idV + 1)).Perm (l1.map (fun g => (g.c, (g.a, g.b))) ++ (g.c, (g.a, st.idV + 1)) :: l2.map (fun g => (g.c, (g.a, g.b)))) := by
        have hp1 := hi.conn
        rw [map_append, map_cons] at hp1
        have hok : Ok (l1.map (fun g => (g.c, (g.a, g.b))) ++ (g.c, (g.a, g.b)) :: l2.map (fun g => (g.c, (g.a, g.b)))) :=
          (hp1.map Prod.fst).nodup_iff.1 hi.okC
        rw [← setAt_mid (y := (g.a, st.idV + 1)) hok]
        exact hp1.map _
      simp only [map_append, map_cons]
      exact (h1.append_right _).trans (perm_mid _ _ _ _)
    · have hr : r.Perm ((l1 ++ l2).map fun g => (len st.points g, g.c)) := by
        have h1 := hperm.symm.trans hi.queue
        rw [map_append, map_cons] at h1
        have h2 := h1.trans perm_middle
        rw [← map_append] at h2
        exact h2.cons_inv
      have hk : ((l1 ++ l2).map fun g => (len st'.points g, g.c)) = (l1 ++ l2).map fun g => (len st.points g, g.c) := by
        apply map_congr_left
        intro h hh
        rw [lenKeep h (by simp only [mem_append, mem_cons] at hh ⊢; tauto)]
      rw [← hk] at hr
      show ((1 / 2 * len st.points g, st.idC + 1) :: (1 / 2 * len st.points g, g.c) :: r).Perm _
      simp only [map_append, map_cons, lenA, lenB]
      rw [map_append] at hr
      refine ((hr.cons _).cons _).trans ?_
      refine (Perm.swap _ _ _).trans ?_
      refine Perm.trans ?_ perm_middle.symm
      exact perm_middle.symm.cons _
    · intro h hh
      have hold : ∀ h ∈ l1 ++ g :: l2, h.s < h.t ∧ ∃ i < n, (i : ℝ) ≤ h.s ∧ h.t ≤ i + 1 ∧
          st'.val h.a = some (mix (h.s - i) (D i) (D (i + 1))) ∧ st'.val h.b = some (mix (h.t - i) (D i) (D (i + 1))) := by
        intro h hh
        obtain ⟨o1, j, o2, o3, o4, o5, o6⟩ := hi.inter h hh
        exact ⟨o1, j, o2, o3, o4, keep _ _ o5, keep _ _ o6⟩
      have hτ : (g.s + g.t) / 2 - (i : ℝ) = (g.s - i + (g.t - i)) / 2 := by ring
      simp only [mem_append, mem_cons] at hh
      rcases hh with hh | rfl | rfl | hh
      · exact hold h (by simp [hh])
      · refine ⟨by simp only; linarith, i, hin, hlo, by simp only; linarith, keep _ _ hva, ?_⟩
        show st'.val (st.idV + 1) = _
        rw [hvM]
        simp only
        rw [hτ, hm]
      · refine ⟨by simp only; linarith, i, hin, by simp only; linarith, hhi, ?_, keep _ _ hvb⟩
        show st'.val (st.idV + 1) = _
        rw [hvM]
        simp only
        rw [hτ, hm]
      · exact hold h (by simp [hh])
    · have bound : ∀ h ∈ l1 ++ ⟨g.c, g.a, st.idV + 1, g.s, (g.s + g.t) / 2⟩ :: ⟨st.idC + 1, st.idV + 1, g.b, (g.s + g.t) / 2, g.t⟩ :: l2,
          len st'.points h ≤ len st.points g := by
        intro h hh
        simp only [mem_append, mem_cons] at hh
        rcases hh with hh | rfl | rfl | hh
        · rw [lenKeep h (by simp [hh])]; exact lenMax h (by simp [hh])
        · rw [lenA]; linarith
        · rw [lenB]; linarith
        · rw [lenKeep h (by simp [hh])]; exact lenMax h (by simp [hh])
      intro k hk hnew h hh
      have b := bound h hh
      simp only [mem_append, mem_cons] at hk
      have old : k ∈ l1 ++ g :: l2 → len st'.points h ≤ 2 * len st'.points k := by
        intro hk'
        rw [lenKeep k hk']
        exact b.trans (hi.longest k hk' hnew g hg)
      rcases hk with hk | rfl | rfl | hk
      · exact old (by simp [hk])
      · rw [lenA]; linarith
      · rw [lenB]; linarith
      · exact old (by simp [hk])
  · simp only [length_append, length_cons]; omega
  · intro h hh
    simp only [mem_append, mem_cons] at hh
    rcases hh with hh | rfl | hh
    · exact ⟨h, by simp [hh], rfl, rfl⟩
    · exact ⟨⟨st.idC + 1, st.idV + 1, h.b, (h.s + h.t) / 2, h.t⟩, by simp, rfl, rfl⟩
    · exact ⟨h, by simp [hh], rfl, rfl⟩
  · intro v hv
    simp only [st', map_append, map_cons, map_nil, mem_append, mem_singleton] at hv
    rcases hv with hv | rfl
    · exact Or.inl hv
    · exact Or.inr ⟨⟨g.c, g.a, st.idV + 1, g.s, (g.s + g.t) / 2⟩, by simp, rfl⟩
  · simp [st', keys_setAt]

end
end Verif.Create
