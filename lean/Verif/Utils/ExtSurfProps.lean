import Verif.Utils.MaxDistProps
/-
C140, C141: deformed surfaces against external surfaces; the files of the constraints.
-/
namespace Verif.Utils
open Verif.Shape Verif.Manip Verif.Field Verif.Tree
open Verif.Rbf (tiny huge)
open List hiding get get_of_mem

noncomputable section
open scoped Classical

/-! ### Specification -/

/-- `x` is the distance of `p` from the surface, positive on the side the normals point to -/
def SDist (s : Surf) (region : Nat → V3 → Prop) (p : V3) (x : ℝ) : Prop :=
  ∃ id foot n, Closest region p foot id ∧ (∃ k vs, s.cell id = some (k, vs) ∧ Weighted (s.lam p vs) (s.vertexNormal id) n) ∧
    (0 ≤ dot n (p - foot) → x = norm2 (p - foot)) ∧ (dot n (p - foot) < 0 → x = -norm2 (p - foot))

/-- how far `p` is beyond the surface, seen from `o` -/
def PastSurface (s : Surf) (region : Nat → V3 → Prop) (o p : V3) (y : ℝ) : Prop :=
  ∃ x0 x, SDist s region o x0 ∧ SDist s region p x ∧ y = if 0 < x0 then -x else x

/-- the surface has a point within 1e12 of `p` -/
def Reachable (region : Nat → V3 → Prop) (p : V3) : Prop := ∃ id q, region id q ∧ norm2 (p - q) < 10 ^ 12

/-- `v` is the violation of a set of constraints at a point -/
structure IsViolation (vals : Nat → ℝ → Prop) (cs : List Nat) (v : ℝ) : Prop where
  all : ∀ c ∈ cs, ∃ y, vals c y ∧ y ≤ v
  one : v = -10 ^ 25 ∨ ∃ c ∈ cs, vals c v
  low : -10 ^ 25 ≤ v

/-! ### The search with a growing radius -/

/-- the first distance found -/
def hit (F : ℝ → V3 → Option ℝ) : Nat → ℝ → V3 → Option ℝ
  | 0, _, _ => none
  | k + 1, r, p => match F r p with
    | some x => some x
    | none => hit F k (r * (1 + 5 / 100)) p

/-- the distance found with a radius -/
def within (s : Surf) (r : ℝ) (p : V3) : Option ℝ := (signedDistance s p r).bind (·.dist)

theorem signed_some {s : Surf} {region : Nat → V3 → Prop} (hs : Sound s region) (p : V3) (r : ℝ) :
    (∃ n, signedDistance s p r = some ⟨none, none, n⟩ ∧ within s r p = none) ∨
      ∃ id x n, signedDistance s p r = some ⟨some id, some x, n⟩ ∧ within s r p = some x ∧ SDist s region p x := by
  cases hcl : s.closest p r with
  | none =>
    left
    have h : signedDistance s p r = some ⟨none, none, some ⟨0, 0, 0⟩⟩ := by unfold signedDistance; rw [hcl]
    exact ⟨_, h, by simp [within, h]⟩
  | some e =>
    right
    obtain ⟨id, h⟩ := e
    obtain ⟨hc, hh, ⟨x0, hx0, hhx⟩, hmin⟩ := hs.found p r id h hcl
    obtain ⟨k, vs, x, n, hk, hn, hrx, hmx, hpn⟩ := pseudoNormal_spec hs (p := p) hc
    have hhe : h = norm2 (p - x) := le_antisymm (hmin id x hrx) (by rw [hhx]; exact hmx x0 hx0)
    have hsd : signedDistance s p r = some ⟨some id, some (side n (p - x) * h),
        if norm2 (p - x) < s.tol then unit? n else unit? (V3.scale (side n (p - x)) (p - x))⟩ := by
      unfold signedDistance
      rw [hcl]
      simp only [hpn, Option.bind_eq_bind, Option.bind_some]
    refine ⟨id, _, _, hsd, by simp [within, hsd], id, x, n, ⟨hrx, by rw [← hhe]; exact hmin⟩, ⟨k, vs, hk, hn⟩, ?_, ?_⟩
    · intro h0; simp only [side, if_neg (not_lt.2 h0), one_mul, hhe]
    · intro h0; simp only [side, if_pos h0, neg_mul, one_mul, hhe]

theorem evalPass_spec {s : Surf} {region : Nat → V3 → Prop} (hs : Sound s region) (r : ℝ) : ∀ (work : List (Nat × V3)) (ds : List ℝ),
    (work.map Prod.fst).Nodup → (∀ e ∈ work, e.1 < ds.length) →
    ∃ ds', evalPass s r work ds = some (work.filter (fun e => (within s r e.2).isNone), ds') ∧ ds'.length = ds.length ∧
      ∀ j, (∀ p x, (j, p) ∈ work → within s r p = some x → ds'[j]? = some x) ∧ ((∀ p, (j, p) ∈ work → within s r p = none) → ds'[j]? = ds[j]?)
  | [], ds, _, _ => ⟨ds, rfl, rfl, fun j => ⟨by simp, by simp⟩⟩
  | (i, p) :: l, ds, hn, hl => by
    simp only [map_cons, nodup_cons] at hn
    have hi : i < ds.length := hl (i, p) (by simp)
    have hnot : ∀ q, (i, q) ∉ l := fun q hq => hn.1 (mem_map.2 ⟨(i, q), hq, rfl⟩)
    unfold evalPass
    rcases signed_some hs p r with ⟨n, h1, h2⟩ | ⟨id, x, n, h1, h2, -⟩
    · obtain ⟨ds', e1, e2, e3⟩ := evalPass_spec hs r l ds hn.2 (fun e he => hl e (mem_cons_of_mem _ he))
      refine ⟨ds', by simp [h1, e1, h2], e2, ?_⟩
      intro j
      refine ⟨?_, ?_⟩
      · intro q x hq hx
        rcases mem_cons.1 hq with hq | hq
        · cases hq; rw [h2] at hx; cases hx
        · exact (e3 j).1 q x hq hx
      · intro hj
        exact (e3 j).2 (fun q hq => hj q (mem_cons_of_mem _ hq))
    · obtain ⟨ds', e1, e2, e3⟩ := evalPass_spec hs r l (ds.set i x) hn.2 (fun e he => by
        rw [length_set]; exact hl e (mem_cons_of_mem _ he))
      refine ⟨ds', by simp [h1, e1, h2], by rw [e2, length_set], ?_⟩
      intro j
      refine ⟨?_, ?_⟩
      · intro q y hq hy
        rcases mem_cons.1 hq with hq | hq
        · cases hq
          rw [h2] at hy
          obtain rfl := Option.some_inj.1 hy
          rw [(e3 i).2 (fun q hq => absurd hq (hnot q)), getElem?_set_self hi]
        · exact (e3 j).1 q y hq hy
      · intro hj
        have hji : i ≠ j := by
          rintro rfl
          have := hj p (by simp)
          rw [h2] at this; cases this
        rw [(e3 j).2 (fun q hq => hj q (mem_cons_of_mem _ hq)), getElem?_set_ne hji]

theorem evalLoop_spec {s : Surf} {region : Nat → V3 → Prop} (hs : Sound s region) : ∀ (k : Nat) (r : ℝ) (work : List (Nat × V3)) (ds : List ℝ),
    (work.map Prod.fst).Nodup → (∀ e ∈ work, e.1 < ds.length) →
    ∃ ds', evalLoop s k r work ds = some (work.filter (fun e => (hit (within s) k r e.2).isNone), ds') ∧ ds'.length = ds.length ∧
      ∀ j, (∀ p x, (j, p) ∈ work → hit (within s) k r p = some x → ds'[j]? = some x) ∧
        ((∀ p, (j, p) ∈ work → hit (within s) k r p = none) → ds'[j]? = ds[j]?)
  | 0, r, work, ds, _, _ => ⟨ds, by simp [evalLoop, hit], rfl, fun j => ⟨by simp [hit], by simp⟩⟩
  | k + 1, r, work, ds, hn, hl => by
    unfold evalLoop
    by_cases hw : work = []
    · subst hw
      exact ⟨ds, by simp, rfl, fun j => ⟨by simp, by simp⟩⟩
    · rw [if_neg hw]
      obtain ⟨d1, a1, a2, a3⟩ := evalPass_spec hs r work ds hn hl
      rw [a1]
      simp only
      have hn' : ((work.filter (fun e => (within s r e.2).isNone)).map Prod.fst).Nodup := hn.sublist (filter_sublist.map _)
      obtain ⟨d2, b1, b2, b3⟩ := evalLoop_spec hs k (r * (1 + 5 / 100)) (work.filter (fun e => (within s r e.2).isNone)) d1 hn'
        (fun e he => by rw [a2]; exact hl e (mem_of_mem_filter he))
      refine ⟨d2, ?_, b2.trans a2, ?_⟩
      · rw [b1, filter_filter]
        congr 2
        apply filter_congr
        intro e _
        cases h : within s r e.2 with
        | none => simp [hit, h]
        | some x => simp [hit, h]
      · intro j
        have hun : ∀ p q, (j, p) ∈ work → (j, q) ∈ work → p = q := by
          intro p q hp hq
          have := inj_on_of_nodup_map hn hp hq rfl
          simpa using this
        refine ⟨?_, ?_⟩
        · intro p x hp hx
          cases h : within s r p with
          | none =>
            have hx' : hit (within s) k (r * (1 + 5 / 100)) p = some x := by simpa [hit, h] using hx
            exact (b3 j).1 p x (mem_filter.2 ⟨hp, by simp [h]⟩) hx'
          | some y =>
            have : y = x := by simpa [hit, h] using hx
            subst this
            rw [(b3 j).2, (a3 j).1 p y hp h]
            intro q hq
            obtain ⟨hq1, hq2⟩ := mem_filter.1 hq
            have := hun p q hp hq1
            subst this
            rw [h] at hq2; simp at hq2
        · intro hj
          have h0 : ∀ p, (j, p) ∈ work → within s r p = none ∧ hit (within s) k (r * (1 + 5 / 100)) p = none := by
            intro p hp
            have := hj p hp
            cases h : within s r p with
            | none => exact ⟨rfl, by simpa [hit, h] using this⟩
            | some y => simp [hit, h] at this
          rw [(b3 j).2 (fun q hq => (h0 q (mem_of_mem_filter hq)).2), (a3 j).2 (fun q hq => (h0 q hq).1)]

theorem setAll_spec (v : ℝ) : ∀ (work : List (Nat × V3)) (ds : List ℝ), (∀ e ∈ work, e.1 < ds.length) →
    (work.foldl (fun ds e => ds.set e.1 v) ds).length = ds.length ∧
      ∀ j, (j ∈ work.map Prod.fst → (work.foldl (fun ds e => ds.set e.1 v) ds)[j]? = some v) ∧
        (j ∉ work.map Prod.fst → (work.foldl (fun ds e => ds.set e.1 v) ds)[j]? = ds[j]?)
  | [], ds, _ => by simp
  | e :: l, ds, h => by
    obtain ⟨h1, h2⟩ := setAll_spec v l (ds.set e.1 v) (fun e' he' => by rw [length_set]; exact h e' (mem_cons_of_mem _ he'))
    rw [foldl_cons]
    refine ⟨by rw [h1, length_set], ?_⟩
    intro j
    refine ⟨?_, ?_⟩
    · intro hj
      by_cases hjl : j ∈ l.map Prod.fst
      · exact (h2 j).1 hjl
      · rw [map_cons, mem_cons] at hj
        rcases hj with rfl | hj
        · rw [(h2 _).2 hjl, getElem?_set_self (h e (by simp))]
        · exact absurd hj hjl
    · intro hj
      rw [map_cons, mem_cons, not_or] at hj
      rw [(h2 j).2 hj.2, getElem?_set_ne (fun e => hj.1 e.symm)]

/-- the distances of the points, in order -/
theorem evaluate_spec {s : Surf} {region : Nat → V3 → Prop} (hs : Sound s region) (ps : List V3) (r : ℝ) :
    evaluate s ps r = some (ps.map fun p => (hit (within s) 1000 r p).getD (-(10 : ℝ) ^ 25)) := by
  unfold evaluate
  set work := ps.zipIdx.map fun e => (e.2, e.1) with hwork
  have hn : (work.map Prod.fst).Nodup := by
    rw [hwork, map_map]
    have : (Prod.fst ∘ fun e : V3 × Nat => (e.2, e.1)) = Prod.snd := rfl
    rw [this, zipIdx_map_snd]
    exact nodup_range'
  have hmem : ∀ j p, (j, p) ∈ work ↔ ps[j]? = some p := by
    intro j p
    rw [hwork, mem_map]
    constructor
    · rintro ⟨⟨q, i⟩, he, h⟩
      cases h
      rw [mem_zipIdx_iff_getElem?] at he
      exact he
    · intro h
      exact ⟨(p, j), by rw [mem_zipIdx_iff_getElem?]; exact h, rfl⟩
  have hl : ∀ e ∈ work, e.1 < (replicate ps.length (0 : ℝ)).length := by
    intro e he
    rw [length_replicate]
    have := (hmem e.1 e.2).1 he
    exact (List.getElem?_eq_some_iff.1 this).1
  obtain ⟨d, h1, h2, h3⟩ := evalLoop_spec hs 1000 r work _ hn hl
  rw [h1]
  simp only [Option.some_inj]
  obtain ⟨g1, g2⟩ := setAll_spec (-(10 : ℝ) ^ 25) (work.filter (fun e => (hit (within s) 1000 r e.2).isNone)) d
    (fun e he => by rw [h2]; exact hl e (mem_of_mem_filter he))
  apply ext_getElem?
  intro j
  rw [getElem?_map]
  cases hp : ps[j]? with
  | none =>
    rw [List.getElem?_eq_none_iff] at hp
    simp only [Option.map_none]
    rw [List.getElem?_eq_none_iff, g1, h2, length_replicate]
    exact hp
  | some p =>
    have hw := (hmem j p).2 hp
    simp only [Option.map_some]
    cases hh : hit (within s) 1000 r p with
    | none =>
      rw [(g2 j).1]
      · rfl
      · exact mem_map.2 ⟨(j, p), mem_filter.2 ⟨hw, by simp [hh]⟩, rfl⟩
    | some x =>
      rw [(g2 j).2, (h3 j).1 p x hw hh]
      · rfl
      · intro hm
        obtain ⟨⟨j', q⟩, he, rfl⟩ := mem_map.1 hm
        obtain ⟨he1, he2⟩ := mem_filter.1 he
        have : q = p := Option.some_inj.1 (((hmem j' q).1 he1).symm.trans hp)
        subst this
        simp [hh] at he2

theorem hit_found {s : Surf} {region : Nat → V3 → Prop} (hs : Sound s region) {p : V3} : ∀ (k : Nat) (r : ℝ), 0 < r →
    (∃ id q, region id q ∧ norm2 (p - q) < min (r * (1 + 5 / 100) ^ k) huge) → ∃ x, hit (within s) (k + 1) r p = some x ∧ SDist s region p x
  | k, r, hr, hq => by
    unfold hit
    rcases signed_some hs p r with ⟨n, h1, h2⟩ | ⟨id, x, n, h1, h2, h3⟩
    · rw [h2]
      simp only
      cases k with
      | zero =>
        exfalso
        obtain ⟨id, q, hq, hlt⟩ := hq
        rw [pow_zero, mul_one] at hlt
        cases hcl : s.closest p r with
        | none => exact absurd (hs.missed p r hcl id q hq) (not_le.2 hlt)
        | some e =>
          obtain ⟨id', h⟩ := e
          unfold signedDistance at h1
          rw [hcl] at h1
          simp only [Option.bind_eq_bind, Option.bind_eq_some_iff] at h1
          obtain ⟨a, -, h⟩ := h1
          simp at h
      | succ k =>
        refine hit_found hs k (r * (1 + 5 / 100)) (by positivity) ?_
        obtain ⟨id, q, hq, hlt⟩ := hq
        refine ⟨id, q, hq, ?_⟩
        rw [pow_succ] at hlt
        rwa [mul_assoc, mul_comm (1 + 5 / 100 : ℝ) (_ ^ k)]
    · rw [h2]; exact ⟨x, rfl, h3⟩

theorem far_lt_huge : (10 : ℝ) ^ 12 < huge := by
  unfold huge
  have h1 : (10 : ℝ) ^ 12 < 2 ^ 100 := by norm_num
  have h2 : (2 : ℝ) ^ 100 ≤ 2 ^ 1023 := pow_le_pow_right₀ (by norm_num) (by norm_num)
  have h3 : (1 : ℝ) ≤ 2 - 1 / 2 ^ 52 := by norm_num
  calc (10 : ℝ) ^ 12 < 2 ^ 100 := h1
    _ ≤ 2 ^ 1023 := h2
    _ = 1 * 2 ^ 1023 := (one_mul _).symm
    _ ≤ (2 - 1 / 2 ^ 52) * 2 ^ 1023 := mul_le_mul_of_nonneg_right h3 (by positivity)

theorem growth : (10 : ℝ) ^ 12 < 1 / 10 ^ 8 * (1 + 5 / 100) ^ 999 := by
  have h1 : (131 : ℝ) ≤ (1 + 5 / 100) ^ 100 := by norm_num
  have h2 : (125 : ℝ) ≤ (1 + 5 / 100) ^ 99 := by norm_num
  have h3 : (131 : ℝ) ^ 9 ≤ ((1 + 5 / 100) ^ 100) ^ 9 := pow_le_pow_left₀ (by norm_num) h1 9
  have e : (1 + 5 / 100 : ℝ) ^ 999 = ((1 + 5 / 100) ^ 100) ^ 9 * (1 + 5 / 100) ^ 99 := by rw [← pow_mul, ← pow_add]
  rw [e]
  calc (10 : ℝ) ^ 12 < 1 / 10 ^ 8 * (131 ^ 9 * 125) := by norm_num
    _ ≤ _ := mul_le_mul_of_nonneg_left (mul_le_mul h3 h2 (by norm_num) (by positivity)) (by norm_num)

theorem hit_reach {s : Surf} {region : Nat → V3 → Prop} (hs : Sound s region) {p : V3} {r : ℝ} (hr : 1 / 10 ^ 8 ≤ r) (hp : Reachable region p) :
    ∃ x, hit (within s) 1000 r p = some x ∧ SDist s region p x := by
  obtain ⟨id, q, hq, hlt⟩ := hp
  refine hit_found hs 999 r (lt_of_lt_of_le (by norm_num) hr) ⟨id, q, hq, lt_min ?_ (hlt.trans far_lt_huge)⟩
  refine hlt.trans (growth.trans_le ?_)
  exact mul_le_mul_of_nonneg_right hr (by positivity)

theorem startRadius_pos (meet : Corners → Corners → Option Corners) (a b : Corners) : 1 / 10 ^ 8 ≤ startRadius meet a b := by
  unfold startRadius
  refine le_trans ?_ (le_max_left _ _)
  split
  · exact le_rfl
  · exact le_max_left _ _

/-! ### The constraints -/

theorem constraint_spec {meet : Corners → Corners → Option Corners} {s : Surf} {region : Nat → V3 → Prop} (hs : Sound s region) {b bc : Corners}
    {ps : List V3} (ho : Reachable region (middle b)) (hp : ∀ p ∈ ps, Reachable region p) :
    ∃ ds, constraint meet s b bc ps = some ds ∧ Forall₂ (fun p y => PastSurface s region (middle b) p y) ps ds := by
  obtain ⟨x0, h0, hx0⟩ := hit_reach hs (startRadius_pos meet b bc) ho
  unfold constraint
  rw [evaluate_spec hs, evaluate_spec hs]
  simp only [map_cons, map_nil, h0, Option.getD_some, map_map, Option.some.injEq, exists_eq_left']
  rw [forall₂_map_right_iff]
  refine forall₂_same.2 ?_
  intro p hpm
  obtain ⟨x, h1, hx⟩ := hit_reach hs (startRadius_pos meet (boxOf ps) bc) (hp p hpm)
  refine ⟨x0, x, hx0, hx, ?_⟩
  simp only [Function.comp, h1, Option.getD_some]
  by_cases h : 0 < x0
  · rw [if_pos h, if_pos h]; ring
  · rw [if_neg h, if_neg h]; ring

theorem over_spec {meet : Corners → Corners → Option Corners} {surf : Nat → Surf} {region : Nat → Nat → V3 → Prop} {box : Nat → Corners} {b : Corners}
    {tol : ℝ} {ps : List V3} : ∀ (cs done : List Nat) (vs : List ℝ), (∀ c ∈ cs, Sound (surf c) (region c)) →
    (∀ c ∈ cs, Reachable (region c) (middle b) ∧ ∀ p ∈ ps, Reachable (region c) p) →
    Forall₂ (fun p v => IsViolation (fun c y => PastSurface (surf c) (region c) (middle b) p (y - tol)) done v) ps vs →
    ∃ vs', overConstraints meet surf box b tol ps cs vs = some vs' ∧
      Forall₂ (fun p v => IsViolation (fun c y => PastSurface (surf c) (region c) (middle b) p (y - tol)) (done ++ cs) v) ps vs'
  | [], done, vs, _, _, h => ⟨vs, rfl, by simpa using h⟩
  | c :: cs, done, vs, hs, hr, h => by
    obtain ⟨ds, h1, h2⟩ := constraint_spec (meet := meet) (hs c (by simp)) (bc := box c) (hr c (by simp)).1 (hr c (by simp)).2
    unfold overConstraints
    rw [h1]
    simp only
    have hnew : Forall₂ (fun p v => IsViolation (fun c y => PastSurface (surf c) (region c) (middle b) p (y - tol)) (done ++ [c]) v) ps
        (zipWith (fun v d => max v (d + tol)) vs ds) := by
      clear hr h1
      induction h generalizing ds with
      | nil => cases h2; exact .nil
      | @cons p v ps vs hv _ ih =>
        cases h2 with
        | @cons _ d _ ds hd h2 =>
          refine .cons ?_ (ih ds h2)
          refine ⟨?_, ?_, hv.low.trans (le_max_left _ _)⟩
          · intro c' hc'
            rcases mem_append.1 hc' with hc' | hc'
            · obtain ⟨y, hy, hle⟩ := hv.all c' hc'
              exact ⟨y, hy, hle.trans (le_max_left _ _)⟩
            · rw [mem_singleton] at hc'
              subst hc'
              exact ⟨d + tol, by rw [add_sub_cancel_right]; exact hd, le_max_right _ _⟩
          · show max v (d + tol) = -10 ^ 25 ∨ ∃ c' ∈ done ++ [c], PastSurface (surf c') (region c') (middle b) p (max v (d + tol) - tol)
            rcases max_choice v (d + tol) with e | e
            · rw [e]
              rcases hv.one with h | ⟨c', hc', h⟩
              · exact .inl h
              · exact .inr ⟨c', mem_append_left _ hc', h⟩
            · rw [e]
              exact .inr ⟨c, by simp, by rw [add_sub_cancel_right]; exact hd⟩
    obtain ⟨vs', e1, e2⟩ := over_spec cs (done ++ [c]) _ (fun c' hc' => hs c' (mem_cons_of_mem _ hc')) (fun c' hc' => hr c' (mem_cons_of_mem _ hc')) hnew
    exact ⟨vs', e1, by simpa using e2⟩

/-! ### Theorems -/

/-- everything is within reach of the search -/
structure InReach (w : World) (c : ExtSurf) (g : Nat) (region : Nat → Nat → V3 → Prop) (box : Nat → Corners) (cs : List Nat) : Prop where
  centre : ∀ k ∈ cs, Reachable (region k) (middle (box g))
  points : ∀ k ∈ cs, ∀ id p, get (w g).verts id = some p → Reachable (region k) (p + disp c.field id)

/-- **C140** the violation at a vertex is the greatest, over the constraints, of how far the displaced vertex is beyond the constraint, seen from
the centre of the geometry before deformation, plus the tolerance; -1e25 without constraints. -/
theorem C140_values {w : World} (hw : WorldOk w) {surf : Nat → Surf} {region : Nat → Nat → V3 → Prop} {box : Nat → Corners}
    {meet : Corners → Corners → Option Corners} {files : List Nat} {c : ExtSurf} {g : Nat} (hg : c.geom = some g) (hf : Ok c.field.data)
    (hu : Usable w g c.field) (hs : ∀ k ∈ files ++ c.geos, Sound (surf k) (region k)) (hr : InReach w c g region box (files ++ c.geos)) :
    ∃ c', c.execute w surf box meet files = some c' ∧ c'.violation.geo = some g ∧ c'.violation.loc = .point ∧ Ok c'.violation.data ∧
      c'.tol = c.tol ∧ (∀ id, get (w g).verts id = none → get c'.violation.data id = none) ∧
      ∀ id p, get (w g).verts id = some p → ∃ v, get c'.violation.data id = some v ∧
        IsViolation (fun k y => PastSurface (surf k) (region k) (middle (box g)) (p + disp c.field id) (y - c.tol)) (files ++ c.geos) v := by
  obtain ⟨f, h1, h2, h3, h4, h5, h6, h7⟩ := completeIn_ok hw hf ⟨0, 0, 0⟩ hu.1 hu.2.1 hu.2.2
  have hd : ∀ e ∈ (w g).verts, get f.data e.1 = some (disp c.field e.1) := fun e he => h6 e.1 e.2 (Verif.Mesh.get_of_mem (hw.verts g) he)
  have hmap : (w g).verts.map (fun e => (e.1, e.2 + (get f.data e.1).getD ⟨0, 0, 0⟩, (get f.data e.1).getD ⟨0, 0, 0⟩)) =
      (w g).verts.map fun e => (e.1, e.2 + disp c.field e.1, disp c.field e.1) := by
    apply map_congr_left
    intro e he
    rw [hd e he]; rfl
  unfold ExtSurf.execute
  rw [hg]
  simp only [h1, constField_spec hw g, deformed_spec (fun e he => ⟨_, hd e he⟩), hmap, map_map]
  set pts := (w g).verts.map ((fun e : Nat × V3 × V3 => e.2.1) ∘ fun e : Nat × V3 => (e.1, e.2 + disp c.field e.1, disp c.field e.1)) with hpts
  obtain ⟨vs, e1, e2⟩ := over_spec (meet := meet) (surf := surf) (region := region) (box := box) (b := box g) (tol := c.tol) (ps := pts)
    (files ++ c.geos) [] (pts.map fun _ => -(10 : ℝ) ^ 25) hs (fun k hk => ⟨hr.centre k hk, fun p hp => by
      obtain ⟨e, he, rfl⟩ := mem_map.1 hp
      exact hr.points k hk e.1 e.2 (Verif.Mesh.get_of_mem (hw.verts g) he)⟩)
    (by
      rw [forall₂_map_right_iff]
      exact forall₂_same.2 fun p _ => ⟨by simp, .inl rfl, le_rfl⟩)
  rw [nil_append] at e2
  have e1' : overConstraints meet surf box (box g) c.tol pts (files ++ c.geos)
      ((w g).verts.map ((fun _ => -(10 : ℝ) ^ 25) ∘ (fun e : Nat × V3 × V3 => e.2.1) ∘ fun e : Nat × V3 => (e.1, e.2 + disp c.field e.1, disp c.field e.1))) = some vs := by
    rw [← e1, hpts, map_map]
  rw [e1']
  simp only [Option.some.injEq, exists_eq_left']
  have hlen : vs.length = (w g).verts.length := by rw [← e2.length_eq, hpts, length_map]
  have hkeys : (((w g).verts.map ((fun e : Nat × V3 × V3 => e.1) ∘ fun e : Nat × V3 => (e.1, e.2 + disp c.field e.1, disp c.field e.1))).zip vs).map Prod.fst =
      (w g).verts.map Prod.fst := by
    rw [map_fst_zip (by rw [length_map, hlen])]
    rfl
  refine ⟨trivial, trivial, ?_, trivial, ?_, ?_⟩
  · unfold Ok
    rw [writeAll_keys]
    have := hw.verts g
    unfold Ok at this
    simpa [map_map, Function.comp_def] using this
  · intro id hn
    rw [get_none_iff, writeAll_keys, map_map, Function.comp_def]
    rw [get_none_iff] at hn
    simpa using hn
  · intro id p hp
    obtain ⟨i, hi, hie⟩ := getElem_of_mem (mem_of_get' hp)
    have hiv : i < vs.length := by rw [hlen]; exact hi
    refine ⟨vs[i], ?_, ?_⟩
    · apply writeAll_get
      · have := hw.verts g
        unfold Ok at this
        rw [hkeys]; exact this
      · rw [mem_iff_getElem]
        refine ⟨i, by rw [length_zip, length_map, hlen]; simpa using hi, ?_⟩
        rw [getElem_zip, getElem_map, hie]
        rfl
      · have := mem_ids.2 ⟨p, hp⟩
        simpa [map_map, Function.comp_def] using this
    · have hip : i < pts.length := by rw [hpts, length_map]; exact hi
      have := e2.get hip hiv
      simp only [get_eq_getElem] at this
      have e : pts[i] = p + disp c.field id := by simp only [hpts, getElem_map, hie, Function.comp]
      rw [e] at this
      exact this

theorem sdist_abs {s : Surf} {region : Nat → V3 → Prop} {p : V3} {x : ℝ} (h : SDist s region p x) {id : Nat} {q : V3} (hq : region id q) :
    |x| ≤ norm2 (p - q) := by
  obtain ⟨k, foot, n, ⟨-, hc⟩, -, h1, h2⟩ := h
  rcases le_or_gt 0 (dot n (p - foot)) with h | h
  · rw [h1 h, abs_of_nonneg (Shape.norm2_nonneg _)]; exact hc id q hq
  · rw [h2 h, abs_neg, abs_of_nonneg (Shape.norm2_nonneg _)]; exact hc id q hq

/-- **C140** a displaced vertex within the tolerance of a constraint is a violation -/
theorem C140_close {w : World} (hw : WorldOk w) {surf : Nat → Surf} {region : Nat → Nat → V3 → Prop} {box : Nat → Corners}
    {meet : Corners → Corners → Option Corners} {files : List Nat} {c : ExtSurf} {g : Nat} (hg : c.geom = some g) (hf : Ok c.field.data)
    (hu : Usable w g c.field) (hs : ∀ k ∈ files ++ c.geos, Sound (surf k) (region k)) (hr : InReach w c g region box (files ++ c.geos))
    {k : Nat} (hk : k ∈ files ++ c.geos) {id : Nat} {p : V3} (hp : get (w g).verts id = some p) {j : Nat} {q : V3} (hq : region k j q)
    (hd : norm2 (p + disp c.field id - q) ≤ c.tol) : ∃ c', c.execute w surf box meet files = some c' ∧ 0 ≤ c'.getViolation := by
  obtain ⟨c', h1, h2, h3, h4, h5, h6, h7⟩ := C140_values hw (meet := meet) hg hf hu hs hr
  refine ⟨c', h1, ?_⟩
  obtain ⟨v, hv, hiv⟩ := h7 id p hp
  obtain ⟨y, ⟨x0, x, -, hx, he⟩, hle⟩ := hiv.all k hk
  have hmax : v ≤ c'.getViolation := (foldl_max_le.1 (le_refl c'.getViolation)).2 v ((mem_vals h4 v).2 ⟨id, hv⟩)
  have := (sdist_abs hx hq).trans hd
  rw [abs_le] at this
  split at he <;> linarith

/-- **C140** when the violation is negative every displaced vertex is farther than the tolerance from every constraint, and before it seen from
the centre of the geometry -/
theorem C140_clear {w : World} (hw : WorldOk w) {surf : Nat → Surf} {region : Nat → Nat → V3 → Prop} {box : Nat → Corners}
    {meet : Corners → Corners → Option Corners} {files : List Nat} {c : ExtSurf} {g : Nat} (hg : c.geom = some g) (hf : Ok c.field.data)
    (hu : Usable w g c.field) (hs : ∀ k ∈ files ++ c.geos, Sound (surf k) (region k)) (hr : InReach w c g region box (files ++ c.geos)) :
    ∃ c', c.execute w surf box meet files = some c' ∧ (c'.getViolation < 0 → ∀ k ∈ files ++ c.geos, ∀ id p, get (w g).verts id = some p →
      ∃ y, PastSurface (surf k) (region k) (middle (box g)) (p + disp c.field id) y ∧ y < -c.tol) := by
  obtain ⟨c', h1, h2, h3, h4, h5, h6, h7⟩ := C140_values hw (meet := meet) hg hf hu hs hr
  refine ⟨c', h1, ?_⟩
  intro hneg k hk id p hp
  obtain ⟨v, hv, hiv⟩ := h7 id p hp
  obtain ⟨y, hy, hle⟩ := hiv.all k hk
  have hmax : v ≤ c'.getViolation := (foldl_max_le.1 (le_refl c'.getViolation)).2 v ((mem_vals h4 v).2 ⟨id, hv⟩)
  exact ⟨_, hy, by linarith⟩

/-- **C140, violated** a displaced vertex that no radius of the search reaches counts as beyond the constraint by 1e25 when the centre of the
geometry is on the positive side of it: the value that stands for no distance changes sign. -/
theorem C140_far_fails {meet : Corners → Corners → Option Corners} {s : Surf} {region : Nat → V3 → Prop} (hs : Sound s region) {b bc : Corners} {ps : List V3}
    {x0 : ℝ} (h0 : hit (within s) 1000 (startRadius meet b bc) (middle b) = some x0) (hx : 0 < x0) {i : Nat} {p : V3} (hp : ps[i]? = some p)
    (hn : ∀ k < 1000, s.closest p (startRadius meet (boxOf ps) bc * (1 + 5 / 100) ^ k) = none) :
    ∃ ds, constraint meet s b bc ps = some ds ∧ ds[i]? = some (10 ^ 25) := by
  have hnone : ∀ (k : Nat) (r : ℝ), (∀ j < k, s.closest p (r * (1 + 5 / 100) ^ j) = none) → hit (within s) k r p = none := by
    intro k
    induction k with
    | zero => intros; rfl
    | succ k ih =>
      intro r h
      have hz := h 0 (by omega)
      rw [pow_zero, mul_one] at hz
      have hw : within s r p = none := by simp [within, signedDistance, hz]
      rw [hit, hw]
      simp only
      apply ih
      intro j hj
      have := h (j + 1) (by omega)
      rwa [pow_succ', ← mul_assoc] at this
  unfold constraint
  rw [evaluate_spec hs, evaluate_spec hs]
  simp only [map_cons, map_nil, h0, Option.getD_some, map_map, Option.some.injEq, exists_eq_left', getElem?_map, hp, Option.map_some, Function.comp,
    hnone 1000 _ hn, Option.getD_none, if_pos hx]
  norm_num

/-- **C140, violated** without a field and with at least one vertex, `execute` reads values that are not there. -/
theorem C140_nofield_fails {w : World} (hw : WorldOk w) {surf : Nat → Surf} {box : Nat → Corners} {meet : Corners → Corners → Option Corners} {files : List Nat}
    {c : ExtSurf} {g : Nat} (hg : c.geom = some g) (hf : c.field = make none .undefined) {id : Nat} {p : V3} (hp : get (w g).verts id = some p) :
    c.execute w surf box meet files = none := by
  have hc : completeIn w c.field ⟨0, 0, 0⟩ = some (c.field, false) := by
    rw [hf]; simp [completeIn, make, completeMissingData, idsCoherent]
  unfold ExtSurf.execute
  rw [hg]
  simp only [hc, constField_spec hw g]
  rw [deformed_none ⟨(id, p), mem_of_get' hp, by rw [hf]; rfl⟩]

/-- the tolerance is not negative; constraints are surfaces, each once; a copy has neither field nor violation; `clear` leaves nothing -/
theorem C140_settings (w : World) (c : ExtSurf) (x : ℝ) (g : Nat) :
    (c.setTolerance x).tol = (if x < 0 then 0 else x) ∧ 0 ≤ (c.setTolerance x).tol ∧
      (∀ k, k ∈ (c.addConstraint w (some g)).geos ↔ k ∈ c.geos ∨ (k = g ∧ (w g).type = 1)) ∧ (c.geos.Nodup → (c.addConstraint w (some g)).geos.Nodup) ∧
      c.addConstraint w none = c ∧ c.copy.geom = c.geom ∧ c.copy.tol = c.tol ∧ c.copy.geos = c.geos ∧ c.copy.files = c.files ∧
      c.copy.field.data = [] ∧ c.copy.violation.data = [] ∧ c.clear.geom = none ∧ c.clear.geos = [] ∧ c.clear.files = [] ∧ c.clear.tol = 0 ∧
      c.clear.field.data = [] ∧ c.clear.violation.data = [] := by
  refine ⟨?_, le_max_left _ _, ?_, ?_, rfl, rfl, rfl, rfl, rfl, rfl, rfl, rfl, rfl, rfl, rfl, rfl, rfl⟩
  · simp only [ExtSurf.setTolerance]
    split
    · exact max_eq_left (by linarith)
    · exact max_eq_right (by linarith)
  · intro k
    simp only [ExtSurf.addConstraint]
    split
    · rename_i h; simp [h, mem_insert_iff, or_comm]
    · rename_i h; simp [h]
  · intro h
    simp only [ExtSurf.addConstraint]
    split
    · exact h.insert
    · exact h

/-! ### Files -/

/-- the format a file is read with -/
def formatOf (c : ExtSurf) (f : List Char) : Option Nat := (c.files.find? fun e => e.1 = f).map Prod.snd

theorem find_filter_ne {l : List (List Char × Nat)} {f f' : List Char} :
    ((l.filter fun e => e.1 ≠ f).find? fun e => e.1 = f') = if f' = f then none else l.find? fun e => e.1 = f' := by
  induction l with
  | nil => simp
  | cons e l ih =>
    by_cases h : e.1 = f
    · rw [filter_cons_of_neg (by simpa using h), ih]
      split
      · rfl
      · rename_i h'
        rw [find?_cons_of_neg (by simp only [decide_eq_true_eq]; rw [h]; exact fun e => h' e.symm)]
    · rw [filter_cons_of_pos (by simpa using h)]
      by_cases h2 : e.1 = f'
      · rw [find?_cons_of_pos (by simpa using h2), if_neg (by rw [← h2]; exact h), find?_cons_of_pos (by simpa using h2)]
      · rw [find?_cons_of_neg (by simpa using h2), ih, find?_cons_of_neg (by simpa using h2)]

/-- **C141** a file added with a format that can be read is read with it, the other files as before; a format that cannot be read changes nothing -/
theorem C141_add (allowed : Nat → Bool) (c : ExtSurf) (f f' : List Char) (t : Nat) :
    formatOf (c.addFile allowed f t) f' = if f' = f ∧ allowed t = true then some t else formatOf c f' := by
  unfold ExtSurf.addFile
  by_cases ha : allowed t = true
  · rw [if_pos ha]
    simp only [formatOf, find?_append, find_filter_ne, ha, and_true]
    by_cases h : f' = f
    · subst h; simp
    · rw [if_neg h, if_neg h, find?_cons_of_neg (by simpa using fun e => h e.symm), find?_nil, Option.or_none]
  · rw [if_neg ha, if_neg (by simp [ha])]

/-- **C141** after `setConstraintFiles` the files of the list are read with their formats, and those already there as before -/
theorem C141_set (allowed : Nat → Bool) : ∀ (l : List (List Char × Nat)) (c : ExtSurf) (f : List Char), (l.map Prod.fst).Nodup →
    (∀ t, (f, t) ∈ l → allowed t = true → formatOf (c.setFiles allowed l) f = some t) ∧
      ((∀ t, (f, t) ∈ l → allowed t = false) → formatOf (c.setFiles allowed l) f = formatOf c f)
  | [], c, f, _ => by simp [ExtSurf.setFiles]
  | e :: l, c, f, hn => by
    rw [map_cons, nodup_cons] at hn
    obtain ⟨h1, h2⟩ := C141_set allowed l (c.addFile allowed e.1 e.2) f hn.2
    simp only [ExtSurf.setFiles, foldl_cons] at h1 h2 ⊢
    refine ⟨?_, ?_⟩
    · intro t ht ha
      rcases mem_cons.1 ht with rfl | ht
      · rw [h2 (fun t' ht' => absurd (mem_map.2 ⟨_, ht', rfl⟩) hn.1), C141_add, if_pos ⟨rfl, ha⟩]
      · exact h1 t ht ha
    · intro h
      rw [h2 (fun t ht => h t (mem_cons_of_mem _ ht)), C141_add, if_neg]
      rintro ⟨rfl, ha⟩
      have := h e.2 (by simp)
      rw [this] at ha; cases ha

/-- **C141** a removed file is not read, the others are as before; afterwards none is read -/
theorem C141_remove (c : ExtSurf) (f f' : List Char) :
    formatOf (c.removeFile f) f' = (if f' = f then none else formatOf c f') ∧ formatOf c.removeFiles f' = none := by
  refine ⟨?_, rfl⟩
  simp only [formatOf, ExtSurf.removeFile, find_filter_ne]
  split <;> rfl

theorem lastOf_append {P : Char → Bool} {a b : List Char} {x : Char} (hx : P x = true) (hb : ∀ c ∈ b, P c = false) :
    lastOf P (a ++ x :: b) = some a.length := by
  have h : (a ++ x :: b).reverse.findIdx? P = some b.length := by
    rw [reverse_append, reverse_cons, append_assoc, findIdx?_append]
    have : b.reverse.findIdx? P = none := by
      rw [findIdx?_eq_none_iff]
      intro c hc
      exact hb c (mem_reverse.1 hc)
    rw [this]
    simp [findIdx?_cons, hx]
  unfold lastOf
  rw [h]
  simp only [Option.some_inj, length_append, length_cons]
  omega

theorem lastOf_none {P : Char → Bool} {a : List Char} (h : ∀ c ∈ a, P c = false) : lastOf P a = none := by
  unfold lastOf
  have : a.reverse.findIdx? P = none := by
    rw [findIdx?_eq_none_iff]
    intro c hc
    exact h c (mem_reverse.1 hc)
  rw [this]

/-- a separator of directories -/
def isSep (c : Char) : Bool := c = '/' || c = '\\'

/-- **C141** a path made of a directory, a separator, a name and a tag is taken apart in these -/
theorem C141_path_partial {dir name tag : List Char} {x : Char} (hx : isSep x = true) (hn : ∀ c ∈ name ++ tag, isSep c = false) (ht : '.' ∉ tag) :
    extractInfo (dir ++ x :: (name ++ '.' :: tag)) = (dir, name, tag) := by
  have h1 : lastOf isSep (dir ++ x :: (name ++ '.' :: tag)) = some dir.length := by
    apply lastOf_append hx
    intro c hc
    rw [mem_append, mem_cons] at hc
    rcases hc with hc | rfl | hc
    · exact hn c (mem_append_left _ hc)
    · decide
    · exact hn c (mem_append_right _ hc)
  have h2 : lastOf (fun c => decide (c = '.')) (name ++ '.' :: tag) = some name.length := by
    apply lastOf_append (by simp)
    intro c hc
    simp only [decide_eq_false_iff_not]
    rintro rfl
    exact ht hc
  have e1 : cutLast (fun c => c = '/' || c = '\\') (dir ++ x :: (name ++ '.' :: tag)) = (dir, name ++ '.' :: tag) := by
    change cutLast isSep _ = _
    unfold cutLast
    rw [h1]
    simp
  have e2 : cutLast (fun c => c = '.') (name ++ '.' :: tag) = (name, tag) := by
    unfold cutLast
    rw [h2]
    simp
  unfold extractInfo
  simp only [e1, e2]

/-- **C141, violated** the directory of a file given by its name alone is the name itself, not the current directory. -/
theorem C141_bare_fails {f : List Char} (h : ∀ c ∈ f, isSep c = false) : (extractInfo f).1 = f := by
  have e : cutLast (fun c => c = '/' || c = '\\') f = (f, f) := by
    change cutLast isSep _ = _
    unfold cutLast
    rw [lastOf_none h]
  unfold extractInfo
  simp only [e]

example : extractInfo "a/b.c/wing.v2.stl".toList = ("a/b.c".toList, "wing.v2".toList, "stl".toList) :=
  C141_path_partial (dir := "a/b.c".toList) (name := "wing.v2".toList) (tag := "stl".toList) (x := '/') (by decide) (by decide) (by decide)

example : (extractInfo "wing.stl".toList).1 = "wing.stl".toList := C141_bare_fails (by decide)

example : formatOf (({} : ExtSurf).setFiles (fun t => t < 2) [("a".toList, 1), ("b".toList, 5)]) "a".toList = some 1 :=
  (C141_set _ _ _ _ (by decide)).1 1 (by decide) (by decide)

/-! ### A case -/

/-- a triangle one above that of `demo_surf` -/
def aboveWorld : World := fun _ => { demoObj with verts := [(0, ⟨0, 0, 1⟩), (4, ⟨1, 0, 1⟩), (7, ⟨0, 1, 1⟩)] }

theorem above_ok : WorldOk aboveWorld := ⟨fun _ => by simp [Ok, aboveWorld], fun _ => by simp [Ok, aboveWorld, demoObj]⟩

/-- vertex 4 goes down by 1 -/
def sinkField : Field Nat V3 := ⟨some 0, defaultName, .point, [(4, ⟨0, 0, -1⟩)]⟩

theorem sink_usable : Usable aboveWorld 0 sinkField := by
  refine ⟨rfl, rfl, ?_⟩
  intro e he
  simp only [sinkField, mem_cons, not_mem_nil, or_false] at he
  subst he
  exact ⟨⟨1, 0, 1⟩, rfl⟩

theorem sink_disp (id : Nat) : disp sinkField id = if id = 4 then ⟨0, 0, -1⟩ else ⟨0, 0, 0⟩ := by
  by_cases h : id = 4
  · subst h; rfl
  · rw [if_neg h, disp, sinkField, get_cons, if_neg (fun e => h e.symm)]; rfl

def demoRegion (_ : Nat) (id : Nat) (q : V3) : Prop := id = 0 ∧ InTri ⟨0, 0, 0⟩ ⟨1, 0, 0⟩ ⟨0, 1, 0⟩ q

theorem region_zero : demoRegion 1 0 ⟨0, 0, 0⟩ := ⟨rfl, 0, 0, by norm_num, by norm_num, by norm_num, by ext <;> simp [inPlane, V3.scale]⟩

theorem reach_small {p : V3} (h : dot (p - ⟨0, 0, 0⟩) (p - ⟨0, 0, 0⟩) ≤ 10 * 10) : Reachable (demoRegion 1) p :=
  ⟨0, ⟨0, 0, 0⟩, region_zero, lt_of_le_of_lt ((norm2_le_iff (r := 10) (by norm_num)).2 h) (by norm_num)⟩

/-- a geometry above the constraint, the constraint being the triangle of `demo_surf` -/
def demoExt : ExtSurf := { geom := some 0, field := sinkField, geos := [1] }

def demoBox (_ : Nat) : Corners := (⟨0, 0, 1⟩, ⟨1, 1, 1⟩)

theorem demo_reach : InReach aboveWorld demoExt 0 demoRegion demoBox ([] ++ demoExt.geos) := by
  refine ⟨?_, ?_⟩
  · intro k hk
    simp only [demoExt, nil_append, mem_singleton] at hk
    subst hk
    exact reach_small (by norm_num [demoBox, middle, V3.scale, dot])
  · intro k hk id p hp
    simp only [demoExt, nil_append, mem_singleton] at hk
    subst hk
    have := mem_of_get' hp
    simp only [aboveWorld, mem_cons, Prod.mk.injEq, not_mem_nil, or_false] at this
    change Reachable _ (p + disp sinkField id)
    rw [sink_disp]
    rcases this with ⟨rfl, rfl⟩ | ⟨rfl, rfl⟩ | ⟨rfl, rfl⟩ <;> exact reach_small (by norm_num [dot])

/-- a vertex that touches the constraint is a violation -/
example : ∃ s : Surf, ∃ c', demoExt.execute aboveWorld (fun _ => s) demoBox (fun _ _ => none) [] = some c' ∧ 0 ≤ c'.getViolation := by
  obtain ⟨s, hs, -⟩ := demo_surf
  refine ⟨s, C140_close (region := demoRegion) above_ok rfl (by simp [Ok, demoExt, sinkField]) sink_usable (fun _ _ => hs) demo_reach (k := 1) (by simp [demoExt])
    (id := 4) (p := ⟨1, 0, 1⟩) rfl (j := 0) (q := ⟨1, 0, 0⟩)
    ⟨rfl, 1, 0, by norm_num, by norm_num, by norm_num, by ext <;> simp [inPlane, V3.scale]⟩ ?_⟩
  change norm2 (_ + disp sinkField 4 - _) ≤ 0
  rw [sink_disp, if_pos rfl]
  exact le_of_eq (norm2_eq_zero.2 (by ext <;> norm_num))

/-- points 1e30 above and below the constraint -/
example : ∃ s : Surf, ∃ ds, constraint (fun _ _ => none) s (⟨0, 0, 1⟩, ⟨0, 0, 1⟩) (⟨0, 0, 0⟩, ⟨0, 0, 0⟩) [⟨0, 0, 10 ^ 30⟩, ⟨0, 0, -10 ^ 30⟩] = some ds ∧
    ds[0]? = some (10 ^ 25) := by
  obtain ⟨s, hs, -, -, -, hr, hn, hlam⟩ := demo_surf'
  have hm : middle (⟨0, 0, 1⟩, ⟨0, 0, 1⟩) = ⟨0, 0, 1⟩ := by ext <;> norm_num [middle, V3.scale]
  obtain ⟨x0, h0, id, foot, n, ⟨⟨-, a, b, -, -, -, rfl⟩, hcl⟩, ⟨k, vs, -, hw⟩, hx, -⟩ := hit_reach hs
    (startRadius_pos (fun _ _ => none) (⟨0, 0, 1⟩, ⟨0, 0, 1⟩) (⟨0, 0, 0⟩, ⟨0, 0, 0⟩)) (p := ⟨0, 0, 1⟩)
    (reach_small (by norm_num [dot]))
  have hz : ((⟨0, 0, 1⟩ : V3) - inPlane ⟨0, 0, 0⟩ ⟨1, 0, 0⟩ ⟨0, 1, 0⟩ a b).z = 1 := by simp [inPlane, V3.scale]
  have hnn : n = ⟨0, 0, 1⟩ := by
    obtain ⟨a', b', he⟩ := hlam ⟨0, 0, 1⟩ vs
    obtain ⟨h1, h2, h3⟩ := hw
    rw [he] at h1 h2 h3
    simp only [hn, length_cons, length_nil, Finset.sum_range_succ, Finset.range_zero, Finset.sum_empty] at h1 h2 h3
    ext
    · simpa using h1
    · simpa using h2
    · rw [h3]; simp; ring
  have hpos : 0 < x0 := by
    rw [hx (by rw [hnn]; simp only [dot, hz]; norm_num)]
    refine lt_of_lt_of_le one_pos ?_
    have := (abs_le_norm2 ((⟨0, 0, 1⟩ : V3) - inPlane ⟨0, 0, 0⟩ ⟨1, 0, 0⟩ ⟨0, 1, 0⟩ a b)).2.2
    rwa [hz, abs_one] at this
  refine ⟨s, C140_far_fails hs (x0 := x0) (by rw [hm]; exact h0) hpos (i := 0) (p := ⟨0, 0, 10 ^ 30⟩) rfl ?_⟩
  intro j hj
  cases hcl : s.closest ⟨0, 0, 10 ^ 30⟩ (startRadius (fun _ _ => none) (boxOf [⟨0, 0, 10 ^ 30⟩, ⟨0, 0, -10 ^ 30⟩]) (⟨0, 0, 0⟩, ⟨0, 0, 0⟩) *
      (1 + 5 / 100) ^ j) with
  | none => rfl
  | some e =>
    exfalso
    obtain ⟨k, h⟩ := e
    have h1 := hr _ _ _ _ hcl
    obtain ⟨-, -, ⟨x, ⟨-, a, b, -, -, -, rfl⟩, rfl⟩, -⟩ := hs.found _ _ _ _ hcl
    have h2 := (abs_le_norm2 ((⟨0, 0, 10 ^ 30⟩ : V3) - inPlane ⟨0, 0, 0⟩ ⟨1, 0, 0⟩ ⟨0, 1, 0⟩ a b)).2.2
    have h3 : ((⟨0, 0, 10 ^ 30⟩ : V3) - inPlane ⟨0, 0, 0⟩ ⟨1, 0, 0⟩ ⟨0, 1, 0⟩ a b).z = 10 ^ 30 := by simp [inPlane, V3.scale]
    rw [h3, abs_of_pos (by positivity)] at h2
    have hb : middle (boxOf [⟨0, 0, 10 ^ 30⟩, ⟨0, 0, -10 ^ 30⟩]) = ⟨0, 0, 0⟩ := by
      have hu : (10 : ℝ) ^ 30 < huge := by
        unfold huge
        have h1 : (10 : ℝ) ^ 30 < 2 ^ 100 := by norm_num
        have h2 : (2 : ℝ) ^ 100 ≤ 2 ^ 1023 := pow_le_pow_right₀ (by norm_num) (by norm_num)
        have h3 : (1 : ℝ) ≤ 2 - 1 / 2 ^ 52 := by norm_num
        calc (10 : ℝ) ^ 30 < 2 ^ 100 := h1
          _ ≤ 2 ^ 1023 := h2
          _ = 1 * 2 ^ 1023 := (one_mul _).symm
          _ ≤ (2 - 1 / 2 ^ 52) * 2 ^ 1023 := mul_le_mul_of_nonneg_right h3 (by positivity)
      have h0 : (0 : ℝ) < 10 ^ 30 := by positivity
      ext
      · simp only [boxOf, middle, map_cons, map_nil, foldl_cons, foldl_nil, V3.scale, add_x]
        rw [min_eq_right (a := huge) (by linarith), max_eq_right (a := -huge) (by linarith)]; simp
      · simp only [boxOf, middle, map_cons, map_nil, foldl_cons, foldl_nil, V3.scale, add_y]
        rw [min_eq_right (a := huge) (by linarith), max_eq_right (a := -huge) (by linarith)]; simp
      · simp only [boxOf, middle, map_cons, map_nil, foldl_cons, foldl_nil, V3.scale, add_z]
        rw [min_eq_right (a := huge) (by linarith), max_eq_right (a := -huge) (by linarith), min_eq_right (by linarith), max_eq_left (by linarith)]; ring
    have hm0 : middle (⟨0, 0, 0⟩, ⟨0, 0, 0⟩) = ⟨0, 0, 0⟩ := by ext <;> norm_num [middle, V3.scale]
    have hst : startRadius (fun _ _ => none) (boxOf [⟨0, 0, 10 ^ 30⟩, ⟨0, 0, -10 ^ 30⟩]) (⟨0, 0, 0⟩, ⟨0, 0, 0⟩) = 1 / 10 ^ 8 := by
      simp only [startRadius, hb, hm0]
      rw [norm2_eq_zero.2 (by ext <;> norm_num)]
      norm_num
    rw [hst] at h1
    have g1 : (1 + 5 / 100 : ℝ) ^ j ≤ (1 + 5 / 100) ^ 1000 := pow_le_pow_right₀ (by norm_num) (by omega)
    have g2 : (1 + 5 / 100 : ℝ) ^ 100 ≤ 132 := by norm_num
    have g3 : ((1 + 5 / 100 : ℝ) ^ 100) ^ 10 ≤ 132 ^ 10 := pow_le_pow_left₀ (by positivity) g2 10
    rw [← pow_mul] at g3
    have g4 : (1 + 5 / 100 : ℝ) ^ j ≤ 132 ^ 10 := g1.trans g3
    have g5 : (1 / 10 ^ 8 : ℝ) * (1 + 5 / 100) ^ j ≤ 1 / 10 ^ 8 * 132 ^ 10 := mul_le_mul_of_nonneg_left g4 (by norm_num)
    have g6 : (1 / 10 ^ 8 : ℝ) * 132 ^ 10 < 10 ^ 30 := by norm_num
    exact absurd (h2.trans_lt (h1.trans_le g5)) (not_lt.2 g6.le)

end
end Verif.Utils
