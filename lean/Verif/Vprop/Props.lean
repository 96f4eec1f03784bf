import Verif.Vprop.Model
import Verif.Lapl.PropProps
/-
C178: a step of the propagation of displacements; C179: several steps.
-/
namespace Verif.Vprop
open List Verif.Lapl

noncomputable section

/-! ### Specification -/

open scoped Classical in
/-- the condition in force at a point: given values before periodic ones before slip -/
def inForce (slip : Nat → Option V) (periodic : List Nat) (dir : Nat → Option V) (id : Nat) : Option V :=
  match dir id with
  | some v => some v
  | none => if id ∈ periodic then some 0 else slip id

/-- a component of conditions -/
def comp (bc : Nat → Option V) (c : Fin 3) : Nat → Option ℝ := fun id => (bc id).map fun v => v c

/-! ### One stage -/

theorem work_row (slip : Nat → Option V) (corr : Bool) (periodic : List Nat) (dir : Nat → Option V) (c : Fin 3) (rows : Nat → Option (Sten ℝ)) (id : Nat) :
    (rows id = none → workRows corr slip periodic dir c rows id = none) ∧
    ∀ s, rows id = some s → match inForce (if corr then slip else fun _ => none) periodic dir id with
      | none => workRows corr slip periodic dir c rows id = some s
      | some v => ∃ t, workRows corr slip periodic dir c rows id = some (dirichletRow id (v c) t) := by
  constructor
  · intro h
    unfold workRows pass
    cases corr <;> cases hd : dir id <;> by_cases hp : id ∈ periodic <;> cases hs : slip id <;> simp [h, hd, hp, hs]
  · intro s h
    unfold workRows pass inForce
    cases corr <;> cases hd : dir id <;> by_cases hp : id ∈ periodic <;> cases hs : slip id <;> simp [h, hd, hp, hs]

theorem rhs_zero {border : List Nat} {st : Nat → Option (Sten ℝ)} {bc : Nat → Option ℝ} {id : Nat} {s : Sten ℝ} (h : systemRow st bc id = some s) (h0 : s.const = 0) :
    rhs border st bc id = 0 := by
  unfold rhs
  split
  · rw [h]; simp only [h0, sub_self]
  · rfl

theorem vsolves_iff {ids border : List Nat} {corr : Bool} {slip : Nat → Option V} {periodic : List Nat} {dir : Nat → Option V} {c : Fin 3}
    {st : Nat → Option (Sten ℝ)} {u : Nat → ℝ} (hst : ∀ id ∈ ids, ∃ s, st id = some s ∧ s.const = 0)
    (hb : ∀ id ∈ ids, id ∈ periodic ∨ (corr = true ∧ (slip id).isSome) → id ∈ border) :
    VSolves ids border corr slip periodic dir c st u ↔ Solves ids border st (comp (inForce (if corr then slip else fun _ => none) periodic dir) c) u := by
  unfold VSolves Solves
  apply forall_congr'
  intro id
  apply forall_congr'
  intro hid
  obtain ⟨s, hs, hs0⟩ := hst id hid
  obtain ⟨w1, w2⟩ := work_row slip corr periodic dir c (borderRows border dir st) id
  by_cases hr : id ∈ border ∨ (dir id).isSome
  · have hrow : borderRows border dir st id = some s := by unfold borderRows; rw [if_pos hr, hs]
    have hw := w2 s hrow
    cases hf : inForce (if corr then slip else fun _ => none) periodic dir id with
    | none =>
      rw [hf] at hw
      simp only at hw
      have hcb : comp (inForce (if corr then slip else fun _ => none) periodic dir) c id = none := by unfold comp; rw [hf]; rfl
      have e1 : systemRow st (comp (inForce (if corr then slip else fun _ => none) periodic dir) c) id = some s := by
        unfold systemRow; rw [hs, hcb]; rfl
      have e2 : rhs border st (comp (inForce (if corr then slip else fun _ => none) periodic dir) c) id = 0 := rhs_zero e1 hs0
      rw [hw, e1, e2]
      simp only [hs0, sub_self, Option.some.injEq, forall_eq']
    | some v =>
      rw [hf] at hw
      obtain ⟨t, ht⟩ := hw
      have hcb : comp (inForce (if corr then slip else fun _ => none) periodic dir) c id = some (v c) := by unfold comp; rw [hf]; rfl
      have e1 : systemRow st (comp (inForce (if corr then slip else fun _ => none) periodic dir) c) id = some (dirichletRow id (v c) s) := by
        unfold systemRow; rw [hs, hcb]; rfl
      have e2 : rhs border st (comp (inForce (if corr then slip else fun _ => none) periodic dir) c) id = v c := by
        unfold rhs
        rw [if_pos (Or.inr (by rw [hcb]; rfl)), e1]
        simp only [(dirichlet_eval id (v c) s u).2]
        ring
      rw [ht, e1, e2]
      simp only [Option.some.injEq, forall_eq', (dirichlet_eval id (v c) s u).1, (dirichlet_eval id (v c) t u).1, (dirichlet_eval id (v c) t u).2]
      constructor <;> intro h <;> linarith
  · have hd : dir id = none := by
      cases h : dir id with
      | none => rfl
      | some v => exact absurd (Or.inr (by rw [h]; rfl)) hr
    have hnb : id ∉ border := fun h => hr (Or.inl h)
    have hp : id ∉ periodic := fun h => hnb (hb id hid (Or.inl h))
    have hf : inForce (if corr then slip else fun _ => none) periodic dir id = none := by
      unfold inForce
      rw [hd]
      simp only
      rw [if_neg hp]
      cases corr with
      | false => rfl
      | true =>
        cases h : slip id with
        | none => simp [h]
        | some v => exact absurd (hb id hid (Or.inr ⟨rfl, by rw [h]; rfl⟩)) hnb
    have hw := w1 (by unfold borderRows; rw [if_neg hr])
    have hcb : comp (inForce (if corr then slip else fun _ => none) periodic dir) c id = none := by unfold comp; rw [hf]; rfl
    have e1 : systemRow st (comp (inForce (if corr then slip else fun _ => none) periodic dir) c) id = some s := by
      unfold systemRow; rw [hs, hcb]; rfl
    have e2 : rhs border st (comp (inForce (if corr then slip else fun _ => none) periodic dir) c) id = 0 := by
      unfold rhs
      rw [if_neg]
      rw [hcb]
      rintro (h | h)
      · exact hnb h
      · simp at h
    rw [hw, e1, e2, hs]

theorem fresh_some {pos : Nat → V} {k : Nat → ℝ} {conn : Nat → List Nat} {ids : List Nat} {band : Nat → Option ℝ} {relax : ℝ} {a : Nat} (ha : a ∈ ids) :
    ∃ s, stencils pos k conn ids band relax a = some s ∧ s.const = 0 := by
  classical
  obtain ⟨ws, h1, h2, _⟩ := graph_row pos k conn a
  refine ⟨bandStencil band relax a (graphStencil pos k conn a), ?_, ?_⟩
  · unfold stencils graphStencils
    rw [if_pos ha]
    rfl
  · rw [(band_row band relax a _ ws h1).2, h2]

/-- **C178.** A stage solves the system exactly when every component has the values in force (given before periodic before slip) and is balanced elsewhere. -/
theorem C178_system {S : Setup} {pos : Nat → V} {corr : Bool} {slip : Nat → Option V} {u : Nat → V} (hs : ∀ a ∈ S.ids, Sound pos (S.damp pos) S.conn a)
    (hb : ∀ id ∈ S.ids, id ∈ S.periodic ∨ (corr = true ∧ (slip id).isSome) → id ∈ S.border) :
    S.Stage corr slip (S.fresh pos) u ↔ ∀ c, Harmonic S.ids S.conn (coef pos (S.damp pos) (S.band pos) S.relax)
      (comp (inForce (if corr then slip else fun _ => none) S.periodic S.dir) c) fun id => u id c := by
  unfold Setup.Stage
  apply forall_congr'
  intro c
  have hf : ∀ id ∈ S.ids, ∃ s, S.fresh pos id = some s ∧ s.const = 0 := fun id hid => fresh_some hid
  rw [vsolves_iff hf hb]
  exact C174_system hs _

/-- every stencil exists and has no constant -/
def Rows (S : Setup) (st : Nat → Option (Sten ℝ)) : Prop := ∀ id ∈ S.ids, ∃ s, st id = some s ∧ s.const = 0

theorem stage_values {S : Setup} {corr : Bool} {slip : Nat → Option V} {st : Nat → Option (Sten ℝ)} {u : Nat → V} (hst : Rows S st)
    (hb : ∀ id ∈ S.ids, id ∈ S.periodic ∨ (corr = true ∧ (slip id).isSome) → id ∈ S.border) (h : S.Stage corr slip st u) {id : Nat} (hid : id ∈ S.ids) {v : V}
    (hv : inForce (if corr then slip else fun _ => none) S.periodic S.dir id = some v) : u id = v := by
  funext c
  have hS := (vsolves_iff hst hb).1 (h c) id hid
  obtain ⟨s, hs, _⟩ := hst id hid
  have hcb : comp (inForce (if corr then slip else fun _ => none) S.periodic S.dir) c id = some (v c) := by unfold comp; rw [hv]; rfl
  have e1 : systemRow st (comp (inForce (if corr then slip else fun _ => none) S.periodic S.dir) c) id = some (dirichletRow id (v c) s) := by
    unfold systemRow; rw [hs, hcb]; rfl
  have := hS _ e1
  rw [(dirichlet_eval id (v c) s _).1] at this
  rw [this]
  unfold rhs
  rw [if_pos (Or.inr (by rw [hcb]; rfl)), e1]
  simp only [(dirichlet_eval id (v c) s (fun _ => 0)).2]
  ring

/-- the slip points are on the border -/
structure OnBorder (S : Setup) : Prop where
  periodic : ∀ id ∈ S.periodic, id ∈ S.border
  slip : ∀ pos guess id, (S.corrector pos guess id).isSome → id ∈ S.border

/-- **C178.** A step has the given displacements at the points of patches, zero at the border of periodic patches, and at the other slip points those of the
correction of a guess. -/
theorem C178_values {S : Setup} (hb : OnBorder S) {pos : Nat → V} {st : Nat → Option (Sten ℝ)} (hst : Rows S st) {u : Nat → V} (h : S.Step pos st u) :
    ∃ guess, ∀ id ∈ S.ids, (∀ v, S.dir id = some v → u id = v) ∧ (S.dir id = none → id ∈ S.periodic → u id = 0) ∧
      (S.slipActive = true → S.dir id = none → id ∉ S.periodic → ∀ v, S.corrector pos guess id = some v → u id = v) := by
  obtain ⟨guess, h1, h2⟩ := h
  refine ⟨guess, fun id hid => ?_⟩
  have hp : ∀ corr : Bool, ∀ id ∈ S.ids, id ∈ S.periodic ∨ (corr = true ∧ (S.corrector pos guess id).isSome) → id ∈ S.border := by
    rintro corr id _ (h | ⟨_, h⟩)
    · exact hb.periodic id h
    · exact hb.slip pos guess id h
  have hn : ∀ id ∈ S.ids, id ∈ S.periodic ∨ (false = true ∧ ((fun _ => none : Nat → Option V) id).isSome) → id ∈ S.border := by
    rintro id _ (h | ⟨h, _⟩)
    · exact hb.periodic id h
    · cases h
  cases ha : S.slipActive with
  | false =>
    rw [ha] at h2
    simp only [Bool.false_eq_true, if_false] at h2
    subst h2
    refine ⟨?_, ?_, by intro h; cases h⟩
    · intro v hv
      exact stage_values hst hn h1 hid (by unfold inForce; rw [hv])
    · intro hd hper
      exact stage_values hst hn h1 hid (by unfold inForce; rw [hd]; exact if_pos hper)
  | true =>
    rw [ha] at h2
    simp only [if_true] at h2
    refine ⟨?_, ?_, ?_⟩
    · intro v hv
      exact stage_values hst (hp true) h2 hid (by unfold inForce; rw [hv])
    · intro hd hper
      exact stage_values hst (hp true) h2 hid (by unfold inForce; rw [hd]; exact if_pos hper)
    · intro _ hd hper v hv
      refine stage_values hst (hp true) h2 hid ?_
      unfold inForce
      rw [hd]
      simp only
      rw [if_neg hper]
      exact hv

/-- **C178.** Without slip patches every component is between the smallest and the largest of the given values (with zero for periodic points). -/
theorem C178_bounds {S : Setup} (hb : OnBorder S) {pos : Nat → V} (hna : S.slipActive = false) {u : Nat → V} (h : S.Step pos (S.fresh pos) u) {c : Fin 3}
    (hs : Solvable pos (S.damp pos) S.conn S.ids (S.band pos) S.relax (comp (inForce (fun _ => none) S.periodic S.dir) c)) {m M : ℝ}
    (hm : ∀ a ∈ S.ids, ∀ v, inForce (fun _ => none) S.periodic S.dir a = some v → m ≤ v c ∧ v c ≤ M) : ∀ a ∈ S.ids, m ≤ u a c ∧ u a c ≤ M := by
  obtain ⟨guess, h1, h2⟩ := h
  rw [hna] at h2
  simp only [Bool.false_eq_true, if_false] at h2
  subst h2
  have hf : ∀ id ∈ S.ids, ∃ s, S.fresh pos id = some s ∧ s.const = 0 := fun id hid => fresh_some hid
  have hS := (vsolves_iff hf (by
    rintro id _ (h | ⟨h, _⟩)
    · exact hb.periodic id h
    · cases h)).1 (h1 c)
  simp only [Bool.false_eq_true, if_false] at hS
  refine C174_bounds hs hS ?_
  intro a ha v hv
  unfold comp at hv
  cases hi : inForce (fun _ => none) S.periodic S.dir a with
  | none => rw [hi] at hv; simp at hv
  | some w =>
    rw [hi] at hv
    simp only [Option.map_some, Option.some.injEq] at hv
    rw [← hv]
    exact hm a ha w hi

/-! ### Slip -/

/-- on a plane -/
def OnPlane (x q n : V) : Prop := dot (x - q) n = 0

theorem proj_plane (x q : V) {n : V} (hn : dot n n = 1) : OnPlane (projPlane x q n) q n := by
  unfold OnPlane projPlane
  unfold dot at *
  simp only [Pi.add_apply, Pi.sub_apply, Pi.smul_apply, smul_eq_mul]
  generalize x 0 = x0, x 1 = x1, x 2 = x2, q 0 = q0, q 1 = q1, q 2 = q2, n 0 = n0, n 1 = n1, n 2 = n2 at *
  linear_combination (n0 * (q0 - x0) + n1 * (q1 - x1) + n2 * (q2 - x2)) * hn

/-- **C178.** With a plane whose normal has length 1 the displaced slip points without other conditions are on the plane. -/
theorem C178_plane {S : Setup} (hb : OnBorder S) {plane : V × V} (hn : dot plane.2 plane.2 = 1) {slip : List Nat} (hc : S.corrector = planeCorrector plane slip)
    (ha : S.slipActive = true) {pos : Nat → V} {st : Nat → Option (Sten ℝ)} (hst : Rows S st) {u : Nat → V} (h : S.Step pos st u) :
    ∀ id ∈ S.ids, id ∈ slip → S.dir id = none → id ∉ S.periodic → OnPlane (pos id + u id) plane.1 plane.2 := by
  obtain ⟨guess, hv⟩ := C178_values hb hst h
  intro id hid hsl hd hp
  have := (hv id hid).2.2 ha hd hp (projPlane (pos id + guess id) plane.1 plane.2 - pos id) (by rw [hc]; exact if_pos hsl)
  rw [this, add_sub_cancel]
  exact proj_plane _ _ hn

theorem sum_same {n : V} : ∀ (l : List V), (∀ m ∈ l, m = n) → l.sum = (l.length : ℝ) • n := by
  intro l
  induction l with
  | nil => intro _; simp
  | cons a l ih =>
    intro h
    rw [sum_cons, ih (fun m hm => h m (mem_cons_of_mem _ hm)), h a mem_cons_self, length_cons]
    push_cast
    rw [add_smul, one_smul, add_comm]

/-- **C178.** For a plane slip surface the plane is that of the surface: its normal, and a point on it. -/
theorem C178_average {points normals : List V} {q n : V} (hp : points ≠ []) (hn : normals ≠ []) (h1 : ∀ p ∈ points, OnPlane p q n) (h2 : ∀ m ∈ normals, m = n) :
    (averagePlane points normals).2 = n ∧ OnPlane (averagePlane points normals).1 q n := by
  have l1 : 0 < points.length := length_pos_iff.2 hp
  have l2 : 0 < normals.length := length_pos_iff.2 hn
  have c1 : (points.length : ℝ) ≠ 0 := by positivity
  have c2 : (normals.length : ℝ) ≠ 0 := by positivity
  unfold averagePlane
  simp only
  rw [if_pos l1, if_pos l2]
  constructor
  · rw [sum_same normals h2, smul_smul, one_div, inv_mul_cancel₀ c2, one_smul]
  · have hs : dot points.sum n = (points.length : ℝ) * dot q n := by
      clear l1 c1 hp
      induction points with
      | nil => simp [dot]
      | cons a l ih =>
        have e1 := h1 a mem_cons_self
        have e2 := ih (fun p hp => h1 p (mem_cons_of_mem _ hp))
        rw [sum_cons, length_cons]
        push_cast
        unfold OnPlane dot at *
        simp only [Pi.add_apply, Pi.sub_apply] at *
        linarith
    have : dot ((1 / (points.length : ℝ)) • points.sum - q) n = (1 / (points.length : ℝ)) * dot points.sum n - dot q n := by
      unfold dot
      simp only [Pi.sub_apply, Pi.smul_apply, smul_eq_mul]
      ring
    unfold OnPlane
    rw [this, hs]
    field_simp
    ring

/-- **C178.** Violated for curved slip surfaces: the mean of different unit normals is shorter than 1 and displaced points are not put on the plane. -/
theorem C178_curved_fails : ∃ (points normals : List V) (x : V), (∀ m ∈ normals, dot m m = 1) ∧
    ¬ OnPlane (projPlane x (averagePlane points normals).1 (averagePlane points normals).2) (averagePlane points normals).1 (averagePlane points normals).2 := by
  refine ⟨[0], [![1, 0, 0], ![0, 1, 0]], ![1, 1, 0], ?_, ?_⟩
  · intro m hm
    simp only [mem_cons, not_mem_nil, or_false] at hm
    rcases hm with rfl | rfl <;> simp [dot]
  · have hc : (averagePlane [0] [![1, 0, 0], ![0, 1, 0]]).1 = 0 := by simp [averagePlane]
    have hm : (averagePlane [0] [![1, 0, 0], ![0, 1, 0]]).2 = ![1 / 2, 1 / 2, 0] := by
      funext i
      fin_cases i <;> norm_num [averagePlane]
    rw [hc, hm]
    have h2 : projPlane ![1, 1, 0] 0 ![1 / 2, 1 / 2, 0] = ![1 / 2, 1 / 2, 0] := by
      funext i
      fin_cases i
      · show (1 : ℝ) + (1 / 2 * (0 - 1) + 1 / 2 * (0 - 1) + 0 * (0 - 0)) * (1 / 2) = 1 / 2
        norm_num
      · show (1 : ℝ) + (1 / 2 * (0 - 1) + 1 / 2 * (0 - 1) + 0 * (0 - 0)) * (1 / 2) = 1 / 2
        norm_num
      · show (0 : ℝ) + (1 / 2 * (0 - 1) + 1 / 2 * (0 - 1) + 0 * (0 - 0)) * 0 = 0
        norm_num
    rw [h2]
    show ¬ ((1 / 2 - 0) * (1 / 2) + (1 / 2 - 0) * (1 / 2) + (0 - 0) * 0 = (0 : ℝ))
    norm_num

/-- **C178.** Violated: opposite normals (surfaces on two sides of a body) cancel; the points are not corrected at all. -/
theorem C178_opposite_fails (points : List V) (n x : V) : projPlane x (averagePlane points [n, -n]).1 (averagePlane points [n, -n]).2 = x := by
  have : (averagePlane points [n, -n]).2 = 0 := by simp [averagePlane]
  rw [this]
  unfold projPlane
  simp

theorem mapM_some {α β : Type} {f : α → Option β} : ∀ {l : List α} {r : List β}, l.mapM f = some r ↔ l.map f = r.map some := by
  intro l
  induction l with
  | nil =>
    intro r
    cases r <;> simp [List.mapM_nil]
  | cons a l ih =>
    intro r
    rw [List.mapM_cons]
    cases hf : f a with
    | none =>
      cases r <;> simp [hf]
    | some b =>
      cases r with
      | nil =>
        cases hm : mapM f l <;> simp [hm]
      | cons c r =>
        simp only [Option.bind_eq_bind, Option.bind_some, Option.pure_def, Option.bind_eq_some_iff, Option.some.injEq, cons.injEq, map_cons, hf]
        constructor
        · rintro ⟨t, h1, h2, h3⟩
          subst h2 h3
          exact ⟨rfl, ih.1 h1⟩
        · rintro ⟨h1, h2⟩
          exact ⟨r, ih.2 h2, h1, rfl⟩

/-- **C178.** With a reference surface that has as many points as there are slip points, every displaced slip point is put on its projection. -/
theorem C178_reference_partial (proj : V → V) (slip : List Nat) (pos guess : Nat → V) :
    refCorrector proj slip.length slip pos guess = some (slip.map fun id => (id, proj (pos id + guess id) - pos id)) := by
  unfold refCorrector
  have h1 : ((range slip.length).mapM fun i => (slip.map fun id => pos id + guess id)[i]?) = some (slip.map fun id => pos id + guess id) := by
    rw [mapM_some]
    apply ext_getElem?
    intro i
    by_cases hi : i < slip.length
    · simp [hi]
    · simp [hi, getElem?_eq_none (not_lt.1 hi)]
  simp only [h1, Option.bind_some]
  rw [mapM_some]
  apply ext_getElem?
  intro i
  by_cases hi : i < slip.length
  · simp [hi]
  · simp [getElem?_eq_none (not_lt.1 hi)]

/-- **C178.** Violated for every other reference surface: the arrays have its size, so that memory is read that was not written, or behind their end. -/
theorem C178_reference_fails (proj : V → V) {nref : Nat} {slip : List Nat} (h : nref ≠ slip.length) (pos guess : Nat → V) : refCorrector proj nref slip pos guess = none := by
  cases hr : refCorrector proj nref slip pos guess with
  | none => rfl
  | some r =>
    exfalso
    unfold refCorrector at hr
    simp only [Option.bind_eq_some_iff] at hr
    obtain ⟨ps, h1, h2⟩ := hr
    rw [mapM_some] at h1 h2
    have l1 := congrArg length h1
    simp only [length_map, length_range] at l1
    rcases Nat.lt_or_gt_of_ne h with hl | hl
    · have := congrArg (fun l => l[nref]?) h2
      simp only [getElem?_map, getElem?_zipIdx, getElem?_eq_getElem hl, Option.map_some, zero_add] at this
      rw [getElem?_eq_none (l := ps) (by omega)] at this
      cases hq : r[nref]? with
      | none =>
        have l2 := congrArg length h2
        simp only [length_map, length_zipIdx] at l2
        rw [getElem?_eq_none_iff] at hq
        omega
      | some x => rw [hq] at this; simp at this
    · have := congrArg (fun l => l[slip.length]?) h1
      simp only [getElem?_map] at this
      rw [getElem?_range hl, getElem?_eq_getElem (by omega : slip.length < ps.length)] at this
      simp at this

/-- **C178.** Violated: after an execution without reference surfaces the slip surfaces of that time stay the references; one added later is not among them. -/
theorem C178_stale_fails {σ : Type} {slip : List σ} (hs : slip ≠ []) {a : σ} (ha : a ∉ slip) :
    a ∈ slip ++ [a] ∧ a ∉ references (references [] slip) (slip ++ [a]) := by
  refine ⟨by simp, ?_⟩
  have h1 : references [] slip = slip := by unfold references; rw [if_neg hs, if_pos rfl]
  have h2 : references slip (slip ++ [a]) = slip := by unfold references; rw [if_neg (by simp), if_neg hs]
  rw [h1, h2]
  exact ha

/-- **C178.** Patches of the mesh give their slip and periodic points. -/
theorem C178_coherent {mesh patches slip periodic : List Nat} (h1 : ∀ id ∈ patches, id ∈ mesh) (h2 : ∀ id ∈ slip, id ∈ mesh) :
    coherence mesh patches slip periodic = (true, slip, periodic) := by
  unfold coherence
  rw [if_pos]
  simp only [Bool.and_eq_true, all_eq_true, contains_iff_mem]
  exact ⟨h1, h2⟩

/-- **C178.** Violated: a single foreign point of any patch drops all slip and periodic conditions; there is only a warning. -/
theorem C178_incoherent_fails {mesh patches slip periodic : List Nat} {id : Nat} (h : id ∈ patches ++ slip) (hm : id ∉ mesh) :
    coherence mesh patches slip periodic = (false, [], []) := by
  unfold coherence
  rw [if_neg]
  simp only [Bool.and_eq_true, all_eq_true, contains_iff_mem]
  rintro ⟨h1, h2⟩
  rcases mem_append.1 h with h | h
  · exact hm (h1 id h)
  · exact hm (h2 id h)

example : coherence [0, 1, 2] [1, 7] [2] [2] = (false, [], []) := C178_incoherent_fails (id := 7) (by simp) (by simp)

/-! ### Steps -/

theorem fresh_rows (S : Setup) (pos : Nat → V) : Rows S (S.fresh pos) := fun _ hid => fresh_some hid

theorem update_rows {S : Setup} {pos : Nat → V} {st : Nat → Option (Sten ℝ)} (h : Rows S st) (u : Nat → V) : Rows S (S.update pos st u) := by
  intro id hid
  unfold Setup.update
  split
  · exact fresh_some hid
  · exact h id hid

theorem run_dir {S : Setup} (hb : OnBorder S) {id : Nat} (hid : id ∈ S.ids) {v : V} (hv : S.dir id = some v) : ∀ (n : Nat) {pos st q},
    Rows S st → S.Run n pos st q → q id = pos id + (n : ℝ) • v := by
  intro n
  induction n with
  | zero =>
    intro pos st q _ h
    rw [show q = pos from h]
    simp
  | succ n ih =>
    rintro pos st q hst ⟨u, hu, hr⟩
    obtain ⟨_, hg⟩ := C178_values hb hst hu
    rw [ih (update_rows hst u) hr, (hg id hid).1 v hv]
    push_cast
    rw [add_smul, one_smul, add_assoc, add_comm v]

theorem run_periodic {S : Setup} (hb : OnBorder S) {id : Nat} (hid : id ∈ S.ids) (hv : S.dir id = none) (hp : id ∈ S.periodic) : ∀ (n : Nat) {pos st q},
    Rows S st → S.Run n pos st q → q id = pos id := by
  intro n
  induction n with
  | zero =>
    intro pos st q _ h
    rw [show q = pos from h]
  | succ n ih =>
    rintro pos st q hst ⟨u, hu, hr⟩
    obtain ⟨_, hg⟩ := C178_values hb hst hu
    rw [ih (update_rows hst u) hr, (hg id hid).2.1 hv hp, add_zero]

theorem run_plane {S : Setup} (hb : OnBorder S) {plane : V × V} (hn : dot plane.2 plane.2 = 1) {slip : List Nat} (hc : S.corrector = planeCorrector plane slip)
    (ha : S.slipActive = true) {id : Nat} (hid : id ∈ S.ids) (hsl : id ∈ slip) (hv : S.dir id = none) (hp : id ∉ S.periodic) : ∀ (n : Nat) {pos st q},
    Rows S st → S.Run (n + 1) pos st q → OnPlane (q id) plane.1 plane.2 := by
  intro n
  induction n with
  | zero =>
    rintro pos st q hst ⟨u, hu, hr⟩
    rw [show q = _ from hr]
    exact C178_plane hb hn hc ha hst hu id hid hsl hv hp
  | succ n ih =>
    rintro pos st q hst ⟨u, _, hr⟩
    exact ih (update_rows hst u) hr

/-- **C179.** However many steps are made, the mesh is as before and the field has the given displacements at the points of patches, zero at the border of
periodic patches, and puts the other slip points on the slip plane. -/
theorem C179_values {S : Setup} (hb : OnBorder S) {n : Nat} (h1 : 1 ≤ n) {pos field after : Nat → V} (h : S.Execute n pos field after) :
    after = pos ∧ ∀ id ∈ S.ids, (∀ v, S.dir id = some v → field id = v) ∧ (S.dir id = none → id ∈ S.periodic → field id = 0) ∧
      ∀ plane slip, dot plane.2 plane.2 = 1 → S.corrector = planeCorrector plane slip → S.slipActive = true → id ∈ slip → S.dir id = none → id ∉ S.periodic →
        OnPlane (pos id + field id) plane.1 plane.2 := by
  unfold Setup.Execute at h
  split at h
  case isFalse =>
    obtain ⟨hs, rfl⟩ := h
    refine ⟨rfl, fun id hid => ?_⟩
    obtain ⟨_, hg⟩ := C178_values hb (fresh_rows S after) hs
    exact ⟨(hg id hid).1, (hg id hid).2.1, fun plane slip hn hc ha hsl hd hp => C178_plane hb hn hc ha (fresh_rows S after) hs id hid hsl hd hp⟩
  case isTrue hn1 =>
    obtain ⟨q, hr, rfl, rfl⟩ := h
    have hb' : OnBorder (S.subdivide n) := ⟨hb.periodic, hb.slip⟩
    have hf := fresh_rows (S.subdivide n) after
    have hn0 : (n : ℝ) ≠ 0 := by
      have : (0 : ℝ) < n := by exact_mod_cast h1
      exact this.ne'
    refine ⟨rfl, fun id hid => ⟨?_, ?_, ?_⟩⟩
    · intro v hv
      have := run_dir hb' (id := id) hid (v := (1 / (n : ℝ)) • v) (by show (S.dir id).map _ = _; rw [hv]; rfl) n hf hr
      show q id - after id = v
      rw [this, smul_smul, mul_one_div, div_self hn0, one_smul]
      abel
    · intro hd hp
      have := run_periodic hb' (id := id) hid (by show (S.dir id).map _ = _; rw [hd]; rfl) hp n hf hr
      show q id - after id = 0
      rw [this, sub_self]
    · intro plane slip hn hc ha hsl hd hp
      obtain ⟨k, rfl⟩ : ∃ k, n = k + 1 := ⟨n - 1, by omega⟩
      have := run_plane hb' hn hc ha (id := id) hid hsl (by show (S.dir id).map _ = _; rw [hd]; rfl) hp k hf hr
      rw [add_sub_cancel]
      exact this

/-- **C179.** The field is made of as many steps as wanted, each with its share of the displacements, from where the one before left the mesh. -/
theorem C179_shares {S : Setup} {n : Nat} (h1 : 1 ≤ n) {pos field after : Nat → V} (h : S.Execute n pos field after) :
    ∃ p : Nat → Nat → V, p 0 = pos ∧ (∀ id, p n id = pos id + field id) ∧
      ∀ i < n, ∃ st, ({ S with dir := fun id => (S.dir id).map fun v => (1 / (n : ℝ)) • v } : Setup).Step (p i) st (fun id => p (i + 1) id - p i id) ∧
        (i = 0 → st = S.fresh pos) := by
  have run : ∀ (T : Setup) (m : Nat) (pos : Nat → V) (st : Nat → Option (Sten ℝ)) (q : Nat → V), T.Run m pos st q →
      ∃ p : Nat → Nat → V, p 0 = pos ∧ p m = q ∧ ∀ i < m, ∃ st', T.Step (p i) st' (fun id => p (i + 1) id - p i id) ∧ (i = 0 → st' = st) := by
    intro T m
    induction m with
    | zero => intro pos st q h; exact ⟨fun _ => pos, rfl, (show q = pos from h).symm, fun i hi => absurd hi (by omega)⟩
    | succ m ih =>
      rintro pos st q ⟨u, hu, hr⟩
      obtain ⟨p, p0, pm, hp⟩ := ih _ _ _ hr
      refine ⟨fun i => match i with | 0 => pos | i + 1 => p i, rfl, pm, fun i hi => ?_⟩
      cases i with
      | zero =>
        refine ⟨st, ?_, fun _ => rfl⟩
        have : (fun id => p 0 id - pos id) = u := by
          funext id
          rw [p0]
          exact add_sub_cancel_left _ _
        show T.Step pos st (fun id => p 0 id - pos id)
        rw [this]
        exact hu
      | succ i =>
        obtain ⟨st', h, -⟩ := hp i (by omega)
        exact ⟨st', h, fun h => absurd h (by omega)⟩
  unfold Setup.Execute at h
  split at h
  case isTrue =>
    obtain ⟨q, hr, rfl, -⟩ := h
    obtain ⟨p, p0, pn, hp⟩ := run _ n pos _ q hr
    refine ⟨p, p0, fun id => by rw [pn]; exact (add_sub_cancel _ _).symm, hp⟩
  case isFalse hn =>
    obtain rfl : n = 1 := by omega
    refine ⟨fun i => if i = 0 then pos else fun id => pos id + field id, rfl, fun id => rfl, fun i hi => ?_⟩
    obtain rfl : i = 0 := by omega
    have e : ({ S with dir := fun id => (S.dir id).map fun v => (1 / ((1 : Nat) : ℝ)) • v } : Setup) = S := by
      have : (fun id => (S.dir id).map fun v => (1 / ((1 : Nat) : ℝ)) • v) = S.dir := by
        funext id
        cases S.dir id with
        | none => rfl
        | some v => simp
      rw [this]
    refine ⟨S.fresh pos, ?_, fun _ => rfl⟩
    rw [e]
    have : (fun id => (if (0 : Nat) + 1 = 0 then pos else fun id => pos id + field id) id - (if (0 : Nat) = 0 then pos else fun id => pos id + field id) id) = field := by
      funext id
      simp
    rw [this]
    exact h.1

/-! ### Updates -/

theorem graph_congr {pos pos' : Nat → V} {k k' : Nat → ℝ} {conn : Nat → List Nat} {a : Nat} (h : ∀ b ∈ a :: conn a, pos' b = pos b ∧ k' b = k b) :
    graphStencil pos' k' conn a = graphStencil pos k conn a := by
  have he : ∀ b ∈ conn a, edgeWeight pos' k' a b = edgeWeight pos k a b := by
    intro b hb
    unfold edgeWeight
    rw [(h a mem_cons_self).1, (h a mem_cons_self).2, (h b (mem_cons_of_mem _ hb)).1, (h b (mem_cons_of_mem _ hb)).2]
  have f1 : ∀ (l : List Nat) (s : Sten ℝ), (∀ b ∈ l, edgeWeight pos' k' a b = edgeWeight pos k a b) →
      l.foldl (fun s b => s.append b (edgeWeight pos' k' a b)) s = l.foldl (fun s b => s.append b (edgeWeight pos k a b)) s := by
    intro l
    induction l with
    | nil => intro s _; rfl
    | cons b l ih =>
      intro s hl
      rw [foldl_cons, foldl_cons, hl b mem_cons_self, ih _ (fun c hc => hl c (mem_cons_of_mem _ hc))]
  have f2 : ∀ (l : List Nat) (s : ℝ), (∀ b ∈ l, edgeWeight pos' k' a b = edgeWeight pos k a b) →
      l.foldl (fun s b => s + edgeWeight pos' k' a b) s = l.foldl (fun s b => s + edgeWeight pos k a b) s := by
    intro l
    induction l with
    | nil => intro s _; rfl
    | cons b l ih =>
      intro s hl
      rw [foldl_cons, foldl_cons, hl b mem_cons_self, ih _ (fun c hc => hl c (mem_cons_of_mem _ hc))]
  unfold graphStencil
  rw [f1 _ _ he, f2 _ _ he]

theorem far_congr {band band' : Nat → Option ℝ} {d : ℝ} {e : Nat × ℝ} (h : band' e.1 = band e.1) : isFar band' d e = isFar band d e := by
  unfold isFar
  rw [h]

theorem band_congr {band band' : Nat → Option ℝ} {relax : ℝ} {a : Nat} {s : Sten ℝ} (h0 : band' a = band a) (h : ∀ e ∈ s.items.dropLast, band' e.1 = band e.1) :
    bandStencil band' relax a s = bandStencil band relax a s := by
  unfold bandStencil
  rw [h0]
  cases band a with
  | none => rfl
  | some d =>
    simp only
    have hf : s.items.dropLast.filter (isFar band' d) = s.items.dropLast.filter (isFar band d) := filter_congr fun e he => far_congr (h e he)
    have hm : (s.items.dropLast.map fun e => if isFar band' d e = true then (e.1, e.2 * relax) else e) =
        s.items.dropLast.map fun e => if isFar band d e = true then (e.1, e.2 * relax) else e :=
      map_congr_left fun e he => by rw [far_congr (h e he)]
    rw [hf, hm]

/-- **C179.** Between steps only the stencils of points that moved by more than the threshold and of their neighbours are computed again. This gives all stencils of
the deformed mesh when every point that moves at all moves by more, and diffusivity and band do not change where no point moves. -/
theorem C179_update_partial {S : Setup} (hsym : ∀ a b, b ∈ S.conn a → a ∈ S.conn b) {pos u : Nat → V} (hu : ∀ a, u a ≠ 0 → a ∈ S.ids ∧ S.thres < norm2 (u a))
    (hk : ∀ a, (∀ b ∈ a :: S.conn a, u b = 0) → ∀ b ∈ a :: S.conn a, S.damp (fun k => pos k + u k) b = S.damp pos b ∧ S.band (fun k => pos k + u k) b = S.band pos b)
    {st : Nat → Option (Sten ℝ)} (hst : st = S.fresh pos) : S.update pos st u = S.fresh fun k => pos k + u k := by
  funext a
  subst hst
  unfold Setup.update
  split
  · rfl
  · rename_i hm
    have hz : ∀ b ∈ a :: S.conn a, u b = 0 := by
      intro b hb
      by_contra hne
      obtain ⟨hbi, hbt⟩ := hu b hne
      apply hm
      unfold Setup.mask
      have hmem : b ∈ S.ids.filter fun id => decide (S.thres < norm2 (u id)) := mem_filter.2 ⟨hbi, by simpa using hbt⟩
      rcases mem_cons.1 hb with rfl | hb
      · exact mem_append_left _ (by convert hmem)
      · exact mem_append_right _ (mem_flatMap.2 ⟨b, by convert hmem, hsym a b hb⟩)
    have hk' := hk a hz
    unfold Setup.fresh stencils graphStencils
    by_cases ha : a ∈ S.ids
    · rw [if_pos ha, if_pos ha]
      simp only [Option.map_some, Option.some.injEq, Option.getD_some]
      have hg : graphStencil (fun k => pos k + u k) (S.damp fun k => pos k + u k) S.conn a = graphStencil pos (S.damp pos) S.conn a :=
        graph_congr fun b hb => ⟨by rw [hz b hb, add_zero], (hk' b hb).1⟩
      rw [hg]
      symm
      apply band_congr (hk' a mem_cons_self).2
      obtain ⟨ws, h1, _, h3⟩ := graph_row pos (S.damp pos) S.conn a
      rw [h1, dropLast_concat, h3]
      intro e he
      obtain ⟨b, hb, rfl⟩ := mem_map.1 he
      exact (hk' b (mem_cons_of_mem _ hb)).2
    · rw [if_neg ha, if_neg ha]
      rfl

/-- **C179.** Violated: where no displacement of a step exceeds the threshold nothing is updated, however many steps are made. -/
theorem C179_threshold_fails {S : Setup} {pos u : Nat → V} (hu : ∀ a ∈ S.ids, norm2 (u a) ≤ S.thres) (st : Nat → Option (Sten ℝ)) : S.update pos st u = st := by
  funext a
  unfold Setup.update
  rw [if_neg]
  have : (S.ids.filter fun id => @decide (S.thres < norm2 (u id)) (Classical.propDecidable _)) = [] := by
    rw [filter_eq_nil_iff]
    intro a ha
    simpa using hu a ha
  unfold Setup.mask
  simp only [this]
  simp

/-! ### Exactly one step -/

theorem reach_mono {conn : Nat → List Nat} {c : Nat → Nat → ℝ} {b b' : Nat → Option ℝ} (h : ∀ a, (b a).isSome → (b' a).isSome) {a : Nat} (hr : Reach conn c b a) :
    Reach conn c b' a := by
  induction hr with
  | @here a v hv =>
    obtain ⟨w, hw⟩ := Option.isSome_iff_exists.1 (h a (by rw [hv]; rfl))
    exact .here hw
  | step h1 h2 _ ih => exact .step h1 h2 ih

theorem stage_unique {S : Setup} {pos : Nat → V} {corr : Bool} {slip : Nat → Option V}
    (hb : ∀ id ∈ S.ids, id ∈ S.periodic ∨ (corr = true ∧ (slip id).isSome) → id ∈ S.border)
    (hs : ∀ c, Solvable pos (S.damp pos) S.conn S.ids (S.band pos) S.relax (comp (inForce (if corr then slip else fun _ => none) S.periodic S.dir) c)) :
    (∃ u, S.Stage corr slip (S.fresh pos) u) ∧ ∀ u v, S.Stage corr slip (S.fresh pos) u → S.Stage corr slip (S.fresh pos) v → ∀ a ∈ S.ids, u a = v a := by
  have hf : ∀ id ∈ S.ids, ∃ s, S.fresh pos id = some s ∧ s.const = 0 := fun id hid => fresh_some hid
  constructor
  · have : ∀ c, ∃ u, Solves S.ids S.border (S.fresh pos) (comp (inForce (if corr then slip else fun _ => none) S.periodic S.dir) c) u :=
      fun c => (C174_unique (hs c)).1
    choose w hw using this
    exact ⟨fun id c => w c id, fun c => (vsolves_iff hf hb).2 (hw c)⟩
  · intro u v hu hv a ha
    funext c
    exact (C174_unique (hs c)).2 _ _ ((vsolves_iff hf hb).1 (hu c)) ((vsolves_iff hf hb).1 (hv c)) a ha

/-- **C178.** When every point is connected to a patch (or to a periodic point) a step has exactly one result. -/
theorem C178_unique {S : Setup} (hb : OnBorder S) {pos : Nat → V}
    (hs : ∀ c, Solvable pos (S.damp pos) S.conn S.ids (S.band pos) S.relax (comp (inForce (fun _ => none) S.periodic S.dir) c))
    (hc : ∀ g g', (∀ a ∈ S.ids, g a = g' a) → S.corrector pos g = S.corrector pos g') :
    (∃ u, S.Step pos (S.fresh pos) u) ∧ ∀ u v, S.Step pos (S.fresh pos) u → S.Step pos (S.fresh pos) v → ∀ a ∈ S.ids, u a = v a := by
  have h0 : ∀ id ∈ S.ids, id ∈ S.periodic ∨ (false = true ∧ ((fun _ => none : Nat → Option V) id).isSome) → id ∈ S.border := by
    rintro id _ (h | ⟨h, _⟩)
    · exact hb.periodic id h
    · cases h
  have h1 : ∀ g, ∀ id ∈ S.ids, id ∈ S.periodic ∨ (true = true ∧ (S.corrector pos g id).isSome) → id ∈ S.border := by
    rintro g id _ (h | ⟨_, h⟩)
    · exact hb.periodic id h
    · exact hb.slip pos g id h
  obtain ⟨e0, u0⟩ := stage_unique (corr := false) (slip := fun _ => none) h0 hs
  have hs1 : ∀ g c, Solvable pos (S.damp pos) S.conn S.ids (S.band pos) S.relax (comp (inForce (if true then S.corrector pos g else fun _ => none) S.periodic S.dir) c) := by
    intro g c
    refine ⟨(hs c).sound, (hs c).inside, (hs c).relaxed, fun a ha => reach_mono ?_ ((hs c).reach a ha)⟩
    intro a h
    unfold comp inForce at *
    cases hd : S.dir a with
    | some v => rfl
    | none =>
      rw [hd] at h
      simp only [Option.isSome_map] at h ⊢
      by_cases hp : a ∈ S.periodic
      · rw [if_pos hp]; rfl
      · rw [if_neg hp] at h; simp at h
  constructor
  · obtain ⟨g, hg⟩ := e0
    cases ha : S.slipActive with
    | false => exact ⟨g, g, hg, by rw [ha]; rfl⟩
    | true =>
      obtain ⟨u, hu⟩ := (stage_unique (h1 g) (hs1 g)).1
      exact ⟨u, g, hg, by rw [ha]; exact hu⟩
  · rintro u v ⟨g, hg, hu⟩ ⟨g', hg', hv⟩
    have hgg := u0 g g' hg hg'
    cases ha : S.slipActive with
    | false =>
      rw [ha] at hu hv
      simp only [Bool.false_eq_true, if_false] at hu hv
      subst hu hv
      exact hgg
    | true =>
      rw [ha] at hu hv
      simp only [if_true] at hu hv
      rw [← hc g g' hgg] at hv
      exact (stage_unique (h1 g) (hs1 g)).2 u v hu hv

/-! ### Cases -/

/-- a point between two others: the first neighbour is displaced, the other one slips -/
def slipSetup : Setup where
  ids := [0, 1, 2]
  border := [1, 2]
  conn := lineConn
  relax := 1
  damp := fun _ _ => 1
  band := fun _ _ => none
  thres := 0
  dir := fun id => if id = 1 then some ![10, 6, 0] else none
  periodic := []
  slipActive := true
  corrector := planeCorrector (linePos 2, ![1, 0, 0]) [2]

theorem slip_border : OnBorder slipSetup := by
  refine ⟨by simp [slipSetup], ?_⟩
  intro pos guess id h
  simp only [slipSetup, planeCorrector] at *
  split at h
  · rename_i h'
    simp only [mem_cons, not_mem_nil, or_false] at h'
    simp [h']
  · simp at h

theorem slip_solvable (c : Fin 3) : Solvable linePos (slipSetup.damp linePos) slipSetup.conn slipSetup.ids (slipSetup.band linePos) slipSetup.relax
    (comp (inForce (fun _ => none) slipSetup.periodic slipSetup.dir) c) := by
  have hc : ∀ a b, coef linePos (fun _ => 1) (fun _ => none) 1 a b = wgt linePos (fun _ => 1) a b := by
    intro a b
    unfold coef
    rw [if_neg]
    rintro ⟨d, d', h, _⟩
    simp at h
  have h1 : Reach lineConn (coef linePos (fun _ => 1) (fun _ => none) 1) (comp (inForce (fun _ => none) slipSetup.periodic slipSetup.dir) c) 1 :=
    .here (v := (![10, 6, 0] : V) c) (by simp [comp, inForce, slipSetup])
  have h0 : Reach lineConn (coef linePos (fun _ => 1) (fun _ => none) 1) (comp (inForce (fun _ => none) slipSetup.periodic slipSetup.dir) c) 0 :=
    .step (b := 1) (by simp [lineConn]) (by rw [hc]; exact wgt_pos (line_sound3 0 (by simp)) (by simp [lineConn])) h1
  have h2 : Reach lineConn (coef linePos (fun _ => 1) (fun _ => none) 1) (comp (inForce (fun _ => none) slipSetup.periodic slipSetup.dir) c) 2 :=
    .step (b := 0) (by simp [lineConn]) (by rw [hc]; exact wgt_pos (line_sound3 2 (by simp)) (by simp [lineConn])) h0
  refine ⟨line_sound3, line_inside, zero_le_one, ?_⟩
  intro a ha
  simp only [slipSetup, mem_cons, not_mem_nil, or_false] at ha
  rcases ha with rfl | rfl | rfl
  · exact h0
  · exact h1
  · exact h2

example : ∃ u, slipSetup.Step linePos (slipSetup.fresh linePos) u ∧ u 1 = ![10, 6, 0] ∧ OnPlane (linePos 2 + u 2) (linePos 2) ![1, 0, 0] := by
  obtain ⟨⟨u, hu⟩, _⟩ := C178_unique slip_border slip_solvable (by
    intro g g' h
    funext id
    simp only [slipSetup, planeCorrector]
    split
    · rename_i hid
      simp only [mem_cons, not_mem_nil, or_false] at hid
      rw [h id (by simp [slipSetup, hid])]
    · rfl)
  refine ⟨u, hu, ?_, ?_⟩
  · obtain ⟨_, hg⟩ := C178_values slip_border (fresh_rows _ _) hu
    exact (hg 1 (by simp [slipSetup])).1 _ (by simp [slipSetup])
  · exact C178_plane slip_border (plane := (linePos 2, ![1, 0, 0])) (by simp [dot]) (slip := [2]) rfl rfl (fresh_rows _ _) hu 2 (by simp [slipSetup]) (by simp)
      (by simp [slipSetup]) (by simp [slipSetup])

example : OnBorder slipSetup ∧ ∀ n, 1 ≤ n → ∀ field after, slipSetup.Execute n linePos field after → field 1 = ![10, 6, 0] :=
  ⟨slip_border, fun _ hn _ _ h => ((C179_values slip_border hn h).2 1 (by simp [slipSetup])).1 _ (by simp [slipSetup])⟩

/-- a field that tells the two neighbours of the first point apart -/
def probe (b : Nat) : ℝ := if b = 1 then 1 else if b = 2 then -1 else 0

theorem probe_row {pos : Nat → V} {k : Nat → ℝ} {conn : Nat → List Nat} {ids : List Nat} {s : Sten ℝ} (hc : conn 0 = [1, 2]) (h : Sound pos k conn 0)
    (hs : stencils pos k conn ids (fun _ => none) 1 0 = some s) : rowProduct s probe = 0 ↔ wgt pos k 0 1 = wgt pos k 0 2 := by
  obtain ⟨f, _⟩ := free_row hs h probe
  have ht := total_pos h
  have hw : ∀ b, coef pos k (fun _ => none) 1 0 b = wgt pos k 0 b := by
    intro b
    unfold coef
    rw [if_neg]
    rintro ⟨d, d', h, _⟩
    simp at h
  rw [hc] at f ht
  simp only [map_cons, map_nil, sum_cons, sum_nil, hw, probe] at f ht
  norm_num at f ht
  constructor
  · intro h0
    rw [h0] at f
    linarith
  · intro h0
    rw [h0] at f ht
    have : rowProduct s probe * (wgt pos k 0 2 + wgt pos k 0 2) = 0 := by linarith
    exact (mul_eq_zero.1 this).resolve_right ht.ne'

/-- a small mesh with the default threshold -/
def smallPos (e : ℝ) : Nat → V
  | 0 => 0
  | 1 => ![e, 0, 0]
  | _ => ![-e, 0, 0]

def smallMove (e : ℝ) : Nat → V
  | 0 => ![e / 2, 0, 0]
  | _ => 0

theorem small_wgt {e : ℝ} : wgt (smallPos e) (fun _ => 1) 0 1 = 1 / e ^ 2 ∧ wgt (smallPos e) (fun _ => 1) 0 2 = 1 / e ^ 2 ∧
    wgt (fun k => smallPos e k + smallMove e k) (fun _ => 1) 0 1 = 1 / (e / 2) ^ 2 ∧
    wgt (fun k => smallPos e k + smallMove e k) (fun _ => 1) 0 2 = 1 / (3 * e / 2) ^ 2 := by
  refine ⟨?_, ?_, ?_, ?_⟩ <;> simp [wgt, smallPos, smallMove, dot] <;> ring

/-- **C179.** Violated: a mesh of the size of the threshold, deformed by less than it, keeps the stencils of the undeformed mesh. -/
theorem C179_small_fails : ∃ (S : Setup) (pos u : Nat → V), S.thres = 1e-8 ∧ (∀ a ∈ S.ids, Sound pos (S.damp pos) S.conn a) ∧ u 0 ≠ 0 ∧
    S.update pos (S.fresh pos) u ≠ S.fresh fun k => pos k + u k := by
  refine ⟨{ slipSetup with thres := 1e-8 }, smallPos 1e-8, smallMove 1e-8, rfl, ?_, ?_, ?_⟩
  · intro a ha
    simp only [slipSetup, mem_cons, not_mem_nil, or_false] at ha
    rcases ha with rfl | rfl | rfl <;> refine ⟨by simp [slipSetup, lineConn], ?_, by simp [slipSetup]⟩ <;> intro b hb h <;>
      simp only [slipSetup, lineConn, mem_cons, not_mem_nil, or_false] at hb
    · rcases hb with rfl | rfl <;> have := congrFun h 0 <;> norm_num [smallPos] at this
    · subst hb; have := congrFun h 0; norm_num [smallPos] at this
    · subst hb; have := congrFun h 0; norm_num [smallPos] at this
  · intro h
    have := congrFun h 0
    norm_num [smallMove] at this
  · rw [C179_threshold_fails]
    · intro h
      have h0 := congrFun h 0
      obtain ⟨s, hs, _⟩ := fresh_rows { slipSetup with thres := 1e-8 } (smallPos 1e-8) 0 (by simp [slipSetup])
      have hs' := hs
      rw [h0] at hs'
      obtain ⟨w1, w2, w3, w4⟩ := small_wgt (e := 1e-8)
      have a1 : Sound (smallPos 1e-8) (fun _ => 1) lineConn 0 := by
        refine ⟨by simp [lineConn], ?_, by simp⟩
        intro b hb h
        simp only [lineConn, mem_cons, not_mem_nil, or_false] at hb
        rcases hb with rfl | rfl <;> have := congrFun h 0 <;> norm_num [smallPos] at this
      have a2 : Sound (fun k => smallPos 1e-8 k + smallMove 1e-8 k) (fun _ => 1) lineConn 0 := by
        refine ⟨by simp [lineConn], ?_, by simp⟩
        intro b hb h
        simp only [lineConn, mem_cons, not_mem_nil, or_false] at hb
        rcases hb with rfl | rfl <;> have := congrFun h 0 <;> norm_num [smallPos, smallMove] at this
      have p1 := (probe_row (s := s) (ids := [0, 1, 2]) rfl a1 hs).2 (by rw [w1, w2])
      have p2 := (probe_row (s := s) (ids := [0, 1, 2]) rfl a2 hs').1 p1
      rw [w3, w4] at p2
      norm_num at p2
    · intro a ha
      simp only [slipSetup, mem_cons, not_mem_nil, or_false] at ha
      show norm2 _ ≤ 1e-8
      unfold norm2
      rw [Real.sqrt_le_left (by norm_num)]
      rcases ha with rfl | rfl | rfl <;> simp [smallMove, dot] <;> norm_num

/-- the diffusivity of the second point depends on a moving one -/
def dampSetup : Setup where
  ids := [0, 1, 2, 3, 4]
  border := [1, 2, 3, 4]
  conn := fun
    | 0 => [1, 2]
    | 1 => [0]
    | 2 => [0]
    | 3 => [4]
    | _ => [3]
  relax := 1
  damp := fun p b => if b = 1 then 1 + |p 3 0 + 1| else 1
  band := fun _ _ => none
  thres := 0
  dir := fun _ => none
  periodic := []
  slipActive := false
  corrector := fun _ _ _ => none

/-- **C179.** Violated with damping: the diffusivity changes also where no point moves, the stencils there are not computed again. -/
theorem C179_damping_fails : ∃ (S : Setup) (pos u : Nat → V), S.thres = 0 ∧ S.update pos (S.fresh pos) u ≠ S.fresh fun k => pos k + u k := by
  refine ⟨dampSetup, smallPos 1, fun k => if k = 3 then ![3, 0, 0] else 0, rfl, ?_⟩
  intro h
  have h0 := congrFun h 0
  have hk : dampSetup.update (smallPos 1) (dampSetup.fresh (smallPos 1)) (fun k => if k = 3 then ![3, 0, 0] else 0) 0 = dampSetup.fresh (smallPos 1) 0 := by
    unfold Setup.update
    rw [if_neg]
    unfold Setup.mask
    simp only [mem_append, mem_flatMap, mem_filter, not_or, not_exists, not_and]
    constructor
    · intro _
      simp [dampSetup, norm2, dot]
    · rintro b ⟨hb, ht⟩
      by_cases h3 : b = 3
      · subst h3; simp [dampSetup]
      · simp [dampSetup, norm2, dot, h3] at ht
  rw [hk] at h0
  obtain ⟨s, hs, _⟩ := fresh_rows dampSetup (smallPos 1) 0 (by simp [dampSetup])
  have hs' := hs
  rw [h0] at hs'
  have hap : ∀ b ∈ [1, 2], smallPos 1 b ≠ smallPos 1 0 := by
    intro b hb h
    simp only [mem_cons, not_mem_nil, or_false] at hb
    rcases hb with rfl | rfl <;> have := congrFun h 0 <;> norm_num [smallPos] at this
  have a1 : Sound (smallPos 1) (dampSetup.damp (smallPos 1)) dampSetup.conn 0 := by
    refine ⟨by simp [dampSetup], hap, by simp [dampSetup], ?_⟩
    intro b _
    simp only [dampSetup]
    split <;> positivity
  have a2 : Sound (fun k => smallPos 1 k + if k = 3 then ![3, 0, 0] else 0) (dampSetup.damp fun k => smallPos 1 k + if k = 3 then ![3, 0, 0] else 0) dampSetup.conn 0 := by
    refine ⟨by simp [dampSetup], ?_, by simp [dampSetup], ?_⟩
    · intro b hb
      have hb' : b ∈ [1, 2] := hb
      have : b ≠ 3 := by
        rintro rfl
        simp at hb'
      simpa [this] using hap b hb'
    · intro b _
      simp only [dampSetup]
      split <;> positivity
  have p1 := probe_row (s := s) (ids := [0, 1, 2, 3, 4]) rfl a1 hs
  have p2 := probe_row (s := s) (ids := [0, 1, 2, 3, 4]) rfl a2 hs'
  have q := p1.symm.trans p2
  simp [wgt, dampSetup, smallPos, dot] at q
  norm_num at q

end

end Verif.Vprop
