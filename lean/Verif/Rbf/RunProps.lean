import Verif.Rbf.Model
/-
C114: the displacements given by radial basis functions.
-/
namespace Verif.Rbf
open Verif.Field Verif.Mesh Verif.Shape Verif.Manip
open List hiding get

noncomputable section
open scoped Classical

/-! ### Specification -/

/-- specification: the combination of the basis functions centred at `l`, with radii `R` and coefficients `D` -/
def influence (k : Kernel) (p : V3) (l : List V3) (R D : Nat → ℝ) : ℝ :=
  (l.zipIdx.map (fun e => k.at_ (norm2 (p - e.1) / R e.2) * D e.2)).sum

/-- specification: the same with vectors as coefficients -/
def drift (k : Kernel) (p : V3) (l : List V3) (R : Nat → ℝ) (D : Nat → V3) : V3 :=
  ⟨influence k p l R (fun i => (D i).x), influence k p l R (fun i => (D i).y), influence k p l R (fun i => (D i).z)⟩

/-- specification: a field on the vertices of a geometry with the values `V` -/
structure Result {α : Type} (w : World) (g : Nat) (d : Field Nat α) (V : Nat → V3 → α) : Prop where
  geo : d.geo = some g
  loc : d.loc = .point
  ok : Ok d.data
  val : ∀ id, get d.data id = (get (w g).verts id).map (V id)

/-- specification: the three ways of giving the support radius -/
inductive Setting
  | real (r : ℝ)
  | local_ (r : ℝ)
  | list (l : List ℝ)

/-- the calls -/
def Setting.call (s : Rbf) : Setting → Rbf
  | .real r => s.setRadiusReal r
  | .local_ r => s.setRadiusLocal r
  | .list l => s.setRadii l

/-- specification: the radius used for node `i`, if `m` is the largest displacement of a node: a value that is not
positive asks for three times `m` -/
def Setting.radius (m diag : ℝ) (i : Nat) : Setting → ℝ
  | .real r => if r < tiny then 3 * m else r
  | .local_ r => if r < tiny then 3 * m else r * diag
  | .list l => l.getD i tiny

/-- specification: the largest of the norms of the displacements of the first `n` nodes -/
def largest (n : Nat) (norm : Nat → ℝ) : ℝ := (range n).foldr (fun i m => max (norm i) m) 0

/-- specification: the weight of the filter -/
def weightOf (w : World) (g : Nat) (s : Rbf) (id : Nat) : ℝ := if s.bfilter then weight w g s.filter id else 1

/-- specification: is a point moved.  With compact support only what is within the radius of a node, unless some radius
is large. -/
def Moves (s : Rbf) (diag : ℝ) (l : List V3) (R : Nat → ℝ) (p : V3) : Prop :=
  s.compact = false ∨ (∃ i, i < l.length ∧ R i > s.factor * diag) ∨ ∃ i n, l[i]? = some n ∧ norm2 (p - n) ≤ R i

/-! ### The sum -/

/-- what the loop adds to the value of the data set `c` -/
def total (k : Kernel) (p : V3) (radii : List ℝ) (c : List ℝ) : List Node → Nat → ℝ
  | [], _ => 0
  | n :: ns, i =>
    (if n.2 then k.at_ (norm2 (p - n.1) / radii.getD i 0) * c.getD i 0 else 0) + total k p radii c ns (i + 1)

theorem evalLoop_spec (k : Kernel) (p : V3) (radii : List ℝ) (weights : List (List ℝ)) :
    ∀ (ns : List Node) (i : Nat) (values : List ℝ), values.length = weights.length →
      (∀ j n, ns[j]? = some n → n.2 = true → radii.getD (i + j) 0 ≠ 0) →
      evalLoop k p radii weights ns i values =
        some (zipWith (fun v c => v + total k p radii c ns i) values weights)
  | [], i, values, hl, _ => by
    simp only [evalLoop, total, add_zero]
    congr 1
    apply ext_getElem (by simp [hl])
    intro n h1 h2
    simp
  | n :: ns, i, values, hl, hr => by
    have hr' : ∀ j m, ns[j]? = some m → m.2 = true → radii.getD (i + 1 + j) 0 ≠ 0 := by
      intro j m hj ha
      have := hr (j + 1) m (by simpa using hj) ha
      rwa [show i + (j + 1) = i + 1 + j by omega] at this
    rw [evalLoop]
    by_cases ha : n.2 = true
    · have h0 := hr 0 n (by simp) ha
      rw [Nat.add_zero] at h0
      rw [if_pos ha, Kernel.eval, if_neg h0]
      simp only [Option.bind_some]
      rw [evalLoop_spec k p radii weights ns (i + 1) _ (by simp [hl]) hr']
      congr 1
      apply ext_getElem (by simp [hl])
      intro m h1 h2
      simp only [getElem_zipWith, total, ha, if_true]
      ring
    · rw [if_neg ha, evalLoop_spec k p radii weights ns (i + 1) _ hl hr']
      congr 1
      apply ext_getElem (by simp [hl])
      intro m h1 h2
      simp only [getElem_zipWith, total, ha]
      simp

theorem total_influence (k : Kernel) (p : V3) (radii c : List ℝ) : ∀ (l : List V3) (i : Nat),
    total k p radii c (l.map (fun q => (q, true))) i =
      (((l.zipIdx i).map (fun e => k.at_ (norm2 (p - e.1) / radii.getD e.2 0) * c.getD e.2 0))).sum
  | [], i => by simp [total]
  | q :: l, i => by
    rw [map_cons, total, total_influence k p radii c l (i + 1), zipIdx_cons, map_cons, sum_cons]
    simp

theorem influence_congr {k : Kernel} {p : V3} {l : List V3} {R R' D D' : Nat → ℝ}
    (hR : ∀ i, i < l.length → R i = R' i) (hD : ∀ i, i < l.length → D i = D' i) :
    influence k p l R D = influence k p l R' D' := by
  unfold influence
  congr 1
  apply map_congr_left
  intro e he
  obtain ⟨a, i⟩ := e
  have hi : i < l.length := by
    have := (mem_zipIdx he).2.1
    omega
  rw [hR i hi, hD i hi]

/-- the value of one data set at a point, all nodes active -/
theorem total_eq (k : Kernel) (p : V3) (radii c : List ℝ) (l : List V3) :
    total k p radii c (l.map (fun q => (q, true))) 0 =
      influence k p l (fun i => radii.getD i 0) (fun i => c.getD i 0) := by
  rw [total_influence]; rfl

theorem getD_lt {α : Type} {l : List α} {i : Nat} (h : i < l.length) (x : α) : l.getD i x = l[i] := by
  simp [List.getD, h]

theorem getD_ge {α : Type} {l : List α} {i : Nat} (h : l.length ≤ i) (x : α) : l.getD i x = x := by
  simp [List.getD, h]

theorem length_resizeWith (x : ℝ) (l : List ℝ) (n : Nat) : (resizeWith x l n).length = n := by
  simp only [resizeWith, length_append, length_take, length_replicate]; omega

theorem getD_resizeWith (x y : ℝ) (l : List ℝ) {n i : Nat} (h : i < n) :
    (resizeWith x l n).getD i y = l.getD i x := by
  have hl := length_resizeWith x l n
  rw [getD_lt (by omega)]
  unfold resizeWith
  by_cases hi : i < l.length
  · rw [getElem_append_left (by simp; omega), getElem_take, getD_lt hi]
  · rw [getElem_append_right (by simp; omega), getElem_replicate, getD_ge (by omega)]

/-! ### The vertices -/

theorem mem_near {vs : Data V3} (hv : Ok vs) {p : V3} {r : ℝ} {id : Nat} :
    id ∈ near vs p r ↔ ∃ q, get vs id = some q ∧ norm2 (q - p) ≤ r := by
  unfold near
  simp only [mem_map, mem_filter, decide_eq_true_eq]
  constructor
  · rintro ⟨e, ⟨he, hr⟩, rfl⟩
    exact ⟨e.2, get_of_mem hv he, hr⟩
  · rintro ⟨q, hq, hr⟩
    exact ⟨(id, q), ⟨get_some_mem hq, hr⟩, rfl⟩

theorem mem_reached {vs : Data V3} (hv : Ok vs) {radii : List ℝ} {id : Nat} : ∀ (l : List V3) (i : Nat),
    id ∈ reached vs radii (l.map (fun q => (q, true))) i ↔
      ∃ q, get vs id = some q ∧ ∃ j n, l[j]? = some n ∧ norm2 (q - n) ≤ radii.getD (i + j) 0
  | [], i => by simp [reached]
  | a :: l, i => by
    rw [map_cons, reached, mem_append, mem_near hv, mem_reached hv l (i + 1)]
    constructor
    · rintro (⟨q, hq, hr⟩ | ⟨q, hq, j, n, hj, hr⟩)
      · exact ⟨q, hq, 0, a, by simp, by simpa using hr⟩
      · exact ⟨q, hq, j + 1, n, by simpa using hj, by rwa [show i + (j + 1) = i + 1 + j by omega]⟩
    · rintro ⟨q, hq, j, n, hj, hr⟩
      cases j with
      | zero =>
        simp only [getElem?_cons_zero, Option.some.injEq] at hj
        subst hj
        exact .inl ⟨q, hq, by simpa using hr⟩
      | succ j =>
        exact .inr ⟨q, hq, j, n, by simpa using hj, by rwa [show i + 1 + j = i + (j + 1) by omega]⟩

theorem maxRadius_le (l : List ℝ) (m : ℝ) : m ≤ l.foldl (fun m r => if r > m then r else m) m ∧
    (∀ r ∈ l, r ≤ l.foldl (fun m r => if r > m then r else m) m) ∧
    (l.foldl (fun m r => if r > m then r else m) m = m ∨
      l.foldl (fun m r => if r > m then r else m) m ∈ l) := by
  induction l generalizing m with
  | nil => simp
  | cons a l ih =>
    rw [foldl_cons]
    obtain ⟨h1, h2, h3⟩ := ih (if a > m then a else m)
    by_cases ha : a > m
    · rw [if_pos ha] at h1 h2 h3 ⊢
      refine ⟨by linarith, ?_, ?_⟩
      · intro r hr
        rcases mem_cons.1 hr with rfl | hr
        · exact h1
        · exact h2 r hr
      · rcases h3 with h3 | h3
        · right; rw [h3]; simp
        · right; simp [h3]
    · rw [if_neg ha] at h1 h2 h3 ⊢
      refine ⟨h1, ?_, ?_⟩
      · intro r hr
        rcases mem_cons.1 hr with rfl | hr
        · linarith [not_lt.1 ha]
        · exact h2 r hr
      · rcases h3 with h3 | h3
        · left; exact h3
        · right; simp [h3]

theorem maxRadius_gt {l : List ℝ} {x : ℝ} (hx : 0 ≤ x) : maxRadius l > x ↔ ∃ r ∈ l, r > x := by
  unfold maxRadius
  obtain ⟨-, h2, h3⟩ := maxRadius_le l 0
  constructor
  · intro h
    rcases h3 with h3 | h3
    · rw [h3] at h; linarith
    · exact ⟨_, h3, h⟩
  · rintro ⟨r, hr, h⟩
    linarith [h2 r hr]

/-- the ids the loop goes through -/
theorem targets_spec {s : Rbf} {diag : ℝ} {vs : Data V3} (hv : Ok vs) {l : List V3}
    (hn : s.nodes = l.map (fun q => (q, true))) (hl : s.effective.length = l.length) (h0 : 0 ≤ s.factor * diag)
    {R : Nat → ℝ} (hR : ∀ i, i < l.length → s.effective.getD i 0 = R i) :
    (s.targets diag vs).Nodup ∧
    ∀ id, id ∈ s.targets diag vs ↔ ∃ p, get vs id = some p ∧ Moves s diag l R p := by
  unfold Rbf.targets
  by_cases hc : s.compact = true ∧ ¬ maxRadius s.effective > s.factor * diag
  · rw [if_pos hc]
    refine ⟨nodup_dedup _, ?_⟩
    intro id
    rw [mem_dedup, hn, mem_reached hv]
    have hlt : ∀ {i : Nat} {n : V3}, l[i]? = some n → i < l.length := by
      intro i n h
      rw [getElem?_eq_some_iff] at h
      exact h.1
    constructor
    · rintro ⟨q, hq, j, n, hj, hr⟩
      refine ⟨q, hq, .inr (.inr ⟨j, n, hj, ?_⟩)⟩
      rwa [Nat.zero_add, hR j (hlt hj)] at hr
    · rintro ⟨q, hq, hm⟩
      rcases hm with h | ⟨i, hi, hr⟩ | ⟨j, n, hj, hr⟩
      · rw [h] at hc; exact absurd hc.1 (by decide)
      · exfalso
        apply hc.2
        rw [maxRadius_gt h0]
        have hi' : i < s.effective.length := by omega
        refine ⟨s.effective[i], getElem_mem hi', ?_⟩
        have := hR i hi
        rw [getD_lt hi'] at this
        rw [this]; exact hr
      · refine ⟨q, hq, j, n, hj, ?_⟩
        rwa [Nat.zero_add, hR j (hlt hj)]
  · rw [if_neg hc]
    refine ⟨hv, ?_⟩
    intro id
    rw [mem_ids]
    constructor
    · rintro ⟨p, hp⟩
      refine ⟨p, hp, ?_⟩
      cases hcc : s.compact with
      | false => exact .inl hcc
      | true =>
        have : maxRadius s.effective > s.factor * diag := by
          by_contra h
          exact hc ⟨hcc, h⟩
        rw [maxRadius_gt h0] at this
        obtain ⟨r, hr, hgt⟩ := this
        obtain ⟨i, hi, rfl⟩ := mem_iff_getElem.1 hr
        refine .inr (.inl ⟨i, by omega, ?_⟩)
        have := hR i (by omega)
        rw [getD_lt hi] at this
        rw [← this]; exact hgt
    · rintro ⟨p, hp, -⟩
      exact ⟨p, hp⟩

/-! ### The fields -/

theorem insertLoop_spec {α : Type} (value : V3 → Option α) (F : V3 → α) (vs : Data V3) :
    ∀ (ids : List Nat) (acc : Data α), (acc.map Prod.fst ++ ids).Nodup →
      (∀ id ∈ ids, ∃ p, get vs id = some p ∧ value p = some (F p)) →
      ∃ d, insertLoop value vs ids acc = some d ∧ d.map Prod.fst = acc.map Prod.fst ++ ids ∧
        ∀ id, get d id = if id ∈ ids then (get vs id).map F else get acc id
  | [], acc, _, _ => ⟨acc, rfl, by simp, by simp⟩
  | id :: ids, acc, hn, hv => by
    obtain ⟨p, hp, hF⟩ := hv id (by simp)
    have hna : has acc id = false := by
      cases hh : has acc id with
      | false => rfl
      | true =>
        rw [has_iff] at hh
        rw [nodup_append] at hn
        exact absurd rfl (hn.2.2 id hh id (by simp))
    have hnid : id ∉ ids := by
      rw [nodup_append] at hn
      exact (nodup_cons.1 hn.2.1).1
    obtain ⟨d, h1, h2, h3⟩ := insertLoop_spec value F vs ids (acc ++ [(id, F p)]) (by simpa using hn)
      (fun i hi => hv i (by simp [hi]))
    refine ⟨d, ?_, by rw [h2]; simp, ?_⟩
    · rw [insertLoop, hp]
      simp only [hF, Option.bind_some, ins, hna, Bool.false_eq_true, if_false]
      exact h1
    · intro j
      rw [h3 j]
      by_cases hj : j = id
      · subst hj
        rw [if_neg hnid, if_pos (by simp), hp]
        rw [get_append, get_none_of_has hna, get_single]
        simp
      · by_cases hm : j ∈ ids
        · simp [hm]
        · rw [if_neg hm, if_neg (by simp [hj, hm]), get_append, get_single]
          have hj' : ¬ id = j := fun e => hj e.symm
          simp [hj']

theorem filterAll_spec {α : Type} (mul : ℝ → α → α) (filter : Data ℝ) (wt : Nat → ℝ) : ∀ (d : Data α),
    (∀ id ∈ d.map Prod.fst, get filter id = some (wt id)) →
    filterAll mul filter d = some (d.map (fun e => (e.1, mul (wt e.1) e.2)))
  | [], _ => rfl
  | e :: es, h => by
    rw [filterAll, h e.1 (by simp), filterAll_spec mul filter wt es (fun i hi => h i (by simp at hi ⊢; exact .inr hi))]
    simp

theorem get_map_vals {α β : Type} (F : Nat → α → β) (d : Data α) (id : Nat) :
    get (d.map (fun e => (e.1, F e.1 e.2))) id = (get d id).map (F id) := by
  induction d with
  | nil => rfl
  | cons e d ih =>
    rw [map_cons, get_cons, get_cons, ih]
    by_cases h : e.1 = id
    · simp [h]
    · simp [h]

/-- the second half of the execution -/
theorem finish_spec {α : Type} {w : World} (hw : WorldOk w) {s : Rbf} (hf : Ok s.filter.data) {g : Nat} {diag : ℝ}
    {pick : List ℝ → Option α} {mul : ℝ → α → α} {zero : α} (h1 : ∀ x, mul 1 x = x) {F : V3 → α} {M : V3 → Prop}
    (hnd : (s.targets diag (w g).verts).Nodup)
    (ht : ∀ id, id ∈ s.targets diag (w g).verts ↔ ∃ p, get (w g).verts id = some p ∧ M p)
    (hF : ∀ id p, get (w g).verts id = some p → M p → (s.eval p).bind pick = some (F p)) :
    ∃ d f, finish w s g diag pick mul zero = some (d, f) ∧
      Result w g d (fun id p => if M p then mul (weightOf w g s id) (F p) else zero) ∧
      Ok f.data ∧ (s.bfilter = false → f = s.filter) ∧
      (s.bfilter = true → ∀ id p, get (w g).verts id = some p → get f.data id = some (weight w g s.filter id)) := by
  obtain ⟨d, d1, d2, d3⟩ := insertLoop_spec (fun p => (s.eval p).bind pick) F (w g).verts
    (s.targets diag (w g).verts) [] (by simpa using hnd) (by
      intro id hid
      obtain ⟨p, hp, hm⟩ := (ht id).1 hid
      exact ⟨p, hp, hF id p hp hm⟩)
  have hout : ∃ f, (if s.bfilter then
        (checkFilter w g s.filter).bind (fun f => (filterAll mul f.data d).map (fun d => (d, f)))
      else some (d, s.filter)) = some (d.map (fun e => (e.1, mul (weightOf w g s e.1) e.2)), f) ∧ Ok f.data ∧
      (s.bfilter = false → f = s.filter) ∧
      (s.bfilter = true → ∀ id p, get (w g).verts id = some p → get f.data id = some (weight w g s.filter id)) := by
    cases hb : s.bfilter with
    | false =>
      refine ⟨s.filter, ?_, hf, fun _ => rfl, by simp⟩
      simp only [Bool.false_eq_true, if_false, weightOf, hb, h1]
      simp
    | true =>
      obtain ⟨f', c1, -, -, c4, c5, -⟩ := checkFilter_spec hw g hf
      refine ⟨f', ?_, c4, by simp, fun _ => c5⟩
      simp only [if_true, c1, Option.bind_some]
      rw [filterAll_spec mul f'.data (fun i => weight w g s.filter i)]
      · simp [weightOf, hb]
      · intro id hid
        rw [d2] at hid
        obtain ⟨p, hp, -⟩ := (ht id).1 (by simpa using hid)
        exact c5 id p hp
  obtain ⟨f, hout, hfok, hf1, hf2⟩ := hout
  have hkeys : (d.map (fun e => (e.1, mul (weightOf w g s e.1) e.2))).map Prod.fst =
      s.targets diag (w g).verts := by
    rw [map_map]
    simpa [Function.comp_def] using d2
  obtain ⟨c, c1, c2, c3, -, c5, c6, c7⟩ := completeIn_ok (α := α) hw
    (f := ⟨some g, defaultName, .point, d.map (fun e => (e.1, mul (weightOf w g s e.1) e.2))⟩)
    (by unfold Ok; rw [hkeys]; exact hnd) (g := g) zero rfl rfl (by
      intro e he
      have : e.1 ∈ s.targets diag (w g).verts := by rw [← hkeys]; exact mem_map_of_mem he
      obtain ⟨p, hp, -⟩ := (ht e.1).1 this
      exact ⟨p, hp⟩)
  refine ⟨c, f, ?_, ⟨c2, c3, c5, ?_⟩, hfok, hf1, hf2⟩
  · unfold finish
    rw [d1]
    simp only [hout, Option.bind_some, c1, Option.map_some]
  · intro id
    cases hp : get (w g).verts id with
    | none => rw [c7 id hp]; rfl
    | some p =>
      rw [c6 id p hp, Option.map_some]
      simp only
      rw [get_map_vals (fun i x => mul (weightOf w g s i) x), d3 id]
      by_cases hm : M p
      · rw [if_pos ((ht id).2 ⟨p, hp, hm⟩), hp, if_pos hm]; simp
      · have : id ∉ s.targets diag (w g).verts := by
          intro h
          obtain ⟨q, hq, hm'⟩ := (ht id).1 h
          rw [hp] at hq; cases hq; exact hm hm'
        rw [if_neg this, if_neg hm]; simp [Field.get]

/-! ### The radii -/

theorem tiny_pos : 0 < tiny := by unfold tiny; positivity

theorem foldl_largest (f : Nat → ℝ) : ∀ (l : List Nat) (a : ℝ), 0 ≤ a →
    l.foldl (fun r i => max r (f i)) a = max a (l.foldr (fun i m => max (f i) m) 0)
  | [], a, h => by simp [h]
  | i :: l, a, h => by
    rw [foldl_cons, foldl_largest f l _ (le_max_of_le_left h), foldr_cons, max_assoc]

theorem largestData_eq (data : List (List ℝ)) (n : Nat) (norm : Nat → ℝ)
    (h : ∀ i, i < n → normOf (nodeData data i) = norm i) : largestData data n = largest n norm := by
  have e : ∀ (l : List Nat), (∀ i ∈ l, i < n) → (a : ℝ) →
      l.foldl (fun r i => max r (normOf (nodeData data i))) a = l.foldl (fun r i => max r (norm i)) a := by
    intro l
    induction l with
    | nil => intro _ a; rfl
    | cons i l ih =>
      intro hl a
      rw [foldl_cons, foldl_cons, h i (hl i (by simp)), ih (fun j hj => hl j (by simp [hj]))]
  unfold largestData largest
  rw [e _ (fun i hi => by simpa using hi), foldl_largest _ _ _ le_rfl, max_eq_right]
  generalize range n = l
  induction l with
  | nil => simp
  | cons i l ih => rw [foldr_cons]; exact le_max_of_le_right ih

/-- the radii after the setter -/
theorem radii_spec {s : Rbf} (hm : s.mode = .none) {st : Setting} (hst : st ≠ .list []) (diag : ℝ) (norm : Nat → ℝ)
    (hnorm : ∀ i, i < s.nodes.length → normOf (nodeData s.fit.data i) = norm i) :
    ((st.call s).fit.computeRadii diag).effective.length = s.nodes.length ∧
    ∀ i, i < s.nodes.length → ((st.call s).fit.computeRadii diag).effective.getD i 0 =
      st.radius (largest s.nodes.length norm) diag i := by
  have hlg := largestData_eq s.fit.data s.nodes.length norm hnorm
  have hmax : ∀ r : ℝ, max (-1) r < tiny ↔ r < tiny := by
    intro r
    have := tiny_pos
    rw [max_lt_iff]
    constructor
    · exact fun h => h.2
    · exact fun h => ⟨by linarith, h⟩
  have hmax' : ∀ r : ℝ, ¬ r < tiny → max (-1) r = r := by
    intro r h
    have := tiny_pos
    exact max_eq_right (by linarith [not_lt.1 h])
  have hrep : ∀ (c : ℝ) (i : Nat), i < s.nodes.length → (replicate s.nodes.length c).getD i 0 = c := by
    intro c i hi
    rw [getD_lt (by simpa using hi)]; simp
  cases st with
  | real r =>
    simp only [Setting.call, Rbf.setRadiusReal, Rbf.fit, Rbf.computeRadii, Rbf.candidate, Setting.radius, isEmpty_nil,
      Bool.not_true, Bool.false_eq_true, if_false]
    refine ⟨by simp, ?_⟩
    intro i hi
    rw [hrep _ i hi]
    by_cases hr : r < tiny
    · rw [if_pos ((hmax r).2 hr), if_pos hr]
      simp only [Rbf.fit] at hlg
      rw [hlg]; ring
    · rw [if_neg (fun h => hr ((hmax r).1 h)), if_neg hr, hmax' r hr]; simp
  | local_ r =>
    simp only [Setting.call, Rbf.setRadiusLocal, Rbf.fit, Rbf.computeRadii, Rbf.candidate, Setting.radius, isEmpty_nil,
      Bool.not_true, Bool.false_eq_true, if_false]
    refine ⟨by simp, ?_⟩
    intro i hi
    rw [hrep _ i hi]
    by_cases hr : r < tiny
    · rw [if_pos ((hmax r).2 hr), if_pos hr]
      simp only [Rbf.fit] at hlg
      rw [hlg]; ring
    · rw [if_neg (fun h => hr ((hmax r).1 h)), if_neg hr, hmax' r hr]
  | list rs =>
    have hrs : rs ≠ [] := by rintro rfl; exact hst rfl
    have he : rs.isEmpty = false := by cases rs <;> simp_all
    simp only [Setting.call, Rbf.setRadii, he, hm, Rbf.fit, Rbf.computeRadii, Setting.radius]
    simp only [Bool.false_eq_true, ne_eq, not_true_eq_false, or_self, if_false, he, Bool.not_false, if_true]
    refine ⟨length_resizeWith _ _ _, ?_⟩
    intro i hi
    rw [getD_resizeWith _ _ _ hi]

/-! ### Running -/

theorem scale_one_v (v : V3) : V3.scale 1 v = v := scale_one v

/-- mode NONE, vectors -/
theorem run_vector (ext : Solver) {w : World} (hw : WorldOk w) (diag : Nat → ℝ) {s : Rbf} (hm : s.mode = .none)
    (hs : s.scalar = false) (hf : Ok s.filter.data) (g : Nat) {l : List V3}
    (hn : s.nodes = l.map (fun q => (q, true))) {cx cy cz : List ℝ} (hd : s.data = [cx, cy, cz])
    (h0 : 0 ≤ s.factor * diag g) {R : Nat → ℝ}
    (hl : (s.fit.computeRadii (diag g)).effective.length = l.length)
    (hE : ∀ i, i < l.length → (s.fit.computeRadii (diag g)).effective.getD i 0 = R i)
    (hR : ∀ i, i < l.length → R i ≠ 0) :
    ∃ r f, s.run ext w diag g = some r ∧ r = { (s.fit.computeRadii (diag g)) with
        displ := r.displ, filter := f, sdispl := make none .undefined } ∧ Ok f.data ∧
      (s.bfilter = false → f = s.filter) ∧
      (s.bfilter = true → ∀ id p, get (w g).verts id = some p → get f.data id = some (weight w g s.filter id)) ∧
      Result w g r.displ (fun id p => if Moves s (diag g) l R p then
        V3.scale (weightOf w g s id) (drift s.kernel p l R (fun i => ⟨cx.getD i 0, cy.getD i 0, cz.getD i 0⟩))
        else ⟨0, 0, 0⟩) := by
  have hsolve : (s.fit.computeRadii (diag g)).solve ext = s.fit.computeRadii (diag g) := by
    have : (s.fit.computeRadii (diag g)).mode = .none := by
      unfold Rbf.computeRadii Rbf.fit; split <;> exact hm
    rw [Rbf.solve, if_pos this]
  set t := s.fit.computeRadii (diag g) with ht
  have htf : t.nodes = s.nodes ∧ t.scalar = s.scalar ∧ t.filter = s.filter ∧ t.bfilter = s.bfilter ∧
      t.compact = s.compact ∧ t.factor = s.factor ∧ t.kernel = s.kernel ∧ t.mode = s.mode ∧
      t.data = s.fit.data := by
    rw [ht]; unfold Rbf.computeRadii Rbf.fit; split <;> exact ⟨rfl, rfl, rfl, rfl, rfl, rfl, rfl, rfl, rfl⟩
  obtain ⟨t1, t2, t3, t4, t5, t6, t7, t8, t9⟩ := htf
  have hnl : s.nodes.length = l.length := by rw [hn]; simp
  obtain ⟨hnd, htar⟩ := targets_spec (s := t) (diag := diag g) (hw.verts g) (l := l) (by rw [t1, hn]) hl
    (by rw [t6]; exact h0) hE
  have hmv : ∀ p, Moves t (diag g) l R p ↔ Moves s (diag g) l R p := by
    intro p; unfold Moves; rw [t5, t6]
  have hev : ∀ p, (t.eval p).bind asVector = some (drift s.kernel p l R
      (fun i => ⟨cx.getD i 0, cy.getD i 0, cz.getD i 0⟩)) := by
    intro p
    unfold Rbf.eval Rbf.activeWeights
    rw [t8, if_pos hm, t9, t7, t1, hn]
    have hdf : s.fit.data = [resizeWith 0 cx l.length, resizeWith 0 cy l.length, resizeWith 0 cz l.length] := by
      simp [Rbf.fit, hd, hnl]
    rw [hdf, evalLoop_spec]
    · simp only [length_cons, length_nil, replicate_succ, replicate_zero, zipWith_cons_cons, zipWith_nil_right, zero_add,
        Option.bind_some, asVector, total_eq, drift]
      have e : ∀ c : List ℝ, influence s.kernel p l (fun i => t.effective.getD i 0)
          (fun i => (resizeWith 0 c l.length).getD i 0) = influence s.kernel p l R (fun i => c.getD i 0) := by
        intro c
        exact influence_congr hE (fun i hi => getD_resizeWith _ _ _ hi)
      rw [e, e, e]
    · simp
    · intro j n hj _
      have hjl : j < l.length := by
        have := (List.getElem?_eq_some_iff.1 hj).1
        simpa using this
      rw [Nat.zero_add, hE j hjl]
      exact hR j hjl
  obtain ⟨d, f, h1, h2, h3, h4, h5⟩ := finish_spec (α := V3) hw (s := t) (by rw [t3]; exact hf) (g := g) (diag := diag g)
    (pick := asVector) (mul := V3.scale) (zero := ⟨0, 0, 0⟩) scale_one hnd htar (fun id p _ _ => hev p)
  refine ⟨{ t with displ := d, filter := f, sdispl := make none .undefined }, f, ?_, rfl, h3, ?_, ?_, ?_⟩
  · unfold Rbf.run
    simp only [← ht, hsolve, t2, hs, Bool.false_eq_true, if_false, h1, Option.map_some]
  · rw [← t4, ← t3]; exact h4
  · rw [← t4, ← t3]; exact h5
  · refine ⟨h2.geo, h2.loc, h2.ok, ?_⟩
    intro id
    rw [h2.val id]
    congr 1
    funext p
    have : weightOf w g t id = weightOf w g s id := by unfold weightOf; rw [t3, t4]
    simp only [hmv, this]

/-- mode NONE, scalars -/
theorem run_scalar (ext : Solver) {w : World} (hw : WorldOk w) (diag : Nat → ℝ) {s : Rbf} (hm : s.mode = .none)
    (hs : s.scalar = true) (hf : Ok s.filter.data) (g : Nat) {l : List V3}
    (hn : s.nodes = l.map (fun q => (q, true))) {c : List ℝ} (hd : s.data = [c])
    (h0 : 0 ≤ s.factor * diag g) {R : Nat → ℝ}
    (hl : (s.fit.computeRadii (diag g)).effective.length = l.length)
    (hE : ∀ i, i < l.length → (s.fit.computeRadii (diag g)).effective.getD i 0 = R i)
    (hR : ∀ i, i < l.length → R i ≠ 0) :
    ∃ r f, s.run ext w diag g = some r ∧ r = { (s.fit.computeRadii (diag g)) with
        sdispl := r.sdispl, filter := f, displ := make none .undefined } ∧ Ok f.data ∧
      (s.bfilter = false → f = s.filter) ∧
      (s.bfilter = true → ∀ id p, get (w g).verts id = some p → get f.data id = some (weight w g s.filter id)) ∧
      Result w g r.sdispl (fun id p => if Moves s (diag g) l R p then
        influence s.kernel p l R (fun i => c.getD i 0) * weightOf w g s id else 0) := by
  have hsolve : (s.fit.computeRadii (diag g)).solve ext = s.fit.computeRadii (diag g) := by
    have : (s.fit.computeRadii (diag g)).mode = .none := by
      unfold Rbf.computeRadii Rbf.fit; split <;> exact hm
    rw [Rbf.solve, if_pos this]
  set t := s.fit.computeRadii (diag g) with ht
  have htf : t.nodes = s.nodes ∧ t.scalar = s.scalar ∧ t.filter = s.filter ∧ t.bfilter = s.bfilter ∧
      t.compact = s.compact ∧ t.factor = s.factor ∧ t.kernel = s.kernel ∧ t.mode = s.mode ∧
      t.data = s.fit.data := by
    rw [ht]; unfold Rbf.computeRadii Rbf.fit; split <;> exact ⟨rfl, rfl, rfl, rfl, rfl, rfl, rfl, rfl, rfl⟩
  obtain ⟨t1, t2, t3, t4, t5, t6, t7, t8, t9⟩ := htf
  have hnl : s.nodes.length = l.length := by rw [hn]; simp
  obtain ⟨hnd, htar⟩ := targets_spec (s := t) (diag := diag g) (hw.verts g) (l := l) (by rw [t1, hn]) hl
    (by rw [t6]; exact h0) hE
  have hmv : ∀ p, Moves t (diag g) l R p ↔ Moves s (diag g) l R p := by
    intro p; unfold Moves; rw [t5, t6]
  have hev : ∀ p, (t.eval p).bind asScalar = some (influence s.kernel p l R (fun i => c.getD i 0)) := by
    intro p
    unfold Rbf.eval Rbf.activeWeights
    rw [t8, if_pos hm, t9, t7, t1, hn]
    have hdf : s.fit.data = [resizeWith 0 c l.length] := by
      simp [Rbf.fit, hd, hnl]
    rw [hdf, evalLoop_spec]
    · simp only [length_cons, length_nil, replicate_succ, replicate_zero, zipWith_cons_cons, zipWith_nil_right, zero_add,
        Option.bind_some, asScalar, total_eq]
      rw [influence_congr hE (fun i hi => getD_resizeWith _ _ _ hi)]
    · simp
    · intro j n hj _
      have hjl : j < l.length := by
        have := (List.getElem?_eq_some_iff.1 hj).1
        simpa using this
      rw [Nat.zero_add, hE j hjl]
      exact hR j hjl
  obtain ⟨d, f, h1, h2, h3, h4, h5⟩ := finish_spec (α := ℝ) hw (s := t) (by rw [t3]; exact hf) (g := g) (diag := diag g)
    (pick := asScalar) (mul := fun x y => y * x) (zero := 0) (by intro x; simp) hnd htar (fun id p _ _ => hev p)
  refine ⟨{ t with sdispl := d, filter := f, displ := make none .undefined }, f, ?_, rfl, h3, ?_, ?_, ?_⟩
  · unfold Rbf.run
    simp only [← ht, hsolve, t2, hs, if_true, h1, Option.map_some]
  · rw [← t4, ← t3]; exact h4
  · rw [← t4, ← t3]; exact h5
  · refine ⟨h2.geo, h2.loc, h2.ok, ?_⟩
    intro id
    rw [h2.val id]
    congr 1
    funext p
    have : weightOf w g t id = weightOf w g s id := by unfold weightOf; rw [t3, t4]
    simp only [hmv, this]

/-! ### C114 -/

/-- the zero vector -/
def zero3 : V3 := ⟨0, 0, 0⟩

theorem columns_norm (ds : List V3) (n i : Nat) (hi : i < n) :
    normOf (nodeData ((columns ds).map (fun c => resizeWith 0 c n)) i) = norm2 (ds.getD i zero3) := by
  have e : ∀ f : V3 → ℝ, f zero3 = 0 → (ds.map f).getD i 0 = f (ds.getD i zero3) := by
    intro f h
    by_cases h' : i < ds.length
    · rw [getD_lt (by simpa using h'), getD_lt h']; simp
    · rw [getD_ge (by simpa using h'), getD_ge (by omega), h]
  simp only [columns, map_cons, map_nil, nodeData, getD_resizeWith _ _ _ hi]
  rw [e (fun v => v.x) rfl, e (fun v => v.y) rfl, e (fun v => v.z) rfl]
  simp only [normOf, map_cons, map_nil, sum_cons, sum_nil, norm2, dot, add_zero]
  congr 1
  ring

theorem columns_getD (ds : List V3) (i : Nat) :
    (⟨(ds.map (fun v => v.x)).getD i 0, (ds.map (fun v => v.y)).getD i 0, (ds.map (fun v => v.z)).getD i 0⟩ : V3) =
      ds.getD i zero3 := by
  have e : ∀ f : V3 → ℝ, f zero3 = 0 → (ds.map f).getD i 0 = f (ds.getD i zero3) := by
    intro f h
    by_cases h' : i < ds.length
    · rw [getD_lt (by simpa using h'), getD_lt h']; simp
    · rw [getD_ge (by simpa using h'), getD_ge (by omega), h]
  rw [e (fun v => v.x) rfl, e (fun v => v.y) rfl, e (fun v => v.z) rfl]

theorem call_same (st : Setting) (a : Rbf) : (st.call a).mode = a.mode ∧ (st.call a).scalar = a.scalar ∧
    (st.call a).filter = a.filter ∧ (st.call a).nodes = a.nodes ∧ (st.call a).data = a.data ∧
    (st.call a).factor = a.factor ∧ (st.call a).geom = a.geom ∧ (st.call a).rbfGeom = a.rbfGeom ∧
    (st.call a).compact = a.compact ∧ (st.call a).bfilter = a.bfilter ∧ (st.call a).kernel = a.kernel := by
  cases st with
  | real r => exact ⟨rfl, rfl, rfl, rfl, rfl, rfl, rfl, rfl, rfl, rfl, rfl⟩
  | local_ r => exact ⟨rfl, rfl, rfl, rfl, rfl, rfl, rfl, rfl, rfl, rfl, rfl⟩
  | list r =>
    simp only [Setting.call, Rbf.setRadii]
    split <;> exact ⟨rfl, rfl, rfl, rfl, rfl, rfl, rfl, rfl, rfl, rfl, rfl⟩

theorem computed_scalar (a : Rbf) (d : ℝ) : (a.fit.computeRadii d).scalar = a.scalar := by
  unfold Rbf.computeRadii Rbf.fit; split <;> rfl

/-- specification: the radii used when the nodes have the displacements `ds` -/
def radiiOf (st : Setting) (n : Nat) (ds : List V3) (diag : ℝ) (i : Nat) : ℝ :=
  st.radius (largest n (fun j => norm2 (ds.getD j zero3))) diag i

/-- C114: nodes and their displacements given as lists, radii in one of the three ways, direct mode: after the execution
every vertex has the displacement given by the sum over the nodes of basis function times displacement of the node
(missing displacements are zero, exceeding ones are ignored), times the filter; with compact support, vertices that no
node reaches have displacement zero.  There is no scalar result.  The effective radii are those asked for. -/
theorem C114_vector (ext : Solver) {w : World} (hw : WorldOk w) (diag : Nat → ℝ) {s : Rbf} (hm : s.mode = .none)
    (hf : Ok s.filter.data) {g : Nat} (hg : s.geom = some g) (l ds : List V3) (st : Setting) (hst : st ≠ .list [])
    (h0 : 0 ≤ s.factor * diag g) (hR : ∀ i, i < l.length → radiiOf st l.length ds (diag g) i ≠ 0) :
    ∃ r d, (st.call ((s.setNodes l).setDispl ds)).execute ext w diag = some r ∧ r.getDispl = some d ∧
      r.getScalar = none ∧ r.effective = (range l.length).map (radiiOf st l.length ds (diag g)) ∧
      Result w g d (fun id p =>
        if Moves s (diag g) l (radiiOf st l.length ds (diag g)) p then
          V3.scale (weightOf w g s id)
            (drift s.kernel p l (radiiOf st l.length ds (diag g)) (fun i => ds.getD i zero3))
        else zero3) := by
  obtain ⟨q1, q2, q3, q4, q5, q6, q7, q8, q9, q10, q11⟩ := call_same st ((s.setNodes l).setDispl ds)
  have hnl : ((s.setNodes l).setDispl ds).nodes.length = l.length := by simp [Rbf.setDispl, Rbf.setNodes]
  obtain ⟨e1, e2⟩ := radii_spec (s := (s.setNodes l).setDispl ds) hm hst (diag g)
    (fun j => norm2 (ds.getD j zero3)) (by
      intro i hi
      rw [hnl] at hi
      have : ((s.setNodes l).setDispl ds).fit.data = (columns ds).map (fun c => resizeWith 0 c l.length) := by
        simp [Rbf.fit, Rbf.setDispl, Rbf.setNodes]
      rw [this]
      exact columns_norm ds _ i hi)
  rw [hnl] at e1 e2
  obtain ⟨r, f, r1, r2, -, -, -, r3⟩ := run_vector ext hw diag (s := st.call ((s.setNodes l).setDispl ds))
    (by rw [q1]; exact hm) (by rw [q2]; rfl) (by rw [q3]; exact hf) g (l := l) (by rw [q4]; rfl) (by rw [q5]; rfl)
    (by rw [q6]; exact h0) (R := radiiOf st l.length ds (diag g)) e1 e2 hR
  have hr2 : r.scalar = false ∧
      r.effective = ((st.call ((s.setNodes l).setDispl ds)).fit.computeRadii (diag g)).effective := by
    rw [r2]
    exact ⟨by simp only [computed_scalar, q2]; rfl, rfl⟩
  refine ⟨r, r.displ, ?_, by simp [Rbf.getDispl, hr2.1], by simp [Rbf.getScalar, hr2.1], ?_, ⟨r3.geo, r3.loc, r3.ok, ?_⟩⟩
  · unfold Rbf.execute
    rw [q7, q8, show ((s.setNodes l).setDispl ds).geom = some g from hg]
    exact r1
  · rw [hr2.2]
    apply ext_getElem (by simp [e1])
    intro i h1 h2
    have := e2 i (by simpa using h2)
    rw [getD_lt h1] at this
    simp [this, radiiOf]
  · intro id
    rw [r3.val id]
    congr 1
    funext p
    have hw' : weightOf w g (st.call ((s.setNodes l).setDispl ds)) id = weightOf w g s id := by
      unfold weightOf; rw [q3, q10]; rfl
    have hmv : Moves (st.call ((s.setNodes l).setDispl ds)) (diag g) l (radiiOf st l.length ds (diag g)) p ↔
        Moves s (diag g) l (radiiOf st l.length ds (diag g)) p := by
      unfold Moves; rw [q6, q9]; rfl
    simp only [hmv, hw', q11, columns_getD]
    rfl

end

end Verif.Rbf
