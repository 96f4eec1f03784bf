import Verif.Ffd.Build
import Verif.Manip.FilterProps
/-
The displacements of the vertices of a geometry.
-/
namespace Verif.Ffd
open Verif.Shape Verif.Grid Verif.Field Verif.Manip
open List hiding get elem

noncomputable section
open scoped Classical

/-! ## Specification -/

/-- specification: the number of nodes along a direction -/
def nodesAlong (f : Ffd) : ℕ × ℕ × ℕ := ((f.lat.grid.nx + 1).toNat, (f.lat.grid.ny + 1).toNat, (f.lat.grid.nz + 1).toNat)

/-- specification: the influences of the nodes of a direction at the value `u`: those of the B-splines of degree `p` on the knots of
this type of coordinate, on the interval of knots where `u` is -/
structure Along (type : Coord) (n p m : ℕ) (span lo : ℝ) (T : ℤ → ℝ) (k : ℤ) (u : ℝ) (φ : ℕ → ℝ) : Prop where
  pos : 1 ≤ p
  deg : p + 1 ≤ n
  knots : KnotsFor type n p m span lo T
  mono : Monotone T
  first : p ≤ k
  last : k < m
  proper : T k < T (k + 1)
  lower : T k ≤ u
  upper : u ≤ T (k + 1)
  strict : u < T (k + 1) ∨ k = m - 1
  eq : φ = infl (nodesOf type n p) T k p m u

/-- specification: the average of a quantity of the nodes -/
def blend (n : ℕ × ℕ × ℕ) (φ0 φ1 φ2 : ℕ → ℝ) (W G : ℕ → ℕ → ℕ → ℝ) : ℝ :=
  sum3 n.1 n.2.1 n.2.2 φ0 φ1 φ2 (fun a b c => W a b c * G a b c) / sum3 n.1 n.2.1 n.2.2 φ0 φ1 φ2 W

/-- specification: the average of the displacements of the nodes -/
def blendV (n : ℕ × ℕ × ℕ) (φ0 φ1 φ2 : ℕ → ℝ) (W : ℕ → ℕ → ℕ → ℝ) (D : ℕ → ℕ → ℕ → V3) : V3 :=
  ⟨blend n φ0 φ1 φ2 W (fun a b c => (D a b c).x), blend n φ0 φ1 φ2 W (fun a b c => (D a b c).y),
    blend n φ0 φ1 φ2 W (fun a b c => (D a b c).z)⟩

/-- specification: displacement `v` in the world from a displacement `d` of the lattice at the point `p` -/
def carried (global : Bool) (s : Shape) (p d : V3) : V3 :=
  if global then d
  else toWorld s ⟨(toLocal s p).x + d.x / s.scaling.x, (toLocal s p).y + d.y / s.scaling.y, (toLocal s p).z + d.z / s.scaling.z⟩ - p

/-- specification: the weight and the displacement of a node -/
def nodeWeight (f : Ffd) (a b c : ℕ) : ℝ := nodeValue f f.weights 1 a b c
def nodeDispl (f : Ffd) (a b c : ℕ) : V3 := nodeValue f f.displ ⟨0, 0, 0⟩ a b c

/-- specification: the point is within the limits of the shape -/
def Inside (s : Shape) (p : V3) : Prop :=
  ((localOrigin s).x ≤ (toLocal s p).x ∧ (toLocal s p).x ≤ (localOrigin s).x + s.span.x) ∧
  ((localOrigin s).y ≤ (toLocal s p).y ∧ (toLocal s p).y ≤ (localOrigin s).y + s.span.y) ∧
  ((localOrigin s).z ≤ (toLocal s p).z ∧ (toLocal s p).z ≤ (localOrigin s).z + s.span.z)

/-- specification: the influences of the nodes in the three directions at the point `p` -/
structure Shared (f : Ffd) (s : Shape) (p : V3) (φ0 φ1 φ2 : ℕ → ℝ) : Prop where
  x : ∃ m T k, Along (s.coord 0) (nodesAlong f).1 f.c0.deg.toNat m s.span.x (localOrigin s).x T k (toLocal s p).x φ0
  y : ∃ m T k, Along (s.coord 1) (nodesAlong f).2.1 f.c1.deg.toNat m s.span.y (localOrigin s).y T k (toLocal s p).y φ1
  z : ∃ m T k, Along (s.coord 2) (nodesAlong f).2.2 f.c2.deg.toNat m s.span.z (localOrigin s).z T k (toLocal s p).z φ2
  sx : Shares (nodesAlong f).1 φ0
  sy : Shares (nodesAlong f).2.1 φ1
  sz : Shares (nodesAlong f).2.2 φ2

/-- specification: the displacement of the point `p` -/
def Moved (f : Ffd) (s : Shape) (p v : V3) : Prop :=
  ∃ φ0 φ1 φ2, Shared f s p φ0 φ1 φ2 ∧ v = carried f.global s p (blendV (nodesAlong f) φ0 φ1 φ2 (nodeWeight f) (nodeDispl f))

/-! ## One vertex -/

theorem sum3_one {n0 n1 n2 : ℕ} {φ0 φ1 φ2 : ℕ → ℝ} (s0 : Shares n0 φ0) (s1 : Shares n1 φ1) (s2 : Shares n2 φ2) :
    sum3 n0 n1 n2 φ0 φ1 φ2 (fun _ _ _ => 1) = 1 := by
  unfold sum3
  simp only [mul_one, mul_assoc, ← Finset.mul_sum, s2.one, s1.one, s0.one]

theorem sum3_pos {n0 n1 n2 : ℕ} {φ0 φ1 φ2 : ℕ → ℝ} (s0 : Shares n0 φ0) (s1 : Shares n1 φ1) (s2 : Shares n2 φ2)
    {W : ℕ → ℕ → ℕ → ℝ} (h : ∀ a b c, 0 < W a b c) : 0 < sum3 n0 n1 n2 φ0 φ1 φ2 W := by
  have nn : ∀ a b c, 0 ≤ φ0 a * φ1 b * φ2 c := fun a b c => mul_nonneg (mul_nonneg (s0.nonneg a) (s1.nonneg b)) (s2.nonneg c)
  have term : ∀ a b c, 0 ≤ φ0 a * φ1 b * φ2 c * W a b c := fun a b c => mul_nonneg (nn a b c) (h a b c).le
  have ge : 0 ≤ sum3 n0 n1 n2 φ0 φ1 φ2 W :=
    Finset.sum_nonneg fun a _ => Finset.sum_nonneg fun b _ => Finset.sum_nonneg fun c _ => term a b c
  rcases ge.lt_or_eq with h' | h'
  · exact h'
  · exfalso
    have z : ∀ a ∈ Finset.range n0, ∀ b ∈ Finset.range n1, ∀ c ∈ Finset.range n2, φ0 a * φ1 b * φ2 c * W a b c = 0 := by
      intro a ha b hb c hc
      unfold sum3 at h'
      have e0 := (Finset.sum_eq_zero_iff_of_nonneg
        (fun a _ => Finset.sum_nonneg fun b _ => Finset.sum_nonneg fun c _ => term a b c)).1 h'.symm a ha
      have e1 := (Finset.sum_eq_zero_iff_of_nonneg (fun b _ => Finset.sum_nonneg fun c _ => term a b c)).1 e0 b hb
      exact (Finset.sum_eq_zero_iff_of_nonneg (fun c _ => term a b c)).1 e1 c hc
    have one := sum3_one s0 s1 s2
    unfold sum3 at one
    rw [Finset.sum_eq_zero (fun a ha => Finset.sum_eq_zero (fun b hb => Finset.sum_eq_zero (fun c hc => by
      rcases mul_eq_zero.1 (z a ha b hb c hc) with e | e
      · rw [e, zero_mul]
      · exact absurd e (h a b c).ne')))] at one
    exact zero_ne_one one

theorem finish_spec {f : Ffd} {s : Shape} {p : V3} {n : ℕ × ℕ × ℕ} {φ0 φ1 φ2 : ℕ → ℝ} {W : ℕ → ℕ → ℕ → ℝ}
    {D : ℕ → ℕ → ℕ → V3} (hsum : sum3 n.1 n.2.1 n.2.2 φ0 φ1 φ2 W ≠ 0) (hs : f.global = false → Scaled s) :
    finish f s p (toLocal s p) (combine n.1 n.2.1 n.2.2 φ0 φ1 φ2 W D) = some (carried f.global s p (blendV n φ0 φ1 φ2 W D)) := by
  unfold finish combine carried blendV blend
  cases hg : f.global with
  | true => simp only [if_true]; rw [if_neg hsum]
  | false =>
    obtain ⟨sx, sy, sz⟩ := hs hg
    simp only [Bool.false_eq_true, if_false]
    rw [if_neg (by simp [hsum, sx, sy, sz])]
    simp only [div_div]

theorem Axis.along {c : Curve} {type : Coord} {n p m : ℕ} {span lo u : ℝ} {T : ℤ → ℝ} (h : Axis c type n p m span lo T)
    (h1 : lo ≤ u) (h2 : u ≤ lo + span) : ∃ k b ν φ, Window c n u k b ν φ ∧ Shares n φ ∧ Along type n c.deg.toNat m span lo T k u φ := by
  obtain ⟨k, e, k1, k2, l, u', st⟩ := h.spline.find u h1 h2
  obtain ⟨b, ν, w⟩ := h.spline.window e k1 k2
  have hd : c.deg.toNat = p := by rw [h.spline.deg]; rfl
  rw [hd]
  refine ⟨k, b, ν, _, w, h.spline.shares e k1 k2 l u', h.pos, h.deg, h.knots, h.spline.mono, k1, k2, h.spline.strict k k1 k2, l, u',
    st, by rw [h.nodes]⟩

theorem weight_pos {f : Ffd} (h : ∀ x ∈ f.weights, 0 < x) (a b c : ℕ) : 0 < nodeWeight f a b c := by
  unfold nodeWeight nodeValue
  cases hd : (dofFromGrid f.lat (pointIndex f.lat.grid a b c)).bind (elem f.weights) with
  | none => exact one_pos
  | some x =>
    obtain ⟨d, -, hx⟩ := Option.bind_eq_some_iff.1 hd
    unfold elem at hx
    split at hx
    · cases hx
    · exact h x (List.mem_of_getElem? hx)

/-- the displacement of a vertex within the limits -/
theorem vertex_value {f : Ffd} {s : Shape} (h : Ready f s) (hw : ∀ x ∈ f.weights, 0 < x) (hs : f.global = false → Scaled s) {p : V3}
    (hp : Inside s p) : ∃ displ weig v, fullGrid f f.displ = some displ ∧ fullGrid f f.weights = some weig ∧
      evalVertex f displ weig p = some v ∧ Moved f s p v := by
  obtain ⟨displ, ed, td⟩ := table_spec h h.dlen (⟨0, 0, 0⟩ : V3)
  obtain ⟨weig, ew, tw⟩ := table_spec h h.wlen (1 : ℝ)
  obtain ⟨_, m0, T0, a0⟩ := h.x
  obtain ⟨_, m1, T1, a1⟩ := h.y
  obtain ⟨_, m2, T2, a2⟩ := h.z
  obtain ⟨⟨x1, x2⟩, ⟨y1, y2⟩, ⟨z1, z2⟩⟩ := hp
  obtain ⟨k0, b0, ν0, φ0, w0, s0, l0⟩ := a0.along x1 x2
  obtain ⟨k1, b1, ν1, φ1, w1, s1, l1⟩ := a1.along y1 y2
  obtain ⟨k2, b2, ν2, φ2, w2, s2, l2⟩ := a2.along z1 z2
  refine ⟨displ, weig, _, ed, ew, ?_, φ0, φ1, φ2, ⟨⟨_, _, _, l0⟩, ⟨_, _, _, l1⟩, ⟨_, _, _, l2⟩, s0, s1, s2⟩, rfl⟩
  rw [evalVertex_spec h.made.shape h.order w0 w1 w2 tw td]
  exact finish_spec (n := nodesAlong f) (sum3_pos s0 s1 s2 (weight_pos hw)).ne' hs

/-! ## The list of vertices -/

theorem mapM_some {α β : Type} {g : α → Option β} : ∀ (l : List α) (v : α → β), (∀ a ∈ l, g a = some (v a)) → l.mapM g = some (l.map v)
  | [], _, _ => rfl
  | a :: l, v, h => by
    rw [List.mapM_cons, h a (by simp), mapM_some l v (fun b hb => h b (by simp [hb]))]
    rfl

theorem modulate_spec {d : Data ℝ} {c : ℕ → ℝ} (v : ℕ → V3) : ∀ l : List ℕ, (∀ id ∈ l, get d id = some (c id)) →
    modulate d l (l.map v) = some (l.map (fun id => V3.scale (c id) (v id)))
  | [], _ => rfl
  | id :: l, h => by
    rw [map_cons, modulate, h id (by simp), modulate_spec v l (fun b hb => h b (by simp [hb]))]
    rfl

theorem store_spec (v : ℕ → V3) : ∀ (l : List ℕ) (d : Data V3), (∀ id ∈ l, ∃ x, get d id = some x) →
    ∃ d', store l (l.map v) d = some d' ∧ d'.map Prod.fst = d.map Prod.fst ∧
      ∀ id, get d' id = if id ∈ l then some (v id) else get d id
  | [], d, _ => ⟨d, rfl, rfl, fun id => by simp⟩
  | id :: l, d, h => by
    have hin : has d id = true := by rw [has_iff, mem_ids]; exact h id (by simp)
    obtain ⟨d', e1, e2, e3⟩ := store_spec v l (setAt d id (v id)) (by
      intro j hj
      rw [get_setAt]
      split
      · obtain ⟨x, hx⟩ := h id (by simp); rw [hx]; exact ⟨_, rfl⟩
      · exact h j (by simp [hj]))
    refine ⟨d', ?_, ?_, ?_⟩
    · rw [map_cons, store, if_pos hin, e1]
    · rw [e2]
      unfold setAt
      rw [map_map]
      apply map_congr_left
      intro e _
      simp only [Function.comp]
      split
      · next h => simp [h]
      · rfl
    · intro j
      rw [e3]
      by_cases hj : j ∈ l
      · rw [if_pos hj, if_pos (by simp [hj])]
      · rw [if_neg hj, get_setAt]
        by_cases hji : j = id
        · subst hji
          obtain ⟨x, hx⟩ := h j (by simp)
          rw [if_pos rfl, if_pos (by simp), hx]; rfl
        · rw [if_neg hji, if_neg (by simp [hj, hji])]

/-- specification: the factor of the filter at a vertex -/
def factor (w : World) (g : ℕ) (f : Ffd) (id : ℕ) : ℝ := if f.bfilter then weight w g f.filter id else 1

theorem scale_one (v : V3) : V3.scale 1 v = v := by unfold V3.scale; simp

/-- `execute` on a lattice that is ready: each selected vertex gets the displacement at its place, the others zero -/
theorem execute_ready {w : World} (hw : WorldOk w) {skd : Option Skd} {kd : Kd} {tol : ℝ} {f : Ffd} {s : Shape} {g : ℕ}
    (hg : f.geom = some g) (hb : f.lat.grid.built = true) (h : Ready f s) (hpos : ∀ x ∈ f.weights, 0 < x)
    (hs : f.global = false → Scaled s) (hf : f.bfilter = true → Ok f.filter.data)
    (hin : ∀ id ∈ selected s (w g) skd kd tol, ∃ p, get (w g).verts id = some p ∧ Inside s p) :
    ∃ (f' : Ffd) (v : ℕ → V3), f.execute w skd kd tol = some f' ∧ f'.gdispl.geo = some g ∧ f'.gdispl.loc = .point ∧
      f'.gdispl.data.map Prod.fst = (w g).verts.map Prod.fst ∧
      (∀ id ∈ selected s (w g) skd kd tol, ∀ p, get (w g).verts id = some p → Moved f s p (v id)) ∧
      (∀ id p, get (w g).verts id = some p → get f'.gdispl.data id =
        some (if id ∈ selected s (w g) skd kd tol then V3.scale (factor w g f id) (v id) else ⟨0, 0, 0⟩)) ∧
      { f' with gdispl := f.gdispl, filter := f.filter } = f := by
  obtain ⟨L, hL⟩ : ∃ L, L = selected s (w g) skd kd tol := ⟨_, rfl⟩
  rw [← hL] at hin ⊢
  obtain ⟨displ, ed, td⟩ := table_spec h h.dlen (⟨0, 0, 0⟩ : V3)
  obtain ⟨weig, ew, tw⟩ := table_spec h h.wlen (1 : ℝ)
  let v : ℕ → V3 := fun id => ((get (w g).verts id).bind (evalVertex f displ weig)).getD ⟨0, 0, 0⟩
  have hv : ∀ id ∈ L, (get (w g).verts id).bind (evalVertex f displ weig) = some (v id) ∧
      ∀ p, get (w g).verts id = some p → Moved f s p (v id) := by
    intro id hid
    obtain ⟨p, hp, hi⟩ := hin id hid
    obtain ⟨d', w', x, e1, e2, e3, e4⟩ := vertex_value h hpos hs hi
    rw [ed] at e1; cases e1
    rw [ew] at e2; cases e2
    have hx : v id = x := by simp only [v, hp, Option.bind_some, e3, Option.getD_some]
    rw [hx, hp, Option.bind_some, e3]
    refine ⟨rfl, ?_⟩
    intro q hq; cases hq; exact e4
  have hlist : evalList f (w g) L = some (L.map v) := by
    unfold evalList
    rw [ed, ew]
    exact mapM_some L v (fun id hid => (hv id hid).1)
  have hz : insertAll (⟨0, 0, 0⟩ : V3) ((w g).verts.map Prod.fst) [] =
      some (((w g).verts.map Prod.fst).map (fun i => (i, (⟨0, 0, 0⟩ : V3)))) := by
    rw [insertAll_const _ _ _ (by have := hw.verts g; unfold Ok at this; simpa using this), nil_append]
  have hzk : (((w g).verts.map Prod.fst).map (fun i => (i, (⟨0, 0, 0⟩ : V3)))).map Prod.fst = (w g).verts.map Prod.fst := by
    rw [map_map]; conv_rhs => rw [← List.map_id ((w g).verts.map Prod.fst)]
    rfl
  obtain ⟨d, st1, st2, st3⟩ := store_spec (fun id => V3.scale (factor w g f id) (v id)) L
    (((w g).verts.map Prod.fst).map (fun i => (i, (⟨0, 0, 0⟩ : V3)))) (by
      intro id hid
      obtain ⟨p, hp, -⟩ := hin id hid
      rw [get_const', if_pos (mem_ids.2 ⟨p, hp⟩)]
      exact ⟨_, rfl⟩)
  obtain ⟨fl, hfr⟩ : ∃ fl, (f.bfilter = false ∧ fl = f.filter ∧ L.map v = L.map (fun id => V3.scale (factor w g f id) (v id))) ∨
      (f.bfilter = true ∧ Manip.checkFilter w g f.filter = some fl ∧
        modulate fl.data L (L.map v) = some (L.map (fun id => V3.scale (factor w g f id) (v id)))) := by
    cases hbf : f.bfilter with
    | false =>
      refine ⟨f.filter, .inl ⟨rfl, rfl, ?_⟩⟩
      apply map_congr_left
      intro id _
      simp only [factor, hbf, Bool.false_eq_true, if_false, scale_one]
    | true =>
      obtain ⟨x, c1, -, -, -, c5, -⟩ := checkFilter_spec hw g (hf hbf)
      refine ⟨x, .inr ⟨rfl, c1, ?_⟩⟩
      rw [modulate_spec (c := weight w g f.filter) v L (by
        intro id hid
        obtain ⟨p, hp, -⟩ := hin id hid
        exact c5 id p hp)]
      congr 1
      apply map_congr_left
      intro id _
      simp only [factor, hbf, if_true]
  refine ⟨{ f with filter := fl, gdispl := ⟨some g, defaultName, .point, d⟩ }, v, ?_, rfl, rfl, ?_, ?_, ?_, rfl⟩
  · unfold Ffd.execute
    rw [hg]
    simp only [Option.bind_eq_bind, Option.bind_some, hb, if_true]
    rw [h.made.shape]
    simp only [Option.bind_some]
    rw [← hL, hlist]
    simp only [Option.bind_some]
    rcases hfr with ⟨hbf, rfl, e⟩ | ⟨hbf, c1, e⟩
    · simp only [hbf, Bool.false_eq_true, if_false]
      rw [e, hz]
      simp only [Option.bind_some]
      rw [st1]
      simp only [Option.bind_some, hg]
    · simp only [hbf, if_true]
      rw [c1]
      simp only [Option.bind_some]
      rw [e]
      simp only [Option.bind_some]
      rw [hz]
      simp only [Option.bind_some]
      rw [st1]
      simp only [Option.bind_some, hg]
  · simp only; rw [st2, hzk]
  · intro id hid p hp; exact (hv id hid).2 p hp
  · intro id p hp
    simp only
    rw [st3]
    by_cases hid : id ∈ L
    · rw [if_pos hid, if_pos hid]
    · rw [if_neg hid, if_neg hid, get_const', if_pos (mem_ids.2 ⟨p, hp⟩)]

end

end Verif.Ffd
