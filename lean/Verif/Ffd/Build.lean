import Verif.Ffd.Eval
import Verif.Grid.StateProps
/-
What `FFDLattice::build` leaves.
-/
namespace Verif.Ffd
open Verif.Shape Verif.Grid Verif.Field
open List hiding get elem

noncomputable section
open scoped Classical

/-- the span is not empty, and along closed or mirrored directions the first knot is not confused with zero -/
def Fine (type : Coord) (n p : ℕ) (span lo : ℝ) : Prop :=
  0 < span ∧ (type = .periodic ∨ type = .symmetric → NoSnap n p span lo)

/-- the knots of each type of coordinate, and the number of control points -/
def KnotsFor (type : Coord) (n p m : ℕ) (span lo : ℝ) (T : ℤ → ℝ) : Prop :=
  match type with
  | .clamped => m = n ∧ T = clampT n p span lo
  | .periodic => m = n + p ∧ T = ringT n p span lo
  | .symmetric => m = n + p ∧ T = ringT n p span lo
  | .unclamped => m = n ∧ (∀ i : ℤ, p ≤ i → i < n → T i = clampT n p span lo i) ∧ T n = lo + span + 1 / 10 ^ 12 ∧
      ∀ i : ℤ, 0 ≤ i → i ≤ 2 * p → T (i + (n - p)) = T i + (span + 1 / 10 ^ 12)

/-- a direction of a lattice that was built -/
structure Axis (c : Curve) (type : Coord) (n p m : ℕ) (span lo : ℝ) (T : ℤ → ℝ) : Prop where
  pos : 1 ≤ p
  deg : p + 1 ≤ n
  nodes : c.nodes = nodesOf type n p
  spline : Spline c n p m T lo (lo + span)
  knots : KnotsFor type n p m span lo T

theorem axis_of {type : Coord} {n p : ℕ} {span lo : ℝ} (hp : 1 ≤ p) (hn : p + 1 ≤ n) (h : Fine type n p span lo) :
    ∃ c m T, curveOf type n p span lo = some c ∧ Axis c type n p m span lo T := by
  obtain ⟨hs, hz⟩ := h
  cases type with
  | clamped =>
    obtain ⟨c, e, sp, -⟩ := clamped_spline span lo hp hn hs
    refine ⟨c, n, _, e, hp, hn, ?_, sp, rfl, rfl⟩
    have hmin : min (p : ℤ) ((n : ℤ) - 1) = p := by omega
    unfold curveOf at e
    simp only [hmin, Int.toNat_natCast] at e
    obtain ⟨k, -, rfl⟩ := Option.map_eq_some_iff.1 e
    rfl
  | periodic =>
    obtain ⟨c, e, nd, sp⟩ := ring_spline hp hn hs (hz (.inl rfl)) (type := .periodic) (.inl rfl)
    exact ⟨c, _, _, e, hp, hn, nd, sp, rfl, rfl⟩
  | symmetric =>
    obtain ⟨c, e, nd, sp⟩ := ring_spline hp hn hs (hz (.inr rfl)) (type := .symmetric) (.inr rfl)
    exact ⟨c, _, _, e, hp, hn, nd, sp, rfl, rfl⟩
  | unclamped =>
    obtain ⟨c, T, e, nd, sp, a, b, d⟩ := open_spline (lo := lo) hp hn hs
    exact ⟨c, n, T, e, hp, hn, nd, sp, rfl, a, b, d⟩

/-- a lattice on the shape `s` as `build` leaves it, with one displacement per degree of freedom -/
structure Ready (f : Ffd) (s : Shape) : Prop where
  made : Made f.lat.grid s
  run : ∃ l, Grid.execute l = some f.lat
  wlen : (f.weights.length : ℤ) = f.lat.np
  dlen : (f.displ.length : ℤ) = f.lat.np
  order : f.order = orderOf f.lat.grid.nx f.lat.grid.ny f.lat.grid.nz
  x : ∃ p m T, Axis f.c0 (s.coord 0) (f.lat.grid.nx + 1).toNat p m s.span.x (localOrigin s).x T
  y : ∃ p m T, Axis f.c1 (s.coord 1) (f.lat.grid.ny + 1).toNat p m s.span.y (localOrigin s).y T
  z : ∃ p m T, Axis f.c2 (s.coord 2) (f.lat.grid.nz + 1).toNat p m s.span.z (localOrigin s).z T

/-! ## Weights -/

theorem takeWeights_spec : ∀ (l : List (ℤ × ℝ)) (w : List ℝ), (∀ e ∈ l, 0 ≤ e.1 ∧ e.1 < w.length) →
    ∃ w', takeWeights l w = some w' ∧ w'.length = w.length ∧
      ∀ d : ℕ, d < w.length → w'[d]? = some (((l.filter (fun e => e.1 = (d : ℤ))).getLast?.map Prod.snd).getD (w.getD d 0))
  | [], w, _ => ⟨w, rfl, rfl, fun d hd => by simp [List.getD_eq_getElem?_getD, hd]⟩
  | e :: es, w, h => by
    obtain ⟨h0, h1⟩ := h e (by simp)
    have hput : put w e.1.toNat e.2 = some (w.set e.1.toNat e.2) := by unfold put; rw [if_pos (by omega)]
    obtain ⟨w', e1, e2, e3⟩ := takeWeights_spec es (w.set e.1.toNat e.2) (fun x hx => by
      rw [List.length_set]; exact h x (by simp [hx]))
    refine ⟨w', ?_, by rw [e2, List.length_set], ?_⟩
    · simp only [takeWeights]
      rw [if_neg (by omega), hput]
      exact e1
    · intro d hd
      rw [e3 d (by rw [List.length_set]; exact hd), List.filter_cons]
      by_cases hed : e.1 = (d : ℤ)
      · rw [if_pos (by simpa using hed)]
        have hw : (w.set e.1.toNat e.2).getD d 0 = e.2 := by
          rw [List.getD_eq_getElem?_getD, show e.1.toNat = d by omega, List.getElem?_set_self hd]; rfl
        rw [hw, List.getLast?_cons]
        cases (filter (fun e => decide (e.1 = (d : ℤ))) es).getLast? <;> rfl
      · rw [if_neg (by simpa using hed)]
        have hw : (w.set e.1.toNat e.2).getD d 0 = w.getD d 0 := by
          rw [List.getD_eq_getElem?_getD, List.getElem?_set_ne (by omega), List.getD_eq_getElem?_getD]
        rw [hw]

theorem resize_length {α : Type} (l : List α) (n : ℕ) (x : α) : (resize l n x).length = n := by
  unfold resize
  rw [List.length_append, List.length_take, List.length_replicate]
  omega

theorem resize_get {α : Type} (l : List α) {n d : ℕ} (x : α) (h : d < n) : (resize l n x)[d]? = some (l.getD d x) := by
  unfold resize
  rw [List.getElem?_append]
  by_cases hd : d < l.length
  · rw [if_pos (by rw [List.length_take]; omega), List.getElem?_take, if_pos h, List.getElem?_eq_getElem hd,
      List.getD_eq_getElem?_getD, List.getElem?_eq_getElem hd]
    rfl
  · rw [if_neg (by rw [List.length_take]; omega), List.getElem?_replicate, if_pos (by rw [List.length_take]; omega),
      List.getD_eq_getElem?_getD, List.getElem?_eq_none (by omega)]
    rfl

/-! ## build -/

/-- the degree used along a direction of `c` cells -/
def degree (c : Int) (d : Int) : Int := min c (max 1 d)

theorem execute_some {l : Lattice} {s : Shape} (h : l.grid.shape = some s) : ∃ l', Grid.execute l = some l' := by
  unfold Grid.execute
  rw [(made_build h).shape]
  exact ⟨_, rfl⟩

theorem np_nonneg {l l' : Lattice} (h : Grid.execute l = some l') : 0 ≤ l'.np := by
  obtain ⟨s, -, -, -, e⟩ := execute_spec h
  rw [e]
  omega

/-- everything that `build` leaves -/
theorem build_spec {f : Ffd} {s : Shape} {l : Lattice} (hs : f.lat.grid.shape = some s) (he : Grid.execute f.lat = some l)
    (hc : ∀ e ∈ f.collect, 0 ≤ e.1 ∧ e.1 < l.np)
    (h0 : Fine (s.coord 0) (l.grid.nx + 1).toNat (degree l.grid.nx f.c0.deg).toNat s.span.x (localOrigin s).x)
    (h1 : Fine (s.coord 1) (l.grid.ny + 1).toNat (degree l.grid.ny f.c1.deg).toNat s.span.y (localOrigin s).y)
    (h2 : Fine (s.coord 2) (l.grid.nz + 1).toNat (degree l.grid.nz f.c2.deg).toNat s.span.z (localOrigin s).z) :
    ∃ f', f.build = some f' ∧ f'.lat = l ∧ Ready f' s ∧ f'.lat.grid.built = true ∧ f'.collect = [] ∧
      f'.degrees = (degree l.grid.nx f.c0.deg, degree l.grid.ny f.c1.deg, degree l.grid.nz f.c2.deg) ∧
      takeWeights f.collect (List.replicate l.np.toNat 1) = some f'.weights ∧ f'.displ = resize f.displ l.np.toNat ⟨0, 0, 0⟩ ∧
      f'.global = f.global ∧ f'.filter = f.filter ∧ f'.bfilter = f.bfilter ∧ f'.geom = f.geom ∧ f'.gdispl = f.gdispl := by
  obtain ⟨s', hs', hg, -, -⟩ := execute_spec he
  rw [hs] at hs'
  cases hs'
  have hm : Made l.grid s := hg ▸ made_build hs
  have px := hm.px
  have py := hm.py
  have pz := hm.pz
  have hnp := np_nonneg he
  obtain ⟨w, ew, lw, -⟩ := takeWeights_spec f.collect (List.replicate l.np.toNat 1) (fun e he => by
    rw [List.length_replicate]; have := hc e he; omega)
  have ax : ∀ {type : Coord} {c : Int} {d : Int} {span lo : ℝ}, 1 ≤ c → Fine type (c + 1).toNat (degree c d).toNat span lo →
      ∃ cv p m T, curveOf type (c + 1).toNat (min c (max 1 d)) span lo = some cv ∧ cv.deg = degree c d ∧
        Axis cv type (c + 1).toNat p m span lo T := by
    intro type c d span lo hc hf
    obtain ⟨cv, m, T, e, a⟩ := axis_of (p := (degree c d).toNat) (by unfold degree; omega) (by unfold degree; omega) hf
    have hd : ((degree c d).toNat : ℤ) = degree c d := by unfold degree; omega
    rw [hd] at e
    refine ⟨cv, _, m, T, e, ?_, a⟩
    rw [a.spline.deg, hd]
  obtain ⟨c0, p0, m0, T0, e0, d0, a0⟩ := ax px h0
  obtain ⟨c1, p1, m1, T1, e1, d1, a1⟩ := ax py h1
  obtain ⟨c2, p2, m2, T2, e2, d2, a2⟩ := ax pz h2
  refine ⟨{ f with lat := l, c0 := c0, c1 := c1, c2 := c2, weights := w, displ := resize f.displ l.np.toNat ⟨0, 0, 0⟩
                   order := orderOf l.grid.nx l.grid.ny l.grid.nz, collect := [] }, ?_, rfl, ?_, ?_, rfl, ?_, ew, rfl, rfl, rfl, rfl, rfl, rfl⟩
  · unfold Ffd.build
    simp only [Option.bind_eq_bind, he, Option.bind_some, hm.shape, ew, e0, e1, e2]
  · refine ⟨hm, ⟨_, he⟩, ?_, ?_, rfl, ⟨p0, m0, T0, a0⟩, ⟨p1, m1, T1, a1⟩, ⟨p2, m2, T2, a2⟩⟩
    · simp only [lw, List.length_replicate]; omega
    · simp only [resize_length]; omega
  · simp only [hg]
    unfold Grid.build
    rw [hs]
  · simp only [Ffd.degrees, d0, d1, d2]

/-! ## The values of the nodes -/

/-- the node values of a list with one entry per degree of freedom -/
theorem fullGrid_spec {α : Type} {f : Ffd} {s : Shape} (h : Ready f s) {v : List α} (hv : (v.length : ℤ) = f.lat.np) :
    ∃ l, fullGrid f v = some l ∧ (l.length : ℤ) = nodeCount f.lat.grid ∧
      ∀ a b c : ℕ, a < (f.lat.grid.nx + 1).toNat → b < (f.lat.grid.ny + 1).toNat → c < (f.lat.grid.nz + 1).toNat →
        ∃ d x, dofFromGrid f.lat (pointIndex f.lat.grid a b c) = some d ∧ elem v d = some x ∧
          elem l (pointIndex f.lat.grid a b c) = some x := by
  obtain ⟨l0, hl⟩ := h.run
  obtain ⟨hd, -⟩ := C75_dofs hl
  have px := h.made.px
  have py := h.made.py
  have pz := h.made.pz
  have hcount : 0 ≤ nodeCount f.lat.grid := by
    unfold nodeCount; exact Int.mul_nonneg (Int.mul_nonneg (by omega) (by omega)) (by omega)
  have hval : ∀ n < (nodeCount f.lat.grid).toNat, ∃ d x, dofFromGrid f.lat (n : ℕ) = some d ∧ elem v d = some x := by
    intro n hn
    obtain ⟨d, e, a, b⟩ := hd (n : ℕ) (by omega) (by omega)
    obtain ⟨q, rfl⟩ := Int.eq_ofNat_of_zero_le a
    refine ⟨(q : ℕ), v[q]'(by omega), e, ?_⟩
    rw [elem_nat, List.getElem?_eq_getElem]
  have hall : ∀ (l : List ℕ), (∀ n ∈ l, n < (nodeCount f.lat.grid).toNat) →
      ∃ r, l.mapM (fun (i : Nat) => (elem f.lat.map (i : Int)).bind (elem v)) = some r ∧ r.length = l.length ∧
        ∀ i (hi : i < l.length), r[i]? = (elem f.lat.map ((l[i] : ℕ) : Int)).bind (elem v) := by
    intro l
    induction l with
    | nil => intro _; exact ⟨[], by simp, rfl, by simp⟩
    | cons n l ih =>
      intro hl
      obtain ⟨r, e1, e2, e3⟩ := ih (fun m hm => hl m (by simp [hm]))
      obtain ⟨d, x, f1, f2⟩ := hval n (hl n (by simp))
      have fx : (elem f.lat.map (n : Int)).bind (elem v) = some x := by
        unfold dofFromGrid at f1; rw [f1]; exact f2
      refine ⟨x :: r, by rw [List.mapM_cons, fx, e1]; rfl, by simp [e2], ?_⟩
      intro i hi
      cases i with
      | zero => simp [fx]
      | succ i => simpa using e3 i (by simpa using hi)
  obtain ⟨r, e1, e2, e3⟩ := hall (List.range (nodeCount f.lat.grid).toNat) (by simp)
  refine ⟨r, ?_, by rw [e2, List.length_range]; omega, ?_⟩
  · unfold fullGrid getDimension
    exact e1
  · intro a b c ha hb hc
    have hn := (C68_node_there f.lat.grid (i := a) (j := b) (k := c) ⟨by omega, by omega, by omega⟩).2
    obtain ⟨q, hq⟩ := Int.eq_ofNat_of_zero_le hn.1
    have hn2 : (q : ℤ) < nodeCount f.lat.grid := by rw [← hq]; exact hn.2
    obtain ⟨d, x, f1, f2⟩ := hval q (by omega)
    have := e3 q (by rw [List.length_range]; omega)
    rw [List.getElem_range] at this
    refine ⟨d, x, by rw [hq]; exact f1, f2, ?_⟩
    rw [hq, elem_nat, this]
    unfold dofFromGrid at f1
    rw [f1]
    exact f2

/-- specification: the value that a list with one entry per degree of freedom gives to a node -/
def nodeValue {α : Type} (f : Ffd) (v : List α) (dflt : α) (a b c : ℕ) : α :=
  (((dofFromGrid f.lat (pointIndex f.lat.grid a b c)).bind (elem v)).getD dflt)

theorem table_spec {α : Type} {f : Ffd} {s : Shape} (h : Ready f s) {v : List α} (hv : (v.length : ℤ) = f.lat.np) (dflt : α) :
    ∃ l, fullGrid f v = some l ∧ Table f (f.lat.grid.nx + 1).toNat (f.lat.grid.ny + 1).toNat (f.lat.grid.nz + 1).toNat l
      (nodeValue f v dflt) := by
  obtain ⟨l, e, -, hl⟩ := fullGrid_spec h hv
  refine ⟨l, e, ?_⟩
  intro a ha b hb c hc
  obtain ⟨d, x, f1, f2, f3⟩ := hl a b c ha hb hc
  rw [f3]
  unfold nodeValue
  rw [f1, Option.bind_some, f2]
  rfl

end

end Verif.Ffd
