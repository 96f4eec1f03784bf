import Verif.Manip.TurnProps
/-
C81 (scaling), C83 (bending), C77 for bending.
-/
namespace Verif.Manip
open Verif.Field Verif.Mesh Verif.Shape
open List hiding get

noncomputable section
open scoped Classical

/-! ### C81 -/

/-- specification: the mean of the vertices -/
def meanPoint (vs : Data V3) : V3 :=
  ⟨(vs.map (fun e => e.2.x)).sum / vs.length, (vs.map (fun e => e.2.y)).sum / vs.length,
    (vs.map (fun e => e.2.z)).sum / vs.length⟩

/-- specification: the fixed point of the scaling -/
def fixedPoint (t : Scale) (vs : Data V3) : V3 := if t.meanP then meanPoint vs else t.origin

theorem sumOf_from (vs : Data V3) (a : V3) : vs.foldl (fun a e => a + e.2) a =
    ⟨a.x + (vs.map (fun e => e.2.x)).sum, a.y + (vs.map (fun e => e.2.y)).sum, a.z + (vs.map (fun e => e.2.z)).sum⟩ := by
  induction vs generalizing a with
  | nil => ext <;> simp
  | cons e vs ih =>
    rw [foldl_cons, ih]
    ext <;> simp [add_assoc]

theorem center_eq (t : Scale) (o : Obj V3) : t.center o = fixedPoint t o.verts := by
  unfold Scale.center fixedPoint
  split
  · unfold sumOf
    rw [sumOf_from]
    ext <;> simp [V3.div, meanPoint]
  · rfl

/-- two containers with the same ids in the same order and the same values are the same -/
theorem data_ext {α : Type} : ∀ {a b : Data α}, Ok a → a.map Prod.fst = b.map Prod.fst →
    (∀ id, get a id = get b id) → a = b
  | [], [], _, _, _ => rfl
  | [], _ :: _, _, h, _ => by simp at h
  | _ :: _, [], _, h, _ => by simp at h
  | x :: a, y :: b, hok, h, hg => by
    simp only [map_cons, cons.injEq] at h
    obtain ⟨h1, h2⟩ := h
    have hx := hg x.1
    rw [get_cons, get_cons, if_pos rfl, if_pos h1.symm] at hx
    have e : x = y := Prod.ext h1 (Option.some.inj hx)
    subst e
    unfold Ok at hok
    rw [map_cons, nodup_cons] at hok
    congr 1
    apply data_ext hok.2 h2
    intro id
    by_cases hi : x.1 = id
    · subst hi
      have ha : get a x.1 = none := (get_none_iff _ _).2 hok.1
      have hb : get b x.1 = none := (get_none_iff _ _).2 (by rw [← h2]; exact hok.1)
      rw [ha, hb]
    · have := hg id
      rwa [get_cons, get_cons, if_neg hi, if_neg hi] at this

/-- C81: ScaleGeometry executed without filter and applied moves each vertex so that its offset from the fixed point is
multiplied, component by component, by the scaling; the fixed point is the given origin or the mean of the vertices. -/
theorem C81_scale {w w' : World} (hw : WorldOk w) {t t' : Scale} (hf : Ok t.filter.data) {g : Nat}
    (hg : t.geom = some g) (hn : ¬ Usable w g t.filter) (he : t.execute w = some t') (ha : t'.apply w = some w') :
    ∀ id p, get (w g).verts id = some p → ∃ p', get (w' g).verts id = some p' ∧
      p' - fixedPoint t (w g).verts = V3.mul t.scaling (p - fixedPoint t (w g).verts) := by
  simp only [Scale.execute, Option.map_eq_some_iff] at he
  obtain ⟨b, hb, rfl⟩ := he
  obtain ⟨h1, -⟩ := run_apply hw hf hg hn hb ha
  intro id p hp
  refine ⟨_, h1 id p hp, ?_⟩
  simp only [Scale.value, scale_one, center_eq]
  ext <;> simp [V3.mul]

/-- C81: differences between vertices are multiplied by the scaling, wherever the fixed point is. -/
theorem C81_differences {w w' : World} (hw : WorldOk w) {t t' : Scale} (hf : Ok t.filter.data) {g : Nat}
    (hg : t.geom = some g) (hn : ¬ Usable w g t.filter) (he : t.execute w = some t') (ha : t'.apply w = some w')
    {i j : Nat} {p q p' q' : V3} (hp : get (w g).verts i = some p) (hq : get (w g).verts j = some q)
    (hp' : get (w' g).verts i = some p') (hq' : get (w' g).verts j = some q') :
    p' - q' = V3.mul t.scaling (p - q) := by
  obtain ⟨a, a1, a2⟩ := C81_scale hw hf hg hn he ha i p hp
  obtain ⟨b, b1, b2⟩ := C81_scale hw hf hg hn he ha j q hq
  rw [hp'] at a1; cases a1
  rw [hq'] at b1; cases b1
  have ax := congrArg V3.x a2
  have ay := congrArg V3.y a2
  have az := congrArg V3.z a2
  have bx := congrArg V3.x b2
  have by' := congrArg V3.y b2
  have bz := congrArg V3.z b2
  simp only [V3.mul, sub_x, sub_y, sub_z] at ax ay az bx by' bz
  ext <;> simp only [V3.mul, sub_x, sub_y, sub_z] <;> linarith

theorem sum_affine (l : List ℝ) (s c : ℝ) : (l.map (fun x => c + s * (x - c))).sum =
    l.length * c + s * (l.sum - l.length * c) := by
  induction l with
  | nil => simp
  | cons x l ih =>
    rw [map_cons, sum_cons, ih, sum_cons, length_cons]
    push_cast
    ring

/-- C81: scaling about the mean point does not move the mean point. -/
theorem C81_mean {w w' : World} (hw : WorldOk w) {t t' : Scale} (hm : t.meanP = true) (hf : Ok t.filter.data) {g : Nat}
    (hg : t.geom = some g) (hn : ¬ Usable w g t.filter) (he : t.execute w = some t') (ha : t'.apply w = some w')
    (hne : (w g).verts ≠ []) : meanPoint (w' g).verts = meanPoint (w g).verts := by
  have hs := C81_scale hw hf hg hn he ha
  simp only [Scale.execute, Option.map_eq_some_iff] at he
  obtain ⟨b, hb, rfl⟩ := he
  obtain ⟨-, hids⟩ := run_apply hw hf hg hn hb ha
  have hc : fixedPoint t (w g).verts = meanPoint (w g).verts := by simp [fixedPoint, hm]
  rw [hc] at hs
  set c := meanPoint (w g).verts with hcdef
  have e : (w' g).verts = (w g).verts.map (fun x => (x.1, (⟨c.x + t.scaling.x * (x.2.x - c.x),
      c.y + t.scaling.y * (x.2.y - c.y), c.z + t.scaling.z * (x.2.z - c.z)⟩ : V3))) := by
    apply data_ext
    · unfold Ok; rw [hids]; exact hw.verts g
    · rw [hids]; simp
    · intro id
      have := get_map_val (w g).verts (fun _ q => (⟨c.x + t.scaling.x * (q.x - c.x),
        c.y + t.scaling.y * (q.y - c.y), c.z + t.scaling.z * (q.z - c.z)⟩ : V3)) id
      rw [this]
      cases hp : get (w g).verts id with
      | none =>
        rw [Option.map_none, get_none_iff, hids]
        exact (get_none_iff _ _).1 hp
      | some p =>
        obtain ⟨p', h1, h2⟩ := hs id p hp
        rw [h1, Option.map_some]
        congr 1
        have hx := congrArg V3.x h2
        have hy := congrArg V3.y h2
        have hz := congrArg V3.z h2
        simp only [V3.mul, sub_x, sub_y, sub_z] at hx hy hz
        ext <;> simp only <;> linarith
  have hl : ((w g).verts.length : ℝ) ≠ 0 := by
    intro h
    exact hne (length_eq_zero_iff.1 (by exact_mod_cast h))
  have comp : ∀ (F : V3 → ℝ) (s k : ℝ), ((w g).verts.map (fun x => k + s * (F x.2 - k))).sum =
      (w g).verts.length * k + s * (((w g).verts.map (fun x => F x.2)).sum - (w g).verts.length * k) := by
    intro F s k
    have := sum_affine ((w g).verts.map (fun x => F x.2)) s k
    rw [map_map, length_map] at this
    exact this
  have mx : c.x * (w g).verts.length = ((w g).verts.map (fun x => x.2.x)).sum := by
    rw [hcdef]; simp only [meanPoint]; field_simp
  have my : c.y * (w g).verts.length = ((w g).verts.map (fun x => x.2.y)).sum := by
    rw [hcdef]; simp only [meanPoint]; field_simp
  have mz : c.z * (w g).verts.length = ((w g).verts.map (fun x => x.2.z)).sum := by
    rw [hcdef]; simp only [meanPoint]; field_simp
  rw [e]
  unfold meanPoint
  simp only [map_map, Function.comp_def, length_map]
  ext <;> simp only
  · rw [comp V3.x, ← mx]; field_simp; ring
  · rw [comp V3.y, ← my]; field_simp; ring
  · rw [comp V3.z, ← mz]; field_simp; ring

def demoScale : Scale := { demoBlock with scaling := ⟨2, 3, 1⟩, origin := ⟨0, 0, 0⟩, meanP := true }

example : ∃ t' w', demoScale.execute demoWorld = some t' ∧ t'.apply demoWorld = some w' ∧ demoScale.geom = some 0 ∧
    Ok demoScale.filter.data ∧ ¬ Usable demoWorld 0 demoScale.filter ∧ demoScale.meanP = true ∧
    (demoWorld 0).verts ≠ [] ∧ meanPoint (demoWorld 0).verts = ⟨1 / 3, 2 / 3, 0⟩ := by
  obtain ⟨b, w', h1, h2⟩ := demo_run (b := demoBlock) (g := 0) (by simp [Ok, demoBlock, noFilter, make]) rfl
    demoScale.value
  refine ⟨{ demoScale with toBlock := b }, w', ?_, h2, rfl, by simp [Ok, demoScale, demoBlock, noFilter, make],
    noFilter_not_usable _ _, rfl, by simp [demoWorld, demoObj], ?_⟩
  · simp only [Scale.execute]
    exact congrArg (Option.map _) h1
  · ext <;> simp [meanPoint, demoWorld, demoObj]

/-! ### C83 -/

/-- specification: the polynomial with the given coefficients up to the given degree (missing coefficients are 0) -/
def polyAt (degree : Nat) (coeffs : List ℝ) (x : ℝ) : ℝ :=
  ((range (degree + 1)).map (fun k => coeffs.getD k 0 * x ^ k)).sum

/-- specification: the bending of a point: `S_i = Σ_j P_ij(x_j)` -/
def bending (t : Bend) (x : V3) : V3 :=
  let c := fun i => polyAt (t.degree i 0) (t.coeffs i 0) x.x + polyAt (t.degree i 1) (t.coeffs i 1) x.y +
    polyAt (t.degree i 2) (t.coeffs i 2) x.z
  ⟨c 0, c 1, c 2⟩

/-- no polynomial of degree 0 has a constant term -/
def NoConstants (t : Bend) : Prop := ∀ i < 3, ∀ j < 3, t.degree i j = 0 → (t.coeffs i j).getD 0 0 = 0

theorem polyTerms_sum (x s : ℝ) : ∀ (l : List ℝ) (k : Nat) (acc : ℝ),
    polyTerms x s k l acc = acc + s * ((range l.length).map (fun i => l.getD i 0 * x ^ (k + i))).sum
  | [], k, acc => by simp [polyTerms]
  | a :: l, k, acc => by
    rw [polyTerms, polyTerms_sum x s l, length_cons, range_succ_eq_map, map_cons, sum_cons, map_map]
    simp only [Function.comp_def, getD_cons_zero, getD_cons_succ, Nat.add_zero]
    have : ∀ i, k + 1 + i = k + (i + 1) := by intro i; omega
    simp only [this, Nat.succ_eq_add_one]
    ring

theorem resize_length (l : List ℝ) (n : Nat) : (resize l n).length = n := by
  simp [resize]; omega

theorem resize_getD (l : List ℝ) (n i : Nat) (h : i < n) : (resize l n).getD i 0 = l.getD i 0 := by
  unfold resize
  by_cases hi : i < l.length
  · rw [getD_eq_getElem?_getD, getElem?_append_left (by simp; omega)]
    simp [getD_eq_getElem?_getD, getElem?_take, h]
  · rw [getD_eq_getElem?_getD, getElem?_append_right (by simp; omega)]
    have : l.getD i 0 = 0 := by
      rw [getD_eq_getElem?_getD, getElem?_eq_none (by omega)]; rfl
    rw [this, getElem?_replicate]
    split <;> rfl

theorem poly_terms_eq (x s : ℝ) (l : List ℝ) (n : Nat) (acc : ℝ) :
    polyTerms x s 0 (resize l (n + 1)) acc = acc + s * polyAt n l x := by
  rw [polyTerms_sum, resize_length]
  unfold polyAt
  congr 3
  apply map_congr_left
  intro i hi
  rw [resize_getD _ _ _ (by simpa using hi)]
  simp

theorem polyAt_zero (l : List ℝ) (x : ℝ) : polyAt 0 l x = l.getD 0 0 := by
  simp [polyAt]

theorem component_eq (t : Bend) (h : NoConstants t) (p : V3) (s : ℝ) {i : Nat} (hi : i < 3) :
    t.component p s i = s * (polyAt (t.degree i 0) (t.coeffs i 0) p.x + polyAt (t.degree i 1) (t.coeffs i 1) p.y +
      polyAt (t.degree i 2) (t.coeffs i 2) p.z) := by
  have step : ∀ j < 3, ∀ acc, (if t.degree i j > 0 then
      polyTerms (p.at j) s 0 (resize (t.coeffs i j) (t.degree i j + 1)) acc else acc) =
      acc + s * polyAt (t.degree i j) (t.coeffs i j) (p.at j) := by
    intro j hj acc
    split
    · exact poly_terms_eq _ _ _ _ _
    · have h0 : t.degree i j = 0 := by omega
      rw [h0, polyAt_zero, h i hi j hj h0]; ring
  unfold Bend.component
  simp only [foldl_cons, foldl_nil, step 0 (by omega), step 1 (by omega), step 2 (by omega)]
  simp only [V3.at]
  ring

/-- orthonormal axes -/
structure OrthoAxes (m : M3) : Prop where
  n0 : dot m.r0 m.r0 = 1
  n1 : dot m.r1 m.r1 = 1
  n2 : dot m.r2 m.r2 = 1
  o01 : dot m.r0 m.r1 = 0
  o02 : dot m.r0 m.r2 = 0
  o12 : dot m.r1 m.r2 = 0

theorem app_rowMul {m : M3} (h : OrthoAxes m) (v : V3) : m.app (rowMul v m) = v := by
  have d : ∀ a b c r : V3, ∀ x y z : ℝ, dot (V3.scale x a + V3.scale y b + V3.scale z c) r =
      x * dot a r + y * dot b r + z * dot c r := by
    intro a b c r x y z
    simp only [dot, V3.scale, add_x, add_y, add_z]; ring
  have comm : ∀ a b : V3, dot a b = dot b a := by intro a b; simp only [dot]; ring
  unfold M3.app rowMul
  simp only [d, h.n0, h.n1, h.n2, h.o01, h.o02, h.o12, comm m.r1 m.r0, comm m.r2 m.r0, comm m.r2 m.r1]
  ext <;> simp

theorem rowMul_app {m : M3} (h : OrthoAxes m) (v : V3) : rowMul (m.app v) m = v := by
  have hd : m.det ≠ 0 := by
    intro e
    have := det_sq m
    rw [e, h.n0, h.n1, h.n2, h.o01, h.o02, h.o12] at this
    norm_num at this
  rw [← inv_app hd v, ← inv_app hd (rowMul (m.app (m.inverse.app (m.app v))) m)]
  rw [app_rowMul h]
  rw [inv_app hd]

theorem rowMul_scale (k : ℝ) (v : V3) (m : M3) : rowMul (V3.scale k v) m = V3.scale k (rowMul v m) := by
  ext <;> simp only [rowMul, V3.scale, add_x, add_y, add_z] <;> ring

theorem rowMul_add (a b : V3) (m : M3) : rowMul (a + b) m = rowMul a m + rowMul b m := by
  ext <;> simp only [rowMul, V3.scale, add_x, add_y, add_z] <;> ring

/-- the displacement in the local frame -/
def Bend.localValue (t : Bend) (q : V3) (s : ℝ) : V3 := ⟨t.component q s 0, t.component q s 1, t.component q s 2⟩

theorem localValue_eq (t : Bend) (h : NoConstants t) (q : V3) (s : ℝ) :
    t.localValue q s = V3.scale s (bending t q) := by
  unfold Bend.localValue bending
  rw [component_eq t h q s (by omega), component_eq t h q s (by omega), component_eq t h q s (by omega)]
  rfl

theorem value_global (t : Bend) (hl : t.isLocal = false) (o : Obj V3) (p : V3) (s : ℝ) :
    t.value o p s = t.localValue p s := by
  simp [Bend.value, hl, Bend.localValue]

theorem value_local (t : Bend) (hl : t.isLocal = true) (hm : OrthoAxes t.system) (o : Obj V3) (p : V3) (s : ℝ) :
    t.value o p s = rowMul (t.localValue (t.toLocal p) s) t.system := by
  have e : t.value o p s = t.toGlobal (t.toLocal p + t.localValue (t.toLocal p) s) - p := by
    simp [Bend.value, hl, Bend.localValue]
  rw [e, Bend.toGlobal, rowMul_add, Bend.toLocal, rowMul_app hm]
  ext <;> simp only [add_x, add_y, add_z, sub_x, sub_y, sub_z] <;> ring

theorem execute_run {w w' : World} (hw : WorldOk w) {t t' : Bend} (hf : Ok t.filter.data) {g : Nat}
    (hg : t.geom = some g) (hn : ¬ Usable w g t.filter) (he : t.execute w = some t') (ha : t'.apply w = some w') :
    ∀ id p, get (w g).verts id = some p → get (w' g).verts id = some (p + t.value (w g) p 1) := by
  simp only [Bend.execute, Option.map_eq_some_iff] at he
  obtain ⟨b, hb, rfl⟩ := he
  exact (run_apply hw hf hg hn hb ha).1

/-- C83 (part): BendGeometry executed without filter and applied, when no reference system was given: each coordinate
`i` of a vertex grows by the sum over the axes `j` of the polynomial `P_ij` of its `j`-th coordinate, if no polynomial of
degree 0 has a constant term.  Missing: constant polynomials (C83_constant_fails). -/
theorem C83_bend_partial {w w' : World} (hw : WorldOk w) {t t' : Bend} (hf : Ok t.filter.data) {g : Nat}
    (hg : t.geom = some g) (hn : ¬ Usable w g t.filter) (hc : NoConstants t) (hl : t.isLocal = false)
    (he : t.execute w = some t') (ha : t'.apply w = some w') :
    ∀ id p, get (w g).verts id = some p → get (w' g).verts id = some (p + bending t p) := by
  intro id p hp
  rw [execute_run hw hf hg hn he ha id p hp, value_global t hl, localValue_eq t hc, scale_one]

/-- C83 (part): when an origin or a reference system was given by setOrigin / setRefSystem: the coordinates of each
vertex in that system grow by the bending, if the axes are orthonormal (and no polynomial of degree 0 has a constant
term).  Missing: other axes (C83_frame_fails), systems given through the ports (C83_port_fails). -/
theorem C83_local_partial {w w' : World} (hw : WorldOk w) {t t' : Bend} (hf : Ok t.filter.data) {g : Nat}
    (hg : t.geom = some g) (hn : ¬ Usable w g t.filter) (hc : NoConstants t) (hl : t.isLocal = true)
    (hm : OrthoAxes t.system) (he : t.execute w = some t') (ha : t'.apply w = some w') :
    ∀ id p, get (w g).verts id = some p → ∃ p' q q' : V3, get (w' g).verts id = some p' ∧
      p = t.origin + rowMul q t.system ∧ p' = t.origin + rowMul q' t.system ∧ q' = q + bending t q := by
  intro id p hp
  refine ⟨_, t.toLocal p, t.toLocal p + bending t (t.toLocal p), execute_run hw hf hg hn he ha id p hp, ?_, ?_, rfl⟩
  · rw [Bend.toLocal, rowMul_app hm]
    ext <;> simp
  · rw [value_local t hl hm, localValue_eq t hc, scale_one, rowMul_add, Bend.toLocal, rowMul_app hm]
    ext <;> simp only [add_x, add_y, add_z, sub_x, sub_y, sub_z] <;> ring

/-- C83: setOrigin and setRefSystem activate the local system; the axes are taken as given. -/
theorem C83_setters (t : Bend) (o : V3) (m : M3) : (t.setOrigin o).isLocal = true ∧ (t.setOrigin o).origin = o ∧
    (t.setOrigin o).system = t.system ∧ (t.setRefSystem m).isLocal = true ∧ (t.setRefSystem m).system = m ∧
    (t.setRefSystem m).origin = t.origin ∧
    ∀ p, bending (t.setOrigin o) p = bending t p ∧ bending (t.setRefSystem m) p = bending t p :=
  ⟨rfl, rfl, rfl, rfl, rfl, rfl, fun _ => ⟨rfl, rfl⟩⟩

/-- C83 is false for constant polynomials: if all degrees are 0 nothing moves, whatever the constants. -/
theorem C83_constant_fails {w w' : World} (hw : WorldOk w) {t t' : Bend} (hf : Ok t.filter.data) {g : Nat}
    (hg : t.geom = some g) (hn : ¬ Usable w g t.filter) (hl : t.isLocal = false) (hd : ∀ i j, t.degree i j = 0)
    (he : t.execute w = some t') (ha : t'.apply w = some w') :
    (∀ id p, get (w g).verts id = some p → get (w' g).verts id = some p) ∧
    ∀ p, bending t p = ⟨(t.coeffs 0 0).getD 0 0 + (t.coeffs 0 1).getD 0 0 + (t.coeffs 0 2).getD 0 0,
      (t.coeffs 1 0).getD 0 0 + (t.coeffs 1 1).getD 0 0 + (t.coeffs 1 2).getD 0 0,
      (t.coeffs 2 0).getD 0 0 + (t.coeffs 2 1).getD 0 0 + (t.coeffs 2 2).getD 0 0⟩ := by
  constructor
  · intro id p hp
    rw [execute_run hw hf hg hn he ha id p hp, value_global t hl]
    congr 1
    ext <;> simp [Bend.localValue, Bend.component, hd]
  · intro p
    simp only [bending, hd, polyAt_zero]

/-- C83 is false for a reference system given through the ports: it is ignored unless setOrigin or setRefSystem was
called before. -/
theorem C83_port_fails (w : World) (t : Bend) (hl : t.isLocal = false) (o : V3) (m : M3) :
    ((t.portOrigin o).portAxes m).execute w =
      (t.execute w).map (fun t' => ((t'.portOrigin o).portAxes m)) := by
  have e : ((t.portOrigin o).portAxes m).value = t.value := by
    funext a p s
    simp [Bend.value, Bend.portOrigin, Bend.portAxes, hl, Bend.component]
  simp only [Bend.execute, e, Option.map_map]
  rfl

/-- C83 is false for axes that are not orthonormal: even without any bending (all degrees 0) the vertices move. -/
theorem C83_frame_fails {w w' : World} (hw : WorldOk w) {t t' : Bend} (hf : Ok t.filter.data) {g : Nat}
    (hg : t.geom = some g) (hn : ¬ Usable w g t.filter) (hl : t.isLocal = true) (hd : ∀ i j, t.degree i j = 0)
    (hk : ∀ i j, t.coeffs i j = []) (he : t.execute w = some t') (ha : t'.apply w = some w') :
    (∀ q, bending t q = ⟨0, 0, 0⟩) ∧
    ∀ id p, get (w g).verts id = some p →
      get (w' g).verts id = some (rowMul (t.system.app (p - t.origin)) t.system + t.origin) := by
  constructor
  · intro q
    simp [bending, hd, hk, polyAt_zero]
  · intro id p hp
    rw [execute_run hw hf hg hn he ha id p hp]
    congr 1
    have : t.value (w g) p 1 = t.toGlobal (t.toLocal p) - p := by
      have e : t.localValue (t.toLocal p) 1 = ⟨0, 0, 0⟩ := by
        ext <;> simp [Bend.localValue, Bend.component, hd]
      have e2 : t.value (w g) p 1 = t.toGlobal (t.toLocal p + t.localValue (t.toLocal p) 1) - p := by
        simp [Bend.value, hl, Bend.localValue]
      rw [e2, e]
      congr 2
      ext <;> simp
    rw [this]
    ext <;> simp [Bend.toGlobal, Bend.toLocal]

/-! ### C77 for BendGeometry -/

/-- C77, BendGeometry (part): without local system, or with orthonormal axes.  Missing: other axes (C77_bend_fails). -/
theorem C77_bend_partial {w : World} (hw : WorldOk w) (t : Bend) (f f0 : Field Nat ℝ) (hf : Ok f.data)
    (hf0 : Ok f0.data) {g : Nat} (hg : t.geom = some g) (h0 : ¬ Usable w g f0)
    (hm : t.isLocal = false ∨ OrthoAxes t.system) :
    ∃ t' t0', Bend.execute w { t with filter := f } = some t' ∧
      Bend.execute w { t with filter := f0 } = some t0' ∧ Weighted w g f t'.displ t0'.displ := by
  have terms : ∀ (x s : ℝ) (l : List ℝ) (acc : ℝ), polyTerms x s 0 l (s * acc) = s * polyTerms x 1 0 l acc := by
    intro x s l acc
    rw [polyTerms_sum, polyTerms_sum]; ring
  have comp : ∀ (q : V3) (s : ℝ) (j : Nat), t.component q s j = s * t.component q 1 j := by
    intro q s j
    unfold Bend.component
    have step : ∀ z acc, (if t.degree j z > 0 then
        polyTerms (q.at z) s 0 (resize (t.coeffs j z) (t.degree j z + 1)) (s * acc) else s * acc) =
        s * (if t.degree j z > 0 then
        polyTerms (q.at z) 1 0 (resize (t.coeffs j z) (t.degree j z + 1)) acc else acc) := by
      intro z acc
      split
      · exact terms _ _ _ _
      · rfl
    simp only [foldl_cons, foldl_nil]
    rw [← step, ← step, ← step, mul_zero]
  have lv : ∀ q s, t.localValue q s = V3.scale s (t.localValue q 1) := by
    intro q s
    ext <;> simp only [Bend.localValue, V3.scale] <;> rw [comp]
  have hv : ∀ p s, t.value (w g) p s = V3.scale s (t.value (w g) p 1) := by
    intro p s
    cases hl : t.isLocal with
    | false => rw [value_global t hl, value_global t hl, lv]
    | true =>
      have hm' : OrthoAxes t.system := by
        rcases hm with h | h
        · rw [hl] at h; cases h
        · exact h
      rw [value_local t hl hm', value_local t hl hm', lv, rowMul_scale]
  obtain ⟨b, b0, h1, h2, h3⟩ := weighted_of_run hw (b := { t.toBlock with filter := f })
    (b0 := { t.toBlock with filter := f0 }) hf hf0 hg hg h0 t.value hv
  exact ⟨{ t with
        toBlock := b,
        coeffs := fun i j => resize (t.coeffs i j) (t.degree i j + 1) },
    { t with
        toBlock := b0,
        coeffs := fun i j => resize (t.coeffs i j) (t.degree i j + 1) },
    by simp only [Bend.execute]; exact congrArg (Option.map _) h1,
    by simp only [Bend.execute]; exact congrArg (Option.map _) h2, h3⟩

/-- C77 is false for BendGeometry with axes that are not orthonormal: a vertex where the filter is 0 moves. -/
theorem C77_bend_fails {w : World} (hw : WorldOk w) (t : Bend) (hf : Ok t.filter.data) {g : Nat} (hg : t.geom = some g)
    (hl : t.isLocal = true) {id : Nat} {p : V3} (hp : get (w g).verts id = some p) (h0 : weight w g t.filter id = 0) :
    ∃ t', t.execute w = some t' ∧
      get t'.displ.data id = some (rowMul (t.system.app (p - t.origin)) t.system + t.origin - p) := by
  obtain ⟨b, h1, -, -, -, -, h6, -⟩ := run_spec hw hf hg t.value
  refine ⟨{ t with
        toBlock := b,
        coeffs := fun i j => resize (t.coeffs i j) (t.degree i j + 1) }, ?_, ?_⟩
  · simp only [Bend.execute]; rw [h1]; rfl
  · change get b.displ.data id = _
    rw [h6 id p hp, h0]
    congr 1
    have z : ∀ q j, t.component q 0 j = 0 := by
      intro q j
      unfold Bend.component
      have step : ∀ z (acc : ℝ), (if t.degree j z > 0 then
          polyTerms (q.at z) 0 0 (resize (t.coeffs j z) (t.degree j z + 1)) acc else acc) = acc := by
        intro z acc
        split
        · rw [polyTerms_sum]; ring
        · rfl
      simp only [foldl_cons, foldl_nil, step]
    simp only [Bend.value, hl, if_true, z]
    have e : ∀ q : V3, q + ⟨0, 0, 0⟩ = q := by intro q; ext <;> simp
    rw [e]
    rfl

/-- linear bending of x along y and constant-free z along x -/
def demoBend : Bend :=
  { demoBlock with
    origin := ⟨0, 0, 0⟩, system := M3.one, isLocal := false,
    degree := fun i j => if i = 0 ∧ j = 1 then 1 else 0,
    coeffs := fun i j => if i = 0 ∧ j = 1 then [1, 2] else [] }

theorem one_ortho : OrthoAxes M3.one := by
  constructor <;> simp [M3.one, dot]

example : ∃ t' w', demoBend.execute demoWorld = some t' ∧ t'.apply demoWorld = some w' ∧ NoConstants demoBend ∧
    demoBend.isLocal = false ∧ bending demoBend ⟨5, 10, 0⟩ = ⟨21, 0, 0⟩ := by
  obtain ⟨b, w', h1, h2⟩ := demo_run (b := demoBlock) (g := 0) (by simp [Ok, demoBlock, noFilter, make]) rfl
    demoBend.value
  refine ⟨{ demoBend with
        toBlock := b,
        coeffs := fun i j => resize (demoBend.coeffs i j) (demoBend.degree i j + 1) }, w', ?_, h2, ?_, rfl, ?_⟩
  · simp only [Bend.execute]
    exact congrArg (Option.map _) h1
  · intro i _ j _ h
    simp only [demoBend] at h ⊢
    split at h
    · omega
    · rename_i hij
      rw [if_neg hij]; rfl
  · simp [bending, demoBend, polyAt, range_succ]; norm_num

example : ∃ t' w', (demoBend.setOrigin ⟨1, 1, 1⟩).execute demoWorld = some t' ∧ t'.apply demoWorld = some w' ∧
    (demoBend.setOrigin ⟨1, 1, 1⟩).isLocal = true ∧ OrthoAxes (demoBend.setOrigin ⟨1, 1, 1⟩).system := by
  obtain ⟨b, w', h1, h2⟩ := demo_run (b := demoBlock) (g := 0) (by simp [Ok, demoBlock, noFilter, make]) rfl
    (demoBend.setOrigin ⟨1, 1, 1⟩).value
  refine ⟨{ demoBend.setOrigin ⟨1, 1, 1⟩ with
        toBlock := b,
        coeffs := fun i j => resize (demoBend.coeffs i j) (demoBend.degree i j + 1) }, w', ?_, h2, rfl, one_ortho⟩
  simp only [Bend.execute]
  exact congrArg (Option.map _) h1

/-- a constant displacement of 5 along x is lost -/
example : ∃ t : Bend, t = (Bend.make.setDegree 0 0 0).setCoeffs 0 0 [5] ∧ t.isLocal = false ∧
    (∀ i j, t.degree i j = 0) ∧ bending t ⟨1, 2, 3⟩ = ⟨5, 0, 0⟩ := by
  refine ⟨_, rfl, rfl, ?_, ?_⟩
  · intro i j; simp [Bend.make, Bend.setDegree, Bend.setCoeffs]
  · simp [bending, Bend.make, Bend.setDegree, Bend.setCoeffs, polyAt]

/-- the system with a doubled first axis moves (1, 0, 0) to (4, 0, 0) -/
example : ∃ t : Bend, t = Bend.make.setRefSystem ⟨⟨2, 0, 0⟩, ⟨0, 1, 0⟩, ⟨0, 0, 1⟩⟩ ∧ t.isLocal = true ∧
    (∀ i j, t.degree i j = 0) ∧ (∀ i j, t.coeffs i j = []) ∧
    rowMul (t.system.app (⟨1, 0, 0⟩ - t.origin)) t.system + t.origin = ⟨4, 0, 0⟩ := by
  refine ⟨_, rfl, rfl, fun _ _ => rfl, fun _ _ => rfl, ?_⟩
  ext <;> norm_num [Bend.make, Bend.setRefSystem, rowMul, M3.app, dot, V3.scale]

end
end Verif.Manip
