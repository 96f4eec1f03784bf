import Verif.Utils.Segment
import Verif.Utils.MaxDistProps
/-
C142: the curve projected from a segment.  C143: its settings in XML.
-/
namespace Verif.Utils
open Verif.Shape Verif.Manip Verif.Field Verif.Tree Verif.Mesh
open Verif.Rbf (huge)
open List hiding get get_of_mem

noncomputable section
open scoped Classical

/-! ### Specification -/

/-- the point of the segment at a fraction of its length -/
def along (a b : V3) (t : ℝ) : V3 := ⟨(1 - t) * a.x + t * b.x, (1 - t) * a.y + t * b.y, (1 - t) * a.z + t * b.z⟩

/-- `r` is the chain of `n` lines through the projections of `n + 1` evenly spaced points of the segment, in order -/
structure IsCurve (q : V3 → Option V3 → Prop) (a b : V3) (n : Nat) (r : Obj V3) : Prop where
  type : r.type = 4
  verts : ∀ i, i ≤ n → ∃ p, get r.verts i = some p ∧ q (along a b ((i : ℝ) / n)) (some p)
  noOtherVerts : ∀ i, n < i → get r.verts i = none
  cells : ∀ i, i < n → get r.cells i = some ⟨.line, [i, i + 1], 0, true⟩
  noOtherCells : ∀ i, n ≤ i → get r.cells i = none
  vertsCount : r.verts.length = n + 1
  cellsCount : r.cells.length = n

/-- the interpolated normals of the surface do not vanish -/
def NormalsOk (s : Surf) : Prop :=
  ∀ p id k vs n, s.cell id = some (k, vs) → Weighted (s.lam p vs) (s.vertexNormal id) n → n ≠ ⟨0, 0, 0⟩

/-! ### Helpers -/

theorem allOf_some {α : Type} {R : α → Prop} : ∀ {l : List (Option α)}, (∀ x ∈ l, ∃ y, x = some y ∧ R y) →
    ∃ ys, allOf l = some ys ∧ l = ys.map some
  | [], _ => ⟨[], rfl, rfl⟩
  | x :: l, h => by
    obtain ⟨y, rfl, -⟩ := h x mem_cons_self
    obtain ⟨ys, h1, h2⟩ := allOf_some (l := l) (R := R) (fun z hz => h z (mem_cons_of_mem _ hz))
    exact ⟨y :: ys, by simp [allOf, h1], by simp [h2]⟩

theorem get_curveVerts (qs : List V3) (i : Nat) : get (curveVerts qs) i = qs[i]? := by
  unfold curveVerts
  suffices h : ∀ (k : Nat), get ((qs.zipIdx k).map fun e => (e.2, e.1)) i = if k ≤ i then qs[i - k]? else none by
    simpa using h 0
  induction qs with
  | nil => intro k; simp [Verif.Field.get]
  | cons q qs ih =>
    intro k
    simp only [zipIdx_cons, map_cons, get_cons, ih]
    by_cases h : k = i
    · subst h; simp
    · rw [if_neg h]
      by_cases h2 : k ≤ i
      · rw [if_pos (by omega), if_pos h2, show i - k = (i - (k + 1)) + 1 by omega, List.getElem?_cons_succ]
      · rw [if_neg (by omega), if_neg h2]

theorem curveVerts_keys (qs : List V3) : (curveVerts qs).map Prod.fst = range qs.length := by
  unfold curveVerts
  rw [map_map]
  have : (Prod.fst ∘ fun e : V3 × Nat => (e.2, e.1)) = Prod.snd := rfl
  rw [this, List.zipIdx_map_snd, range_eq_range']

theorem curveCells_keys (n : Nat) : (curveCells n).map Prod.fst = range n := by
  unfold curveCells
  rw [map_map]
  exact map_id' _

theorem get_curveCells (n i : Nat) : get (curveCells n) i = if i < n then some ⟨.line, [i, i + 1], 0, true⟩ else none := by
  split
  · next h =>
    have hm : ((i, ⟨.line, [i, i + 1], 0, true⟩) : Nat × Cell) ∈ curveCells n := mem_map.2 ⟨i, mem_range.2 h, rfl⟩
    exact Verif.Mesh.get_of_mem (d := curveCells n) (by unfold Ok; rw [curveCells_keys]; exact nodup_range) hm
  · next h =>
    apply get_none_of_has
    apply has_false_of
    rw [curveCells_keys]; simpa using h

theorem along_close {a b q : V3} {M t : ℝ} (h0 : 0 ≤ t) (h1 : t ≤ 1) (ha : norm2 (a - q) < M) (hb : norm2 (b - q) < M) :
    norm2 (along a b t - q) < M := by
  have hM : 0 < M := lt_of_le_of_lt (norm2_nonneg _) ha
  have sq : ∀ v : V3, norm2 v < M ↔ dot v v < M ^ 2 := by
    intro v
    unfold norm2
    rw [Real.sqrt_lt' hM]
  rw [sq] at ha hb ⊢
  have e : dot (along a b t - q) (along a b t - q) = (1 - t) * dot (a - q) (a - q) + t * dot (b - q) (b - q) - t * (1 - t) * dot (a - b) (a - b) := by
    simp only [dot, along, sub_x, sub_y, sub_z]; ring
  have hp : 0 ≤ dot (a - b) (a - b) := by
    unfold dot; nlinarith [mul_self_nonneg (a - b).x, mul_self_nonneg (a - b).y, mul_self_nonneg (a - b).z]
  rw [e]
  have : 0 ≤ t * (1 - t) * dot (a - b) (a - b) := mul_nonneg (mul_nonneg h0 (by linarith)) hp
  rcases eq_or_lt_of_le h0 with rfl | h0'
  · simpa using ha
  · nlinarith

theorem points_spec (s : Segment) (h : 0 < s.nC) :
    s.points = some ((range (s.nC.toNat + 1)).map fun i : Nat => along s.a s.b ((i : ℝ) / s.nC.toNat)) := by
  unfold Segment.points
  rw [if_neg (by omega)]
  simp only [Option.some.injEq]
  apply map_congr_left
  intro i _
  ext <;> simp only [along, add_x, add_y, add_z, sub_x, sub_y, sub_z, V3.scale] <;> ring

/-! ### C142 -/

/-- **C142** the result is the chain of the asked number of lines through the projections of evenly spaced points of the segment, from the
first end to the second; the search trees asked for describe it; the surface, the segment and the settings stay.  It needs a positive
number of cells, a point of the surface within reach of both ends and normals that do not vanish. -/
theorem C142_curve (surf : Nat → Surf) (w : World) (s : Segment) {g : Nat} (hg : s.geom = some g) (hgood : GoodSurface (w g))
    {region : Nat → V3 → Prop} (hs : Sound (surf g) region) (ht : 0 < (surf g).tol) (hn : NormalsOk (surf g)) (hc : 0 < s.nC)
    (hr : ∃ id q, region id q ∧ norm2 (s.a - q) < huge ∧ norm2 (s.b - q) < huge) (f : Nat) :
    ∃ r, s.execute surf (f + 1) w = some { s with result := some r } ∧
      IsCurve (ProjectedTo (surf g) region) s.a s.b s.nC.toNat r ∧ TreesAsked s.skd s.kd r := by
  have hN : 0 < s.nC.toNat := by omega
  have hps := points_spec s hc
  set N := s.nC.toNat with hNdef
  set ps := (range (N + 1)).map fun i : Nat => along s.a s.b ((i : ℝ) / N) with hpsdef
  obtain ⟨x, hx⟩ := good_skd hgood
  obtain ⟨qs, ids, hq, hall⟩ := C136_projected_partial hs ht (ps := ps) (rs := ps.map fun _ => huge) (by simp) (by
    intro e he
    obtain ⟨id, q, h1, h2, h3⟩ := hr
    have hz := of_mem_zip he
    obtain ⟨i, hi, hie⟩ := mem_map.1 hz.1
    obtain ⟨p0, -, hhe⟩ := mem_map.1 hz.2
    refine ⟨id, q, h1, ?_⟩
    rw [← hie, ← hhe]
    have hc := along_close (a := s.a) (b := s.b) (t := (i : ℝ) / N) (by positivity)
      (by rw [div_le_one (by exact_mod_cast hN)]; exact_mod_cast Nat.lt_succ_iff.1 (mem_range.1 hi)) h2 h3
    exact lt_min (lt_of_lt_of_le hc (le_max_left _ _)) hc) f
  have hsome : ∀ p q, ProjectedTo (surf g) region p q → ∃ y, q = some y ∧ True := by
    rintro p q ⟨id, x, k, vs, n, -, hk, hw, h1, h2⟩
    rcases le_or_gt (surf g).tol (norm2 (p - x)) with h | h
    · exact ⟨x, h1 h, trivial⟩
    · obtain ⟨y, hy, -⟩ := h2 h (hn p id k vs n hk hw)
      exact ⟨y, hy, trivial⟩
  have hlen : qs.length = N + 1 := by
    rw [← hall.length_eq, hpsdef]; simp
  obtain ⟨ys, hy1, hy2⟩ := allOf_some (R := fun _ => True) (l := qs) (by
    intro q hq
    obtain ⟨i, hi, rfl⟩ := mem_iff_getElem.1 hq
    exact hsome _ _ (hall.get (i := i) (by rw [hpsdef]; simpa [hlen] using hi) hi))
  have hylen : ys.length = N + 1 := by rw [← hlen, hy2, length_map]
  obtain ⟨o, r, h1, h2, h3, h4, h5, h6, h7, h8, h9⟩ := filled (P := V3) (t := 4) (by decide) (by decide) (vs := curveVerts ys) (cs := curveCells N)
    (by unfold Ok; rw [curveVerts_keys]; exact nodup_range) (by unfold Ok; rw [curveCells_keys]; exact nodup_range)
    (by
      intro e he
      obtain ⟨i, -, rfl⟩ := mem_map.1 he
      exact ⟨by simp, by simp [checkConn], (by decide : toInt32 0 = 0), rfl⟩)
    (by
      intro e he v hv
      obtain ⟨i, hi, rfl⟩ := mem_map.1 he
      rw [curveVerts_keys, hylen, mem_range]
      have := mem_range.1 hi
      simp only [vertexIds, mem_cons, not_mem_nil, or_false] at hv
      omega)
  obtain ⟨r', t1, t2, t3⟩ := build_trees s.skd s.kd (o := r) ⟨h7, h8, h9, by
    unfold Ok; rw [h4, curveVerts_keys]; exact nodup_range⟩
  refine ⟨r', ?_, ⟨?_, ?_, ?_, ?_, ?_, ?_, ?_⟩, t3⟩
  · unfold Segment.execute Segment.projection
    rw [hg]
    simp only [hps, hx, hq, hy1, h1, Option.bind_eq_bind, Option.bind_some]
    rw [← hNdef, h2, Option.bind_some, t1]
    rfl
  · rw [t2.type, h3]; rfl
  · intro i hi
    have hiy : i < ys.length := by omega
    refine ⟨ys[i], ?_, ?_⟩
    · rw [t2.verts, h4, get_curveVerts, getElem?_eq_getElem hiy]
    · have := hall.get (i := i) (by rw [hpsdef]; simpa using Nat.lt_succ_iff.2 hi) (by omega)
      simp only [hy2, hpsdef, get_eq_getElem, getElem_map, getElem_range] at this
      exact this
  · intro i hi
    rw [t2.verts, h4, get_curveVerts]
    exact List.getElem?_eq_none (by omega)
  · intro i hi
    rw [t2.cells, h5, get_curveCells, if_pos hi]
  · intro i hi
    rw [t2.cells, h5, get_curveCells, if_neg (by omega)]
  · rw [t2.verts, h4]
    have := congrArg length (curveVerts_keys ys)
    simpa [hylen] using this
  · rw [t2.cells, h5]
    have := congrArg length (curveCells_keys N)
    simpa using this

/-- **C142** segments: two distinct ends are taken, ends closer than 1e-18 leave the segment as it was; the second form gives the ends `origin` and
`origin + length * direction` -/
theorem C142_segment (s : Segment) (p q : V3) (l : ℝ) :
    (1 / 10 ^ 18 ≤ norm2 (q - p) → (s.setSegment p q).a = p ∧ (s.setSegment p q).b = q) ∧
    (p = q → s.setSegment p q = s) ∧
    (s.setSegment p q).nC = s.nC ∧ (s.setSegment p q).geom = s.geom ∧ (s.setSegment p q).skd = s.skd ∧ (s.setSegment p q).kd = s.kd ∧
    (norm2 q = 1 → 1 / 10 ^ 18 ≤ l → (s.setDirection p q l).a = p ∧ norm2 ((s.setDirection p q l).b - p) = l ∧
      (s.setDirection p q l).b - p = V3.scale l q) := by
  unfold Segment.setDirection Segment.setSegment
  refine ⟨?_, ?_, ?_, ?_, ?_, ?_, ?_⟩
  · intro h; rw [if_neg (not_lt.2 h)]; exact ⟨rfl, rfl⟩
  · rintro rfl
    rw [if_pos]
    have : norm2 (p - p) = 0 := by rw [norm2_eq_zero]; ext <;> simp
    rw [this]; positivity
  all_goals try (split <;> rfl)
  intro h1 h2
  have e : p + V3.scale l q - p = V3.scale l q := by ext <;> simp
  have hl : norm2 (V3.scale l q) = l := by
    rw [norm2_scale, h1, mul_one, abs_of_nonneg (le_trans (by positivity) h2)]
  rw [e, hl, if_neg (not_lt.2 h2)]
  exact ⟨rfl, by simp only [e, hl], e⟩

/-- **C142** a target that is not a surface and a null one are ignored; copies keep the settings and no result; `clear` restores the defaults -/
theorem C142_settings (w : World) (s : Segment) (h : Nat) :
    ((w h).type = 1 → (s.setGeometry w (some h)).geom = some h) ∧ ((w h).type ≠ 1 → s.setGeometry w (some h) = s) ∧ s.setGeometry w none = s ∧
    s.copy.result = none ∧ s.copy.a = s.a ∧ s.copy.b = s.b ∧ s.copy.nC = s.nC ∧ s.copy.skd = s.skd ∧ s.copy.kd = s.kd ∧ s.copy.geom = s.geom ∧
    s.clear.a = Segment.new.a ∧ s.clear.b = Segment.new.b ∧ s.clear.nC = Segment.new.nC ∧ s.clear.result = none ∧ s.clear.geom = none := by
  refine ⟨?_, ?_, rfl, rfl, rfl, rfl, rfl, rfl, rfl, rfl, rfl, rfl, rfl, rfl, rfl⟩
  · intro h1; simp [Segment.setGeometry, h1]
  · intro h1; simp [Segment.setGeometry, h1]

/-- **C142** without a surface execution fails -/
theorem C142_missing (surf : Nat → Surf) (w : World) (s : Segment) (h : s.geom = none) (f : Nat) : s.execute surf f w = none := by
  unfold Segment.execute; rw [h]

/-- the full statement is false: no cells at all and negative numbers of cells are accepted, and execution gives no mesh -/
theorem C142_cells_fails (surf : Nat → Surf) (w : World) (s : Segment) (n : Int) (hn : n ≤ 0) (f : Nat) :
    (s.setCells n).nC = n ∧ (s.setCells n).execute surf f w = none := by
  refine ⟨rfl, ?_⟩
  unfold Segment.execute
  split
  · rfl
  · simp [Segment.projection, Segment.points, Segment.setCells, hn]

/-- the segment from (0,0,1) to (1,0,1) over the triangle: hypotheses of `C142_curve` are met -/
example : ∃ (surf : Nat → Surf) (s : Segment), ∃ r, s.execute surf 1 triWorld = some { s with result := some r } ∧ r.verts.length = 5 ∧
    r.cells.length = 4 ∧ r.kd.st = .sync := by
  obtain ⟨su, hs, -, ht, hc, -, hv, hl⟩ := demo_surf'
  let s : Segment := ((Segment.new.setGeometry triWorld (some 0)).setCells 4).setKd true
  have hh := ten_le_huge
  have hs2 : ∀ v : V3, dot v v ≤ 9 → norm2 v < huge := by
    intro v hv
    have : norm2 v ≤ 3 := by
      unfold norm2
      rw [show (3 : ℝ) = Real.sqrt 9 by rw [show (9 : ℝ) = 3 ^ 2 by norm_num, Real.sqrt_sq (by norm_num)]]
      exact Real.sqrt_le_sqrt hv
    linarith
  obtain ⟨r, h1, h2, h3⟩ := C142_curve (fun _ => su) triWorld s (g := 0) rfl
    ⟨⟨by simp [triWorld, demoObj], by simp [triWorld, demoObj]⟩, by simp [complete, triWorld, demoObj, vertexIds]; decide⟩ hs (by rw [ht]; norm_num)
    (by
      intro p id k vs n hk hw hn
      obtain ⟨a, b, hab⟩ := hl p vs
      rw [hab] at hw
      have e := hw.unique (weigh_weighted (su.vertexNormal id) [1 - a - b, a, b])
      rw [hn] at e
      simp only [weigh, hv] at e
      have := congrArg V3.z e
      simp [V3.scale] at this
      linarith)
    (by decide)
    ⟨0, ⟨0, 0, 0⟩, ⟨rfl, 0, 0, by norm_num, by norm_num, by norm_num, by ext <;> simp [inPlane, V3.scale]⟩,
      hs2 _ (by simp [s, Segment.new, Segment.setGeometry, triWorld, demoObj, Segment.setCells, Segment.setKd, dot]),
      hs2 _ (by simp [s, Segment.new, Segment.setGeometry, triWorld, demoObj, Segment.setCells, Segment.setKd, dot]; norm_num)⟩ 0
  refine ⟨fun _ => su, s, r, h1, h2.vertsCount, h2.cellsCount, (h3.points rfl ?_).1⟩
  intro h0
  have := h2.vertsCount
  rw [h0] at this
  cases this

/-- `clear` does not restore the trees asked for -/
theorem C142_clear_fails (s : Segment) : (s.setKd true).clear.kd ≠ Segment.new.kd := by
  simp [Segment.setKd, Segment.clear, Segment.new]

end
end Verif.Utils
