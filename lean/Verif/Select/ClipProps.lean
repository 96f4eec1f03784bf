import Verif.Select.Clip
import Verif.Select.SubProps
import Verif.Shape.FrameProps
import Mathlib.Tactic.FieldSimp
import Mathlib.Tactic.NormNum
/-
C112, C113: which cells a clipped patch has, and how the plane is set, changed and saved.
-/
namespace Verif.Select
open List hiding get
open Verif.Field Verif.Mesh Verif.Shape

/-! ### Specification -/

/-- the value of a x + b y + c z + d -/
def Plane.value (pl : Plane) (p : V3) : ℝ := pl.n.x * p.x + pl.n.y * p.y + pl.n.z * p.z + pl.d

/-- the side of the plane through `q` with normal `n` -/
def side (q n p : V3) : ℝ := (p.x - q.x) * n.x + (p.y - q.y) * n.y + (p.z - q.z) * n.z

/-! ### C112 -/

/-- C112, partial: with coefficients whose normal has length one, a point is kept exactly if a x + b y + c z + d is
positive, or negative for the opposite side.  Full statement: for all coefficients; `C112_scale_fails`. -/
theorem C112_coefficients_partial (s : Clip) (pl : Plane) (h : norm2 pl.n = 1) (p : V3) :
    ((s.setInsideOut false).setCoefficients pl).keeps p = (0 < pl.value p) ∧
    ((s.setInsideOut true).setCoefficients pl).keeps p = (pl.value p < 0) := by
  have h1 : ¬ ((1 : ℝ) < 1 / 10 ^ 18) := by norm_num
  constructor <;> apply propext <;>
    simp only [Clip.setInsideOut, Clip.setCoefficients, Clip.keeps, h, h1, not_false_eq_true, true_and, div_one, dot,
      Plane.value, if_true, Bool.false_eq_true, if_false] <;>
    constructor <;> intro hh <;> linarith

/-- C112: a plane set by a point and a normal of any length but zero keeps exactly the points strictly on the side the
normal points to, or strictly on the other. -/
theorem C112_origin (s : Clip) (q n : V3) (h : n ≠ ⟨0, 0, 0⟩) (p : V3) :
    ((s.setInsideOut false).setPlane q n).keeps p = (0 < side q n p) ∧
    ((s.setInsideOut true).setPlane q n).keeps p = (side q n p < 0) := by
  have h0 : norm2 n ≠ 0 := fun hh => h (norm2_eq_zero.1 hh)
  have hpos : 0 < norm2 n := lt_of_le_of_ne (norm2_nonneg n) (Ne.symm h0)
  have hu : norm2 ⟨n.x / norm2 n, n.y / norm2 n, n.z / norm2 n⟩ = 1 := by
    apply norm2_of_unit
    have h2 := norm2_sq n
    unfold dot at *
    field_simp
    nlinarith
  have h1 : ¬ ((1 : ℝ) < 1 / 10 ^ 18) := by norm_num
  have e : dot ⟨n.x / norm2 n, n.y / norm2 n, n.z / norm2 n⟩ p + -1 * dot q ⟨n.x / norm2 n, n.y / norm2 n, n.z / norm2 n⟩ =
      side q n p / norm2 n := by
    unfold dot side
    field_simp
    ring
  constructor <;> apply propext <;>
    simp only [Clip.setInsideOut, Clip.setPlane, planeOf, h0, Clip.keeps, hu, h1, not_false_eq_true, true_and, div_one,
      if_true, Bool.false_eq_true, if_false, e, one_mul, gt_iff_lt]
  · constructor
    · intro hh
      by_contra hc
      exact absurd (div_nonpos_of_nonpos_of_nonneg (not_lt.1 hc) hpos.le) (not_le.2 hh)
    · intro hh; exact div_pos hh hpos
  · constructor
    · intro hh
      by_contra hc
      have := div_nonneg (not_lt.1 hc) hpos.le
      linarith
    · intro hh
      have := div_neg_of_neg_of_pos hh hpos
      linarith

example : (⟨0, 3, 4⟩ : V3) ≠ ⟨0, 0, 0⟩ ∧ 0 < side ⟨1, 1, 1⟩ ⟨0, 3, 4⟩ ⟨0, 1, 2⟩ := by
  constructor
  · intro h; have := congrArg V3.y h; norm_num at this
  · norm_num [side]

example : norm2 (⟨⟨0, 0, 1⟩, -2⟩ : Plane).n = 1 := by simp [norm2, dot]

/-- C112: coefficients that are not scaled to a normal of length one give another plane: with 2 z - 2 = 0 a point at
height 3/2, where the expression is positive, is dropped. -/
theorem C112_scale_fails : ∃ (s : Clip) (pl : Plane) (p : V3), pl.n ≠ ⟨0, 0, 0⟩ ∧ 0 < pl.value p ∧
    ¬ ((s.setInsideOut false).setCoefficients pl).keeps p := by
  refine ⟨{}, ⟨⟨0, 0, 2⟩, -2⟩, ⟨0, 0, 3 / 2⟩, ?_, by norm_num [Plane.value], ?_⟩
  · intro h; have := congrArg V3.z h; norm_num at this
  · have h2 : norm2 ⟨0, 0, 2⟩ = 2 := by
      have : dot ⟨0, 0, 2⟩ ⟨0, 0, 2⟩ = 2 * 2 := by norm_num [dot]
      unfold norm2
      rw [this, Real.sqrt_mul_self (by norm_num)]
    simp only [Clip.setInsideOut, Clip.setCoefficients, Clip.keeps, h2, dot]
    norm_num

/-- C112: for any block, no point is kept both by it and by the block with the opposite side. -/
theorem C112_sides (s : Clip) (p : V3) : ¬ ((s.setInsideOut false).keeps p ∧ (s.setInsideOut true).keeps p) := by
  rintro ⟨h1, h2⟩
  unfold Clip.keeps Clip.setInsideOut at h1 h2
  cases hp : s.plane with
  | none => rw [hp] at h1; exact h1
  | some pl =>
    rw [hp] at h1 h2
    simp only [Bool.false_eq_true, if_false, if_true] at h1 h2
    have a := h1.2
    have b := h2.2
    linarith

/-- the plane in force in a run -/
noncomputable def Clip.ready (s : Clip) : Clip := if s.implicit then s else s.setPlane s.origin s.normal

theorem clipSub_eq {P : Type} (o : Obj P) (h : o.type ≠ 3) (ex : List Nat) :
    clipSub o ex = buildSub { o with tol := 1 } o.type ex := by
  unfold clipSub buildSub
  have hv : vertexFromCells { o with tol := 1 } ex = vertexFromCells o ex := rfl
  have ha : ∀ (l : List Nat) (t : Obj P), addVerts { o with tol := 1 } l t = addVerts o l t := by
    intro l
    induction l with
    | nil => intro t; rfl
    | cons i l ih =>
      intro t
      simp only [addVerts]
      congr 1
      funext p
      exact ih _
  have hb : ∀ (l : List Nat) (t : Obj P), addCells { o with tol := 1 } l t = addCells o l t := by
    intro l
    induction l with
    | nil => intro t; rfl
    | cons i l ih =>
      intro t
      simp only [addCells]
      congr 1
      funext p
      exact ih _
  have hc : copyNames { o with tol := 1 } = copyNames o := rfl
  have hd : addCells { o with tol := 1 } ex = addCells o ex := funext (hb ex)
  by_cases ht : max (o.type : Int) 1 > 4
  · have : (ctor (o.type : Int) : Option (Obj P)) = none := by
      simp only [ctor]; rw [if_pos (by omega)]
    simp only [this, Option.bind_none]
  · have : ∃ t : Obj P, ctor (o.type : Int) = some t ∧ t.tol = 1 := by
      simp only [ctor]; rw [if_neg (by omega)]; exact ⟨_, rfl, rfl⟩
    obtain ⟨t, e, h1⟩ := this
    have h2 : ({ t with tol := 1 } : Obj P) = t := by cases t; simp at h1; subst h1; rfl
    simp only [e, Option.bind_some, hc, hd, ha, if_pos h, h2, hv]

/-- C112: the clipped patch of a mesh is the part of it made of the cells whose centroid the plane keeps, with ids,
connectivity, PIDs and names, up to merging of vertices at the same place; it has the default tolerance. -/
theorem C112_patch {close : V3 → V3 → Prop} {clean : Obj V3 → Data V3 × Data Cell}
    (hclean : ∀ t, ∃ m, Cleaned close t.verts t.cells (clean t).1 (clean t).2 m)
    {o : Obj V3} (ho : Good o) (ht : o.type = 1 ∨ o.type = 2 ∨ o.type = 4) (s : Clip) (cen : Nat → V3) :
    ∃ r m, (s.execute clean o cen).2 = some r ∧
      SubMeshUpTo close { o with tol := 1 } r (fun i => has o.cells i = true ∧ s.ready.keeps (cen i)) m := by
  have hsel : ∀ i, i ∈ s.ready.clipPlane o cen ↔ has o.cells i = true ∧ s.ready.keeps (cen i) := by
    intro i
    unfold Clip.clipPlane
    rw [if_neg (by omega)]
    simp [has_iff, cellIds]
  have ho' : Good { o with tol := 1 } := ⟨ho.verts, ho.cells, ho.complete, ho.pid, ho.interior⟩
  obtain ⟨r, m, h1, h2⟩ := C101_merged hclean ho' ht (s.ready.clipPlane o cen) (fun i hi => ((hsel i).1 hi).1)
  refine ⟨r, m, ?_, ?_⟩
  · show (clipSub o (s.ready.clipPlane o cen)).bind _ = _
    rw [clipSub_eq o (by omega)]
    exact h1
  · have : (fun i => has o.cells i = true ∧ s.ready.keeps (cen i)) = fun i => i ∈ s.ready.clipPlane o cen := by
      funext i
      exact propext (hsel i).symm
    rw [this]
    exact h2

/-- two triangles -/
noncomputable def sheet : Obj V3 :=
  { type := 1, verts := [(0, ⟨0, 0, 0⟩), (1, ⟨1, 0, 0⟩), (2, ⟨0, 1, 0⟩), (3, ⟨1, 1, 4⟩)]
    cells := [(5, ⟨.triangle, [0, 1, 2], 1, true⟩), (6, ⟨.triangle, [1, 2, 3], 2, true⟩)]
    pids := [1, 2], names := [(1, "a"), (2, "b")], tree := true
    kd := ⟨.none, none⟩, skd := ⟨.none, none⟩, adj := ⟨.none, none⟩, int := ⟨.none, none⟩
    info := ⟨.sync, some [5, 6]⟩, bbox := ⟨.none, none⟩, pc := ⟨.none, none⟩, tol := 3 }

theorem sheet_good : Good sheet := by
  have h : ∀ (Q : Nat → Cell → Prop), (∀ c ∈ sheet.cells, Q c.1 c.2) → ∀ id c, get sheet.cells id = some c → Q id c :=
    fun Q hQ id c hc => hQ (id, c) (get_some_mem hc)
  refine ⟨by simp [Ok, sheet], by simp [Ok, sheet], h _ ?_, h _ ?_, h _ ?_⟩
  · simp [sheet, vertexIds, has]
  · simp [sheet, InRange]
  · simp [sheet]

example : Good sheet ∧ sheet.type = 1 ∧
    ((({} : Clip).setInsideOut false).setPlane ⟨0, 0, 1⟩ ⟨0, 0, 5⟩).ready.keeps ⟨2 / 3, 2 / 3, 4 / 3⟩ ∧
    ¬ ((({} : Clip).setInsideOut false).setPlane ⟨0, 0, 1⟩ ⟨0, 0, 5⟩).ready.keeps ⟨1 / 3, 1 / 3, 0⟩ := by
  have hn : (⟨0, 0, 5⟩ : V3) ≠ ⟨0, 0, 0⟩ := by intro h; have := congrArg V3.z h; norm_num at this
  refine ⟨sheet_good, rfl, ?_, ?_⟩ <;> rw [show ∀ s : Clip, (s.setPlane ⟨0, 0, 1⟩ ⟨0, 0, 5⟩).ready = s.setPlane ⟨0, 0, 1⟩ ⟨0, 0, 5⟩ from fun s => rfl]
  · rw [(C112_origin {} _ _ hn _).1]; norm_num [side]
  · rw [(C112_origin {} _ _ hn _).1]; norm_num [side]

/-- C112: on a point cloud the ids of the kept points are taken for ids of cells: the patch has no points at all, or the
run is undefined where there is no cell of that id. -/
theorem C112_cloud_fails {clean : Obj V3 → Data V3 × Data Cell} {o : Obj V3} (ht : o.type = 3) (s : Clip) (cen : Nat → V3)
    (v : Nat) (p : V3) (hv : (v, p) ∈ o.verts) (hk : s.ready.keeps p) (hc : has o.cells v = false) :
    (s.execute clean o cen).2 = none := by
  have hmem : v ∈ s.ready.clipPlane o cen := by
    unfold Clip.clipPlane
    rw [if_pos ht]
    exact mem_map.2 ⟨(v, p), by simp [hv, hk], rfl⟩
  have hadd : ∀ (l : List Nat) (t : Obj V3), v ∈ l → addCells o l t = none := by
    intro l
    induction l with
    | nil => intro t h; simp at h
    | cons i l ih =>
      intro t h
      simp only [addCells]
      rcases mem_cons.1 h with rfl | h
      · rw [get_none_of_has hc]; rfl
      · cases get o.cells i with
        | none => rfl
        | some c => exact ih _ h
  show (clipSub o (s.ready.clipPlane o cen)).bind _ = _
  have : clipSub o (s.ready.clipPlane o cen) = none := by
    unfold clipSub
    cases (ctor (o.type : Int) : Option (Obj V3)) with
    | none => rfl
    | some t =>
      simp only [Option.bind_some]
      cases addVerts o (vertexFromCells o (s.ready.clipPlane o cen)) t with
      | none => rfl
      | some t => simp only [Option.bind_some, hadd _ _ hmem, Option.map_none]
  rw [this]
  rfl

/-- a cloud with one point and a cell numbered otherwise -/
example : ∃ o : Obj V3, o.type = 3 ∧ (4, (⟨0, 0, 2⟩ : V3)) ∈ o.verts ∧ has o.cells 4 = false ∧
    ((({} : Clip).setInsideOut false).setPlane ⟨0, 0, 1⟩ ⟨0, 0, 5⟩).ready.keeps ⟨0, 0, 2⟩ := by
  have hn : (⟨0, 0, 5⟩ : V3) ≠ ⟨0, 0, 0⟩ := by intro h; have := congrArg V3.z h; norm_num at this
  refine ⟨{ sheet with type := 3, verts := [(4, ⟨0, 0, 2⟩)], cells := [(0, ⟨.vertex, [4], 0, true⟩)] }, rfl, by simp,
    by simp [has], ?_⟩
  rw [show ∀ s : Clip, (s.setPlane ⟨0, 0, 1⟩ ⟨0, 0, 5⟩).ready = s.setPlane ⟨0, 0, 1⟩ ⟨0, 0, 5⟩ from fun s => rfl,
    (C112_origin {} _ _ hn _).1]
  norm_num [side]

/-! ### C113 -/

/-- C113, partial: the first run of a block on which no plane was set uses the point and normal set last.  Full statement:
every run; `C113_second_run_fails`. -/
theorem C113_first_run_partial (s : Clip) (q n : V3) (h : s.implicit = false) :
    ((s.setOrigin q).setNormal n).ready = ((s.setOrigin q).setNormal n).setPlane q n := by
  unfold Clip.ready
  rw [if_neg (by simp [Clip.setOrigin, Clip.setNormal, h])]
  rfl

example : ({} : Clip).implicit = false := rfl

/-- C113: after a run, new points and normals are ignored; the side can be changed. -/
theorem C113_second_run_fails (s : Clip) (clean : Obj V3 → Data V3 × Data Cell) (o : Obj V3) (cen : Nat → V3) (q n : V3)
    (p : V3) : ((((s.execute clean o cen).1).setOrigin q).setNormal n).ready.keeps p ↔ s.ready.keeps p := by
  have h1 : (s.execute clean o cen).1 = s.ready := rfl
  have h2 : s.ready.implicit = true := by
    unfold Clip.ready
    by_cases h : s.implicit = true
    · rw [if_pos h]; exact h
    · rw [if_neg h]; rfl
  rw [h1]
  unfold Clip.ready
  rw [if_pos]
  · rfl
  · show s.ready.implicit = true
    exact h2

/-- C113: coefficients given to a block that has them win over any point and normal, given before or after. -/
theorem C113_coefficients_win (s : Clip) (pl : Plane) (q n : V3) :
    (((s.setCoefficients pl).setOrigin q).setNormal n).ready.plane = some pl ∧
    (((s.setOrigin q).setNormal n).setCoefficients pl).ready.plane = some pl := ⟨rfl, rfl⟩

example : ((({} : Clip).setCoefficients ⟨⟨0, 0, 1⟩, 7⟩).setOrigin ⟨1, 2, 3⟩).ready.plane = some ⟨⟨0, 0, 1⟩, 7⟩ := rfl

/-- C113: a block on which nothing was set, or whose normal is zero, keeps nothing. -/
theorem C113_no_plane (s : Clip) (q : V3) (p : V3) : ¬ ((s.setPlane q ⟨0, 0, 0⟩).keeps p) ∧ ¬ ({} : Clip).ready.keeps p := by
  have h : norm2 ⟨0, 0, 0⟩ = 0 := norm2_eq_zero.2 rfl
  constructor <;> simp [Clip.ready, Clip.keeps, Clip.setPlane, planeOf, h]

theorem largest_spec (n : V3) (h : n ≠ ⟨0, 0, 0⟩) : ∃ i, largest n = some i ∧ i < 3 ∧ n.at i ≠ 0 := by
  unfold largest
  simp only [foldl_cons, foldl_nil]
  by_cases h0 : |n.at 0| > 0
  · have e0 : n.at 0 ≠ 0 := abs_pos.1 h0
    simp only [if_pos h0]
    by_cases h1 : |n.at 1| > |n.at 0|
    · have e1 : n.at 1 ≠ 0 := abs_pos.1 (lt_trans h0 h1)
      simp only [if_pos h1]
      by_cases h2 : |n.at 2| > |n.at 1|
      · simp only [if_pos h2]; exact ⟨2, rfl, by omega, abs_pos.1 (lt_trans (lt_trans h0 h1) h2)⟩
      · simp only [if_neg h2]; exact ⟨1, rfl, by omega, e1⟩
    · simp only [if_neg h1]
      by_cases h2 : |n.at 2| > |n.at 0|
      · simp only [if_pos h2]; exact ⟨2, rfl, by omega, abs_pos.1 (lt_trans h0 h2)⟩
      · simp only [if_neg h2]; exact ⟨0, rfl, by omega, e0⟩
  · have e0 : n.at 0 = 0 := by simpa using h0
    simp only [if_neg h0]
    by_cases h1 : |n.at 1| > 0
    · have e1 : n.at 1 ≠ 0 := abs_pos.1 h1
      simp only [if_pos h1]
      by_cases h2 : |n.at 2| > |n.at 1|
      · simp only [if_pos h2]; exact ⟨2, rfl, by omega, abs_pos.1 (lt_trans h1 h2)⟩
      · simp only [if_neg h2]; exact ⟨1, rfl, by omega, e1⟩
    · have e1 : n.at 1 = 0 := by simpa using h1
      simp only [if_neg h1]
      have h2 : |n.at 2| > 0 := by
        rw [gt_iff_lt, abs_pos]
        intro e2
        apply h
        ext
        · exact e0
        · exact e1
        · exact e2
      simp only [if_pos h2]
      exact ⟨2, rfl, by omega, abs_pos.1 h2⟩

/-- the point that is written lies on the plane -/
theorem flush_point {s : Clip} {pl : Plane} (hp : s.plane = some pl) (hn : pl.n ≠ ⟨0, 0, 0⟩) :
    ∃ x, s.flush = some x ∧ x.normal = pl.n ∧ x.insideOut = s.insideOut ∧ dot x.point pl.n = -pl.d := by
  obtain ⟨i, h1, h2, h3⟩ := largest_spec pl.n hn
  unfold Clip.flush
  rw [hp, Option.map_some]
  refine ⟨_, rfl, rfl, rfl, ?_⟩
  rw [h1]
  rcases (by omega : i = 0 ∨ i = 1 ∨ i = 2) with rfl | rfl | rfl <;> simp only [dot] <;> simp only [V3.at] at h3 <;>
    field_simp <;> ring

/-- C113, partial: a block whose plane has a normal of length one is the same after saving and loading (text excepted).
Full statement: every block; `C113_xml_fails`, `C113_xml_unset_fails`. -/
theorem C113_xml_partial (s : Clip) (pl : Plane) (hp : s.plane = some pl) (h : norm2 pl.n = 1) :
    ∃ x, s.flush = some x ∧ (({} : Clip).absorb x).plane = s.plane ∧ (({} : Clip).absorb x).insideOut = s.insideOut ∧
      (({} : Clip).absorb x).implicit = true := by
  have hn : pl.n ≠ ⟨0, 0, 0⟩ := by
    intro hh
    rw [norm2_eq_zero.2 hh] at h
    norm_num at h
  obtain ⟨x, h1, h2, h3, h4⟩ := flush_point hp hn
  refine ⟨x, h1, ?_, h3, rfl⟩
  rw [hp]
  simp only [Clip.absorb, Clip.setPlane, planeOf, h2, h, one_ne_zero, if_false, div_one]
  congr 1
  ext
  · rfl
  · rfl
  · rfl
  · show -1 * dot x.point pl.n = pl.d
    rw [h4]; ring

example : ∃ pl, (({} : Clip).setCoefficients ⟨⟨0, 1, 0⟩, 3⟩).plane = some pl ∧ norm2 pl.n = 1 :=
  ⟨_, rfl, by simp [norm2, dot]⟩

/-- C113: with any other normal the loaded block clips by the plane of the coefficients, which the saved one does not:
2 z - 2 = 0 keeps a point at height 3/2 only after loading. -/
theorem C113_xml_fails : ∃ (s : Clip) (x : ClipXml) (p : V3), s.flush = some x ∧
    ¬ s.ready.keeps p ∧ (({} : Clip).absorb x).ready.keeps p := by
  have hn : (⟨0, 0, 2⟩ : V3) ≠ ⟨0, 0, 0⟩ := by intro h; have := congrArg V3.z h; norm_num at this
  obtain ⟨x, h1, h2, h3, h4⟩ := flush_point (s := (({} : Clip).setInsideOut false).setCoefficients ⟨⟨0, 0, 2⟩, -2⟩)
    (pl := ⟨⟨0, 0, 2⟩, -2⟩) rfl hn
  refine ⟨_, x, ⟨0, 0, 3 / 2⟩, h1, ?_, ?_⟩
  · have e2 : norm2 ⟨0, 0, 2⟩ = 2 := by
      have : dot ⟨0, 0, 2⟩ ⟨0, 0, 2⟩ = 2 * 2 := by norm_num [dot]
      unfold norm2
      rw [this, Real.sqrt_mul_self (by norm_num)]
    simp only [Clip.ready, Clip.setInsideOut, Clip.setCoefficients, if_true, Clip.keeps, e2, dot]
    norm_num
  · have e : (({} : Clip).absorb x).ready = (({} : Clip).setInsideOut false).setPlane x.point ⟨0, 0, 2⟩ := by
      unfold Clip.absorb
      rw [h2, h3]
      rfl
    rw [e, (C112_origin {} _ _ hn _).1]
    unfold dot at h4
    unfold side
    simp only at h4 ⊢
    linarith

/-- C113: a block set by point and normal that was never run is saved without them: the loaded block keeps nothing. -/
theorem C113_xml_unset_fails (q n : V3) : ∃ x, (((({} : Clip).setOrigin q).setNormal n)).flush = some x ∧
    ∀ p, ¬ (({} : Clip).absorb x).ready.keeps p := by
  refine ⟨_, rfl, ?_⟩
  intro p
  have h : norm2 ⟨0, 0, 0⟩ = 0 := norm2_eq_zero.2 rfl
  simp [Clip.absorb, Clip.setPlane, planeOf, h, Clip.ready, Clip.keeps, Clip.setNormal, Clip.setOrigin]

end Verif.Select
