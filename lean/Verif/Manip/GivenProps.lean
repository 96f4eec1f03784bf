import Verif.Manip.CopyProps
/-
C79–C83, C85 in terms of the parameters given to the setters.
-/
namespace Verif.Manip
open Verif.Field Verif.Mesh Verif.Shape
open List hiding get

noncomputable section
open scoped Classical

/-- C80 (part): with the length and the direction given by the setters every vertex moves by the length along the direction.
Missing: directions given by the constructor or the port (C80_port_fails). -/
theorem C80_given_partial {w w' : World} (hw : WorldOk w) {t t' : Translation} {a : ℝ} {d : V3} (hd : d ≠ ⟨0, 0, 0⟩)
    (hf : Ok t.filter.data) {g : Nat} (hg : t.geom = some g) (hn : ¬ Usable w g t.filter)
    (he : ((t.setTranslation a).setDirection d).execute w = some t') (ha : t'.apply w = some w')
    {id : Nat} {p p' : V3} (hp : get (w g).verts id = some p) (hp' : get (w' g).verts id = some p') :
    ∃ u, DirectionOf d u ∧ p' - p = V3.scale a u :=
  (C80_length_partial (t := t.setTranslation a) hw hd hf hg hn he ha hp hp').2

example : ∃ t' w', ((demoTranslation.setTranslation 7).setDirection ⟨0, 3, 4⟩).execute demoWorld = some t' ∧ t'.apply demoWorld = some w' := by
  obtain ⟨b, w', h1, h2⟩ := demo_run (b := demoBlock) (g := 0) (by simp [Ok, demoBlock, noFilter, make]) rfl
    ((demoTranslation.setTranslation 7).setDirection ⟨0, 3, 4⟩).value
  refine ⟨{ (demoTranslation.setTranslation 7).setDirection ⟨0, 3, 4⟩ with toBlock := b }, w', ?_, h2⟩
  simp only [Translation.execute]
  exact congrArg (Option.map _) h1

/-- C79 (part): with origin, direction and angle given by the setters every vertex is turned by the angle about that axis.
Missing: directions given by setAxis, the constructor or the port (C79_axis_fails). -/
theorem C79_given_partial {w w' : World} (hw : WorldOk w) {t t' : Rotation} {o d : V3} {a : ℝ} (hd : d ≠ ⟨0, 0, 0⟩)
    (hf : Ok t.filter.data) {g : Nat} (hg : t.geom = some g) (hn : ¬ Usable w g t.filter)
    (he : (((t.setOrigin o).setDirection d).setRotation a).execute w = some t') (ha : t'.apply w = some w') :
    ∃ u, DirectionOf d u ∧ ∀ id p, get (w g).verts id = some p →
      ∃ p', get (w' g).verts id = some p' ∧ Turned o u a p p' :=
  ⟨d.unit, direction_unit hd,
    (C79_turn_partial (t := ((t.setOrigin o).setDirection d).setRotation a) hw hf hg hn (direction_unit hd).unit he ha).1⟩

example : ∃ t' w', (((demoRotation.setOrigin ⟨1, 2, 3⟩).setDirection ⟨0, 3, 4⟩).setRotation 2).execute demoWorld = some t' ∧ t'.apply demoWorld = some w' := by
  obtain ⟨b, w', h1, h2⟩ := demo_run (b := demoBlock) (g := 0) (by simp [Ok, demoBlock, noFilter, make]) rfl
    (((demoRotation.setOrigin ⟨1, 2, 3⟩).setDirection ⟨0, 3, 4⟩).setRotation 2).value
  refine ⟨{ ((demoRotation.setOrigin ⟨1, 2, 3⟩).setDirection ⟨0, 3, 4⟩).setRotation 2 with toBlock := b }, w', ?_, h2⟩
  simp only [Rotation.execute]
  exact congrArg (Option.map _) h1

/-- C82 (part): with origin, direction, angle, distance and option given by the setters (angle not negative, distance
positive).  Missing: negative angles (C82_negative_fails). -/
theorem C82_given_partial {w w' : World} (hw : WorldOk w) {t t' : Twist} {o d : V3} {a m : ℝ} {sym : Bool} (hd : d ≠ ⟨0, 0, 0⟩)
    (ha0 : 0 ≤ a) (hm : 0 < m) (hf : Ok t.filter.data) {g : Nat} (hg : t.geom = some g) (hn : ¬ Usable w g t.filter)
    (he : (((((t.setOrigin o).setDirection d).setTwist a).setMaxDistance m).setSym sym).execute w = some t')
    (ha : t'.apply w = some w') :
    ∃ u, DirectionOf d u ∧ ∀ id p, get (w g).verts id = some p → ∃ p', get (w' g).verts id = some p' ∧
      Turned o u (twistAngle a m sym (dot (p - o) u)) p p' :=
  ⟨d.unit, direction_unit hd,
    C82_twist_partial (t := ((((t.setOrigin o).setDirection d).setTwist a).setMaxDistance m).setSym sym) hw hf hg hn
      (direction_unit hd).unit ha0 hm he ha⟩

example : ∃ t' w', (((((demoTwist.setOrigin ⟨1, 2, 3⟩).setDirection ⟨0, 3, 4⟩).setTwist 2).setMaxDistance 5).setSym false).execute demoWorld = some t' ∧ t'.apply demoWorld = some w' := by
  obtain ⟨b, w', h1, h2⟩ := demo_run (b := demoBlock) (g := 0) (by simp [Ok, demoBlock, noFilter, make]) rfl
    (((((demoTwist.setOrigin ⟨1, 2, 3⟩).setDirection ⟨0, 3, 4⟩).setTwist 2).setMaxDistance 5).setSym false).value
  refine ⟨{ ((((demoTwist.setOrigin ⟨1, 2, 3⟩).setDirection ⟨0, 3, 4⟩).setTwist 2).setMaxDistance 5).setSym false with toBlock := b }, w', ?_, h2⟩
  simp only [Twist.execute]
  exact congrArg (Option.map _) h1

/-- C81: with scaling, origin and option given by the setters. -/
theorem C81_given {w w' : World} (hw : WorldOk w) {t t' : Scale} {s o : V3} {b : Bool} (hf : Ok t.filter.data) {g : Nat}
    (hg : t.geom = some g) (hn : ¬ Usable w g t.filter)
    (he : (((t.setScaling s).setOrigin o).setMeanPoint b).execute w = some t') (ha : t'.apply w = some w') :
    ∀ id p, get (w g).verts id = some p → ∃ p', get (w' g).verts id = some p' ∧
      p' - (if b then meanPoint (w g).verts else o) = V3.mul s (p - (if b then meanPoint (w g).verts else o)) :=
  C81_scale (t := ((t.setScaling s).setOrigin o).setMeanPoint b) hw hf hg hn he ha

example : ∃ t' w', (((demoScale.setScaling ⟨2, 0, -1⟩).setOrigin ⟨1, 2, 3⟩).setMeanPoint false).execute demoWorld = some t' ∧ t'.apply demoWorld = some w' := by
  obtain ⟨b, w', h1, h2⟩ := demo_run (b := demoBlock) (g := 0) (by simp [Ok, demoBlock, noFilter, make]) rfl
    (((demoScale.setScaling ⟨2, 0, -1⟩).setOrigin ⟨1, 2, 3⟩).setMeanPoint false).value
  refine ⟨{ ((demoScale.setScaling ⟨2, 0, -1⟩).setOrigin ⟨1, 2, 3⟩).setMeanPoint false with toBlock := b }, w', ?_, h2⟩
  simp only [Scale.execute]
  exact congrArg (Option.map _) h1

/-- C83: setDegree and setCoeffs with component `i` and axis `j` make the given polynomial, of the `j`-th coordinate, the one that
adds to component `i`; the other polynomials stay. -/
theorem C83_polynomials (t : Bend) {i j n : Nat} (hi : i < 3) (hj : j < 3) (l : List ℝ) (x : V3) :
    ((bending ((t.setDegree i j n).setCoeffs i j l) x).at i =
      (bending t x).at i - polyAt (t.degree i j) (t.coeffs i j) (x.at j) + polyAt n l (x.at j)) ∧
    ∀ k < 3, k ≠ i → (bending ((t.setDegree i j n).setCoeffs i j l) x).at k = (bending t x).at k := by
  have h3 : ∀ m < 3, m = 0 ∨ m = 1 ∨ m = 2 := by omega
  constructor
  · rcases h3 i hi with rfl | rfl | rfl <;> rcases h3 j hj with rfl | rfl | rfl <;>
      simp [bending, Bend.setCoeffs, Bend.setDegree, V3.at] <;> ring
  · intro k hk hne
    rcases h3 k hk with rfl | rfl | rfl <;> simp [bending, Bend.setCoeffs, Bend.setDegree, V3.at, hne]

/-- the example: P(y) = 1 + 2y + 3y² for the x component -/
example : (bending (((demoBend).setDegree 0 1 2).setCoeffs 0 1 [1, 2, 3]) ⟨5, 2, 7⟩).at 0 = 17 := by
  have h := (C83_polynomials demoBend (i := 0) (j := 1) (n := 2) (by omega) (by omega) [1, 2, 3] ⟨5, 2, 7⟩).1
  rw [h]
  simp [bending, demoBend, V3.at, polyAt, List.range_succ]
  norm_num

/-- C85: the threshold given to setThreshold (if not below 1e-18) decides which vertices and cells are annotated. -/
theorem C85_threshold {w : World} {g : Nat} {a a' : Apply} {x : ℝ} (hx : 1 / 10 ^ 18 ≤ x) {D : Nat → V3}
    (h : Annotated w g (a.setThreshold x) a' D) :
    (∀ id, get a'.vertAnn.data id = some id ↔ (∃ p, get (w g).verts id = some p) ∧ x ≤ norm2 (D id)) ∧
    ∀ id, get a'.cellAnn.data id = some id ↔ (w g).type ≠ 3 ∧ ∃ c, get (w g).cells id = some c ∧ ∃ v ∈ vertexIds c,
      (∃ p, get (w g).verts v = some p) ∧ x ≤ norm2 (D v) := by
  have ht : (a.setThreshold x).thres = x := max_eq_right hx
  constructor
  · intro id
    rw [h.verts id, ht]
    split <;> simp_all
  · intro id
    rw [h.cells id, ht]
    split
    · simp_all
    · constructor
      · simp
      · intro hc; contradiction

/-- C85: whatever the threshold given (zero and negative ones included), a vertex that does not move is not annotated. -/
theorem C85_still {w : World} {g : Nat} {a a' : Apply} (x : ℝ) {D : Nat → V3} (h : Annotated w g (a.setThreshold x) a' D)
    {id : Nat} (hz : D id = ⟨0, 0, 0⟩) : get a'.vertAnn.data id ≠ some id := by
  have ht : (1 : ℝ) / 10 ^ 18 ≤ (a.setThreshold x).thres := le_max_left _ _
  have e0 : norm2 (D id) = 0 := by rw [hz]; simp [norm2, dot]
  have hpos : (0 : ℝ) < 1 / 10 ^ 18 := by positivity
  rw [h.verts id, e0]
  rw [if_neg (by rintro ⟨_, hle⟩; linarith)]
  simp

example : Annotated demoWorld 0 (demoApply.setThreshold 1)
    { demoApply with vertAnn := ⟨some 0, demoApply.vertLabel, .point, [(7, 7)]⟩, cellAnn := ⟨some 0, demoApply.cellLabel, .cell, [(3, 3)]⟩ }
    (fun id => if id = 7 then ⟨0, 3, 0⟩ else ⟨0, 0, 0⟩) := by
  have e1 : norm2 ⟨0, 3, 0⟩ = 3 := by
    rw [norm2, show dot (⟨0, 3, 0⟩ : V3) ⟨0, 3, 0⟩ = 3 ^ 2 by norm_num [dot], Real.sqrt_sq (by norm_num)]
  have e0 : norm2 ⟨0, 0, 0⟩ = 0 := by simp [norm2, dot]
  have ht : (demoApply.setThreshold 1).thres = 1 := max_eq_right (by norm_num)
  have hn : ∀ id, (1 : ℝ) ≤ norm2 ((fun id => if id = 7 then (⟨0, 3, 0⟩ : V3) else ⟨0, 0, 0⟩) id) ↔ id = 7 := by
    intro id
    dsimp only
    split
    · rw [e1]; simp_all
    · rw [e0]; simp_all
  refine ⟨rfl, rfl, rfl, ?_, rfl, rfl, rfl, ?_⟩
  · intro id
    rw [ht]
    simp only [hn]
    by_cases h : id = 7
    · subst h; simp [Verif.Field.get, demoWorld, demoObj]
    · simp [Verif.Field.get, h]; omega
  · intro id
    rw [ht]
    simp only [hn]
    by_cases h : id = 3
    · subst h; simp [Verif.Field.get, demoWorld, demoObj, vertexIds]
    · have : ¬ 3 = id := by omega
      simp [Verif.Field.get, demoWorld, demoObj, this]

end

end Verif.Manip
