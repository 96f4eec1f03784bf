import Verif.Rbf.InterpProps
/-
C118: nodes given by a geometry, displacements and radii by fields on its vertices.
-/
namespace Verif.Rbf
open Verif.Field Verif.Mesh Verif.Shape Verif.Manip
open List hiding get

noncomputable section
open scoped Classical

/-- specification: sum over the vertices of the geometry of the nodes, radius and coefficient by id -/
def cloud (k : Kernel) (p : V3) (vs : Data V3) (R D : Nat → ℝ) : ℝ :=
  (vs.map (fun e => k.at_ (norm2 (p - e.2) / R e.1) * D e.1)).sum

/-- specification: the same with vectors as coefficients -/
def cloudDrift (k : Kernel) (p : V3) (vs : Data V3) (R : Nat → ℝ) (D : Nat → V3) : V3 :=
  ⟨cloud k p vs R (fun i => (D i).x), cloud k p vs R (fun i => (D i).y), cloud k p vs R (fun i => (D i).z)⟩

/-- specification: is a point moved -/
def CloudMoves (s : Rbf) (diag : ℝ) (vs : Data V3) (R : Nat → ℝ) (p : V3) : Prop :=
  s.compact = false ∨ (∃ id q, get vs id = some q ∧ R id > s.factor * diag) ∨
    ∃ id q, get vs id = some q ∧ norm2 (p - q) ≤ R id

/-- specification: the largest length of the values on the vertices -/
def largestOn (vs : Data V3) (D : Nat → ℝ) : ℝ := vs.foldr (fun e m => max (D e.1) m) 0

/-- specification: the value of a field, 0 where there is none -/
def valueOf (f : Field Nat V3) (id : Nat) : V3 := (get f.data id).getD zero3

theorem byId_perm (vs : Data V3) : byId vs ~ vs := mergeSort_perm _ _

theorem byId_sorted (vs : Data V3) : (byId vs).Pairwise (fun a b => a.1 ≤ b.1) := by
  have := pairwise_mergeSort (le := fun a b : Nat × V3 => decide (a.1 ≤ b.1))
    (by intro a b c h1 h2; simp only [decide_eq_true_eq] at *; omega)
    (by intro a b; simp only [Bool.or_eq_true, decide_eq_true_eq]; omega) vs
  simpa [byId] using this

theorem get_iff_mem {α : Type} {d : Data α} (h : Ok d) {id : Nat} {x : α} : get d id = some x ↔ (id, x) ∈ d :=
  ⟨get_some_mem, fun hm => get_of_mem h hm⟩

theorem mem_byId {vs : Data V3} {e : Nat × V3} : e ∈ byId vs ↔ e ∈ vs := (byId_perm vs).mem_iff

theorem getD_map {α β : Type} (f : α → β) (l : List α) (i : Nat) (x : α) (y : β) (h : i < l.length) :
    (l.map f).getD i y = f (l.getD i x) := by
  rw [getD_lt (by simpa using h), getD_lt h]; simp

theorem influence_cloud (k : Kernel) (p : V3) (vs : Data V3) (R D : Nat → ℝ) :
    influence k p ((byId vs).map Prod.snd) (fun i => R (((byId vs).map Prod.fst).getD i 0))
      (fun i => D (((byId vs).map Prod.fst).getD i 0)) = cloud k p vs R D := by
  have h1 : cloud k p vs R D = cloud k p (byId vs) R D := ((byId_perm vs).map _).sum_eq.symm
  rw [h1]
  generalize byId vs = us
  unfold influence cloud
  congr 1
  apply ext_getElem (by simp)
  intro i h1 h2
  have hi : i < us.length := by simpa using h2
  have hd : (us.map Prod.fst).getD i 0 = us[i].1 := by rw [getD_lt (by simpa using hi)]; simp
  simp only [getElem_map, getElem_zipIdx, Nat.zero_add, hd]

theorem largestOn_perm {us vs : Data V3} (h : us ~ vs) (D : Nat → ℝ) : largestOn us D = largestOn vs D := by
  unfold largestOn
  have : LeftCommutative (fun (e : Nat × V3) (m : ℝ) => max (D e.1) m) := ⟨fun a b c => max_left_comm _ _ _⟩
  exact h.foldr_eq 0

theorem largest_on (us : Data V3) (D : Nat → ℝ) :
    largest us.length (fun i => D ((us.map Prod.fst).getD i 0)) = largestOn us D := by
  unfold largest largestOn
  have h1 : (range us.length).map (fun i => D ((us.map Prod.fst).getD i 0)) = us.map (fun e => D e.1) := by
    apply ext_getElem (by simp)
    intro i h1 h2
    have hi : i < us.length := by simpa using h2
    have hd : (us.map Prod.fst).getD i 0 = us[i].1 := by rw [getD_lt (by simpa using hi)]; simp
    simp only [getElem_map, getElem_range, hd]
  have h2 : ∀ l : List Nat, l.foldr (fun i m => max (D ((us.map Prod.fst).getD i 0)) m) 0 =
      (l.map (fun i => D ((us.map Prod.fst).getD i 0))).foldr max 0 := by
    intro l; rw [foldr_map]
  rw [h2, h1, foldr_map]

/-- the moved points, by position in the list and by id -/
theorem moves_cloud {s : Rbf} {diag : ℝ} {vs : Data V3} (hv : Ok vs) {R : Nat → ℝ} {p : V3} :
    Moves s diag ((byId vs).map Prod.snd) (fun i => R (((byId vs).map Prod.fst).getD i 0)) p ↔
      CloudMoves s diag vs R p := by
  have hget : ∀ id q, get vs id = some q ↔ (id, q) ∈ byId vs := by
    intro id q
    rw [mem_byId, get_iff_mem hv]
  unfold Moves CloudMoves
  have hfst : ∀ i, (h : i < (byId vs).length) → ((byId vs).map Prod.fst).getD i 0 = (byId vs)[i].1 := by
    intro i h; rw [getD_lt (by simpa using h)]; simp
  constructor
  · rintro (h | ⟨i, hi, h⟩ | ⟨i, n, hi, h⟩)
    · exact .inl h
    · have hi' : i < (byId vs).length := by simpa using hi
      simp only [hfst i hi'] at h
      exact .inr (.inl ⟨_, (byId vs)[i].2, (hget _ _).2 (getElem_mem hi'), h⟩)
    · have hi' : i < (byId vs).length := by
        have := (List.getElem?_eq_some_iff.1 hi).1
        simpa using this
      simp only [hfst i hi'] at h
      have hn : (byId vs)[i].2 = n := by
        have := (List.getElem?_eq_some_iff.1 hi).2
        simpa using this
      exact .inr (.inr ⟨_, n, (hget _ _).2 (by rw [← hn]; exact getElem_mem hi'), h⟩)
  · rintro (h | ⟨id, q, hq, h⟩ | ⟨id, q, hq, h⟩)
    · exact .inl h
    · obtain ⟨i, hi, he⟩ := mem_iff_getElem.1 ((hget _ _).1 hq)
      exact .inr (.inl ⟨i, by simpa using hi, by simp only [hfst i hi, he]; exact h⟩)
    · obtain ⟨i, hi, he⟩ := mem_iff_getElem.1 ((hget _ _).1 hq)
      exact .inr (.inr ⟨i, q, by rw [List.getElem?_eq_some_iff]; exact ⟨by simpa using hi, by simp [he]⟩, by
        simp only [hfst i hi, he]; exact h⟩)

/-- the state with which the run starts -/
def Rbf.loaded (s : Rbf) (vs : Data V3) (radii : List ℝ) (data : List (List ℝ)) : Rbf :=
  { s with nodes := (byId vs).map (fun e => (e.2, true)), radii := radii, data := data }

/-- nodes by geometry, vectors: the result, once the radii are known -/
theorem cloud_run (ext : Solver) {w : World} (hw : WorldOk w) (diag : Nat → ℝ) {s : Rbf} (hm : s.mode = .none)
    (hs : s.scalar = false) (hf : Ok s.filter.data) {g h : Nat} (hg : s.geom = some g) (hh : s.rbfGeom = some h)
    (hl1 : linked s.rbfDispl h = true) (hl2 : linked s.rbfRadii h = true) (h0 : 0 ≤ s.factor * diag g)
    {rl : List ℝ}
    (hloop : radiiLoop s.rbfRadii ((byId (w h).verts).map Prod.fst) 0 (replicate
      (((byId (w h).verts).map Prod.fst).filter (fun i => (radiusAt s.rbfRadii i).isSome)).length 0) = some rl)
    {R : Nat → ℝ}
    (hE : ∀ a : Rbf, a = (s.loaded (w h).verts rl
        (columns (((byId (w h).verts).map Prod.fst).map (valueAt ⟨0, 0, 0⟩ s.rbfDispl)))).fit →
      (a.computeRadii (diag g)).effective.length = (w h).verts.length ∧
      ∀ i, i < (w h).verts.length → (a.computeRadii (diag g)).effective.getD i 0 =
        R (((byId (w h).verts).map Prod.fst).getD i 0))
    (hR : ∀ id q, get (w h).verts id = some q → R id ≠ 0) :
    ∃ r d, s.execute ext w diag = some r ∧ r.getDispl = some d ∧ r.getScalar = none ∧
      Result w g d (fun id p => if CloudMoves s (diag g) (w h).verts R p then
        V3.scale (weightOf w g s id) (cloudDrift s.kernel p (w h).verts R (valueAt zero3 s.rbfDispl)) else zero3) := by
  set us := byId (w h).verts with hus
  have hlen : us.length = (w h).verts.length := (byId_perm _).length_eq
  set ds := (us.map Prod.fst).map (valueAt zero3 s.rbfDispl) with hds
  set a := s.loaded (w h).verts rl (columns ds) with ha
  have hinit : s.init w h = some (a, true) := by
    unfold Rbf.init
    rw [if_neg (by rw [hs, hl1, hl2]; simp)]
    simp only
    rw [hloop, Option.map_some, if_neg (by rw [hs]; simp)]
    rfl
  obtain ⟨e1, e2⟩ := hE a.fit rfl
  have hnz : ∀ i, i < us.length → R ((us.map Prod.fst).getD i 0) ≠ 0 := by
    intro i hi
    rw [getD_lt (by simpa using hi), getElem_map]
    exact hR _ us[i].2 ((get_iff_mem (hw.verts h)).2 (mem_byId.1 (getElem_mem hi)))
  obtain ⟨r, f, r1, r2, -, -, -, r3⟩ := run_vector ext hw diag (s := a) hm hs hf g (l := us.map Prod.snd)
    (by rw [map_map]; rfl) (cx := ds.map (fun v => v.x)) (cy := ds.map (fun v => v.y)) (cz := ds.map (fun v => v.z)) rfl
    h0 (R := fun i => R ((us.map Prod.fst).getD i 0)) (by rw [e1, length_map, hlen])
    (by intro i hi; exact e2 i (by rw [← hlen]; simpa using hi)) (by intro i hi; exact hnz i (by simpa using hi))
  have hr2 : r.scalar = false := by
    rw [r2]
    show (a.fit.computeRadii (diag g)).scalar = false
    rw [computed_scalar]; exact hs
  refine ⟨r, r.displ, ?_, by simp [Rbf.getDispl, hr2], by simp [Rbf.getScalar, hr2], r3.geo, r3.loc, r3.ok, ?_⟩
  · unfold Rbf.execute
    rw [hg, hh]
    simp only
    rw [hinit]
    exact r1
  · intro id
    rw [r3.val id]
    congr 1
    funext p
    have h1 : Moves a (diag g) (us.map Prod.snd) (fun i => R ((us.map Prod.fst).getD i 0)) p ↔
        CloudMoves s (diag g) (w h).verts R p := by
      rw [hus, moves_cloud (hw.verts h)]; rfl
    have h2 : drift a.kernel p (us.map Prod.snd) (fun i => R ((us.map Prod.fst).getD i 0))
        (fun i => ⟨(ds.map (fun v => v.x)).getD i 0, (ds.map (fun v => v.y)).getD i 0,
          (ds.map (fun v => v.z)).getD i 0⟩) = cloudDrift s.kernel p (w h).verts R (valueAt zero3 s.rbfDispl) := by
      have e : ∀ i, i < (us.map Prod.snd).length → ds.getD i zero3 =
          valueAt zero3 s.rbfDispl ((us.map Prod.fst).getD i 0) := by
        intro i hi
        rw [hds, getD_map _ _ i 0 _ (by simpa using hi)]
      have e' : (fun i => (⟨(ds.map (fun v => v.x)).getD i 0, (ds.map (fun v => v.y)).getD i 0,
          (ds.map (fun v => v.z)).getD i 0⟩ : V3)) = fun i => ds.getD i zero3 := by
        funext i; exact columns_getD ds i
      rw [e']
      unfold drift cloudDrift
      rw [← influence_cloud, ← influence_cloud, ← influence_cloud]
      rw [influence_congr (fun _ _ => rfl) (fun i hi => congrArg V3.x (e i hi)),
        influence_congr (fun _ _ => rfl) (fun i hi => congrArg V3.y (e i hi)),
        influence_congr (fun _ _ => rfl) (fun i hi => congrArg V3.z (e i hi))]
      rfl
    have h3 : weightOf w g a id = weightOf w g s id := rfl
    simp only [h1, h3]
    rw [h2]
    rfl

end

end Verif.Rbf
