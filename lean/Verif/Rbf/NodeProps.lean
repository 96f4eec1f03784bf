import Verif.Rbf.CloudProps
/-
C118 (continued): the theorems.
-/
namespace Verif.Rbf
open Verif.Field Verif.Mesh Verif.Shape Verif.Manip
open List hiding get

noncomputable section
open scoped Classical

/-- specification: the common radius; with nodes given by a geometry a list of radii counts for nothing -/
def commonRadius (st : Setting) (m diag : ℝ) : ℝ :=
  match st with
  | .real r => if r < tiny then 3 * m else r
  | .local_ r => if r < tiny then 3 * m else r * diag
  | .list _ => 3 * m

theorem common_spec {s : Rbf} {st : Setting} (hm : s.mode = .none) (hst : st ≠ .list []) {b : Rbf}
    (h1 : b.srValue = (st.call s).srValue) (h2 : b.srReal = (st.call s).srReal) (h3 : b.radii = []) (diag : ℝ) :
    (b.computeRadii diag).effective =
      replicate b.nodes.length (commonRadius st (largestData b.data b.nodes.length) diag) := by
  have ht1 := tiny_pos
  have hmax : ∀ r : ℝ, max (-1) r < tiny ↔ r < tiny := by
    intro r
    rw [max_lt_iff]
    exact ⟨fun h => h.2, fun h => ⟨by linarith, h⟩⟩
  have hmx : ∀ r : ℝ, ¬ r < tiny → max (-1) r = r := fun r h => max_eq_right (by linarith)
  unfold Rbf.computeRadii
  rw [if_neg (by rw [h3]; simp)]
  simp only
  congr 1
  unfold Rbf.candidate
  rw [h1, h2]
  cases st with
  | real r =>
    show (if max (-1) r < tiny then _ else if true = true then max (-1) r else _) = _
    simp only [hmax, commonRadius, if_true]
    by_cases hr : r < tiny
    · rw [if_pos hr, if_pos hr]; ring
    · rw [if_neg hr, if_neg hr, hmx r hr]
  | local_ r =>
    show (if max (-1) r < tiny then _ else if false = true then max (-1) r else max (-1) r * diag) = _
    simp only [hmax, commonRadius, Bool.false_eq_true, if_false]
    by_cases hr : r < tiny
    · rw [if_pos hr, if_pos hr]; ring
    · rw [if_neg hr, if_neg hr, hmx r hr]
  | list l =>
    have hl : l.isEmpty = false := by
      cases l with
      | nil => exact absurd rfl hst
      | cons => rfl
    have : (Setting.list l).call s = { s with radii := l, srValue := -1, srReal := false } := by
      show Rbf.setRadii s l = _
      unfold Rbf.setRadii
      rw [if_neg (by rw [hl, hm]; simp)]
    rw [this]
    simp only [commonRadius]
    rw [if_pos (by linarith)]
    ring

theorem radii_none (vs : Data V3) : radiiLoop none ((byId vs).map Prod.fst) 0 (replicate
    (((byId vs).map Prod.fst).filter (fun i => (radiusAt none i).isSome)).length 0) = some [] := by
  rw [radiiLoop_none]
  have : filter (fun i => (radiusAt none i).isSome) (map Prod.fst (byId vs)) = [] := by simp [radiusAt]
  rw [this]
  rfl

/-- nodes by geometry without radii by field: the general case -/
theorem node_vector (ext : Solver) {w : World} (hw : WorldOk w) (diag : Nat → ℝ) {s : Rbf} (hm : s.mode = .none)
    (hs : s.scalar = false) (hf : Ok s.filter.data) {g h : Nat} (hg : s.geom = some g) (hh : s.rbfGeom = some h)
    (hl1 : linked s.rbfDispl h = true) (hl2 : s.rbfRadii = none) (h0 : 0 ≤ s.factor * diag g) {st : Setting}
    (hst : st ≠ .list []) {R : ℝ}
    (hRR : R = commonRadius st (largestOn (w h).verts (fun id => norm2 (valueAt zero3 s.rbfDispl id))) (diag g))
    (hR : R ≠ 0) :
    ∃ r d, (st.call s).execute ext w diag = some r ∧ r.getDispl = some d ∧ r.getScalar = none ∧
      Result w g d (fun id p => if CloudMoves s (diag g) (w h).verts (fun _ => R) p then
        V3.scale (weightOf w g s id)
          (cloudDrift s.kernel p (w h).verts (fun _ => R) (valueAt zero3 s.rbfDispl)) else zero3) := by
  obtain ⟨q1, q2, q3, q4, q5, q6, q7, q8, q9, q10, q11⟩ := call_same st s
  have q12 : (st.call s).rbfDispl = s.rbfDispl ∧ (st.call s).rbfRadii = none := by
    cases st with
    | real r => exact ⟨rfl, hl2⟩
    | local_ r => exact ⟨rfl, hl2⟩
    | list l => simp only [Setting.call, Rbf.setRadii]; split <;> exact ⟨rfl, hl2⟩
  obtain ⟨r, d, r1, r2, r3, r4⟩ := cloud_run ext hw diag (s := st.call s) (by rw [q1]; exact hm) (by rw [q2]; exact hs)
    (by rw [q3]; exact hf) (by rw [q7]; exact hg) (by rw [q8]; exact hh) (by rw [q12.1]; exact hl1)
    (by rw [q12.2]; rfl) (by rw [q6]; exact h0) (rl := []) (by rw [q12.2]; exact radii_none _) (R := fun _ => R) (by
      rintro a rfl
      set us := byId (w h).verts with hus
      have hlen : us.length = (w h).verts.length := (byId_perm _).length_eq
      set b := ((st.call s).loaded (w h).verts [] (columns ((us.map Prod.fst).map
        (valueAt ⟨0, 0, 0⟩ (st.call s).rbfDispl)))).fit with hb
      have hnl : b.nodes.length = (w h).verts.length := by
        rw [← hlen, hb]; simp [Rbf.fit, Rbf.loaded, ← hus]
      have hbd : b.data = (columns ((us.map Prod.fst).map (valueAt zero3 s.rbfDispl))).map
          (fun c => resizeWith 0 c us.length) := by
        rw [hb, q12.1]
        show (columns _).map (fun c => resizeWith 0 c ((byId (w h).verts).map _).length) = _
        rw [length_map]
        rfl
      have heff := common_spec hm hst (b := b) rfl rfl rfl (diag g)
      have hL : largestData b.data b.nodes.length =
          largestOn (w h).verts (fun id => norm2 (valueAt zero3 s.rbfDispl id)) := by
        rw [← largestOn_perm (byId_perm _), ← hus, ← largest_on, hnl, ← hlen]
        apply largestData_eq
        intro i hi
        rw [hbd, columns_norm _ _ i hi, getD_map _ _ i 0 _ (by simpa using hi)]
      rw [hL, ← hRR, hnl] at heff
      rw [heff]
      refine ⟨by simp, ?_⟩
      intro i hi
      rw [getD_lt (by simpa using hi)]
      simp) (fun _ _ _ => hR)
  refine ⟨r, d, r1, r2, r3, r4.geo, r4.loc, r4.ok, ?_⟩
  intro id
  rw [r4.val id]
  congr 1
  funext p
  have hw' : weightOf w g (st.call s) id = weightOf w g s id := by unfold weightOf; rw [q3, q10]
  have hmv : CloudMoves (st.call s) (diag g) (w h).verts (fun _ => R) p ↔
      CloudMoves s (diag g) (w h).verts (fun _ => R) p := by
    unfold CloudMoves; rw [q6, q9]
  simp only [hmv, hw', q11, q12.1]

/-- C118: nodes given by the vertices of a geometry, displacements by a field on them, one radius for all: every vertex
of the target has the displacement given by the sum over the vertices of the geometry of the nodes (a missing
displacement is zero), times the filter; the order of the vertices does not matter, displacements on other ids do not
count. -/
theorem C118_field_partial (ext : Solver) {w : World} (hw : WorldOk w) (diag : Nat → ℝ) {s : Rbf} (hm : s.mode = .none)
    (hf : Ok s.filter.data) {g : Nat} (hg : s.geom = some g) (hn : s.rbfRadii = none) (h : Nat) (f : Field Nat V3)
    (hfg : f.geo = some h) (h0 : 0 ≤ s.factor * diag g) (st : Setting) (hst : ∀ rs, st ≠ .list rs) {R : ℝ}
    (hRR : R = st.radius (largestOn (w h).verts (fun id => norm2 (valueOf f id))) (diag g) 0) (hR : R ≠ 0) :
    ∃ r d, (st.call ((s.setNodeGeometry (some h)).setDisplField (some f))).execute ext w diag = some r ∧
      r.getDispl = some d ∧ r.getScalar = none ∧
      Result w g d (fun id p => if CloudMoves s (diag g) (w h).verts (fun _ => R) p then
        V3.scale (weightOf w g s id) (cloudDrift s.kernel p (w h).verts (fun _ => R) (valueOf f)) else zero3) := by
  apply node_vector ext hw diag (s := (s.setNodeGeometry (some h)).setDisplField (some f)) hm rfl hf hg rfl
    (by simp [Rbf.setDisplField, linked, hfg]) hn h0 (hst []) _ hR
  rw [hRR]
  cases st with
  | real r => rfl
  | local_ r => rfl
  | list l => exact absurd rfl (hst l)

/-- C118: displacements attached to another geometry than that of the nodes: the execution does nothing and the previous
results are still there. -/
theorem C118_unlinked (ext : Solver) (w : World) (diag : Nat → ℝ) {s : Rbf} {g : Nat} (hg : s.geom = some g) (h : Nat)
    (f : Field Nat V3) (hfg : f.geo ≠ some h) :
    ∃ r, ((s.setNodeGeometry (some h)).setDisplField (some f)).execute ext w diag = some r ∧ r.displ = s.displ ∧
      r.effective = s.effective ∧ r.nodes = s.nodes := by
  refine ⟨(s.setNodeGeometry (some h)).setDisplField (some f), ?_, rfl, rfl, rfl⟩
  unfold Rbf.execute
  rw [show ((s.setNodeGeometry (some h)).setDisplField (some f)).geom = some g from hg,
    show ((s.setNodeGeometry (some h)).setDisplField (some f)).rbfGeom = some h from rfl]
  simp only
  have : ((s.setNodeGeometry (some h)).setDisplField (some f)).init w h =
      some ((s.setNodeGeometry (some h)).setDisplField (some f), false) := by
    unfold Rbf.init
    rw [if_pos (.inl ⟨rfl, by simp [Rbf.setDisplField, linked, hfg]⟩)]
  rw [this]

theorem cloud_zero (k : Kernel) (p : V3) (vs : Data V3) (R : Nat → ℝ) : cloud k p vs R (fun _ => 0) = 0 := by
  unfold cloud
  simp

/-- C118 fails: displacements given as a list for nodes given by a geometry: they are replaced by zeros, nothing
moves. -/
theorem C118_list_displacements_fails (ext : Solver) {w : World} (hw : WorldOk w) (diag : Nat → ℝ) {s : Rbf}
    (hm : s.mode = .none) (hf : Ok s.filter.data) {g : Nat} (hg : s.geom = some g) (hn : s.rbfRadii = none) (h : Nat)
    (ds : List V3) (h0 : 0 ≤ s.factor * diag g) (R : ℝ) (hR : tiny ≤ R) :
    ∃ r d, (((s.setNodeGeometry (some h)).setDispl ds).setRadiusReal R).execute ext w diag = some r ∧
      r.getDispl = some d ∧ ∀ id p, get (w g).verts id = some p → get d.data id = some zero3 := by
  obtain ⟨r, d, h1, h2, -, h3⟩ := node_vector ext hw diag (s := (s.setNodeGeometry (some h)).setDispl ds) hm rfl hf hg
    rfl rfl hn h0 (st := .real R) (by simp) (R := R) (by simp [commonRadius, not_lt.2 hR]) (by linarith [tiny_pos])
  refine ⟨r, d, h1, h2, ?_⟩
  intro id p hp
  rw [h3.val id, hp, Option.map_some]
  have : cloudDrift s.kernel p (w h).verts (fun _ => R)
      (valueAt zero3 ((s.setNodeGeometry (some h)).setDispl ds).rbfDispl) = zero3 := by
    show (⟨cloud _ _ _ _ (fun _ => 0), cloud _ _ _ _ (fun _ => 0), cloud _ _ _ _ (fun _ => 0)⟩ : V3) = _
    simp only [cloud_zero]; rfl
  show some (if _ then V3.scale _ (cloudDrift s.kernel p (w h).verts (fun _ => R) _) else zero3) = _
  rw [this]
  congr 1
  split
  · simp [V3.scale, zero3]
  · rfl

/-- C118 fails: a scalar field given as displacements does not switch a block to scalar displacements, though its
documentation says so: there is no scalar result and the vectors are zero. -/
theorem C118_scalar_field_fails (ext : Solver) {w : World} (hw : WorldOk w) (diag : Nat → ℝ) (k : Kernel) {g : Nat}
    (h : Nat) (f : Field Nat ℝ) (h0 : 0 ≤ diag g) (R : ℝ) (hR : tiny ≤ R) :
    ∃ r d, ((((((Rbf.new .none k).setGeometry g).setNodeGeometry (some h)).setScalarField (some f)).setRadiusReal R).execute
        ext w diag) = some r ∧ r.getScalar = none ∧ r.getDispl = some d ∧
      ∀ id p, get (w g).verts id = some p → get d.data id = some zero3 := by
  obtain ⟨r, d, h1, h2, h3, h4⟩ := node_vector ext hw diag
    (s := (((Rbf.new .none k).setGeometry g).setNodeGeometry (some h)).setScalarField (some f)) rfl rfl
    (by simp [Rbf.setScalarField, Rbf.setNodeGeometry, Rbf.setGeometry, Rbf.new, make, Ok]) rfl
    rfl rfl rfl (by show 0 ≤ (1 : ℝ) * diag g; linarith) (st := .real R) (by simp) (R := R)
    (by simp [commonRadius, not_lt.2 hR]) (by linarith [tiny_pos])
  refine ⟨r, d, h1, h3, h2, ?_⟩
  intro id p hp
  rw [h4.val id, hp, Option.map_some]
  congr 1
  split
  · have : cloudDrift k p (w h).verts (fun _ => R) (valueAt zero3 (none : Option (Field Nat V3))) = zero3 := by
      show (⟨cloud _ _ _ _ (fun _ => 0), cloud _ _ _ _ (fun _ => 0), cloud _ _ _ _ (fun _ => 0)⟩ : V3) = _
      simp only [cloud_zero]; rfl
    show V3.scale _ (cloudDrift k p (w h).verts (fun _ => R) (valueAt zero3 (none : Option (Field Nat V3)))) = _
    rw [this]
    simp [V3.scale, zero3]
  · rfl

/-- C118 fails: a list of radii given for nodes given by a geometry is dropped: the radius is three times the largest
displacement, whatever the list is. -/
theorem C118_list_radii_fails (ext : Solver) {w : World} (hw : WorldOk w) (diag : Nat → ℝ) {s : Rbf} (hm : s.mode = .none)
    (hf : Ok s.filter.data) {g : Nat} (hg : s.geom = some g) (hn : s.rbfRadii = none) (h : Nat) (f : Field Nat V3)
    (hfg : f.geo = some h) (h0 : 0 ≤ s.factor * diag g) (rs : List ℝ) (hrs : rs ≠ []) {R : ℝ}
    (hRR : R = 3 * largestOn (w h).verts (fun id => norm2 (valueOf f id))) (hR : R ≠ 0) :
    ∃ r d, (((s.setNodeGeometry (some h)).setDisplField (some f)).setRadii rs).execute ext w diag = some r ∧
      r.getDispl = some d ∧
      Result w g d (fun id p => if CloudMoves s (diag g) (w h).verts (fun _ => R) p then
        V3.scale (weightOf w g s id) (cloudDrift s.kernel p (w h).verts (fun _ => R) (valueOf f)) else zero3) := by
  obtain ⟨r, d, h1, h2, -, h3⟩ := node_vector ext hw diag (s := (s.setNodeGeometry (some h)).setDisplField (some f)) hm
    rfl hf hg rfl (by simp [Rbf.setDisplField, linked, hfg]) hn h0 (st := .list rs) (by simpa using hrs) (R := R) hRR hR
  exact ⟨r, d, h1, h2, h3⟩

/-- C118 fails: a field of displacements for nodes given as a list is not used: a block that never had a list of
displacements reads values that are not there. -/
theorem C118_field_for_list_fails (ext : Solver) (w : World) (diag : Nat → ℝ) {s : Rbf} (hm : s.mode = .none)
    (hc : s.compact = false) (hd : s.data = []) {g : Nat} (hg : s.geom = some g) (l : List V3) (f : Field Nat V3)
    {id : Nat} {p : V3} (hp : get (w g).verts id = some p) :
    ((s.setNodes l).setDisplField (some f)).execute ext w diag = none :=
  C114_no_displacements_fails ext w diag hm hc hd hg rfl hp

/-! ### Radii by field -/

theorem radiiLoop_prefix (f : Option (Field Nat ℝ)) (post : List Nat) (hpost : ∀ id ∈ post, radiusAt f id = none) :
    ∀ (pre : List Nat) (count : Nat) (acc : List ℝ), (∀ id ∈ pre, (radiusAt f id).isSome = true) →
      acc.length = count + pre.length → radiiLoop f (pre ++ post) count acc =
        some (acc.take count ++ pre.map (fun id => (radiusAt f id).getD 0))
  | [], count, acc, _, hl => by
    have : ∀ (post : List Nat), (∀ id ∈ post, radiusAt f id = none) → ∀ c, radiiLoop f post c acc = some acc := by
      intro post
      induction post with
      | nil => intro _ c; rfl
      | cons x xs ih =>
        intro h c
        rw [radiiLoop, h x (by simp)]
        exact ih (fun id hid => h id (by simp [hid])) _
    rw [nil_append, this post hpost count]
    simp only [length_nil, Nat.add_zero] at hl
    simp [← hl]
  | id :: pre, count, acc, h, hl => by
    rw [cons_append, radiiLoop]
    obtain ⟨r, hr⟩ := Option.isSome_iff_exists.1 (h id (by simp))
    rw [hr]
    simp only [length_cons] at hl
    simp only
    rw [if_pos (by omega), radiiLoop_prefix f post hpost pre (count + 1) _ (fun i hi => h i (by simp [hi]))
      (by rw [length_set]; omega)]
    have : (acc.set count r).take (count + 1) = acc.take count ++ [r] := by
      apply ext_getElem
      · simp; omega
      · intro i h1 h2
        simp only [length_take, length_set] at h1
        rw [getElem_take, getElem_set]
        by_cases hi : i = count
        · subst hi; rw [if_pos rfl, getElem_append_right (by simp)]; simp
        · rw [if_neg (by omega), getElem_append_left (by simp; omega), getElem_take]
    rw [this]
    simp [hr]

theorem filter_split {α : Type} (q : α → Bool) : ∀ (l : List α), l.Pairwise (fun a b => q b = true → q a = true) →
    ∃ pre post, l = pre ++ post ∧ (∀ a ∈ pre, q a = true) ∧ ∀ a ∈ post, q a = false
  | [], _ => ⟨[], [], rfl, by simp, by simp⟩
  | a :: l, h => by
    rw [pairwise_cons] at h
    by_cases ha : q a = true
    · obtain ⟨pre, post, h1, h2, h3⟩ := filter_split q l h.2
      exact ⟨a :: pre, post, by rw [h1]; rfl, by simpa [ha] using h2, h3⟩
    · refine ⟨[], a :: l, rfl, by simp, ?_⟩
      intro b hb
      rcases mem_cons.1 hb with rfl | hb
      · simpa using ha
      · cases hq : q b with
        | false => rfl
        | true => exact absurd (h.1 b hb hq) ha

/-- C118 (part): radii by a field that has values on a non-empty initial part of the vertices of the geometry of the
nodes (by increasing id), for instance on all of them: they are used as given, the others are the smallest radius
allowed; they are used even if another radius is asked for afterwards.  Missing: fields with gaps
(C118_radii_gap_fails). -/
theorem C118_radii_partial (ext : Solver) {w : World} (hw : WorldOk w) (diag : Nat → ℝ) {s : Rbf} (hm : s.mode = .none)
    (hf : Ok s.filter.data) {g : Nat} (hg : s.geom = some g) (h : Nat) (f : Field Nat V3) (hfg : f.geo = some h)
    (rf : Field Nat ℝ) (hrg : rf.geo = some h) (h0 : 0 ≤ s.factor * diag g) (st : Setting)
    (hpre : ∀ a b p q, get (w h).verts a = some p → get (w h).verts b = some q → a < b →
      get rf.data a = none → get rf.data b = none)
    (hone : ∃ a p x, get (w h).verts a = some p ∧ get rf.data a = some x)
    (hR : ∀ a x, get rf.data a = some x → x ≠ 0) :
    ∃ r d, (st.call (((s.setNodeGeometry (some h)).setDisplField (some f)).setRadiiField (some rf))).execute ext w diag =
        some r ∧ r.getDispl = some d ∧
      Result w g d (fun id p =>
        if CloudMoves s (diag g) (w h).verts (fun id => (get rf.data id).getD tiny) p then
          V3.scale (weightOf w g s id)
            (cloudDrift s.kernel p (w h).verts (fun id => (get rf.data id).getD tiny) (valueOf f)) else zero3) := by
  set b := ((s.setNodeGeometry (some h)).setDisplField (some f)).setRadiiField (some rf) with hb
  have hb' : b = { ((s.setNodeGeometry (some h)).setDisplField (some f)) with
      rbfRadii := some rf, srValue := -1, srReal := false } := by
    rw [hb]; unfold Rbf.setRadiiField
    rw [if_neg]
    rintro (h | h)
    · cases h
    · exact h hm
  obtain ⟨q1, q2, q3, q4, q5, q6, q7, q8, q9, q10, q11⟩ := call_same st b
  have q12 : (st.call b).rbfDispl = some f ∧ (st.call b).rbfRadii = some rf := by
    have : b.rbfDispl = some f ∧ b.rbfRadii = some rf := by rw [hb']; exact ⟨rfl, rfl⟩
    cases st with
    | real r => exact this
    | local_ r => exact this
    | list l => simp only [Setting.call, Rbf.setRadii]; split <;> exact this
  have hrad : ∀ id, radiusAt (some rf) id = get rf.data id := fun id => rfl
  set us := byId (w h).verts with hus
  have hlen : us.length = (w h).verts.length := (byId_perm _).length_eq
  have hne : (us.map Prod.fst).Pairwise (fun a c => (radiusAt (some rf) c).isSome = true →
      (radiusAt (some rf) a).isSome = true) := by
    rw [pairwise_map]
    have hs1 := byId_sorted (w h).verts
    rw [← hus] at hs1
    apply hs1.imp_of_mem
    intro e1 e2 m1 m2 hle hsome
    rw [hrad] at *
    have g1 := get_of_mem (hw.verts h) (mem_byId.1 m1)
    have g2 := get_of_mem (hw.verts h) (mem_byId.1 m2)
    cases hx : get rf.data e1.1 with
    | some x => rfl
    | none =>
      rcases Nat.lt_or_eq_of_le hle with hlt | heq
      · rw [hpre _ _ _ _ g1 g2 hlt hx] at hsome; cases hsome
      · rw [← heq, hx] at hsome; cases hsome
  obtain ⟨pre, post, e1, e2, e3⟩ := filter_split (fun id => (radiusAt (some rf) id).isSome) _ hne
  have e3' : ∀ id ∈ post, radiusAt (some rf) id = none := by
    intro id hid
    have := e3 id hid
    cases hx : radiusAt (some rf) id with
    | none => rfl
    | some x => simp [hx] at this
  have hfl : (us.map Prod.fst).filter (fun i => (radiusAt (some rf) i).isSome) = pre := by
    rw [e1, filter_append, filter_eq_self.2 e2, filter_eq_nil_iff.2 (by intro a ha; simp [e3' a ha]), append_nil]
  have hloop : radiiLoop (some rf) (us.map Prod.fst) 0 (replicate
      ((us.map Prod.fst).filter (fun i => (radiusAt (some rf) i).isSome)).length 0) =
      some (pre.map (fun id => (get rf.data id).getD 0)) := by
    rw [hfl]
    conv_lhs => rw [e1]
    rw [radiiLoop_prefix (some rf) post e3' pre 0 _ e2 (by simp)]
    simp [hrad]
  have hprene : pre ≠ [] := by
    obtain ⟨a, p, x, ha, hx⟩ := hone
    have hm' : a ∈ us.map Prod.fst := mem_map.2 ⟨(a, p), mem_byId.2 (get_some_mem ha), rfl⟩
    rw [e1] at hm'
    rcases mem_append.1 hm' with h | h
    · rintro rfl; simp at h
    · have := e3' a h
      rw [hrad, hx] at this; cases this
  obtain ⟨r, d, r1, r2, -, r4⟩ := cloud_run ext hw diag (s := st.call b) (g := g) (h := h) (by rw [q1, hb']; exact hm)
    (by rw [q2, hb']; rfl) (by rw [q3, hb']; exact hf) (by rw [q7, hb']; exact hg) (by rw [q8, hb']; rfl)
    (by rw [q12.1]; simp [linked, hfg]) (by rw [q12.2]; simp [linked, hrg]) (by rw [q6, hb']; exact h0)
    (rl := pre.map (fun id => (get rf.data id).getD 0)) (by rw [q12.2]; exact hloop)
    (R := fun id => (get rf.data id).getD tiny) (by
      rintro a rfl
      have hnl : (((st.call b).loaded (w h).verts (pre.map (fun id => (get rf.data id).getD 0))
          (columns ((us.map Prod.fst).map (valueAt ⟨0, 0, 0⟩ (st.call b).rbfDispl)))).fit).nodes.length =
          (w h).verts.length := by
        rw [← hlen]; simp [Rbf.fit, Rbf.loaded, ← hus]
      unfold Rbf.computeRadii
      rw [if_pos]
      · simp only
        rw [hnl]
        refine ⟨length_resizeWith _ _ _, ?_⟩
        intro i hi
        rw [getD_resizeWith _ _ _ hi]
        show (pre.map (fun id => (get rf.data id).getD 0)).getD i tiny = _
        rw [e1]
        have hlp : pre.length + post.length = (w h).verts.length := by
          rw [← hlen, ← length_map (f := Prod.fst) (as := us), e1, length_append]
        by_cases hip : i < pre.length
        · rw [getD_map _ _ i 0 _ hip, getD_lt hip]
          simp only [getD_lt (show i < (pre ++ post).length by rw [length_append]; omega), getElem_append_left hip]
          have := e2 pre[i] (getElem_mem hip)
          rw [hrad] at this
          obtain ⟨x, hx⟩ := Option.isSome_iff_exists.1 this
          rw [hx]; rfl
        · rw [getD_ge (by simp; omega), getD_lt (by simp; omega), getElem_append_right (by omega)]
          have := e3' (post[i - pre.length]'(by omega)) (getElem_mem _)
          rw [hrad] at this
          rw [this]; rfl
      · show (!(pre.map _).isEmpty) = true
        cases pre with
        | nil => exact absurd rfl hprene
        | cons => rfl) (by
      intro id q hq
      show (get rf.data id).getD tiny ≠ 0
      cases hx : get rf.data id with
      | none => exact tiny_pos.ne'
      | some x => exact hR id x hx)
  refine ⟨r, d, r1, r2, r4.geo, r4.loc, r4.ok, ?_⟩
  intro id
  rw [r4.val id]
  congr 1
  funext p
  have hw' : weightOf w g (st.call b) id = weightOf w g s id := by
    unfold weightOf; rw [q3, q10, hb']; rfl
  have hmv : CloudMoves (st.call b) (diag g) (w h).verts (fun id => (get rf.data id).getD tiny) p ↔
      CloudMoves s (diag g) (w h).verts (fun id => (get rf.data id).getD tiny) p := by
    unfold CloudMoves; rw [q6, q9, hb']; rfl
  have hk : (st.call b).kernel = s.kernel := by rw [q11, hb']; rfl
  simp only [hmv, hw', hk, q12.1]
  rfl

theorem radiiLoop_oob (f : Option (Field Nat ℝ)) {b : Nat} (hb : (radiusAt f b).isSome = true) (post : List Nat) :
    ∀ (pre : List Nat) (count : Nat) (acc : List ℝ), acc.length ≤ count + pre.length →
      radiiLoop f (pre ++ b :: post) count acc = none
  | [], count, acc, h => by
    obtain ⟨r, hr⟩ := Option.isSome_iff_exists.1 hb
    rw [nil_append, radiiLoop, hr]
    simp only
    rw [if_neg (by simpa using h)]
  | a :: pre, count, acc, h => by
    rw [cons_append, radiiLoop]
    simp only [length_cons] at h
    cases hr : radiusAt f a with
    | none => exact radiiLoop_oob f hb post pre (count + 1) acc (by omega)
    | some r =>
      simp only
      split
      · exact radiiLoop_oob f hb post pre (count + 1) _ (by rw [length_set]; omega)
      · rfl

theorem last_split {α : Type} (q : α → Bool) : ∀ (l : List α), (∃ a ∈ l, q a = true) →
    ∃ pre b post, l = pre ++ b :: post ∧ q b = true ∧ ∀ a ∈ post, q a = false
  | [], h => by simp at h
  | a :: l, h => by
    by_cases hl : ∃ c ∈ l, q c = true
    · obtain ⟨pre, b, post, h1, h2, h3⟩ := last_split q l hl
      exact ⟨a :: pre, b, post, by rw [h1]; rfl, h2, h3⟩
    · obtain ⟨c, hc, hq⟩ := h
      rcases mem_cons.1 hc with rfl | hc
      · refine ⟨[], c, l, rfl, hq, ?_⟩
        intro x hx
        cases hqx : q x with
        | false => rfl
        | true => exact absurd ⟨x, hx, hqx⟩ hl
      · exact absurd ⟨c, hc, hq⟩ hl

/-- C118 fails: a field of radii without a value on some vertex of the geometry of the nodes but with a value on a
vertex with a larger id: the execution writes beyond the end of a list. -/
theorem C118_radii_gap_fails (ext : Solver) {w : World} (hw : WorldOk w) (diag : Nat → ℝ) {s : Rbf} (hm : s.mode = .none)
    {g : Nat} (hg : s.geom = some g) (h : Nat) (f : Field Nat V3) (hfg : f.geo = some h) (rf : Field Nat ℝ)
    (hrg : rf.geo = some h) {a b : Nat} {p q : V3} (ha : get (w h).verts a = some p) (hb : get (w h).verts b = some q)
    (hab : a < b) (hra : get rf.data a = none) {x : ℝ} (hrb : get rf.data b = some x) :
    (((s.setNodeGeometry (some h)).setDisplField (some f)).setRadiiField (some rf)).execute ext w diag = none := by
  have hb' : ((s.setNodeGeometry (some h)).setDisplField (some f)).setRadiiField (some rf) =
      { ((s.setNodeGeometry (some h)).setDisplField (some f)) with
      rbfRadii := some rf, srValue := -1, srReal := false } := by
    unfold Rbf.setRadiiField
    rw [if_neg]
    rintro (h | h)
    · cases h
    · exact h hm
  have hrad : ∀ id, radiusAt (some rf) id = get rf.data id := fun id => rfl
  set us := byId (w h).verts with hus
  have hsorted : (us.map Prod.fst).Pairwise (· ≤ ·) := by
    rw [pairwise_map]; exact byId_sorted (w h).verts
  have ma : a ∈ us.map Prod.fst := mem_map.2 ⟨(a, p), mem_byId.2 (get_some_mem ha), rfl⟩
  have mb : b ∈ us.map Prod.fst := mem_map.2 ⟨(b, q), mem_byId.2 (get_some_mem hb), rfl⟩
  obtain ⟨pre, c, post, e1, e2, e3⟩ := last_split (fun id => (radiusAt (some rf) id).isSome) (us.map Prod.fst)
    ⟨b, mb, by rw [hrad, hrb]; rfl⟩
  have hapre : a ∈ pre := by
    rw [e1] at ma mb hsorted
    rcases mem_append.1 ma with h | h
    · exact h
    · exfalso
      rcases mem_cons.1 h with rfl | hpo
      · rw [hrad, hra] at e2; cases e2
      · rw [pairwise_append, pairwise_cons] at hsorted
        rcases mem_append.1 mb with hb1 | hb1
        · have := hsorted.2.2 b hb1 a (by simp [hpo]); omega
        · rcases mem_cons.1 hb1 with rfl | hb1
          · have := hsorted.2.1.1 a hpo; omega
          · have := e3 b hb1
            rw [hrad, hrb] at this; cases this
  have hcount : ((us.map Prod.fst).filter (fun i => (radiusAt (some rf) i).isSome)).length ≤ pre.length := by
    rw [e1, filter_append, filter_cons, if_pos e2, filter_eq_nil_iff (l := post) |>.2 (by intro y hy; simp [e3 y hy])]
    have : (pre.filter (fun i => (radiusAt (some rf) i).isSome)).length < pre.length := by
      rw [length_filter_lt_length_iff_exists]
      exact ⟨a, hapre, by simp [hrad, hra]⟩
    rw [length_append, length_cons, length_nil]; omega
  unfold Rbf.execute
  rw [hb']
  rw [show ({ ((s.setNodeGeometry (some h)).setDisplField (some f)) with
      rbfRadii := some rf, srValue := -1, srReal := false } : Rbf).geom = some g from hg,
    show ({ ((s.setNodeGeometry (some h)).setDisplField (some f)) with
      rbfRadii := some rf, srValue := -1, srReal := false } : Rbf).rbfGeom = some h from rfl]
  simp only
  have hinit : ({ ((s.setNodeGeometry (some h)).setDisplField (some f)) with
      rbfRadii := some rf, srValue := -1, srReal := false } : Rbf).init w h = none := by
    unfold Rbf.init
    rw [if_neg (by simp [Rbf.setDisplField, linked, hfg, hrg])]
    simp only
    rw [← hus]
    have hl := radiiLoop_oob (some rf) (b := c) e2 post pre 0 (replicate
      ((us.map Prod.fst).filter (fun i => (radiusAt (some rf) i).isSome)).length 0) (by simpa using hcount)
    rw [← e1] at hl
    rw [hl]
    rfl
  rw [hinit]

/-! ### Cases -/

/-- displacements and radii on the vertices 0, 4, 7 of the geometry 0 -/
def demoDispl : Field Nat V3 := ⟨some 0, defaultName, .point, [(4, ⟨1, 0, 0⟩)]⟩
def demoRadii : Field Nat ℝ := ⟨some 0, defaultName, .point, [(0, 2), (4, 3)]⟩
def gapRadii : Field Nat ℝ := ⟨some 0, defaultName, .point, [(7, 2)]⟩

example : demo.rbfRadii = none ∧ demoDispl.geo = some 0 ∧ demoRadii.geo = some 0 ∧
    valueOf demoDispl 4 = ⟨1, 0, 0⟩ ∧ valueOf demoDispl 7 = zero3 ∧
    (∀ a b p q, get (demoWorld 0).verts a = some p → get (demoWorld 0).verts b = some q → a < b →
      get demoRadii.data a = none → get demoRadii.data b = none) ∧
    (∃ a p x, get (demoWorld 0).verts a = some p ∧ get demoRadii.data a = some x) ∧
    (∀ a x, get demoRadii.data a = some x → x ≠ 0) := by
  refine ⟨rfl, rfl, rfl, ?_, ?_, ?_, ⟨0, ⟨0, 0, 0⟩, 2, ?_, ?_⟩, ?_⟩
  · simp [valueOf, demoDispl, Field.get]
  · simp [valueOf, demoDispl, Field.get]
  · intro a b p q ha hb hab hx
    simp only [demoRadii, Field.get] at hx ⊢
    by_cases h0 : b = 0
    · omega
    · by_cases h4 : b = 4
      · subst h4
        have ha' : a = 0 ∨ a = 4 ∨ a = 7 := by
          have := mem_ids.2 ⟨p, ha⟩
          simpa [demoWorld, demoObj] using this
        rcases ha' with rfl | rfl | rfl
        · simp at hx
        · omega
        · omega
      · have h1 : ¬ 0 = b := by omega
        have h2 : ¬ 4 = b := by omega
        simp [h1, h2, h0, h4]
  · simp [demoWorld, demoObj, Field.get]
  · simp [demoRadii, Field.get]
  · intro a x hx
    have := get_some_mem hx
    simp only [demoRadii, mem_cons, Prod.mk.injEq, not_mem_nil, or_false] at this
    rcases this with ⟨-, rfl⟩ | ⟨-, rfl⟩ <;> norm_num

example : gapRadii.geo = some 0 ∧ get (demoWorld 0).verts 0 = some ⟨0, 0, 0⟩ ∧
    get (demoWorld 0).verts 7 = some ⟨0, 2, 0⟩ ∧ get gapRadii.data 0 = none ∧ get gapRadii.data 7 = some 2 ∧
    demoDispl.geo ≠ some 1 := by
  simp [gapRadii, demoDispl, demoWorld, demoObj, Field.get]

end

end Verif.Rbf
