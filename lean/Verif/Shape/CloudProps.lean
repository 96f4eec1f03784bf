import Verif.Shape.LostProps
/-
C67: selection of vertices.
-/
namespace Verif.Shape
open Real

/-- the labelled points of a tree -/
def Kd.points : Kd → List (V3 × Nat)
  | .nil => []
  | .node p label l r => (p, label) :: (l.points ++ r.points)

/-- at each node the points on the left are not above it and those on the right not below it, along the direction of
the level (bitpit's guarantee) -/
def Kd.Valid : Nat → Kd → Prop
  | _, .nil => True
  | level, .node p _ l r => (∀ e ∈ l.points, e.1.at (level % 3) ≤ p.at (level % 3)) ∧ (∀ e ∈ r.points, p.at (level % 3) ≤ e.1.at (level % 3)) ∧
      l.Valid (level + 1) ∧ r.Valid (level + 1)

theorem at_inB {lo hi p : V3} (h : InB lo hi p) (i : Nat) : lo.at i ≤ p.at i ∧ p.at i ≤ hi.at i := by
  match i with
  | 0 => exact h.1
  | 1 => exact h.2.1
  | n + 2 => exact h.2.2

theorem planeTest_cases (b : V3 × V3) (i : Nat) (p : V3) :
    (planeTest b i p = 1 ∧ p.at i < b.1.at i) ∨ (planeTest b i p = 0 ∧ p.at i > b.2.at i) ∨
      (planeTest b i p = 2) := by
  unfold planeTest
  split
  · exact .inl ⟨rfl, by assumption⟩
  · split
    · exact .inr (.inl ⟨rfl, by assumption⟩)
    · exact .inr (.inr rfl)

/-- the children pushed -/
theorem kdLoop_node (b : V3 × V3) (tol : ℝ) (p : V3) (label : Nat) (l r : Kd) (level : Nat) (st : List (Kd × Nat)) :
    ∃ kids : List (Kd × Nat), (∀ e ∈ kids, e = (l, level + 1) ∨ e = (r, level + 1)) ∧
      (¬ p.at (level % 3) > b.2.at (level % 3) → (r, level + 1) ∈ kids) ∧ (¬ p.at (level % 3) < b.1.at (level % 3) → (l, level + 1) ∈ kids) ∧
      kids.Sublist [(r, level + 1), (l, level + 1)] ∧
      (inBox tol b p → kdLoop b tol ((.node p label l r, level) :: st) = (p, label) :: kdLoop b tol (kids ++ st)) ∧
      (¬ inBox tol b p → kdLoop b tol ((.node p label l r, level) :: st) = kdLoop b tol (kids ++ st)) ∧
      (p.at (level % 3) < b.1.at (level % 3) → kids = [(r, level + 1)]) ∧
      (p.at (level % 3) > b.2.at (level % 3) → ¬ p.at (level % 3) < b.1.at (level % 3) → kids = [(l, level + 1)]) := by
  rcases planeTest_cases b (level % 3) p with ⟨h, h'⟩ | ⟨h, h'⟩ | h
  · refine ⟨[(r, level + 1)], by simp, by simp, fun hn => absurd h' hn, by simp, fun hb => ?_, fun hb => ?_, fun _ => rfl, fun _ hn => absurd h' hn⟩
    · rw [kdLoop]; simp [h, hb]
    · rw [kdLoop]; simp [h, hb]
  · refine ⟨[(l, level + 1)], by simp, fun hn => absurd h' hn, by simp, by simp, fun hb => ?_, fun hb => ?_, fun hlt => ?_, fun _ _ => rfl⟩
    · rw [kdLoop]; simp [h, hb]
    · rw [kdLoop]; simp [h, hb]
    · unfold planeTest at h; rw [if_pos hlt] at h; cases h
  · refine ⟨[(r, level + 1), (l, level + 1)], by intro e he; simp at he; tauto, by simp, by simp, by simp, fun hb => ?_, fun hb => ?_, fun hlt => ?_, fun hgt hn => ?_⟩
    · rw [kdLoop]; simp [h, hb]
    · rw [kdLoop]; simp [h, hb]
    · unfold planeTest at h; rw [if_pos hlt] at h; cases h
    · unfold planeTest at h; rw [if_neg hn, if_pos hgt] at h; cases h

def stSize (st : List (Kd × Nat)) : Nat := (st.map (fun e => 2 * e.1.size + 1)).sum

theorem kids_size {l r : Kd} {level : Nat} {kids : List (Kd × Nat)} (h : kids.Sublist [(r, level + 1), (l, level + 1)]) (p : V3) (label : Nat)
    (st : List (Kd × Nat)) : stSize (kids ++ st) < stSize ((.node p label l r, level) :: st) := by
  have : (kids.map (fun e => 2 * e.1.size + 1)).sum ≤ ([(r, level + 1), (l, level + 1)].map (fun e : Kd × Nat => 2 * e.1.size + 1)).sum :=
    List.Sublist.sum_le_sum (h.map _) (by simp)
  simp only [stSize, List.map_append, List.sum_append, List.map_cons, List.sum_cons, Kd.size, List.map_nil, List.sum_nil] at this ⊢
  omega

/-- only points of the tree -/
theorem kdLoop_mem (b : V3 × V3) (tol : ℝ) (e : V3 × Nat) : ∀ n, ∀ st : List (Kd × Nat), stSize st ≤ n → e ∈ kdLoop b tol st → ∃ x ∈ st, e ∈ x.1.points := by
  intro n
  induction n with
  | zero =>
    intro st hs he
    cases st with
    | nil => simp [kdLoop] at he
    | cons x st => simp [stSize] at hs
  | succ n ih =>
    intro st hs he
    cases st with
    | nil => simp [kdLoop] at he
    | cons x st =>
      obtain ⟨t, level⟩ := x
      cases t with
      | nil =>
        rw [kdLoop] at he
        obtain ⟨x, hx, h⟩ := ih st (by simp [stSize] at hs ⊢; omega) he
        exact ⟨x, by simp [hx], h⟩
      | node p label l r =>
        obtain ⟨kids, h1, h2, h3, h4, h5, h6, -⟩ := kdLoop_node b tol p label l r level st
        have hsz := kids_size h4 p label st
        have key : e ∈ kdLoop b tol (kids ++ st) → ∃ x ∈ (Kd.node p label l r, level) :: st, e ∈ x.1.points := by
          intro he
          obtain ⟨x, hx, h⟩ := ih _ (by omega) he
          rcases List.mem_append.1 hx with hx | hx
          · refine ⟨_, List.mem_cons_self, ?_⟩
            rcases h1 x hx with rfl | rfl
            · simp [Kd.points, h]
            · simp [Kd.points, h]
          · exact ⟨x, by simp [hx], h⟩
        by_cases hb : inBox tol b p
        · rw [h5 hb] at he
          rcases List.mem_cons.1 he with rfl | he
          · exact ⟨_, List.mem_cons_self, by simp [Kd.points]⟩
          · exact key he
        · rw [h6 hb] at he; exact key he

/-- each at most as many times as in the stack -/
theorem kdLoop_count (b : V3 × V3) (tol : ℝ) (k : Nat) : ∀ n, ∀ st : List (Kd × Nat), stSize st ≤ n →
    ((kdLoop b tol st).map Prod.snd).count k ≤ ((st.map (fun x => x.1.points.map Prod.snd)).flatten).count k := by
  intro n
  induction n with
  | zero =>
    intro st hs
    cases st with
    | nil => simp [kdLoop]
    | cons x st => simp [stSize] at hs
  | succ n ih =>
    intro st hs
    cases st with
    | nil => simp [kdLoop]
    | cons x st =>
      obtain ⟨t, level⟩ := x
      cases t with
      | nil =>
        rw [kdLoop]
        have := ih st (by simp [stSize] at hs ⊢; omega)
        simpa [Kd.points] using this
      | node p label l r =>
        obtain ⟨kids, h1, h2, h3, h4, h5, h6, -⟩ := kdLoop_node b tol p label l r level st
        have hsz := kids_size h4 p label st
        have := ih (kids ++ st) (by omega)
        have hk : ((kids.map (fun x => x.1.points.map Prod.snd)).flatten).count k ≤
            (([(r, level + 1), (l, level + 1)].map (fun x : Kd × Nat => x.1.points.map Prod.snd)).flatten).count k :=
          List.Sublist.count_le _ (List.Sublist.flatten (h4.map _))
        simp only [List.map_append, List.flatten_append, List.count_append, List.map_cons, List.flatten_cons, List.map_nil, List.flatten_nil,
          List.append_nil, Kd.points, List.count_cons] at this hk ⊢
        by_cases hb : inBox tol b p
        · rw [h5 hb]
          simp only [List.map_cons, List.count_cons]
          omega
        · rw [h6 hb]; omega

/-- every point of the box is found -/
theorem kdLoop_complete {b : V3 × V3} {tol : ℝ} (ht : 0 ≤ tol) {e : V3 × Nat} (hb : InB b.1 b.2 e.1) : ∀ n, ∀ st : List (Kd × Nat), stSize st ≤ n →
    (∀ x ∈ st, x.1.Valid x.2) → (∃ x ∈ st, e ∈ x.1.points) → e ∈ kdLoop b tol st := by
  intro n
  induction n with
  | zero =>
    intro st hs _ he
    cases st with
    | nil => simp at he
    | cons x st => simp [stSize] at hs
  | succ n ih =>
    intro st hs hv he
    cases st with
    | nil => simp at he
    | cons x st =>
      obtain ⟨t, level⟩ := x
      obtain ⟨x, hx, hex⟩ := he
      cases t with
      | nil =>
        rw [kdLoop]
        rcases List.mem_cons.1 hx with rfl | hx
        · simp [Kd.points] at hex
        · exact ih st (by simp [stSize] at hs ⊢; omega) (fun x h => hv x (by simp [h])) ⟨x, hx, hex⟩
      | node p label l r =>
        obtain ⟨kids, h1, h2, h3, h4, h5, h6, -⟩ := kdLoop_node b tol p label l r level st
        have hsz := kids_size h4 p label st
        have h0 := hv _ List.mem_cons_self
        simp only [Kd.Valid] at h0
        have hv' : ∀ x ∈ kids ++ st, x.1.Valid x.2 := by
          intro x hx
          rcases List.mem_append.1 hx with hx | hx
          · rcases h1 x hx with rfl | rfl
            · exact h0.2.2.1
            · exact h0.2.2.2
          · exact hv x (by simp [hx])
        have sub : (∃ x ∈ kids ++ st, e ∈ x.1.points) → e ∈ kdLoop b tol ((.node p label l r, level) :: st) := by
          intro he
          have := ih _ (by omega) hv' he
          by_cases hbp : inBox tol b p
          · rw [h5 hbp]; exact List.mem_cons_of_mem _ this
          · rw [h6 hbp]; exact this
        have ha := at_inB hb (level % 3)
        rcases List.mem_cons.1 hx with rfl | hx
        · simp only [Kd.points, List.mem_cons, List.mem_append] at hex
          rcases hex with rfl | hex | hex
          · have hbp : inBox tol b p := by
              intro i _
              have := at_inB hb i
              simp only at this
              exact ⟨by linarith [this.1], by linarith [this.2]⟩
            rw [h5 hbp]; exact List.mem_cons_self
          · apply sub
            refine ⟨(l, level + 1), List.mem_append_left _ (h3 ?_), hex⟩
            have := h0.1 e hex
            intro hlt; linarith [ha.1]
          · apply sub
            refine ⟨(r, level + 1), List.mem_append_left _ (h2 ?_), hex⟩
            have := h0.2.1 e hex
            intro hgt; linarith [ha.2]
        · exact sub ⟨x, List.mem_append_right _ hx, hex⟩

theorem includeCloud_mem {s : Shape} {tol : ℝ} {t : Kd} {k : Nat} :
    k ∈ includeCloud s tol t ↔ ∃ p, (p, k) ∈ kdLoop (bbox s) tol [(t, 0)] ∧ pointIncluded s p := by
  unfold includeCloud
  simp only [List.mem_map, List.mem_filter, decide_eq_true_eq]
  constructor
  · rintro ⟨⟨p, k'⟩, ⟨h1, h2⟩, rfl⟩; exact ⟨p, h1, h2⟩
  · rintro ⟨p, h1, h2⟩; exact ⟨(p, k), ⟨h1, h2⟩, rfl⟩

/-- C67: of any shape, only vertices in the solid (up to the tolerance) are returned, and each once. -/
theorem C67_include_sound {s : Shape} (h : Proper s) (tol : ℝ) (t : Kd) :
    (∀ k ∈ includeCloud s tol t, ∃ p, (p, k) ∈ t.points ∧ Near s p) ∧
    ((t.points.map Prod.snd).Nodup → (includeCloud s tol t).Nodup) := by
  constructor
  · intro k hk
    obtain ⟨p, h1, h2⟩ := includeCloud_mem.1 hk
    obtain ⟨x, hx, hp⟩ := kdLoop_mem _ _ _ _ _ (le_refl _) h1
    have : x = (t, 0) := by simpa using hx
    subst this
    exact ⟨p, hp, C65_point_sound h h2⟩
  · intro hn
    rw [List.nodup_iff_count]
    intro k
    have h1 := kdLoop_count (bbox s) tol k _ [(t, 0)] (le_refl _)
    have h2 : (includeCloud s tol t).count k ≤ ((kdLoop (bbox s) tol [(t, 0)]).map Prod.snd).count k := by
      unfold includeCloud
      exact List.Sublist.count_le _ (List.filter_sublist.map _)
    have h3 := List.nodup_iff_count.1 hn k
    simp at h1
    omega

example : ((Kd.node ⟨0, 0, 0⟩ 4 (.node ⟨-1, 0, 0⟩ 6 .nil .nil) .nil).points.map Prod.snd).Nodup := by simp [Kd.points]

/-! ### The bounding box of a shape -/

/-- the values of the samples are within the bounding box -/
theorem bbox_samples (s : Shape) {v : V3} (hv : v ∈ samples s.kind) : InB (bbox s).1 (bbox s).2 (toWorld s (basicToLocal s v)) := by
  have := bounds_mem ((samples s.kind).map (fun v => toWorld s (basicToLocal s v))) (⟨10 ^ 18, 10 ^ 18, 10 ^ 18⟩, ⟨-10 ^ 18, -10 ^ 18, -10 ^ 18⟩)
  rw [List.foldl_map] at this
  exact this.2 _ (List.mem_map.2 ⟨v, hv, rfl⟩)

theorem inB_of_samples {s : Shape} {p : V3}
    (h : ∀ g ∈ ([V3.x, V3.y, V3.z] : List (V3 → ℝ)), (∃ v ∈ samples s.kind, g p ≤ g (toWorld s (basicToLocal s v))) ∧
      (∃ v ∈ samples s.kind, g (toWorld s (basicToLocal s v)) ≤ g p)) : InB (bbox s).1 (bbox s).2 p := by
  obtain ⟨⟨a, ha, ha'⟩, ⟨b, hb, hb'⟩⟩ := h V3.x (by simp)
  obtain ⟨⟨c, hc, hc'⟩, ⟨d, hd, hd'⟩⟩ := h V3.y (by simp)
  obtain ⟨⟨e, he, he'⟩, ⟨f, hf, hf'⟩⟩ := h V3.z (by simp)
  have i1 := bbox_samples s ha
  have i2 := bbox_samples s hb
  have i3 := bbox_samples s hc
  have i4 := bbox_samples s hd
  have i5 := bbox_samples s he
  have i6 := bbox_samples s hf
  exact ⟨⟨le_trans i2.1.1 hb', le_trans ha' i1.1.2⟩, ⟨le_trans i4.2.1.1 hd', le_trans hc' i3.2.1.2⟩, le_trans i6.2.2.1 hf', le_trans he' i5.2.2.2⟩

/-- a function affine in each parameter has its extremes at the corners of the unit box -/
theorem affine_corners {g : V3 → ℝ} (hx : ∀ y z, ∃ a b, ∀ t, g ⟨t, y, z⟩ = a * t + b) (hy : ∀ x z, ∃ a b, ∀ t, g ⟨x, t, z⟩ = a * t + b)
    (hz : ∀ x y, ∃ a b, ∀ t, g ⟨x, y, t⟩ = a * t + b) {t : V3} (ht : InB ⟨0, 0, 0⟩ ⟨1, 1, 1⟩ t) :
    (∃ v ∈ corners ⟨0, 0, 0⟩ ⟨1, 1, 1⟩, g t ≤ g v) ∧ ∃ v ∈ corners ⟨0, 0, 0⟩ ⟨1, 1, 1⟩, g v ≤ g t := by
  have lin : ∀ (a b l h u : ℝ), l ≤ u → u ≤ h → (a * u + b ≤ a * l + b ∨ a * u + b ≤ a * h + b) := by
    intro a b l h u h1 h2
    have := quad_max (a := 0) (b := a) (c := b) (le_refl _) h1 h2
    simpa using this
  constructor
  · apply corner_max _ _ _ ht
    · intro y z l h u h1 h2; obtain ⟨a, b, e⟩ := hx y z; rw [e, e, e]; exact lin a b l h u h1 h2
    · intro y z l h u h1 h2; obtain ⟨a, b, e⟩ := hy y z; rw [e, e, e]; exact lin a b l h u h1 h2
    · intro y z l h u h1 h2; obtain ⟨a, b, e⟩ := hz y z; rw [e, e, e]; exact lin a b l h u h1 h2
  · have lin' : ∀ (a b l h u : ℝ), l ≤ u → u ≤ h → (-(a * u + b) ≤ -(a * l + b) ∨ -(a * u + b) ≤ -(a * h + b)) := by
      intro a b l h u h1 h2
      rcases lin (-a) (-b) l h u h1 h2 with h | h
      · left; linarith
      · right; linarith
    obtain ⟨v, hv, hle⟩ := corner_max (f := fun v => - g v) (p := t) (by
        intro y z l h u h1 h2; obtain ⟨a, b, e⟩ := hx y z; rw [e, e, e]; exact lin' a b l h u h1 h2) (by
        intro y z l h u h1 h2; obtain ⟨a, b, e⟩ := hy y z; rw [e, e, e]; exact lin' a b l h u h1 h2) (by
        intro y z l h u h1 h2; obtain ⟨a, b, e⟩ := hz y z; rw [e, e, e]; exact lin' a b l h u h1 h2) ht
    exact ⟨v, hv, by linarith⟩

theorem flat_bbox {s : Shape} (hk : s.kind = .cube ∨ s.kind = .wedge) {p : V3} (hs : Solid s p) : InB (bbox s).1 (bbox s).2 p := by
  obtain ⟨t, hx, hy, hz, rfl⟩ := hs
  have ht : InB ⟨0, 0, 0⟩ ⟨1, 1, 1⟩ t := ⟨hx, hy, hz⟩
  have hsub : ∀ v ∈ corners (⟨0, 0, 0⟩ : V3) ⟨1, 1, 1⟩, v ∈ samples s.kind := by
    intro v hv
    have : samples s.kind = [⟨0, 0, 0⟩, ⟨1, 1, 1⟩, ⟨1, 1, 0⟩, ⟨0, 0, 1⟩, ⟨1, 0, 0⟩, ⟨0, 1, 1⟩, ⟨0, 1, 0⟩, ⟨1, 0, 1⟩] := by
      rcases hk with hk | hk <;> rw [hk] <;> rfl
    rw [this]
    simp only [corners, List.mem_cons, List.not_mem_nil, or_false] at hv ⊢
    tauto
  -- the map is affine in each parameter
  have haff : ∃ A : V3 → V3 → ℝ, ∀ r : V3, ∀ t : V3, dot (straight s ((duffy s (basicToLocal s t)).mul s.scaling)) r =
      (if s.kind = .cube then (t.x - 1 / 2) * s.scaling.x * r.x + (t.y - 1 / 2) * s.scaling.y * r.y + (t.z - 1 / 2) * s.scaling.z * r.z
       else t.x * s.scaling.x * r.x + t.y * (1 - t.x) * s.scaling.y * r.y + (t.z - 1 / 2) * s.scaling.z * r.z) := by
    refine ⟨fun _ _ => 0, fun r t => ?_⟩
    rcases hk with hk | hk
    · simp [straight, duffy, basicToLocal, localOrigin, hk, V3.mul, dot]; ring
    · simp only [straight, duffy, basicToLocal, localOrigin, hk, V3.mul, dot, reduceCtorEq, if_false, add_x, add_y, add_z]; ring
  obtain ⟨-, haff⟩ := haff
  have key : ∀ (r : V3) (c : ℝ), (∃ v ∈ samples s.kind, dot (straight s ((duffy s (basicToLocal s t)).mul s.scaling)) r + c ≤
      dot (straight s ((duffy s (basicToLocal s v)).mul s.scaling)) r + c) ∧
      (∃ v ∈ samples s.kind, dot (straight s ((duffy s (basicToLocal s v)).mul s.scaling)) r + c ≤
      dot (straight s ((duffy s (basicToLocal s t)).mul s.scaling)) r + c) := by
    intro r c
    have := affine_corners (g := fun t => dot (straight s ((duffy s (basicToLocal s t)).mul s.scaling)) r + c) (t := t) (by
        intro y z
        rcases hk with hk | hk
        · exact ⟨s.scaling.x * r.x, -(1 / 2) * s.scaling.x * r.x + (y - 1 / 2) * s.scaling.y * r.y + (z - 1 / 2) * s.scaling.z * r.z + c,
            fun t => by rw [haff]; simp only [hk, if_true]; ring⟩
        · exact ⟨s.scaling.x * r.x - y * s.scaling.y * r.y, y * s.scaling.y * r.y + (z - 1 / 2) * s.scaling.z * r.z + c,
            fun t => by rw [haff]; simp [hk]; ring⟩) (by
        intro x z
        rcases hk with hk | hk
        · exact ⟨s.scaling.y * r.y, (x - 1 / 2) * s.scaling.x * r.x + -(1 / 2) * s.scaling.y * r.y + (z - 1 / 2) * s.scaling.z * r.z + c,
            fun t => by rw [haff]; simp only [hk, if_true]; ring⟩
        · exact ⟨(1 - x) * s.scaling.y * r.y, x * s.scaling.x * r.x + (z - 1 / 2) * s.scaling.z * r.z + c,
            fun t => by rw [haff]; simp [hk]; ring⟩) (by
        intro x y
        rcases hk with hk | hk
        · exact ⟨s.scaling.z * r.z, (x - 1 / 2) * s.scaling.x * r.x + (y - 1 / 2) * s.scaling.y * r.y + -(1 / 2) * s.scaling.z * r.z + c,
            fun t => by rw [haff]; simp only [hk, if_true]; ring⟩
        · exact ⟨s.scaling.z * r.z, x * s.scaling.x * r.x + y * (1 - x) * s.scaling.y * r.y + -(1 / 2) * s.scaling.z * r.z + c,
            fun t => by rw [haff]; simp [hk]; ring⟩) ht
    obtain ⟨⟨v, hv, h1⟩, ⟨w, hw, h2⟩⟩ := this
    exact ⟨⟨v, hsub v hv, h1⟩, ⟨w, hsub w hw, h2⟩⟩
  apply inB_of_samples
  intro g hg
  simp only [List.mem_cons, List.not_mem_nil, or_false] at hg
  rcases hg with rfl | rfl | rfl
  · exact key s.sdrInv.r0 s.origin.x
  · exact key s.sdrInv.r1 s.origin.y
  · exact key s.sdrInv.r2 s.origin.z

/-- whole cylinders and spheres with the default frame and start angle -/
def Standard (s : Shape) : Prop :=
  match s.kind with
  | .cube => True
  | .wedge => True
  | .cylinder => s.span.y = 2 * π ∧ s.inf.y = 0 ∧ s.sdr = .one
  | .sphere => s.span.y = 2 * π ∧ s.inf.y = 0 ∧ s.span.z = π ∧ s.sdr = .one

theorem standard_no_cut {s : Shape} (hs : Standard s) (p : V3) : ¬ AxisCut s p := by
  rintro ⟨hk | ⟨hk, -⟩, -, -, hpos, -⟩
  · have : s.span.y = 2 * π ∧ s.inf.y = 0 ∧ s.sdr = .one := by simpa [Standard, hk] using hs
    rw [this.2.1] at hpos; exact lt_irrefl _ hpos
  · have : s.span.y = 2 * π ∧ s.inf.y = 0 ∧ s.span.z = π ∧ s.sdr = .one := by simpa [Standard, hk] using hs
    rw [this.2.1] at hpos; exact lt_irrefl _ hpos

theorem quarters : cos (1 / 4 * (2 * π)) = 0 ∧ sin (1 / 4 * (2 * π)) = 1 ∧ cos (1 / 2 * (2 * π)) = -1 ∧ sin (1 / 2 * (2 * π)) = 0 ∧
    cos (3 / 4 * (2 * π)) = 0 ∧ sin (3 / 4 * (2 * π)) = -1 := by
  have e1 : 1 / 4 * (2 * π) = π / 2 := by ring
  have e2 : 1 / 2 * (2 * π) = π := by ring
  have e3 : 3 / 4 * (2 * π) = π / 2 + π := by ring
  rw [e1, e2, e3, cos_add_pi, sin_add_pi]
  simp

theorem cyl_bbox {s : Shape} (h : Proper s) (hk : s.kind = .cylinder) (hst : Standard s) {p : V3} (hs : Solid s p) : InB (bbox s).1 (bbox s).2 p := by
  obtain ⟨hf, hi, ha⟩ : s.span.y = 2 * π ∧ s.inf.y = 0 ∧ s.sdr = .one := by simpa [Standard, hk] using hst
  have hsy := h.limits.2.scY (.inl hk)
  have hinv : s.sdrInv = .one := by rw [h.frame.inv, ha]; simp [M3.one, M3.inverse, M3.det]
  have hw : ∀ t : V3, toWorld s (basicToLocal s t) =
      ⟨(t.x * s.scaling.x + s.inf.x) * cos (t.y * (2 * π)) + s.origin.x, (t.x * s.scaling.x + s.inf.x) * sin (t.y * (2 * π)) + s.origin.y,
        (t.z - 1 / 2) * s.scaling.z + s.origin.z⟩ := by
    intro t
    simp [toWorld, straight, duffy, basicToLocal, localOrigin, hk, V3.mul, hsy, hi, hf, hinv, M3.app, M3.one, dot]
    ext <;> simp
    left; ring
  obtain ⟨t, hx, hy, hz, rfl⟩ := hs
  have hmem : ∀ i ∈ ([0, 1] : List ℝ), ∀ j ∈ ([0, 1, 2, 3, 4] : List ℝ), ∀ k ∈ ([0, 1] : List ℝ), (⟨i * 1, j * 0.25, k * 1⟩ : V3) ∈ samples s.kind := by
    intro i hi j hj k hk'
    rw [hk]
    simp only [samples, List.mem_flatMap, List.mem_map]
    exact ⟨i, hi, j, hj, k, hk', rfl⟩
  have v0 := hmem 1 (by simp) 0 (by simp) 0 (by simp)
  have v1 := hmem 1 (by simp) 1 (by simp) 0 (by simp)
  have v2 := hmem 1 (by simp) 2 (by simp) 0 (by simp)
  have v3 := hmem 1 (by simp) 3 (by simp) 0 (by simp)
  have v4 := hmem 1 (by simp) 0 (by simp) 1 (by simp)
  norm_num at v0 v1 v2 v3 v4
  obtain ⟨q1, q2, q3, q4, q5, q6⟩ := quarters
  have hR : 0 ≤ t.x * s.scaling.x + s.inf.x := add_nonneg (mul_nonneg hx.1 h.scX.le) h.limits.1.infX
  have hR1 : t.x * s.scaling.x + s.inf.x ≤ s.scaling.x + s.inf.x := by nlinarith [h.scX, hx.2]
  have c1 := neg_one_le_cos (t.y * (2 * π))
  have c2 := cos_le_one (t.y * (2 * π))
  have s1 := neg_one_le_sin (t.y * (2 * π))
  have s2 := sin_le_one (t.y * (2 * π))
  apply inB_of_samples
  intro g hg
  simp only [List.mem_cons, List.not_mem_nil, or_false] at hg
  rcases hg with rfl | rfl | rfl
  · refine ⟨⟨_, v0, ?_⟩, ⟨_, v2, ?_⟩⟩
    · rw [hw, hw]; simp only [zero_mul, cos_zero, one_mul]; nlinarith
    · rw [hw, hw]; simp only [one_mul, q3]; nlinarith
  · refine ⟨⟨_, v1, ?_⟩, ⟨_, v3, ?_⟩⟩
    · rw [hw, hw]; simp only [one_mul, q2]; nlinarith
    · rw [hw, hw]; simp only [one_mul, q6]; nlinarith
  · have := h.scZ
    refine ⟨⟨_, v4, ?_⟩, ⟨_, v0, ?_⟩⟩
    · rw [hw, hw]; simp only; nlinarith [hz.2]
    · rw [hw, hw]; simp only; nlinarith [hz.1]

theorem sphere_bbox {s : Shape} (h : Proper s) (hk : s.kind = .sphere) (hst : Standard s) {p : V3} (hs : Solid s p) : InB (bbox s).1 (bbox s).2 p := by
  obtain ⟨hf, hi, hfz, ha⟩ : s.span.y = 2 * π ∧ s.inf.y = 0 ∧ s.span.z = π ∧ s.sdr = .one := by simpa [Standard, hk] using hst
  have hsy := h.limits.2.scY (.inr hk)
  have hsz := h.limits.2.scZ hk
  have hiz : s.inf.z = 0 := by
    have h1 := h.limits.1.polar hk
    have h2 := h.limits.1.infZ
    simp only [getSpan, hsz, hfz] at h1
    linarith
  have hinv : s.sdrInv = .one := by rw [h.frame.inv, ha]; simp [M3.one, M3.inverse, M3.det]
  have hw : ∀ t : V3, toWorld s (basicToLocal s t) =
      ⟨(t.x * s.scaling.x + s.inf.x) * cos (t.y * (2 * π)) * sin (t.z * π) + s.origin.x,
        (t.x * s.scaling.x + s.inf.x) * sin (t.y * (2 * π)) * sin (t.z * π) + s.origin.y,
        (t.x * s.scaling.x + s.inf.x) * cos (t.z * π) + s.origin.z⟩ := by
    intro t
    simp [toWorld, straight, duffy, basicToLocal, localOrigin, hk, V3.mul, hsy, hsz, hi, hiz, hf, hfz, hinv, M3.app, M3.one, dot]
    ext <;> simp
  obtain ⟨t, hx, hy, hz, rfl⟩ := hs
  have hmem : ∀ i ∈ ([0, 1] : List ℝ), ∀ j ∈ ([0, 1, 2, 3, 4] : List ℝ), ∀ k ∈ ([0, 1, 2] : List ℝ), (⟨i * 1, j * 0.25, k * 0.5⟩ : V3) ∈ samples s.kind := by
    intro i hi j hj k hk'
    rw [hk]
    simp only [samples, List.mem_flatMap, List.mem_map]
    exact ⟨i, hi, j, hj, k, hk', rfl⟩
  have v0 := hmem 1 (by simp) 0 (by simp) 1 (by simp)
  have v1 := hmem 1 (by simp) 1 (by simp) 1 (by simp)
  have v2 := hmem 1 (by simp) 2 (by simp) 1 (by simp)
  have v3 := hmem 1 (by simp) 3 (by simp) 1 (by simp)
  have v4 := hmem 1 (by simp) 0 (by simp) 0 (by simp)
  have v5 := hmem 1 (by simp) 0 (by simp) 2 (by simp)
  norm_num at v0 v1 v2 v3 v4 v5
  obtain ⟨q1, q2, q3, q4, q5, q6⟩ := quarters
  have hh : sin (1 / 2 * π) = 1 := by have : 1 / 2 * π = π / 2 := by ring
                                      rw [this, sin_pi_div_two]
  have hR : 0 ≤ t.x * s.scaling.x + s.inf.x := add_nonneg (mul_nonneg hx.1 h.scX.le) h.limits.1.infX
  have hR1 : t.x * s.scaling.x + s.inf.x ≤ s.scaling.x + s.inf.x := by nlinarith [h.scX, hx.2]
  have hsin : 0 ≤ sin (t.z * π) := sin_nonneg_of_nonneg_of_le_pi (mul_nonneg hz.1 pi_pos.le) (by nlinarith [pi_pos, hz.2])
  have hsin1 := sin_le_one (t.z * π)
  -- a product with the two trigonometric factors is within the radius
  have prod : ∀ c u : ℝ, -1 ≤ c → c ≤ 1 → 0 ≤ u → u ≤ 1 → -(s.scaling.x + s.inf.x) ≤ (t.x * s.scaling.x + s.inf.x) * c * u ∧
      (t.x * s.scaling.x + s.inf.x) * c * u ≤ s.scaling.x + s.inf.x := by
    intro c u hc1 hc2 hu1 hu2
    generalize t.x * s.scaling.x + s.inf.x = R at *
    generalize s.scaling.x + s.inf.x = R1 at *
    have hcu : -1 ≤ c * u ∧ c * u ≤ 1 := by constructor <;> nlinarith
    constructor <;> nlinarith
  apply inB_of_samples
  intro g hg
  simp only [List.mem_cons, List.not_mem_nil, or_false] at hg
  rcases hg with rfl | rfl | rfl
  · have := prod _ _ (neg_one_le_cos (t.y * (2 * π))) (cos_le_one _) hsin hsin1
    refine ⟨⟨_, v0, ?_⟩, ⟨_, v2, ?_⟩⟩
    · rw [hw, hw]; simp only [zero_mul, cos_zero, one_mul, hh]; linarith [this.2]
    · rw [hw, hw]; simp only [one_mul, q3, hh]; linarith [this.1]
  · have := prod _ _ (neg_one_le_sin (t.y * (2 * π))) (sin_le_one _) hsin hsin1
    refine ⟨⟨_, v1, ?_⟩, ⟨_, v3, ?_⟩⟩
    · rw [hw, hw]; simp only [one_mul, q2, hh]; linarith [this.2]
    · rw [hw, hw]; simp only [one_mul, q6, hh]; linarith [this.1]
  · have := prod _ 1 (neg_one_le_cos (t.z * π)) (cos_le_one _) zero_le_one (le_refl _)
    refine ⟨⟨_, v4, ?_⟩, ⟨_, v5, ?_⟩⟩
    · rw [hw, hw]; simp only [zero_mul, cos_zero, one_mul]; linarith [this.2]
    · rw [hw, hw]; simp only [one_mul, cos_pi]; linarith [this.1]

/-- C67: no vertex in the solid is missed, whatever the tree: for cuboids and wedges in any frame, and for whole cylinders and
spheres in the default frame (full statement: every shape). -/
theorem C67_include_complete_partial {s : Shape} (h : Proper s) (hst : Standard s) {tol : ℝ} (ht : 0 ≤ tol) {t : Kd} (hv : t.Valid 0)
    {p : V3} {k : Nat} (hp : (p, k) ∈ t.points) (hs : Solid s p) : k ∈ includeCloud s tol t := by
  have hb : InB (bbox s).1 (bbox s).2 p := by
    rcases hk : s.kind
    · exact flat_bbox (.inl hk) hs
    · exact cyl_bbox h hk hst hs
    · exact sphere_bbox h hk hst hs
    · exact flat_bbox (.inr hk) hs
  exact includeCloud_mem.2 ⟨p, kdLoop_complete ht (e := (p, k)) hb _ [(t, 0)] (le_refl _) (by simpa using hv) ⟨(t, 0), by simp, hp⟩,
    C65_point_complete_partial h hs (standard_no_cut hst p)⟩

/-- a turned wedge and a tree of three vertices -/
example : Proper turnedWedge ∧ Standard turnedWedge ∧
    (Kd.node ⟨0, 0, 0⟩ 4 (.node ⟨-1, 0, 0⟩ 6 .nil .nil) (.node ⟨5 / 10, 7 / 10, 0⟩ 7 .nil .nil)).Valid 0 := by
  refine ⟨turnedWedge_proper, ?_, ?_⟩
  · rw [turnedWedge_val]; simp [Standard, basic]
  · simp [Kd.Valid, Kd.points, V3.at]; norm_num

/-! ### Vertices lost -/

/-- a whole cylinder whose angles start from π/4 -/
noncomputable def eighth : Shape := setInf (basic .cylinder) (π / 4) 1

theorem eighth_val : ∃ c, eighth = { basic .cylinder with inf := ⟨0, π / 4, 0⟩, coord := c } := by
  have pp := pi_pos
  have a1 : |π| = π := abs_of_pos pp
  have a3 : max 0 (π / 4) = π / 4 := max_eq_right (by linarith)
  have a4 : min (2 * π) (π / 4) = π / 4 := min_eq_right (by linarith)
  refine ⟨eighth.coord, ?_⟩
  simp [eighth, setInf, checkInf, setSpan, checkSpan, setScaling, getSpan, putInf, basic, abs_mul, a1, a3, a4, setCoord]

theorem eighth_reach : Reach eighth := .step _ _ (.new _) (.inf _ _ _)

/-- C67 does not hold for a cylinder with another start angle (or another frame): the bounding box is taken from five
angles only, so that vertices in the solid are left out; here the vertex (1, 0, 0) of a cylinder of radius 1, for any
tolerance below 1/4. -/
theorem C67_cylinder_fails : ∃ (s : Shape) (t : Kd) (p : V3) (k : Nat), Reach s ∧ Proper s ∧ t.Valid 0 ∧ (p, k) ∈ t.points ∧ Solid s p ∧
    pointIncluded s p ∧ ∀ tol : ℝ, tol < 1 / 4 → k ∉ includeCloud s tol t := by
  have pp := pi_pos
  obtain ⟨c, hval⟩ := eighth_val
  have hP : Proper eighth := by
    apply proper_of_reach eighth_reach <;> rw [hval] <;> simp [getSpan, basic, pp]
  have hsol : Solid eighth ⟨1, 0, 0⟩ := by
    refine ⟨⟨1, 7 / 8, 1 / 2⟩, by norm_num, by norm_num, by norm_num, ?_⟩
    rw [hval]
    have e : 7 / 8 * (2 * π) + π / 4 = 2 * π := by ring
    simp [toWorld, straight, duffy, basicToLocal, localOrigin, basic, V3.mul, M3.app, M3.one, dot, e]
    ext <;> norm_num
  have hcut : ¬ AxisCut eighth ⟨1, 0, 0⟩ := by
    intro ha
    have := ha.2.1
    rw [hval] at this
    simp [basic, M3.one, dot] at this
  refine ⟨eighth, .node ⟨1, 0, 0⟩ 7 .nil .nil, ⟨1, 0, 0⟩, 7, eighth_reach, hP, by simp [Kd.Valid, Kd.points], by simp [Kd.points], hsol,
    C65_point_complete_partial hP hsol hcut, ?_⟩
  intro tol htol hm
  obtain ⟨p, h1, -⟩ := includeCloud_mem.1 hm
  -- the box stops before 3/4
  have hbox : (bbox eighth).2.x ≤ 3 / 4 := by
    have hfold : ∀ (l : List V3) (b : V3 × V3), b.2.x ≤ 3 / 4 → (∀ v ∈ l, (toWorld eighth (basicToLocal eighth v)).x ≤ 3 / 4) →
        (l.foldl (fun b v =>
          let q := toWorld eighth (basicToLocal eighth v)
          ((⟨min b.1.x q.x, min b.1.y q.y, min b.1.z q.z⟩, ⟨max b.2.x q.x, max b.2.y q.y, max b.2.z q.z⟩) : V3 × V3)) b).2.x ≤ 3 / 4 := by
      intro l
      induction l with
      | nil => intro b hb _; exact hb
      | cons v l ih =>
        intro b hb hl
        simp only [List.foldl_cons]
        exact ih _ (max_le hb (hl v (by simp))) (fun w hw => hl w (by simp [hw]))
    apply hfold
    · norm_num
    · intro v hv
      have hk : eighth.kind = .cylinder := by rw [hval]; rfl
      rw [hk] at hv
      simp only [samples, List.mem_flatMap, List.mem_map] at hv
      obtain ⟨i, hi, j, hj, k, hk', rfl⟩ := hv
      have hx : (toWorld eighth (basicToLocal eighth ⟨i * 1, j * 0.25, k * 1⟩)).x = i * cos (j * 0.25 * (2 * π) + π / 4) := by
        rw [hval]
        simp [toWorld, straight, duffy, basicToLocal, localOrigin, basic, V3.mul, M3.app, M3.one, dot]
      rw [hx]
      have hc : cos (j * 0.25 * (2 * π) + π / 4) ≤ √2 / 2 := by
        have h2 : (0 : ℝ) ≤ √2 / 2 := by positivity
        simp only [List.mem_cons, List.not_mem_nil, or_false] at hj
        rcases hj with rfl | rfl | rfl | rfl | rfl
        · simp
        · have : (1 : ℝ) * 0.25 * (2 * π) + π / 4 = π / 4 + π / 2 := by ring
          rw [this, cos_add_pi_div_two]; simp; linarith
        · have : (2 : ℝ) * 0.25 * (2 * π) + π / 4 = π / 4 + π := by ring
          rw [this, cos_add_pi]; simp; linarith
        · have : (3 : ℝ) * 0.25 * (2 * π) + π / 4 = 2 * π - π / 4 := by ring
          rw [this, cos_two_pi_sub]; simp
        · have : (4 : ℝ) * 0.25 * (2 * π) + π / 4 = π / 4 + 2 * π := by ring
          rw [this, cos_add_two_pi]; simp
      have h34 : √2 / 2 ≤ 3 / 4 := by
        have : √2 ≤ 3 / 2 := by rw [sqrt_le_left (by norm_num)]; norm_num
        linarith
      simp only [List.mem_cons, List.not_mem_nil, or_false] at hi
      rcases hi with rfl | rfl
      · norm_num
      · linarith
  have hin : ¬ inBox tol (bbox eighth) ⟨1, 0, 0⟩ := by
    intro hb
    have := (hb 0 (by simp)).2
    simp only [V3.at] at this
    linarith
  obtain ⟨kids, k1, -, -, k4, -, k6, -⟩ := kdLoop_node (bbox eighth) tol ⟨1, 0, 0⟩ 7 .nil .nil 0 []
  rw [k6 hin] at h1
  obtain ⟨x, hx, hpx⟩ := kdLoop_mem _ _ _ _ _ (le_refl _) h1
  rw [List.append_nil] at hx
  rcases k1 x hx with rfl | rfl <;> simp [Kd.points] at hpx

/-- C67 does not hold for `excludeCloudPoints`: it compares with the ids of the *cells*.  With no vertex in the shape it
returns the cells of the mesh, whatever the vertices; with more vertices in the shape than cells in the mesh it throws. -/
theorem C67_exclude_fails (s : Shape) (tol : ℝ) (cells : List Nat) (hn : cells.Nodup) (t : Kd) :
    (includeCloud s tol t = [] → ∃ r, excludeCloud s tol cells t = some r ∧ ∀ id, id ∈ r ↔ id ∈ cells) ∧
    (cells.length < (includeCloud s tol t).length → excludeCloud s tol cells t = none) := by
  constructor
  · intro he
    obtain ⟨r, h1, -, h3⟩ := complement_spec (os := cells) (is := []) hn (by simp) (by simp)
    refine ⟨r, ?_, fun id => by rw [h3]; simp⟩
    unfold excludeCloud; rw [he]; exact h1
  · intro hlt
    unfold excludeCloud complement
    rw [if_pos hlt]

/-- one cell, two vertices in the default cuboid -/
example : [9].length < (includeCloud (basic .cube) 0 (.node ⟨0, 0, 0⟩ 4 (.node ⟨-(1 / 2), 0, 0⟩ 6 .nil .nil) .nil)).length := by
  have hv : (Kd.node ⟨0, 0, 0⟩ 4 (.node ⟨-(1 / 2), 0, 0⟩ 6 .nil .nil) .nil).Valid 0 := by
    simp [Kd.Valid, Kd.points, V3.at]
  have hst : Standard (basic .cube) := by simp [Standard, basic]
  have m1 := C67_include_complete_partial (proper_basic .cube) hst (le_refl 0) hv (p := ⟨0, 0, 0⟩) (k := 4) (by simp [Kd.points])
    ⟨⟨1 / 2, 1 / 2, 1 / 2⟩, by norm_num, by norm_num, by norm_num, by
      simp [toWorld, straight, duffy, basicToLocal, localOrigin, basic, V3.mul, M3.app, M3.one, dot]; ext <;> norm_num⟩
  have m2 := C67_include_complete_partial (proper_basic .cube) hst (le_refl 0) hv (p := ⟨-(1 / 2), 0, 0⟩) (k := 6) (by simp [Kd.points])
    ⟨⟨0, 1 / 2, 1 / 2⟩, by norm_num, by norm_num, by norm_num, by
      simp [toWorld, straight, duffy, basicToLocal, localOrigin, basic, V3.mul, M3.app, M3.one, dot]; ext <;> norm_num⟩
  generalize includeCloud _ _ _ = l at m1 m2
  match l, m1, m2 with
  | [a], h1, h2 => simp at h1 h2; omega
  | a :: b :: l, _, _ => simp

end Verif.Shape
