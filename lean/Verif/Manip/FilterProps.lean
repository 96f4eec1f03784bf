import Verif.Manip.Model
/-
C77, C78: what a filter does to the displacements of the transformation blocks.
-/
namespace Verif.Manip
open Verif.Field Verif.Mesh Verif.Shape
open List hiding get

noncomputable section
open scoped Classical

/-- ids are unique in every geometry -/
structure WorldOk (w : World) : Prop where
  verts : ∀ h, Ok (w h).verts
  cells : ∀ h, Ok (w h).cells

/-- specification: a filter is usable on a geometry -/
def Usable {α : Type} (w : World) (g : Nat) (f : Field Nat α) : Prop :=
  f.loc = .point ∧ f.geo = some g ∧ ∀ e ∈ f.data, ∃ p, get (w g).verts e.1 = some p

/-- specification: the weight of a vertex -/
def weight (w : World) (g : Nat) (f : Field Nat ℝ) (id : Nat) : ℝ :=
  if Usable w g f then (get f.data id).getD 0 else 1

theorem mem_ids {α : Type} {d : Data α} {id : Nat} : id ∈ d.map Prod.fst ↔ ∃ p, get d id = some p := by
  have := get_none_iff d id
  cases h : get d id with
  | none => simp [h] at this; simp [this]
  | some p =>
    rw [h] at this
    simp only [reduceCtorEq, false_iff, not_not] at this
    simp [this]

theorem geoOk_of (w : World) (hw : WorldOk w) (g : Nat) : GeoOk (geoOf (w g)) := by
  exact ⟨hw.verts g, hw.cells g, nodup_nil⟩

theorem insertAll_const {α : Type} (v : α) : ∀ (ids : List Nat) (d : Data α), (d.map Prod.fst ++ ids).Nodup →
    insertAll v ids d = some (d ++ ids.map (fun i => (i, v)))
  | [], d, _ => by simp [insertAll]
  | id :: ids, d, h => by
    have hn : has d id = false := by
      cases hh : has d id with
      | false => rfl
      | true =>
        rw [has_iff] at hh
        rw [nodup_append] at h
        exact absurd rfl (h.2.2 id hh id (by simp))
    rw [insertAll, ins, hn]
    simp only [Bool.false_eq_true, if_false, Option.bind_some]
    rw [insertAll_const v ids]
    · simp
    · simpa using h

theorem get_const' {α : Type} (v : α) (ids : List Nat) (j : Nat) :
    get (ids.map (fun i => (i, v))) j = if j ∈ ids then some v else none := by
  induction ids with
  | nil => rfl
  | cons a l ih =>
    rw [map_cons, get_cons, ih]
    by_cases h : a = j
    · simp [h]
    · have h' : ¬ j = a := fun e => h e.symm
      simp [h, h']

theorem constField_spec {α : Type} {w : World} (hw : WorldOk w) (g : Nat) (v : α) :
    constField w g v = some ⟨some g, defaultName, .point, ((w g).verts.map Prod.fst).map (fun i => (i, v))⟩ := by
  unfold constField
  rw [insertAll_const _ _ _ (by have := hw.verts g; unfold Ok at this; simpa using this)]
  simp

theorem completeIn_ok {α : Type} {w : World} (hw : WorldOk w) {f : Field Nat α} (hf : Ok f.data) {g : Nat} (d : α)
    (hl : f.loc = .point) (hg : f.geo = some g) (hc : ∀ e ∈ f.data, ∃ p, get (w g).verts e.1 = some p) :
    ∃ f', completeIn w f d = some (f', true) ∧ f'.geo = some g ∧ f'.loc = .point ∧ f'.name = f.name ∧ Ok f'.data ∧
      (∀ id p, get (w g).verts id = some p → get f'.data id = some ((get f.data id).getD d)) ∧
      (∀ id, get (w g).verts id = none → get f'.data id = none) := by
  have e : entities (⟨some (geoOf (w g)), f.name, f.loc, f.data⟩ : Field Geo α) = (w g).verts.map Prod.fst := by
    simp [entities, hl, geoOf]
  obtain ⟨f', h1, h2, h3, h4, h5, h6, h7⟩ := C25_complete
    (f := (⟨some (geoOf (w g)), f.name, f.loc, f.data⟩ : Field Geo α))
    ⟨hf, by intro g' hg'; cases hg'; exact geoOk_of w hw g⟩ (by simp) (by simp [hl]) d
    (by rw [e]; intro x hx; rw [mem_ids]; exact hc x hx)
  rw [e] at h6 h7
  refine ⟨{ f with data := f'.data }, ?_, hg, hl, rfl, h5, ?_, ?_⟩
  · unfold completeIn; rw [hg, Option.map_some, h1]; rfl
  · intro id p hp; exact h6 id (mem_ids.2 ⟨p, hp⟩)
  · intro id hn; exact h7 id ((get_none_iff _ _).1 hn)

theorem completeIn_no {α : Type} {w : World} {f : Field Nat α} (d : α) (hl : f.loc = .point)
    (hn : f.geo = none ∨ ∃ g, f.geo = some g ∧ ∃ e ∈ f.data, get (w g).verts e.1 = none) :
    completeIn w f d = some (f, false) := by
  unfold completeIn
  rw [C25_refuse]
  · rfl
  · rcases hn with h | ⟨g, h, e, he, hne⟩
    · left; simp [h]
    · right
      refine ⟨by simp [hl], e, he, ?_⟩
      simp only [entities, h, hl, Option.map_some, geoOf]
      exact (get_none_iff _ _).1 hne

theorem completeIn_total {α : Type} {w : World} (hw : WorldOk w) {f : Field Nat α} (hf : Ok f.data) (d : α)
    (hl : f.loc = .point) : ∃ f' b, completeIn w f d = some (f', b) ∧ f'.geo = f.geo ∧ f'.loc = f.loc := by
  cases hg : f.geo with
  | none => exact ⟨f, false, completeIn_no d hl (.inl hg), hg, rfl⟩
  | some g =>
    by_cases hc : ∀ e ∈ f.data, ∃ p, get (w g).verts e.1 = some p
    · obtain ⟨f', h1, h2, h3, -⟩ := completeIn_ok hw hf d hl hg hc
      exact ⟨f', true, h1, h2, h3.trans hl.symm⟩
    · push Not at hc
      obtain ⟨e, he, hne⟩ := hc
      exact ⟨f, false, completeIn_no d hl (.inr ⟨g, hg, e, he, by
        cases h : get (w g).verts e.1 with
        | none => rfl
        | some p => exact absurd h (hne p)⟩), hg, rfl⟩

/-- the filter after `checkFilter` -/
theorem checkFilter_spec {w : World} (hw : WorldOk w) (g : Nat) {f : Field Nat ℝ} (hf : Ok f.data) :
    ∃ f', checkFilter w g f = some f' ∧ f'.geo = some g ∧ f'.loc = .point ∧ Ok f'.data ∧
      (∀ id p, get (w g).verts id = some p → get f'.data id = some (weight w g f id)) ∧
      (∀ id, get (w g).verts id = none → get f'.data id = none) := by
  have hconst : ¬ Usable w g f → ∃ f', constField w g (1 : ℝ) = some f' ∧ f'.geo = some g ∧ f'.loc = .point ∧
      Ok f'.data ∧ (∀ id p, get (w g).verts id = some p → get f'.data id = some (weight w g f id)) ∧
      (∀ id, get (w g).verts id = none → get f'.data id = none) := by
    intro hu
    refine ⟨_, constField_spec hw g 1, rfl, rfl, ?_, ?_, ?_⟩
    · have : Ok (w g).verts := hw.verts g
      unfold Ok at this ⊢
      simpa [map_map, Function.comp_def] using this
    · intro id p hp
      rw [get_const', if_pos (mem_ids.2 ⟨p, hp⟩), weight, if_neg hu]
    · intro id hn
      rw [get_const', if_neg ((get_none_iff _ _).1 hn)]
  unfold checkFilter
  by_cases hl : f.loc = .point
  · rw [if_pos hl]
    by_cases hu : Usable w g f
    · obtain ⟨f', h1, h2, h3, -, h5, h6, h7⟩ := completeIn_ok hw hf 0 hl hu.2.1 hu.2.2
      rw [h1]
      refine ⟨f', by simp [h2], h2, h3, h5, ?_, h7⟩
      intro id p hp
      rw [h6 id p hp, weight, if_pos hu]
    · obtain ⟨f', b, h1, h2, h3⟩ := completeIn_total hw hf 0 hl
      rw [h1]
      have : ¬ (b = true ∧ f'.geo = some g) := by
        rintro ⟨hb, hg'⟩
        apply hu
        rw [h2] at hg'
        refine ⟨hl, hg', ?_⟩
        by_contra hc
        push Not at hc
        obtain ⟨e, he, hne⟩ := hc
        have := completeIn_no (w := w) (0 : ℝ) hl (.inr ⟨g, hg', e, he, by
          cases h : get (w g).verts e.1 with
          | none => rfl
          | some p => exact absurd h (hne p)⟩)
        rw [this] at h1
        cases h1
        exact absurd hb (by decide)
      simp only [this, if_false]
      exact hconst hu
  · rw [if_neg hl]
    exact hconst (fun hu => hl hu.1)

theorem displLoop_spec (filter : Data ℝ) (value : V3 → ℝ → V3) (wt : Nat → ℝ) :
    ∀ (vs : Data V3) (acc : Data V3), (acc.map Prod.fst ++ vs.map Prod.fst).Nodup →
      (∀ e ∈ vs, get filter e.1 = some (wt e.1)) →
      displLoop filter value vs acc = some (acc ++ vs.map (fun e => (e.1, value e.2 (wt e.1))))
  | [], acc, _, _ => by simp [displLoop]
  | e :: es, acc, h, hf => by
    have hn : has acc e.1 = false := by
      cases hh : has acc e.1 with
      | false => rfl
      | true =>
        rw [has_iff] at hh
        rw [nodup_append] at h
        exact absurd rfl (h.2.2 e.1 hh e.1 (by simp))
    rw [displLoop, hf e (by simp)]
    simp only [ins, hn, Bool.false_eq_true, if_false, Option.bind_some]
    rw [displLoop_spec filter value wt es _ (by simpa using h) (fun x hx => hf x (by simp [hx]))]
    simp

theorem get_map_val (vs : Data V3) (F : Nat → V3 → V3) (id : Nat) :
    get (vs.map (fun e => (e.1, F e.1 e.2))) id = (get vs id).map (F id) := by
  induction vs with
  | nil => rfl
  | cons e vs ih =>
    rw [map_cons, get_cons, get_cons, ih]
    by_cases h : e.1 = id
    · simp [h]
    · simp [h]

/-- the displacements computed by the common frame of `execute` -/
theorem run_spec {w : World} (hw : WorldOk w) {b : Block} (hf : Ok b.filter.data) {g : Nat} (hg : b.geom = some g)
    (value : Obj V3 → V3 → ℝ → V3) :
    ∃ b', b.run w value = some b' ∧ b'.geom = some g ∧ b'.displ.geo = some g ∧ b'.displ.loc = .point ∧
      b'.displ.data.map Prod.fst = (w g).verts.map Prod.fst ∧
      (∀ id p, get (w g).verts id = some p → get b'.displ.data id = some (value (w g) p (weight w g b.filter id))) ∧
      b'.filter.geo = some g ∧ b'.filter.loc = .point ∧ Ok b'.filter.data ∧
      (∀ id p, get (w g).verts id = some p → get b'.filter.data id = some (weight w g b.filter id)) ∧
      (∀ id, get (w g).verts id = none → get b'.filter.data id = none) := by
  obtain ⟨f', h1, h2, h3, h4, h5, h6⟩ := checkFilter_spec hw g hf
  have hl := displLoop_spec f'.data (value (w g)) (weight w g b.filter) (w g).verts []
    (by have := hw.verts g; unfold Ok at this; simpa using this) (by
      intro e he
      obtain ⟨p, hp⟩ := mem_ids.1 (mem_map_of_mem (f := Prod.fst) he)
      exact h5 _ p hp)
  refine ⟨{ b with filter := f', displ := ⟨some g, defaultName, .point,
      (w g).verts.map (fun e => (e.1, value (w g) e.2 (weight w g b.filter e.1)))⟩ }, ?_, hg, rfl, rfl, ?_, ?_, h2, h3,
      h4, h5, h6⟩
  · unfold Block.run
    rw [hg]
    simp only [h1, hl, nil_append, Option.map_some, hg]
  · simp
  · intro id p hp
    have := get_map_val (w g).verts (fun i q => value (w g) q (weight w g b.filter i)) id
    simp only [this, hp, Option.map_some]

/-! ### C77 -/

/-- specification: the field has one value for each vertex of the geometry and nothing else -/
structure OnVertices {α : Type} (w : World) (g : Nat) (d : Field Nat α) : Prop where
  geo : d.geo = some g
  loc : d.loc = .point
  ids : d.data.map Prod.fst = (w g).verts.map Prod.fst

/-- specification: `d` is `d0` weighted by the filter -/
structure Weighted (w : World) (g : Nat) (f : Field Nat ℝ) (d d0 : Field Nat V3) : Prop where
  on : OnVertices w g d
  on0 : OnVertices w g d0
  val : ∀ id, get d.data id = (get d0.data id).map (V3.scale (weight w g f id))

theorem scale_one (v : V3) : V3.scale 1 v = v := by
  ext <;> simp [V3.scale]

theorem weighted_of_run {w : World} (hw : WorldOk w) {b b0 : Block} (hf : Ok b.filter.data) (hf0 : Ok b0.filter.data)
    {g : Nat} (hg : b.geom = some g) (hg0 : b0.geom = some g) (hu : ¬ Usable w g b0.filter)
    (value : Obj V3 → V3 → ℝ → V3) (hv : ∀ p s, value (w g) p s = V3.scale s (value (w g) p 1)) :
    ∃ b' b0', b.run w value = some b' ∧ b0.run w value = some b0' ∧ Weighted w g b.filter b'.displ b0'.displ := by
  obtain ⟨b', h1, -, h3, h4, h5, h6, -⟩ := run_spec hw hf hg value
  obtain ⟨c', k1, -, k3, k4, k5, k6, -⟩ := run_spec hw hf0 hg0 value
  refine ⟨b', c', h1, k1, ⟨h3, h4, h5⟩, ⟨k3, k4, k5⟩, ?_⟩
  intro id
  cases hp : get (w g).verts id with
  | none =>
    have h : get b'.displ.data id = none := by
      rw [get_none_iff, h5]; exact (get_none_iff _ _).1 hp
    have k : get c'.displ.data id = none := by
      rw [get_none_iff, k5]; exact (get_none_iff _ _).1 hp
    rw [h, k]; rfl
  | some p =>
    rw [h6 id p hp, k6 id p hp, hv]
    have : weight w g b0.filter id = 1 := if_neg hu
    rw [this]; rfl

/-- C77, TranslationGeometry: with a filter, the displacement of each vertex is the filter value there (0 where it has
none) times the displacement without filter; there is one displacement for each vertex. -/
theorem C77_translation {w : World} (hw : WorldOk w) (t : Translation) (f f0 : Field Nat ℝ) (hf : Ok f.data)
    (hf0 : Ok f0.data) {g : Nat} (hg : t.geom = some g) (h0 : ¬ Usable w g f0) :
    ∃ t' t0', Translation.execute w { t with filter := f } = some t' ∧
      Translation.execute w { t with filter := f0 } = some t0' ∧ Weighted w g f t'.displ t0'.displ := by
  obtain ⟨b, b0, h1, h2, h3⟩ := weighted_of_run hw (b := { t.toBlock with filter := f })
    (b0 := { t.toBlock with filter := f0 }) hf hf0 hg hg h0 t.value (by
      intro p s; simp [Translation.value, scale_one])
  exact ⟨{ t with toBlock := b }, { t with toBlock := b0 },
    by simp only [Translation.execute]; exact congrArg (Option.map _) h1,
    by simp only [Translation.execute]; exact congrArg (Option.map _) h2, h3⟩

/-- C77, RotationGeometry -/
theorem C77_rotation {w : World} (hw : WorldOk w) (t : Rotation) (f f0 : Field Nat ℝ) (hf : Ok f.data)
    (hf0 : Ok f0.data) {g : Nat} (hg : t.geom = some g) (h0 : ¬ Usable w g f0) :
    ∃ t' t0', Rotation.execute w { t with filter := f } = some t' ∧
      Rotation.execute w { t with filter := f0 } = some t0' ∧ Weighted w g f t'.displ t0'.displ := by
  obtain ⟨b, b0, h1, h2, h3⟩ := weighted_of_run hw (b := { t.toBlock with filter := f })
    (b0 := { t.toBlock with filter := f0 }) hf hf0 hg hg h0 t.value (by
      intro p s; simp [Rotation.value, scale_one])
  exact ⟨{ t with toBlock := b }, { t with toBlock := b0 },
    by simp only [Rotation.execute]; exact congrArg (Option.map _) h1,
    by simp only [Rotation.execute]; exact congrArg (Option.map _) h2, h3⟩

/-- C77, ScaleGeometry -/
theorem C77_scale {w : World} (hw : WorldOk w) (t : Scale) (f f0 : Field Nat ℝ) (hf : Ok f.data)
    (hf0 : Ok f0.data) {g : Nat} (hg : t.geom = some g) (h0 : ¬ Usable w g f0) :
    ∃ t' t0', Scale.execute w { t with filter := f } = some t' ∧
      Scale.execute w { t with filter := f0 } = some t0' ∧ Weighted w g f t'.displ t0'.displ := by
  obtain ⟨b, b0, h1, h2, h3⟩ := weighted_of_run hw (b := { t.toBlock with filter := f })
    (b0 := { t.toBlock with filter := f0 }) hf hf0 hg hg h0 t.value (by
      intro p s; simp [Scale.value, scale_one])
  exact ⟨{ t with toBlock := b }, { t with toBlock := b0 },
    by simp only [Scale.execute]; exact congrArg (Option.map _) h1,
    by simp only [Scale.execute]; exact congrArg (Option.map _) h2, h3⟩

/-- C77, TwistGeometry -/
theorem C77_twist {w : World} (hw : WorldOk w) (t : Twist) (f f0 : Field Nat ℝ) (hf : Ok f.data)
    (hf0 : Ok f0.data) {g : Nat} (hg : t.geom = some g) (h0 : ¬ Usable w g f0) :
    ∃ t' t0', Twist.execute w { t with filter := f } = some t' ∧
      Twist.execute w { t with filter := f0 } = some t0' ∧ Weighted w g f t'.displ t0'.displ := by
  obtain ⟨b, b0, h1, h2, h3⟩ := weighted_of_run hw (b := { t.toBlock with filter := f })
    (b0 := { t.toBlock with filter := f0 }) hf hf0 hg hg h0 t.value (by
      intro p s; simp [Twist.value, scale_one])
  exact ⟨{ t with toBlock := b }, { t with toBlock := b0 },
    by simp only [Twist.execute]; exact congrArg (Option.map _) h1,
    by simp only [Twist.execute]; exact congrArg (Option.map _) h2, h3⟩

/-- C77: without a geometry, no transformation block executes (an exception is thrown). -/
theorem C77_no_geometry (w : World) (b : Block) (h : b.geom = none) (t : Translation) (r : Rotation) (s : Scale)
    (x : Twist) (y : Bend) : Translation.execute w { t with toBlock := b } = none ∧
      Rotation.execute w { r with toBlock := b } = none ∧ Scale.execute w { s with toBlock := b } = none ∧
      Twist.execute w { x with toBlock := b } = none ∧ Bend.execute w { y with toBlock := b } = none := by
  have : ∀ v, b.run w v = none := by intro v; simp [Block.run, h]
  refine ⟨?_, ?_, ?_, ?_, ?_⟩ <;>
    simp [Translation.execute, Rotation.execute, Scale.execute, Twist.execute, Bend.execute, this]

/-- C77: applying moves each vertex of the target by its displacement; other geometries and the cells do not change. -/
theorem C77_apply {w w' : World} (hw : WorldOk w) {b : Block} {g : Nat} (hg : b.geom = some g)
    (hd : OnVertices w g b.displ) (h : b.apply w = some w') :
    (∀ id p, get (w g).verts id = some p →
      ∃ d, get b.displ.data id = some d ∧ get (w' g).verts id = some (p + d)) ∧
    (w' g).verts.map Prod.fst = (w g).verts.map Prod.fst ∧ (w' g).cells = (w g).cells ∧
    ∀ k, k ≠ g → w' k = w k := by
  unfold Block.apply at h
  rw [hg] at h
  simp only [Option.map_eq_some_iff] at h
  obtain ⟨o, ho, rfl⟩ := h
  obtain ⟨h1, h2, h3⟩ := C46_apply b.displ.data (w g) o (hw.verts g) ho
  refine ⟨?_, by simpa using h2, by simpa using h3, ?_⟩
  · intro id p hp
    have hm : id ∈ b.displ.data.map Prod.fst := by rw [hd.ids]; exact mem_ids.2 ⟨p, hp⟩
    obtain ⟨d, hd'⟩ := mem_ids.1 hm
    refine ⟨d, hd', ?_⟩
    have := h1 id p hp
    rw [hd'] at this
    simpa using this
  · intro k hk; simp [hk]

/-- a surface with three vertices and one triangle behind every handle -/
def demoObj : Obj V3 where
  type := 1
  verts := [(0, ⟨0, 0, 0⟩), (4, ⟨1, 0, 0⟩), (7, ⟨0, 2, 0⟩)]
  cells := [(3, ⟨.triangle, [0, 4, 7], 0, true⟩)]
  pids := [0]
  names := []
  tree := true
  kd := ⟨.none, none⟩
  skd := ⟨.none, none⟩
  adj := ⟨.none, none⟩
  int := ⟨.none, none⟩
  info := ⟨.sync, some [3]⟩
  bbox := ⟨.none, none⟩
  pc := ⟨.none, none⟩

def demoWorld : World := fun _ => demoObj

theorem demoWorld_ok : WorldOk demoWorld :=
  ⟨fun _ => by simp [Ok, demoWorld, demoObj], fun _ => by simp [Ok, demoWorld, demoObj]⟩

/-- no filter -/
def noFilter : Field Nat ℝ := make none .undefined

/-- a filter with value 1/2 on vertex 4 and nothing on the other vertices -/
def demoFilter : Field Nat ℝ := ⟨some 0, defaultName, .point, [(4, 1 / 2)]⟩

theorem demoFilter_usable : Usable demoWorld 0 demoFilter := by
  refine ⟨rfl, rfl, ?_⟩
  intro e he
  simp only [demoFilter, mem_singleton] at he
  subst he
  exact ⟨⟨1, 0, 0⟩, by simp [demoWorld, demoObj, Verif.Field.get]⟩

example : WorldOk demoWorld ∧ Ok demoFilter.data ∧ Usable demoWorld 0 demoFilter ∧
    weight demoWorld 0 demoFilter 4 = 1 / 2 ∧ weight demoWorld 0 demoFilter 7 = 0 ∧
    ¬ Usable demoWorld 0 noFilter ∧ weight demoWorld 0 noFilter 7 = 1 ∧
    ¬ Usable demoWorld 1 demoFilter ∧ (Block.empty.setGeometry 0).geom = some 0 := by
  have hn : ¬ Usable demoWorld 0 noFilter := by rintro ⟨h, -⟩; cases h
  refine ⟨demoWorld_ok, by simp [Ok, demoFilter], demoFilter_usable, ?_, ?_, hn, ?_, ?_, rfl⟩
  · rw [weight, if_pos demoFilter_usable]; simp [demoFilter, Verif.Field.get]
  · rw [weight, if_pos demoFilter_usable]; simp [demoFilter, Verif.Field.get]
  · rw [weight, if_neg hn]
  · rintro ⟨-, h, -⟩; cases h

/-! ### C78 -/

/-- C78 (part): the block is executed without filter, the geometry changes, and the block is executed again, with the
same geometry or with another one.  The second execution gives every vertex the displacement of a new block, if the
geometry is another one, or some vertex was deleted in between, or the vertex already existed at the first execution.
Missing: vertices added in between, when none was deleted (C78_new_vertex_fails). -/
theorem C78_again_partial {w w' : World} (hw : WorldOk w) (hw' : WorldOk w') {b : Block} (hf : Ok b.filter.data)
    {g g' : Nat} (hg : b.geom = some g) (hu : ¬ Usable w g b.filter) (value : Obj V3 → V3 → ℝ → V3) :
    ∃ b1 b2, b.run w value = some b1 ∧ (b1.setGeometry g').run w' value = some b2 ∧
      ∀ id p, get (w' g').verts id = some p →
        (g' ≠ g ∨ (∃ i q, get (w g).verts i = some q ∧ get (w' g).verts i = none) ∨
          ∃ q, get (w g).verts id = some q) →
        get b2.displ.data id = some (value (w' g') p 1) := by
  obtain ⟨b1, h1, -, h3, h4, h5, -, f1, f2, f3, f4, f5⟩ := run_spec hw hf hg value
  obtain ⟨b2, k1, -, k3, k4, k5, k6, -⟩ := run_spec hw' (b := b1.setGeometry g') f3 (g := g') rfl value
  refine ⟨b1, b2, h1, k1, ?_⟩
  intro id p hp hc
  rw [k6 id p hp]
  congr 2
  by_cases hu' : Usable w' g' (b1.setGeometry g').filter
  · rw [weight, if_pos hu']
    have hgg : g' = g := by
      have := hu'.2.1
      simp only [Block.setGeometry] at this
      rw [f1] at this
      exact (Option.some.inj this).symm
    subst hgg
    rcases hc with h | ⟨i, q, hi, hn⟩ | ⟨q, hq⟩
    · exact absurd rfl h
    · exfalso
      have := f4 i q hi
      obtain ⟨p', hp'⟩ := hu'.2.2 _ (get_some_mem this)
      rw [hn] at hp'
      cases hp'
    · simp only [Block.setGeometry]
      rw [f4 id q hq, weight, if_neg hu]
      rfl
  · rw [weight, if_neg hu']

/-- C78 is false: a translation without filter is executed, vertices are added to the geometry, and the translation is
executed again: the new vertices stay where they are, the old ones move. -/
theorem C78_new_vertex_fails {w w' : World} (hw : WorldOk w) (hw' : WorldOk w') {t : Translation}
    (hf : Ok t.filter.data) {g : Nat} (hg : t.geom = some g) (hu : ¬ Usable w g t.filter)
    (hkeep : ∀ i q, get (w g).verts i = some q → ∃ q', get (w' g).verts i = some q')
    {id : Nat} {p : V3} (hnew : get (w g).verts id = none) (hp : get (w' g).verts id = some p) :
    ∃ t1 t2, t.execute w = some t1 ∧ t1.execute w' = some t2 ∧ get t2.displ.data id = some ⟨0, 0, 0⟩ ∧
      ∀ i q q', get (w g).verts i = some q → get (w' g).verts i = some q' →
        get t2.displ.data i = some (V3.scale t.alpha t.direction) := by
  obtain ⟨b1, h1, hb, h3, h4, h5, -, f1, f2, f3, f4, f5⟩ := run_spec hw hf hg t.value
  obtain ⟨b2, k1, -, k3, k4, k5, k6, -⟩ := run_spec hw' f3 hb t.value
  have hu' : Usable w' g b1.filter := by
    refine ⟨f2, f1, ?_⟩
    intro e he
    cases hv : get (w g).verts e.1 with
    | some q => exact hkeep _ q hv
    | none =>
      have := (get_none_iff _ _).1 (f5 _ hv)
      exact absurd (mem_map_of_mem (f := Prod.fst) he) this
  refine ⟨{ t with toBlock := b1 }, { t with toBlock := b2 }, ?_, ?_, ?_, ?_⟩
  · simp only [Translation.execute]; rw [h1]; rfl
  · simp only [Translation.execute]
    exact congrArg (Option.map _) k1
  · change get b2.displ.data id = _
    rw [k6 id p hp, weight, if_pos hu', f5 id hnew]
    simp [Translation.value, V3.scale]
  · intro i q q' hq hq'
    change get b2.displ.data i = _
    rw [k6 i q' hq', weight, if_pos hu', f4 i q hq, weight, if_neg hu]
    simp [Translation.value, scale_one]

/-- the demo geometry with a vertex more -/
def demoWorld' : World := fun _ => { demoObj with verts := demoObj.verts ++ [(9, ⟨3, 3, 3⟩)] }

example : WorldOk demoWorld' ∧ (∀ i q, get (demoWorld 0).verts i = some q → ∃ q', get (demoWorld' 0).verts i = some q') ∧
    get (demoWorld 0).verts 9 = none ∧ get (demoWorld' 0).verts 9 = some ⟨3, 3, 3⟩ := by
  refine ⟨⟨fun _ => by simp [Ok, demoWorld', demoObj], fun _ => by simp [Ok, demoWorld', demoObj]⟩, ?_, ?_, ?_⟩
  · intro i q h
    refine ⟨q, ?_⟩
    simp only [demoWorld', get_append]
    simp only [demoWorld] at h
    rw [h]; rfl
  · simp [demoWorld, demoObj, Verif.Field.get]
  · simp [demoWorld', demoObj, Verif.Field.get]

end
end Verif.Manip
