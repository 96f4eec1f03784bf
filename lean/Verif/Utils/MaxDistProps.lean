import Verif.Utils.Control
/-
C139: the largest distance of a deformed surface from where it was.
-/
namespace Verif.Utils
open Verif.Shape Verif.Manip Verif.Field Verif.Tree
open Verif.Rbf (tiny huge)
open List hiding get get_of_mem

noncomputable section
open scoped Classical

/-! ### Specification -/

/-- the displacement of a vertex: zero where the field gives none -/
def disp (f : Field Nat V3) (id : Nat) : V3 := (get f.data id).getD ⟨0, 0, 0⟩

/-- `d` is the distance of `p` from the surface -/
def IsDist (region : Nat → V3 → Prop) (p : V3) (d : ℝ) : Prop := ∃ id x, Closest region p x id ∧ d = norm2 (p - x)

/-- every vertex is a vertex of some cell -/
def InCells (w : World) (g : Nat) (region : Nat → V3 → Prop) : Prop := ∀ id p, get (w g).verts id = some p → ∃ k, region k p

/-! ### Helpers -/

theorem mem_of_get' {α : Type} {d : Data α} {id : Nat} {v : α} (h : get d id = some v) : (id, v) ∈ d := by
  unfold Verif.Field.get at h
  obtain ⟨e, he, rfl⟩ := Option.map_eq_some_iff.1 h
  have h1 := mem_of_find?_eq_some he
  have h2 := find?_some he
  simp only [beq_iff_eq] at h2
  rw [← h2]
  exact h1

theorem deformed_spec {d : Data V3} : ∀ {l : Data V3}, (∀ e ∈ l, ∃ u, get d e.1 = some u) →
    deformed d l = some (l.map fun e => (e.1, e.2 + (get d e.1).getD ⟨0, 0, 0⟩, (get d e.1).getD ⟨0, 0, 0⟩))
  | [], _ => rfl
  | e :: l, h => by
    obtain ⟨u, hu⟩ := h e (by simp)
    simp only [deformed, hu, deformed_spec (fun e' he' => h e' (mem_cons_of_mem _ he')), Option.map_some, map_cons, Option.getD_some]

theorem deformed_none {d : Data V3} : ∀ {l : Data V3}, (∃ e ∈ l, get d e.1 = none) → deformed d l = none
  | [], h => by simp at h
  | e :: l, h => by
    cases hu : get d e.1 with
    | none => simp [deformed, hu]
    | some u =>
      obtain ⟨e', he', hn⟩ := h
      rcases mem_cons.1 he' with rfl | he'
      · rw [hu] at hn; cases hn
      · simp [deformed, hu, deformed_none ⟨e', he', hn⟩]

theorem writeAll_keys : ∀ (vals : List (Nat × ℝ)) (d : Data ℝ), (writeAll vals d).map Prod.fst = d.map Prod.fst
  | [], d => rfl
  | v :: vals, d => by
    have := writeAll_keys vals (setAt d v.1 v.2)
    simp only [writeAll, foldl_cons] at this ⊢
    rw [this, keys_setAt]

theorem writeAll_other : ∀ (vals : List (Nat × ℝ)) (d : Data ℝ) (j : Nat), j ∉ vals.map Prod.fst → get (writeAll vals d) j = get d j
  | [], d, j, _ => rfl
  | v :: vals, d, j, h => by
    simp only [map_cons, mem_cons, not_or] at h
    have := writeAll_other vals (setAt d v.1 v.2) j h.2
    simp only [writeAll, foldl_cons] at this ⊢
    rw [this, get_setAt, if_neg (by tauto)]

theorem writeAll_get : ∀ (vals : List (Nat × ℝ)) (d : Data ℝ) (j : Nat) (x : ℝ), (vals.map Prod.fst).Nodup → (j, x) ∈ vals →
    j ∈ d.map Prod.fst → get (writeAll vals d) j = some x
  | v :: vals, d, j, x, hn, hm, hj => by
    simp only [map_cons, nodup_cons] at hn
    rcases mem_cons.1 hm with rfl | hm
    · have := writeAll_other vals (setAt d j x) j hn.1
      simp only [writeAll, foldl_cons] at this ⊢
      rw [this, get_setAt, if_pos rfl]
      obtain ⟨y, hy⟩ := mem_ids.1 hj
      rw [hy]; rfl
    · have := writeAll_get vals (setAt d v.1 v.2) j x hn.2 hm (by rw [keys_setAt]; exact hj)
      simpa only [writeAll, foldl_cons] using this

theorem foldl_max_le {l : List ℝ} {a t : ℝ} : l.foldl max a ≤ t ↔ a ≤ t ∧ ∀ v ∈ l, v ≤ t := by
  induction l generalizing a with
  | nil => simp
  | cons b l ih => rw [foldl_cons, ih]; simp only [max_le_iff, mem_cons, forall_eq_or_imp, and_assoc]

theorem mem_vals {d : Data ℝ} (h : Ok d) (v : ℝ) : v ∈ d.map Prod.snd ↔ ∃ id, get d id = some v := by
  constructor
  · intro hv
    obtain ⟨⟨id, v'⟩, he, rfl⟩ := mem_map.1 hv
    exact ⟨id, Verif.Mesh.get_of_mem h he⟩
  · rintro ⟨id, hid⟩
    exact mem_map.2 ⟨(id, v), mem_of_get' hid, rfl⟩

/-- what `execute` does with a field that fits -/
theorem maxDist_run {w : World} (hw : WorldOk w) {surf : Nat → Surf} {c : MaxDist} {g : Nat} (hg : c.geom = some g) (hf : Ok c.field.data)
    (hu : Usable w g c.field) : ∃ c', c.execute w surf = some c' ∧ c'.geom = some g ∧ c'.limit = c.limit ∧
      c'.violation.geo = some g ∧ c'.violation.loc = .point ∧ Ok c'.violation.data ∧
      (∀ id, get (w g).verts id = none → get c'.violation.data id = none) ∧
      ∀ id p, get (w g).verts id = some p → get c'.violation.data id =
        some ((distance (surf g) (p + disp c.field id) (max (1 / 10 ^ 8) (6 / 5 * norm2 (disp c.field id)))).2 - c.limit) := by
  obtain ⟨f, h1, h2, h3, h4, h5, h6, h7⟩ := completeIn_ok hw hf ⟨0, 0, 0⟩ hu.1 hu.2.1 hu.2.2
  have hd : ∀ e ∈ (w g).verts, get f.data e.1 = some (disp c.field e.1) := fun e he => h6 e.1 e.2 (Verif.Mesh.get_of_mem (hw.verts g) he)
  unfold MaxDist.execute
  rw [hg]
  simp only [h1, constField_spec hw g, deformed_spec (fun e he => ⟨_, hd e he⟩), Option.some.injEq, exists_eq_left']
  refine ⟨trivial, trivial, trivial, trivial, ?_, ?_, ?_⟩
  · unfold Ok
    rw [writeAll_keys]
    have := hw.verts g
    unfold Ok at this
    simpa [map_map, Function.comp_def] using this
  · intro id hn
    rw [get_none_iff, writeAll_keys, map_map, Function.comp_def]
    rw [get_none_iff] at hn
    simpa using hn
  · intro id p hp
    apply writeAll_get
    · have := hw.verts g
      unfold Ok at this
      simpa [map_map, Function.comp_def] using this
    · rw [map_map, mem_map]
      refine ⟨(id, p), mem_of_get' hp, ?_⟩
      have := hd (id, p) (mem_of_get' hp)
      simp only at this
      simp [this]
    · have := mem_ids.2 ⟨p, hp⟩
      simpa [map_map, Function.comp_def] using this

/-! ### Theorems -/

/-- **C139** the violation at a vertex is the distance of the displaced vertex from the surface before deformation minus the limit: the radius
of the search is always large enough. -/
theorem C139_distance {w : World} (hw : WorldOk w) {surf : Nat → Surf} {region : Nat → V3 → Prop} {c : MaxDist} {g : Nat} (hg : c.geom = some g)
    (hf : Ok c.field.data) (hu : Usable w g c.field) (hs : Sound (surf g) region) (hin : InCells w g region)
    (hh : ∀ id, norm2 (disp c.field id) < huge) :
    ∃ c', c.execute w surf = some c' ∧ c'.violation.geo = some g ∧ c'.violation.loc = .point ∧ Ok c'.violation.data ∧
      (∀ id, get (w g).verts id = none → get c'.violation.data id = none) ∧
      ∀ id p, get (w g).verts id = some p → ∃ d, IsDist region (p + disp c.field id) d ∧ get c'.violation.data id = some (d - c.limit) := by
  obtain ⟨c', h1, h2, h3, h4, h5, h6, h7, h8⟩ := maxDist_run hw (surf := surf) hg hf hu
  refine ⟨c', h1, h4, h5, h6, h7, ?_⟩
  intro id p hp
  rw [h8 id p hp]
  set u := disp c.field id
  have hn : norm2 (p + u - p) = norm2 u := by
    congr 1; ext <;> simp
  unfold distance
  cases hcl : (surf g).closest (p + u) (max (1 / 10 ^ 8) (6 / 5 * norm2 u)) with
  | none =>
    obtain ⟨k, hk⟩ := hin id p hp
    have := hs.missed _ _ hcl k p hk
    rw [hn] at this
    rcases min_le_iff.1 this with h | h
    · exfalso
      rcases max_le_iff.1 h with ⟨ha, hb⟩
      have : (0 : ℝ) < norm2 u := lt_of_lt_of_le (by norm_num) ha
      linarith
    · exact absurd (hh id) (not_lt.2 h)
  | some r =>
    obtain ⟨k, h⟩ := r
    obtain ⟨-, -, ⟨x, hx, rfl⟩, hmin⟩ := hs.found _ _ k h hcl
    exact ⟨_, ⟨k, x, ⟨hx, hmin⟩, rfl⟩, rfl⟩

/-- **C139** the violation of the block is positive exactly when some vertex is displaced farther than the limit from the surface -/
theorem C139_violation {w : World} (hw : WorldOk w) {surf : Nat → Surf} {region : Nat → V3 → Prop} {c : MaxDist} {g : Nat} (hg : c.geom = some g)
    (hf : Ok c.field.data) (hu : Usable w g c.field) (hs : Sound (surf g) region) (hin : InCells w g region)
    (hh : ∀ id, norm2 (disp c.field id) < huge) :
    ∃ c', c.execute w surf = some c' ∧
      (0 < c'.getViolation ↔ ∃ id p d, get (w g).verts id = some p ∧ IsDist region (p + disp c.field id) d ∧ c.limit < d) := by
  obtain ⟨c', h1, -, -, h6, h7, h8⟩ := C139_distance hw (surf := surf) hg hf hu hs hin hh
  refine ⟨c', h1, ?_⟩
  have hneg : -huge ≤ 0 := by have := ten_le_huge; linarith
  rw [← not_le, Control.getViolation, foldl_max_le, ← not_iff_not, not_not]
  constructor
  · rintro ⟨-, h⟩ ⟨id, p, d, hp, ⟨k, x, hx, rfl⟩, hlt⟩
    obtain ⟨d', ⟨k', x', hx', rfl⟩, hd'⟩ := h8 id p hp
    have := h _ ((mem_vals h6 _).2 ⟨id, hd'⟩)
    have := hx.2 k' x' hx'.1
    linarith
  · intro h
    refine ⟨hneg, ?_⟩
    intro v hv
    obtain ⟨id, hid⟩ := (mem_vals h6 v).1 hv
    cases hp : get (w g).verts id with
    | none => rw [h7 id hp] at hid; cases hid
    | some p =>
      obtain ⟨d, hd, hd'⟩ := h8 id p hp
      rw [hd'] at hid
      obtain rfl := Option.some_inj.1 hid
      by_contra hlt
      exact h ⟨id, p, d, hp, hd, by linarith⟩

/-- **C139** with the whole displacement as bound: no vertex displaced by at most the limit violates it -/
theorem C139_short {w : World} (hw : WorldOk w) {surf : Nat → Surf} {region : Nat → V3 → Prop} {c : MaxDist} {g : Nat} (hg : c.geom = some g)
    (hf : Ok c.field.data) (hu : Usable w g c.field) (hs : Sound (surf g) region) (hin : InCells w g region)
    (hh : ∀ id, norm2 (disp c.field id) < huge) (hl : ∀ id, norm2 (disp c.field id) ≤ c.limit) :
    ∃ c', c.execute w surf = some c' ∧ c'.getViolation ≤ 0 := by
  obtain ⟨c', h1, h2⟩ := C139_violation hw (surf := surf) hg hf hu hs hin hh
  refine ⟨c', h1, ?_⟩
  rw [← not_lt, h2]
  rintro ⟨id, p, d, hp, ⟨k, x, hx, rfl⟩, hlt⟩
  obtain ⟨k', hk'⟩ := hin id p hp
  have := hx.2 k' p hk'
  have hn : norm2 (p + disp c.field id - p) = norm2 (disp c.field id) := by
    congr 1; ext <;> simp
  have := hl id
  linarith

/-- **C139** the limit is the value set last, raised to 1e-12, and zero if it was never set; a new field deletes the violation; a null field or a
geometry that is not a surface changes nothing; a copy has neither field nor violation -/
theorem C139_settings (w : World) (c : MaxDist) (x : ℝ) (f : Field Nat V3) (g : Nat) :
    (c.setLimit x).limit = (if x < 1 / 10 ^ 12 then 1 / 10 ^ 12 else x) ∧ ({} : MaxDist).limit = 0 ∧
      (c.setDefField (some f)).field = f ∧ (c.setDefField (some f)).violation.data = [] ∧ (c.setDefField (some f)).limit = c.limit ∧
      c.setDefField none = c ∧ ((w g).type = 1 → (c.setGeometry w (some g)).geom = some g) ∧
      ((w g).type ≠ 1 → c.setGeometry w (some g) = c.toControl) ∧ c.setGeometry w none = c.toControl ∧
      c.copy.geom = c.geom ∧ c.copy.limit = c.limit ∧ c.copy.field.data = [] ∧ c.copy.violation.data = [] := by
  refine ⟨?_, rfl, rfl, rfl, rfl, rfl, ?_, ?_, rfl, rfl, rfl, rfl, rfl⟩
  · simp only [MaxDist.setLimit]
    split
    · exact max_eq_left (by linarith)
    · exact max_eq_right (by linarith)
  · intro h; simp [Control.setGeometry, h]
  · intro h; simp [Control.setGeometry, h]

/-- **C139, violated** without a field (the input is not mandatory) and with at least one vertex, `execute` reads values that are not there. -/
theorem C139_nofield_fails {w : World} (hw : WorldOk w) {surf : Nat → Surf} {c : MaxDist} {g : Nat} (hg : c.geom = some g)
    (hf : c.field = make none .undefined) {id : Nat} {p : V3} (hp : get (w g).verts id = some p) : c.execute w surf = none := by
  have hc : completeIn w c.field ⟨0, 0, 0⟩ = some (c.field, false) := by
    rw [hf]; simp [completeIn, make, completeMissingData, idsCoherent]
  unfold MaxDist.execute
  rw [hg]
  simp only [hc, constField_spec hw g]
  rw [deformed_none ⟨(id, p), mem_of_get' hp, by rw [hf]; rfl⟩]

/-- **C139, violated** a vertex that belongs to no cell and is farther than 1e-8 from all cells counts as displaced by the largest number, though
it is not displaced at all. -/
theorem C139_loose_fails {w : World} (hw : WorldOk w) {surf : Nat → Surf} {c : MaxDist} {g : Nat} (hg : c.geom = some g)
    (hf : Ok c.field.data) (hu : Usable w g c.field) {id : Nat} {p : V3} (hp : get (w g).verts id = some p) (h0 : get c.field.data id = none)
    (hn : (surf g).closest p (1 / 10 ^ 8) = none) :
    ∃ c', c.execute w surf = some c' ∧ get c'.violation.data id = some (huge - c.limit) := by
  obtain ⟨c', h1, h2, h3, h4, h5, h6, h7, h8⟩ := maxDist_run hw (surf := surf) hg hf hu
  refine ⟨c', h1, ?_⟩
  have e : disp c.field id = ⟨0, 0, 0⟩ := by rw [disp, h0]; rfl
  have e2 : p + (⟨0, 0, 0⟩ : V3) = p := by ext <;> simp
  have e3 : norm2 (⟨0, 0, 0⟩ : V3) = 0 := norm2_eq_zero.2 rfl
  rw [h8 id p hp, e, e2, e3]
  have e4 : max (1 / 10 ^ 8 : ℝ) (6 / 5 * 0) = 1 / 10 ^ 8 := by norm_num
  rw [e4, distance, hn]

/-! ### A case -/

/-- the triangle of `demo_surf` behind every handle -/
def triWorld : World := fun _ => { demoObj with verts := [(0, ⟨0, 0, 0⟩), (4, ⟨1, 0, 0⟩), (7, ⟨0, 1, 0⟩)] }

theorem triWorld_ok : WorldOk triWorld := ⟨fun _ => by simp [Ok, triWorld], fun _ => by simp [Ok, triWorld, demoObj]⟩

/-- vertex 4 is lifted by 2 -/
def liftField : Field Nat V3 := ⟨some 0, defaultName, .point, [(4, ⟨0, 0, 2⟩)]⟩

theorem lift_usable : Usable triWorld 0 liftField := by
  refine ⟨rfl, rfl, ?_⟩
  intro e he
  simp only [liftField, mem_cons, not_mem_nil, or_false] at he
  subst he
  exact ⟨⟨1, 0, 0⟩, rfl⟩

theorem lift_disp (id : Nat) : disp liftField id = if id = 4 then ⟨0, 0, 2⟩ else ⟨0, 0, 0⟩ := by
  by_cases h : id = 4
  · subst h; rfl
  · rw [if_neg h, disp, liftField, get_cons, if_neg (fun e => h e.symm)]; rfl

theorem lift_norm (id : Nat) : norm2 (disp liftField id) ≤ 2 := by
  rw [lift_disp]
  split
  · exact le_of_eq (norm2_of_dot (by norm_num) (by norm_num [dot]))
  · rw [norm2_eq_zero.2 rfl]; norm_num

theorem tri_inCells : InCells triWorld 0 (fun id q => id = 0 ∧ InTri ⟨0, 0, 0⟩ ⟨1, 0, 0⟩ ⟨0, 1, 0⟩ q) := by
  intro id p hp
  have := mem_of_get' hp
  simp only [triWorld, mem_cons, Prod.mk.injEq, not_mem_nil, or_false] at this
  refine ⟨0, rfl, ?_⟩
  rcases this with ⟨-, rfl⟩ | ⟨-, rfl⟩ | ⟨-, rfl⟩
  · exact ⟨0, 0, by norm_num, by norm_num, by norm_num, by ext <;> simp [inPlane, V3.scale]⟩
  · exact ⟨1, 0, by norm_num, by norm_num, by norm_num, by ext <;> simp [inPlane, V3.scale]⟩
  · exact ⟨0, 1, by norm_num, by norm_num, by norm_num, by ext <;> simp [inPlane, V3.scale]⟩

/-- a limit of 1 is violated, one of 3 is not -/
example : ∃ s, (∃ c', ({ geom := some 0, field := liftField, limit := 1 } : MaxDist).execute triWorld (fun _ => s) = some c' ∧ 0 < c'.getViolation) ∧
    ∃ c', ({ geom := some 0, field := liftField, limit := 3 } : MaxDist).execute triWorld (fun _ => s) = some c' ∧ c'.getViolation ≤ 0 := by
  obtain ⟨s, hs, -⟩ := demo_surf
  have hh : ∀ id, norm2 (disp liftField id) < huge := fun id => by have := ten_le_huge; have := lift_norm id; linarith
  have hok : Ok liftField.data := by simp [Ok, liftField]
  refine ⟨s, ?_, ?_⟩
  · obtain ⟨c', h1, h2⟩ := C139_violation (c := { geom := some 0, field := liftField, limit := 1 }) triWorld_ok (surf := fun _ => s) rfl hok lift_usable hs
      tri_inCells hh
    refine ⟨c', h1, h2.2 ⟨4, ⟨1, 0, 0⟩, 2, rfl, ⟨0, ⟨1, 0, 0⟩, ⟨⟨rfl, 1, 0, by norm_num, by norm_num, by norm_num, by ext <;> simp [inPlane, V3.scale]⟩, ?_⟩, ?_⟩, by norm_num⟩⟩
    · rintro k q ⟨-, a, b, -, -, -, rfl⟩
      rw [lift_disp, if_pos rfl]
      rw [norm2_of_dot (r := 2) (by norm_num) (by norm_num [dot])]
      refine le_trans ?_ (abs_le_norm2 _).2.2
      simp [inPlane, V3.scale]
    · rw [lift_disp, if_pos rfl]
      exact (norm2_of_dot (by norm_num) (by norm_num [dot])).symm
  · exact C139_short (c := { geom := some 0, field := liftField, limit := 3 }) triWorld_ok rfl hok lift_usable hs tri_inCells hh
      (fun id => (lift_norm id).trans (by norm_num))

example : ∃ s : Surf, ({ geom := some 0 } : MaxDist).execute triWorld (fun _ => s) = none := by
  obtain ⟨s, -⟩ := demo_surf
  exact ⟨s, C139_nofield_fails triWorld_ok rfl rfl (id := 0) (p := ⟨0, 0, 0⟩) rfl⟩

/-- a vertex apart from the triangle -/
example : ∃ s, ∃ c', ({ geom := some 0, field := liftField, limit := 1 } : MaxDist).execute
    (fun h => { triWorld h with verts := (triWorld h).verts ++ [(9, ⟨5, 5, 5⟩)] }) (fun _ => s) = some c' ∧
      get c'.violation.data 9 = some (huge - 1) := by
  obtain ⟨s, hs, -, -, -, hr, -⟩ := demo_surf'
  refine ⟨s, C139_loose_fails (c := { geom := some 0, field := liftField, limit := 1 }) ?_ rfl (by simp [Ok, liftField]) ?_ (p := ⟨5, 5, 5⟩) rfl rfl ?_⟩
  · exact ⟨fun _ => by simp [Ok, triWorld], fun _ => by simp [Ok, triWorld, demoObj]⟩
  · refine ⟨rfl, rfl, ?_⟩
    intro e he
    simp only [liftField, mem_cons, not_mem_nil, or_false] at he
    subst he
    exact ⟨⟨1, 0, 0⟩, rfl⟩
  · cases hcl : s.closest ⟨5, 5, 5⟩ (1 / 10 ^ 8) with
    | none => rfl
    | some e =>
      exfalso
      obtain ⟨k, h⟩ := e
      have h1 := hr _ _ _ _ hcl
      obtain ⟨-, -, ⟨x, ⟨-, a, b, -, -, -, rfl⟩, rfl⟩, -⟩ := hs.found _ _ _ _ hcl
      have h2 := (abs_le_norm2 ((⟨5, 5, 5⟩ : V3) - inPlane ⟨0, 0, 0⟩ ⟨1, 0, 0⟩ ⟨0, 1, 0⟩ a b)).2.2
      have h3 : ((⟨5, 5, 5⟩ : V3) - inPlane ⟨0, 0, 0⟩ ⟨1, 0, 0⟩ ⟨0, 1, 0⟩ a b).z = 5 := by simp [inPlane, V3.scale]
      rw [h3, abs_of_pos (by norm_num)] at h2
      have h4 : (1 / 10 ^ 8 : ℝ) < 5 := by norm_num
      linarith

end
end Verif.Utils
