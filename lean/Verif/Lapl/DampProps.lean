import Verif.Lapl.Propagate
import Mathlib.Algebra.Order.Round
/-
C175: damping; C176: the conditions at the points; C177: settings.
-/
namespace Verif.Lapl
open List

noncomputable section

/-! ### Damping -/

/-- the diffusivity at a distance -/
def diffusivity (r p k d : ℝ) : ℝ := (r / max d p) ^ k

theorem ratio_gt {r p k : ℝ} (hp : 0 < p) (hr : p < r) (hk : 0 < k) : 1 < (r / p) ^ k :=
  Real.one_lt_rpow ((one_lt_div hp).2 hr) hk

/-- **C175.** With 0 < inner distance < outer distance and a positive decay the diffusivity at a distance d is (outer / max d inner) to the power of the decay. -/
theorem C175_distance {r p k d : ℝ} (hp : 0 < p) (hr : p < r) (hk : 0 < k) : dampDist r p k d = some (diffusivity r p k d) := by
  have hm : (r / p) ^ k - 1 ≠ 0 := by have := ratio_gt hp hr hk; linarith
  unfold dampDist distPart diffusivity
  rw [if_neg hp.ne']
  by_cases h : d < p
  · rw [if_pos h, max_eq_right h.le]
    simp
  · have hd : 0 < d := lt_of_lt_of_le hp (not_lt.1 h)
    rw [if_neg h, if_neg (not_or.2 ⟨hd.ne', hm⟩), max_eq_left (not_lt.1 h)]
    simp only [Option.map_some, Option.some.injEq]
    field_simp
    ring

/-- **C175.** It falls with the distance, from (outer / inner) to the power of the decay within the inner distance to 1 at the outer one. -/
theorem C175_range {r p k d d' : ℝ} (hp : 0 < p) (hr : p < r) (hk : 0 < k) (hd : d ≤ d') (hd' : d' ≤ r) :
    1 ≤ diffusivity r p k d' ∧ diffusivity r p k d' ≤ diffusivity r p k d ∧ diffusivity r p k d ≤ (r / p) ^ k ∧
    (d ≤ p → diffusivity r p k d = (r / p) ^ k) ∧ diffusivity r p k r = 1 := by
  have hr0 : 0 < r := hp.trans hr
  unfold diffusivity
  have m1 : 0 < max d p := lt_max_of_lt_right hp
  have m2 : 0 < max d' p := lt_max_of_lt_right hp
  refine ⟨?_, ?_, ?_, ?_, ?_⟩
  · exact Real.one_le_rpow ((one_le_div m2).2 (max_le hd' hr.le)) hk.le
  · exact Real.rpow_le_rpow (by positivity) (div_le_div_of_nonneg_left hr0.le m1 (max_le_max hd le_rfl)) hk.le
  · exact Real.rpow_le_rpow (by positivity) (div_le_div_of_nonneg_left hr0.le hp (le_max_right _ _)) hk.le
  · intro h
    rw [max_eq_right h]
  · rw [max_eq_left hr.le, div_self hr0.ne', Real.one_rpow]

example : dampDist 4 1 2 2 = some 4 := by
  rw [C175_distance (by norm_num) (by norm_num) (by norm_num)]
  unfold diffusivity
  rw [max_eq_left (by norm_num)]
  norm_num

/-- **C175.** Violated: the default inner distance is zero, which divides by zero at every distance. -/
theorem C175_default_fails (r k d : ℝ) : dampDist r Settings.default.plateau k d = none ∧
    ∀ vols vol, dampVol r Settings.default.plateau k vols vol d = none := by
  have h : distPart r Settings.default.plateau k d = none := if_pos rfl
  unfold dampDist dampVol
  rw [h]
  exact ⟨rfl, fun _ _ => rfl⟩

/-- **C175.** Violated: a decay of zero divides zero by zero beyond the inner distance. -/
theorem C175_decay_fails {r p d : ℝ} (hp : p ≠ 0) (hd : p ≤ d) : dampDist r p 0 d = none := by
  unfold dampDist distPart
  rw [if_neg hp, if_neg (not_lt.2 hd), if_pos (Or.inr (by rw [Real.rpow_zero, sub_self]))]
  rfl

example : dampDist 4 1 0 2 = none := C175_decay_fails (by norm_num) (by norm_num)

theorem foldl_max (l : List ℝ) (a : ℝ) : a ≤ l.foldl max a ∧ (∀ x ∈ l, x ≤ l.foldl max a) ∧ (l.foldl max a = a ∨ l.foldl max a ∈ l) := by
  induction l generalizing a with
  | nil => simp
  | cons b l ih =>
    obtain ⟨h1, h2, h3⟩ := ih (max a b)
    rw [foldl_cons]
    refine ⟨le_trans (le_max_left _ _) h1, ?_, ?_⟩
    · intro x hx
      rcases mem_cons.1 hx with rfl | hx
      · exact le_trans (le_max_right _ _) h1
      · exact h2 x hx
    · rcases h3 with h3 | h3
      · rcases max_choice a b with h | h
        · exact Or.inl (h3.trans h)
        · exact Or.inr (by rw [h3, h]; exact mem_cons_self)
      · exact Or.inr (mem_cons_of_mem _ h3)

theorem foldl_min (l : List ℝ) (a : ℝ) : l.foldl min a ≤ a ∧ (∀ x ∈ l, l.foldl min a ≤ x) ∧ (l.foldl min a = a ∨ l.foldl min a ∈ l) := by
  induction l generalizing a with
  | nil => simp
  | cons b l ih =>
    obtain ⟨h1, h2, h3⟩ := ih (min a b)
    rw [foldl_cons]
    refine ⟨le_trans h1 (min_le_left _ _), ?_, ?_⟩
    · intro x hx
      rcases mem_cons.1 hx with rfl | hx
      · exact le_trans h1 (min_le_right _ _)
      · exact h2 x hx
    · rcases h3 with h3 | h3
      · rcases min_choice a b with h | h
        · exact Or.inl (h3.trans h)
        · exact Or.inr (by rw [h3, h]; exact mem_cons_self)
      · exact Or.inr (mem_cons_of_mem _ h3)

theorem dblMin_pos : 0 < dblMin := by unfold dblMin; positivity

/-- the share of the distance in the damping by volume: 1 within the inner distance, 0 at the outer one -/
def share (r p k d : ℝ) : ℝ := (diffusivity r p k d - 1) / ((r / p) ^ k - 1)

theorem dist_share {r p k d : ℝ} (hp : 0 < p) (hr : p < r) (hk : 0 < k) : distPart r p k d = some (share r p k d) := by
  have hm : (r / p) ^ k - 1 ≠ 0 := by have := ratio_gt hp hr hk; linarith
  unfold distPart share diffusivity
  rw [if_neg hp.ne']
  by_cases h : d < p
  · rw [if_pos h, max_eq_right h.le, div_self hm]
  · have hd : 0 < d := lt_of_lt_of_le hp (not_lt.1 h)
    rw [if_neg h, if_neg (not_or.2 ⟨hd.ne', hm⟩), max_eq_left (not_lt.1 h)]

theorem share_range {r p k d : ℝ} (hp : 0 < p) (hr : p < r) (hk : 0 < k) (hd : d ≤ r) : 0 ≤ share r p k d ∧ share r p k d ≤ 1 := by
  have hm := ratio_gt hp hr hk
  obtain ⟨h1, _, h3, _⟩ := C175_range hp hr hk (le_refl d) hd
  unfold share
  constructor
  · apply div_nonneg <;> linarith
  · rw [div_le_one (by linarith)]
    linarith

/-- **C175.** Damping by volume, for the volumes (positive normal numbers) of the cells within the outer distance: the diffusivity of a cell is
1 + (largest − smallest volume) / its volume to the power of the share of its distance; it is at least 1 and that full value within the inner distance. -/
theorem C175_volume {r p k d : ℝ} (hp : 0 < p) (hr : p < r) (hk : 0 < k) (hd : d ≤ r) {vols : List ℝ} {vol vmin vmax : ℝ} (hv : vol ∈ vols)
    (hpos : ∀ v ∈ vols, dblMin ≤ v ∧ v ≤ (2 - 2⁻¹ ^ 52) * 2 ^ 1023) (hmin : vmin ∈ vols ∧ ∀ v ∈ vols, vmin ≤ v) (hmax : vmax ∈ vols ∧ ∀ v ∈ vols, v ≤ vmax) :
    ∃ x, dampVol r p k vols vol d = some x ∧ x = (1 + (vmax - vmin) / vol) ^ share r p k d ∧ 1 ≤ x ∧ x ≤ 1 + (vmax - vmin) / vol ∧
      (d ≤ p → x = 1 + (vmax - vmin) / vol) ∧ (d = r → x = 1) := by
  have hcl : ∀ v ∈ vols, clampVol v = v := fun v h => if_neg (not_lt.2 (hpos v h).1)
  have hmap : vols.map clampVol = vols := by
    conv_rhs => rw [← map_id vols]
    exact map_congr_left hcl
  have emax : vols.foldl max 0 = vmax := by
    obtain ⟨_, h2, h3⟩ := foldl_max vols 0
    apply le_antisymm
    · rcases h3 with h3 | h3
      · rw [h3]
        exact le_trans dblMin_pos.le (hpos _ hmax.1).1
      · exact hmax.2 _ h3
    · exact h2 _ hmax.1
  have emin : vols.foldl min ((2 - 2⁻¹ ^ 52) * 2 ^ 1023) = vmin := by
    obtain ⟨_, h2, h3⟩ := foldl_min vols ((2 - 2⁻¹ ^ 52) * 2 ^ 1023)
    apply le_antisymm
    · exact h2 _ hmin.1
    · rcases h3 with h3 | h3
      · rw [h3]
        exact (hpos _ hmin.1).2
      · exact hmin.2 _ h3
  have hvp : 0 < vol := lt_of_lt_of_le dblMin_pos (hpos _ hv).1
  have hb : 1 ≤ 1 + (vmax - vmin) / vol := by
    have : 0 ≤ (vmax - vmin) / vol := div_nonneg (sub_nonneg.2 (hmin.2 _ hmax.1)) hvp.le
    linarith
  obtain ⟨s0, s1⟩ := share_range hp hr hk hd
  refine ⟨(1 + (vmax - vmin) / vol) ^ share r p k d, ?_, rfl, ?_, ?_, ?_, ?_⟩
  · unfold dampVol
    rw [dist_share hp hr hk, hmap, emax, emin, hcl vol hv]
    rfl
  · exact Real.one_le_rpow hb s0
  · calc (1 + (vmax - vmin) / vol) ^ share r p k d ≤ (1 + (vmax - vmin) / vol) ^ (1 : ℝ) := Real.rpow_le_rpow_of_exponent_le hb s1
      _ = _ := Real.rpow_one _
  · intro h
    have : share r p k d = 1 := by
      unfold share
      rw [(C175_range hp hr hk (le_refl d) hd).2.2.2.1 h]
      exact div_self (by have := ratio_gt hp hr hk; linarith)
    rw [this, Real.rpow_one]
  · intro h
    have : share r p k d = 0 := by
      unfold share
      rw [h, (C175_range hp hr hk (le_refl d) hd).2.2.2.2, sub_self, zero_div]
    rw [this, Real.rpow_zero]

example : ∃ x, dampVol 4 1 1 [1, 3] 1 0 = some x ∧ x = 3 := by
  have hm : dblMin ≤ 1 := by
    unfold dblMin
    exact pow_le_one₀ (by norm_num) (by norm_num)
  have h4 : (2 : ℝ) ^ 2 ≤ 2 ^ 1023 := pow_le_pow_right₀ (by norm_num) (by norm_num)
  have h1 : (1 : ℝ) ≤ 2 - 2⁻¹ ^ 52 := by norm_num
  have hM : (3 : ℝ) ≤ (2 - 2⁻¹ ^ 52) * 2 ^ 1023 := by
    generalize (2 : ℝ) ^ 1023 = a at *
    generalize (2 : ℝ) - 2⁻¹ ^ 52 = b at *
    nlinarith
  obtain ⟨x, h1, _, _, _, h2, _⟩ := C175_volume (r := 4) (p := 1) (k := 1) (d := 0) (vols := [1, 3]) (vol := 1) (vmin := 1) (vmax := 3)
    (by norm_num) (by norm_num) (by norm_num) (by norm_num) (by simp) (by
      intro v hv
      simp only [mem_cons, not_mem_nil, or_false] at hv
      rcases hv with rfl | rfl
      · exact ⟨hm, le_trans (by norm_num) hM⟩
      · exact ⟨by linarith, hM⟩) (by simp) (by simp)
  exact ⟨x, h1, by rw [h2 (by norm_num)]; norm_num⟩

/-! ### Conditions -/

theorem put_get (b : Bcs) (id : Nat) (v : ℝ) (k : Nat) : b.put id v k = (b k).or (if k = id then some v else none) := by
  unfold Bcs.put
  cases b k <;> rfl

theorem patch_get (verts : List Nat) (value : Nat → Option ℝ) : ∀ (b : Bcs) (k : Nat), putPatch verts value b k =
    (b k).or (if k ∈ verts then some ((value k).getD 0) else none) := by
  unfold putPatch
  induction verts with
  | nil => intro b k; simp
  | cons i l ih =>
    intro b k
    rw [foldl_cons, ih, put_get]
    cases hb : b k with
    | some v => rfl
    | none =>
      by_cases hk : k = i
      · subst hk; simp
      · simp [hk]

/-- a field is used at a point: its patch is listed and holds the point -/
def Covers (verts : Nat → List Nat) (patches : List Nat) (k : Nat) (f : BcField) : Prop := f.patch ∈ patches ∧ k ∈ verts f.patch

theorem fields_get (verts : Nat → List Nat) (k : Nat) : ∀ (fields : List BcField) (b : Bcs) (ps : List Nat),
    let r := fields.foldl (fieldStep verts) (b, ps)
    (∀ w, b k = some w → r.1 k = some w) ∧ (b k = none → (∃ f ∈ fields, Covers verts ps k f ∧ r.1 k = some ((f.value k).getD 0)) ∨
      ((∀ f ∈ fields, ¬ Covers verts ps k f) ∧ r.1 k = none)) ∧
    ∀ p, p ∈ r.2 ↔ p ∈ ps ∧ ∀ f ∈ fields, f.patch ≠ p := by
  intro fields
  induction fields with
  | nil => intro b ps; simp
  | cons f l ih =>
    intro b ps
    simp only [foldl_cons]
    by_cases hp : f.patch ∈ ps
    · have hs : fieldStep verts (b, ps) f = (putPatch (verts f.patch) f.value b, ps.filter fun p => p != f.patch) := if_pos hp
      rw [hs]
      obtain ⟨h1, h2, h3⟩ := ih (putPatch (verts f.patch) f.value b) (ps.filter fun p => p != f.patch)
      refine ⟨?_, ?_, ?_⟩
      · intro w hw
        exact h1 w (by rw [patch_get, hw]; rfl)
      · intro hb
        by_cases hk : k ∈ verts f.patch
        · left
          refine ⟨f, mem_cons_self, ⟨hp, hk⟩, h1 _ ?_⟩
          rw [patch_get, hb, if_pos hk]
          rfl
        · rcases h2 (by rw [patch_get, hb, if_neg hk]; rfl) with ⟨g, hg, hc, hr⟩ | ⟨hn, hr⟩
          · left
            exact ⟨g, mem_cons_of_mem _ hg, ⟨(mem_filter.1 hc.1).1, hc.2⟩, hr⟩
          · right
            refine ⟨?_, hr⟩
            intro g hg hc
            rcases mem_cons.1 hg with rfl | hg
            · exact hk hc.2
            · by_cases he : g.patch = f.patch
              · exact hk (he ▸ hc.2)
              · exact hn g hg ⟨mem_filter.2 ⟨hc.1, by simpa using he⟩, hc.2⟩
      · intro p
        rw [h3, mem_filter]
        constructor
        · rintro ⟨⟨h, hne⟩, hall⟩
          refine ⟨h, ?_⟩
          intro g hg
          rcases mem_cons.1 hg with rfl | hg
          · have : p ≠ g.patch := by simpa using hne
            exact this.symm
          · exact hall g hg
        · rintro ⟨h, hall⟩
          exact ⟨⟨h, by simpa using (hall f mem_cons_self).symm⟩, fun g hg => hall g (mem_cons_of_mem _ hg)⟩
    · have hs : fieldStep verts (b, ps) f = (b, ps) := if_neg hp
      rw [hs]
      obtain ⟨h1, h2, h3⟩ := ih b ps
      refine ⟨h1, ?_, ?_⟩
      · intro hb
        rcases h2 hb with ⟨g, hg, hc, hr⟩ | ⟨hn, hr⟩
        · exact Or.inl ⟨g, mem_cons_of_mem _ hg, hc, hr⟩
        · right
          refine ⟨?_, hr⟩
          intro g hg hc
          rcases mem_cons.1 hg with rfl | hg
          · exact hp hc.1
          · exact hn g hg hc
      · intro p
        rw [h3]
        constructor
        · rintro ⟨h, hall⟩
          refine ⟨h, ?_⟩
          intro g hg
          rcases mem_cons.1 hg with rfl | hg
          · intro he
            exact hp (he ▸ h)
          · exact hall g hg
        · rintro ⟨h, hall⟩
          exact ⟨h, fun g hg => hall g (mem_cons_of_mem _ hg)⟩

theorem rest_get (verts : Nat → List Nat) (k : Nat) : ∀ (ps : List Nat) (b : Bcs), (ps.foldl (fun b p => putPatch (verts p) (fun _ => none) b) b) k =
    (b k).or (if ∃ p ∈ ps, k ∈ verts p then some 0 else none) := by
  intro ps
  induction ps with
  | nil => intro b; simp
  | cons p l ih =>
    intro b
    rw [foldl_cons, ih, patch_get]
    cases hb : b k with
    | some v => rfl
    | none =>
      by_cases hk : k ∈ verts p
      · simp [hk]
      · simp [hk]

/-- **C176.** The conditions are given at exactly the points of the patches: at a point covered by fields the value of one of them, zero where that field has
none, and zero at a point without a field. -/
theorem C176_values (verts : Nat → List Nat) (fields : List BcField) (patches : List Nat) (k : Nat) :
    ((∀ p ∈ patches, k ∉ verts p) → distribute verts fields patches k = none) ∧
    ((∃ p ∈ patches, k ∈ verts p) → (∀ f ∈ fields, ¬ Covers verts patches k f) → distribute verts fields patches k = some 0) ∧
    ((∃ f ∈ fields, Covers verts patches k f) → ∃ f ∈ fields, Covers verts patches k f ∧ distribute verts fields patches k = some ((f.value k).getD 0)) := by
  obtain ⟨_, h2, h3⟩ := fields_get verts k fields (fun _ => none) patches
  unfold distribute
  rw [rest_get]
  refine ⟨?_, ?_, ?_⟩
  · intro hn
    rcases h2 rfl with ⟨f, _, hc, _⟩ | ⟨_, hr⟩
    · exact absurd hc.2 (hn _ hc.1)
    · rw [hr, if_neg]
      · rfl
      · rintro ⟨p, hp, hk⟩
        exact hn p ((h3 p).1 hp).1 hk
  · rintro ⟨p, hp, hk⟩ hn
    rcases h2 rfl with ⟨f, hf, hc, _⟩ | ⟨_, hr⟩
    · exact absurd hc (hn f hf)
    · rw [hr, if_pos]
      · rfl
      · refine ⟨p, (h3 p).2 ⟨hp, ?_⟩, hk⟩
        intro f hf he
        exact hn f hf ⟨by rw [he]; exact hp, by rw [he]; exact hk⟩
  · rintro ⟨g, hg, hc⟩
    rcases h2 rfl with ⟨f, hf, hc', hr⟩ | ⟨hn, _⟩
    · exact ⟨f, hf, hc', by rw [hr]; rfl⟩
    · exact absurd hc (hn g hg)

/-- **C176.** When the fields that cover a point agree there, the order in which fields and patches are visited does not matter. -/
theorem C176_order_partial {verts : Nat → List Nat} {fields fields' : List BcField} {patches patches' : List Nat} (hf : ∀ f, f ∈ fields ↔ f ∈ fields')
    (hp : ∀ p, p ∈ patches ↔ p ∈ patches') {k : Nat}
    (ha : ∀ f ∈ fields, ∀ g ∈ fields, Covers verts patches k f → Covers verts patches k g → f.value k = g.value k) :
    distribute verts fields patches k = distribute verts fields' patches' k := by
  have hc : ∀ f, Covers verts patches k f ↔ Covers verts patches' k f := fun f => by unfold Covers; rw [hp]
  obtain ⟨a1, a2, a3⟩ := C176_values verts fields patches k
  obtain ⟨b1, b2, b3⟩ := C176_values verts fields' patches' k
  by_cases hk : ∃ p ∈ patches, k ∈ verts p
  · have hk' : ∃ p ∈ patches', k ∈ verts p := by
      obtain ⟨p, h1, h2⟩ := hk
      exact ⟨p, (hp p).1 h1, h2⟩
    by_cases he : ∃ f ∈ fields, Covers verts patches k f
    · obtain ⟨f, f1, f2, f3⟩ := a3 he
      obtain ⟨f0, h0, h0'⟩ := he
      obtain ⟨g, g1, g2, g3⟩ := b3 ⟨f0, (hf f0).1 h0, (hc f0).1 h0'⟩
      rw [f3, g3, ha f f1 g ((hf g).2 g1) f2 ((hc g).2 g2)]
    · rw [a2 hk (fun f h1 h2 => he ⟨f, h1, h2⟩), b2 hk' (fun f h1 h2 => he ⟨f, (hf f).2 h1, (hc f).2 h2⟩)]
  · rw [a1 (fun p h1 h2 => hk ⟨p, h1, h2⟩), b1 (fun p h1 h2 => hk ⟨p, (hp p).2 h1, h2⟩)]

/-- two patches that share the point 2 -/
def twoPatches : Nat → List Nat
  | 0 => [1, 2]
  | _ => [2, 3]

example : distribute twoPatches [⟨0, fun _ => some 5⟩] [0, 1] 1 = some 5 ∧ distribute twoPatches [⟨0, fun _ => some 5⟩] [0, 1] 2 = some 5 ∧
    distribute twoPatches [⟨0, fun _ => some 5⟩] [0, 1] 3 = some 0 ∧ distribute twoPatches [⟨0, fun _ => some 5⟩] [0, 1] 4 = none := by
  refine ⟨?_, ?_, ?_, ?_⟩ <;> simp [distribute, fieldStep, putPatch, twoPatches, Bcs.put]

/-- **C176.** Violated where patches with different values meet: the value depends on the order in which the set of fields is visited. -/
theorem C176_order_fails : ∃ (f g : BcField) (k : Nat), distribute twoPatches [f, g] [0, 1] k ≠ distribute twoPatches [g, f] [0, 1] k := by
  refine ⟨⟨0, fun _ => some 5⟩, ⟨1, fun _ => some 6⟩, 2, ?_⟩
  simp [distribute, fieldStep, putPatch, twoPatches, Bcs.put]

/-- **C176.** Violated: a second field given for the same patch is ignored or not, again by the order. -/
theorem C176_same_patch_fails : ∃ (f g : BcField), f.patch = g.patch ∧ distribute twoPatches [f, g] [0] 1 ≠ distribute twoPatches [g, f] [0] 1 := by
  refine ⟨⟨0, fun _ => some 5⟩, ⟨0, fun _ => some 6⟩, rfl, ?_⟩
  simp [distribute, fieldStep, putPatch, twoPatches, Bcs.put]

/-- conditions added one after the other -/
def addN (grow : Nat → Nat) : Nat → Temp
  | 0 => {}
  | n + 1 => (addN grow n).add grow

/-- **C176.** One field of conditions added to a scalar block is kept. -/
theorem C176_one (grow : Nat → Nat) : ∀ p ∈ (addN grow 1).pointers, (addN grow 1).Valid p := by
  intro p hp
  simp [addN, Temp.add] at hp
  subst hp
  simp [addN, Temp.add, Temp.Valid]

theorem add_first (grow : Nat → Nat) (h0 : 0 < grow 0) : ∀ n, n < grow 0 →
    (addN grow (n + 1)).buffer = 1 ∧ (addN grow (n + 1)).capacity = grow 0 ∧ (addN grow (n + 1)).size = n + 1 ∧ (1, 0) ∈ (addN grow (n + 1)).pointers := by
  intro n
  induction n with
  | zero => intro _; simp [addN, Temp.add]
  | succ n ih =>
    intro hn
    obtain ⟨h1, h2, h3, h4⟩ := ih (by omega)
    show ((addN grow (n + 1)).add grow).buffer = 1 ∧ ((addN grow (n + 1)).add grow).capacity = _ ∧ ((addN grow (n + 1)).add grow).size = _ ∧ _ ∈ ((addN grow (n + 1)).add grow).pointers
    unfold Temp.add
    have : (addN grow (n + 1)).size < (addN grow (n + 1)).capacity := by omega
    simp only [this, if_true]
    exact ⟨h1, h2, by omega, mem_cons_of_mem _ h4⟩

/-- **C176.** Violated: when more fields are added than the first buffer holds, the buffer moves and the pointer kept to the first field is not valid any
more, whatever the policy of the library. -/
theorem C176_pointers_fails (grow : Nat → Nat) (h0 : 0 < grow 0) : ∃ p ∈ (addN grow (grow 0 + 1)).pointers, ¬ (addN grow (grow 0 + 1)).Valid p := by
  obtain ⟨n, hn⟩ : ∃ n, grow 0 = n + 1 := ⟨grow 0 - 1, by omega⟩
  obtain ⟨h1, h2, h3, h4⟩ := add_first grow h0 n (by omega)
  rw [hn]
  refine ⟨(1, 0), ?_, ?_⟩
  · show _ ∈ ((addN grow (n + 1)).add grow).pointers
    unfold Temp.add
    have : ¬ (addN grow (n + 1)).size < (addN grow (n + 1)).capacity := by omega
    simp only [this, if_false]
    exact mem_cons_of_mem _ h4
  · show ¬ ((addN grow (n + 1)).add grow).Valid (1, 0)
    unfold Temp.add Temp.Valid
    have : ¬ (addN grow (n + 1)).size < (addN grow (n + 1)).capacity := by omega
    simp only [this, if_false]
    omega

/-- with the usual policy the second field is enough -/
example : ∃ p ∈ (addN (fun c => max 1 (2 * c)) 2).pointers, ¬ (addN (fun c => max 1 (2 * c)) 2).Valid p := C176_pointers_fails _ (by decide)

end

end Verif.Lapl
