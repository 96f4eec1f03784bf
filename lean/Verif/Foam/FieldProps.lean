import Verif.Foam.Field
import Mathlib.Algebra.Order.Field.Rat
import Mathlib.Tactic.NormNum
import Mathlib.Tactic.Ring
import Mathlib.Tactic.Linarith
import Mathlib.Data.List.Nodup
/-!
# C220, C221: fields of an OpenFOAM case
-/
namespace Verif.Foam

/-! ## C220: the interpolation -/

section Interp

variable {K : Type} [Field K]

/-- The corners at a vertex: the value of the cell and the angle. -/
def cornersAt (val : Int → K) (cells : List (Int × List (Nat × K))) (v : Nat) : List (K × K) :=
  cells.flatMap fun c => (c.2.filter (·.1 == v)).map fun p => (val c.1, p.2)

theorem foldl_corner (x : K) (l : List (Nat × K)) (a : (Nat → K) × (Nat → K)) (v : Nat) :
    (l.foldl (corner x) a).1 v = a.1 v + (((l.filter (·.1 == v)).map fun p => (x, p.2)).map fun q => q.1 * q.2).sum ∧
    (l.foldl (corner x) a).2 v = a.2 v + (((l.filter (·.1 == v)).map fun p => (x, p.2)).map fun q => q.2).sum := by
  induction l generalizing a with
  | nil => simp
  | cons p l ih =>
    rw [List.foldl_cons]
    obtain ⟨h1, h2⟩ := ih (corner x a p)
    rw [h1, h2]
    by_cases hv : v = p.1
    · have hb : (p.1 == v) = true := by simp [hv]
      rw [List.filter_cons, if_pos hb]
      simp only [corner, addAt, hv, if_true, List.map_cons, List.sum_cons]
      exact ⟨by ring, by ring⟩
    · have hb : ¬ (p.1 == v) = true := by simpa using fun h => hv h.symm
      rw [List.filter_cons, if_neg hb]
      simp only [corner, addAt, if_neg hv]
      exact ⟨trivial, trivial⟩

theorem overCells_spec (val : Int → K) (cells : List (Int × List (Nat × K))) (a : (Nat → K) × (Nat → K)) :
    ∃ b, overCells (fun c => some (val c)) cells a = some b ∧ ∀ v,
      b.1 v = a.1 v + ((cornersAt val cells v).map fun q => q.1 * q.2).sum ∧
      b.2 v = a.2 v + ((cornersAt val cells v).map fun q => q.2).sum := by
  induction cells generalizing a with
  | nil => exact ⟨a, rfl, fun v => by simp [cornersAt]⟩
  | cons c cells ih =>
    obtain ⟨b, h1, h2⟩ := ih (c.2.foldl (corner (val c.1)) a)
    refine ⟨b, h1, fun v => ?_⟩
    obtain ⟨e1, e2⟩ := foldl_corner (val c.1) c.2 a v
    obtain ⟨f1, f2⟩ := h2 v
    have : cornersAt val (c :: cells) v =
        ((c.2.filter (·.1 == v)).map fun p => (val c.1, p.2)) ++ cornersAt val cells v := List.flatMap_cons
    rw [this, List.map_append, List.map_append, List.sum_append, List.sum_append, f1, f2, e1, e2]
    exact ⟨by ring, by ring⟩

theorem overCells_congr (f g : Int → Option K) (cells : List (Int × List (Nat × K)))
    (h : ∀ c ∈ cells, f c.1 = g c.1) (a : (Nat → K) × (Nat → K)) : overCells f cells a = overCells g cells a := by
  induction cells generalizing a with
  | nil => rfl
  | cons c cells ih =>
    rw [overCells, overCells, h c (by simp)]
    cases g c.1 with
    | none => rfl
    | some x => exact ih (fun d hd => h d (List.mem_cons_of_mem _ hd)) _

variable [DecidableEq K]

/-- **C220.**  With a value on every cell, a vertex whose angles do not sum to zero gets the average of the values of
the cells around it, weighted by the angles. -/
theorem C220_average (verts : List Nat) (cells : List (Int × List (Nat × K))) (val : Int → Option K) (x : Int → K)
    (hx : ∀ c ∈ cells, val c.1 = some (x c.1)) :
    ∃ r, interpolate verts cells val = some r ∧ r.map Prod.fst = verts ∧
      ∀ v ∈ verts, ((cornersAt x cells v).map Prod.snd).sum ≠ 0 →
        (v, some (((cornersAt x cells v).map fun q => q.1 * q.2).sum / ((cornersAt x cells v).map Prod.snd).sum)) ∈ r := by
  obtain ⟨b, h1, h2⟩ := overCells_spec x cells (fun _ => 0, fun _ => 0)
  have h1' : overCells val cells (fun _ => 0, fun _ => 0) = some b := by
    rw [overCells_congr val (fun c => some (x c)) cells hx]; exact h1
  refine ⟨_, by rw [interpolate, h1']; rfl, ?_, ?_⟩
  · rw [List.map_map]; exact List.map_id _
  · intro v hv hne
    rw [List.mem_map]
    refine ⟨v, hv, ?_⟩
    obtain ⟨e1, e2⟩ := h2 v
    have e1 : b.1 v = ((cornersAt x cells v).map fun q => q.1 * q.2).sum := by rw [e1]; exact zero_add _
    have e2 : b.2 v = ((cornersAt x cells v).map Prod.snd).sum := by rw [e2]; exact zero_add _
    rw [e1, e2, if_neg hne]

theorem sum_const (l : List (K × K)) (k : K) (h : ∀ q ∈ l, q.1 = k) :
    (l.map fun q => q.1 * q.2).sum = k * (l.map Prod.snd).sum := by
  induction l with
  | nil => simp
  | cons q l ih =>
    rw [List.map_cons, List.map_cons, List.sum_cons, List.sum_cons, ih fun p hp => h p (List.mem_cons_of_mem _ hp),
      h q (by simp)]
    ring

/-- **C220, constants.**  When the cells around a vertex have the same value, the vertex has it. -/
theorem C220_constant (verts : List Nat) (cells : List (Int × List (Nat × K))) (val : Int → Option K) (x : Int → K)
    (hx : ∀ c ∈ cells, val c.1 = some (x c.1)) (v : Nat) (hv : v ∈ verts) (k : K)
    (hk : ∀ c ∈ cells, (∃ p ∈ c.2, p.1 = v) → x c.1 = k)
    (hne : ((cornersAt x cells v).map Prod.snd).sum ≠ 0) :
    ∃ r, interpolate verts cells val = some r ∧ (v, some k) ∈ r := by
  obtain ⟨r, h1, _, h2⟩ := C220_average verts cells val x hx
  refine ⟨r, h1, ?_⟩
  have := h2 v hv hne
  rwa [sum_const _ k, mul_div_cancel_right₀ _ hne] at this
  intro q hq
  rw [cornersAt, List.mem_flatMap] at hq
  obtain ⟨c, hc, hq⟩ := hq
  rw [List.mem_map] at hq
  obtain ⟨p, hp, rfl⟩ := hq
  rw [List.mem_filter] at hp
  exact hk c hc ⟨p, hp.1, by simpa using hp.2⟩

variable [LinearOrder K] [IsStrictOrderedRing K]

theorem sum_bounds (l : List (K × K)) (lo hi : K) (h : ∀ q ∈ l, lo ≤ q.1 ∧ q.1 ≤ hi ∧ 0 < q.2) :
    lo * (l.map Prod.snd).sum ≤ (l.map fun q => q.1 * q.2).sum ∧
    (l.map fun q => q.1 * q.2).sum ≤ hi * (l.map Prod.snd).sum ∧ (l ≠ [] → 0 < (l.map Prod.snd).sum) ∧
    0 ≤ (l.map Prod.snd).sum := by
  induction l with
  | nil => simp
  | cons q l ih =>
    obtain ⟨a, b, _, d⟩ := ih fun p hp => h p (List.mem_cons_of_mem _ hp)
    obtain ⟨h1, h2, h3⟩ := h q (by simp)
    simp only [List.map_cons, List.sum_cons]
    have e1 := mul_le_mul_of_nonneg_right h1 h3.le
    have e2 := mul_le_mul_of_nonneg_right h2 h3.le
    refine ⟨by rw [mul_add]; linarith, by rw [mul_add]; linarith, fun _ => by linarith, by linarith⟩

/-- **C220, bounds.**  With positive angles, a vertex of a cell gets a value between the least and the greatest of the
cells around it. -/
theorem C220_bounds (verts : List Nat) (cells : List (Int × List (Nat × K))) (val : Int → Option K) (x : Int → K)
    (hx : ∀ c ∈ cells, val c.1 = some (x c.1)) (hpos : ∀ c ∈ cells, ∀ p ∈ c.2, 0 < p.2) (v : Nat) (hv : v ∈ verts)
    (hc : ∃ c ∈ cells, ∃ p ∈ c.2, p.1 = v) (lo hi : K)
    (hk : ∀ c ∈ cells, (∃ p ∈ c.2, p.1 = v) → lo ≤ x c.1 ∧ x c.1 ≤ hi) :
    ∃ r y, interpolate verts cells val = some r ∧ (v, some y) ∈ r ∧ lo ≤ y ∧ y ≤ hi := by
  obtain ⟨r, h1, _, h2⟩ := C220_average verts cells val x hx
  obtain ⟨b1, b2, b3, _⟩ := sum_bounds (cornersAt x cells v) lo hi (by
    intro q hq
    rw [cornersAt, List.mem_flatMap] at hq
    obtain ⟨c, hc, hq⟩ := hq
    rw [List.mem_map] at hq
    obtain ⟨p, hp, rfl⟩ := hq
    rw [List.mem_filter] at hp
    have := hk c hc ⟨p, hp.1, by simpa using hp.2⟩
    exact ⟨this.1, this.2, hpos c hc p hp.1⟩)
  have hne : cornersAt x cells v ≠ [] := by
    obtain ⟨c, hc, p, hp, hpv⟩ := hc
    intro h
    have : (x c.1, p.2) ∈ cornersAt x cells v := by
      rw [cornersAt, List.mem_flatMap]
      exact ⟨c, hc, List.mem_map.2 ⟨p, List.mem_filter.2 ⟨hp, by simp [hpv]⟩, rfl⟩⟩
    rw [h] at this
    cases this
  have hs := b3 hne
  refine ⟨r, _, h1, h2 v hv hs.ne', ?_, ?_⟩
  · rwa [le_div_iff₀ hs]
  · rwa [div_le_iff₀ hs]

/-- **C220, violated.**  A vertex of no cell gets 0/0. -/
theorem C220_lone_fails (verts : List Nat) (cells : List (Int × List (Nat × K))) (val : Int → Option K) (x : Int → K)
    (hx : ∀ c ∈ cells, val c.1 = some (x c.1)) (v : Nat) (hv : v ∈ verts) (hc : ∀ c ∈ cells, ∀ p ∈ c.2, p.1 ≠ v) :
    ∃ r, interpolate verts cells val = some r ∧ (v, none) ∈ r := by
  obtain ⟨b, h1, h2⟩ := overCells_spec x cells (fun _ => 0, fun _ => 0)
  have h1' : overCells val cells (fun _ => 0, fun _ => 0) = some b := by
    rw [overCells_congr val (fun c => some (x c)) cells hx]; exact h1
  refine ⟨_, by rw [interpolate, h1']; rfl, ?_⟩
  have hnil : cornersAt x cells v = [] := by
    rw [cornersAt, List.flatMap_eq_nil_iff]
    intro c hcc
    rw [List.map_eq_nil_iff, List.filter_eq_nil_iff]
    intro p hp
    simpa using hc c hcc p hp
  rw [List.mem_map]
  refine ⟨v, hv, ?_⟩
  have e2 := (h2 v).2
  rw [hnil] at e2
  have e2 : b.2 v = 0 := by rw [e2]; simp
  rw [if_pos e2]

end Interp

/-- two triangles and a vertex alone -/
def pair : List (Int × List (Nat × ℚ)) := [(3, [(0, 1), (1, 1), (2, 2)]), (4, [(2, 1), (1, 3), (5, 1)])]

example : interpolate [0, 1, 2, 5, 9] pair (fun c => some (if c = 3 then 8 else 4)) =
    some [(0, some 8), (1, some 5), (2, some (20 / 3)), (5, some 4), (9, none)] := by decide +kernel
example : (∀ c ∈ pair, ∀ p ∈ c.2, 0 < p.2) ∧ (∀ c ∈ pair, ∀ p ∈ c.2, p.1 ≠ 9) ∧
    ((cornersAt (fun _ => (7 : ℚ)) pair 1).map Prod.snd).sum ≠ 0 := by decide +kernel

/-! ## C221: the values -/

section Values

variable {K : Type}

/-- **C221, bulk.**  The `i`-th cell gets the `i`-th value, when there are as many values as cells. -/
theorem C221_bulk_partial (cells : List Nat) (d : OnDisk K) (hd : d.expected = true)
    (hl : d.internal.length = cells.length) :
    ∃ vals r, readValues d none = some vals ∧ bulkField cells vals = some r ∧ r.map Prod.fst = cells ∧
      ∀ (i : Nat) (c : Nat) (v : K), cells[i]? = some c → d.internal[i]? = some v → r[i]? = some (c, v) := by
  refine ⟨d.internal, cells.zip d.internal, by rw [readValues, if_pos hd], ?_, ?_, ?_⟩
  · clear hd
    generalize d.internal = l at hl
    induction cells generalizing l with
    | nil => rfl
    | cons c cells ih =>
      cases l with
      | nil => cases hl
      | cons v l =>
        rw [bulkField, ih l (by simpa using hl)]
        rfl
  · exact List.map_fst_zip (by omega)
  · intro i c v hc hv
    rw [List.getElem?_zip_eq_some]
    exact ⟨hc, hv⟩

example : bulkField [10, 11] ["a", "b"] = some [(10, "a"), (11, "b")] := rfl

/-- **C221, violated.**  With a field of another class, and with less values than cells, the end of the values is
dereferenced. -/
theorem C221_class_fails (cells : List Nat) (d : OnDisk K) (hd : d.expected = false) (hc : cells ≠ []) :
    ∃ vals, readValues d none = some vals ∧ bulkField cells vals = none := by
  refine ⟨[], by rw [readValues, if_neg (by simp [hd])], ?_⟩
  cases cells with
  | nil => exact (hc rfl).elim
  | cons c cs => rfl

theorem C221_short_fails (cells : List Nat) (vals : List K) (h : vals.length < cells.length) :
    bulkField cells vals = none := by
  induction cells generalizing vals with
  | nil => simp at h
  | cons c cs ih =>
    cases vals with
    | nil => rfl
    | cons v vs => rw [bulkField, ih vs (by simpa using h)]; rfl

/-! ### The boundary -/

theorem putAll_spec (l : List (Int × K)) :
    ∀ st : List (Int × K), (∀ p ∈ l, 0 ≤ p.1) → ((st ++ l).map Prod.fst).Nodup → putAll st l = some (st ++ l) := by
  induction l with
  | nil => intro st _ _; simp [putAll]
  | cons p l ih =>
    intro st h0 hn
    rw [putAll, put, if_neg]
    · rw [Option.bind_some, ih _ (fun q hq => h0 q (List.mem_cons_of_mem _ hq)) (by simpa using hn)]
      simp
    · have := h0 p (by simp)
      rintro (h | h)
      · omega
      · rw [List.map_append, List.map_cons] at hn
        exact (List.nodup_append.1 hn).2.2 _ h _ (by simp) rfl

theorem onFaces_eq (m : FaceMap) (s : Nat) (vals : List K) :
    onFaces m s vals = ((List.range' s vals.length).map m.at).zip vals := by
  induction vals generalizing s with
  | nil => rfl
  | cons v vs ih => rw [onFaces, ih]; rfl

variable [Zero K]

/-- What a PID adds. -/
def part (m : FaceMap) (patches : List Patch) (cells : List (Int × Nat)) (d : OnDisk K) (pid : Nat) : List (Int × K) :=
  match pid with
  | 0 => zeros cells 0
  | i + 1 =>
    match d.boundary[i]?, patches[i]? with
    | some [], _ => zeros cells (i + 1)
    | some vals, some p => onFaces m p.start vals
    | _, _ => []

/-- The ids of the cells with a PID. -/
def withPid (cells : List (Int × Nat)) (pid : Nat) : List Int := (cells.filter (·.2 == pid)).map Prod.fst

/-- The boundary, the map and the field fit: ids are different and not negative, every PID is that of a patch with a
value for each of its faces, and the map sends the faces of the patch to the cells with its PID. -/
structure Fitted (m : FaceMap) (patches : List Patch) (cells : List (Int × Nat)) (d : OnDisk K) (pids : List Nat) :
    Prop where
  ids : (cells.map Prod.fst).Nodup
  pos : ∀ c ∈ cells, 0 ≤ c.1
  once : pids.Nodup
  cls : d.expected = true
  faces : ∀ i, i + 1 ∈ pids → ∃ p vals, patches[i]? = some p ∧ d.boundary[i]? = some vals ∧ vals.length = p.size ∧
    ((List.range' p.start p.size).map m.at).Perm (withPid cells (i + 1))

theorem zeros_keys (cells : List (Int × Nat)) (pid : Nat) : (zeros cells pid : List (Int × K)).map Prod.fst = withPid cells pid := by
  rw [zeros, withPid, List.map_map]; rfl

theorem part_keys {m : FaceMap} {patches : List Patch} {cells : List (Int × Nat)} {d : OnDisk K} {pids : List Nat}
    (h : Fitted m patches cells d pids) (pid : Nat) (hp : pid ∈ pids) :
    ((part m patches cells d pid).map Prod.fst).Perm (withPid cells pid) := by
  cases pid with
  | zero => rw [part, zeros_keys]
  | succ i =>
    obtain ⟨p, vals, h1, h2, h3, h4⟩ := h.faces i hp
    rw [part, h1, h2]
    cases vals with
    | nil => simp only; rw [zeros_keys]
    | cons v vs =>
      simp only
      rw [onFaces_eq, List.map_fst_zip (by simp), h3]
      exact h4

theorem withPid_mem {cells : List (Int × Nat)} {pid : Nat} {c : Int} : c ∈ withPid cells pid ↔ (c, pid) ∈ cells := by
  rw [withPid, List.mem_map]
  constructor
  · rintro ⟨⟨a, b⟩, hm, rfl⟩
    rw [List.mem_filter] at hm
    have : b = pid := by simpa using hm.2
    subst this
    exact hm.1
  · intro h
    exact ⟨_, List.mem_filter.2 ⟨h, by simp⟩, rfl⟩

theorem pid_unique {cells : List (Int × Nat)} (h : (cells.map Prod.fst).Nodup) {c : Int} {p q : Nat}
    (h1 : (c, p) ∈ cells) (h2 : (c, q) ∈ cells) : p = q := by
  have := List.inj_on_of_nodup_map h h1 h2 rfl
  exact (Prod.mk.inj this).2

theorem keys_nodup {m : FaceMap} {patches : List Patch} {cells : List (Int × Nat)} {d : OnDisk K} {pids : List Nat}
    (h : Fitted m patches cells d pids) :
    ((pids.flatMap (part m patches cells d)).map Prod.fst).Nodup := by
  rw [List.map_flatMap, List.nodup_flatMap]
  refine ⟨fun pid hp => ?_, ?_⟩
  · rw [(part_keys h pid hp).nodup_iff]
    exact ((List.filter_sublist (p := (·.2 == pid))).map Prod.fst).nodup h.ids
  · have hp : pids.Pairwise fun a b => a ∈ pids ∧ b ∈ pids ∧ a ≠ b := by
      rw [List.pairwise_iff_forall_sublist]
      intro a b hs
      refine ⟨hs.subset (by simp), hs.subset (by simp), ?_⟩
      have := hs.nodup h.once
      simpa using this
    refine hp.imp ?_
    rintro a b ⟨ha, hb, hne⟩
    intro c h1 h2
    have h1 := withPid_mem.1 ((part_keys h a ha).mem_iff.1 h1)
    have h2 := withPid_mem.1 ((part_keys h b hb).mem_iff.1 h2)
    exact hne (pid_unique h.ids h1 h2)

theorem Fitted.tail {m : FaceMap} {patches : List Patch} {cells : List (Int × Nat)} {d : OnDisk K} {pids : List Nat}
    (h : Fitted m patches cells d pids) (sub : List Nat) (hs : sub.Sublist pids) : Fitted m patches cells d sub :=
  ⟨h.ids, h.pos, hs.nodup h.once, h.cls, fun i hi => h.faces i (hs.subset hi)⟩

theorem onePid_spec {m : FaceMap} {patches : List Patch} {cells : List (Int × Nat)} {d : OnDisk K} {pids : List Nat}
    (h : Fitted m patches cells d pids) (pid : Nat) (hp : pid ∈ pids) (st : List (Int × K))
    (hn : ((st ++ part m patches cells d pid).map Prod.fst).Nodup) :
    onePid true m patches cells d st pid = some (st ++ part m patches cells d pid) := by
  have hpos : ∀ q ∈ part m patches cells d pid, 0 ≤ q.1 := by
    intro q hq
    have : q.1 ∈ withPid cells pid := (part_keys h pid hp).mem_iff.1 (List.mem_map_of_mem hq)
    exact h.pos _ (withPid_mem.1 this)
  cases pid with
  | zero =>
    have hd : ∀ c ∈ (zeros cells 0 : List (Int × K)), decide (c.1 ∉ st.map Prod.fst) = true := by
      intro c hc
      rw [decide_eq_true_iff]
      intro hm
      rw [List.map_append] at hn
      exact (List.nodup_append.1 hn).2.2 _ hm _ (List.mem_map_of_mem (f := Prod.fst) hc) rfl
    rw [onePid, if_neg (by omega), if_pos rfl, List.filter_eq_self.2 hd]
    exact putAll_spec _ _ hpos hn
  | succ i =>
    obtain ⟨p, vals, h1, h2, h3, h4⟩ := h.faces i hp
    have hr : readValues d (some (i + 1 - 1)) = some vals := by
      rw [readValues, if_pos h.cls]; exact h2
    have hpart : part m patches cells d (i + 1) =
        if vals.length > 0 then onFaces m p.start vals else zeros cells (i + 1) := by
      rw [part, h1, h2]
      cases vals with
      | nil => rfl
      | cons v vs => rfl
    rw [hpart] at hpos hn ⊢
    rw [onePid, if_pos (by omega), hr]
    simp only
    by_cases hl : vals.length > 0
    · rw [if_pos hl] at hpos hn ⊢
      have h1' : patches[i + 1 - 1]? = some p := h1
      rw [if_pos hl, h1']
      exact putAll_spec _ _ hpos hn
    · rw [if_neg hl] at hpos hn ⊢
      rw [if_neg hl]
      exact putAll_spec _ _ hpos hn

theorem boundaryFaces_eq (m : FaceMap) (patches : List Patch) (cells : List (Int × Nat)) (d : OnDisk K) :
    ∀ (pids : List Nat) (st : List (Int × K)), Fitted m patches cells d pids →
      ((st ++ pids.flatMap (part m patches cells d)).map Prod.fst).Nodup →
      boundaryFaces true m patches cells d st pids = some (st ++ pids.flatMap (part m patches cells d)) := by
  intro pids
  induction pids with
  | nil => intro st _ _; simp [boundaryFaces]
  | cons pid pids ih =>
    intro st h hn
    rw [List.flatMap_cons, ← List.append_assoc] at hn
    have hn1 : ((st ++ part m patches cells d pid).map Prod.fst).Nodup := by
      rw [List.map_append] at hn
      exact (List.nodup_append.1 hn).1
    rw [boundaryFaces, onePid_spec h pid (by simp) st hn1, Option.bind_some,
      ih _ (h.tail pids (List.sublist_cons_self _ _)) hn, List.flatMap_cons, List.append_assoc]

/-- **C221, boundary.**  When boundary, map and field fit, a scalar field puts the `k`-th value of a patch on the cell of
its `k`-th face, zero on the cells of no patch, and one value on every cell; for any order of the PIDs. -/
theorem C221_boundary_partial (m : FaceMap) (patches : List Patch) (cells : List (Int × Nat)) (d : OnDisk K)
    (pids : List Nat) (h : Fitted m patches cells d pids) (hall : ∀ c ∈ cells, c.2 ∈ pids) :
    ∃ st, boundaryFaces true m patches cells d [] pids = some st ∧ (st.map Prod.fst).Nodup ∧
      (∀ c ∈ cells, c.1 ∈ st.map Prod.fst) ∧ (∀ c ∈ cells, c.2 = 0 → (c.1, 0) ∈ st) ∧
      ∀ (i : Nat) (p : Patch) (vals : List K) (k : Nat) (v : K), i + 1 ∈ pids → patches[i]? = some p →
        d.boundary[i]? = some vals → vals[k]? = some v → (m.at (p.start + k), v) ∈ st := by
  refine ⟨pids.flatMap (part m patches cells d), ?_, keys_nodup h, ?_, ?_, ?_⟩
  · have := boundaryFaces_eq m patches cells d pids [] h (by simpa using keys_nodup h)
    simpa using this
  · intro c hc
    have hp := hall c hc
    rw [List.map_flatMap, List.mem_flatMap]
    exact ⟨c.2, hp, (part_keys h c.2 hp).mem_iff.2 (withPid_mem.2 hc)⟩
  · intro c hc h0
    have hp := hall c hc
    rw [List.mem_flatMap]
    refine ⟨0, h0 ▸ hp, ?_⟩
    rw [part, zeros, List.mem_map]
    exact ⟨c, List.mem_filter.2 ⟨hc, by simp [h0]⟩, rfl⟩
  · intro i p vals k v hi hp hv hk
    rw [List.mem_flatMap]
    refine ⟨i + 1, hi, ?_⟩
    have hkl := (List.getElem?_eq_some_iff.1 hk).1
    rw [part, hp, hv]
    cases vals with
    | nil => cases hk
    | cons w ws =>
      simp only
      rw [onFaces_eq]
      refine List.mem_of_getElem? (i := k) ?_
      rw [List.getElem?_zip_eq_some]
      refine ⟨?_, hk⟩
      rw [List.getElem?_map, List.getElem?_range' hkl]
      simp

/-- a boundary: two faces of a patch, one of another with no values but no faces either, and a cell of no patch -/
theorem fitted_case : Fitted [(5, 50), (6, 40)] [⟨"in", 5, 2⟩, ⟨"empty", 7, 0⟩] [(40, 1), (50, 1), (60, 0)]
    (⟨true, [], [[8, 9], []]⟩ : OnDisk Int) [1, 0, 2] := by
  refine ⟨by decide, by decide, by decide, rfl, fun i hi => ?_⟩
  have : i = 0 ∨ i = 1 := by simp at hi; omega
  rcases this with rfl | rfl
  · exact ⟨_, _, rfl, rfl, rfl, by decide⟩
  · exact ⟨_, _, rfl, rfl, rfl, by decide⟩

example : boundaryFaces true [(5, 50), (6, 40)] [⟨"in", 5, 2⟩, ⟨"empty", 7, 0⟩] [(40, 1), (50, 1), (60, 0)]
    (⟨true, [], [[8, 9], []]⟩ : OnDisk Int) [] [1, 0, 2] = some [(50, 8), (40, 9), (60, 0)] := by decide

/-- **C221, violated.**  A vector field leaves the cells of no patch without a value, and the interpolation which
follows needs it. -/
theorem C221_vector_fails :
    boundaryFaces false [(5, 50), (6, 40)] [⟨"in", 5, 2⟩] [(40, 1), (50, 1), (60, 0)]
      (⟨true, [], [[8, 9]]⟩ : OnDisk Int) [] [1, 0] = some [(50, 8), (40, 9)] := by decide

theorem C221_missing_fails {F : Type} [Field F] [DecidableEq F] (verts : List Nat) (cells : List (Int × List (Nat × F)))
    (val : Int → Option F) (c : Int × List (Nat × F)) (hc : c ∈ cells) (hv : val c.1 = none) :
    interpolate verts cells val = none := by
  have : ∀ a, overCells val cells a = none := by
    induction cells with
    | nil => cases hc
    | cons e es ih =>
      intro a
      rw [overCells]
      cases he : val e.1 with
      | none => rfl
      | some x =>
        rcases List.mem_cons.1 hc with rfl | hc
        · rw [hv] at he; cases he
        · exact ih hc _
  rw [interpolate, this]
  rfl

/-- **C221, violated.**  Without the map of the faces, whose port is optional, every value goes to the cell 0, and the
second one throws. -/
theorem C221_nomap_fails (patches : List Patch) (cells : List (Int × Nat)) (d : OnDisk K) (i : Nat) (p : Patch)
    (vals : List K) (hd : d.expected = true) (hp : patches[i]? = some p) (hv : d.boundary[i]? = some vals)
    (h2 : 2 ≤ vals.length) : onePid true [] patches cells d [] (i + 1) = none := by
  have hr : readValues d (some (i + 1 - 1)) = some vals := by
    rw [readValues, if_pos hd]; exact hv
  have hp' : patches[i + 1 - 1]? = some p := hp
  rw [onePid, if_pos (by omega), hr]
  simp only
  rw [if_pos (by omega), hp']
  match vals, h2 with
  | a :: b :: vs, _ => rfl

/-- **C221, violated.**  A field of another class is read as zeros on the boundary. -/
theorem C221_zeros_fails (m : FaceMap) (patches : List Patch) (cells : List (Int × Nat)) (d : OnDisk K) (i : Nat)
    (hd : d.expected = false) (st : List (Int × K)) :
    onePid true m patches cells d st (i + 1) = putAll st (zeros cells (i + 1)) := by
  have hr : readValues d (some (i + 1 - 1)) = some [] := by
    rw [readValues, if_neg (by simp [hd])]
  rw [onePid, if_pos (by omega), hr]
  simp only
  rw [if_neg (by simp)]

end Values

end Verif.Foam
