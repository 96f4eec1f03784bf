import Verif.Refine.Smooth
import Verif.Refine.RedProps
import Verif.Mesh.GraphProps
import Mathlib.Tactic.Linarith
import Mathlib.Tactic.Ring
import Mathlib.Tactic.FieldSimp
import Mathlib.Tactic.NormNum
/-
What the smoothing does to a surface.
-/
namespace Verif.Refine
open Verif.Field Verif.Mesh Verif.Shape
open List hiding get get_of_mem

/-! Specification -/

/-- mean position -/
noncomputable def mean3 (l : List V3) : V3 :=
  ⟨(l.map V3.x).sum / l.length, (l.map V3.y).sum / l.length, (l.map V3.z).sum / l.length⟩

/-- `p`, moved by the part `k` of the way to `q` -/
noncomputable def towards (k : ℝ) (p q : V3) : V3 :=
  ⟨(1 - k) * p.x + k * q.x, (1 - k) * p.y + k * q.y, (1 - k) * p.z + k * q.z⟩

/-- `l` are the vertices joined to `id` by an edge of a cell, each once -/
def Ring (o : Obj V3) (id : Nat) (l : List Nat) : Prop :=
  l.Nodup ∧ ∀ b, b ∈ l ↔ Joined (o.cells.map Prod.snd) id b

/-- `o'` is `o` where every vertex has moved by the part `k` of the way to the mean of its neighbours, all at once;
vertices without neighbours stay -/
structure Relaxed (k : ℝ) (o o' : Obj V3) : Prop where
  cells : o'.cells = o.cells
  pids : o'.pids = o.pids
  names : o'.names = o.names
  type : o'.type = o.type
  ids : o'.verts.map Prod.fst = o.verts.map Prod.fst
  moved : ∀ id p l, get o.verts id = some p → Ring o id l → l ≠ [] →
    ∀ ps, l.map (fun n => get o.verts n) = ps.map some → get o'.verts id = some (towards k p (mean3 ps))
  alone : ∀ id p, get o.verts id = some p → Ring o id [] → get o'.verts id = some p

/-- `n` times a relation -/
inductive Times {α : Type} (R : α → α → Prop) : Nat → α → α → Prop
  | zero (a : α) : Times R 0 a a
  | succ {n : Nat} {a b c : α} : R a b → Times R n b c → Times R (n + 1) a c

/-- what the documentation says about a step: `lam` towards the mean, then `kap` (negative) -/
def Documented (o o' : Obj V3) : Prop := ∃ o1, Relaxed lam o o1 ∧ Relaxed kap o1 o'

/-! The loop that assigns -/

theorem modify_same {P : Type} (o : Obj P) (p : P) (id : Nat) :
    (modifyVertex o p id).1.cells = o.cells ∧ (modifyVertex o p id).1.pids = o.pids ∧
    (modifyVertex o p id).1.names = o.names ∧ (modifyVertex o p id).1.type = o.type ∧
    (modifyVertex o p id).1.tree = o.tree ∧
    (modifyVertex o p id).1.verts.map Prod.fst = o.verts.map Prod.fst ∧
    (∀ j, get (modifyVertex o p id).1.verts j = if j = id ∧ has o.verts id = true then some p else get o.verts j) ∧
    (TreeOk o → TreeOk (modifyVertex o p id).1) := by
  unfold modifyVertex
  by_cases h : has o.verts id = true
  · rw [if_pos h]
    refine ⟨rfl, rfl, rfl, rfl, rfl, ?_, ?_, ?_⟩
    · simp only [setAt, map_map]; apply map_congr_left; intro e _; simp only [Function.comp_apply]; split <;> simp_all
    · intro j
      simp only [get_setAt]
      by_cases hj : j = id
      · subst hj
        rw [if_pos rfl, if_pos ⟨rfl, h⟩]
        rw [has_eq_isSome] at h
        obtain ⟨v, hv⟩ := Option.isSome_iff_exists.1 h
        rw [hv]; rfl
      · simp [hj]
    · intro ht
      refine treeOk_of ht rfl rfl ?_
      exact cap_notSupported _
  · rw [if_neg h]
    simp [h]

theorem moveAll_spec {P : Type} (new : Nat → P) : ∀ (ids : List Nat) (o : Obj P),
    (moveAll new ids o).cells = o.cells ∧ (moveAll new ids o).pids = o.pids ∧ (moveAll new ids o).names = o.names ∧
    (moveAll new ids o).type = o.type ∧ (moveAll new ids o).tree = o.tree ∧
    (moveAll new ids o).verts.map Prod.fst = o.verts.map Prod.fst ∧
    (∀ j, get (moveAll new ids o).verts j = if j ∈ ids ∧ has o.verts j = true then some (new j) else get o.verts j) ∧
    (TreeOk o → TreeOk (moveAll new ids o)) := by
  intro ids
  induction ids with
  | nil => intro o; simp [moveAll]
  | cons i ids ih =>
    intro o
    obtain ⟨m1, m2, m3, m4, m5, m6, m7, m8⟩ := modify_same o (new i) i
    obtain ⟨i1, i2, i3, i4, i5, i6, i7, i8⟩ := ih (modifyVertex o (new i) i).1
    have he : moveAll new (i :: ids) o = moveAll new ids (modifyVertex o (new i) i).1 := rfl
    rw [he]
    refine ⟨i1.trans m1, i2.trans m2, i3.trans m3, i4.trans m4, i5.trans m5, i6.trans m6, ?_, fun h => i8 (m8 h)⟩
    intro j
    have hh : has (modifyVertex o (new i) i).1.verts j = has o.verts j := by
      have e1 := @has_iff _ (modifyVertex o (new i) i).1.verts j
      have e2 := @has_iff _ o.verts j
      rw [m6] at e1
      rw [Bool.eq_iff_iff]
      exact e1.trans e2.symm
    rw [i7, m7, hh]
    by_cases hj : j ∈ ids
    · by_cases hv : has o.verts j = true
      · simp [hj, hv]
      · have hb : ¬ (j = i ∧ has o.verts i = true) := by rintro ⟨rfl, h⟩; exact hv h
        rw [if_neg hb]
        simp [hv]
    · by_cases hji : j = i
      · subst hji; simp [hj]
      · simp [hj, hji]

/-! Neighbours -/

theorem insSet_nodup {l : List Nat} (h : l.Nodup) (x : Nat) : (insSet l x).Nodup := by
  unfold insSet
  split
  · exact h
  · next hx =>
    rw [nodup_append]
    refine ⟨h, by simp, ?_⟩
    intro a ha b hb
    simp at hb hx
    subst hb
    intro hab; subst hab; exact hx ha

/-- all lists of the map are without repetitions -/
def AllNodup (m : Data (List Nat)) : Prop := ∀ a, ((get m a).getD []).Nodup

theorem pcInsert_nodup {m : Data (List Nat)} (h : AllNodup m) (a b : Nat) : AllNodup (pcInsert m a b) := by
  intro x
  unfold pcInsert mapSet
  by_cases hh : has m a = true
  · rw [if_pos hh, get_setAt]
    by_cases hx : x = a
    · subst hx
      rw [if_pos rfl]
      rw [has_eq_isSome] at hh
      obtain ⟨v, hv⟩ := Option.isSome_iff_exists.1 hh
      have := h x
      rw [hv] at this ⊢
      exact insSet_nodup this b
    · rw [if_neg hx]; exact h x
  · rw [if_neg hh, get_append]
    cases hg : get m x with
    | some v => have := h x; rw [hg] at this; simpa using this
    | none =>
      simp only [Option.none_or, get_cons]
      split
      · have hn : ((get m a).getD []).Nodup := h a
        simpa using insSet_nodup hn b
      · simp [Verif.Field.get]

theorem neigh_ring {o : Obj V3} (ht : o.type = 1) (id : Nat) : Ring o id (neigh o id) := by
  refine ⟨?_, fun b => C44_neighbours o (.inl ht) id b⟩
  unfold neigh pointConn
  rw [if_pos (.inl ht)]
  have step : ∀ (l : List (Nat × Nat)) (s : List (Nat × Nat) × Data (List Nat)), AllNodup s.2 → AllNodup (l.foldl pcEdge s).2 := by
    intro l
    induction l with
    | nil => intro s h; exact h
    | cons e l ih =>
      intro s h
      refine ih _ ?_
      unfold pcEdge
      simp only
      split <;> split <;> first | exact h | exact pcInsert_nodup (pcInsert_nodup h _ _) _ _
  have all : ∀ (l : Data Cell) (s : List (Nat × Nat) × Data (List Nat)), AllNodup s.2 →
      AllNodup (l.foldl (fun s c => (edgesOf c.2).foldl pcEdge s) s).2 := by
    intro l
    induction l with
    | nil => intro s h; exact h
    | cons c l ih => intro s h; exact ih _ (step _ _ h)
  exact all _ _ (fun a => by simp [Verif.Field.get]) id

theorem ring_perm {o : Obj V3} {id : Nat} {l l' : List Nat} (h : Ring o id l) (h' : Ring o id l') : l.Perm l' := by
  apply (perm_ext_iff_of_nodup h.1 h'.1).2
  intro a
  rw [h.2, h'.2]

/-! The displacement -/

theorem sum_perm_real {l l' : List ℝ} (h : l.Perm l') : l.sum = l'.sum := by
  induction h with
  | nil => rfl
  | cons x _ ih => simp [ih]
  | swap x y l => simp only [sum_cons]; ring
  | trans _ _ h1 h2 => exact h1.trans h2

theorem mean3_perm {l l' : List V3} (h : l.Perm l') : mean3 l = mean3 l' := by
  unfold mean3
  rw [sum_perm_real (h.map V3.x), sum_perm_real (h.map V3.y), sum_perm_real (h.map V3.z), h.length_eq]

theorem pull_fold (k : ℝ) (p : V3) : ∀ (l : List V3) (acc : V3),
    l.foldl (fun acc q => acc + V3.scale k (q - p)) acc =
      ⟨acc.x + k * ((l.map V3.x).sum - l.length * p.x), acc.y + k * ((l.map V3.y).sum - l.length * p.y),
       acc.z + k * ((l.map V3.z).sum - l.length * p.z)⟩ := by
  intro l
  induction l with
  | nil => intro acc; simp
  | cons q l ih =>
    intro acc
    simp only [foldl_cons]
    rw [ih]
    have hx : ∀ a b : V3, (a + b).x = a.x + b.x ∧ (a + b).y = a.y + b.y ∧ (a + b).z = a.z + b.z := fun _ _ => ⟨rfl, rfl, rfl⟩
    have hs : ∀ a b : V3, (a - b).x = a.x - b.x ∧ (a - b).y = a.y - b.y ∧ (a - b).z = a.z - b.z := fun _ _ => ⟨rfl, rfl, rfl⟩
    ext <;> simp only [map_cons, sum_cons, length_cons, Nat.cast_add, Nat.cast_one, hx, hs, V3.scale] <;> ring

theorem pull_eq (k : ℝ) (o : Obj V3) (id : Nat) {ps : List V3} (hp : (neigh o id).map (coords o) = ps) (hne : neigh o id ≠ []) :
    pull k o id + coords o id = towards k (coords o id) (mean3 ps) := by
  have hpos : 0 < (neigh o id).length := length_pos_iff.2 hne
  have hl : ps.length = (neigh o id).length := by rw [← hp, length_map]
  have hr : ((neigh o id).length : ℝ) ≠ 0 := by
    have : (0 : ℝ) < ((neigh o id).length : ℝ) := by exact_mod_cast hpos
    exact ne_of_gt this
  have hf : (neigh o id).foldl (fun acc n => acc + V3.scale k (coords o n - coords o id)) ⟨0, 0, 0⟩ =
      ps.foldl (fun acc q => acc + V3.scale k (q - coords o id)) ⟨0, 0, 0⟩ := by
    rw [← hp, foldl_map]
  unfold pull
  simp only
  rw [if_pos hpos, hf, pull_fold]
  have hx : ∀ a b : V3, (a + b).x = a.x + b.x ∧ (a + b).y = a.y + b.y ∧ (a + b).z = a.z + b.z := fun _ _ => ⟨rfl, rfl, rfl⟩
  ext <;> simp only [hx, towards, mean3, hl] <;> field_simp <;> ring

theorem pull_alone (k : ℝ) (o : Obj V3) (id : Nat) (h : neigh o id = []) : pull k o id + coords o id = coords o id := by
  have hx : ∀ a b : V3, (a + b).x = a.x + b.x ∧ (a + b).y = a.y + b.y ∧ (a + b).z = a.z + b.z := fun _ _ => ⟨rfl, rfl, rfl⟩
  unfold pull
  simp only [h, length_nil, foldl_nil]
  rw [if_neg (by decide)]
  ext <;> simp [hx]

theorem zero_add3 (p : V3) : (⟨0, 0, 0⟩ : V3) + p = p := by
  have hx : ∀ a b : V3, (a + b).x = a.x + b.x ∧ (a + b).y = a.y + b.y ∧ (a + b).z = a.z + b.z := fun _ _ => ⟨rfl, rfl, rfl⟩
  ext <;> simp [hx]

/-! A sub-step -/

theorem complete_same {P : Type} {o o' : Obj P} (hc : o'.cells = o.cells) (hv : o'.verts.map Prod.fst = o.verts.map Prod.fst) :
    complete o' = complete o := by
  have hh : ∀ j, has o'.verts j = has o.verts j := by
    intro j
    have e1 := @has_iff _ o'.verts j
    have e2 := @has_iff _ o.verts j
    rw [hv] at e1
    rw [Bool.eq_iff_iff]
    exact e1.trans e2.symm
  unfold complete
  rw [hc]
  simp only [hh]

/-- a surface whose cells name only vertices that exist, with its search trees in order -/
structure Good (o : Obj V3) : Prop where
  type : o.type = 1
  comp : complete o = true
  tree : TreeOk o

theorem subStep_ok (k : ℝ) (free : Nat → Bool) {o : Obj V3} (h : Good o) : ∃ o', subStep k free o = some o' := by
  obtain ⟨i1, i2, i3, i4, i5, i6, i7, i8⟩ := moveAll_spec (newCoords k free o) (o.verts.map Prod.fst) o
  exact update_succeeds (i8 h.tree) (by rw [complete_same i1 i6]; exact h.comp)

theorem subStep_spec (k : ℝ) (free : Nat → Bool) {o o' : Obj V3} (h : Good o) (hs : subStep k free o = some o') :
    Good o' ∧ o'.cells = o.cells ∧ o'.pids = o.pids ∧ o'.names = o.names ∧ o'.verts.map Prod.fst = o.verts.map Prod.fst ∧
    ∀ j p, get o.verts j = some p → get o'.verts j = some (newCoords k free o j) := by
  obtain ⟨i1, i2, i3, i4, i5, i6, i7, i8⟩ := moveAll_spec (newCoords k free o) (o.verts.map Prod.fst) o
  unfold subStep at hs
  have hm := update_mesh hs
  have ht := st_update hs
  refine ⟨⟨hm.type.trans (i4.trans h.type), ?_, ?_⟩, hm.cells.trans i1, hm.pids.trans i2, hm.names.trans i3, ?_, ?_⟩
  · rw [complete_same hm.cells (by rw [hm.verts]), complete_same i1 i6]; exact h.comp
  · exact treeOk_of (i8 h.tree) ht.type ht.tree ht.skd
  · rw [hm.verts, i6]
  · intro j p hj
    have hh : has o.verts j = true := by rw [has_eq_isSome, hj]; rfl
    rw [hm.verts, i7, if_pos ⟨(has_iff _ _).1 hh, hh⟩]

theorem map_coords {o : Obj V3} {l : List Nat} {ps : List V3} (h : l.map (fun n => get o.verts n) = ps.map some) :
    l.map (coords o) = ps := by
  have : l.map (coords o) = (l.map (fun n => get o.verts n)).map (fun x => x.getD ⟨0, 0, 0⟩) := by
    rw [map_map]; rfl
  rw [this, h, map_map]
  have : (fun x : Option V3 => x.getD ⟨0, 0, 0⟩) ∘ some = id := rfl
  rw [this, map_id]

/-- a sub-step in which all vertices are free -/
theorem subStep_relaxed (k : ℝ) {o o' : Obj V3} (h : Good o) (hs : subStep k (fun _ => true) o = some o') : Relaxed k o o' := by
  obtain ⟨h0, h1, h2, h3, h4, h5⟩ := subStep_spec k _ h hs
  refine ⟨h1, h2, h3, h0.type.trans h.type.symm, h4, ?_, ?_⟩
  · intro id p l hp hl hne ps hps
    have hc : coords o id = p := by simp [coords, hp]
    have pm := ring_perm (neigh_ring h.type id) hl
    have hn : neigh o id ≠ [] := fun hh => hne (by rw [hh] at pm; exact pm.symm.eq_nil)
    rw [h5 id p hp]
    simp only [newCoords, if_true]
    rw [pull_eq k o id rfl hn, hc]
    have : ((neigh o id).map (coords o)).Perm ps := by rw [← map_coords hps]; exact pm.map _
    rw [mean3_perm this]
  · intro id p hp hl
    have hc : coords o id = p := by simp [coords, hp]
    have hn : neigh o id = [] := (ring_perm (neigh_ring h.type id) hl).eq_nil
    rw [h5 id p hp]
    simp only [newCoords, if_true]
    rw [pull_alone k o id hn, hc]

/-- a sub-step in which no vertex is free changes no position -/
theorem subStep_still (k : ℝ) {o o' : Obj V3} (h : Good o) (hs : subStep k (fun _ => false) o = some o') :
    Good o' ∧ o'.cells = o.cells ∧ o'.pids = o.pids ∧ o'.names = o.names ∧ o'.verts.map Prod.fst = o.verts.map Prod.fst ∧
    ∀ j, get o'.verts j = get o.verts j := by
  obtain ⟨h0, h1, h2, h3, h4, h5⟩ := subStep_spec k _ h hs
  refine ⟨h0, h1, h2, h3, h4, ?_⟩
  intro j
  cases hj : get o.verts j with
  | some p =>
    rw [h5 j p hj]
    simp only [newCoords, Bool.false_eq_true, if_false, zero_add3]
    simp [coords, hj]
  | none =>
    cases hj' : get o'.verts j with
    | none => rfl
    | some q =>
      have hh : has o'.verts j = true := by rw [has_eq_isSome, hj']; rfl
      have : has o.verts j = true := by rw [has_iff] at hh ⊢; rwa [h4] at hh
      rw [has_eq_isSome, hj] at this; cases this

/-! Several steps -/

theorem good_same {o o' : Obj V3} (h : Good o) (hs : SameMesh o o') (ht : o'.skd = o.skd) : Good o' :=
  ⟨hs.type.trans h.type, by rw [complete_same hs.cells (by rw [hs.verts])]; exact h.comp,
   treeOk_of h.tree hs.type hs.tree (by rw [ht])⟩

theorem smoothLoop_spec : ∀ (n : Nat) {o : Obj V3}, Good o →
    ∃ o', smoothLoop none n o = some o' ∧ Good o' ∧ Times (Relaxed lam) n o o' := by
  intro n
  induction n with
  | zero => intro o h; exact ⟨o, rfl, h, .zero o⟩
  | succ n ih =>
    intro o h
    obtain ⟨o1, e1⟩ := subStep_ok lam (fun _ => true) h
    have r1 := subStep_relaxed lam h e1
    have g1 := (subStep_spec lam _ h e1).1
    obtain ⟨o2, e2⟩ := subStep_ok kap (fun _ => false) g1
    obtain ⟨g2, s1, s2, s3, s4, s5⟩ := subStep_still kap g1 e2
    obtain ⟨o', e3, g3, t3⟩ := ih g2
    have f1 : freeFirst none = fun _ => true := rfl
    have f2 : freeSecond none = fun _ => false := rfl
    refine ⟨o', ?_, g3, .succ (b := o2) ?_ t3⟩
    · unfold smoothLoop
      rw [f1, f2, e1]
      simp only [Option.bind_some, e2]
      exact e3
    · refine ⟨s1.trans r1.cells, s2.trans r1.pids, s3.trans r1.names, g2.type.trans h.type.symm, s4.trans r1.ids, ?_, ?_⟩
      · intro id p l hp hl hne ps hps
        rw [s5]; exact r1.moved id p l hp hl hne ps hps
      · intro id p hp hl
        rw [s5]; exact r1.alone id p hp hl

/-- the object on which the steps work -/
theorem smoothing_start (o : Obj V3) (n : Nat) (c : Option (List Nat)) :
    ∃ o1, smoothing c n o = smoothLoop c n o1 ∧ SameMesh o o1 ∧ o1.skd = o.skd := by
  have u : ∀ p : Obj V3, SameMesh p (updateAdj p) ∧ (updateAdj p).skd = p.skd := by
    intro p; exact ⟨same_updateAdj p, by unfold updateAdj; split <;> rfl⟩
  have v : ∀ p : Obj V3, SameMesh p (updateInt p) ∧ (updateInt p).skd = p.skd := by
    intro p
    refine ⟨same_updateInt p, ?_⟩
    unfold updateInt
    simp only
    split <;> split <;> first | rfl | exact (u p).2
  have w : ∀ p : Obj V3, SameMesh p (buildInfo p) ∧ (buildInfo p).skd = p.skd := fun p => ⟨⟨rfl, rfl, rfl, rfl, rfl, rfl⟩, rfl⟩
  have x : ∀ p : Obj V3, SameMesh p (buildPC p) ∧ (buildPC p).skd = p.skd := by
    intro p
    unfold buildPC cleanPC
    simp only
    split
    · exact ⟨⟨rfl, rfl, rfl, rfl, rfl, rfl⟩, rfl⟩
    · split <;> exact ⟨⟨rfl, rfl, rfl, rfl, rfl, rfl⟩, rfl⟩
  have ite : ∀ (c : Prop) [Decidable c] (p q : Obj V3), SameMesh p q ∧ q.skd = p.skd →
      SameMesh p (if c then q else p) ∧ (if c then q else p).skd = p.skd := by
    intro c _ p q h
    split
    · exact h
    · exact ⟨.refl p, rfl⟩
  have tr : ∀ {p q r : Obj V3}, SameMesh p q ∧ q.skd = p.skd → SameMesh q r ∧ r.skd = q.skd → SameMesh p r ∧ r.skd = p.skd :=
    fun h h' => ⟨h.1.trans h'.1, h'.2.trans h.2⟩
  refine ⟨_, rfl, ?_⟩
  refine tr ?_ (ite _ _ _ (x _))
  refine tr ?_ (ite _ _ _ (w _))
  refine tr ?_ (ite _ _ _ (v _))
  exact ite _ _ _ (u _)

theorem relaxed_from {k : ℝ} {o o1 o' : Obj V3} (hs : SameMesh o o1) (h : Relaxed k o1 o') : Relaxed k o o' := by
  have hr : ∀ id l, Ring o id l → Ring o1 id l := by
    intro id l h
    unfold Ring
    rw [hs.cells]; exact h
  refine ⟨h.cells.trans hs.cells, h.pids.trans hs.pids, h.names.trans hs.names, h.type.trans hs.type, by rw [h.ids, hs.verts], ?_, ?_⟩
  · intro id p l hp hl hne ps hps
    rw [← hs.verts] at hp hps
    exact h.moved id p l hp (hr id l hl) hne ps hps
  · intro id p hp hl
    rw [← hs.verts] at hp
    exact h.alone id p hp (hr id _ hl)

/-! Neighbours exist -/

theorem edge_vertex {c : Cell} (h : SurfCell c) {a b : Nat} (he : (a, b) ∈ edgesOf c) : a ∈ vertexIds c ∧ b ∈ vertexIds c := by
  have hr : ∀ l : List Nat, NextIn l a b → a ∈ l ∧ b ∈ l := by
    rintro l ⟨i, h1, h2⟩
    exact ⟨mem_of_getElem? h1, mem_of_getElem? h2⟩
  obtain ⟨h1, h2⟩ := h
  simp only [mem_cons, not_mem_nil, or_false] at h1
  rcases h1 with h1 | h1 | h1 | h1
  · exact hr _ ((ringEdges_iff _ _ _).1 (by simpa [edgesOf, vertexIds, h1] using he))
  · exact hr _ ((ringEdges_iff _ _ _).1 (by simpa [edgesOf, vertexIds, h1] using he))
  · rw [h1] at h2
    simp only [checkConn, length_map, beq_iff_eq] at h2
    match hc : c.conn with
    | [p, q, r, t] =>
      simp [edgesOf, localEdges, hc, h1] at he
      simp [vertexIds, hc, h1]
      grind
    | [] | [_] | [_, _] | [_, _, _] | _ :: _ :: _ :: _ :: _ :: _ => simp [hc] at h2
  · exact hr _ ((ringEdges_iff _ _ _).1 (by simpa [edgesOf, vertexIds, h1] using he))

theorem joined_has {o : Obj V3} (h : SurfOk o) {a b : Nat} (hj : Joined (o.cells.map Prod.snd) a b) : has o.verts b = true := by
  obtain ⟨c, hc, he⟩ := hj
  obtain ⟨e, hem, rfl⟩ := mem_map.1 hc
  have hm : b ∈ vertexIds e.2 := by
    rcases he with he | he
    · exact (edge_vertex (h.surf e hem) he).2
    · exact (edge_vertex (h.surf e hem) he).1
  have := h.comp
  unfold complete at this
  exact all_eq_true.1 (all_eq_true.1 this e hem) b hm

theorem ring_places {o : Obj V3} (h : SurfOk o) {id : Nat} {l : List Nat} (hl : Ring o id l) :
    ∃ ps : List V3, l.map (fun n => get o.verts n) = ps.map some := by
  refine ⟨l.map (coords o), ?_⟩
  rw [map_map]
  apply map_congr_left
  intro n hn
  have := joined_has h ((hl.2 n).1 hn)
  rw [has_eq_isSome] at this
  obtain ⟨v, hv⟩ := Option.isSome_iff_exists.1 this
  simp [coords, hv]

theorem relaxed_surf {k : ℝ} {o o' : Obj V3} (h : SurfOk o) (hr : Relaxed k o o') : SurfOk o' := by
  refine ⟨hr.type.trans h.type, ?_, ?_, ?_, ?_, ?_⟩
  · have := h.verts; unfold Ok at *; rw [hr.ids]; exact this
  · rw [hr.cells]; exact h.cells
  · rw [hr.cells]; exact h.surf
  · rw [hr.cells, hr.pids, hr.names]; exact h.pids
  · rw [complete_same hr.cells hr.ids]; exact h.comp

/-- `Relaxed` determines all positions -/
theorem relaxed_at {k : ℝ} {o o' : Obj V3} (h : SurfOk o) (hr : Relaxed k o o') {id : Nat} {p : V3} (hp : get o.verts id = some p) :
    Ring o id [] ∧ get o'.verts id = some p ∨
    ∃ l ps, Ring o id l ∧ l ≠ [] ∧ l.map (fun n => get o.verts n) = ps.map some ∧ get o'.verts id = some (towards k p (mean3 ps)) := by
  have hn := neigh_ring h.type id
  by_cases he : neigh o id = []
  · rw [he] at hn
    exact .inl ⟨hn, hr.alone id p hp hn⟩
  · obtain ⟨ps, hps⟩ := ring_places h hn
    exact .inr ⟨_, ps, hn, he, hps, hr.moved id p _ hp hn he ps hps⟩

theorem sum_le_real {α : Type} (f : α → ℝ) (b : ℝ) : ∀ l : List α, (∀ x ∈ l, f x ≤ b) → (l.map f).sum ≤ l.length * b := by
  intro l
  induction l with
  | nil => intro _; simp
  | cons x l ih =>
    intro h
    have h1 := h x (by simp)
    have h2 := ih (fun y hy => h y (by simp [hy]))
    simp only [map_cons, sum_cons, length_cons, Nat.cast_add, Nat.cast_one]
    linarith

theorem dot_mean (a : V3) : ∀ ps : List V3, dot a (mean3 ps) = (ps.map (dot a)).sum / ps.length := by
  intro ps
  have : (ps.map (dot a)).sum = a.x * (ps.map V3.x).sum + a.y * (ps.map V3.y).sum + a.z * (ps.map V3.z).sum := by
    induction ps with
    | nil => simp
    | cons p ps ih => simp only [map_cons, sum_cons, ih, dot]; ring
  rw [this]
  simp only [dot, mean3]
  ring

theorem mean_le {a : V3} {b : ℝ} {ps : List V3} (hne : ps ≠ []) (h : ∀ p ∈ ps, dot a p ≤ b) : dot a (mean3 ps) ≤ b := by
  rw [dot_mean]
  have hpos : (0 : ℝ) < ps.length := by exact_mod_cast length_pos_iff.2 hne
  rw [div_le_iff₀ hpos]
  have := sum_le_real (dot a) b ps h
  linarith

theorem dot_towards (a : V3) (k : ℝ) (p q : V3) : dot a (towards k p q) = (1 - k) * dot a p + k * dot a q := by
  simp only [dot, towards]; ring

theorem relaxed_hull {o o' : Obj V3} (h : SurfOk o) (hr : Relaxed lam o o') {a : V3} {b : ℝ}
    (hb : ∀ id p, get o.verts id = some p → dot a p ≤ b) : ∀ id p, get o'.verts id = some p → dot a p ≤ b := by
  intro id q hq
  have hh : has o.verts id = true := by
    have : has o'.verts id = true := by rw [has_eq_isSome, hq]; rfl
    rw [has_iff] at this ⊢
    rwa [hr.ids] at this
  rw [has_eq_isSome] at hh
  obtain ⟨p, hp⟩ := Option.isSome_iff_exists.1 hh
  rcases relaxed_at h hr hp with ⟨_, h1⟩ | ⟨l, ps, h1, h2, h3, h4⟩
  · rw [hq] at h1
    injection h1 with h1
    rw [h1]; exact hb id p hp
  · rw [hq] at h4
    injection h4 with h4
    have hps : ps ≠ [] := by
      intro hh
      rw [hh] at h3
      exact h2 (map_eq_nil_iff.1 h3)
    have hm : dot a (mean3 ps) ≤ b := by
      apply mean_le hps
      intro x hx
      have : some x ∈ l.map (fun n => get o.verts n) := by rw [h3]; exact mem_map_of_mem hx
      obtain ⟨n, _, hn⟩ := mem_map.1 this
      exact hb n x hn
    rw [h4, dot_towards]
    have := hb id p hp
    simp only [lam]
    linarith

/-- C152: smoothing never leaves the convex hull: a half-space that contains the vertices still contains them. -/
theorem C152_hull {n : Nat} {o o' : Obj V3} (h : SurfOk o) (ht : Times (Relaxed (6 / 10)) n o o') {a : V3} {b : ℝ}
    (hb : ∀ id p, get o.verts id = some p → dot a p ≤ b) : ∀ id p, get o'.verts id = some p → dot a p ≤ b := by
  induction ht with
  | zero => exact hb
  | succ r _ ih => exact ih (relaxed_surf h r) (relaxed_hull h r hb)

/-- C152: smoothing changes positions only. -/
theorem C152_mesh {n : Nat} {o o' : Obj V3} (ht : Times (Relaxed (6 / 10)) n o o') :
    o'.cells = o.cells ∧ o'.pids = o.pids ∧ o'.names = o.names ∧ o'.verts.map Prod.fst = o.verts.map Prod.fst := by
  induction ht with
  | zero => exact ⟨rfl, rfl, rfl, rfl⟩
  | succ r _ ih => exact ⟨ih.1.trans r.cells, ih.2.1.trans r.pids, ih.2.2.1.trans r.names, ih.2.2.2.trans r.ids⟩

/-- C152: smoothing with `n > 0` steps succeeds, and is `n` times: every vertex at once goes 60% of the way to the mean
of the vertices it is joined to. -/
theorem C152_smoothing {o : Obj V3} (h : Good o) (n : Nat) :
    ∃ o', smoothing none (n + 1) o = some o' ∧ Good o' ∧ Times (Relaxed (6 / 10)) (n + 1) o o' := by
  obtain ⟨o1, e, hs, hk⟩ := smoothing_start o (n + 1) none
  obtain ⟨o', h1, h2, h3⟩ := smoothLoop_spec (n + 1) (good_same h hs hk)
  refine ⟨o', e.trans h1, h2, ?_⟩
  cases h3 with
  | succ r t => exact .succ (relaxed_from hs r) t

theorem kap_fix {p q : V3} (h : p = towards kap p q) : p = q := by
  have one : ∀ x y : ℝ, x = (1 - kap) * x + kap * y → x = y := by
    intro x y h
    simp only [kap, lam] at h
    linarith
  exact V3.ext (one _ _ (congrArg V3.x h)) (one _ _ (congrArg V3.y h)) (one _ _ (congrArg V3.z h))

theorem relaxed_none {k : ℝ} {o o' : Obj V3} (r : Relaxed k o o') {id : Nat} (hp : get o.verts id = none) : get o'.verts id = none := by
  cases hg : get o'.verts id with
  | none => rfl
  | some q =>
    have : has o'.verts id = true := by rw [has_eq_isSome, hg]; rfl
    rw [has_iff, r.ids, ← has_iff, has_eq_isSome, hp] at this
    cases this

theorem relaxed_det {k : ℝ} {o o1 o2 : Obj V3} (h : SurfOk o) (r1 : Relaxed k o o1) (r2 : Relaxed k o o2) (id : Nat) :
    get o1.verts id = get o2.verts id := by
  cases hp : get o.verts id with
  | some p =>
    rcases relaxed_at h r1 hp with ⟨a1, a2⟩ | ⟨l, ps, a1, a2, a3, a4⟩
    · rw [a2, r2.alone id p hp a1]
    · rw [a4, r2.moved id p l hp a1 a2 ps a3]
  | none => rw [relaxed_none r1 hp, relaxed_none r2 hp]

theorem negative_still {o o' : Obj V3} (h : SurfOk o) (r : Relaxed lam o o') (hd : Documented o o') {id : Nat} {p : V3}
    {l : List Nat} {ps : List V3} (hp : get o'.verts id = some p) (hl : Ring o' id l) (hne : l ≠ [])
    (hps : l.map (fun n => get o'.verts n) = ps.map some) : p = mean3 ps := by
  obtain ⟨o1, d1, d2⟩ := hd
  have same := relaxed_det h d1 r
  have hl1 : Ring o1 id l := by
    have hc : o1.cells = o'.cells := d1.cells.trans r.cells.symm
    unfold Ring at hl ⊢
    rw [hc]; exact hl
  have hp1 : get o1.verts id = some p := (same id).trans hp
  have hps1 : l.map (fun n => get o1.verts n) = ps.map some := by
    rw [← hps]; exact map_congr_left (fun n _ => same n)
  have hm := d2.moved id p l hp1 hl1 hne ps hps1
  rw [hp] at hm
  exact kap_fix (Option.some.inj hm)

/-- C152: the negative sub-step is missing: what one step gives is what the documentation says only if every vertex
then is at the mean of its neighbours. -/
theorem C152_negative_fails {o o' : Obj V3} (h : SurfOk o) (ht : TreeOk o) (hs : smoothing none 1 o = some o')
    (hd : Documented o o') : ∀ id p l ps, get o'.verts id = some p → Ring o' id l → l ≠ [] →
      l.map (fun n => get o'.verts n) = ps.map some → p = mean3 ps := by
  obtain ⟨o2, h1, -, h3⟩ := C152_smoothing ⟨h.type, h.comp, ht⟩ 0
  have h1 := Option.some.inj (hs.symm.trans h1)
  rw [← h1] at h3
  intro id p l ps hp hl hne hps
  cases h3 with
  | succ r t => cases t with
    | zero => exact negative_still h r hd hp hl hne hps

/-! A case -/

/-- one triangle -/
def demoOne : Obj V3 :=
  { type := 1, verts := [(0, ⟨0, 0, 0⟩), (1, ⟨1, 0, 0⟩), (2, ⟨0, 1, 0⟩), (3, ⟨5, 5, 5⟩)]
    cells := [(0, ⟨.triangle, [0, 1, 2], 0, true⟩)], pids := [0], names := [(0, "")], tree := true
    kd := ⟨.none, none⟩, skd := ⟨.none, none⟩, adj := ⟨.none, none⟩, int := ⟨.none, none⟩, info := ⟨.none, none⟩
    bbox := ⟨.none, none⟩, pc := ⟨.none, none⟩ }

theorem demoOne_ok : SurfOk demoOne ∧ TreeOk demoOne := by
  have hc : ∀ c ∈ demoOne.cells, c = (0, ⟨.triangle, [0, 1, 2], 0, true⟩) := by
    intro c hc; simpa [demoOne] using hc
  refine ⟨⟨rfl, ?_, ?_, ?_, ?_, ?_⟩, ⟨by simp [demoOne], by simp [demoOne]⟩⟩
  · unfold Ok; simp [demoOne]
  · unfold Ok; simp [demoOne]
  · intro c h; rw [hc c h]; exact ⟨by decide, by decide⟩
  · intro c h; rw [hc c h]; exact ⟨by unfold InRange; decide, by simp [demoOne], by simp [demoOne]⟩
  · simp [complete, demoOne, vertexIds, has]

theorem demoOne_ring : Ring demoOne 0 [1, 2] ∧ Ring demoOne 1 [0, 2] ∧ Ring demoOne 2 [0, 1] ∧ Ring demoOne 3 [] := by
  have : ∀ a b, Joined (demoOne.cells.map Prod.snd) a b ↔
      (a, b) ∈ [(0, 1), (1, 2), (2, 0)] ∨ (b, a) ∈ [(0, 1), (1, 2), (2, 0)] := by
    intro a b
    simp [Verif.Mesh.Joined, demoOne, edgesOf, ringEdges]
  refine ⟨⟨by decide, ?_⟩, ⟨by decide, ?_⟩, ⟨by decide, ?_⟩, ⟨by decide, ?_⟩⟩ <;> intro b <;> rw [this] <;> simp <;> omega

/-- C152: on one triangle a step does not give what the documentation says; a vertex without cells stays. -/
theorem C152_triangle_fails : ∃ o', smoothing none 1 demoOne = some o' ∧ ¬ Documented demoOne o' ∧
    get o'.verts 0 = some ⟨3 / 10, 3 / 10, 0⟩ ∧ get o'.verts 3 = some ⟨5, 5, 5⟩ := by
  obtain ⟨h1, h2⟩ := demoOne_ok
  obtain ⟨r0, r1, r2, r3⟩ := demoOne_ring
  obtain ⟨o', e, -, t⟩ := C152_smoothing ⟨h1.type, h1.comp, h2⟩ 0
  cases t with
  | succ r t => cases t with
    | zero =>
      have p0 := r.moved 0 ⟨0, 0, 0⟩ [1, 2] rfl r0 (by decide) [⟨1, 0, 0⟩, ⟨0, 1, 0⟩] rfl
      have p1 := r.moved 1 ⟨1, 0, 0⟩ [0, 2] rfl r1 (by decide) [⟨0, 0, 0⟩, ⟨0, 1, 0⟩] rfl
      have p2 := r.moved 2 ⟨0, 1, 0⟩ [0, 1] rfl r2 (by decide) [⟨0, 0, 0⟩, ⟨1, 0, 0⟩] rfl
      refine ⟨o', e, ?_, ?_, r.alone 3 _ rfl r3⟩
      · intro hd
        have hr : Ring o' 0 [1, 2] := by unfold Ring; rw [r.cells]; exact r0
        have hn : [1, 2].map (fun n => get o'.verts n) = [towards (6 / 10) ⟨1, 0, 0⟩ (mean3 [⟨0, 0, 0⟩, ⟨0, 1, 0⟩]),
            towards (6 / 10) ⟨0, 1, 0⟩ (mean3 [⟨0, 0, 0⟩, ⟨1, 0, 0⟩])].map some := by
          simp only [map_cons, map_nil, p1, p2]
        have := C152_negative_fails h1 h2 e hd 0 _ [1, 2] _ p0 hr (by decide) hn
        have := congrArg V3.x this
        simp only [towards, mean3, lam, map_cons, map_nil, sum_cons, sum_nil, length_cons, length_nil] at this
        norm_num at this
      · rw [p0]
        simp only [towards, mean3, lam, map_cons, map_nil, sum_cons, sum_nil, length_cons, length_nil]
        norm_num

end Verif.Refine
