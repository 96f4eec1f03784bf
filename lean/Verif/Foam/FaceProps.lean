import Verif.Foam.Model
import Mathlib.Data.List.Nodup
import Batteries.Data.List.Perm
/-!
# C215, C216: the faces and the patches of an OpenFOAM mesh
-/
namespace Verif.Foam

/-! ## Comparing faces -/

theorem stdEqual_true {a b : List Nat} (h : stdEqual a b = some true) : a <+: b := by
  induction a generalizing b with
  | nil => exact List.nil_prefix
  | cons x a ih =>
    cases b with
    | nil => cases h
    | cons y b =>
      rw [stdEqual] at h
      split at h
      · next he => subst he; exact List.cons_prefix_cons.2 ⟨rfl, ih h⟩
      · cases h

theorem stdEqual_none {a b : List Nat} (h : stdEqual a b = none) : b <+: a := by
  induction a generalizing b with
  | nil => cases h
  | cons x a ih =>
    cases b with
    | nil => exact List.nil_prefix
    | cons y b =>
      rw [stdEqual] at h
      split at h
      · next he => subst he; exact List.cons_prefix_cons.2 ⟨rfl, ih h⟩
      · cases h

theorem stdEqual_self (a : List Nat) : stdEqual a a = some true := by
  induction a with
  | nil => rfl
  | cons x a ih => rw [stdEqual, if_pos rfl, ih]

theorem sort_perm (l : List Nat) : (sort l).Perm l := List.mergeSort_perm _ _

theorem sort_eq {a b : List Nat} (h : a.Perm b) : sort a = sort b := by
  have hs : ∀ l, (sort l).Pairwise (fun a b => a ≤ b) := by
    intro l
    have := List.pairwise_mergeSort (le := fun a b : Nat => decide (a ≤ b))
      (fun a b c hab hbc => by simp at hab hbc ⊢; omega) (fun a b => by simp; omega) l
    exact this.imp (by intro a b hab; simpa using hab)
  exact List.Perm.eq_of_pairwise (le := fun a b => a ≤ b) (fun a b _ _ h1 h2 => Nat.le_antisymm h1 h2)
    (hs a) (hs b) ((sort_perm a).trans (h.trans (sort_perm b).symm))

theorem sort_sorted {l : List Nat} (h : l.Pairwise fun a b => decide (a ≤ b) = true) : sort l = l :=
  List.mergeSort_of_pairwise h

/-- The vertices shared by two faces. -/
def shared (a b : List Nat) : List Nat := a.filter (· ∈ b)

/-- An interface is the face, or it is a face next to it or farther: they share at most an edge. -/
def Near (f : List Nat) (i : Nat × List Nat) : Prop := i.2.Perm f ∨ (shared i.2 f).length ≤ 2

theorem shared_of_subset {a b : List Nat} (h : ∀ x ∈ a, x ∈ b) : shared a b = a :=
  List.filter_eq_self.2 fun x hx => by simpa using h x hx

theorem shared_length_of_subset {a b : List Nat} (hb : b.Nodup) (h : ∀ x ∈ b, x ∈ a) :
    b.length ≤ (shared a b).length := by
  have : b ⊆ shared a b := fun x hx => List.mem_filter.2 ⟨h x hx, by simpa using hx⟩
  exact (List.subperm_of_subset hb this).length_le

theorem stdEqual_sort {f v : List Nat} (hf : 3 ≤ f.length) (hfn : f.Nodup) (hv : 3 ≤ v.length)
    (h : v.Perm f ∨ (shared v f).length ≤ 2) : stdEqual (sort v) (sort f) = some (decide (v.Perm f)) := by
  by_cases hp : v.Perm f
  · rw [sort_eq hp, stdEqual_self]; simp [hp]
  · have hs := h.resolve_left hp
    simp only [hp, decide_false]
    cases hq : stdEqual (sort v) (sort f) with
    | none =>
      exfalso
      have hsub : ∀ x ∈ f, x ∈ v := fun x hx =>
        (sort_perm v).mem_iff.1 ((stdEqual_none hq).subset ((sort_perm f).mem_iff.2 hx))
      have := shared_length_of_subset hfn hsub
      omega
    | some b =>
      cases b with
      | false => rfl
      | true =>
        exfalso
        have hsub : ∀ x ∈ v, x ∈ f := fun x hx =>
          (sort_perm f).mem_iff.1 ((stdEqual_true hq).subset ((sort_perm v).mem_iff.2 hx))
        rw [shared_of_subset hsub] at hs
        omega

/-- The interface with the vertices of a face. -/
def sameFace (f : List Nat) (is : List (Nat × List Nat)) : Option Nat := (is.find? fun i => decide (i.2.Perm f)).map Prod.fst

/-- **C215.**  Among interfaces of at least three vertices, which are the face or share at most an edge with it, the
loop finds the one with the vertices of the face, and -1 when there is none.  Faces which share more are missing. -/
theorem C215_face_partial (f : List Nat) (is : List (Nat × List Nat)) (hf : 3 ≤ f.length) (hfn : f.Nodup)
    (h3 : ∀ i ∈ is, 3 ≤ i.2.length) (hn : ∀ i ∈ is, Near f i) :
    findFace f is = some (((sameFace f is).map fun i : Nat => (i : Int)).getD (-1)) := by
  induction is with
  | nil => rfl
  | cons i is ih =>
    have ih := ih (fun j hj => h3 j (List.mem_cons_of_mem _ hj)) fun j hj => hn j (List.mem_cons_of_mem _ hj)
    have he := stdEqual_sort hf hfn (h3 i (by simp)) (hn i (by simp))
    rw [findFace, he, sameFace, List.find?_cons]
    by_cases hp : i.2.Perm f
    · simp [hp]
    · simp only [hp, decide_false]
      exact ih

/-- the interfaces of a prism, and a face of it in another order -/
def prismFaces : List (Nat × List Nat) :=
  [(10, [0, 1, 2]), (11, [3, 5, 4]), (12, [0, 3, 4, 1]), (13, [1, 4, 5, 2]), (14, [2, 5, 3, 0])]

example : (∀ i ∈ prismFaces, 3 ≤ i.2.length) ∧ (∀ i ∈ prismFaces, Near [5, 2, 1, 4] i) ∧
    sameFace [5, 2, 1, 4] prismFaces = some 13 := by
  refine ⟨by decide, ?_, by decide⟩
  intro i hi
  unfold Near
  revert i
  decide

/-- **C215, violated.**  A smaller face whose vertices are the first ones of the face is taken for it. -/
theorem C215_prefix_fails : findFace [0, 1, 2, 3] [(7, [0, 1, 2]), (8, [0, 1, 2, 3])] = some 7 := by
  rw [findFace, sort_sorted (by decide), sort_sorted (by decide)]; rfl

/-- **C215, violated.**  With a larger interface the comparison goes past the end of the face. -/
theorem C215_beyond_fails : findFace [0, 1, 2] [(8, [0, 1, 2, 3]), (7, [0, 1, 2])] = none := by
  rw [findFace, sort_sorted (by decide), sort_sorted (by decide)]; rfl

/-! ## The map -/

theorem find_append {α : Type} (m n : List (Nat × α)) (k : Nat) :
    ((m ++ n).find? (·.1 == k)) = (m.find? (·.1 == k)).or (n.find? (·.1 == k)) := List.find?_append

theorem get_insert (m : FaceMap) (k j : Nat) (v : Int) :
    (m.insert k v).get j = if (m.get j).isSome then m.get j else if k = j then some v else none := by
  unfold FaceMap.insert
  by_cases h : (m.get k).isSome = true
  · rw [if_pos h]
    by_cases hj : (m.get j).isSome = true
    · rw [if_pos hj]
    · rw [if_neg hj]
      have hkj : ¬ k = j := by rintro rfl; exact hj h
      rw [if_neg hkj]
      simpa using hj
  · rw [if_neg h]
    have : FaceMap.get (m ++ [(k, v)]) j = (m.get j).or (FaceMap.get [(k, v)] j) := by
      rw [FaceMap.get, find_append, FaceMap.get, FaceMap.get]
      cases m.find? (fun e => e.1 == j) <;> rfl
    rw [this]
    have h2 : FaceMap.get [(k, v)] j = if k = j then some v else none := by
      unfold FaceMap.get
      by_cases hk : k = j
      · simp [hk]
      · simp [hk]
    rw [h2]
    cases hm : m.get j with
    | none => simp
    | some x => simp

/-- The faces of a mesh with their numbers. -/
def numbered (faces : List (List Nat)) : List (Nat × List Nat) := faces.zipIdx.map fun p => (p.2, p.1)

theorem mapFaces_spec (owner : List Nat) (ifs : Nat → List (Nat × List Nat)) (target : Nat → Int) :
    ∀ (fs : List (Nat × List Nat)) (m : FaceMap),
      (∀ f ∈ fs, ∃ c, owner[f.1]? = some c ∧ findFace f.2 (ifs c) = some (target f.1)) →
      ∃ m', mapFaces owner ifs fs m = some m' ∧
        ∀ k, m'.get k = if (m.get k).isSome then m.get k else if k ∈ fs.map Prod.fst then some (target k) else none := by
  intro fs
  induction fs with
  | nil =>
    intro m _
    refine ⟨m, rfl, fun k => ?_⟩
    cases hm : m.get k <;> simp
  | cons f fs ih =>
    intro m h
    obtain ⟨c, hc, hf⟩ := h f (by simp)
    obtain ⟨m', h1, h2⟩ := ih (m.insert f.1 (target f.1)) fun g hg => h g (List.mem_cons_of_mem _ hg)
    refine ⟨m', ?_, fun k => ?_⟩
    · rw [mapFaces, hc]
      simp only [hf]
      exact h1
    · rw [h2, get_insert]
      by_cases hm : (m.get k).isSome = true
      · rw [if_pos hm, if_pos hm, if_pos hm]
      · rw [if_neg hm, if_neg hm]
        by_cases hk : f.1 = k
        · subst hk; simp
        · have hk' : ¬ k = f.1 := fun h => hk h.symm
          rw [if_neg hk]
          simp only [Option.isSome_none, Bool.false_eq_true, if_false, List.map_cons, List.mem_cons, hk', false_or]

/-- The interfaces of the cells fit the faces of the mesh: the owner of a face has an interface with its vertices,
and the others of the owner share at most an edge with it. -/
structure Fit (faces : List (List Nat)) (owner : List Nat) (ifs : Nat → List (Nat × List Nat)) (id : Nat → Nat) :
    Prop where
  owned : ∀ (k : Nat) (f : List Nat), faces[k]? = some f → ∃ c, owner[k]? = some c ∧ 3 ≤ f.length ∧ f.Nodup ∧
    (∀ i ∈ ifs c, 3 ≤ i.2.length ∧ Near f i) ∧ sameFace f (ifs c) = some (id k)

theorem mem_numbered {faces : List (List Nat)} {f : Nat × List Nat} :
    f ∈ numbered faces ↔ faces[f.1]? = some f.2 := by
  rw [numbered, List.mem_map]
  constructor
  · rintro ⟨p, hp, rfl⟩
    rw [List.mem_zipIdx_iff_getElem?] at hp
    simpa using hp
  · intro h
    exact ⟨(f.2, f.1), by rw [List.mem_zipIdx_iff_getElem?]; simpa using h, rfl⟩

theorem fit_find {faces : List (List Nat)} {owner : List Nat} {ifs : Nat → List (Nat × List Nat)} {id : Nat → Nat}
    (h : Fit faces owner ifs id) :
    ∀ f ∈ numbered faces, ∃ c, owner[f.1]? = some c ∧ findFace f.2 (ifs c) = some (id f.1 : Int) := by
  intro f hf
  obtain ⟨c, hc, h3, hn, hi, hs⟩ := h.owned f.1 f.2 (mem_numbered.1 hf)
  refine ⟨c, hc, ?_⟩
  rw [C215_face_partial f.2 (ifs c) h3 hn (fun i hm => (hi i hm).1) fun i hm => (hi i hm).2, hs]
  rfl

/-- **C215.**  Starting from an empty map, every face of the mesh is mapped to the interface of its owner with the same
vertices, and nothing else is in the map. -/
theorem C215_map_partial (faces : List (List Nat)) (owner : List Nat) (ifs : Nat → List (Nat × List Nat))
    (id : Nat → Nat) (h : Fit faces owner ifs id) :
    ∃ m, mapFaces owner ifs (numbered faces) [] = some m ∧
      ∀ k, m.get k = if k < faces.length then some (id k : Int) else none := by
  obtain ⟨m, h1, h2⟩ := mapFaces_spec owner ifs (fun k => (id k : Int)) (numbered faces) [] (fit_find h)
  refine ⟨m, h1, fun k => ?_⟩
  rw [h2]
  have : (FaceMap.get [] k).isSome = false := rfl
  rw [this]
  simp only [Bool.false_eq_true, if_false]
  have hiff : k ∈ (numbered faces).map Prod.fst ↔ k < faces.length := by
    rw [List.mem_map]
    constructor
    · rintro ⟨f, hf, rfl⟩
      exact (List.getElem?_eq_some_iff.1 (mem_numbered.1 hf)).1
    · intro hk
      exact ⟨(k, faces[k]), mem_numbered.2 (List.getElem?_eq_getElem hk), rfl⟩
  simp only [hiff]

/-- a tetrahedron -/
def tet : List (List Nat) := [[1, 2, 3], [0, 3, 2], [0, 1, 3], [0, 2, 1]]

theorem tet_fit : Fit tet [0, 0, 0, 0] (fun _ => [(4, [1, 0, 2]), (5, [0, 1, 3]), (6, [2, 1, 3]), (7, [3, 0, 2])])
    (fun k => [6, 7, 5, 4].getD k 0) := by
  refine ⟨fun k f hk => ?_⟩
  have hlt := (List.getElem?_eq_some_iff.1 hk).1
  have : k < 4 := hlt
  refine ⟨0, ?_⟩
  unfold Near
  match k, this with
  | 0, _ => cases hk; decide
  | 1, _ => cases hk; decide
  | 2, _ => cases hk; decide
  | 3, _ => cases hk; decide

/-- **C215, violated.**  What was in the map stays: reading again, or after a map was set, gives the old interfaces. -/
theorem C215_stale_fails (faces : List (List Nat)) (owner : List Nat) (ifs : Nat → List (Nat × List Nat))
    (id : Nat → Nat) (h : Fit faces owner ifs id) (old : FaceMap) (k : Nat) (v : Int) (hv : old.get k = some v) :
    ∃ m, mapFaces owner ifs (numbered faces) old = some m ∧ m.get k = some v := by
  obtain ⟨m, h1, h2⟩ := mapFaces_spec owner ifs (fun k => (id k : Int)) (numbered faces) old (fit_find h)
  exact ⟨m, h1, by rw [h2, hv]; rfl⟩

example : FaceMap.get [(0, 9)] 0 = some 9 ∧ (6 : Int) ≠ 9 := by decide

/-! ## C216: the patches -/

/-- The patches of a mesh: one after the other, from the first of the faces of the boundary. -/
def Consecutive : Nat → List Patch → Prop
  | _, [] => True
  | s, p :: ps => p.start = s ∧ Consecutive (s + p.size) ps

/-- The patch of a face: its number. -/
def patchOf (ps : List Patch) (k : Nat) : Option Nat :=
  ps.findIdx? fun p => decide (p.start ≤ k ∧ k < p.start + p.size)

theorem foldl_pid (m : FaceMap) (v : Nat) (l : List Nat) (pid : Int → Nat) (c : Int) :
    (l.foldl (fun q ind => fun c => if c = m.at ind then v else q c) pid) c =
      if ∃ k ∈ l, c = m.at k then v else pid c := by
  induction l generalizing pid with
  | nil => simp
  | cons k l ih =>
    rw [List.foldl_cons, ih]
    by_cases h : ∃ j ∈ l, c = m.at j
    · rw [if_pos h, if_pos]
      obtain ⟨j, hj, he⟩ := h
      exact ⟨j, List.mem_cons_of_mem _ hj, he⟩
    · rw [if_neg h]
      by_cases hk : c = m.at k
      · rw [if_pos hk, if_pos ⟨k, by simp, hk⟩]
      · rw [if_neg hk, if_neg]
        rintro ⟨j, hj, he⟩
        rcases List.mem_cons.1 hj with rfl | hj
        · exact hk he
        · exact h ⟨j, hj, he⟩

theorem consecutive_start {ps : List Patch} {s : Nat} (h : Consecutive s ps) : ∀ p ∈ ps, s ≤ p.start := by
  induction ps generalizing s with
  | nil => simp
  | cons p ps ih =>
    intro q hq
    rcases List.mem_cons.1 hq with rfl | hq
    · exact Nat.le_of_eq h.1.symm
    · have := ih h.2 q hq; omega

theorem setPids_spec (m : FaceMap) :
    ∀ (ps : List Patch) (s iB : Nat) (pid : Int → Nat), Consecutive s ps →
      (∀ p ∈ ps, ∀ q ∈ ps, ∀ j k, p.start ≤ j → j < p.start + p.size → q.start ≤ k → k < q.start + q.size →
        m.at j = m.at k → j = k) →
      (∀ p ∈ ps, ∀ k, p.start ≤ k → k < p.start + p.size →
        setPids m ps iB pid (m.at k) = ((patchOf ps k).map fun i => iB + i + 1).getD 0) ∧
      ∀ c, (∀ p ∈ ps, ∀ k, p.start ≤ k → k < p.start + p.size → c ≠ m.at k) → setPids m ps iB pid c = pid c := by
  intro ps
  induction ps with
  | nil => intros; exact ⟨by simp, fun c _ => rfl⟩
  | cons p ps ih =>
    intro s iB pid hcons hinj
    have hinj' : ∀ p ∈ ps, ∀ q ∈ ps, ∀ j k, p.start ≤ j → j < p.start + p.size → q.start ≤ k →
        k < q.start + q.size → m.at j = m.at k → j = k :=
      fun a ha b hb => hinj a (List.mem_cons_of_mem _ ha) b (List.mem_cons_of_mem _ hb)
    have ih := fun pid => ih (s + p.size) (iB + 1) pid hcons.2 hinj'
    refine ⟨?_, ?_⟩
    · intro q hq k h1 h2
      rw [setPids]
      rcases List.mem_cons.1 hq with rfl | hq
      · rw [(ih _).2, foldl_pid, if_pos]
        · have : patchOf (q :: ps) k = some 0 := by
            rw [patchOf, List.findIdx?_cons, if_pos (by simpa using ⟨h1, h2⟩)]
          rw [this]; rfl
        · exact ⟨k, by rw [List.mem_range']; exact ⟨k - q.start, by omega, by omega⟩, rfl⟩
        · intro b hb j j1 j2 he
          have := hinj q (by simp) b (List.mem_cons_of_mem _ hb) k j h1 h2 j1 j2 he
          have := consecutive_start hcons.2 b hb
          have := hcons.1
          omega
      · rw [(ih _).1 q hq k h1 h2]
        have hne : ¬ (p.start ≤ k ∧ k < p.start + p.size) := by
          have := consecutive_start hcons.2 q hq
          have := hcons.1
          omega
        have : patchOf (p :: ps) k = (patchOf ps k).map (· + 1) := by
          rw [patchOf, List.findIdx?_cons, if_neg (by simpa using hne)]; rfl
        rw [this, Option.map_map]
        congr 2
        funext i
        show iB + 1 + i + 1 = iB + (i + 1) + 1
        omega
    · intro c hc
      rw [setPids, (ih _).2 c fun q hq => hc q (List.mem_cons_of_mem _ hq), foldl_pid, if_neg]
      rintro ⟨k, hk, he⟩
      rw [List.mem_range'] at hk
      obtain ⟨i, hi, rfl⟩ := hk
      exact hc p (by simp) _ (by omega) (by omega) he

/-- **C216.**  Consecutive patches, whose faces are mapped to different interfaces: the cell of the boundary of a face of
the `i`-th patch (from zero) has the PID `i + 1`, and the other cells keep theirs. -/
theorem C216_pids (m : FaceMap) (ps : List Patch) (s : Nat) (pid : Int → Nat) (hc : Consecutive s ps)
    (hinj : ∀ j k, s ≤ j → s ≤ k → j < (ps.map Patch.size).sum + s → k < (ps.map Patch.size).sum + s →
      m.at j = m.at k → j = k) :
    (∀ (i : Nat) (p : Patch), ps[i]? = some p → ∀ k, p.start ≤ k → k < p.start + p.size →
      setPids m ps 0 pid (m.at k) = i + 1) ∧
    ∀ c, (∀ k, s ≤ k → k < (ps.map Patch.size).sum + s → c ≠ m.at k) → setPids m ps 0 pid c = pid c := by
  have hend : ∀ (ps : List Patch) (s : Nat), Consecutive s ps → ∀ p ∈ ps,
      p.start + p.size ≤ (ps.map Patch.size).sum + s := by
    intro ps
    induction ps with
    | nil => simp
    | cons p ps ih =>
      intro s h q hq
      rw [List.map_cons, List.sum_cons]
      rcases List.mem_cons.1 hq with rfl | hq
      · have := h.1; omega
      · have := ih _ h.2 q hq; omega
  have hspec := setPids_spec m ps s 0 pid hc (by
    intro p hp q hq j k j1 j2 k1 k2 he
    have a1 := consecutive_start hc p hp
    have a2 := consecutive_start hc q hq
    have a3 := hend ps s hc p hp
    have a4 := hend ps s hc q hq
    exact hinj j k (by omega) (by omega) (by omega) (by omega) he)
  have hidx : ∀ (ps : List Patch) (s : Nat), Consecutive s ps → ∀ (i : Nat) (p : Patch), ps[i]? = some p →
      ∀ k, p.start ≤ k → k < p.start + p.size → patchOf ps k = some i := by
    intro ps
    induction ps with
    | nil => intro s _ i p h; simp at h
    | cons p ps ih =>
      intro s h i q hi k k1 k2
      cases i with
      | zero =>
        cases hi
        rw [patchOf, List.findIdx?_cons, if_pos (by simpa using ⟨k1, k2⟩)]
      | succ i =>
        have hi' : ps[i]? = some q := by simpa using hi
        have hq : q ∈ ps := List.mem_of_getElem? hi'
        have hne : ¬ (p.start ≤ k ∧ k < p.start + p.size) := by
          have := consecutive_start h.2 q hq
          have := h.1
          omega
        have := ih _ h.2 i q hi' k k1 k2
        rw [patchOf, List.findIdx?_cons, if_neg (by simpa using hne)]
        rw [patchOf] at this
        rw [this]; rfl
  refine ⟨?_, ?_⟩
  · intro i p hi k k1 k2
    rw [hspec.1 p (List.mem_of_getElem? hi) k k1 k2, hidx ps s hc i p hi k k1 k2]
    simp
  · intro c hcc
    refine hspec.2 c fun p hp k k1 k2 => hcc k ?_ ?_
    · have := consecutive_start hc p hp; omega
    · have := hend ps s hc p hp; omega

example : Consecutive 5 [⟨"inlet", 5, 2⟩, ⟨"empty", 7, 0⟩, ⟨"wall", 7, 1⟩] := by simp [Consecutive]
example : setPids [(5, 50), (6, 40), (7, 60)] [⟨"inlet", 5, 2⟩, ⟨"empty", 7, 0⟩, ⟨"wall", 7, 1⟩] 0 (fun _ => 0) 60 = 3 := by
  decide

/-- **C216, the map.**  A face which is not in the map is taken for the interface 0. -/
theorem C216_unmapped_fails : setPids [] [⟨"wall", 7, 2⟩] 0 (fun _ => 0) 0 = 1 := by decide

/-! ## Names of the patches -/

/-- **C216, names.**  The name of a patch is found by its number, and a name which is there by the number of the first
patch which has it; numbers which are too large by more than one, and negative ones, give the empty name. -/
theorem C216_names_partial {P : Type} (M : Mesh P) :
    (∀ (i : Nat) (p : Patch), M.patches[i]? = some p → patchName M i = some p.name) ∧
    (∀ i : Int, i < 0 ∨ i > M.patches.length → patchName M i = some "") ∧
    (∀ name, patchIndex M name = -1 → ∀ p ∈ M.patches, p.name ≠ name) ∧
    ∀ (name : String) (i : Nat), patchIndex M name = i → ∃ p, M.patches[i]? = some p ∧ p.name = name := by
  refine ⟨?_, ?_, ?_, ?_⟩
  · intro i p hi
    have := (List.getElem?_eq_some_iff.1 hi).1
    rw [patchName, if_neg (by omega)]
    simp [hi]
  · intro i hi
    rw [patchName, if_pos (by omega)]
  · intro name h p hp he
    rw [patchIndex] at h
    cases hx : M.patches.findIdx? (·.name == name) with
    | some k => rw [hx] at h; simp only at h; omega
    | none =>
      rw [List.findIdx?_eq_none_iff] at hx
      have := hx p hp
      simp [he] at this
  · intro name i h
    rw [patchIndex] at h
    cases hx : M.patches.findIdx? (·.name == name) with
    | none => rw [hx] at h; simp only at h; omega
    | some k =>
      rw [hx] at h
      simp only [Int.ofNat_inj] at h
      subst h
      obtain ⟨hk, hp, _⟩ := List.findIdx?_eq_some_iff_getElem.1 hx
      exact ⟨_, List.getElem?_eq_getElem hk, by simpa using hp⟩

/-- **C216, violated.**  The number one past the last is not refused. -/
theorem C216_past_fails : patchName (⟨[], [], [], [], [], [], [⟨"wall", 7, 2⟩]⟩ : Mesh Nat) 1 = none := by decide

end Verif.Foam
