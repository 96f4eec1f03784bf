import Verif.BinStream.Model
/-
Property theorems about binary streams (C16, C17).
-/
namespace Verif.BinStream
open List

/-- values that exist in the program: a scalar has its number of bytes, an array its number of
elements, map keys are distinct, and sizes fit in `std::size_t` -/
def Wf : (t : Ty) → t.D → Prop
  | .scalar w, (x : List Byte) => x.length = w
  | .str, (x : List Byte) => x.length < 2 ^ 64
  | .arr d t, (x : List t.D) => x.length = d ∧ ∀ e ∈ x, Wf t e
  | .pair a b, (x : a.D × b.D) => Wf a x.1 ∧ Wf b x.2
  | .vec t, (x : List t.D) => x.length < 2 ^ 64 ∧ ∀ e ∈ x, Wf t e
  | .map k v, (x : List (k.D × v.D)) =>
    x.length < 2 ^ 64 ∧ (x.map Prod.fst).Nodup ∧ ∀ e ∈ x, Wf k e.1 ∧ Wf v e.2

/-- reading into a variable of this type overwrites it completely: no map is reachable without going
through a pair -/
def Overwrites : Ty → Prop
  | .scalar _ => True
  | .str => True
  | .arr _ t => Overwrites t
  | .pair _ _ => True
  | .vec t => Overwrites t
  | .map _ _ => False

/-- no map is stored (unless inside a pair) in the keys or values of another map -/
def NoNestedMap : Ty → Prop
  | .scalar _ => True
  | .str => True
  | .arr _ t => NoNestedMap t
  | .pair a b => NoNestedMap a ∧ NoNestedMap b
  | .vec t => NoNestedMap t
  | .map k v => NoNestedMap k ∧ NoNestedMap v ∧ Overwrites k ∧ Overwrites v

theorem unle_le : ∀ (k n : Nat), n < 256 ^ k → unle (le k n) = n := by
  intro k
  induction k with
  | zero => intro n h; simp at h; simp [le, unle, h]
  | succ k ih =>
    intro n h
    have h' : n / 256 < 256 ^ k := by
      rw [Nat.div_lt_iff_lt_mul (by omega)]
      rw [Nat.pow_succ] at h; exact h
    simp only [le, unle, ih _ h']
    have : (UInt8.ofNat (n % 256)).toNat = n % 256 := by
      simp
    rw [this]; omega

theorem length_le : ∀ (k n : Nat), (le k n).length = k := by
  intro k
  induction k with
  | zero => intro n; rfl
  | succ k ih => intro n; simp [le, ih]

theorem readRaw_append (a b : List Byte) : readRaw a.length (a ++ b) = some (a, b) := by
  unfold readRaw
  rw [if_neg (by simp), take_left, drop_left]

theorem readSize_le (n : Nat) (h : n < 2 ^ 64) (bs : List Byte) :
    readSize (le sizeBytes n ++ bs) = some (n, bs) := by
  unfold readSize
  have := readRaw_append (le sizeBytes n) bs
  rw [length_le] at this
  rw [this]
  simp only [Option.map_some]
  rw [unle_le _ _ (by unfold sizeBytes; omega)]

theorem length_resize {α} (n : Nat) (d : α) (l : List α) : (resize n d l).length = n := by
  unfold resize
  simp; omega

theorem mem_resize_nil {α} (n : Nat) (d x : α) (h : x ∈ resize n d []) : x = d := by
  unfold resize at h
  simp at h
  exact h.2

theorem readInto_write {α} (f : α → List Byte → Option (α × List Byte)) (w : α → List Byte)
    (ok : α → Prop) (xs : List α)
    (h : ∀ x ∈ xs, ∀ o, ok o → ∀ bs, f o (w x ++ bs) = some (x, bs)) :
    ∀ (os : List α), os.length = xs.length → (∀ o ∈ os, ok o) → ∀ bs,
    readInto f os (xs.flatMap w ++ bs) = some (xs, bs) := by
  induction xs with
  | nil =>
    intro os hl _ bs
    have : os = [] := length_eq_zero_iff.1 hl
    subst this; rfl
  | cons x xs ih =>
    intro os hl hos bs
    cases os with
    | nil => simp at hl
    | cons o os =>
      rw [flatMap_cons, append_assoc]
      unfold readInto
      rw [h x (by simp) o (hos o (by simp))]
      simp only
      rw [ih (fun y hy => h y (by simp [hy])) os (by simpa using hl) (fun y hy => hos y (by simp [hy]))]

theorem put_not_mem {α β} [DecidableEq α] (m : List (α × β)) (k : α) (v : β) (h : k ∉ m.map Prod.fst) :
    put m k v = m ++ [(k, v)] := by
  induction m with
  | nil => rfl
  | cons e m ih =>
    simp only [map_cons, mem_cons, not_or] at h
    unfold put
    rw [if_neg (Ne.symm h.1), ih h.2, cons_append]

/-- what the reading loop of a map produces, when keys and values are overwritten at each turn -/
theorem readEntries_write {α β} [DecidableEq α] (f : α → List Byte → Option (α × List Byte))
    (g : β → List Byte → Option (β × List Byte)) (wf : α → List Byte) (wg : β → List Byte)
    (xs : List (α × β))
    (hf : ∀ x ∈ xs, ∀ o, ∀ bs, f o (wf x.1 ++ bs) = some (x.1, bs))
    (hg : ∀ x ∈ xs, ∀ o, ∀ bs, g o (wg x.2 ++ bs) = some (x.2, bs)) :
    ∀ (key : α) (value : β) (m : List (α × β)) bs,
    readEntries f g xs.length key value m (xs.flatMap (fun e => wf e.1 ++ wg e.2) ++ bs) =
      some (xs.foldl (fun m e => put m e.1 e.2) m, bs) := by
  induction xs with
  | nil => intro key value m bs; rfl
  | cons x xs ih =>
    intro key value m bs
    rw [flatMap_cons, append_assoc, append_assoc]
    simp only [length_cons, readEntries]
    rw [hf x (by simp)]
    simp only
    rw [hg x (by simp)]
    simp only
    rw [ih (fun y hy => hf y (by simp [hy])) (fun y hy => hg y (by simp [hy]))]
    rfl

theorem foldl_put_fresh {α β} [DecidableEq α] : ∀ (xs m : List (α × β)),
    ((m ++ xs).map Prod.fst).Nodup → xs.foldl (fun m e => put m e.1 e.2) m = m ++ xs := by
  intro xs
  induction xs with
  | nil => intro m _; simp
  | cons x xs ih =>
    intro m h
    have hx : x.1 ∉ m.map Prod.fst := by
      rw [map_append, nodup_append] at h
      intro hm
      exact h.2.2 _ hm x.1 (by simp) rfl
    rw [foldl_cons, put_not_mem m x.1 x.2 hx, ih]
    · simp
    · simpa using h

/-- the common induction: reading into a fresh variable, or into any variable of an overwritten type -/
theorem read_write : ∀ (t : Ty), NoNestedMap t → ∀ (x : t.D), Wf t x → ∀ (old : t.D),
    (Overwrites t ∨ old = t.fresh) → ∀ bs, read t old (write t x ++ bs) = some (x, bs) := by
  intro t
  induction t with
  | scalar w =>
    intro _ x hx old _ bs
    have h := readRaw_append x bs
    rw [show List.length (α := Byte) x = w from hx] at h
    exact h
  | str =>
    intro _ x hx old _ bs
    simp only [write, read]
    rw [append_assoc, readSize_le _ hx]
    exact readRaw_append _ bs
  | arr d t ih =>
    intro hn x hx old hold bs
    simp only [write, read]
    refine readInto_write (read t) (write t) (fun o => Overwrites t ∨ o = t.fresh) x ?_ _ ?_ ?_ bs
    · intro e he o ho bs
      exact ih hn e (hx.2 e he) o ho bs
    · rw [length_resize]; exact hx.1.symm
    · intro o ho
      rcases hold with h | h
      · exact Or.inl h
      · right
        rw [h] at ho
        unfold resize at ho
        simp only [Ty.fresh] at ho
        rcases mem_append.1 ho with h1 | h1
        · exact eq_of_mem_replicate (mem_of_mem_take h1)
        · exact eq_of_mem_replicate h1
  | pair a b iha ihb =>
    intro hn x hx old _ bs
    simp only [write, read]
    rw [append_assoc, iha hn.1 _ hx.1 _ (Or.inr rfl)]
    simp only
    rw [ihb hn.2 _ hx.2 _ (Or.inr rfl)]
  | vec t ih =>
    intro hn x hx old hold bs
    simp only [write, read]
    rw [append_assoc, readSize_le _ hx.1]
    refine readInto_write (read t) (write t) (fun o => Overwrites t ∨ o = t.fresh) x ?_ _ ?_ ?_ bs
    · intro e he o ho bs
      exact ih hn e (hx.2 e he) o ho bs
    · rw [length_resize]
    · intro o ho
      rcases hold with h | h
      · exact Or.inl h
      · right
        rw [h] at ho
        exact mem_resize_nil _ _ _ ho
  | map k v ihk ihv =>
    intro hn x hx old hold bs
    simp only [write, read]
    rw [append_assoc, readSize_le _ hx.1]
    simp only
    rw [readEntries_write (read k) (read v) (write k) (write v) x
      (fun e he o bs => ihk hn.1 _ (hx.2.2 e he).1 o (Or.inl hn.2.2.1) bs)
      (fun e he o bs => ihv hn.2.1 _ (hx.2.2 e he).2 o (Or.inl hn.2.2.2) bs)]
    rcases hold with h | h
    · exact absurd h (by simp [Overwrites])
    · rw [h]
      have := foldl_put_fresh x ([] : List (k.D × v.D)) (by simpa using hx.2.1)
      exact congrArg (fun z => some (z, bs)) this

/-! ### C16 -/

/-- C16, partial (full statement: for every type): a value of a type without maps nested in maps is
received as it was sent and exactly its bytes are consumed, whatever follows in the buffer. -/
theorem C16_transport_partial (t : Ty) (ht : NoNestedMap t) (x : t.D) (hx : Wf t x) (rest : List Byte) :
    transport t x rest = some (x, rest) :=
  read_write t ht x hx t.fresh (Or.inr rfl) rest

/-- C16 is false for nested maps: the map `{1 ↦ {5 ↦ 9}, 2 ↦ {}}` (one-byte keys and values) arrives as
`{1 ↦ {5 ↦ 9}, 2 ↦ {5 ↦ 9}}`, because the value variable is not cleared between entries. -/
theorem C16_nested_map_fails : ∃ (t : Ty) (x : t.D), Wf t x ∧
    ∀ rest, transport t x rest ≠ some (x, rest) := by
  refine ⟨.map (.scalar 1) (.map (.scalar 1) (.scalar 1)),
    ([([1], [([5], [9])]), ([2], [])] : List (List Byte × List (List Byte × List Byte))), ?_, ?_⟩
  · refine ⟨by decide, by decide, ?_⟩
    intro e he
    rcases mem_cons.1 he with rfl | he
    · refine ⟨rfl, by decide, by decide, ?_⟩
      intro e he
      rcases mem_cons.1 he with rfl | he
      · exact ⟨rfl, rfl⟩
      · cases he
    · rcases mem_cons.1 he with rfl | he
      · refine ⟨rfl, by decide, by decide, ?_⟩
        intro e he
        cases he
      · cases he
  · intro rest h
    have hw : transport (.map (.scalar 1) (.map (.scalar 1) (.scalar 1)))
        ([([1], [([5], [9])]), ([2], [])] : List (List Byte × List (List Byte × List Byte))) rest =
        some (([([1], [([5], [9])]), ([2], [([5], [9])])] : List (List Byte × List (List Byte × List Byte))), rest) := by
      have e : write (.map (.scalar 1) (.map (.scalar 1) (.scalar 1)))
          ([([1], [([5], [9])]), ([2], [])] : List (List Byte × List (List Byte × List Byte))) ++ rest =
          le sizeBytes 2 ++ ([1] ++ (le sizeBytes 1 ++ ([5] ++ ([9] ++ ([2] ++ (le sizeBytes 0 ++ rest)))))) := by
        simp [write, append_assoc]
      unfold transport
      rw [e]
      simp only [read, Ty.fresh]
      rw [readSize_le _ (by decide)]
      have r1 : ∀ (b : Byte) bs, readRaw 1 ([b] ++ bs) = some ([b], bs) := fun b bs => readRaw_append [b] bs
      have s1 := readSize_le 1 (by decide)
      have s0 := readSize_le 0 (by decide)
      simp only [readEntries, r1, s1, s0]
      simp [put]
    rw [hw] at h
    revert h
    simp only [Option.some.injEq, Prod.mk.injEq, and_true]
    intro h
    revert h
    show ¬ ([([1], [([5], [9])]), ([2], [([5], [9])])] : List (List Byte × List (List Byte × List Byte))) =
      [([1], [([5], [9])]), ([2], [])]
    decide

/-- the types of the ports created in the repository (`darray3E`, `dvecarr3E`, `dmatrix33E`, `double`,
`iarray3E`, `std::vector<long>`, `int`, `std::unordered_map<long,long>`, `bool`, `std::string`, raw
pointers and `MimmoSharedPointer` as scalars, `std::vector` of pointers, enums, `dmat33Evec`,
`std::unordered_map<long,int>`) all qualify -/
def portTypes : List Ty :=
  [.arr 3 (.scalar 8), .vec (.arr 3 (.scalar 8)), .arr 3 (.arr 3 (.scalar 8)), .scalar 8, .arr 3 (.scalar 4),
   .vec (.scalar 8), .scalar 4, .map (.scalar 8) (.scalar 8), .scalar 1, .str, .arr 3 (.scalar 4),
   .arr 4 (.scalar 8), .arr 3 (.arr 3 (.vec (.scalar 8))), .map (.scalar 8) (.scalar 4),
   .pair (.scalar 8) (.scalar 8)]

theorem portTypes_ok : ∀ t ∈ portTypes, NoNestedMap t := by
  intro t ht
  simp only [portTypes, mem_cons, not_mem_nil, or_false] at ht
  rcases ht with h | h | h | h | h | h | h | h | h | h | h | h | h | h | h <;> subst h <;>
    simp [NoNestedMap, Overwrites]

/-- a non-trivial value: map from strings to vectors -/
example : NoNestedMap (.map .str (.vec (.scalar 1))) ∧
    Wf (.map .str (.vec (.scalar 1))) ([([104, 105], [[1], [2]]), ([], [])] : List (List Byte × List (List Byte))) := by
  refine ⟨by simp [NoNestedMap, Overwrites], by decide, by decide, ?_⟩
  intro e he
  rcases mem_cons.1 he with rfl | he
  · refine ⟨by unfold Wf; decide, by decide, ?_⟩
    intro e he
    rcases mem_cons.1 he with rfl | he
    · rfl
    · rcases mem_cons.1 he with rfl | he
      · rfl
      · cases he
  · rcases mem_cons.1 he with rfl | he
    · refine ⟨by unfold Wf; decide, by decide, ?_⟩
      intro e he; cases he
    · cases he

/-! ### C17 -/

/-- finite-map reading of an entry list -/
def lookup {α β : Type} [DecidableEq α] (m : List (α × β)) (k : α) : Option β :=
  (m.find? (fun e => decide (e.1 = k))).map Prod.snd

theorem lookup_put {α β} [DecidableEq α] (m : List (α × β)) (k : α) (v : β) (j : α) :
    lookup (put m k v) j = if j = k then some v else lookup m j := by
  induction m with
  | nil =>
    unfold lookup put
    by_cases h : j = k
    · simp [h]
    · simp [h, Ne.symm h]
  | cons e m ih =>
    unfold put
    by_cases he : e.1 = k
    · rw [if_pos he]
      by_cases h : j = k
      · simp [lookup, h]
      · have h1 : ¬ k = j := Ne.symm h
        have h2 : ¬ e.1 = j := by rw [he]; exact h1
        simp [lookup, h, h1, h2]
    · rw [if_neg he]
      unfold lookup at ih ⊢
      by_cases h : e.1 = j
      · have : ¬ j = k := fun e' => he (h.trans e')
        simp [h, this]
      · rw [find?_cons_of_neg (by simp [h]), find?_cons_of_neg (by simp [h])]
        exact ih

theorem lookup_foldl_put {α β} [DecidableEq α] : ∀ (xs m : List (α × β)) (j : α), (xs.map Prod.fst).Nodup →
    lookup (xs.foldl (fun m e => put m e.1 e.2) m) j =
      (lookup xs j).or (lookup m j) := by
  intro xs
  induction xs with
  | nil => intro m j _; rfl
  | cons x xs ih =>
    intro m j hnd
    simp only [map_cons, nodup_cons] at hnd
    rw [foldl_cons, ih _ _ hnd.2, lookup_put]
    by_cases h : x.1 = j
    · have hx : lookup xs j = none := by
        unfold lookup
        rw [Option.map_eq_none_iff, find?_eq_none]
        intro e he hej
        simp at hej
        apply hnd.1
        rw [h, ← hej]
        exact mem_map.2 ⟨e, he, rfl⟩
      rw [hx]
      simp [h, lookup]
    · have : lookup (x :: xs) j = lookup xs j := by
        unfold lookup; rw [find?_cons_of_neg (by simp [h])]
      rw [this, if_neg (Ne.symm h)]

/-- C17 is false: reading a map into a variable that already has entries keeps the old entries. -/
theorem C17_map_read_replaces_fails : ∃ (t : Ty) (x old : t.D), Wf t x ∧ Wf t old ∧
    ∀ rest y r, read t old (write t x ++ rest) = some (y, r) → y ≠ x := by
  refine ⟨.map (.scalar 1) (.scalar 1), ([([1], [2])] : List (List Byte × List Byte)),
    ([([7], [7])] : List (List Byte × List Byte)), ?_, ?_, ?_⟩
  · refine ⟨by decide, by decide, ?_⟩
    intro e he
    rcases mem_cons.1 he with rfl | he
    · exact ⟨rfl, rfl⟩
    · cases he
  · refine ⟨by decide, by decide, ?_⟩
    intro e he
    rcases mem_cons.1 he with rfl | he
    · exact ⟨rfl, rfl⟩
    · cases he
  · intro rest y r h
    have hw : read (.map (.scalar 1) (.scalar 1)) ([([7], [7])] : List (List Byte × List Byte))
        (write (.map (.scalar 1) (.scalar 1)) ([([1], [2])] : List (List Byte × List Byte)) ++ rest) =
        some (([([7], [7]), ([1], [2])] : List (List Byte × List Byte)), rest) := by
      have e : write (.map (.scalar 1) (.scalar 1)) ([([1], [2])] : List (List Byte × List Byte)) ++ rest =
          le sizeBytes 1 ++ ([1] ++ ([2] ++ rest)) := by
        simp only [write]
        show (le sizeBytes 1 ++ [1, 2]) ++ rest = _
        simp
      rw [e]
      simp only [read]
      rw [readSize_le 1 (by decide)]
      have r1 : ∀ (b : Byte) bs, readRaw 1 ([b] ++ bs) = some ([b], bs) := fun b bs => readRaw_append [b] bs
      simp only [readEntries, r1]
      rfl
    rw [hw] at h
    simp only [Option.some.injEq, Prod.mk.injEq] at h
    rw [← h.1]
    show ¬ ([([7], [7]), ([1], [2])] : List (List Byte × List Byte)) = [([1], [2])]
    decide

/-- C17, partial (full statement: the result is the map that was written): the result is the written map
laid over the old content — every written key has the written value, every other key keeps what the
target had before. -/
theorem C17_map_read_merges_partial (k v : Ty) (ht : NoNestedMap (.map k v))
    (x old : List (k.D × v.D)) (hx : Wf (.map k v) x) (rest : List Byte) :
    ∃ y : List (k.D × v.D), read (.map k v) old (write (.map k v) x ++ rest) = some (y, rest) ∧
      ∀ j, lookup y j = (lookup x j).or (lookup old j) := by
  refine ⟨x.foldl (fun m e => put m e.1 e.2) old, ?_, fun j => lookup_foldl_put x old j hx.2.1⟩
  simp only [write, read]
  rw [append_assoc, readSize_le _ hx.1]
  exact readEntries_write (read k) (read v) (write k) (write v) x
    (fun e he o bs => read_write k ht.1 _ (hx.2.2 e he).1 o (Or.inl ht.2.2.1) bs)
    (fun e he o bs => read_write v ht.2.1 _ (hx.2.2 e he).2 o (Or.inl ht.2.2.2) bs) _ _ _ _

/-- vectors, strings and arrays (of such) do replace the target, whatever it held -/
theorem C17_overwrites (t : Ty) (ht : NoNestedMap t) (ho : Overwrites t) (x old : t.D) (hx : Wf t x)
    (rest : List Byte) : read t old (write t x ++ rest) = some (x, rest) :=
  read_write t ht x hx old (Or.inl ho) rest

example : NoNestedMap (.map (.scalar 8) (.scalar 8)) ∧ NoNestedMap (.vec (.arr 3 (.scalar 8))) ∧
    Overwrites (.vec (.arr 3 (.scalar 8))) := by simp [NoNestedMap, Overwrites]

end Verif.BinStream
