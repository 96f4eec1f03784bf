import Verif.Registry.Model
/-
Property theorems about the registries (C20, C21, C51, C52, C53).
-/
namespace Verif.Registry
open List

section maps
variable {β : Type}

theorem find_put (m : List (String × β)) (k : String) (v : β) (j : String) :
    find (put m k v) j = if j = k then some v else find m j := by
  induction m with
  | nil =>
    by_cases h : j = k
    · simp [find, put, h]
    · have : (k == j) = false := by simpa using Ne.symm h
      simp [find, put, h, this]
  | cons e m ih =>
    unfold put
    by_cases he : e.1 = k
    · rw [if_pos (by simpa using he)]
      by_cases h : j = k
      · simp [find, h]
      · have h1 : (k == j) = false := by simpa using Ne.symm h
        have h2 : (e.1 == j) = false := by rw [he]; exact h1
        simp [find, h, h1, h2]
    · rw [if_neg (by simpa using he)]
      unfold find at ih ⊢
      by_cases h : e.1 = j
      · have : ¬ j = k := fun e' => he (h.trans e')
        simp [h, this]
      · rw [find?_cons_of_neg (by simpa using h), find?_cons_of_neg (by simpa using h)]
        exact ih

theorem put_new (m : List (String × β)) (k : String) (v : β) (h : find m k = none) :
    put m k v = m ++ [(k, v)] := by
  induction m with
  | nil => rfl
  | cons e m ih =>
    unfold find at h ih
    rw [Option.map_eq_none_iff, find?_eq_none] at h
    have he := h e (by simp)
    unfold put
    rw [if_neg he, ih, cons_append]
    rw [Option.map_eq_none_iff, find?_eq_none]
    intro x hx; exact h x (by simp [hx])

theorem find_none_iff (m : List (String × β)) (k : String) : find m k = none ↔ k ∉ m.map Prod.fst := by
  unfold find
  rw [Option.map_eq_none_iff, find?_eq_none]
  simp only [beq_iff_eq, mem_map, not_exists, not_and]

theorem find_erase (m : List (String × β)) (k j : String) :
    find (erase m k) j = if j = k then none else find m j := by
  induction m with
  | nil => simp [find, erase]
  | cons e m ih =>
    unfold erase at ih ⊢
    by_cases he : e.1 = k
    · rw [filter_cons_of_neg (by simpa using he), ih]
      by_cases h : j = k
      · simp [h]
      · rw [if_neg h, if_neg h]
        unfold find
        rw [find?_cons_of_neg (by rw [he]; simpa using Ne.symm h)]
    · rw [filter_cons_of_pos (by simpa using he)]
      unfold find at ih ⊢
      by_cases h : e.1 = j
      · have : ¬ j = k := fun e' => he (h.trans e')
        simp [h, this]
      · rw [find?_cons_of_neg (by simpa using h), ih]
        by_cases h2 : j = k
        · simp [h2]
        · rw [if_neg h2, if_neg h2, find?_cons_of_neg (by simpa using h)]

theorem find_mem {m : List (String × β)} {k : String} {v : β} (h : find m k = some v) : (k, v) ∈ m := by
  unfold find at h
  rw [Option.map_eq_some_iff] at h
  obtain ⟨e, he, rfl⟩ := h
  have h1 := find?_some he
  have h2 := mem_of_find?_eq_some he
  simp at h1; subst h1; exact h2

theorem mem_find {m : List (String × β)} (hn : (m.map Prod.fst).Nodup) {k : String} {v : β} (h : (k, v) ∈ m) :
    find m k = some v := by
  induction m with
  | nil => cases h
  | cons e m ih =>
    simp only [map_cons, nodup_cons] at hn
    rcases mem_cons.1 h with rfl | h
    · simp [find]
    · have : e.1 ≠ k := by
        rintro rfl
        exact hn.1 (mem_map.2 ⟨_, h, rfl⟩)
      unfold find at ih ⊢
      rw [find?_cons_of_neg (by simpa using this)]
      exact ih hn.2 h

end maps

/-! ### C20 -/

/-- ids are the positions of the insertions; the container and data type ids likewise -/
structure PInv (s : PortManager) : Prop where
  ids : s.ports.map (fun e => e.2.id) = range s.ports.length
  names : (s.ports.map Prod.fst).Nodup
  cids : s.containers.map Prod.snd = range s.containers.length
  cnames : (s.containers.map Prod.fst).Nodup
  dids : s.datatypes.map Prod.snd = range s.datatypes.length
  dnames : (s.datatypes.map Prod.fst).Nodup
  used : ∀ n i, find s.ports n = some i →
    (find s.containers i.container).isSome = true ∧ (find s.datatypes i.datatype).isSome = true

theorem put_ids (m : List (String × Nat)) (k : String) (h : find m k = none)
    (h1 : m.map Prod.snd = range m.length) (h2 : (m.map Prod.fst).Nodup) :
    (put m k m.length).map Prod.snd = range (put m k m.length).length ∧
    ((put m k m.length).map Prod.fst).Nodup := by
  rw [put_new m k _ h]
  constructor
  · simp [h1, range_succ]
  · rw [find_none_iff] at h
    rw [map_append, nodup_append]
    refine ⟨h2, by simp, ?_⟩
    intro a ha b hb
    simp at hb; subst hb
    intro e; subst e; exact h ha

theorem addPort_inv {dbg : Bool} {s s' : PortManager} {r : Reg} {x : Nat} (h : PInv s)
    (e : addPort dbg s r = some (s', x)) : PInv s' := by
  unfold addPort at e
  split at e
  · next i hi =>
    split at e
    · cases e
    · simp at e; rw [← e.1]; exact h
  · next hi =>
    simp only [Option.some.injEq, Prod.mk.injEq] at e
    obtain ⟨rfl, _⟩ := e
    have hC : ∀ c, (find (if (find s.containers r.container).isSome = true then s.containers
        else put s.containers r.container s.containers.length) c).isSome =
        (decide (c = r.container) || (find s.containers c).isSome) := by
      intro c
      by_cases hc : (find s.containers r.container).isSome = true
      · rw [if_pos hc]
        by_cases e : c = r.container
        · subst e; simp [hc]
        · simp [e]
      · rw [if_neg hc, find_put]
        by_cases e : c = r.container <;> simp [e]
    have hD : ∀ c, (find (if (find s.datatypes r.datatype).isSome = true then s.datatypes
        else put s.datatypes r.datatype s.datatypes.length) c).isSome =
        (decide (c = r.datatype) || (find s.datatypes c).isSome) := by
      intro c
      by_cases hc : (find s.datatypes r.datatype).isSome = true
      · rw [if_pos hc]
        by_cases e : c = r.datatype
        · subst e; simp [hc]
        · simp [e]
      · rw [if_neg hc, find_put]
        by_cases e : c = r.datatype <;> simp [e]
    have c3 : ∀ (m : List (String × Nat)) (k : String), m.map Prod.snd = range m.length → (m.map Prod.fst).Nodup →
        ((if (find m k).isSome = true then m else put m k m.length).map Prod.snd =
          range (if (find m k).isSome = true then m else put m k m.length).length ∧
        ((if (find m k).isSome = true then m else put m k m.length).map Prod.fst).Nodup) := by
      intro m k h1 h2
      by_cases hc : (find m k).isSome = true
      · simp only [if_pos hc]; exact ⟨h1, h2⟩
      · simp only [if_neg hc]; exact put_ids m k (by simpa using hc) h1 h2
    refine ⟨?_, ?_, (c3 _ _ h.cids h.cnames).1, (c3 _ _ h.cids h.cnames).2, (c3 _ _ h.dids h.dnames).1,
      (c3 _ _ h.dids h.dnames).2, ?_⟩
    · simp only [put_new _ _ _ hi]
      simp [h.ids, range_succ]
    · simp only [put_new _ _ _ hi]
      rw [map_append, nodup_append]
      refine ⟨h.names, by simp, ?_⟩
      intro a ha b hb
      simp at hb; subst hb
      rintro rfl
      exact (find_none_iff _ _).1 hi ha
    · intro n i hn
      simp only [find_put] at hn
      simp only [hC, hD]
      by_cases e : n = r.name
      · rw [if_pos e] at hn; simp at hn; subst hn; simp
      · rw [if_neg e] at hn
        obtain ⟨h1, h2⟩ := h.used n i hn
        simp [h1, h2]

theorem addPorts_inv {dbg : Bool} : ∀ (rs : List Reg) {s s' : PortManager}, PInv s → addPorts dbg s rs = some s' → PInv s' := by
  intro rs
  induction rs with
  | nil => intro s s' h e; simp [addPorts] at e; subst e; exact h
  | cons r rs ih =>
    intro s s' h e
    simp only [addPorts, Option.bind_eq_some_iff] at e
    obtain ⟨p, e1, e2⟩ := e
    exact ih (addPort_inv h e1) e2

theorem pinv_empty : PInv PortManager.empty := by
  constructor <;> simp [PortManager.empty, find]

theorem addPort_find {dbg : Bool} {s s' : PortManager} {r : Reg} {x : Nat} (e : addPort dbg s r = some (s', x)) (n : String) :
    (n ≠ r.name → find s'.ports n = find s.ports n) ∧
    (∀ i, find s.ports n = some i → find s'.ports n = some i) ∧
    (find s.ports r.name = none → find s'.ports r.name = some ⟨s.ports.length, r.container, r.datatype, r.file⟩) ∧
    (∃ i, find s'.ports r.name = some i ∧ i.id = x) := by
  unfold addPort at e
  split at e
  · next i hi =>
    split at e
    · cases e
    · simp at e
      obtain ⟨rfl, rfl⟩ := e
      exact ⟨fun _ => rfl, fun _ h => h, fun h => (by rw [hi] at h; cases h), i, hi, rfl⟩
  · next hi =>
    simp only [Option.some.injEq, Prod.mk.injEq] at e
    obtain ⟨rfl, rfl⟩ := e
    simp only [find_put]
    refine ⟨fun h => by rw [if_neg h], fun i h => ?_, fun _ => (by simp), ⟨s.ports.length, r.container, r.datatype, r.file⟩, by simp, rfl⟩
    by_cases h' : n = r.name
    · subst h'; rw [hi] at h; cases h
    · rw [if_neg h']; exact h

/-- C20: after any sequence of registrations (in either build), ids are exactly `0 … n-1`, one per
registered name. -/
theorem C20_ids (dbg : Bool) (rs : List Reg) (s : PortManager) (h : addPorts dbg PortManager.empty rs = some s) :
    (∀ n i, find s.ports n = some i → i.id < s.ports.length) ∧
    (∀ n n' i i', find s.ports n = some i → find s.ports n' = some i' → i.id = i'.id → n = n') ∧
    (∀ k, k < s.ports.length → ∃ n i, find s.ports n = some i ∧ i.id = k) ∧
    (∀ n, containsPort s n = true ↔ ∃ r ∈ rs, r.name = n) := by
  have hi := addPorts_inv rs pinv_empty h
  have key : ∀ n i, find s.ports n = some i → ∃ hk : i.id < s.ports.length, s.ports[i.id] = (n, i) := by
    intro n i hn
    have hm := find_mem hn
    obtain ⟨j, hj, e⟩ := getElem_of_mem hm
    have := congrArg (fun l => l[j]?) hi.ids
    simp only [getElem?_map, getElem?_eq_getElem hj, e, Option.map_some, getElem?_range hj, Option.some.injEq] at this
    subst this
    exact ⟨hj, e⟩
  refine ⟨fun n i hn => (key n i hn).1, ?_, ?_, ?_⟩
  · intro n n' i i' hn hn' e
    obtain ⟨h1, h2⟩ := key n i hn
    obtain ⟨h3, h4⟩ := key n' i' hn'
    have : (n, i) = (n', i') := by
      rw [← h2, ← h4]; simp [e]
    simp at this; exact this.1
  · intro k hk
    refine ⟨s.ports[k].1, s.ports[k].2, mem_find hi.names (getElem_mem hk), ?_⟩
    have := congrArg (fun l => l[k]?) hi.ids
    simpa [getElem?_map, getElem?_eq_getElem hk, getElem?_range hk] using this
  · -- domain
    have dom : ∀ (rs : List Reg) (s0 s1 : PortManager), addPorts dbg s0 rs = some s1 →
        ∀ n, containsPort s1 n = true ↔ containsPort s0 n = true ∨ ∃ r ∈ rs, r.name = n := by
      intro rs
      induction rs with
      | nil => intro s0 s1 e n; simp [addPorts] at e; subst e; simp
      | cons r rs ih =>
        intro s0 s1 e n
        simp only [addPorts, Option.bind_eq_some_iff] at e
        obtain ⟨⟨p, x⟩, e1, e2⟩ := e
        rw [ih _ _ e2 n]
        obtain ⟨f1, f2, _, i, f3, _⟩ := addPort_find e1 n
        have : containsPort p n = true ↔ containsPort s0 n = true ∨ r.name = n := by
          unfold containsPort
          by_cases hn : n = r.name
          · subst hn; simp [f3]
          · rw [f1 hn]; simp [Ne.symm hn]
        rw [this]
        simp [or_assoc]
    intro n
    rw [dom rs _ _ h n]
    simp [containsPort, PortManager.empty, find]

/-- C20: what is known about a registered port never changes afterwards. -/
theorem C20_stable (dbg : Bool) : ∀ (rs : List Reg) (s s' : PortManager), addPorts dbg s rs = some s' →
    ∀ n i, find s.ports n = some i → find s'.ports n = some i := by
  intro rs
  induction rs with
  | nil => intro s s' e n i h; simp [addPorts] at e; subst e; exact h
  | cons r rs ih =>
    intro s s' e n i h
    simp only [addPorts, Option.bind_eq_some_iff] at e
    obtain ⟨⟨p, x⟩, e1, e2⟩ := e
    exact ih _ _ e2 n i ((addPort_find e1 n).2.1 i h)

/-- C20: a port keeps the container, data type and file of its first registration. -/
theorem C20_first_registration (dbg : Bool) (rs : List Reg) (s : PortManager)
    (h : addPorts dbg PortManager.empty rs = some s) (n : String) (i : InfoPort) (hn : find s.ports n = some i) :
    ∃ pre r post, rs = pre ++ r :: post ∧ r.name = n ∧ (∀ q ∈ pre, q.name ≠ n) ∧
      i.container = r.container ∧ i.datatype = r.datatype ∧ i.file = r.file := by
  have key : ∀ (rs : List Reg) (s0 : PortManager), addPorts dbg s0 rs = some s → find s0.ports n = none →
      ∃ pre r post, rs = pre ++ r :: post ∧ r.name = n ∧ (∀ q ∈ pre, q.name ≠ n) ∧
      i.container = r.container ∧ i.datatype = r.datatype ∧ i.file = r.file := by
    intro rs
    induction rs with
    | nil => intro s0 e h0; simp [addPorts] at e; subst e; rw [hn] at h0; cases h0
    | cons r rs ih =>
      intro s0 e h0
      simp only [addPorts, Option.bind_eq_some_iff] at e
      obtain ⟨⟨p, x⟩, e1, e2⟩ := e
      by_cases hr : r.name = n
      · subst hr
        have h1 := (addPort_find e1 r.name).2.2.1 h0
        have h2 := C20_stable dbg rs _ _ e2 _ _ h1
        rw [hn] at h2; simp at h2; subst h2
        exact ⟨[], r, rs, rfl, rfl, by simp, rfl, rfl, rfl⟩
      · have h1 : find p.ports n = none := by rw [(addPort_find e1 n).1 (Ne.symm hr)]; exact h0
        obtain ⟨pre, q, post, h3, h4, h5, h6⟩ := ih _ e2 h1
        exact ⟨r :: pre, q, post, by rw [h3]; rfl, h4, by
          intro y hy
          rcases mem_cons.1 hy with rfl | hy
          · exact hr
          · exact h5 y hy, h6⟩
  exact key rs _ h (by simp [PortManager.empty, find])

/-- C20: a registration returns the id of the port; repeating one with the same types changes nothing;
one with other types stops a debug build and is ignored by a release build. -/
theorem C20_registration_result (dbg : Bool) (s : PortManager) (r : Reg) :
    (∀ s' x, addPort dbg s r = some (s', x) → ∃ i, find s'.ports r.name = some i ∧ i.id = x) ∧
    (∀ i, find s.ports r.name = some i → i.container = r.container → i.datatype = r.datatype →
      addPort dbg s r = some (s, i.id)) ∧
    (∀ i, find s.ports r.name = some i → (i.container ≠ r.container ∨ i.datatype ≠ r.datatype) →
      addPort dbg s r = if dbg then none else some (s, i.id)) := by
  refine ⟨fun s' x e => (addPort_find e r.name).2.2.2, ?_, ?_⟩
  · intro i hi h1 h2
    simp [addPort, hi, h1, h2]
  · intro i hi h
    have : (i.container != r.container || i.datatype != r.datatype) = true := by
      rcases h with h | h
      · simp [h]
      · simp [h]
    simp only [addPort, hi, this, Bool.true_and]

/-- container and data type ids are also distinct and consecutive, and every registered port's container
and data type are listed -/
theorem C20_types_listed (dbg : Bool) (rs : List Reg) (s : PortManager)
    (h : addPorts dbg PortManager.empty rs = some s) :
    s.containers.map Prod.snd = range s.containers.length ∧ s.datatypes.map Prod.snd = range s.datatypes.length ∧
    (s.containers.map Prod.fst).Nodup ∧ (s.datatypes.map Prod.fst).Nodup ∧
    (∀ n i, find s.ports n = some i →
      (find s.containers i.container).isSome = true ∧ (find s.datatypes i.datatype).isSome = true) := by
  have hi := addPorts_inv rs pinv_empty h
  exact ⟨hi.cids, hi.dids, hi.cnames, hi.dnames, hi.used⟩

/-- a run with a repeated and a conflicting registration -/
def demoRegs : List Reg :=
  [⟨"M_GEOM", "MC_SCALAR", "MD_MIMMO_", "a"⟩, ⟨"M_FILTER", "MC_SCALAR", "MD_MPVECFLOAT_", "b"⟩,
   ⟨"M_GEOM", "MC_SCALAR", "MD_MIMMO_", "c"⟩, ⟨"M_GEOM", "MC_VECTOR", "MD_MIMMO_", "d"⟩]

example : ∃ s, addPorts false PortManager.empty demoRegs = some s ∧ s.ports.length = 2 := ⟨_, rfl, rfl⟩
example : addPorts true PortManager.empty demoRegs = none := by decide
example : ∃ s, addPorts true PortManager.empty (demoRegs.take 3) = some s ∧
    (find s.ports "M_GEOM").map InfoPort.file = some "a" := ⟨_, rfl, rfl⟩

/-! ### C52: queries leave the registry alone -/

/-- C52 is false in a release build: asking for the data of an unregistered port registers it, with the
id of another port. -/
theorem C52_lookup_registers_fails :
    ∃ (s s' : PortManager) (i j : InfoPort), (∃ rs, addPorts false PortManager.empty rs = some s) ∧
      getPortData false s "M_NEW" = some (s', i) ∧ containsPort s "M_NEW" = false ∧ containsPort s' "M_NEW" = true ∧
      find s'.ports "M_GEOM" = some j ∧ i.id = j.id :=
  ⟨_, _, _, _, ⟨demoRegs.take 1, rfl⟩, rfl, by decide, by decide, rfl, rfl⟩

/-- C52, partial (full statement: for every name): asking for the data of a registered port returns its
record and changes nothing; in a debug build, asking for an unregistered one stops the program. -/
theorem C52_lookup_partial (dbg : Bool) (s : PortManager) (n : String) :
    (∀ i, find s.ports n = some i → getPortData dbg s n = some (s, i)) ∧
    (containsPort s n = false → getPortData true s n = none) := by
  constructor
  · intro i h; simp [getPortData, h]
  · intro h
    have : find s.ports n = none := by simpa [containsPort] using h
    simp [getPortData, this]

example : ∃ s, addPorts true PortManager.empty (demoRegs.take 2) = some s ∧ (find s.ports "M_GEOM").isSome = true :=
  ⟨_, rfl, rfl⟩

/-! ### C21 -/

/-- the abstract map: which creator a name stands for after a history -/
def meaning : List FOp → String → Option Nat
  | [], _ => none
  | ops, n =>
    match ops.reverse.find? (fun op => match op with | .add m _ => m == n | .remove m => m == n) with
    | some (.add _ c) => some c
    | _ => none

/-- creators are handed over once each -/
def FreshCreators (ops : List FOp) : Prop :=
  (ops.filterMap (fun op => match op with | .add _ c => some c | .remove _ => none)).Nodup

theorem meaning_concat (ops : List FOp) (op : FOp) (n : String) :
    meaning (ops ++ [op]) n = match op with
      | .add m c => if m = n then some c else meaning ops n
      | .remove m => if m = n then none else meaning ops n := by
  have h : ∀ l : List FOp, meaning l n =
      match l.reverse.find? (fun op => match op with | .add m _ => m == n | .remove m => m == n) with
      | some (.add _ c) => some c | _ => none := by
    intro l; cases l <;> rfl
  rw [h, h]
  rw [reverse_append]
  cases op with
  | add m c =>
    by_cases e : m = n
    · simp [e]
    · have : (m == n) = false := by simpa using e
      simp [e, this]
  | remove m =>
    by_cases e : m = n
    · simp [e]
    · have : (m == n) = false := by simpa using e
      simp [e, this]

def added (ops : List FOp) : List Nat := ops.filterMap (fun op => match op with | .add _ c => some c | .remove _ => none)

structure FInv (ops : List FOp) (f : Factory) : Prop where
  map : ∀ n, find f.creators n = meaning ops n
  names : (f.creators.map Prod.fst).Nodup
  known : ∀ n c, find f.creators n = some c → c ∈ added ops ∧ c ∉ f.freed
  inj : ∀ n n' c, find f.creators n = some c → find f.creators n' = some c → n = n'
  freed : ∀ c ∈ f.freed, c ∈ added ops
  nd : f.freed.Nodup

theorem names_erase {β} (m : List (String × β)) (k : String) (h : (m.map Prod.fst).Nodup) :
    ((erase m k).map Prod.fst).Nodup := by
  unfold erase
  exact (filter_sublist.map Prod.fst).nodup h

theorem names_put {β} (m : List (String × β)) (k : String) (v : β) (h : (m.map Prod.fst).Nodup)
    (hk : find m k = none) : ((put m k v).map Prod.fst).Nodup := by
  rw [put_new m k v hk, map_append, nodup_append]
  refine ⟨h, by simp, ?_⟩
  intro a ha b hb
  simp at hb; subst hb
  rintro rfl
  exact (find_none_iff _ _).1 hk ha

theorem remove_inv {ops f} (h : FInv ops f) (n : String) :
    ∃ f', removeCreator f n = some f' ∧ FInv (ops ++ [.remove n]) f' ∧
      (∀ c ∈ f'.freed, c ∈ added ops) := by
  have ha : added (ops ++ [.remove n]) = added ops := by simp [added]
  unfold removeCreator
  cases hf : find f.creators n with
  | none =>
    refine ⟨f, rfl, ⟨?_, h.names, ?_, h.inj, ?_, h.nd⟩, h.freed⟩
    · intro m
      rw [meaning_concat]
      simp only
      split
      · next e => subst e; exact hf
      · exact h.map m
    · rw [ha]; exact h.known
    · rw [ha]; exact h.freed
  | some c =>
    obtain ⟨k1, k2⟩ := h.known n c hf
    refine ⟨_, by simp [k2]; rfl, ⟨?_, names_erase _ _ h.names, ?_, ?_, ?_, ?_⟩, ?_⟩
    · intro m
      rw [meaning_concat]
      simp only [find_erase]
      by_cases e : m = n
      · simp [e]
      · rw [if_neg e, if_neg (Ne.symm e)]; exact h.map m
    · intro m d hm
      simp only [find_erase] at hm
      by_cases e : m = n
      · rw [if_pos e] at hm; cases hm
      · rw [if_neg e] at hm
        rw [ha]
        refine ⟨(h.known m d hm).1, ?_⟩
        simp only [mem_cons, not_or]
        refine ⟨?_, (h.known m d hm).2⟩
        rintro rfl
        exact e (h.inj _ _ _ hm hf)
    · intro m m' d h1 h2
      simp only [find_erase] at h1 h2
      split at h1
      · cases h1
      · split at h2
        · cases h2
        · exact h.inj _ _ _ h1 h2
    · intro d hd
      rw [ha]
      rcases mem_cons.1 hd with rfl | hd
      · exact k1
      · exact h.freed d hd
    · exact nodup_cons.2 ⟨k2, h.nd⟩
    · intro d hd
      rcases mem_cons.1 hd with rfl | hd
      · exact k1
      · exact h.freed d hd

theorem removeCreator_find {f f' : Factory} {n : String} (e : removeCreator f n = some f') :
    find f'.creators n = none := by
  unfold removeCreator at e
  split at e
  · next h => simp at e; subst e; exact h
  · split at e
    · cases e
    · simp at e; subst e; simp [find_erase]

theorem add_inv {ops f} (h : FInv ops f) (n : String) (c : Nat) (hc : c ∉ added ops) :
    ∃ f' x, addCreator f n c = some (f', x) ∧ FInv (ops ++ [.add n c]) f' := by
  obtain ⟨f1, e1, h1, hfr⟩ := remove_inv h n
  have hn := removeCreator_find e1
  have ha : added (ops ++ [.add n c]) = added ops ++ [c] := by simp [added]
  have ha1 : added (ops ++ [.remove n]) = added ops := by simp [added]
  refine ⟨_, _, by unfold addCreator; rw [e1]; rfl, ?_⟩
  have hother : ∀ m, m ≠ n → find f1.creators m = meaning ops m := by
    intro m hm
    rw [h1.map m, meaning_concat]
    simp [Ne.symm hm]
  refine ⟨?_, names_put _ _ _ h1.names hn, ?_, ?_, ?_, h1.nd⟩
  · intro m
    rw [meaning_concat]
    simp only [find_put]
    by_cases e : m = n
    · simp [e]
    · rw [if_neg e, if_neg (Ne.symm e)]; exact hother m e
  · intro m d hm
    simp only [find_put] at hm
    rw [ha]
    by_cases e : m = n
    · rw [if_pos e] at hm; simp at hm; subst hm
      exact ⟨by simp, fun hd => hc (hfr _ hd)⟩
    · rw [if_neg e] at hm
      have := h1.known m d hm
      rw [ha1] at this
      exact ⟨by simp [this.1], this.2⟩
  · intro m m' d hm hm'
    simp only [find_put] at hm hm'
    by_cases e : m = n <;> by_cases e' : m' = n
    · rw [e, e']
    · rw [if_pos e] at hm; rw [if_neg e'] at hm'
      simp at hm; subst hm
      have := (h1.known m' c hm').1
      rw [ha1] at this; exact absurd this hc
    · rw [if_neg e] at hm; rw [if_pos e'] at hm'
      simp at hm'; subst hm'
      have := (h1.known m c hm).1
      rw [ha1] at this; exact absurd this hc
    · rw [if_neg e] at hm; rw [if_neg e'] at hm'
      exact h1.inj _ _ _ hm hm'
  · intro d hd
    rw [ha]
    exact mem_append_left _ (hfr d hd)

theorem frun_inv : ∀ (ops' ops : List FOp) (f : Factory), FInv ops f → (added (ops ++ ops')).Nodup →
    ∃ f', frun f ops' = some f' ∧ FInv (ops ++ ops') f' := by
  intro ops'
  induction ops' with
  | nil => intro ops f h _; exact ⟨f, rfl, by simpa using h⟩
  | cons op ops' ih =>
    intro ops f h hn
    have step : ∃ f1, fstep f op = some f1 ∧ FInv (ops ++ [op]) f1 := by
      cases op with
      | add n c =>
        have : c ∉ added ops := by
          unfold added at hn ⊢
          rw [filterMap_append, nodup_append] at hn
          intro hm
          exact hn.2.2 c hm c (by simp) rfl
        obtain ⟨f1, x, e, hf⟩ := add_inv h n c this
        exact ⟨f1, by simp [fstep, e], hf⟩
      | remove n =>
        obtain ⟨f1, e, hf, _⟩ := remove_inv h n
        exact ⟨f1, e, hf⟩
    obtain ⟨f1, e1, h1⟩ := step
    obtain ⟨f', e2, h2⟩ := ih (ops ++ [op]) f1 h1 (by simpa using hn)
    exact ⟨f', by simp [frun, e1, e2], by simpa using h2⟩

theorem finv_empty : FInv [] Factory.empty := by
  constructor <;> simp [Factory.empty, find, meaning]

/-- C21: after any history of registrations (each with its own creator object) and removals, `create` runs
the creator most recently registered under the name and not removed since — returning null exactly when
there is none — never touching a deleted creator; the listing is exactly the set of names with a creator,
without repetitions; creators are deleted at most once. -/
theorem C21_factory_is_a_map (ops : List FOp) (h : FreshCreators ops) :
    ∃ f, frun Factory.empty ops = some f ∧ (∀ n, createWith f n = some (meaning ops n)) ∧
      (∀ n, n ∈ registeredBlocks f ↔ meaning ops n ≠ none) ∧ (registeredBlocks f).Nodup ∧ f.freed.Nodup := by
  obtain ⟨f, e, hi⟩ := frun_inv ops [] Factory.empty finv_empty (by rw [nil_append]; exact h)
  rw [nil_append] at hi
  refine ⟨f, e, ?_, ?_, hi.names, hi.nd⟩
  · intro n
    unfold createWith
    rw [← hi.map n]
    cases hf : find f.creators n with
    | none => rfl
    | some c => simp [(hi.known n c hf).2]
  · intro n
    rw [← hi.map n]
    have := find_none_iff f.creators n
    unfold registeredBlocks
    constructor
    · intro hm hnone; exact (this.1 hnone) hm
    · intro hne
      exact Classical.byContradiction fun hm => hne (this.2 hm)

def demoF : List FOp := [.add "mimmo.A" 1, .add "mimmo.B" 2, .add "mimmo.A" 3, .remove "mimmo.B"]

example : FreshCreators demoF ∧ meaning demoF "mimmo.A" = some 3 ∧ meaning demoF "mimmo.B" = none := by
  refine ⟨by unfold FreshCreators; decide, by decide, by decide⟩

/-- the premise is needed: registering the same creator object twice under a name leaves a deleted creator
in the list -/
theorem C21_same_creator_twice_fails :
    ∃ f, frun Factory.empty [.add "mimmo.A" 1, .add "mimmo.A" 1] = some f ∧ createWith f "mimmo.A" = none :=
  ⟨_, rfl, by decide⟩

/-! ### C53: the count returned by a registration -/

/-- C53 is false: the returned number is not the number of registered creators, already at the first
registration. -/
theorem C53_returned_count_fails : ∃ f x, addCreator Factory.empty "mimmo.A" 1 = some (f, x) ∧
    x ≠ (registeredBlocks f).length := ⟨_, _, rfl, by decide⟩

/-- C53, partial (full statement: the returned number is the number of registered creators): it is always
that number plus one. -/
theorem C53_returned_count_partial (f f' : Factory) (n : String) (c x : Nat) (h : addCreator f n c = some (f', x)) :
    x = (registeredBlocks f').length + 1 := by
  unfold addCreator at h
  rw [Option.map_eq_some_iff] at h
  obtain ⟨f1, _, h⟩ := h
  simp only [Prod.mk.injEq] at h
  rw [← h.1, ← h.2]
  simp [registeredBlocks]

example : ∃ f x, addCreator ⟨[("mimmo.A", 1)], []⟩ "mimmo.A" 2 = some (f, x) ∧ x = 2 := ⟨_, _, rfl, rfl⟩

/-! ### C51: creating ports in a block -/

/-- C51 for output ports: accepted exactly when the name is registered and not yet an output port of the
block; an accepted port has the registered types; everything else in the block is unchanged. -/
theorem C51_createPortOut (s : PortManager) (b : BlockPorts) (n : String) :
    ((createPortOut s b n).2 = true ↔ containsPort s n = true ∧ find b.out n = none) ∧
    ((createPortOut s b n).2 = false → (createPortOut s b n).1 = b) ∧
    ((createPortOut s b n).2 = true → (createPortOut s b n).1.inn = b.inn ∧
      ∃ i, find s.ports n = some i ∧ ∀ m, find (createPortOut s b n).1.out m =
        if m = n then some (i.container, i.datatype) else find b.out m) := by
  unfold createPortOut containsPort
  cases hs : find s.ports n with
  | none => simp
  | some i =>
    cases hb : find b.out n with
    | none => simp [find_put]
    | some t => simp

/-- C51 is false for input ports: an existing input port is silently replaced, and a name used by an
output port is refused. -/
theorem C51_createPortIn_fails :
    ∃ s, addPorts true PortManager.empty (demoRegs.take 1) = some s ∧
      (∃ b, (find b.inn "M_GEOM").isSome = true ∧ (createPortIn s b "M_GEOM").2 = true ∧
        find (createPortIn s b "M_GEOM").1.inn "M_GEOM" ≠ find b.inn "M_GEOM") ∧
      (∃ b, find b.inn "M_GEOM" = none ∧ (createPortIn s b "M_GEOM").2 = false) :=
  ⟨_, rfl, ⟨⟨[], [("M_GEOM", ("MC_VECTOR", "MD_INT"))]⟩, by decide, by decide, by decide⟩,
    ⟨⟨[("M_GEOM", ("MC_SCALAR", "MD_MIMMO_"))], []⟩, by decide, by decide⟩⟩

/-- C51, partial for input ports (full statement: accepted exactly when the name is registered and not yet
an input port): exact when the block has no port at all of that name. -/
theorem C51_createPortIn_partial (s : PortManager) (b : BlockPorts) (n : String)
    (h1 : find b.out n = none) (h2 : find b.inn n = none) :
    ((createPortIn s b n).2 = true ↔ containsPort s n = true) ∧
    ((createPortIn s b n).2 = false → (createPortIn s b n).1 = b) ∧
    ((createPortIn s b n).2 = true → (createPortIn s b n).1.out = b.out ∧
      ∃ i, find s.ports n = some i ∧ ∀ m, find (createPortIn s b n).1.inn m =
        if m = n then some (i.container, i.datatype) else find b.inn m) := by
  unfold createPortIn containsPort
  cases hs : find s.ports n with
  | none => simp
  | some i => simp [find_put, h1]

example : find (⟨[], []⟩ : BlockPorts).out "M_GEOM" = none := rfl

end Verif.Registry
