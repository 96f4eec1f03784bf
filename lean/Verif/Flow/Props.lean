import Verif.Flow.Model
import Verif.Pin.Props
/-
Property theorems: mandatory ports (C14), data flow (C15), independence of the order (C50).
-/
namespace Verif.Flow
open Verif.Pin List

/-! ### C14 -/

/-- specification of the mandatory-port rule: every mandatory port of family 0 is linked, and every
other family that has mandatory ports has at least one of them linked -/
def MandatoryOk (ports : List InPort) : Prop :=
  (∀ p ∈ ports, p.mandatory = true → p.family = 0 → p.links ≠ 0) ∧
  (∀ p ∈ ports, p.mandatory = true → p.family ≠ 0 →
    ∃ q ∈ ports, q.mandatory = true ∧ q.family = p.family ∧ q.links ≠ 0)

theorem mem_pushFam (f : Int) (p : InPort) : ∀ (t : List (Int × List InPort)) (g : Int) (ps : List InPort),
    t.Pairwise (fun a b => a.1 < b.1) →
    ((g, ps) ∈ pushFam f p t ↔
      if g = f then (∃ qs, (g, qs) ∈ t ∧ ps = qs ++ [p]) ∨ ((∀ qs, (g, qs) ∉ t) ∧ ps = [p])
      else (g, ps) ∈ t) := by
  intro t
  induction t with
  | nil =>
    intro g ps _
    simp only [pushFam, mem_singleton, Prod.mk.injEq, not_mem_nil, not_false_iff, implies_true, true_and, false_and, exists_false, false_or]
    split
    · next h => simp [h]
    · next h => simp [h]
  | cons e t ih =>
    intro g ps hs
    obtain ⟨g', ps'⟩ := e
    rw [pairwise_cons] at hs
    have ihh := ih g ps hs.2
    have hlt : ∀ qs, (g, qs) ∈ t → g' < g := fun qs hq => hs.1 _ hq
    unfold pushFam
    split
    · next h1 =>
      simp only [mem_cons, Prod.mk.injEq]
      split
      · next h2 =>
        subst h2
        constructor
        · rintro (h | h | h)
          · right
            refine ⟨?_, h.2⟩
            rintro qs (hq | hq)
            · omega
            · have := hlt _ hq; omega
          · omega
          · have := hlt _ h; omega
        · rintro (⟨qs, (hq | hq), _⟩ | ⟨_, h⟩)
          · omega
          · have := hlt _ hq; omega
          · exact Or.inl ⟨rfl, h⟩
      · next h2 => simp [h2]
    · next h1 =>
      split
      · next h2 =>
        subst h2
        simp only [mem_cons, Prod.mk.injEq]
        split
        · next h3 =>
          subst h3
          constructor
          · rintro (h | h)
            · exact Or.inl ⟨ps', Or.inl ⟨rfl, rfl⟩, h.2⟩
            · have := hlt _ h; omega
          · rintro (⟨qs, (hq | hq), h⟩ | ⟨h, _⟩)
            · left; rw [h, hq.2]; exact ⟨rfl, rfl⟩
            · have := hlt _ hq; omega
            · exact absurd (Or.inl ⟨rfl, rfl⟩) (h ps')
        · next h3 => simp [h3]
      · next h2 =>
        simp only [mem_cons, Prod.mk.injEq, ihh]
        split
        · next h3 =>
          subst h3
          have hne : ¬ g = g' := h2
          simp [hne]
        · rfl

theorem pushFam_sorted (f : Int) (p : InPort) : ∀ (t : List (Int × List InPort)),
    t.Pairwise (fun a b => a.1 < b.1) → (pushFam f p t).Pairwise (fun a b => a.1 < b.1) := by
  intro t
  induction t with
  | nil => intro _; simp [pushFam]
  | cons e t ih =>
    intro hs
    obtain ⟨g', ps'⟩ := e
    have hs' := hs
    rw [pairwise_cons] at hs
    unfold pushFam
    split
    · next h1 =>
      rw [pairwise_cons]
      refine ⟨?_, hs'⟩
      intro a ha
      rcases mem_cons.1 ha with rfl | ha
      · exact h1
      · have := hs.1 a ha; simp only at this ⊢; omega
    · split
      · rw [pairwise_cons]; exact hs
      · next h1 h2 =>
        rw [pairwise_cons]
        refine ⟨?_, ih hs.2⟩
        rintro ⟨g, ps⟩ ha
        rw [mem_pushFam f p t g ps hs.2] at ha
        simp only
        split at ha
        · omega
        · exact hs.1 _ ha

theorem families_spec (ports : List InPort) :
    (families ports).Pairwise (fun a b => a.1 < b.1) ∧
    ∀ g ps, (g, ps) ∈ families ports ↔
      ps = ports.filter (fun p => p.mandatory && decide (p.family = g)) ∧ ps ≠ [] := by
  unfold families
  suffices ∀ (l done : List InPort) (t : List (Int × List InPort)),
      t.Pairwise (fun a b => a.1 < b.1) →
      (∀ g ps, (g, ps) ∈ t ↔ ps = done.filter (fun p => p.mandatory && decide (p.family = g)) ∧ ps ≠ []) →
      (l.foldl (fun t p => if p.mandatory then pushFam p.family p t else t) t).Pairwise (fun a b => a.1 < b.1) ∧
      ∀ g ps, (g, ps) ∈ l.foldl (fun t p => if p.mandatory then pushFam p.family p t else t) t ↔
        ps = (done ++ l).filter (fun p => p.mandatory && decide (p.family = g)) ∧ ps ≠ [] by
    have := this ports [] [] (by simp) (by simp)
    simpa using this
  intro l
  induction l with
  | nil => intro done t h1 h2; simpa using ⟨h1, h2⟩
  | cons p l ih =>
    intro done t h1 h2
    simp only [foldl_cons]
    have e : done ++ p :: l = (done ++ [p]) ++ l := by simp
    rw [e]
    apply ih
    · split
      · exact pushFam_sorted _ _ _ h1
      · exact h1
    · intro g ps
      split
      · next hm =>
        rw [mem_pushFam _ _ _ _ _ h1, filter_append]
        split
        · next hg =>
          subst hg
          simp only [h2, filter_cons, filter_nil, hm, decide_true, Bool.and_true, if_true]
          constructor
          · rintro (⟨qs, ⟨hq, _⟩, h⟩ | ⟨hn, h⟩)
            · rw [h, hq]; simp
            · have : done.filter (fun q => q.mandatory && decide (q.family = p.family)) = [] := by
                by_cases hnil : done.filter (fun q => q.mandatory && decide (q.family = p.family)) = []
                · exact hnil
                · exact absurd ⟨rfl, hnil⟩ (hn _)
              rw [this, h]; simp
          · rintro ⟨h, _⟩
            by_cases hnil : done.filter (fun q => q.mandatory && decide (q.family = p.family)) = []
            · right
              refine ⟨?_, by rw [h, hnil]; rfl⟩
              rintro qs ⟨hq, hq2⟩
              exact hq2 (hq.trans hnil)
            · exact Or.inl ⟨_, ⟨rfl, hnil⟩, h⟩
        · next hg =>
          rw [h2]
          have : decide (p.family = g) = false := by simp [Ne.symm hg]
          simp [filter_cons, this]
      · next hm => rw [h2, filter_append]; simp [filter_cons, hm]

theorem foldl_or (ps : List InPort) : ∀ c, (ps.foldl (fun c p => c || p.links != 0) c) = true ↔
    c = true ∨ ∃ p ∈ ps, p.links ≠ 0 := by
  induction ps with
  | nil => intro c; simp
  | cons p ps ih =>
    intro c
    rw [foldl_cons, ih]
    simp [or_assoc]

/-- C14: outside expert mode the check passes exactly when the mandatory-port rule holds; in expert
mode it never fails. -/
theorem C14_mandatory_iff (ports : List InPort) :
    (checkMandatory false ports = none ↔ MandatoryOk ports) ∧ checkMandatory true ports = none := by
  refine ⟨?_, rfl⟩
  obtain ⟨_, hf⟩ := families_spec ports
  unfold checkMandatory
  simp only [Bool.false_eq_true, if_false, findSome?_eq_none_iff]
  constructor
  · intro h
    constructor
    · intro p hp hm h0 hl
      have hmem : p ∈ ports.filter (fun q => q.mandatory && decide (q.family = (0 : Int))) := by
        simp [hp, hm, h0]
      have := h (0, _) ((hf 0 _).2 ⟨rfl, ne_nil_of_mem hmem⟩)
      simp only [checkFam, if_true, Option.map_eq_none_iff, find?_eq_none] at this
      exact this p hmem (by simp [hl])
    · intro p hp hm h0
      have hmem : p ∈ ports.filter (fun q => q.mandatory && decide (q.family = p.family)) := by
        simp [hp, hm]
      have := h (p.family, _) ((hf _ _).2 ⟨rfl, ne_nil_of_mem hmem⟩)
      simp only [checkFam, if_neg h0] at this
      split at this
      · next hc =>
        rw [foldl_or] at hc
        rcases hc with hc | ⟨q, hq, hl⟩
        · cases hc
        · obtain ⟨hq1, hq2⟩ := mem_filter.1 hq
          simp at hq2
          exact ⟨q, hq1, hq2.1, hq2.2, hl⟩
      · cases this
  · rintro ⟨h1, h2⟩ ⟨g, ps⟩ hmem
    obtain ⟨rfl, hne⟩ := (hf g ps).1 hmem
    unfold checkFam
    split
    · next hg =>
      simp only at hg
      subst hg
      simp only [Option.map_eq_none_iff, find?_eq_none]
      intro p hp
      obtain ⟨hp1, hp2⟩ := mem_filter.1 hp
      simp at hp2
      simpa using h1 p hp1 hp2.1 hp2.2
    · next hg =>
      simp only at hg
      obtain ⟨p, hp⟩ := exists_mem_of_ne_nil _ hne
      obtain ⟨hp1, hp2⟩ := mem_filter.1 hp
      simp at hp2
      obtain ⟨q, hq1, hq2, hq3, hq4⟩ := h2 p hp1 hp2.1 (by rw [hp2.2]; exact hg)
      rw [if_pos]
      rw [foldl_or]
      right
      exact ⟨q, by simp [hq1, hq2, hq3, hp2.2], hq4⟩

/-- C14, the message: when the check throws, it names an unlinked mandatory port of family 0, or exactly
the mandatory ports (all unlinked) of a non-zero family. -/
theorem C14_error_names_culprit (ports : List InPort) (e : MandErr)
    (h : checkMandatory false ports = some e) :
    (∃ p ∈ ports, p.mandatory = true ∧ p.family = 0 ∧ p.links = 0 ∧ e = .port p.id) ∨
    (∃ f, f ≠ 0 ∧ (ports.filter (fun p => p.mandatory && decide (p.family = f))) ≠ [] ∧
      (∀ p ∈ ports, p.mandatory = true → p.family = f → p.links = 0) ∧
      e = .family ((ports.filter (fun p => p.mandatory && decide (p.family = f))).map InPort.id)) := by
  obtain ⟨_, hf⟩ := families_spec ports
  unfold checkMandatory at h
  simp only [Bool.false_eq_true, if_false] at h
  obtain ⟨⟨g, ps⟩, hmem, hc⟩ := exists_of_findSome?_eq_some h
  obtain ⟨rfl, hne⟩ := (hf g ps).1 hmem
  unfold checkFam at hc
  split at hc
  · next hg =>
    simp only at hg
    subst hg
    left
    obtain ⟨p, hp, rfl⟩ := Option.map_eq_some_iff.1 hc
    have h1 := mem_of_find?_eq_some hp
    have h2 := find?_some hp
    obtain ⟨hp1, hp2⟩ := mem_filter.1 h1
    simp at hp2 h2
    exact ⟨p, hp1, hp2.1, hp2.2, h2, rfl⟩
  · next hg =>
    simp only at hg
    right
    split at hc
    · cases hc
    · next hno =>
      refine ⟨g, hg, hne, ?_, (Option.some.inj hc).symm⟩
      intro p hp hm hfam
      rw [foldl_or] at hno
      rcases Nat.eq_zero_or_pos p.links with h0 | h0
      · exact h0
      · exact absurd (Or.inr ⟨p, by simp [hp, hm, hfam], by omega⟩) hno

example : checkMandatory false [⟨0, true, 0, 1⟩, ⟨1, true, 3, 0⟩, ⟨2, true, 3, 2⟩, ⟨3, false, 0, 0⟩] = none ∧
    checkMandatory false [⟨0, true, 0, 1⟩, ⟨1, true, 3, 0⟩, ⟨2, true, 3, 0⟩] = some (.family [1, 2]) ∧
    checkMandatory false [⟨0, true, 3, 0⟩, ⟨1, true, -1, 1⟩, ⟨2, true, 0, 0⟩] = some (.port 2) := by decide

/-! ### C15 -/

/-- what a block does with its state when its turn comes: a disabled block does nothing -/
def act {S V : Type} (F : Blocks S V) (b : Obj) (x : S) : S := if F.active b then F.execute b x else x

/-- the messages (input port, value) that `b` sends to `r` when `b`'s state is `x`: for each of its
output ports, in order, for each link of that port to `r`, in order -/
def msgs {S V : Type} (F : Blocks S V) (n : Net) (b r : Obj) (x : S) : List (PortId × V) :=
  (F.outs b).flatMap (fun o =>
    ((n.out b o).filter (fun e => e.1 == r)).map (fun e => (e.2, F.get b o x)))

/-- feeding messages to a block -/
def feed {S V : Type} (F : Blocks S V) (r : Obj) (ms : List (PortId × V)) (x : S) : S :=
  ms.foldl (fun x m => F.set r m.1 m.2 x) x

/-- all messages `r` gets from the blocks `objs` when their states are given by `val` -/
def inbox {S V : Type} (F : Blocks S V) (n : Net) (val : Obj → S) (objs : List Obj) (r : Obj) :
    List (PortId × V) :=
  objs.flatMap (fun s => msgs F n s r (val s))

theorem feed_append {S V : Type} (F : Blocks S V) (r : Obj) (a b : List (PortId × V)) (x : S) :
    feed F r (a ++ b) x = feed F r b (feed F r a x) := by simp [feed, foldl_append]

/-- `b` has no connection to itself -/
def NoSelf (n : Net) (b : Obj) : Prop := ∀ o, ∀ e ∈ n.out b o, e.1 ≠ b

theorem sendPort_other {S V : Type} (F : Blocks S V) (n : Net) (b : Obj) (st : Obj → S) (o : PortId) (r : Obj) :
    sendPort F b n st o r =
      feed F r (((n.out b o).filter (fun e => e.1 == r)).map (fun e => (e.2, F.get b o (st b)))) (st r) := by
  unfold sendPort
  generalize F.get b o (st b) = v
  generalize n.out b o = l
  induction l generalizing st with
  | nil => rfl
  | cons e l ih =>
    simp only [foldl_cons]
    rw [ih]
    by_cases he : e.1 = r
    · rw [filter_cons_of_pos (by simp [he]), map_cons]
      simp only [feed, foldl_cons, upd, he, if_true]
    · rw [filter_cons_of_neg (by simp [he])]
      simp only [upd, if_neg (Ne.symm he)]

theorem sendPort_self {S V : Type} (F : Blocks S V) (n : Net) (b : Obj) (st : Obj → S) (o : PortId)
    (hself : NoSelf n b) : sendPort F b n st o b = st b := by
  rw [sendPort_other]
  have : (n.out b o).filter (fun e => e.1 == b) = [] := by
    rw [filter_eq_nil_iff]; intro e he; simpa using hself o e he
  rw [this]; rfl

theorem sendAll {S V : Type} (F : Blocks S V) (n : Net) (b : Obj) (hself : NoSelf n b) (r : Obj) :
    ∀ (os : List PortId) (st : Obj → S),
    (os.foldl (sendPort F b n) st) b = st b ∧
    (os.foldl (sendPort F b n) st) r = feed F r (os.flatMap (fun o =>
      ((n.out b o).filter (fun e => e.1 == r)).map (fun e => (e.2, F.get b o (st b))))) (st r) := by
  intro os
  induction os with
  | nil => intro st; exact ⟨rfl, rfl⟩
  | cons o os ih =>
    intro st
    obtain ⟨h1, h2⟩ := ih (sendPort F b n st o)
    have hs := sendPort_self F n b st o hself
    refine ⟨by rw [foldl_cons, h1, hs], ?_⟩
    rw [foldl_cons, h2, hs, sendPort_other, flatMap_cons, feed_append]

theorem execBlock_spec {S V : Type} (F : Blocks S V) (n : Net) (b : Obj) (hself : NoSelf n b) (st : Obj → S) :
    execBlock F n st b b = act F b (st b) ∧
    ∀ r, r ≠ b → execBlock F n st b r = feed F r (msgs F n b r (act F b (st b))) (st r) := by
  have hst1 : (if F.active b then upd st b (F.execute b (st b)) else st) b = act F b (st b) := by
    unfold act; split <;> simp [upd]
  refine ⟨?_, ?_⟩
  · unfold execBlock
    rw [(sendAll F n b hself b _ _).1]; exact hst1
  · intro r hr
    unfold execBlock msgs
    rw [(sendAll F n b hself r _ _).2, hst1]
    congr 1
    split
    · simp [upd, hr]
    · rfl

theorem run_not_mem {S V : Type} (F : Blocks S V) (n : Net) : ∀ (objs : List Obj) (st : Obj → S) (r : Obj),
    (∀ b ∈ objs, NoSelf n b) → r ∉ objs → objs.Nodup →
    (∀ a ∈ objs, ∀ b ∈ objs, objs.idxOf a ≤ objs.idxOf b → ∀ o, ∀ e ∈ n.out b o, e.1 ≠ a) →
    runChain F n objs st r = feed F r (inbox F n (runChain F n objs st) objs r) (st r) := by
  intro objs
  induction objs with
  | nil => intro st r _ _ _ _; rfl
  | cons b objs ih =>
    intro st r hself hr hnd hord
    rw [nodup_cons] at hnd
    simp only [mem_cons, not_or] at hr
    have hord' : ∀ a ∈ objs, ∀ c ∈ objs, objs.idxOf a ≤ objs.idxOf c → ∀ o, ∀ e ∈ n.out c o, e.1 ≠ a := by
      intro a ha c hc hle
      refine hord a (by simp [ha]) c (by simp [hc]) ?_
      have hab : (b == a) = false := by simp; rintro rfl; exact hnd.1 ha
      have hcb : (b == c) = false := by simp; rintro rfl; exact hnd.1 hc
      simp only [idxOf_cons, hab, hcb, cond_false]; omega
    have hs := execBlock_spec F n b (hself b (by simp)) st
    have ihr := ih (execBlock F n st b) r (fun x hx => hself x (by simp [hx])) hr.2 hnd.2 hord'
    have ihb := ih (execBlock F n st b) b (fun x hx => hself x (by simp [hx])) hnd.1 hnd.2 hord'
    have hrun : runChain F n (b :: objs) st = runChain F n objs (execBlock F n st b) := rfl
    -- nothing is sent to `b` after its turn
    have hfin : runChain F n objs (execBlock F n st b) b = act F b (st b) := by
      rw [ihb, hs.1]
      have : inbox F n (runChain F n objs (execBlock F n st b)) objs b = [] := by
        unfold inbox
        rw [flatMap_eq_nil_iff]
        intro s hsm
        unfold msgs
        rw [flatMap_eq_nil_iff]
        intro o _
        rw [map_eq_nil_iff, filter_eq_nil_iff]
        intro e he
        have := hord b (by simp) s (by simp [hsm]) (by simp [idxOf_cons]) o e he
        simpa using this
      rw [this]; rfl
    rw [hrun, ihr, hs.2 r hr.1]
    unfold inbox
    rw [flatMap_cons, feed_append, hfin]

/-- an ordered chain: no block sends to a block at the same or an earlier position -/
theorem ordered_no_back {n : Net} {pins : List Pin} (h : Agrees n pins) {objs : List Obj}
    (hord : Verif.Chain.Ordered n.graph objs) :
    ∀ (i j : Nat) (a b : Obj), objs[i]? = some a → objs[j]? = some b → i ≤ j →
      ∀ o, ∀ e ∈ n.out b o, e.1 ≠ a := by
  intro i j a b hi hj hle o e he hea
  rw [h.out] at he
  obtain ⟨p, hp, rfl⟩ := mem_map.1 he
  obtain ⟨hp1, hp2⟩ := mem_filter.1 hp
  simp only [Bool.and_eq_true, beq_iff_eq] at hp2
  have hsup : Verif.Chain.Supplies n.graph b a :=
    ((C09_children h b a).1).2 ⟨p, hp1, hp2.1, hea⟩
  have := hord j i b a hj hi hsup
  omega

/-- C15: the data-flow equations.  For a chain in dependency order (the only ones that execute, C03),
from any initial state: just before a block's turn, its state is its initial state fed with the values
produced *in this run* by all its suppliers in the chain (each once per connection, in chain order) and
nothing else; it then acts (not at all if disabled); its state does not change any more afterwards. -/
theorem C15_data_flow {S V : Type} (F : Blocks S V) {n : Net} {pins : List Pin} (h : Agrees n pins)
    (pre post : List Obj) (r : Obj) (hnd : (pre ++ r :: post).Nodup)
    (hord : Verif.Chain.Ordered n.graph (pre ++ r :: post)) (st : Obj → S) :
    let fin := runChain F n (pre ++ r :: post) st
    runChain F n pre st r = feed F r (inbox F n fin (pre ++ r :: post) r) (st r) ∧
    fin r = act F r (runChain F n pre st r) ∧
    inbox F n fin (pre ++ r :: post) r = inbox F n fin pre r := by
  intro fin
  have hback := ordered_no_back h hord
  have hself : ∀ b ∈ pre ++ r :: post, NoSelf n b := by
    intro b hb o e he
    obtain ⟨k, hk⟩ := getElem?_of_mem hb
    exact hback k k b b hk hk (Nat.le_refl _) o e he
  have hidx : ∀ (l : List Obj) (a : Obj), a ∈ l → l[l.idxOf a]? = some a := by
    intro l a ha
    rw [List.getElem?_eq_getElem (idxOf_lt_length_iff.2 ha), getElem_idxOf]
  rw [nodup_append] at hnd
  obtain ⟨hn1, hn2, hn3⟩ := hnd
  rw [nodup_cons] at hn2
  have hrpre : r ∉ pre := fun hm => hn3 r hm r (by simp) rfl
  -- order inside the prefix and the suffix
  have hpre_ord : ∀ a ∈ pre, ∀ b ∈ pre, pre.idxOf a ≤ pre.idxOf b → ∀ o, ∀ e ∈ n.out b o, e.1 ≠ a := by
    intro a ha b hb hle
    have lift : ∀ x ∈ pre, (pre ++ r :: post)[pre.idxOf x]? = some x := by
      intro x hx
      rw [getElem?_append_left (idxOf_lt_length_iff.2 hx)]
      exact hidx _ _ hx
    exact hback _ _ a b (lift a ha) (lift b hb) hle
  have hpost_ord : ∀ a ∈ post, ∀ b ∈ post, post.idxOf a ≤ post.idxOf b → ∀ o, ∀ e ∈ n.out b o, e.1 ≠ a := by
    intro a ha b hb hle
    have lift : ∀ x ∈ post, (pre ++ r :: post)[pre.length + 1 + post.idxOf x]? = some x := by
      intro x hx
      rw [getElem?_append_right (by omega)]
      have : pre.length + 1 + post.idxOf x - pre.length = post.idxOf x + 1 := by omega
      rw [this, getElem?_cons_succ]
      exact hidx _ _ hx
    exact hback _ _ a b (lift a ha) (lift b hb) (by omega)
  have hr_at : (pre ++ r :: post)[pre.length]? = some r := by simp
  have hno_back_r : ∀ s ∈ r :: post, ∀ o, ∀ e ∈ n.out s o, e.1 ≠ r := by
    intro s hs
    rcases mem_cons.1 hs with rfl | hs
    · exact hback _ _ s s hr_at hr_at (Nat.le_refl _)
    · have : (pre ++ r :: post)[pre.length + 1 + post.idxOf s]? = some s := by
        rw [getElem?_append_right (by omega)]
        have : pre.length + 1 + post.idxOf s - pre.length = post.idxOf s + 1 := by omega
        rw [this, getElem?_cons_succ]
        exact hidx _ _ hs
      exact hback _ _ r s hr_at this (by omega)
  have hfin : fin = runChain F n post (execBlock F n (runChain F n pre st) r) := by
    show runChain F n (pre ++ r :: post) st = _
    unfold runChain
    rw [foldl_append, foldl_cons]
  have hempty : ∀ (val : Obj → S) (l : List Obj) (x : Obj), (∀ s ∈ l, ∀ o, ∀ e ∈ n.out s o, e.1 ≠ x) →
      inbox F n val l x = [] := by
    intro val l x hl
    unfold inbox
    rw [flatMap_eq_nil_iff]
    intro s hs
    unfold msgs
    rw [flatMap_eq_nil_iff]
    intro o _
    rw [map_eq_nil_iff, filter_eq_nil_iff]
    intro e he
    simpa using hl s hs o e he
  -- state of members of the prefix does not change after the prefix
  have hstable : ∀ x ∈ pre, fin x = runChain F n pre st x := by
    intro x hx
    have hxr : x ≠ r := fun e => hrpre (e ▸ hx)
    have hxpost : x ∉ post := fun hm => hn3 x hx x (by simp [hm]) rfl
    have hxidx : (pre ++ r :: post)[pre.idxOf x]? = some x := by
      rw [getElem?_append_left (idxOf_lt_length_iff.2 hx)]
      exact hidx _ _ hx
    have hxlt : pre.idxOf x < pre.length := idxOf_lt_length_iff.2 hx
    rw [hfin, run_not_mem F n post _ x (fun b hb => hself b (by simp [hb])) hxpost hn2.2 hpost_ord, hempty]
    · show execBlock F n (runChain F n pre st) r x = _
      rw [(execBlock_spec F n r (hself r (by simp)) _).2 x hxr]
      have : msgs F n r x (act F r (runChain F n pre st r)) = [] := by
        unfold msgs
        rw [flatMap_eq_nil_iff]
        intro o _
        rw [map_eq_nil_iff, filter_eq_nil_iff]
        intro e he
        simpa using hback _ _ x r hxidx hr_at (by omega) o e he
      rw [this]; rfl
    · intro s hs
      have : (pre ++ r :: post)[pre.length + 1 + post.idxOf s]? = some s := by
        rw [getElem?_append_right (by omega)]
        have : pre.length + 1 + post.idxOf s - pre.length = post.idxOf s + 1 := by omega
        rw [this, getElem?_cons_succ]
        exact hidx _ _ hs
      exact hback _ _ x s hxidx this (by omega)
  have hinbox : inbox F n fin (pre ++ r :: post) r = inbox F n fin pre r := by
    unfold inbox
    rw [flatMap_append]
    have := hempty fin (r :: post) r hno_back_r
    unfold inbox at this
    rw [this, append_nil]
  refine ⟨?_, ?_, hinbox⟩
  · rw [run_not_mem F n pre st r (fun b hb => hself b (by simp [hb])) hrpre hn1 hpre_ord, hinbox]
    congr 1
    unfold inbox
    suffices ∀ l : List Obj, (∀ x ∈ l, x ∈ pre) →
        l.flatMap (fun s => msgs F n s r (runChain F n pre st s)) =
        l.flatMap (fun s => msgs F n s r (fin s)) from this pre (fun _ hx => hx)
    intro l
    induction l with
    | nil => intro _; rfl
    | cons x l ihl =>
      intro hl
      rw [flatMap_cons, flatMap_cons, ihl (fun y hy => hl y (by simp [hy])), hstable x (hl x (by simp))]
  · rw [hfin, run_not_mem F n post _ r (fun b hb => hself b (by simp [hb])) hn2.1 hn2.2 hpost_ord,
      hempty _ _ _ (fun s hs => hno_back_r s (by simp [hs]))]
    exact (execBlock_spec F n r (hself r (by simp)) _).1

theorem mem_inbox {S V : Type} (F : Blocks S V) {n : Net} {pins : List Pin} (h : Agrees n pins)
    (val : Obj → S) (objs : List Obj) (r : Obj) (m : PortId × V) :
    m ∈ inbox F n val objs r ↔ ∃ s ∈ objs, ∃ o ∈ F.outs s, (⟨s, o, r, m.1⟩ : Pin) ∈ pins ∧
      m.2 = F.get s o (val s) := by
  unfold inbox msgs
  simp only [mem_flatMap, mem_map, mem_filter, h.out]
  constructor
  · rintro ⟨s, hs, o, ho, e, ⟨⟨p, ⟨hp1, hp2⟩, rfl⟩, he⟩, rfl⟩
    simp only [Bool.and_eq_true, beq_iff_eq] at hp2 he
    refine ⟨s, hs, o, ho, ?_, rfl⟩
    rw [← hp2.1, ← hp2.2, ← he]; exact hp1
  · rintro ⟨s, hs, o, ho, hp, hm⟩
    refine ⟨s, hs, o, ho, (r, m.1), ⟨⟨_, ⟨hp, by simp⟩, rfl⟩, by simp⟩, ?_⟩
    rw [← hm]

theorem flatMap_single {α β : Type} [DecidableEq α] (f : α → List β) (a : α) : ∀ l : List α, l.Nodup → a ∈ l →
    (∀ x ∈ l, x ≠ a → f x = []) → l.flatMap f = f a := by
  intro l
  induction l with
  | nil => intro _ h _; simp at h
  | cons x l ih =>
    intro hnd hm hf
    rw [nodup_cons] at hnd
    rw [flatMap_cons]
    by_cases hx : x = a
    · subst hx
      have : l.flatMap f = [] := by
        rw [flatMap_eq_nil_iff]
        intro y hy
        exact hf y (by simp [hy]) (fun e => hnd.1 (e ▸ hy))
      rw [this, append_nil]
    · rcases mem_cons.1 hm with e | hm
      · exact absurd e.symm hx
      · rw [hf x (by simp) hx, nil_append]
        exact ih hnd.2 hm (fun y hy => hf y (by simp [hy]))

/-- C15, single link: an input port with exactly one connection, from output port `o` of a block `s` of
the chain, receives exactly one value in a run: the one that port produces from the state `s` has after
its turn in this run. -/
theorem C15_single_link {S V : Type} (F : Blocks S V) {n : Net} {pins : List Pin} (h : Agrees n pins)
    (val : Obj → S) (objs : List Obj) (hnd : objs.Nodup) (s r : Obj) (o i : PortId)
    (hlink : pins.filter (fun p => p.r == r && p.i == i) = [⟨s, o, r, i⟩]) (hs : s ∈ objs)
    (ho : o ∈ F.outs s) (hno : (F.outs s).Nodup) :
    (inbox F n val objs r).filter (fun m => m.1 == i) = [(i, F.get s o (val s))] := by
  have hmem : (⟨s, o, r, i⟩ : Pin) ∈ pins := by
    have : (⟨s, o, r, i⟩ : Pin) ∈ pins.filter (fun p => p.r == r && p.i == i) := by rw [hlink]; simp
    exact (mem_filter.1 this).1
  have hport : ∀ s' o' x, (((n.out s' o').filter (fun e => e.1 == r)).map (fun e => (e.2, F.get s' o' x))).filter (fun m => m.1 == i) =
      if s' = s ∧ o' = o then [(i, F.get s' o' x)] else [] := by
    intro s' o' x
    have e1 : ((n.out s' o').filter (fun e => e.1 == r)).filter (fun e => e.2 == i) =
        ((pins.filter (fun p => p.r == r && p.i == i)).filter (fun p => p.s == s' && p.o == o')).map (fun p => (p.r, p.i)) := by
      rw [h.out, filter_filter, filter_map, filter_filter, filter_filter]
      congr 1
      apply filter_congr
      intro p _
      simp only [Function.comp]
      cases (p.s == s') <;> cases (p.o == o') <;> cases (p.r == r) <;> cases (p.i == i) <;> rfl
    rw [filter_map]
    have e2 : ((fun m : PortId × V => m.1 == i) ∘ fun e : Obj × PortId => (e.2, F.get s' o' x)) = fun e => e.2 == i := rfl
    rw [e2, e1, hlink]
    split
    · next hc => rw [hc.1, hc.2]; simp
    · next hc =>
      rw [filter_cons_of_neg]
      · rfl
      · simp only [Bool.and_eq_true, beq_iff_eq]
        rintro ⟨a, b⟩; exact hc ⟨a.symm, b.symm⟩
  have hfm : ∀ {α : Type} (f : α → List (PortId × V)) (l : List α), (l.flatMap f).filter (fun m => m.1 == i) = l.flatMap (fun a => (f a).filter (fun m => m.1 == i)) := by
    intro α f l
    rw [filter_flatMap]
  unfold inbox
  rw [hfm, flatMap_single _ s objs hnd hs]
  · unfold msgs
    rw [hfm, flatMap_single _ o (F.outs s) hno ho]
    · rw [hport, if_pos ⟨rfl, rfl⟩]
    · intro o' _ hne
      rw [hport, if_neg (fun hc => hne hc.2)]
  · intro s' _ hne
    unfold msgs
    rw [hfm, flatMap_eq_nil_iff]
    intro o' _
    rw [hport, if_neg (fun hc => hne hc.1)]

/-- a small behaviour: states are integers, every block adds 1 when it executes, getters return the
state, setters overwrite it -/
def demoBlocks : Blocks Int Int where
  active b := b != 1
  outs _ := [0, 1, 2]
  execute _ x := x + 1
  get _ _ x := x
  set _ _ v _ := v

/-- a wired network 0 → 1 → 2, 0 → 3 -/
def demoReqs : List Req := [⟨0, 0, 1, 0, false⟩, ⟨1, 0, 2, 0, false⟩, ⟨0, 0, 3, 1, false⟩]
def demoNet : Net := addPins demoPorts Net.init demoReqs

theorem demoNet_agrees : Agrees demoNet [⟨0, 0, 1, 0⟩, ⟨1, 0, 2, 0⟩, ⟨0, 0, 3, 1⟩] :=
  C09_both_ends_agree demoPorts demoReqs

theorem demoNet_ordered (l : List Obj) (hc : Verif.Chain.checkLoopsFrom demoNet.graph l 0 l = false) :
    Verif.Chain.Ordered demoNet.graph l := (Verif.Chain.checkLoops_iff _ _).1 hc

/-- premises of C15 (block 1 is disabled) -/
example : Verif.Chain.Ordered demoNet.graph ([0, 1] ++ 2 :: [3]) ∧ ([0, 1] ++ 2 :: [3]).Nodup :=
  ⟨demoNet_ordered _ (by decide), by decide⟩
example : runChain demoBlocks demoNet [0, 1, 2, 3] (fun _ => 7) 2 = 9 := by decide

/-! ### C50 -/

/-- C50: the result of a run does not depend on which dependency order the chain happens to have:
two ordered arrangements of the same blocks leave every block in the same state, provided each input
port has at most one connection and the setters of different input ports of a block commute. -/
theorem C50_order_independent {S V : Type} (F : Blocks S V) {n : Net} {pins : List Pin} (h : Agrees n pins)
    (hone : ∀ r i, pins.countP (fun p => p.r == r && p.i == i) ≤ 1)
    (hcomm : ∀ r i j v w x, i ≠ j → F.set r i v (F.set r j w x) = F.set r j w (F.set r i v x))
    (l₁ l₂ : List Obj) (hp : l₁ ~ l₂) (hnd : l₁.Nodup)
    (ho₁ : Verif.Chain.Ordered n.graph l₁) (ho₂ : Verif.Chain.Ordered n.graph l₂) (st : Obj → S) :
    ∀ r ∈ l₁, runChain F n l₁ st r = runChain F n l₂ st r := by
  have hnd2 : l₂.Nodup := hp.nodup_iff.1 hnd
  -- the equation both solutions satisfy
  have eqn : ∀ (l : List Obj), l.Nodup → Verif.Chain.Ordered n.graph l → ∀ r ∈ l,
      runChain F n l st r = act F r (feed F r (inbox F n (runChain F n l st) l r) (st r)) := by
    intro l hl ho r hr
    obtain ⟨pre, post, rfl⟩ := append_of_mem hr
    obtain ⟨h1, h2, _⟩ := C15_data_flow F h pre post r hl ho st
    rw [h2, h1]
  -- one message per port
  have huniq : ∀ (val : Obj → S) (l : List Obj) (r : Obj), ∀ x ∈ inbox F n val l r, ∀ y ∈ inbox F n val l r,
      x.1 = y.1 → x = y := by
    intro val l r x hx y hy hxy
    obtain ⟨s, _, o, _, hp1, hv1⟩ := (mem_inbox F h val l r x).1 hx
    obtain ⟨s', _, o', _, hp2, hv2⟩ := (mem_inbox F h val l r y).1 hy
    have key : ∀ (L : List Pin), L.countP (fun p => p.r == r && p.i == x.1) ≤ 1 → ∀ p ∈ L, ∀ q ∈ L,
        p.r = r → p.i = x.1 → q.r = r → q.i = x.1 → p = q := by
      intro L
      induction L with
      | nil => intro _ p hp; simp at hp
      | cons a L ih =>
        intro hc p hp' q hq a1 a2 b1 b2
        rw [countP_cons] at hc
        rcases mem_cons.1 hp' with e1 | e1 <;> rcases mem_cons.1 hq with e2 | e2
        · rw [e1, e2]
        · exfalso
          rw [if_pos (by rw [← e1]; simp [a1, a2])] at hc
          have : 0 < L.countP (fun p => p.r == r && p.i == x.1) := countP_pos_iff.2 ⟨q, e2, by simp [b1, b2]⟩
          omega
        · exfalso
          rw [if_pos (by rw [← e2]; simp [b1, b2])] at hc
          have : 0 < L.countP (fun p => p.r == r && p.i == x.1) := countP_pos_iff.2 ⟨p, e1, by simp [a1, a2]⟩
          omega
        · exact ih (by omega) p e1 q e2 a1 a2 b1 b2
    have := key pins (hone r x.1) _ hp1 _ hp2 rfl rfl rfl hxy.symm
    simp only [Pin.mk.injEq] at this
    obtain ⟨rfl, rfl, _, _⟩ := this
    exact Prod.ext hxy (hv1.trans hv2.symm)
  suffices ∀ k r, l₁[k]? = some r → runChain F n l₁ st r = runChain F n l₂ st r by
    intro r hr
    obtain ⟨k, hk⟩ := getElem?_of_mem hr
    exact this k r hk
  intro k
  induction k using Nat.strongRecOn with
  | ind k ih =>
    intro r hk
    have hr : r ∈ l₁ := mem_of_getElem? hk
    rw [eqn l₁ hnd ho₁ r hr, eqn l₂ hnd2 ho₂ r (hp.mem_iff.1 hr)]
    congr 1
    -- suppliers agree by induction
    have hmsg : ∀ s ∈ l₁, msgs F n s r (runChain F n l₁ st s) = msgs F n s r (runChain F n l₂ st s) := by
      intro s hs
      by_cases hsup : Verif.Chain.Supplies n.graph s r
      · obtain ⟨j, hj⟩ := getElem?_of_mem hs
        have hlt := ho₁ j k s r hj hk hsup
        rw [ih j hlt s hj]
      · have hnil : ∀ x, msgs F n s r x = [] := by
          intro x
          unfold msgs
          rw [flatMap_eq_nil_iff]
          intro o _
          rw [map_eq_nil_iff, filter_eq_nil_iff]
          intro e he
          rw [h.out] at he
          obtain ⟨p, hp1, rfl⟩ := mem_map.1 he
          obtain ⟨hp2, hp3⟩ := mem_filter.1 hp1
          simp only [Bool.and_eq_true, beq_iff_eq] at hp3
          simp only [beq_iff_eq]
          intro hpr
          exact hsup (((C09_children h s r).1).2 ⟨p, hp2, hp3.1, hpr⟩)
        rw [hnil, hnil]
    have hperm : inbox F n (runChain F n l₁ st) l₁ r ~ inbox F n (runChain F n l₂ st) l₂ r := by
      have e : inbox F n (runChain F n l₁ st) l₁ r = inbox F n (runChain F n l₂ st) l₁ r := by
        unfold inbox
        suffices ∀ l : List Obj, (∀ x ∈ l, x ∈ l₁) →
            l.flatMap (fun s => msgs F n s r (runChain F n l₁ st s)) =
            l.flatMap (fun s => msgs F n s r (runChain F n l₂ st s)) from this l₁ (fun _ hx => hx)
        intro l
        induction l with
        | nil => intro _; rfl
        | cons x l ihl =>
          intro hl
          rw [flatMap_cons, flatMap_cons, ihl (fun y hy => hl y (by simp [hy])), hmsg x (hl x (by simp))]
      rw [e]
      unfold inbox
      exact hp.flatMap_right _
    unfold feed
    refine hperm.foldl_eq' ?_ _
    intro x hx y hy z
    by_cases hxy : x.1 = y.1
    · rw [huniq _ _ _ x hx y hy hxy]
    · exact hcomm r y.1 x.1 y.2 x.2 z (Ne.symm hxy)

/-- premises of C50 on a network with real freedom of order (setters of a block with two state
components commute) -/
example : (∀ r i, ([⟨0, 0, 1, 0⟩, ⟨1, 0, 2, 0⟩, ⟨0, 0, 3, 1⟩] : List Pin).countP (fun p => p.r == r && p.i == i) ≤ 1) ∧
    [0, 1, 2, 3] ~ [0, 3, 1, 2] ∧ Verif.Chain.Ordered demoNet.graph [0, 1, 2, 3] ∧
    Verif.Chain.Ordered demoNet.graph [0, 3, 1, 2] := by
  refine ⟨?_, by decide, demoNet_ordered _ (by decide), demoNet_ordered _ (by decide)⟩
  intro r i
  by_cases h1 : r = 1
  · subst h1; simp [countP_cons]; split <;> decide
  · by_cases h2 : r = 2
    · subst h2; simp [countP_cons]; split <;> decide
    · simp [countP_cons, Ne.symm h1, Ne.symm h2]; split <;> decide

example : ∀ r i j v w (x : Int × Int), i ≠ j →
    (fun (_ : Obj) (p : PortId) (v : Int) (x : Int × Int) => if p = 0 then (v, x.2) else if p = 1 then (x.1, v) else x) r i v
      ((fun (_ : Obj) (p : PortId) (v : Int) (x : Int × Int) => if p = 0 then (v, x.2) else if p = 1 then (x.1, v) else x) r j w x) =
    (fun (_ : Obj) (p : PortId) (v : Int) (x : Int × Int) => if p = 0 then (v, x.2) else if p = 1 then (x.1, v) else x) r j w
      ((fun (_ : Obj) (p : PortId) (v : Int) (x : Int × Int) => if p = 0 then (v, x.2) else if p = 1 then (x.1, v) else x) r i v x) := by
  intro r i j v w x hij
  simp only
  repeat' split
  all_goals first
    | rfl
    | (exfalso; simp_all)

end Verif.Flow
