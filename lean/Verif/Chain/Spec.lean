import Verif.Chain.Model
/-
Vocabulary of the chain properties, independent of the algorithms of the model.
-/
namespace Verif.Chain

/-- `a` supplies data to `b`. -/
def Supplies (g : Graph) (a b : Obj) : Prop := b ∈ g.children a

/-- The network is well formed: the two ends of the parent/child relation agree (this is what
property C09 establishes for pins) and no block is listed twice (keys of a map). -/
structure WellFormed (g : Graph) : Prop where
  sym : ∀ a b, b ∈ g.children a ↔ a ∈ g.parents b
  nodupP : ∀ a, (g.parents a).Nodup

/-- No block depends, directly or indirectly, on itself. -/
def Acyclic (g : Graph) : Prop := ∀ a, ¬ Relation.TransGen (Supplies g) a a

/-- A sequence of blocks is in dependency order: whenever the block at position `i` supplies the
block at position `j`, `i` comes before `j`. -/
def Ordered (g : Graph) (l : List Obj) : Prop :=
  ∀ (i j : Nat) (a b : Obj), l[i]? = some a → l[j]? = some b → Supplies g a b → i < j

/-- The (block, id) entries of a chain. -/
def Chain.entries (ch : Chain) : List (Obj × Int) := ch.objs.zip ch.ids

/-- Basic consistency of a chain: one non-negative id per block, no block twice. -/
structure Chain.Ok (ch : Chain) : Prop where
  len : ch.objs.length = ch.ids.length
  nodup : ch.objs.Nodup
  ids_nonneg : ∀ i ∈ ch.ids, 0 ≤ i
  counter_nonneg : 0 ≤ ch.counter

/-- The blocks of `l` contain a dependency cycle. -/
def HasCycle (g : Graph) (l : List Obj) : Prop :=
  ∃ a, Relation.TransGen (fun x y => x ∈ l ∧ y ∈ l ∧ Supplies g x y) a a

/-- Chains that a client can obtain with the network `g` already wired: start empty, insert blocks not
yet in the chain (with any requested id), delete by id, clear. -/
inductive Built (g : Graph) : Chain → Prop where
  | empty : Built g empty
  | add {ch ch' : Chain} {n : Nat} {obj : Obj} {id_ i : Int} : Built g ch → obj ∉ ch.objs →
      addObject g n ch obj id_ = some (ch', i) → Built g ch'
  | delete {ch : Chain} (idobj : Int) : Built g ch → Built g (deleteObject g ch idobj).1
  | clear {ch : Chain} : Built g ch → Built g (clear ch)

/-- Histories in which the chain chooses all ids (negative requested id), on any network.  The second
index collects every id handed out so far (since the last `clear`); the id of a new block is read off
the chain after the insertion. -/
inductive BuiltAuto (g : Graph) : Chain → List Int → Prop where
  | empty : BuiltAuto g empty []
  | add {ch ch' : Chain} {used : List Int} {n : Nat} {obj : Obj} {id_ i id : Int} :
      BuiltAuto g ch used → obj ∉ ch.objs → id_ < 0 →
      addObject g n ch obj id_ = some (ch', i) → (obj, id) ∈ ch'.entries →
      BuiltAuto g ch' (id :: used)
  | refused {ch ch' : Chain} {used : List Int} {n : Nat} {obj : Obj} {id_ i : Int} :
      BuiltAuto g ch used → obj ∉ ch.objs → id_ < 0 →
      addObject g n ch obj id_ = some (ch', i) → obj ∉ ch'.objs →
      BuiltAuto g ch' used
  | delete {ch : Chain} {used : List Int} (idobj : Int) :
      BuiltAuto g ch used → BuiltAuto g (deleteObject g ch idobj).1 used
  | clear {ch : Chain} {used : List Int} : BuiltAuto g ch used → BuiltAuto g (clear ch) []

end Verif.Chain
