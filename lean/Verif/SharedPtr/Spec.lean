import Verif.SharedPtr.Model
/-
Vocabulary of the shared-pointer properties: who refers to what, and which programs follow the
documented rules (MimmoSharedPointer.hpp:56-135): an object is handed over to an owner only once, right
after its allocation; all further owners are made from owners.
-/
namespace Verif.SharedPtr

/-- variable `v` is constructed -/
def Built (s : St) (v : Nat) : Prop := s.own v ≠ none

/-- variable `v` can be constructed -/
def Free (s : St) (v : Nat) : Prop := v < s.slots.length ∧ s.own v = none

/-- owner `v` refers to object `a` (`v.get()`) -/
def Refers (s : St) (v a : Nat) : Prop := ∃ o, s.own v = some o ∧ o.obj = some a

/-- number of owners of object `a` -/
def owners (s : St) (a : Nat) : Nat :=
  s.slots.countP (fun o => match o with | some o => o.obj == some a | none => false)

/-- a raw pointer that may be handed to an owner: null, or an allocated object nobody owns -/
def RawOk (s : St) : Option Nat → Prop
  | none => True
  | some a => s.live a = true ∧ ∀ v, ¬ Refers s v a

/-- the rules -/
def Legal (s : St) : Op → Prop
  | .alloc => True
  | .newEmpty v => Free s v
  | .newRaw v raw => Free s v ∧ RawOk s raw
  | .copy v w => Free s v ∧ Built s w
  | .move v w => Free s v ∧ Built s w
  | .assign v w => Built s v ∧ Built s w
  | .moveAssign v w => Built s v ∧ Built s w
  | .swap v w => Built s v ∧ Built s w
  | .reset v raw => Built s v ∧ RawOk s raw
  | .destroy v => Built s v
  | .write v => Built s v
  | .read v i => Built s v ∧ ∃ m, s.msgs[i]? = some m ∧
      (m.obj = none ∨ ∃ a w, m.obj = some a ∧ w ≠ v ∧ Refers s w a)

/-- a program all of whose operations follow the rules -/
def LegalRun : St → List Op → Prop
  | _, [] => True
  | s, op :: ops => Legal s op ∧ ∀ s', step s op = some s' → LegalRun s' ops

/-- states reached by such programs -/
def Reach (s : St) : Prop := ∃ n ops, LegalRun (St.init n) ops ∧ run (St.init n) ops = some s

end Verif.SharedPtr
