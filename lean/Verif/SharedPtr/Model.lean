/-
Model of `mimmo::MimmoSharedPointer<O>` (src/core/MimmoSharedPointer.tpp) and of its binary streams.

Simplifications: the allocator never reuses an address (an object keeps its identity after deletion);
the destructor of the pointed object touches no owner; counters do not overflow; single thread.
`none` as the result of an operation is undefined behaviour (use of a freed counter, double delete).
-/
namespace Verif.SharedPtr

/-- `m_object`, `m_counter` of a MimmoSharedPointer (`none` is `nullptr`),
src/core/MimmoSharedPointer.hpp:139-180. -/
structure Owner where
  obj : Option Nat
  cnt : Option Nat
deriving DecidableEq, Repr

/-- an owner holding nothing (default constructor, MimmoSharedPointer.tpp:62-66) -/
def Owner.empty : Owner := ⟨none, none⟩

/-- Memory: program variables of owner type (`none` = not constructed or already destroyed), which
objects and counters are allocated, the next fresh addresses, the log of object deletions, and the
messages written to streams. -/
structure St where
  slots : List (Option Owner)
  live : Nat → Bool
  cnts : Nat → Option Nat
  nextA : Nat
  nextC : Nat
  deleted : List Nat
  msgs : List Owner

/-- the program starts with `n` not yet constructed variables and an empty heap -/
def St.init (n : Nat) : St :=
  { slots := List.replicate n none, live := fun _ => false, cnts := fun _ => none, nextA := 0, nextC := 0,
    deleted := [], msgs := [] }

/-- content of a variable -/
def St.own (s : St) (v : Nat) : Option Owner := s.slots[v]?.join

def St.setOwn (s : St) (v : Nat) (o : Option Owner) : St := { s with slots := s.slots.set v o }

/-- function update -/
def upd {α β : Type} [DecidableEq α] (f : α → β) (a : α) (b : β) : α → β := fun x => if x = a then b else f x

/-- `delete m_object`, MimmoSharedPointer.tpp:313 (deleting `nullptr` is allowed) -/
def deleteObj (s : St) : Option Nat → Option St
  | none => some s
  | some a => if s.live a then some { s with live := upd s.live a false, deleted := a :: s.deleted } else none

/-- `_decrement`, MimmoSharedPointer.tpp:308-319 -/
def decrement (s : St) (v : Nat) : Option St :=
  match s.own v with
  | none => none
  | some o =>
    match o.cnt with
    | none => some (s.setOwn v (some Owner.empty))
    | some c =>
      match s.cnts c with
      | none => none
      | some n =>
        let n' := if n = 0 then 2 ^ 64 - 1 else n - 1
        if n' = 0 then
          (deleteObj s o.obj).map (fun s1 => { s1 with cnts := upd s1.cnts c none }.setOwn v (some Owner.empty))
        else
          some ({ s with cnts := upd s.cnts c (some n') }.setOwn v (some Owner.empty))

/-- `_init(object, counter)`, MimmoSharedPointer.tpp:276-289; also run by the constructors (:62-79) -/
def initOwn (s : St) (v : Nat) (obj cnt : Option Nat) : Option St :=
  match obj with
  | none => some (s.setOwn v (some Owner.empty))
  | some a =>
    match cnt with
    | none =>
      some ({ s with cnts := upd s.cnts s.nextC (some 1), nextC := s.nextC + 1 }.setOwn v
        (some ⟨some a, some s.nextC⟩))
    | some c =>
      match s.cnts c with
      | none => none
      | some n => some ({ s with cnts := upd s.cnts c (some (n + 1)) }.setOwn v (some ⟨some a, some c⟩))

/-- `_reset(object, counter)`, MimmoSharedPointer.tpp:297-302 -/
def resetOwn (s : St) (v : Nat) (obj cnt : Option Nat) : Option St :=
  (decrement s v).bind (fun s1 => initOwn s1 v obj cnt)

/-- taking over another owner's content and incrementing, MimmoSharedPointer.tpp:99-103 and :142-148 -/
def shareFrom (s : St) (v : Nat) (o : Owner) : Option St :=
  match o.cnt with
  | none => some (s.setOwn v (some o))
  | some c =>
    match s.cnts c with
    | none => none
    | some n => some ({ s with cnts := upd s.cnts c (some (n + 1)) }.setOwn v (some o))

/-- what a program can do with owners -/
inductive Op where
  /-- `new O`, giving the fresh address -/
  | alloc
  /-- `MimmoSharedPointer<O> v;` -/
  | newEmpty (v : Nat)
  /-- `MimmoSharedPointer<O> v(raw);` -/
  | newRaw (v : Nat) (raw : Option Nat)
  /-- `MimmoSharedPointer<O> v(w);` -/
  | copy (v w : Nat)
  /-- `MimmoSharedPointer<O> v(std::move(w));` -/
  | move (v w : Nat)
  /-- `v = w;` -/
  | assign (v w : Nat)
  /-- `v = std::move(w);` -/
  | moveAssign (v w : Nat)
  /-- `v.swap(w);` -/
  | swap (v w : Nat)
  /-- `v.reset(raw);` -/
  | reset (v : Nat) (raw : Option Nat)
  /-- end of life of `v` -/
  | destroy (v : Nat)
  /-- `buffer << v;` the message is remembered -/
  | write (v : Nat)
  /-- `buffer >> v;` reading the `i`-th message written so far -/
  | read (v i : Nat)

/-- One operation: constructors MimmoSharedPointer.tpp:62-79, copy :96-104, move :112-122, assignment
:131-150, move assignment :160-179, swap :186-191, reset :225-229, destructor :86-89, streams :32-54. -/
def step (s : St) : Op → Option St
  | .alloc => some { s with live := upd s.live s.nextA true, nextA := s.nextA + 1 }
  | .newEmpty v => initOwn s v none none
  | .newRaw v raw => initOwn s v raw none
  | .copy v w =>
    match s.own w with
    | none => none
    | some o => shareFrom s v o
  | .move v w =>
    match s.own w with
    | none => none
    | some o => some ((s.setOwn v (some o)).setOwn w (some Owner.empty))
  | .assign v w =>
    if v = w then some s
    else
      match s.own w with
      | none => none
      | some o => (decrement s v).bind (fun s1 => shareFrom s1 v o)
  | .moveAssign v w =>
    if v = w then some s
    else
      match s.own w with
      | none => none
      | some o => (decrement s v).map (fun s1 => (s1.setOwn v (some o)).setOwn w (some Owner.empty))
  | .swap v w =>
    match s.own v, s.own w with
    | some o, some o' => some ((s.setOwn v (some o')).setOwn w (some o))
    | _, _ => none
  | .reset v raw => resetOwn s v raw none
  | .destroy v => (decrement s v).map (fun s1 => s1.setOwn v none)
  | .write v =>
    match s.own v with
    | none => none
    | some o => some { s with msgs := s.msgs ++ [o] }
  | .read v i =>
    match s.msgs[i]? with
    | none => none
    | some m => resetOwn s v m.obj m.cnt

/-- a whole program -/
def run (s : St) : List Op → Option St
  | [] => some s
  | op :: ops => (step s op).bind (fun s1 => run s1 ops)

/-- `getCounter`, MimmoSharedPointer.tpp:208-213 (`none`: reading a freed counter) -/
def getCounter (s : St) (v : Nat) : Option Nat :=
  match s.own v with
  | none => none
  | some o =>
    match o.cnt with
    | none => some 0
    | some c => s.cnts c

end Verif.SharedPtr
