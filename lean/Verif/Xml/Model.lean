import Verif.Pin.Lemmas
/-
Model of reading and writing XML sections: base settings of a block (src/core/BaseManipulation.cpp) and
connections (src/core/IOConnections.cpp).

`bitpit::Config` is external: a section is a table of options; `set` then `get` gives back the text.
-/
namespace Verif.Xml

abbrev Text := List Char

/-- blanks removed by `bitpit::utils::string::trim` (external; leading and trailing white space) -/
def blank (c : Char) : Bool := c == ' ' || c == '\t' || c == '\n' || c == '\r'

def trim (t : Text) : Text := ((t.dropWhile blank).reverse.dropWhile blank).reverse

/-- a section: option name ↦ text -/
abbrev Section := String → Option Text

def Section.set (s : Section) (k : String) (v : Text) : Section := fun j => if j = k then some v else s j

/-- `std::to_string` of an unsigned number -/
def toText (n : Nat) : Text :=
  if n < 10 then [Char.ofNat (48 + n)] else toText (n / 10) ++ [Char.ofNat (48 + n % 10)]
termination_by n
decreasing_by omega

def isDigit (c : Char) : Bool := 48 ≤ c.toNat && c.toNat ≤ 57

/-- value of a run of digits -/
def digitsVal (t : Text) : Nat := t.foldl (fun a c => 10 * a + (c.toNat - 48)) 0

def INT_MAX : Nat := 2 ^ 31 - 1

/-- `stringstream >> int` (only non-negative numbers and unreadable texts are distinguished; a sign makes
the text outside the model): the longest run of digits, 0 when there is none, `INT_MAX` on overflow. -/
def readInt (t : Text) : Nat :=
  let ds := (t.dropWhile blank).takeWhile isDigit
  if digitsVal ds ≤ INT_MAX then digitsVal ds else INT_MAX

/-- `stringstream >> bool`: false for the number 0 and for a text that is not a number, true for any other number (with the fail bit when it
is not 1, which nobody looks at); signs are outside the model -/
def readBool (t : Text) : Bool :=
  let ds := (t.dropWhile blank).takeWhile isDigit
  digitsVal ds != 0

/-- base settings of a block, src/core/BaseManipulation.hpp:141-159 -/
structure Settings where
  priority : Nat
  apply : Bool
  plot : Bool
  out : Text
deriving DecidableEq, Repr

/-- constructor, src/core/BaseManipulation.cpp:36-50 -/
def Settings.fresh : Settings := ⟨0, false, false, ['.', '/']⟩

/-- `setOutputPlot`, src/core/BaseManipulation.cpp:452-456 -/
def setOutputPlot (s : Settings) (p : Text) : Settings := { s with out := if p = [] then ['.'] else p }

/-- `flushSectionXML`, src/core/BaseManipulation.cpp:669-684 (the class name is not modelled) -/
def flushSection (s : Settings) (x : Section) : Section :=
  let x1 := x.set "Priority" (toText s.priority)
  let x2 := if s.apply then x1.set "Apply" (toText 1) else x1
  if s.plot then (x2.set "PlotInExecution" (toText 1)).set "OutputPlot" s.out else x2

/-- `absorbSectionXML`, src/core/BaseManipulation.cpp:614-660 -/
def absorbSection (x : Section) (s : Settings) : Settings :=
  let s1 := match x "Priority" with
    | none => s
    | some t => { s with priority := if t = [] then 0 else readInt (trim t) }
  let s2 := match x "Apply" with
    | none => s1
    | some t => { s1 with apply := if trim t = [] then false else readBool (trim t) }
  let s3 := match x "PlotInExecution" with
    | none => s2
    | some t => { s2 with plot := if trim t = [] then false else readBool (trim t) }
  match x "OutputPlot" with
  | none => s3
  | some t => if trim t = [] then setOutputPlot s3 ['.'] else setOutputPlot s3 (trim t)

/-! ### Connections -/

open Verif.Pin

/-- one connection section (port names are the port ids of the model: they are blank-free constants, so
`trim` leaves them alone) -/
structure Sect where
  sender : Text
  senderPort : PortId
  receiver : Text
  receiverPort : PortId
deriving DecidableEq, Repr

/-- `m_mapConn`, in the iteration order of the hash map, src/core/IOConnections.cpp:41-45 -/
abbrev Names := List (Text × Obj)

/-- `m_mapConn.find` -/
def lookupObj (m : Names) (t : Text) : Option Obj := (m.find? (fun e => e.1 == t)).map Prod.snd

/-- `m_invMapConn[obj]`, src/core/IOConnections.cpp:44 (the last assignment wins; an unknown block gives
the empty name) -/
def nameOf (m : Names) (b : Obj) : Text := ((m.reverse.find? (fun e => e.2 == b)).map Prod.fst).getD []

/-- `flushConnections`, src/core/IOConnections.cpp:159-198, in writing order -/
def flushConnections (P : Ports) (m : Names) (n : Net) : List Sect :=
  m.flatMap (fun e => (P.outs e.2).flatMap (fun o =>
    (n.out e.2 o).map (fun l => ⟨nameOf m e.2, o, nameOf m l.1, l.2⟩)))

/-- result of reading: `done`, the exception at the end (src/core/IOConnections.cpp:142-144), or an
exception from `addPin` in the middle -/
inductive Outcome where
  | done | failed | portError
deriving DecidableEq, Repr

/-- which blocks a section speaks of: both names known and both ports registered,
src/core/IOConnections.cpp:90-106 -/
def resolve (m : Names) (reg : PortId → Bool) (q : Sect) : Option Req :=
  match lookupObj m (trim q.sender), lookupObj m (trim q.receiver) with
  | some s, some r => if reg q.senderPort && reg q.receiverPort then
      some ⟨s, q.senderPort, r, q.receiverPort, false⟩ else none
  | _, _ => none

/-- the loop of `absorbConnections`, src/core/IOConnections.cpp:82-145; `good` is `checkConnection` -/
def absorbLoop (P : Ports) (m : Names) (reg : PortId → Bool) : Net → Bool → List Sect → Net × Outcome
  | n, good, [] => (n, if good then .done else .failed)
  | n, good, q :: qs =>
    match resolve m reg q with
    | none => absorbLoop P m reg n good qs
    | some p =>
      match addPin P n p.s p.r p.o p.i p.forced with
      | none => (n, .portError)
      | some (n', ok) => absorbLoop P m reg n' (good && ok) qs

/-- `absorbConnections` (no section: nothing happens, lines 78-81).  The sections come in the order of
the keys `conn0, conn1, conn10, …` of the external container, not in writing order. -/
def absorbConnections (P : Ports) (m : Names) (reg : PortId → Bool) (n : Net) (qs : List Sect) : Net × Outcome :=
  if qs = [] then (n, .done) else absorbLoop P m reg n true qs

end Verif.Xml
