import Verif.Select.Model
import Verif.Io.Stream
/-
The settings of the selection by PID in the dictionary: `mimmo::SelectionByPID` (src/geohandlers/SelectionByPID.cpp).

The state of the block and the calls are those of Verif/Select/Model.lean, the streams those of Verif/Io/Stream.lean.  The memory for the
list of PIDs is taken to be there for every `int` that is not negative.
-/
namespace Verif.Pids
open Verif.Xml Verif.Io Verif.Create Verif.Select

/-- the common settings and the members of the class -/
structure Block where
  base : Settings
  pid : Pid

/-- the constructor without arguments, SelectionByPID.cpp:32-34 -/
def fresh : Block := ⟨Settings.fresh, {}⟩

/-- `ss >> nPID`, SelectionByPID.cpp:323-333; the maximum with 0 is computed and thrown away -/
def count (x : Section) : Int :=
  match x "nPID" with
  | none => 0
  | some t =>
    if trim t = [] then 0
    else ((In.whole (-2147483648) 2147483647 ⟨trim t, false, false⟩).1).getD 0

/-- `for(auto & val : pidlist) ss >> val`, SelectionByPID.cpp:341-343 -/
def readAll : List Int → In → List Int
  | [], _ => []
  | v :: vs, s => (s.long.1).getD v :: readAll vs s.long.2

/-- `absorbSectionXML`, SelectionByPID.cpp:306-349; `none` when the vector of line 334 cannot be made (`std::length_error`) -/
def absorb (x : Section) (b : Block) : Option Block :=
  let base := absorbSection x b.base
  let dual := match x "Dual" with
    | none => b.pid.dual
    | some t => if trim t = [] then false else readBool (trim t)
  let n := count x
  if n < 0 then none
  else
    let l := List.replicate n.toNat (-1)
    let l := match x "PID" with
      | none => l
      | some t => if trim t = [] then l else readAll l ⟨trim t, false, false⟩
    some ⟨base, { b.pid with dual := dual }.setPIDs l⟩

/-- `flushSectionXML`, SelectionByPID.cpp:357-381 -/
def flush (b : Block) (x : Section) : Section :=
  let x := (flushSection b.base x).set "Dual" (intText (if b.pid.dual then 1 else 0))
  let l := b.pid.activePIDs true
  if l.length ≠ 0 then (x.set "nPID" (intText l.length)).set "PID" (l.flatMap fun p => intText p ++ ['\t']) else x

end Verif.Pids
