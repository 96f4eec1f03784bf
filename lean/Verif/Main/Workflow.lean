import Verif.Xml.Model
import Verif.Chain.Model
/-!
# The dictionary and the workflow of the executable `mimmo++`

Transcription of the blocks of `read_Dictionary` and of `mimmocore`, `binaries/mimmo++.cpp` 227-403.  The
connections are those of `Verif.Xml` (C22, C23): here the network is given.  The verbosity, the messages and the
optional results are not modelled.
-/
namespace Verif.Main

open Verif.Xml (Text trim)
open Verif.Chain

/-- A section of the `Blocks` of a dictionary: its name and the value of `ClassName` (`ClassNONE` when absent,
mimmo++.cpp 248-250).  The sections come as a list: in the order of `getSections()`, a multimap. -/
structure Sect where
  name : Text
  cls : Text
  deriving DecidableEq, Repr

/-- `mapInst[id] = …`, mimmo++.cpp 260: the entry is replaced when it is there. -/
def put (id : Text) (b : Sect) : List (Text × Sect) → List (Text × Sect)
  | [] => [(id, b)]
  | e :: m => if e.1 = id then (id, b) :: m else e :: put id b m

/-- The loop on the sections, mimmo++.cpp 246-266; `known` tells the classes registered in the factory.  A block
is represented by the section it is created from. -/
def readBlocks (known : Text → Bool) (secs : List Sect) : List (Text × Sect) :=
  secs.foldl (fun m s => if known (trim s.cls) then put (trim s.name) s m else m) []

/-- `chainMap[priority].addObject(obj)`, mimmo++.cpp 377-380: the map of the chains, ascending in the priority.
`n` is the depth of the recursion allowed to `addObject`. -/
def addAt (g : Graph) (n : Nat) (p : Nat) (o : Obj) : List (Nat × Chain) → Option (List (Nat × Chain))
  | [] => (addObject g n empty o (-1)).map fun r => [(p, r.1)]
  | e :: m =>
    if p = e.1 then (addObject g n e.2 o (-1)).map fun r => (e.1, r.1) :: m
    else if p < e.1 then (addObject g n empty o (-1)).map fun r => (p, r.1) :: e :: m
    else (addAt g n p o m).map (e :: ·)

/-- The execution of the chains, mimmo++.cpp 388-398.  An exception of a chain leaves the loop. -/
def runChains (g : Graph) (fails : Obj → Bool) : List (Nat × Chain) → List Obj × Result
  | [] => ([], .ok)
  | e :: m =>
    if e.2.objs.length > 0 then
      match exec g fails e.2 with
      | (t, .ok) => (t ++ (runChains g fails m).1, (runChains g fails m).2)
      | (t, r) => (t, r)
    else runChains g fails m

/-- `mimmocore` after the dictionary, mimmo++.cpp 374-398: `visit` is the order in which the unordered map of the
blocks is visited; `none` when `addObject` does not return within the depth `n`. -/
def workflow (g : Graph) (n : Nat) (fails : Obj → Bool) (prio : Obj → Nat) (visit : List Obj) :
    Option (List Obj × Result) :=
  (visit.foldlM (fun m o => addAt g n (prio o) o m) []).map (runChains g fails)

end Verif.Main
