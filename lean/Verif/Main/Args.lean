import Verif.Xml.Model
import Mathlib.Data.List.Dedup
/-!
# The arguments of the executable `mimmo++`

Transcription of `readArguments`, `binaries/mimmo++.cpp` 98-225.  Strings are lists of characters.  The set of
the arguments is an `unordered_set`: the order in which it is visited is that of a function `hash`, of which
nothing is known but that it lists every argument once.
-/
namespace Verif.Main

open Verif.Xml (Text trim)

/-- `Verbose`, mimmo++.cpp 42-46. -/
inductive Verbose where
  | quiet | normal | full
  deriving DecidableEq, Repr

/-- `InfoMimmoPP`, mimmo++.cpp 60-96, with the defaults of its constructor. -/
structure Info where
  dict : Text := "mimmo.xml".toList
  vlog : Verbose := .full
  vconsole : Verbose := .normal
  optres : Bool := false
  path : Text := ".".toList
  expert : Bool := false
  deriving DecidableEq, Repr

/-- How reading the arguments ends: `exit(1)` for too few arguments (105-109), after the help (117-158) or
without a dictionary (198-202), or the information for running. -/
inductive Outcome where
  | usage | help | noDict | run (i : Info)
  deriving DecidableEq, Repr

/-- `keymap`, mimmo++.cpp 160-181. -/
def keymap : List Text :=
  ["--dictionary=", "--log-verbosity=", "--console-verbosity=", "--optional-results=",
   "--optional-results-path=", "--expert=",
   "-d=", "-lv=", "-cv=", "-or=", "-orp=", "-e=",
   "dict=", "vlog=", "vconsole=", "opt-res=", "opt-res-path=", "expert="].map String.toList

/-- `std::string::find`. -/
def find (pat : Text) : Text → Option Nat
  | [] => if pat = [] then some 0 else none
  | c :: s => if pat.isPrefixOf (c :: s) then some 0 else (find pat s).map (· + 1)

/-- The loop on the keys, mimmo++.cpp 188-193: the first key found, with its number and its position. -/
def search (val : Text) : List Text → Nat → Option (Nat × Text × Nat)
  | [], _ => none
  | key :: keys, k =>
    match find key val with
    | some pos => some (k, key, pos)
    | none => search val keys (k + 1)

/-- What an argument is taken for, mimmo++.cpp 187-195.  The counter goes up to `3*nkeys`, one more than the
last key: there `keymap[18]` is the empty string. -/
def classify (val : Text) : Option (Nat × Text) :=
  (search val (keymap ++ [[]]) 0).map fun r => (r.1 % 6, val.drop (r.2.2 + r.2.1.length))

/-- `final_map`, mimmo++.cpp 183-196. -/
def assign (m : Nat → Option Text) (val : Text) : Nat → Option Text :=
  match classify val with
  | some r => fun j => if j = r.1 then some r.2 else m j
  | none => m

/-- The words of the verbosity, mimmo++.cpp 212-222. -/
def verbosity (t : Text) (dflt : Verbose) : Verbose :=
  let check : Int := -1 + (if t = "quiet".toList then 1 else 0) + 2 * (if t = "normal".toList then 1 else 0)
    + 3 * (if t = "full".toList then 1 else 0)
  if check = 0 then .quiet else if check = 1 then .normal else if check = 2 then .full else dflt

/-- The assignment of the arguments, mimmo++.cpp 205-222. -/
def infoOf (m : Nat → Option Text) (dict : Text) : Info :=
  let i : Info := {}
  { dict := dict
    path := (m 4).getD i.path
    optres := ((m 3).map (· == "yes".toList)).getD i.optres
    expert := ((m 5).map (· == "yes".toList)).getD i.expert
    vlog := ((m 1).map (verbosity · .full)).getD i.vlog
    vconsole := ((m 2).map (verbosity · .normal)).getD i.vconsole }

/-- `readArguments`, mimmo++.cpp 102-225. -/
def readArguments (hash : List Text → List Text) (args : List Text) : Outcome :=
  if args.length < 2 then .usage
  else
    let input := hash (args.tail.map trim)
    if input.contains "--help".toList || input.contains "-h".toList then .help
    else
      let m := input.foldl assign fun _ => none
      match m 0 with
      | none => .noDict
      | some d => .run (infoOf m d)

end Verif.Main
