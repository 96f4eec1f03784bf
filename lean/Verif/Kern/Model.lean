import Mathlib.Data.List.Dedup
/-
The pair of meshes of the blocks for OpenFOAM: `mimmo::IOOFOAM_Kernel` and the copies of `mimmo::IOOFOAM` (src/ioofoam/IOOFOAM.cpp).

A mesh is its type (1 surface, 2 volume, 3 cloud, 4 curve), whether its interfaces are in sync, its interfaces (id, border or not) and the ids
of its cells.  Warnings, MPI, the maps of faces and what the extraction of a boundary builds in the bulk are not modelled.
-/
namespace Verif.Kern

/-- what the blocks look at in a `MimmoObject` -/
structure Obj where
  type : Nat
  sync : Bool
  interfaces : List (Nat × Bool)
  cells : List Nat
  deriving DecidableEq, Repr

/-- members, src/ioofoam/IOOFOAM.hpp, and the pointer to the geometry of BaseManipulation; `overwrite` and `pointsOnly` are those of
`IOOFOAM` -/
structure Kernel where
  write : Bool
  path : String
  fieldname : String
  bulk : Option Obj
  boundary : Option Obj
  overwrite : Bool
  pointsOnly : Bool
  deriving DecidableEq, Repr

/-- IOOFOAM.cpp:34-37, 116-127; for `IOOFOAM` 310-314 -/
def fresh (write : Bool) : Kernel := ⟨write, ".", "", none, none, false, true⟩

/-- `setGeometry`, IOOFOAM.cpp:171-182 -/
def setBulk (o : Option Obj) (k : Kernel) : Kernel :=
  match o with
  | none => k
  | some b => if b.type ≠ 2 ∧ b.type ≠ 1 then k else { k with bulk := some b }

/-- `setBoundaryGeometry`, IOOFOAM.cpp:189-197 -/
def setBoundary (o : Option Obj) (k : Kernel) : Kernel :=
  match o with
  | none => k
  | some b => if b.type ≠ 1 ∧ b.type ≠ 4 then k else { k with boundary := some b }

/-- How the constructor with meshes ends: `undefined` for a null pointer dereferenced -/
inductive Outcome where
  | throws | undefined | done (k : Kernel)
  deriving DecidableEq, Repr

/-- `std::to_string(a) + std::to_string(b)` is "21" or "14" -/
def pairKey (a b : Nat) : Bool := Nat.repr a ++ Nat.repr b == "21" || Nat.repr a ++ Nat.repr b == "14"

/-- The constructor with meshes, IOOFOAM.cpp:54-73 -/
def make (bulk boundary : Option Obj) (write : Bool) : Outcome :=
  if bulk.isNone && boundary.isNone then .throws
  else
    match bulk, boundary with
    | some b, some f => if pairKey b.type f.type then .done (setBoundary (some f) (setBulk (some b) (fresh write))) else .throws
    | _, _ => .undefined

/-- increasing order -/
def sort (l : List Nat) : List Nat := l.mergeSort (fun a b => decide (a ≤ b))

/-- `checkMeshCoherence`, IOOFOAM.cpp:268-300: the answer and the object; the boundary extracted in its last branch is thrown away -/
def check (k : Kernel) : Bool × Kernel :=
  match k.bulk with
  | none => (false, k)
  | some b =>
    match k.boundary with
    | none => (true, k)
    | some f =>
      if !b.sync then (false, k)
      else if !pairKey b.type f.type then (false, k)
      else (decide (sort ((b.interfaces.filter (·.2)).map (·.1)).dedup = sort f.cells), k)

/-- The copy of `IOOFOAM_Kernel`, IOOFOAM.cpp:82-96, and of BaseManipulation, src/core/BaseManipulation.cpp:82-84: as the copies of
the blocks for fields have it -/
def copyKernel (k : Kernel) : Kernel := k

/-- The copy of `IOOFOAM`, IOOFOAM.cpp:376-383, with the defaults of 407-412 -/
def copy (other : Kernel) : Kernel :=
  let k := copyKernel other
  let k := { k with overwrite := false, pointsOnly := true, path := ".", fieldname := "", boundary := none }
  { k with write := other.write, pointsOnly := other.pointsOnly, path := other.path, overwrite := other.overwrite }

end Verif.Kern
