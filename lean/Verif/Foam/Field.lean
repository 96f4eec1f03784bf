import Verif.Foam.Model
import Mathlib.Algebra.Order.Field.Basic
/-!
# OpenFOAM fields

Transcription of the reading of the fields (`IOOFOAMScalarField::read`, `IOOFOAMVectorField::read`) and of the
interpolation on the vertices (`src/ioofoam/openFoamFiles_native.cpp`).  Values are in any ordered field: floating point
rounding is not modelled.  The vector version does the same for each component.
-/
namespace Verif.Foam

variable {K : Type}

/-! ## The values -/

/-- A field on disk: of the class which is read or not, its values on the cells and on the patches. -/
structure OnDisk (K : Type) where
  expected : Bool
  internal : List K
  boundary : List (List K)

/-- `readScalarField` and `readVectorField`, openFoamFiles_native.cpp 129-168, 177-220, as the vector they fill:
nothing when the class is another; `none` when the patch is not there. -/
def readValues (d : OnDisk K) (patch : Option Nat) : Option (List K) :=
  if d.expected then
    match patch with
    | none => some d.internal
    | some i => d.boundary[i]?
  else some []

/-- The loop on the cells of the bulk, IOOFOAM.cpp 1340-1344 and 1604-1608; `none` when the end of the vector is
dereferenced. -/
def bulkField : List Nat → List K → Option (List (Nat × K))
  | [], _ => some []
  | _ :: _, [] => none
  | c :: cs, v :: vs => (bulkField cs vs).map ((c, v) :: ·)

/-- `insert` of a field: a negative id and an id which is there throw. -/
def put (st : List (Int × K)) (c : Int) (v : K) : Option (List (Int × K)) :=
  if c < 0 ∨ c ∈ st.map Prod.fst then none else some (st ++ [(c, v)])

/-- Several of them. -/
def putAll (st : List (Int × K)) : List (Int × K) → Option (List (Int × K))
  | [] => some st
  | p :: ps => (put st p.1 p.2).bind fun st' => putAll st' ps

/-- The loop on the faces of a patch, IOOFOAM.cpp 1366-1372 and 1631-1637. -/
def onFaces (m : FaceMap) : Nat → List K → List (Int × K)
  | _, [] => []
  | ind, v :: vs => (m.at ind, v) :: onFaces m (ind + 1) vs

/-- The cells of the boundary with a PID, and zero. -/
def zeros [Zero K] (cells : List (Int × Nat)) (pid : Nat) : List (Int × K) :=
  (cells.filter (·.2 == pid)).map fun c => (c.1, 0)

/-- One PID of the loop on the PIDs, IOOFOAM.cpp 1360-1389 (scalar) and 1624-1646 (vector, without the last branch,
1381-1388).  A cell is given a zero in the last branch when it has no value. -/
def onePid [Zero K] (scalar : Bool) (m : FaceMap) (patches : List Patch) (cells : List (Int × Nat)) (d : OnDisk K)
    (st : List (Int × K)) (pid : Nat) : Option (List (Int × K)) :=
  if pid > 0 then
    match readValues d (some (pid - 1)) with
    | none => none
    | some vals =>
      if vals.length > 0 then
        match patches[pid - 1]? with
        | none => none
        | some p => putAll st (onFaces m p.start vals)
      else putAll st (zeros cells pid)
  else if scalar then putAll st ((zeros cells pid).filter fun c => c.1 ∉ st.map Prod.fst)
  else some st

/-- The loop on the PIDs, in any order. -/
def boundaryFaces [Zero K] (scalar : Bool) (m : FaceMap) (patches : List Patch) (cells : List (Int × Nat))
    (d : OnDisk K) : List (Int × K) → List Nat → Option (List (Int × K))
  | st, [] => some st
  | st, pid :: pids => (onePid scalar m patches cells d st pid).bind fun st' =>
      boundaryFaces scalar m patches cells d st' pids

/-! ## On the vertices -/

/-- `field[v] += x`. -/
def addAt [Add K] (f : Nat → K) (v : Nat) (x : K) : Nat → K := fun w => if w = v then f w + x else f w

/-- The body of the loop on the vertices of a cell, openFoamFiles_native.cpp 665-674: data and sums of the angles.  The
angle comes with the vertex (`evalAngleAtVertex`, bitpit). -/
def corner [Add K] [Mul K] (x : K) (a : (Nat → K) × (Nat → K)) (c : Nat × K) : (Nat → K) × (Nat → K) :=
  (addAt a.1 c.1 (x * c.2), addAt a.2 c.1 c.2)

/-- The loop on the cells, openFoamFiles_native.cpp 654-676; `none` when a cell has no value. -/
def overCells [Add K] [Mul K] (val : Int → Option K) :
    List (Int × List (Nat × K)) → (Nat → K) × (Nat → K) → Option ((Nat → K) × (Nat → K))
  | [], a => some a
  | c :: cs, a =>
    match val c.1 with
    | none => none
    | some x => overCells val cs (c.2.foldl (corner x) a)

/-- `interpolateFaceToPoint`, openFoamFiles_native.cpp 637-690: a value of each vertex; `none` for 0/0. -/
def interpolate [Field K] [DecidableEq K] (verts : List Nat) (cells : List (Int × List (Nat × K)))
    (val : Int → Option K) : Option (List (Nat × Option K)) :=
  (overCells val cells (fun _ => 0, fun _ => 0)).map fun a =>
    verts.map fun v => (v, if a.2 v = 0 then none else some (a.1 v / a.2 v))

end Verif.Foam
