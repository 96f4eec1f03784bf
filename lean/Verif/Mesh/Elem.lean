/-
Element types and connectivity lists (src/core/MimmoObject.cpp: checkCellConnCoherence, desumeElement).

Entries of a connectivity list are `long`; sizes and positions are `std::size_t`.  Positions are modelled by
integers: a position that would become negative wraps to a huge value in the code, which ends the loop and
differs from the size, as it does here.
-/
namespace Verif.Mesh

/-- `bitpit::ElementType` (the values handled by mimmo) -/
inductive Elem where
  | undefined | vertex | line | triangle | pixel | quad | polygon
  | tetra | voxel | hexahedron | wedge | pyramid | polyhedron
deriving DecidableEq, Repr

/-- entry of a list at a position inside it -/
def entry (l : List Int) (pos : Int) : Int := l.getD pos.toNat 0

/-- the loop over the faces of a polyhedron, src/core/MimmoObject.cpp:3233-3239 and :3695-3702.
The number of remaining faces bounds the number of iterations. Result: final position and number of faces
still missing. -/
def faceWalk (l : List Int) : Nat → Int → Int × Nat
  | 0, pos => (pos, 0)
  | left + 1, pos =>
    if 0 ≤ pos ∧ pos < l.length then faceWalk l left (pos + (entry l pos + 1))
    else (pos, left + 1)

/-- "is the record a polyhedron": src/core/MimmoObject.cpp:3231-3240 and :3693-3704.  With a negative number of
faces the loop is not entered: position 1, zero faces counted. -/
def polyhedronRecord (l : List Int) : Bool :=
  let nF := entry l 0
  if nF < 0 then false
  else
    let r := faceWalk l nF.toNat 1
    decide (r.1 = l.length) && decide (r.2 = 0)

/-- `checkCellConnCoherence`, src/core/MimmoObject.cpp:3192-3248 -/
def checkConn (t : Elem) (l : List Int) : Bool :=
  match t with
  | .vertex => l.length == 1
  | .line => l.length == 2
  | .triangle => l.length == 3
  | .pixel => l.length == 4
  | .quad => l.length == 4
  | .polygon => if l.length < 3 then false else decide ((l.length : Int) = entry l 0 + 1)
  | .tetra => l.length == 4
  | .voxel => l.length == 8
  | .hexahedron => l.length == 8
  | .wedge => l.length == 6
  | .pyramid => l.length == 5
  | .polyhedron => if l.length < 9 then false else polyhedronRecord l
  | .undefined => false

/-- `desumeElement`, src/core/MimmoObject.cpp:3676-3717; `type` is the mesh type (1 surface, 2 volume, 3 point
cloud, 4 curve) -/
def desume (type : Nat) (l : List Int) : Elem :=
  match type with
  | 1 =>
    let r := Elem.undefined
    let r := if l.length = 3 then .triangle else r
    let r := if l.length = 4 then .quad else r
    if l.length > 4 ∧ (l.length : Int) = entry l 0 + 1 then .polygon else r
  | 2 =>
    let r := Elem.undefined
    let r := if l.length = 4 then .tetra else r
    let r := if l.length = 8 then .hexahedron else r
    let r := if l.length = 5 then .pyramid else r
    let r := if l.length = 6 then .wedge else r
    if l.length > 8 then (if polyhedronRecord l then .polyhedron else r) else r
  | 3 => if l.length = 1 then .vertex else .undefined
  | 4 => if l.length = 2 then .line else .undefined
  | _ => .undefined

end Verif.Mesh
