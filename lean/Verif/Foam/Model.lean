import Verif.Xml.Model
/-!
# OpenFOAM meshes

Transcription of the serial parts of `IOOFOAM::read`, `IOOFOAM::writePointsOnly`, of the XML options
(`src/ioofoam/IOOFOAM.cpp`) and of `foamUtilsNative` (`src/ioofoam/openFoamFiles_native.cpp`).  OpenFOAM itself is
external: a case is what its library gives.  The ghosts of MPI runs are not modelled.
-/
namespace Verif.Foam

open Verif.Xml (Text Section trim readBool)

/-- The types of bitpit which are used. -/
inductive EType where
  | tetra | hexa | wedge | pyramid | polyhedron
  deriving DecidableEq, Repr

/-- `m_OFE_supp`, IOOFOAM.cpp 121-125. -/
def supported (name : String) : Option EType :=
  if name = "hex" then some .hexa
  else if name = "tet" then some .tetra
  else if name = "prism" then some .wedge
  else if name = "pyr" then some .pyramid
  else none

/-- The positions taken by `mapEleVConnectivity`, openFoamFiles_native.cpp 588-626. -/
def order : EType → List Nat
  | .tetra => [2, 1, 3, 0]
  | .hexa => [0, 3, 7, 4, 1, 2, 6, 5]
  | .wedge => [0, 2, 1, 3, 5, 4]
  | .pyramid => [3, 2, 1, 0, 4]
  | .polyhedron => []

/-- `mapEleVConnectivity`, openFoamFiles_native.cpp 584-630; `none` when a position is outside the vector. -/
def mapEle (foam : List Nat) (e : EType) : Option (List Nat) := (order e).mapM fun i => foam[i]?

/-- A patch of the boundary. -/
structure Patch where
  name : String
  start : Nat
  size : Nat
  deriving DecidableEq, Repr

/-- What `fvMesh` tells of a mesh, IOOFOAM.cpp 577-591 and 1070: the points (a type of coordinates), the cells as
lists of faces, the shapes of the cells with their vertices, the faces, their owners and neighbours (the latter for
the internal faces, which come first) and the patches. -/
structure Mesh (P : Type) where
  points : List P
  cells : List (List Nat)
  shapes : List (String × List Nat)
  faces : List (List Nat)
  owner : List Nat
  neighbour : List Nat
  patches : List Patch
  deriving DecidableEq, Repr

variable {P : Type}

/-- The vertices of a face as listed for the polyhedron `iC`, IOOFOAM.cpp 622-650. -/
def faceOf (M : Mesh P) (iC iFace : Nat) : Option (List Nat) :=
  match M.faces[iFace]? with
  | none => none
  | some f =>
    if iFace ≥ M.neighbour.length then some f
    else
      match M.owner[iFace]?, M.neighbour[iFace]? with
      | some o, some nb =>
        if (if iC = o then nb > iC else o > iC) then some f else some f.reverse
      | _, _ => none

/-- The connectivity of a polyhedron, IOOFOAM.cpp 618-651. -/
def polyConn (M : Mesh P) (iC : Nat) (fs : List Nat) : Option (List Nat) :=
  (fs.mapM (faceOf M iC)).map fun vs => fs.length :: vs.flatMap fun v => v.length :: v

/-- The type and the connectivity of a cell, IOOFOAM.cpp 601-652. -/
def cellOf (M : Mesh P) (iC : Nat) : Option (EType × List Nat) :=
  match M.shapes[iC]?, M.cells[iC]? with
  | some s, some fs =>
    match supported s.1 with
    | some e => (mapEle s.2 e).map fun c => (e, c)
    | none => (polyConn M iC fs).map fun c => (.polyhedron, c)
  | _, _ => none

/-- The bulk: vertices with ids and cells with ids, IOOFOAM.cpp 577-654. -/
def bulkVertices (M : Mesh P) : List (Nat × P) := (List.range M.points.length).zip M.points

def bulkCells (M : Mesh P) : Option (List (Nat × EType × List Nat)) :=
  (List.range M.cells.length).mapM fun iC => (cellOf M iC).map fun c => (iC, c)

/-! ## The map of the faces -/

/-- `std::equal` of two iterators and one, IOOFOAM.cpp 1052; `none` when the second range is left. -/
def stdEqual : List Nat → List Nat → Option Bool
  | [], _ => some true
  | _ :: _, [] => none
  | x :: a, y :: b => if x = y then stdEqual a b else some false

/-- `std::sort`. -/
def sort (l : List Nat) : List Nat := l.mergeSort (fun a b => decide (a ≤ b))

/-- The loop on the interfaces of the owner, IOOFOAM.cpp 1044-1057; the null id is -1. -/
def findFace (vOF : List Nat) : List (Nat × List Nat) → Option Int
  | [] => some (-1)
  | i :: is =>
    match stdEqual (sort i.2) (sort vOF) with
    | none => none
    | some true => some i.1
    | some false => findFace vOF is

/-- `m_OFbitpitmapfaces`, as a list of pairs. -/
abbrev FaceMap := List (Nat × Int)

def FaceMap.get (m : FaceMap) (k : Nat) : Option Int := (m.find? (·.1 == k)).map Prod.snd

/-- `insert`, IOOFOAM.cpp 1058: nothing when the key is there. -/
def FaceMap.insert (m : FaceMap) (k : Nat) (v : Int) : FaceMap :=
  if (m.get k).isSome then m else m ++ [(k, v)]

/-- The loop on the faces, IOOFOAM.cpp 1032-1059.  `ifs` gives the interfaces (id and vertices) of a cell, which
bitpit builds.  The faces go with their numbers. -/
def mapFaces (owner : List Nat) (ifs : Nat → List (Nat × List Nat)) :
    List (Nat × List Nat) → FaceMap → Option FaceMap
  | [], m => some m
  | f :: fs, m =>
    match owner[f.1]? with
    | none => none
    | some c =>
      match findFace f.2 (ifs c) with
      | none => none
      | some i => mapFaces owner ifs fs (m.insert f.1 i)

/-- `operator[]` of the map for reading, IOOFOAM.cpp 1079: 0 for a missing key (which it inserts). -/
def FaceMap.at (m : FaceMap) (k : Nat) : Int := (m.get k).getD 0

/-- The PIDs of the boundary, IOOFOAM.cpp 1074-1083: `setPIDCell` for the faces of each patch. -/
def setPids (m : FaceMap) : List Patch → Nat → (Int → Nat) → (Int → Nat)
  | [], _, pid => pid
  | p :: ps, iB, pid =>
    setPids m ps (iB + 1)
      ((List.range' p.start p.size).foldl (fun q ind => fun c => if c = m.at ind then iB + 1 else q c) pid)

/-! ## The case -/

/-- What `initializeCase` keeps in its static variables, openFoamFiles_native.cpp 446-472: the directory of the
case of the first call, and its mesh. -/
abbrev Statics (P : Type) := Option (String × Mesh P)

/-- `initializeCase`, openFoamFiles_native.cpp 405-476. -/
def initializeCase (disk : String → Mesh P) (st : Statics P) (dir : String) : (String × Mesh P) × Statics P :=
  match st with
  | some c => (c, st)
  | none => ((dir, disk dir), some (dir, disk dir))

/-- The vertices of the bulk which `IOOFOAM::read` gives for a directory, IOOFOAM.cpp 566-585. -/
def readVertices (disk : String → Mesh P) (st : Statics P) (dir : String) : List (Nat × P) × Statics P :=
  let r := initializeCase disk st dir
  (bulkVertices r.1.2, r.2)

/-- A set of points written on disk: where, at the current time or at a new one, and the points. -/
structure Written (P : Type) where
  dir : String
  current : Bool
  points : List P
  deriving DecidableEq, Repr

/-- `writePointsOnCase`, openFoamFiles_native.cpp 522-573: `none` for false.  The mesh in memory is moved. -/
def writePoints (disk : String → Mesh P) (st : Statics P) (dir : String) (pts : List P) (overwrite : Bool) :
    Option (Written P) × Statics P :=
  let r := initializeCase disk st dir
  if r.1.2.points.length ≠ pts.length then (none, r.2)
  else (some ⟨r.1.1, overwrite, pts⟩, some (r.1.1, { r.1.2 with points := pts }))

/-- `IOOFOAM::writePointsOnly`, serial, IOOFOAM.cpp 1113-1152: the coordinates in the order of the vertices. -/
def writeVertices (disk : String → Mesh P) (st : Statics P) (dir : String) (vs : List (Nat × P)) (overwrite : Bool) :
    Option (Written P) × Statics P :=
  writePoints disk st dir (vs.map Prod.snd) overwrite

/-- `getPatchName`, openFoamFiles_native.cpp 353-368; `none` when the list of the patches is left. -/
def patchName (M : Mesh P) (i : Int) : Option String :=
  if i > (M.patches.length : Int) ∨ i < 0 then some ""
  else (M.patches[i.toNat]?).map Patch.name

/-- `getPatchIndex`, openFoamFiles_native.cpp 378-396. -/
def patchIndex (M : Mesh P) (name : String) : Int :=
  match M.patches.findIdx? (·.name == name) with
  | some n => n
  | none => -1

/-! ## The options -/

/-- The members set by the options of IOOFOAM. -/
structure Options where
  overwrite : Bool
  pointsOnly : Bool
  deriving DecidableEq, Repr

/-- `IOOFOAM::setDefaults`, IOOFOAM.cpp 408-412. -/
def Options.fresh : Options := ⟨false, true⟩

/-- The value of an option, IOOFOAM.cpp 501-505, 510-514. -/
def optValue (t : Text) (dflt : Bool) : Bool := if t = [] then dflt else readBool (trim t)

/-- `IOOFOAM::absorbSectionXML`, IOOFOAM.cpp 493-518: the first option too is given to `setOverwrite`. -/
def absorb (s : Section) (o : Options) : Options :=
  let o1 := match s "WritePointsOnly" with
    | some t => { o with overwrite := optValue t true }
    | none => o
  match s "Overwrite" with
  | some t => { o1 with overwrite := optValue t false }
  | none => o1

/-- `std::to_string` of a flag. -/
def flag (b : Bool) : Text := if b then ['1'] else ['0']

/-- `IOOFOAM::flushSectionXML`, IOOFOAM.cpp 526-533. -/
def flush (o : Options) (s : Section) : Section :=
  (s.set "WritePointsOnly" (flag o.overwrite)).set "Overwrite" (flag o.overwrite)

end Verif.Foam
