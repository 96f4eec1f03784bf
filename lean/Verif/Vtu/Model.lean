import Mathlib.Data.List.Dedup
/-!
# Reading and writing unstructured grids as VTU files

Transcription of `src/core/VTUGridReader.cpp` and of `src/core/VTUGridWriterASCII.cpp`.  A file is its data
arrays; the layout of the XML, the counts declared to `bitpit::VTKUnstructuredGrid`, the binary encodings and
the MPI ranks are not modelled, except the counts of `declared` below.  `bitpit` is trusted for the following:
the containers are visited in the same order by every array; a cell or a vertex inserted without an id gets
the first free number, which is its position when none has an id; the arrays `faces` and `faceoffsets` are
written when the number of their entries is not zero.  Coordinates are any type `P` and `rd` is what remains
of them after being printed and read.  The `int` of positions and indices are `Int`.
-/
namespace Verif.Vtu

inductive Err where
  | noConn        -- "no valid connectivity info detected", VTUGridReader.cpp 216
  | unsupported   -- "found unsupported cell elements", 226
  | noFaces       -- "POLYHEDRON info without faces and faceoffsets data", 290
  | badSize       -- a vector resized to a negative size, 293, 319
  | outOfRange    -- an access beyond the end of a vector: undefined behaviour
  | astray        -- a face with a negative count of vertices: the loop at 301 goes back or never ends
  deriving DecidableEq, Repr

/-- `bitpit::ElementType`. -/
inductive Ty where
  | vertex | line | triangle | polygon | pixel | quad | tetra | voxel | hexahedron | wedge | pyramid
  | polyhedron | undefined
  deriving DecidableEq, Repr

/-- The type written, VTUGridWriterASCII.cpp 84-140, with the numbers of `bitpit::VTKElementType`. -/
def Ty.num : Ty → Int
  | .vertex => 1
  | .line => 3
  | .triangle => 5
  | .pixel => 8
  | .quad => 9
  | .polygon => 7
  | .tetra => 10
  | .voxel => 11
  | .hexahedron => 12
  | .wedge => 13
  | .pyramid => 14
  | .polyhedron => 42
  | .undefined => -1

/-- The type read, VTUGridReader.cpp 97-150. -/
def Ty.ofNum (k : Int) : Ty :=
  if k = 1 then .vertex else if k = 3 then .line else if k = 5 then .triangle else if k = 7 then .polygon
  else if k = 8 then .pixel else if k = 9 then .quad else if k = 10 then .tetra else if k = 11 then .voxel
  else if k = 12 then .hexahedron else if k = 13 then .wedge else if k = 14 then .pyramid
  else if k = 42 then .polyhedron else .undefined

/-- A cell of `bitpit`: the connectivity of a polygon begins with the number of its vertices, that of a
polyhedron is the number of its faces followed by the faces, each a number of vertices and the vertices. -/
structure Cell where
  id : Int
  ty : Ty
  conn : List Int
  pid : Int
  deriving DecidableEq, Repr

structure Patch (P : Type) where
  verts : List (Int × P)
  cells : List Cell
  deriving DecidableEq, Repr

/-- The data arrays of a file.  `none`: the array is not in the file. -/
structure Doc (P : Type) where
  points : Option (List P) := none
  offsets : Option (List Int) := none
  types : Option (List Int) := none
  conn : Option (List Int) := none
  faces : Option (List Int) := none
  faceoffs : Option (List Int) := none
  vid : Option (List Int) := none
  cid : Option (List Int) := none
  pid : Option (List Int) := none
  deriving DecidableEq, Repr

/-! ## The writer -/

/-- The ids in the faces of a stream: `n` ids are left in the current face. -/
def streamIds : Nat → List Int → List Int
  | _, [] => []
  | 0, k :: r => streamIds k.toNat r
  | n + 1, v :: r => v :: streamIds n r

/-- `bitpit::Cell::renumberFaceStream` on the faces of a stream. -/
def renumber (f : Int → Int) : Nat → List Int → List Int
  | _, [] => []
  | 0, k :: r => k :: renumber f k.toNat r
  | n + 1, v :: r => f v :: renumber f n r

/-- `Cell::getVertexIds`.  The order of the vertices of a polyhedron is `bitpit`'s own; the reader does not
look at it. -/
def Cell.ids (c : Cell) : List Int :=
  match c.ty with
  | .polygon => c.conn.tail
  | .polyhedron => (streamIds 0 c.conn.tail).dedup
  | _ => c.conn

/-- The vertices flagged for being written, VTUGridWriterASCII.cpp 254-274, 288-295. -/
def written {P : Type} (M : Patch P) : List (Int × P) :=
  M.verts.filter fun v => M.cells.any fun c => c.ids.contains v.1

/-- `m_vtkVertexMap`, VTUGridWriterASCII.cpp 285-295: the position of a vertex among those written. -/
def vtkId {P : Type} (M : Patch P) (id : Int) : Int := ((written M).map Prod.fst).idxOf id

/-- `"offsets"`, VTUGridWriterASCII.cpp 75-80. -/
def offsetsFrom (k : Int) : List Cell → List Int
  | [] => []
  | c :: cs => (k + c.ids.length) :: offsetsFrom (k + c.ids.length) cs

/-- The entries of a cell in `"faces"`, VTUGridWriterASCII.cpp 153-164: only polyhedra are volume cells without
information on their type. -/
def faceEntries (f : Int → Int) (c : Cell) : List Int :=
  if c.ty = .polyhedron then c.conn.take 1 ++ renumber f 0 c.conn.tail else [0]

/-- `"faceoffsets"`, VTUGridWriterASCII.cpp 165-175. -/
def faceOffsetsFrom (f : Int → Int) (k : Int) : List Cell → List Int
  | [] => []
  | c :: cs => (k + (faceEntries f c).length) :: faceOffsetsFrom f (k + (faceEntries f c).length) cs

/-- `vtkFaceStreamNeeded`, VTUGridWriterASCII.cpp 257-263. -/
def needFaces {P : Type} (M : Patch P) : Bool := M.cells.any fun c => c.ty = .polyhedron

/-- The numbers of cells, of vertices, of entries of the connectivity and of the faces declared to the
library, VTUGridWriterASCII.cpp 243-297. -/
def declared {P : Type} (M : Patch P) : Nat × Nat × Nat × Nat :=
  (M.cells.length, (written M).length,
   (M.cells.map fun c => c.ids.length).sum,
   if needFaces M then
     (M.cells.map fun c => if c.ty = .polyhedron then c.conn.length else 1).sum
   else 0)

/-- `flushData`, VTUGridWriterASCII.cpp 60-216.  `none`: a cell has a vertex which is not in the patch, an
exception of the library at 272. -/
def flush {P : Type} (rd : P → P) (M : Patch P) : Option (Doc P) :=
  if M.cells.all fun c => c.ids.all fun v => (M.verts.map Prod.fst).contains v then
    some
      { points := some ((written M).map fun v => rd v.2)
        offsets := some (offsetsFrom 0 M.cells)
        types := some (M.cells.map fun c => c.ty.num)
        conn := some (M.cells.flatMap fun c => c.ids.map (vtkId M))
        faces := if needFaces M then some (M.cells.flatMap (faceEntries (vtkId M))) else none
        faceoffs := if needFaces M then some (faceOffsetsFrom (vtkId M) 0 M.cells) else none
        vid := some ((written M).map Prod.fst)
        cid := some (M.cells.map Cell.id)
        pid := some (M.cells.map Cell.pid) }
  else none

/-! ## The reader -/

/-- The members of `VTUGridStreamer`, VTUGridReader.hpp. -/
structure Raw (P : Type) where
  points : List P := []
  offsets : List Int := []
  types : List Ty := []
  conn : List Int := []
  faces : List Int := []
  faceoffs : List Int := []
  vid : List Int := []
  cid : List Int := []
  pid : List Int := []
  deriving DecidableEq, Repr

/-- `absorbData` on every array of the file, VTUGridReader.cpp 74-201. -/
def absorb {P : Type} (D : Doc P) (R : Raw P) : Raw P where
  points := D.points.getD R.points
  offsets := D.offsets.getD R.offsets
  types := (D.types.map (List.map Ty.ofNum)).getD R.types
  conn := D.conn.getD R.conn
  faces := D.faces.getD R.faces
  faceoffs := D.faceoffs.getD R.faceoffs
  vid := D.vid.getD R.vid
  cid := D.cid.getD R.cid
  pid := D.pid.getD R.pid

/-- The entries of a vector from a position to another, in a vector resized to their number,
VTUGridReader.cpp 292-298, 318-324. -/
def slice (l : List Int) (a b : Int) : Except Err (List Int) :=
  if b < a then .error .badSize
  else if b = a then .ok []
  else if a < 0 ∨ (l.length : Int) < b then .error .outOfRange
  else .ok ((l.drop a.toNat).take (b - a).toNat)

/-- `mapVert[k]`, VTUGridReader.cpp 246-255: a position which is not in the map is inserted with the value
zero. -/
def mapVert (vids : List Int) (k : Int) : Int :=
  if 0 ≤ k then vids.getD k.toNat 0 else 0

/-- The renumbering of the vertices of the faces, VTUGridReader.cpp 300-307. -/
def remap (f : Int → Int) : Nat → List Int → Except Err (List Int)
  | 0, [] => .ok []
  | _ + 1, [] => .error .outOfRange
  | 0, k :: r =>
    if k < 0 then .error .astray
    else do
      let s ← remap f k.toNat r
      .ok (k :: s)
  | n + 1, v :: r => do
    let s ← remap f n r
    .ok (f v :: s)

/-- `checkFaceOffset`, VTUGridReader.cpp 262. -/
def Raw.hasFaces {P : Type} (R : Raw P) : Bool :=
  R.faceoffs.length = R.offsets.length ∧ R.offsets.length ≤ R.faces.length

/-- The connectivity of a cell, VTUGridReader.cpp 288-325. -/
def cellConn {P : Type} (R : Raw P) (vids : List Int) (ty : Ty) (i : Nat) (pc pf off : Int) :
    Except Err (List Int) :=
  match ty with
  | .polyhedron =>
    if R.hasFaces then do
      let s ← slice R.faces pf (R.faceoffs.getD i 0)
      let t ← remap (mapVert vids) 0 s.tail
      .ok (s.take 1 ++ t)
    else .error .noFaces
  | .polygon => do
    let s ← slice R.conn pc off
    .ok ((off - pc) :: s.map (mapVert vids))
  | _ => do
    let s ← slice R.conn pc off
    .ok (s.map (mapVert vids))

/-- The loop on the cells, VTUGridReader.cpp 280-341. -/
def loop {P : Type} (R : Raw P) (vids : List Int) : List Int → Nat → Int → Int → Except Err (List Cell)
  | [], _, _, _ => .ok []
  | off :: offs, i, pc, pf =>
    match R.types[i]? with
    | none => .error .outOfRange
    | some ty => do
      let conn ← cellConn R vids ty i pc pf off
      let rest ← loop R vids offs (i + 1) off
        (if R.hasFaces ∧ 0 < R.faceoffs.getD i 0 then R.faceoffs.getD i 0 else pf)
      .ok (⟨if R.cid.dedup.length = R.offsets.length then R.cid.getD i 0 else i, ty, conn,
            if R.pid.length = R.offsets.length then R.pid.getD i 0 else 0⟩ :: rest)

/-- The ids of the vertices, VTUGridReader.cpp 240-255. -/
def Raw.vids {P : Type} (R : Raw P) : List Int :=
  if R.vid.dedup.length = R.points.length then R.vid
  else (List.range R.points.length).map Int.ofNat

/-- `decodeRawData`, VTUGridReader.cpp 208-342.  The labels are taken to be ids which `bitpit` accepts. -/
def decode {P : Type} (R : Raw P) : Except Err (Patch P) :=
  if R.conn.length < R.offsets.length then .error .noConn
  else if R.types.contains .undefined then .error .unsupported
  else do
    let cells ← loop R R.vids R.offsets 0 0 0
    .ok ⟨R.vids.zip R.points, cells⟩

/-- `VTUGridReader::read` with a streamer whose members are `R`, VTUGridReader.cpp 508-528. -/
def read {P : Type} (D : Doc P) (R : Raw P := {}) : Except Err (Patch P) := decode (absorb D R)

end Verif.Vtu
