import Verif.Obj.Model
/-!
# The writer of OBJ files

Transcription of `write` and of what it calls, `src/iogeneric/IOWavefrontOBJ.cpp` 1864-1963, 2467-2628,
and of `WavefrontOBJData::syncListsOnData`, 75-131.  The three tests at the beginning of `write`
(1865-1881), the parallel version and the opening of the file are not modelled; `autoCompleteCellFields`
(1884) has been called, so that every cell has a material, a group and a smoothing group.
-/
namespace Verif.Obj

/-- A cell with its attributes. -/
structure WCell where
  id : Int
  conn : List Int
  pid : Int
  mat : String := ""
  grp : String := ""
  smooth : Int := 0
  deriving DecidableEq, Repr

/-- The object of the textures or of the normals: its vertices, and its cells by their ids, which are those
of the geometry. -/
structure Side (α : Type) where
  verts : List (Int × Pt α)
  conn : List (Int × List Int)
  deriving DecidableEq, Repr

/-- The geometry with its data; `parts` are the PIDs with their names by increasing PID
(`mapParts`, IOWavefrontOBJ.cpp 1915-1919). -/
structure Mesh (α : Type) where
  verts : List (Int × Pt α)
  cells : List WCell
  parts : List (Int × String)
  txt : Option (Side α) := none
  nrm : Option (Side α) := none
  deriving DecidableEq, Repr

/-- What happens to numbers and names on their way to the file and back, and the order in which an
`unordered_set` gives its elements: `rd` is the number read from the six digits written, `split` are the
words of a name, `trim` drops the blanks around it, `bag` lists the elements of a set. -/
structure Fmt (α : Type) where
  rd : α → α
  split : String → List String
  trim : String → String
  bag : List Int → List Int
  uv : Bool := false

/-- The keys of the materials or of the groups, IOWavefrontOBJ.cpp 77-107: zero for the empty name, then
one, two... in the order of the first cell with that name.  The second component is the next key. -/
def syncStep (s : List (String × Nat) × Nat) (x : String) : List (String × Nat) × Nat :=
  if (s.1.map Prod.fst).contains x then s
  else if x = "" then (s.1 ++ [(x, 0)], s.2)
  else (s.1 ++ [(x, s.2)], s.2 + 1)

def syncKeys (xs : List String) : List (String × Nat) := (xs.foldl syncStep ([], 1)).1

/-- `inv_materialsList.at(key)`, IOWavefrontOBJ.cpp 117-125. -/
def unkey (ks : List (String × Nat)) (k : Nat) : Option String := (ks.find? fun e => e.2 == k).map Prod.fst

/-- The written indices, `vinsertion_maps`: the vertex at place `k` has index `k + 1`; and the active
group, material and smoothing group, IOWavefrontOBJ.cpp 1888-1899. -/
structure Pen where
  v : List Int := []
  t : List Int := []
  n : List Int := []
  g : Int := -1000
  m : Nat := 0
  s : Int := 0
  deriving DecidableEq, Repr

/-- The loops which write the points, IOWavefrontOBJ.cpp 2480-2508: points already written are skipped,
`at` throws on a vertex which does not exist. -/
def emitPts {α : Type} (mk : Pt α → Line α) (verts : List (Int × Pt α)) :
    List Int → List Int → Option (List (Line α) × List Int)
  | [], seen => some ([], seen)
  | id :: ids, seen =>
    if seen.contains id then emitPts mk verts ids seen
    else do
      let p ← verts.lookup id
      let r ← emitPts mk verts ids (seen ++ [id])
      some (mk p :: r.1, r.2)

/-- `vinsertion_maps[k].at(id)`. -/
def index (seen : List Int) (id : Int) : Option Int :=
  if seen.contains id then some (seen.idxOf id + 1) else none

/-- The texture or the normal of a corner; reading past the end of a connectivity is undefined. -/
def sideIndex (seen : List Int) : Option (List Int) → Option (Option Int)
  | none => some none
  | some [] => none
  | some (x :: _) => (index seen x).map some

/-- The corners of a facet, IOWavefrontOBJ.cpp 2543-2592. -/
def refsOf (p : Pen) : List Int → Option (List Int) → Option (List Int) → Option (List Ref)
  | [], _, _ => some []
  | v :: vs, t, n => do
    let i ← index p.v v
    let j ← sideIndex p.t t
    let k ← sideIndex p.n n
    let r ← refsOf p vs (t.map List.tail) (n.map List.tail)
    some (⟨i, j, k⟩ :: r)

/-- The connectivity of a cell in the textures or in the normals: none without them, `at` throws when the
cell is not there. -/
def sideConn {α : Type} (S : Option (Side α)) (id : Int) : Option (Option (List Int)) :=
  match S with
  | none => some none
  | some S => (S.conn.lookup id).map some

/-- The keys of the materials and of the groups of a mesh, IOWavefrontOBJ.cpp 1885. -/
def matKeys {α : Type} (M : Mesh α) : List (String × Nat) := syncKeys (M.cells.map WCell.mat)
def grpKeys {α : Type} (M : Mesh α) : List (String × Nat) := syncKeys (M.cells.map WCell.grp)

/-- The name of a group: the empty name is that of the object, IOWavefrontOBJ.cpp 2517-2520. -/
def grpName (name : String) (ks : List (String × Nat)) (k : Nat) : Option String :=
  if k = 0 then some name else unkey ks k

/-- The lines of a cell, IOWavefrontOBJ.cpp 2514-2593: the group, the material and the smoothing group are
written when they are not the active ones.  The three nested loops of the code are one here: no list of
the tree is empty. -/
def emitCell {α : Type} (F : Fmt α) (M : Mesh α) (name : String) (p : Pen) (c : WCell) :
    Option (List (Line α) × Pen) := do
  let gk ← (grpKeys M).lookup c.grp
  let mk ← (matKeys M).lookup c.mat
  let gs ← grpName name (grpKeys M) gk
  let ms ← unkey (matKeys M) mk
  let tc ← sideConn M.txt c.id
  let nc ← sideConn M.nrm c.id
  let refs ← refsOf p c.conn tc nc
  some ((if p.g ≠ gk then [.g (F.split gs)] else []) ++
      (if p.m ≠ mk then [.usemtl (F.split ms)] else []) ++
      (if p.s ≠ c.smooth then [.s (some (if c.smooth = 0 then none else some c.smooth))] else []) ++
      [.f refs true],
    { p with g := gk, m := mk, s := c.smooth })

/-- The lines of a list of cells. -/
def emitCells {α : Type} (F : Fmt α) (M : Mesh α) (name : String) :
    List WCell → Pen → Option (List (Line α) × Pen)
  | [], p => some ([], p)
  | c :: cs, p => do
    let a ← emitCell F M name p c
    let b ← emitCells F M name cs a.2
    some (a.1 ++ b.1, b.2)

/-- The key of a name, zero when it has none (it always has). -/
def keyOf (ks : List (String × Nat)) (x : String) : Nat := (ks.lookup x).getD 0

/-- `regroupCells`, IOWavefrontOBJ.cpp 2606-2628: the cells by increasing key of the group, then of the
material, then in their order. -/
def regroup {α : Type} (M : Mesh α) (cs : List WCell) : List WCell :=
  (List.range ((grpKeys M).length + 1)).flatMap fun g =>
    (List.range ((matKeys M).length + 1)).flatMap fun m =>
      cs.filter fun c => keyOf (grpKeys M) c.grp == g && keyOf (matKeys M) c.mat == m

/-- The blocks of an object in the file. -/
structure Out (α : Type) where
  name : String
  vs : List (Line α)
  ts : List (Line α)
  ns : List (Line α)
  body : List (Line α)

/-- The coordinates on a `v` or `vn` line, and on a `vt` line, IOWavefrontOBJ.cpp 2484, 2494-2496, 2505;
with two coordinates a blank follows them. -/
def Fmt.three {α : Type} (F : Fmt α) (p : Pt α) : List α := [F.rd p.1, F.rd p.2.1, F.rd p.2.2]
def Fmt.vt {α : Type} (F : Fmt α) (p : Pt α) : Line α :=
  if F.uv then .vt [F.rd p.1, F.rd p.2.1] true else .vt (F.three p) false

/-- The vertices of the textures or of the normals for a list of cells (`getVertexFromCellList`). -/
def sideVerts {α : Type} (F : Fmt α) (S : Option (Side α)) (cs : List WCell) : List Int :=
  match S with
  | none => []
  | some S => F.bag (cs.flatMap fun c => (S.conn.lookup c.id).getD [])

def sidePts {α : Type} (S : Option (Side α)) : List (Int × Pt α) :=
  match S with
  | none => []
  | some S => S.verts

/-- An object, IOWavefrontOBJ.cpp 1924-1949 and `writeObjectData`, 2467-2597. -/
def writeObj {α : Type} (F : Fmt α) (M : Mesh α) (part : Int × String) (p : Pen) : Option (Out α × Pen) := do
  let cs := M.cells.filter fun c => c.pid == part.1
  let a ← emitPts (fun q => .v (F.three q) false) M.verts (F.bag (cs.flatMap WCell.conn)) p.v
  let b ← emitPts F.vt (sidePts M.txt) (sideVerts F M.txt cs) p.t
  let c ← emitPts (fun q => .vn (F.three q) false) (sidePts M.nrm) (sideVerts F M.nrm cs) p.n
  let d ← emitCells F M part.2 (regroup M cs) { p with v := a.2, t := b.2, n := c.2, g := -1000 }
  some (⟨F.trim part.2, a.1, b.1, c.1, d.1⟩, d.2)

/-- The lines of an object. -/
def Out.lines {α : Type} (o : Out α) : List (Line α) := .obj o.name :: (o.vs ++ (o.ts ++ (o.ns ++ o.body)))

/-- The loop on the parts, IOWavefrontOBJ.cpp 1924-1949. -/
def writeParts {α : Type} (F : Fmt α) (M : Mesh α) : List (Int × String) → Pen → Option (List (Out α))
  | [], _ => some []
  | part :: ps, p => do
    let a ← writeObj F M part p
    let b ← writeParts F M ps a.2
    some (a.1 :: b)

/-- `write`, IOWavefrontOBJ.cpp 1864-1963: two comments and the name of the file of the materials, then the
objects. -/
def write {α : Type} (F : Fmt α) (M : Mesh α) : Option (List (Line α)) := do
  let os ← writeParts F M M.parts {}
  some ([.other, .other, .other] ++ os.flatMap Out.lines)

end Verif.Obj
