import Verif.Mesh.Model
/-
The block `mimmo::MeshChecker` (src/utils/MeshChecker.cpp), serial.  `double` is `Rat`.  What bitpit computes from the mesh is given
with it: adjacencies, interfaces, volumes, centres, normals and areas; volumes and areas are not negative.  The
angle `std::acos(a·b / (|a||b|))` is a function `ang` of both vectors.  Writing of files is not modelled.
-/
namespace Verif.Check
open Verif.Field Verif.Mesh

/-- `darray3E` and what is computed with it -/
structure R3 where
  x : Rat
  y : Rat
  z : Rat
deriving DecidableEq, Repr

def R3.sub (a b : R3) : R3 := ⟨a.x - b.x, a.y - b.y, a.z - b.z⟩
def R3.neg (a : R3) : R3 := ⟨-1 * a.x, -1 * a.y, -1 * a.z⟩
def R3.dot (a b : R3) : Rat := a.x * b.x + a.y * b.y + a.z * b.z

/-- an interface: owner, neighbour (`none`: `isBorder()`), centre, normal and area -/
structure Face where
  owner : Nat
  neigh : Option Nat
  centre : R3
  normal : R3
  area : Rat
deriving DecidableEq, Repr

/-- a geometry and what bitpit computes from it: adjacencies of a cell (`none`: -1), interfaces, volumes and centres of cells -/
structure Geo (P : Type) where
  obj : Obj P
  adj : Nat → List (Option Nat)
  faces : List Face
  vol : Nat → Rat
  centre : Nat → R3

/-- the indicators found, src/utils/MeshChecker.hpp:149-155 (`m_maxFaceValidity` is never used); values of `setDefault`,
src/utils/MeshChecker.cpp:124-130 -/
structure Found where
  minVol : Rat := 1000000000000000000
  maxVol : Rat := 0
  skew : Rat := 0
  bskew : Rat := 0
  face : Rat := 1
  change : Rat := 1
deriving DecidableEq, Repr

/-- the tolerances, src/utils/MeshChecker.hpp:158-163 -/
structure Tols where
  minVol : Rat
  maxVol : Rat
  skew : Rat
  bskew : Rat
  face : Rat
  change : Rat
deriving DecidableEq, Repr

/-- the four objects that hold the sick cells, src/utils/MeshChecker.hpp:173-176 -/
structure Parts (P : Type) where
  volume : Obj P
  change : Obj P
  skew : Obj P
  face : Obj P

/-- `std::min`, `std::max` -/
def minD (a b : Rat) : Rat := if b < a then b else a
def maxD (a b : Rat) : Rat := if a < b then b else a

/-- `a / b` for numbers that are not negative; `none`: infinity or NaN, which neither `std::min(x, ·)` nor `· < x` see -/
def quot (a b : Rat) : Option Rat := if b = 0 then none else some (a / b)

/-- `std::min(a, q)` -/
def minQ (a : Rat) (q : Option Rat) : Rat :=
  match q with
  | none => a
  | some b => minD a b

/-- `q < t` -/
def ltQ (q : Option Rat) (t : Rat) : Bool :=
  match q with
  | none => false
  | some b => decide (b < t)

variable {P : Type}

/-- the ids met from `internalCellBegin()` to `internalCellEnd()` -/
def internals (g : Geo P) : List Nat := (g.obj.cells.filter (fun c => c.2.interior)).map Prod.fst

/-- the loop on the neighbours, src/utils/MeshChecker.cpp:415-422 -/
def ratioOf (g : Geo P) (id : Nat) : Rat :=
  (g.adj id).foldl (fun r n =>
    match n with
    | none => r
    | some n => minQ r (quot (g.vol id) (g.vol n))) 1

/-- one vertex added if it is missing, src/utils/MeshChecker.cpp:442-446; `none`: `at` throws -/
def addV (g : Geo P) (r : Obj P) (v : Nat) : Option (Obj P) :=
  if has r.verts v then some r else (get g.obj.verts v).map fun p => (addVertex r 0 p (some v)).1

/-- one sick cell, src/utils/MeshChecker.cpp:438-448, 450-460, 624-634; `none`: `at` throws -/
def addC (g : Geo P) (r : Obj P) (id : Nat) : Option (Obj P) :=
  (get g.obj.cells id).bind fun c => ((vertexIds c).foldlM (addV g) r).map fun r => (addCell r 0 c (some id)).1

/-- the loop on the sick cells -/
def addCs (g : Geo P) (r : Obj P) (ids : List Nat) : Option (Obj P) := ids.foldlM (addC g) r

/-- one turn of the loop on the cells, src/utils/MeshChecker.cpp:401-428 -/
def volStep (t : Tols) (g : Geo P) (s : Found × List Nat × List Nat) (id : Nat) : Found × List Nat × List Nat :=
  let vol := g.vol id
  let ratio := ratioOf g id
  ({ s.1 with minVol := minD s.1.minVol vol, maxVol := maxD s.1.maxVol vol, change := minD s.1.change ratio },
    s.2.1 ++ (if vol < t.minVol then [id] else []) ++ (if t.maxVol < vol then [id] else []),
    s.2.2 ++ (if ratio < t.change then [id] else []))

/-- `checkVolume`, src/utils/MeshChecker.cpp:390-472: what is found, and the parts (`none`: exception) -/
def checkVolume (t : Tols) (g : Geo P) (f : Found) (p : Parts P) : Found × Option (Parts P) :=
  let (f, sv, sc) := (internals g).foldl (volStep t g) (f, [], [])
  (f, (addCs g p.volume sv).bind fun v => (addCs g p.change sc).map fun c => { p with volume := v, change := c })

/-- the angle of an interface, src/utils/MeshChecker.cpp:491-493 and 499-501 -/
def angleOf (ang : R3 → R3 → Rat) (g : Geo P) (i : Face) : Rat :=
  match i.neigh with
  | some n => ang ((g.centre n).sub (g.centre i.owner)) i.normal
  | none => ang (i.centre.sub (g.centre i.owner)) i.normal

/-- one turn of the loop on the interfaces, src/utils/MeshChecker.cpp:489-507 -/
def skewStep (ang : R3 → R3 → Rat) (t : Tols) (g : Geo P) (s : Found × List Face × List Face) (i : Face) : Found × List Face × List Face :=
  let a := angleOf ang g i
  match i.neigh with
  | some _ => ({ s.1 with skew := maxD s.1.skew a }, s.2.1 ++ (if t.skew < a then [i] else []), s.2.2)
  | none => ({ s.1 with bskew := maxD s.1.bskew a }, s.2.1, s.2.2 ++ (if t.bskew < a then [i] else []))

/-- one side of a sick interface, src/utils/MeshChecker.cpp:526-535 and 537-546 -/
def addSide (g : Geo P) (r : Obj P) (id : Nat) : Option (Obj P) :=
  (get g.obj.cells id).bind fun c => if c.interior && !has r.cells id then addC g r id else some r

/-- one sick interface, src/utils/MeshChecker.cpp:520-547; both cells are looked up first -/
def addFace (g : Geo P) (r : Obj P) (i : Face) : Option (Obj P) :=
  (get g.obj.cells i.owner).bind fun _ => (i.neigh.bind (get g.obj.cells)).bind fun _ =>
    (addSide g r i.owner).bind fun r => addSide g r (i.neigh.getD 0)

/-- `checkSkewness`, src/utils/MeshChecker.cpp:477-557 -/
def checkSkewness (ang : R3 → R3 → Rat) (t : Tols) (g : Geo P) (f : Found) (p : Parts P) : Found × Option (Parts P) :=
  if g.obj.type ≠ 2 then (f, some p)
  else
    let (f, sick, _) := g.faces.foldl (skewStep ang t g) (f, [], [])
    (f, (sick.foldlM (addFace g) p.skew).map fun r => { p with skew := r })

/-- `map[k] += v` -/
def addAt (m : Nat → Rat) (k : Nat) (v : Rat) : Nat → Rat := fun j => if j = k then m k + v else m j

/-- one side of an interface, src/utils/MeshChecker.cpp:586-600; maps `areaGood`, `sumArea` -/
def areaSide (g : Geo P) (i : Face) (normal : R3) (m : (Nat → Rat) × (Nat → Rat)) (id : Nat) : (Nat → Rat) × (Nat → Rat) :=
  (if 0 < (i.centre.sub (g.centre id)).dot normal then addAt m.1 id i.area else m.1, addAt m.2 id i.area)

/-- one turn of the loop on the interfaces, src/utils/MeshChecker.cpp:581-602 -/
def areaStep (g : Geo P) (m : (Nat → Rat) × (Nat → Rat)) (i : Face) : (Nat → Rat) × (Nat → Rat) :=
  let m := areaSide g i i.normal m i.owner
  match i.neigh with
  | none => m
  | some n => areaSide g i i.normal.neg m n

/-- the two maps after the loop, src/utils/MeshChecker.cpp:575-602 -/
def areas (g : Geo P) : (Nat → Rat) × (Nat → Rat) := g.faces.foldl (areaStep g) (fun _ => 0, fun _ => 0)

/-- one turn of the loop on the cells, src/utils/MeshChecker.cpp:606-613 -/
def faceStep (t : Tols) (m : (Nat → Rat) × (Nat → Rat)) (s : Found × List Nat) (id : Nat) : Found × List Nat :=
  let q := quot (m.1 id) (m.2 id)
  ({ s.1 with face := minQ s.1.face q }, s.2 ++ (if ltQ q t.face then [id] else []))

/-- `checkFaceValidity`, src/utils/MeshChecker.cpp:562-643 -/
def checkFaceValidity (t : Tols) (g : Geo P) (f : Found) (p : Parts P) : Found × Option (Parts P) :=
  if g.obj.type ≠ 2 then (f, some p)
  else
    let (f, sick) := (internals g).foldl (faceStep t (areas g)) (f, [])
    (f, (addCs g p.face sick).map fun r => { p with face := r })

/-- the code of the last check that fails, src/utils/MeshChecker.cpp:307-374; codes of `CMeshOutput`, src/utils/MeshChecker.hpp:95-104 -/
def verdict (t : Tols) (f : Found) : Int :=
  let c := 0
  let c := if t.maxVol < f.maxVol then 6 else c
  let c := if f.minVol < t.minVol then 5 else c
  let c := if t.skew < f.skew then 4 else c
  let c := if t.bskew < f.bskew then 3 else c
  let c := if f.change < t.change then 2 else c
  if f.face < t.face then 1 else c

/-- `checkMeshQuality`, src/utils/MeshChecker.cpp:290-385: indicators, parts filled and code (-1: an exception was caught; the parts
filled are not given in that case) -/
def checkMeshQuality (ang : R3 → R3 → Rat) (t : Tols) (g : Geo P) (f : Found) (p : Parts P) : Found × Option (Parts P) × Int :=
  match checkVolume t g f p with
  | (f, none) => (f, none, -1)
  | (f, some p) =>
    match checkSkewness ang t g f p with
    | (f, none) => (f, none, -1)
    | (f, some p) =>
      match checkFaceValidity t g f p with
      | (f, none) => (f, none, -1)
      | (f, some p) => (f, some p, verdict t f)

/-- the block; geometries are handles; `parts` is empty before the first execution and after one that was not completed -/
structure Checker (P : Type) where
  geo : Option Nat := none
  tols : Tols
  found : Found := {}
  status : Int := -1
  good : Bool := false
  resume : Bool := false
  parts : Option (Parts P) := none

/-- `setDefault`, src/utils/MeshChecker.cpp:121-142; `pi` is BITPIT_PI -/
def defTols (pi : Rat) : Tols := ⟨1 / 100000000000000, 10000000000, 85 * pi / 180, 85 * pi / 180, 1 / 2, 1 / 100000⟩

/-- constructor, src/utils/MeshChecker.cpp:33-37 -/
def Checker.new (pi : Rat) : Checker P := { tols := defTols pi }

/-- `setGeometry`, src/utils/MeshChecker.cpp:187-193 -/
def Checker.setGeometry (s : Checker P) (g : Option Nat) : Checker P :=
  match g with
  | none => s
  | some i => { s with geo := some i }

/-- setters of tolerances, src/utils/MeshChecker.cpp:198-247; those of skewness are in degrees -/
def Checker.setMinVol (s : Checker P) (v : Rat) : Checker P := { s with tols := { s.tols with minVol := v } }
def Checker.setMaxVol (s : Checker P) (v : Rat) : Checker P := { s with tols := { s.tols with maxVol := v } }
def Checker.setSkew (pi : Rat) (s : Checker P) (v : Rat) : Checker P := { s with tols := { s.tols with skew := v / 180 * pi } }
def Checker.setBoundarySkew (pi : Rat) (s : Checker P) (v : Rat) : Checker P := { s with tols := { s.tols with bskew := v / 180 * pi } }
def Checker.setFace (s : Checker P) (v : Rat) : Checker P := { s with tols := { s.tols with face := v } }
def Checker.setChange (s : Checker P) (v : Rat) : Checker P := { s with tols := { s.tols with change := v } }

/-- the empty objects made at each execution, src/utils/MeshChecker.cpp:155-158; `none`: exception of the constructor -/
def freshParts (type : Nat) : Option (Parts P) := (ctor (type : Int)).map fun o => ⟨o, o, o, o⟩

/-- `execute`, src/utils/MeshChecker.cpp:146-171; `none`: exception -/
def Checker.execute (ang : R3 → R3 → Rat) (w : Nat → Geo P) (s : Checker P) : Option (Checker P) :=
  s.geo.bind fun i => (freshParts (w i).obj.type).map fun p =>
    let (f, p, c) := checkMeshQuality ang s.tols (w i) s.found p
    { s with found := f, parts := p, status := c, good := decide (c = 0) }

/-- copy constructor, src/utils/MeshChecker.cpp:66-83; the base class copies the geometry -/
def Checker.copy (s : Checker P) : Checker P := { s with parts := none }

/-- `operator=`, src/utils/MeshChecker.cpp:88-116: the base class and the parts are not swapped -/
def Checker.assign (s other : Checker P) : Checker P :=
  { other.copy with geo := s.geo, parts := s.parts }

/-- what `plotOptionalResults` writes, src/utils/MeshChecker.cpp:670-715: the parts that are not empty; `none`: a null pointer is
dereferenced -/
def Checker.plot (s : Checker P) : Option (List (Obj P)) :=
  if s.geo = none ∨ s.status = -1 then some []
  else s.parts.map fun p => [p.volume, p.change, p.skew, p.face].filter fun o => !o.cells.isEmpty

/-! ### XML -/

/-- options of a section: absent, empty (`some none`) or a number -/
structure CheckXml where
  minVol : Option (Option Rat) := none
  maxVol : Option (Option Rat) := none
  skew : Option (Option Rat) := none
  bskew : Option (Option Rat) := none
  face : Option (Option Rat) := none
  change : Option (Option Rat) := none
  resume : Option Bool := none
deriving DecidableEq

/-- an option: absent, the setter is not called; empty, it is called with `d` -/
def opt {α : Type} (o : Option (Option Rat)) (d : Rat) (set : α → Rat → α) (s : α) : α :=
  match o with
  | none => s
  | some v => set s (v.getD d)

/-- `absorbSectionXML`, src/utils/MeshChecker.cpp:722-805 (without the base class) -/
def Checker.absorb (pi : Rat) (x : CheckXml) (s : Checker P) : Checker P :=
  let s := opt x.minVol (1 / 100000000000000) Checker.setMinVol s
  let s := opt x.maxVol 10000000000 Checker.setMaxVol s
  let s := opt x.skew (85 * pi / 180) (Checker.setSkew pi) s
  let s := opt x.bskew (85 * pi / 180) (Checker.setBoundarySkew pi) s
  let s := opt x.face (1 / 2) Checker.setFace s
  let s := opt x.change (1 / 100000) Checker.setChange s
  { s with resume := x.resume.getD s.resume }

/-- `flushSectionXML`, src/utils/MeshChecker.cpp:812-854; `sci` rounds to thirteen digits -/
def Checker.flush (sci : Rat → Rat) (s : Checker P) : CheckXml :=
  ⟨some (some (sci s.tols.minVol)), some (some (sci s.tols.maxVol)), some (some (sci s.tols.skew)), some (some (sci s.tols.bskew)),
    some (some (sci s.tols.face)), some (some (sci s.tols.change)), some s.resume⟩

end Verif.Check
