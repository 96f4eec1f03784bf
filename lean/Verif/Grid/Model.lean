import Verif.Shape.Model
/-
Structured meshes on elementary shapes: `mimmo::UStructMesh` (src/core/BasicMeshes.cpp, src/core/BasicMeshes.hpp) and the
degrees of freedom of `mimmo::Lattice` (src/core/Lattice.cpp).

`double` is ℝ and `int` is ℤ (no rounding, no overflow).  `none` stands for undefined behaviour: an access out of a vector,
a null shape, a division by zero.  Plotting and XML are not modelled.
-/
namespace Verif.Grid
open Real Verif.Shape

noncomputable section
open scoped Classical

/-- members of `UStructMesh`, src/core/BasicMeshes.hpp:47-73 -/
structure Grid where
  shape : Option Shape
  nx : Int
  ny : Int
  nz : Int
  dx : ℝ
  dy : ℝ
  dz : ℝ
  xnode : List ℝ
  ynode : List ℝ
  znode : List ℝ
  xedge : List ℝ
  yedge : List ℝ
  zedge : List ℝ
  setorigin : Bool
  setspan : Bool
  setinf : Bool
  setref : Bool
  built : Bool
  origin : V3
  span : V3
  inf : V3
  ref : M3

/-- `UStructMesh()`, src/core/BasicMeshes.cpp:35-51 -/
def new : Grid where
  shape := none
  nx := 0
  ny := 0
  nz := 0
  dx := 0
  dy := 0
  dz := 0
  xnode := []
  ynode := []
  znode := []
  xedge := []
  yedge := []
  zedge := []
  setorigin := false
  setspan := false
  setinf := false
  setref := false
  built := false
  origin := ⟨0, 0, 0⟩
  span := ⟨1, 1, 1⟩
  inf := ⟨0, 0, 0⟩
  ref := .one

/-- the copy constructor, src/core/BasicMeshes.cpp:62-123: member by member, the shape being copied with its own type -/
def copy (other : Grid) : Grid :=
  { shape := other.shape
    nx := other.nx
    ny := other.ny
    nz := other.nz
    dx := other.dx
    dy := other.dy
    dz := other.dz
    xnode := other.xnode
    ynode := other.ynode
    znode := other.znode
    xedge := other.xedge
    yedge := other.yedge
    zedge := other.zedge
    setorigin := other.setorigin
    setspan := other.setspan
    setinf := other.setinf
    setref := other.setref
    built := other.built
    origin := other.origin
    span := other.span
    inf := other.inf
    ref := other.ref }

/-- `swap`, src/core/BasicMeshes.cpp:139-203: all members are exchanged, the shapes only if the argument has one -/
def swap (g x : Grid) : Grid × Grid :=
  match x.shape with
  | some s => ({ x with shape := some s }, { g with shape := g.shape })
  | none => ({ x with shape := g.shape }, { g with shape := none })

/-- `operator=`, src/core/BasicMeshes.cpp:128-131: the argument is a copy, swapped with the object -/
def assign (g other : Grid) : Grid := (swap g (copy other)).1

/-! Getters -/

/-- `getOrigin`, `getSpan`, `getInfLimits`, `getRefSystem`, src/core/BasicMeshes.cpp:223-250 -/
def getOrigin (g : Grid) : V3 := match g.shape with | none => g.origin | some s => s.origin
def getSpanG (g : Grid) : V3 := match g.shape with | none => g.span | some s => getSpan s
def getInf (g : Grid) : V3 := match g.shape with | none => g.inf | some s => s.inf
def getRef (g : Grid) : M3 := match g.shape with | none => g.ref | some s => s.sdr

/-- `getShapeType`, src/core/BasicMeshes.cpp:271-274; `m_shapetype_temp` is never written after the constructor -/
def getKind (g : Grid) : Kind := match g.shape with | none => .cube | some s => s.kind

/-- `getLocalSpan`, src/core/BasicMeshes.cpp:263-266 -/
def getLocalSpan (g : Grid) : V3 := match g.shape with | none => ⟨1, 1, 1⟩ | some s => s.span

/-- `getScaling` and `getSpacing`, src/core/BasicMeshes.cpp:255-258 and 327-332 -/
def getSpacing (g : Grid) : V3 :=
  let scale : V3 := match g.shape with | none => ⟨1, 1, 1⟩ | some s => s.scaling
  ⟨g.dx * scale.x, g.dy * scale.y, g.dz * scale.z⟩

/-- `getDimension`, src/core/BasicMeshes.cpp:337-344 -/
def getDimension (g : Grid) : Int × Int × Int := (g.nx + 1, g.ny + 1, g.nz + 1)

/-! Setters -/

/-- `setOrigin`, src/core/BasicMeshes.cpp:541-548 -/
def setOriginG (g : Grid) (o : V3) : Grid :=
  match g.shape with
  | none => { g with origin := o, setorigin := true }
  | some s => { g with shape := some (setOrigin s o) }

/-- `setSpan`, src/core/BasicMeshes.cpp:558-579 -/
def setSpanG (g : Grid) (v : V3) : Grid :=
  match g.shape with
  | none => { g with span := v, setspan := true, built := false }
  | some s => { g with shape := some (setSpan s v), built := false }

/-- `a[dir] = v` on a `darray3E`; `none` out of the array -/
def V3.put (a : V3) (v : ℝ) (dir : Int) : Option V3 :=
  if dir = 0 then some { a with x := v } else if dir = 1 then some { a with y := v } else if dir = 2 then some { a with z := v } else none

/-- `setInfLimits(double, int)`, src/core/BasicMeshes.cpp:588-595 -/
def setInfG (g : Grid) (v : ℝ) (dir : Int) : Option Grid :=
  match g.shape with
  | none => (V3.put g.inf v dir).map (fun i => { g with inf := i, setinf := true })
  | some s => some { g with shape := some (setInf s v dir) }

/-- `setInfLimits(darray3E)`, src/core/BasicMeshes.cpp:603-607 -/
def setInfAllG (g : Grid) (v : V3) : Option Grid := do
  let g ← setInfG g v.x 0
  let g ← setInfG g v.y 1
  setInfG g v.z 2

/-- `setRefSystem(axis0, axis1, axis2)` and `setRefSystem(axes)`, src/core/BasicMeshes.cpp:619-629 and 658-668 -/
def setRef3G (g : Grid) (a b c : V3) : Grid :=
  match g.shape with
  | none => { g with ref := ⟨a, b, c⟩, setref := true }
  | some s => { g with shape := some (setRef3 s a b c) }

/-- `setRefSystem(label, axis)`, src/core/BasicMeshes.cpp:638-650 (`none`: not-a-number axes) -/
def setRef1G (g : Grid) (label : Int) (axis : V3) : Option Grid :=
  match g.shape with
  | none => (setRef1 (basic .cube) label axis).map (fun c => { g with ref := c.sdr, setref := true })
  | some s => (setRef1 s label axis).map (fun s => { g with shape := some s })

/-- `setDimension`, src/core/BasicMeshes.cpp:676-696 -/
def setDimension (g : Grid) (a b c : Int) : Grid := { g with nx := a - 1, ny := b - 1, nz := c - 1, built := false }

/-- `setShape(ShapeType)`, src/core/BasicMeshes.cpp:713-770.  `j0` and `j2` are the first and third spans of the default
cylinder, which are read without having been initialised: line 732 fills `spanMat[2]` twice and `spanMat[1]` never. -/
def setShape (g : Grid) (type : Kind) (j0 j2 : ℝ) : Grid :=
  let g := match g.shape with
    | none => g
    | some s => { g with origin := s.origin, span := getSpan s, inf := s.inf, ref := s.sdr, setorigin := true, setspan := true,
                         setinf := true, setref := true, shape := none }
  let origin : V3 := if g.setorigin then g.origin else ⟨0, 0, 0⟩
  let span0 : V3 := if g.setspan then g.span else ⟨1, 1, 1⟩
  let span1 : V3 := if g.setspan then g.span else ⟨j0, 2 * π, j2⟩
  let span2 : V3 := if g.setspan then g.span else ⟨1, 2 * π, π⟩
  let s := match type with
    | .wedge => construct .wedge origin span0
    | .cylinder => construct .cylinder origin span1
    | .sphere => construct .sphere origin span2
    | .cube => construct .cube origin span0
  let s := if g.setinf then setInf (setInf (setInf s g.inf.x 0) g.inf.y 1) g.inf.z 2 else s
  let s := if g.setref then setRef3 s g.ref.r0 g.ref.r1 g.ref.r2 else s
  { g with shape := some s, setorigin := false, setspan := false, setinf := false, setref := false, built := false }

/-- `static_cast<ShapeType>` with the values of src/core/BasicShapes.hpp:38-43; any other value takes the default branch -/
def kindOf (i : Int) : Kind := if i = 1 then .cylinder else if i = 3 then .sphere else if i = 4 then .wedge else .cube

/-- `setShape(int)`, src/core/BasicMeshes.cpp:703-706 -/
def setShapeInt (g : Grid) (i : Int) (j0 j2 : ℝ) : Grid := setShape g (kindOf i) j0 j2

/-- `setShape(const BasicShape *)`, src/core/BasicMeshes.cpp:777-814 -/
def setShapeCopy (g : Grid) (s : Option Shape) : Grid :=
  match s with
  | none => g
  | some s => { g with shape := some s, setorigin := false, setspan := false, setinf := false, setref := false, built := false }

/-- `setCoordType(CoordType, int)`, src/core/BasicMeshes.cpp:832-835 (directions 0, 1, 2) -/
def setCoordG (g : Grid) (t : Coord) (dir : Nat) : Grid :=
  match g.shape with
  | none => g
  | some s => { g with shape := some (setCoord s t dir) }

/-- least number of nodes per direction, src/core/BasicMeshes.cpp:1626-1638 -/
def dimLimit : Kind → Int × Int × Int
  | .cylinder => (2, 4, 2)
  | .sphere => (2, 5, 3)
  | _ => (2, 2, 2)

/-- `m_xedge[i] = locOr[0] + i * m_dx` for i < n+1, and `m_xnode[i] = m_xedge[i] + 0.5 * m_dx` for i < n,
src/core/BasicMeshes.cpp:1654-1660 -/
def edges (lo d : ℝ) (n : Int) : List ℝ := (List.range (n + 1).toNat).map (fun (i : Nat) => lo + (i : ℝ) * d)
def nodes (lo d : ℝ) (n : Int) : List ℝ := (List.range n.toNat).map (fun (i : Nat) => (lo + (i : ℝ) * d) + 0.5 * d)

/-- `build`, src/core/BasicMeshes.cpp:1622-1664: the object and the result -/
def build (g : Grid) : Grid × Bool :=
  match g.shape with
  | none => (g, false)
  | some s =>
    let lim := dimLimit s.kind
    let nx := max g.nx (lim.1 - 1)
    let ny := max g.ny (lim.2.1 - 1)
    let nz := max g.nz (lim.2.2 - 1)
    let dx := s.span.x / nx
    let dy := s.span.y / ny
    let dz := s.span.z / nz
    let lo := localOrigin s
    ({ g with nx := nx, ny := ny, nz := nz, dx := dx, dy := dy, dz := dz
              xedge := edges lo.x dx nx, yedge := edges lo.y dy ny, zedge := edges lo.z dz nz
              xnode := nodes lo.x dx nx, ynode := nodes lo.y dy ny, znode := nodes lo.z dz nz
              built := true }, true)

/-- `setMesh(origin, span, type, dimensions)`, src/core/BasicMeshes.cpp:874-883 -/
def setMesh (g : Grid) (o v : V3) (type : Kind) (a b c : Int) (j0 j2 : ℝ) : Grid :=
  (build (setDimension (setSpanG (setOriginG (setShape { g with shape := none } type j0 j2) o) v) a b c)).1

/-- number of nodes for a spacing, src/core/BasicMeshes.cpp:917-923 -/
def dimOf (span spacing : ℝ) (lim : Int) : Int := if spacing ≠ 0 then ⌊span / spacing + 0.5⌋ + 1 else lim

/-- `setMesh(origin, span, type, spacing)`, src/core/BasicMeshes.cpp:893-927 -/
def setMeshSpacing (g : Grid) (o v : V3) (type : Kind) (sp : V3) (j0 j2 : ℝ) : Grid :=
  let lim := dimLimit type
  let g := setSpanG (setOriginG (setShape { g with shape := none } type j0 j2) o) v
  let span2 := getSpanG g
  (build (setDimension g (dimOf span2.x sp.x lim.1) (dimOf span2.y sp.y lim.2.1) (dimOf span2.z sp.z lim.2.2))).1

/-- `setMesh(shape, dimensions)`, src/core/BasicMeshes.cpp:934-941 -/
def setMeshCopy (g : Grid) (s : Option Shape) (a b c : Int) : Grid :=
  (build (setDimension (setShapeCopy { g with shape := none } s) a b c)).1

/-- `clearMesh`, src/core/BasicMeshes.cpp:987-1007 -/
def clearMesh (_ : Grid) : Grid := new

/-! Numbering -/

/-- `accessCellIndex(i, j, k)`, src/core/BasicMeshes.cpp:1049-1053 -/
def cellIndex (g : Grid) (i j k : Int) : Int := g.ny * g.nz * i + g.nz * j + k

/-- `accessCellIndex(N, i, j, k)`, src/core/BasicMeshes.cpp:1063-1068; C++ division truncates -/
def cellOf (g : Grid) (n : Int) : Option (Int × Int × Int) :=
  if g.nz = 0 then none
  else
    let k := n.tmod g.nz
    let index := n.tdiv g.nz
    if g.ny = 0 then none else some (index.tdiv g.ny, index.tmod g.ny, k)

/-- `accessPointIndex(i, j, k)`, src/core/BasicMeshes.hpp:204-207 -/
def pointIndex (g : Grid) (i j k : Int) : Int := (g.ny + 1) * (g.nz + 1) * i + (g.nz + 1) * j + k

/-- `accessPointIndex(N, i, j, k)`, src/core/BasicMeshes.cpp:1078-1084 -/
def pointOf (g : Grid) (n : Int) : Option (Int × Int × Int) :=
  if g.nz + 1 = 0 then none
  else
    let k := n.tmod (g.nz + 1)
    let index := n.tdiv (g.nz + 1)
    if g.ny + 1 = 0 then none else some (index.tdiv (g.ny + 1), index.tmod (g.ny + 1), k)

/-- `v[i]` on a vector -/
def elem {α : Type} (l : List α) (i : Int) : Option α := if i < 0 then none else l[i.toNat]?

/-- `getLocalCCell` and `getLocalPoint`, src/core/BasicMeshes.cpp:351-405 -/
def localCell (g : Grid) (i j k : Int) : Option V3 := do
  some ⟨← elem g.xnode i, ← elem g.ynode j, ← elem g.znode k⟩
def localCellN (g : Grid) (n : Int) : Option V3 := do
  let c ← cellOf g n
  localCell g c.1 c.2.1 c.2.2
def localPoint (g : Grid) (i j k : Int) : Option V3 := do
  some ⟨← elem g.xedge i, ← elem g.yedge j, ← elem g.zedge k⟩
def localPointN (g : Grid) (n : Int) : Option V3 := do
  let c ← pointOf g n
  localPoint g c.1 c.2.1 c.2.2

/-- `transfToGlobal` and `transfToLocal`, src/core/BasicMeshes.cpp:1090-1145 -/
def transfToGlobal (g : Grid) (p : V3) : Option V3 := g.shape.map (fun s => toWorld s p)
def transfToLocal (g : Grid) (p : V3) : Option V3 := g.shape.map (fun s => toLocal s p)

/-- `getGlobalCCell` and `getGlobalPoint`, src/core/BasicMeshes.cpp:412-450 -/
def globalCell (g : Grid) (i j k : Int) : Option V3 := localCell g i j k >>= transfToGlobal g
def globalCellN (g : Grid) (n : Int) : Option V3 := localCellN g n >>= transfToGlobal g
def globalPoint (g : Grid) (i j k : Int) : Option V3 := localPoint g i j k >>= transfToGlobal g
def globalPointN (g : Grid) (n : Int) : Option V3 := localPointN g n >>= transfToGlobal g

/-- `getCellNeighs`, src/core/BasicMeshes.cpp:459-483 -/
def cellNeighs (g : Grid) (i j k : Int) : List Int :=
  [pointIndex g i j k, pointIndex g (i + 1) j k, pointIndex g (i + 1) (j + 1) k, pointIndex g i (j + 1) k,
    pointIndex g i j (k + 1), pointIndex g (i + 1) j (k + 1), pointIndex g (i + 1) (j + 1) (k + 1), pointIndex g i (j + 1) (k + 1)]
def cellNeighsN (g : Grid) (n : Int) : Option (List Int) := (cellOf g n).map (fun c => cellNeighs g c.1 c.2.1 c.2.2)

/-- `getLocalCoords`, `getGlobalCoords` and the lists of centroids, src/core/BasicMeshes.cpp:488-533 -/
def localCoords (g : Grid) : Option (List V3) :=
  (List.range ((g.nx + 1) * (g.ny + 1) * (g.nz + 1)).toNat).mapM (fun (n : Nat) => localPointN g (n : Int))
def globalCoords (g : Grid) : Option (List V3) :=
  (List.range ((g.nx + 1) * (g.ny + 1) * (g.nz + 1)).toNat).mapM (fun (n : Nat) => globalPointN g (n : Int))
def localCentroids (g : Grid) : Option (List V3) := (List.range (g.nx * g.ny * g.nz).toNat).mapM (fun (n : Nat) => localCellN g (n : Int))
def globalCentroids (g : Grid) : Option (List V3) := (List.range (g.nx * g.ny * g.nz).toNat).mapM (fun (n : Nat) => globalCellN g (n : Int))

/-! Location and interpolation -/

/-- `std::min(n-1, std::max(0, (int) std::floor((P - locOr)/d)))`, src/core/BasicMeshes.cpp:1023-1025 -/
def locate1 (p lo d : ℝ) (n : Int) : Int := min (n - 1) (max 0 ⌊(p - lo) / d⌋)

/-- `locateCellByPoint`, src/core/BasicMeshes.cpp:1018-1026; a zero spacing gives no valid integer -/
def locate (g : Grid) (point : V3) : Option (Int × Int × Int) := do
  let s ← g.shape
  let p := toLocal s point
  let lo := localOrigin s
  if g.dx = 0 ∨ g.dy = 0 ∨ g.dz = 0 then none
  else some (locate1 p.x lo.x g.dx g.nx, locate1 p.y lo.y g.dy g.ny, locate1 p.z lo.z g.dz g.nz)

/-- the second index, src/core/BasicMeshes.cpp:1159-1164 -/
def nextCell (p c : ℝ) (i n : Int) : Int := if p > c then min (i + 1) (n - 1) else max 0 (i - 1)

/-- the weight, src/core/BasicMeshes.cpp:1167-1169 and 1285-1287 -/
def weight (p c d : ℝ) : ℝ := max 0 (min 1 |(p - c) / d|)

/-- the weighted sum, src/core/BasicMeshes.cpp:1172-1179 and 1290-1297 -/
def blend (wx wy wz : ℝ) (v : Bool → Bool → Bool → ℝ) : ℝ :=
  (1 - wz) * (1 - wx) * (1 - wy) * v false false false + (1 - wz) * (1 - wx) * wy * v false true false +
    (1 - wz) * wx * (1 - wy) * v true false false + (1 - wz) * wx * wy * v true true false +
    wz * (1 - wx) * (1 - wy) * v false false true + wz * (1 - wx) * wy * v false true true +
    wz * wx * (1 - wy) * v true false true + wz * wx * wy * v true true true

/-- the eight values at the two indices per direction -/
def eight (get : Int → Int → Int → Option ℝ) (i0 ip j0 jp k0 kp : Int) : Option (Bool → Bool → Bool → ℝ) := do
  let a ← get i0 j0 k0
  let b ← get i0 jp k0
  let c ← get ip j0 k0
  let d ← get ip jp k0
  let e ← get i0 j0 kp
  let f ← get i0 jp kp
  let h ← get ip j0 kp
  let l ← get ip jp kp
  some (fun x y z => if z then (if x then (if y then l else h) else (if y then f else e))
    else (if x then (if y then d else c) else (if y then b else a)))

/-- `interpolateCellData(point, dvector1D)`, src/core/BasicMeshes.cpp:1152-1182; the array version, lines 1228-1259, does the
same on each component -/
def interpCell (g : Grid) (point : V3) (data : List ℝ) : Option ℝ := do
  let c ← locate g point
  let p ← transfToLocal g point
  let x0 ← elem g.xnode c.1
  let y0 ← elem g.ynode c.2.1
  let z0 ← elem g.znode c.2.2
  let v ← eight (fun i j k => elem data (cellIndex g i j k)) c.1 (nextCell p.x x0 c.1 g.nx) c.2.1 (nextCell p.y y0 c.2.1 g.ny) c.2.2
    (nextCell p.z z0 c.2.2 g.nz)
  some (blend (weight p.x x0 g.dx) (weight p.y y0 g.dy) (weight p.z z0 g.dz) v)

/-- the integer version, src/core/BasicMeshes.cpp:1190-1221 -/
def interpCellInt (g : Grid) (point : V3) (data : List Int) : Option Int :=
  (interpCell g point (data.map (fun (i : Int) => (i : ℝ)))).map (fun r => ⌊r + 0.5⌋)

/-- `std::max(0, std::min(n, (int) std::floor((P - locOr)/d)))`, src/core/BasicMeshes.cpp:1273-1275 -/
def locatePoint1 (p lo d : ℝ) (n : Int) : Int := max 0 (min n ⌊(p - lo) / d⌋)

/-- src/core/BasicMeshes.cpp:1277-1282 -/
def nextPoint (p c : ℝ) (i n : Int) : Int := if p ≥ c then min (i + 1) n else max 0 (i - 1)

/-- `interpolatePointData(point, dvector1D)`, src/core/BasicMeshes.cpp:1266-1299; the array version, lines 1348-1383, does the same
on each component -/
def interpPoint (g : Grid) (point : V3) (data : List ℝ) : Option ℝ := do
  let s ← g.shape
  let p := toLocal s point
  let lo := localOrigin s
  if g.dx = 0 ∨ g.dy = 0 ∨ g.dz = 0 then none
  else
    let i0 := locatePoint1 p.x lo.x g.dx g.nx
    let j0 := locatePoint1 p.y lo.y g.dy g.ny
    let k0 := locatePoint1 p.z lo.z g.dz g.nz
    let x0 ← elem g.xedge i0
    let y0 ← elem g.yedge j0
    let z0 ← elem g.zedge k0
    let v ← eight (fun i j k => elem data (pointIndex g i j k)) i0 (nextPoint p.x x0 i0 g.nx) j0 (nextPoint p.y y0 j0 g.ny) k0
      (nextPoint p.z z0 k0 g.nz)
    some (blend (weight p.x x0 g.dx) (weight p.y y0 g.dy) (weight p.z z0 g.dz) v)

/-- the integer version, src/core/BasicMeshes.cpp:1306-1341 -/
def interpPointInt (g : Grid) (point : V3) (data : List Int) : Option Int :=
  (interpPoint g point (data.map (fun (i : Int) => (i : ℝ)))).map (fun r => ⌊r + 0.5⌋)

/-! Degrees of freedom of a lattice -/

/-- `reduceDimToDOF`, src/core/Lattice.cpp:459-517: the number of degrees of freedom and the flags; `nx`, `ny`, `nz` are numbers of
nodes -/
def reduceDim (s : Shape) (nx ny nz : Int) : Int × List Bool :=
  match s.kind with
  | .wedge => (nx * ny * nz + ny * (1 - nz), [true])
  | .cylinder =>
    let axis := decide ((localOrigin s).x > 0)
    let delta := if axis then nz else 0
    let nx := if axis then nx - 1 else nx
    let per := decide (s.coord 1 = .periodic)
    let ny := if per then ny - 1 else ny
    (nx * ny * nz + delta, [axis, per])
  | .sphere =>
    let centre := decide ((localOrigin s).x > 0)
    let delta : Int := if centre then 1 else 0
    let nx := if centre then nx - 1 else nx
    let per := decide (s.coord 1 = .periodic)
    let ny := if per then ny - 1 else ny
    let north := decide (s.inf.z = 0)
    let nz1 := if north then nz - 1 else nz
    let delta := if north then delta + nx else delta
    let south := decide (s.inf.z + s.span.z = π)
    let nz2 := if south then nz1 - 1 else nz1
    let delta := if south then delta + nx else delta
    (nx * ny * nz2 + delta, [centre, per, north, south])
  | .cube => (nx * ny * nz, [])

/-- `m_intMapDOF[accessPointIndex(i, j, k)] = target` for the listed nodes -/
def putAll (map : List Int) (l : List Nat) (target : Int) : List Int := l.foldl (fun m i => m.set i target) map

/-- the nodes of the grid given the same number as node `index`, src/core/Lattice.cpp:545-625; `nx`, `ny`, `nz` are numbers of cells -/
def also (kind : Kind) (info : List Bool) (nx ny nz : Nat) (index : Nat) : List Nat :=
  let at' := fun (i j k : Nat) => (ny + 1) * (nz + 1) * i + (nz + 1) * j + k
  let k2 := index % (nz + 1)
  let i1 := (index / (nz + 1)) % (ny + 1)
  let i0 := (index / (nz + 1)) / (ny + 1)
  match kind with
  | .wedge => if info[0]?.getD false ∧ i0 = nx then (List.range (nz + 1)).map (fun k => at' i0 i1 k) else []
  | .cylinder =>
    (if info[0]?.getD false ∧ i0 = 0 then (List.range (ny + 1)).map (fun k => at' i0 k k2) else []) ++
      (if info[1]?.getD false ∧ i1 = 0 then [at' i0 ny k2] else [])
  | .sphere =>
    (if info[0]?.getD false ∧ i0 = 0 then
        (List.range (ny + 1)).flatMap (fun k1 => (List.range (nz + 1)).map (fun k2 => at' i0 k1 k2)) else []) ++
      (if info[1]?.getD false ∧ i1 = 0 then [at' i0 (ny - 1) k2] else []) ++
      (if info[2]?.getD false ∧ k2 = 0 then (List.range (ny + 1)).map (fun k1 => at' i0 k1 k2) else []) ++
      (if info[3]?.getD false ∧ k2 = nz then (List.range (ny + 1)).map (fun k1 => at' i0 k1 k2) else [])
  | .cube => []

/-- the numbering loop, src/core/Lattice.cpp:545-562 and the like: while a node has no number (-1), the first such node takes the
next one together with the nodes of `also`; `fuel` is the number of iterations allowed -/
def numberLoop (same : Nat → List Nat) : Nat → List Int → Int → List Int
  | 0, map, _ => map
  | fuel + 1, map, target =>
    let it := map.findIdx (· == -1)
    if it = map.length then map else numberLoop same fuel (putAll (map.set it target) (same it) target) (target + 1)

/-- `resizeMapDof`, src/core/Lattice.cpp:523-640, on a built mesh: the number of degrees of freedom and the map.  The first
iteration starts from the first element, which is -1 as well. -/
def mapDof (s : Shape) (nx ny nz : Nat) : Int × List Int :=
  let r := reduceDim s (nx + 1) (ny + 1) (nz + 1)
  let size := (nx + 1) * (ny + 1) * (nz + 1)
  (r.1, numberLoop (also s.kind r.2 nx ny nz) size (List.replicate size (-1)) 0)

/-- members of `Lattice`, src/core/Lattice.hpp:106-107 -/
structure Lattice where
  grid : Grid
  np : Int
  map : List Int

/-- `Lattice::build` and `execute`, src/core/Lattice.cpp:269-284; `none`: the exception without a shape -/
def execute (l : Lattice) : Option Lattice :=
  match (build l.grid).1.shape with
  | none => none
  | some s =>
    let g := (build l.grid).1
    let r := mapDof s g.nx.toNat g.ny.toNat g.nz.toNat
    some ⟨g, r.1, r.2⟩

/-- `accessDOFFromGrid` and `accessGridFromDOF`, src/core/Lattice.cpp:171-185, with `posVectorFind`,
src/common/customOperators.hpp:155-163 -/
def dofFromGrid (l : Lattice) (index : Int) : Option Int := elem l.map index
def gridFromDof (l : Lattice) (index : Int) : Int :=
  let pos := l.map.findIdx (· == index)
  if pos = l.map.length then -1 else pos

/-- `Lattice::getLocalCoords` and `getGlobalCoords`, src/core/Lattice.cpp:134-165 -/
def latticeLocal (l : Lattice) : Option (List V3) :=
  (List.range l.np.toNat).mapM (fun (i : Nat) => localPointN l.grid (gridFromDof l (i : Int)))
def latticeGlobal (l : Lattice) : Option (List V3) :=
  (List.range l.np.toNat).mapM (fun (i : Nat) => globalPointN l.grid (gridFromDof l (i : Int)))

end

end Verif.Grid
