import Verif.Grid.Model
import Verif.Manip.Model
import Verif.Mesh.Query
/-
Free form deformation: `mimmo::FFDLattice` (src/manipulators/FFDLattice.cpp, src/manipulators/FFDLattice.hpp) on top of
`mimmo::Lattice` (Verif.Grid.Model).

`double` is ℝ and `int` is ℤ or ℕ (no rounding, no overflow).  `none` stands for undefined behaviour (an access out of a vector, a
null shape), for an exception, and for a division by zero.  The unqualified `abs` of line 1255 is taken as the one for `double`.
Plotting, XML, logging and the ports are not modelled.  The search trees are those of bitpit (external), as in Verif.Shape.Model.
-/
namespace Verif.Ffd
open Verif.Shape Verif.Grid Verif.Field

noncomputable section
open scoped Classical

/-- what is kept for one direction: `m_deg[dir]`, `m_knots[dir]`, `m_mapEff[dir]`, `m_mapNodes[dir]`,
src/manipulators/FFDLattice.hpp:127-132 -/
structure Curve where
  deg : Int
  knots : List ℝ
  eff : List Int
  nodes : List Int

/-- `FFDLattice()`, src/manipulators/FFDLattice.cpp:30-38, for one direction -/
def Curve.new : Curve := ⟨1, [], [], []⟩

/-- members of FFDLattice, src/manipulators/FFDLattice.hpp:127-140, with the geometry of BaseManipulation; `order` is `m_mapdeg`
(not initialised before the first build, and not read), `collect` is `m_collect_wg` -/
structure Ffd where
  lat : Lattice
  c0 : Curve
  c1 : Curve
  c2 : Curve
  weights : List ℝ
  displ : List V3
  order : Nat × Nat × Nat
  global : Bool
  collect : List (Int × ℝ)
  filter : Field Nat ℝ
  bfilter : Bool
  geom : Option Nat
  gdispl : Field Nat V3

/-- `FFDLattice()`, src/manipulators/FFDLattice.cpp:30-38, with `Lattice()` and `UStructMesh()` -/
def Ffd.new : Ffd where
  lat := ⟨Grid.new, 0, []⟩
  c0 := .new
  c1 := .new
  c2 := .new
  weights := []
  displ := []
  order := (0, 1, 2)
  global := false
  collect := []
  filter := make none .undefined
  bfilter := false
  geom := none
  gdispl := make none .undefined

/-- `m_deg[dir]`, `m_knots[dir]`, ... -/
def Ffd.curve (f : Ffd) : Nat → Curve
  | 0 => f.c0
  | 1 => f.c1
  | _ => f.c2

/-- the copy constructor, src/manipulators/FFDLattice.cpp:70-82, with those of Lattice, UStructMesh and BaseManipulation: all but the
resulting displacements -/
def Ffd.copy (o : Ffd) : Ffd where
  lat := ⟨Grid.copy o.lat.grid, o.lat.np, o.lat.map⟩
  c0 := o.c0
  c1 := o.c1
  c2 := o.c2
  weights := o.weights
  displ := o.displ
  order := o.order
  global := o.global
  collect := o.collect
  filter := o.filter
  bfilter := o.bfilter
  geom := o.geom
  gdispl := make none .undefined

/-! ## Knots -/

/-- `(m_deg-1)/2 + (m_deg-1)%2`, src/manipulators/FFDLattice.cpp:1118 and 1489; degrees are at least one (`build`) -/
def retro (deg : Nat) : Nat := (deg - 1) / 2 + (deg - 1) % 2

/-- `getNodeSpacing`, src/manipulators/FFDLattice.cpp:1100-1162: `n` nodes (at least two), `deg` the degree -/
def equi (type : Coord) (n deg : Nat) (span lo : ℝ) : List ℝ :=
  let d := span / ((n - 1 : Nat) : ℝ)
  match type with
  | .periodic => (List.range (n + deg - 1)).map (fun (i : Nat) => (lo - 1.0 * (retro deg : ℝ) * d) + (i : ℝ) * d)
  | .symmetric => (List.range (n + deg - 1)).map (fun (i : Nat) => (lo - 1.0 * (retro deg : ℝ) * d) + (i : ℝ) * d)
  | .clamped => (List.range n).map (fun (i : Nat) => lo + (i : ℝ) * d)
  | .unclamped => (List.range n).map (fun (i : Nat) => lo + (i : ℝ) * d)

/-- `v[i] = x` -/
def put (l : List ℝ) (i : Nat) (x : ℝ) : Option (List ℝ) := if i < l.length then some (l.set i x) else none

/-- the accumulation of `equinode[j]/deg` for j from i to i+deg-1, src/manipulators/FFDLattice.cpp:1226-1228 and the like -/
def mean (e : List ℝ) (deg i : Nat) : Option ℝ :=
  (List.range deg).foldlM (fun a j => (e[i + j]?).map (fun v => a + v / (deg : ℝ))) 0

/-- the loop over the inner knots, for i from 1 to `stop`-1: src/manipulators/FFDLattice.cpp:1224-1229, 1257-1262, 1293-1298,
1326-1331 -/
def innerKnots (e : List ℝ) (deg off stop : Nat) (k : List ℝ) : Option (List ℝ) :=
  (List.range' 1 (stop - 1)).foldlM (fun k i => (mean e deg i).bind (put k (off + i))) k

/-- the loop that extends the knots on the two sides, src/manipulators/FFDLattice.cpp:1266-1269, 1302-1305, 1334-1337 -/
def unclamp (deg kend : Nat) (k : List ℝ) : Option (List ℝ) :=
  (List.range deg).foldlM
    (fun k i => do
      let k ← put k (deg - i - 1) ((← k[deg - i]?) - ((← k[kend - i]?) - (← k[kend - i - 1]?)))
      put k (kend + 1 + i) ((← k[kend + i]?) + ((← k[deg + i + 1]?) - (← k[deg + i]?)))) k

/-- the knots, src/manipulators/FFDLattice.cpp:1211-1346.  Degree and number of nodes are such that 1 ≤ deg ≤ n-1 (`build`). -/
def knotsOf (type : Coord) (n deg : Nat) (span lo : ℝ) : Option (List ℝ) :=
  let e := equi type n deg span lo
  match type with
  | .clamped => do
    let kEff := n - deg + 1
    let k ← put (List.replicate kEff 0) 0 (← e[0]?)
    let k ← put k (kEff - 1) (← e[e.length - 1]?)
    innerKnots e deg 0 (kEff - 1) k
  | .periodic => do
    let kEff := n
    let kTheo := n + deg - 1 + deg + 1
    let first ← mean e deg 0
    let k ← put (List.replicate kTheo 0) deg (if |first| < 1 / 10 ^ 12 then 0 else first)
    let k ← innerKnots e deg deg kEff k
    unclamp deg (deg + kEff - 1) k
  | .symmetric => do
    let kEff := n
    let kTheo := n + deg - 1 + deg + 1
    let first ← mean e deg 0
    let k ← put (List.replicate kTheo 0) deg (if |first| < 1 / 10 ^ 12 then 0 else first)
    let k ← innerKnots e deg deg kEff k
    unclamp deg (deg + kEff - 1) k
  | .unclamped => do
    let kEff := n - deg + 1
    let kTheo := n + deg + 1
    let k ← put (List.replicate kTheo 0) deg (← e[0]?)
    let k ← put k (deg + kEff - 1) ((← e[e.length - 1]?) + 1 / 10 ^ 12)
    let k ← innerKnots e deg deg (kEff - 1) k
    unclamp deg (deg + kEff - 1) k

/-- the map from theoretical to stored knots, src/manipulators/FFDLattice.cpp:1218, 1231-1237, 1271-1273, 1307-1309, 1339-1341 -/
def effOf (type : Coord) (n deg : Nat) : List Int :=
  match type with
  | .clamped =>
    let kEff := n - deg + 1
    (List.range (n + deg + 1)).map (fun (i : Nat) => if i < deg then 0 else if i < deg + kEff then (i : Int) - deg else (kEff : Int) - 1)
  | .periodic => (List.range (n + deg - 1 + deg + 1)).map (fun (i : Nat) => (i : Int))
  | .symmetric => (List.range (n + deg - 1 + deg + 1)).map (fun (i : Nat) => (i : Int))
  | .unclamped => (List.range (n + deg + 1)).map (fun (i : Nat) => (i : Int))

/-- `setMapNodes`, src/manipulators/FFDLattice.cpp:1477-1541: each loop writes its own range of positions -/
def nodesOf (type : Coord) (n deg : Nat) : List Int :=
  let pre := retro deg
  match type with
  | .periodic =>
    (List.range (n + deg - 1 + 1)).map (fun (q : Nat) =>
      if q < pre then (n : Int) - pre - 1 + q else if q < pre + n then (q : Int) - pre else 1 + ((q : Int) - pre - n))
  | .symmetric =>
    (List.range (n + deg - 1 + 1)).map (fun (q : Nat) =>
      if q < pre then ((pre : Int) - 1 - q + 1).tmod (n - 1) else if q < pre + n then (q : Int) - pre
      else ((n : Int) - 2 - ((q : Int) - pre - n)).tmod (n - 1))
  | _ => (List.range n).map (fun (q : Nat) => (q : Int))

/-- `setKnotsStructure(dir, type)`, src/manipulators/FFDLattice.cpp:1196-1350; `deg` as `build` leaves it -/
def curveOf (type : Coord) (n : Nat) (deg : Int) (span lo : ℝ) : Option Curve :=
  let deg := min deg ((n : Int) - 1)
  (knotsOf type n deg.toNat span lo).map (fun k => ⟨deg, k, effOf type n deg.toNat, nodesOf type n deg.toNat⟩)

/-- `getKnotIndex` and `getKnotValue`, src/manipulators/FFDLattice.cpp:1381-1397 -/
def knotValue (c : Curve) (index : Int) : Option ℝ :=
  if index < 0 ∨ index ≥ c.eff.length then some (-1.0) else (elem c.eff index).bind (elem c.knots)

/-- `getTheoreticalKnotIndex`, src/manipulators/FFDLattice.cpp:1404-1411: the last position of the index in the map -/
def theoIndex (c : Curve) (loc : Int) : Int :=
  if loc < 0 ∨ loc ≥ c.knots.length then -1 else (c.eff.length : Int) - 1 - (c.eff.reverse.findIdx (· == loc) : Nat)

/-- the bisection loop of `getKnotInterval`, src/manipulators/FFDLattice.cpp:1367-1373; `fuel` bounds the iterations, `none` when it
is not enough -/
def bisect (k : List ℝ) (u : ℝ) : Nat → Nat → Nat → Option Nat
  | 0, _, _ => none
  | fuel + 1, low, high => do
    let mid := (low + high) / 2
    let a ← k[mid]?
    let b ← k[mid + 1]?
    if u < a ∨ u ≥ b then if u < a then bisect k u fuel low mid else bisect k u fuel mid high
    else some mid

/-- `getKnotInterval`, src/manipulators/FFDLattice.cpp:1358-1375 -/
def knotInterval (c : Curve) (u : ℝ) : Option Int := do
  let size := c.knots.length
  if u < (← c.knots[0]?) then some (theoIndex c 0)
  else if u ≥ (← c.knots[size - 1]?) then some (theoIndex c ((size : Int) - 2))
  else (bisect c.knots u size 0 (size - 1)).map (fun (mid : Nat) => theoIndex c (mid : Int))

/-! ## Basis functions -/

/-- `v[i] = x` on an array whose indices are in range -/
def upd (b : Nat → ℝ) (i : Nat) (x : ℝ) : Nat → ℝ := fun q => if q = i then x else b q

/-- the inner loop of `basisITS0`, src/manipulators/FFDLattice.cpp:1085-1089: `basis` and `saved` -/
def itsInner (left right : Nat → ℝ) (j : Nat) (st : (Nat → ℝ) × ℝ) : Option ((Nat → ℝ) × ℝ) :=
  (List.range j).foldlM
    (fun st r =>
      let den := right (r + 1) + left (j - r)
      if den = 0 then none
      else
        let tmp := st.1 r / den
        some (upd st.1 r (st.2 + right (r + 1) * tmp), left (j - r) * tmp)) st

/-- `basisITS0`, src/manipulators/FFDLattice.cpp:1069-1095.  The arrays have deg+1 entries and are read and written below that. -/
def basis (c : Curve) (k : Int) (u : ℝ) : Option (Nat → ℝ) :=
  ((List.range' 1 c.deg.toNat).foldlM
    (fun (st : (Nat → ℝ) × (Nat → ℝ) × (Nat → ℝ)) (j : Nat) => do
      let left := upd st.2.1 j (u - (← knotValue c (k + 1 - (j : Int))))
      let right := upd st.2.2 j ((← knotValue c (k + (j : Int))) - u)
      let r ← itsInner left right j (st.1, 0)
      some (upd r.1 j r.2, left, right)) (fun _ => 1, fun _ => 0, fun _ => 0)).map Prod.fst

/-! ## Evaluation -/

/-- the accumulation of three components and a weight over an index -/
def sumLoop (n : Nat) (term : Nat → Option (V3 × ℝ)) : Option (V3 × ℝ) :=
  (List.range n).foldlM (fun acc i => (term i).map (fun t => (acc.1 + t.1, acc.2 + t.2))) (⟨0, 0, 0⟩, 0)

/-- `temp[intv] += b*temp2[intv]` -/
def times (b : ℝ) (t : V3 × ℝ) : V3 × ℝ := (V3.scale b t.1, b * t.2)

/-- `accessMapNodes`, src/manipulators/FFDLattice.hpp:239-241 -/
def mapNode (f : Ffd) (i j k : Int) : Option Int := do
  some (pointIndex f.lat.grid (← elem f.c0.nodes i) (← elem f.c1.nodes j) (← elem f.c2.nodes k))

/-- `recoverFullGridDispl` and `recoverFullNodeWeights`, src/manipulators/FFDLattice.cpp:1451-1474 -/
def fullGrid {α : Type} (f : Ffd) (v : List α) : Option (List α) :=
  let d := getDimension f.lat.grid
  (List.range (d.1 * d.2.1 * d.2.2).toNat).mapM (fun (i : Nat) => (elem f.lat.map (i : Int)).bind (elem v))

/-- what is done with the accumulated values, src/manipulators/FFDLattice.cpp:830-845 and 954-976; `p` is the local point -/
def finish (f : Ffd) (s : Shape) (target p : V3) (h : V3 × ℝ) : Option V3 :=
  if f.global then
    if h.2 = 0 then none else some ⟨h.1.x / h.2, h.1.y / h.2, h.1.z / h.2⟩
  else
    if h.2 * s.scaling.x = 0 ∨ h.2 * s.scaling.y = 0 ∨ h.2 * s.scaling.z = 0 then none
    else
      some (toWorld s ⟨p.x + h.1.x / (h.2 * s.scaling.x), p.y + h.1.y / (h.2 * s.scaling.y), p.z + h.1.z / (h.2 * s.scaling.z)⟩ - target)

/-- `nurbsEvaluator(livector1D)` for one vertex, src/manipulators/FFDLattice.cpp:890-980; `displ` and `weig` are those of all the
nodes of the grid -/
def evalVertex (f : Ffd) (displ : List V3) (weig : List ℝ) (target : V3) : Option V3 := do
  let s ← f.lat.grid.shape
  let p := toLocal s target
  let i0 := f.order.1
  let i1 := f.order.2.1
  let i2 := f.order.2.2
  let k0 ← knotInterval (f.curve i0) (p.at i0)
  let k1 ← knotInterval (f.curve i1) (p.at i1)
  let k2 ← knotInterval (f.curve i2) (p.at i2)
  let b0 ← basis (f.curve i0) k0 (p.at i0)
  let b1 ← basis (f.curve i1) k1 (p.at i1)
  let b2 ← basis (f.curve i2) k2 (p.at i2)
  let h ← sumLoop ((f.curve i0).deg + 1).toNat fun i =>
    (sumLoop ((f.curve i1).deg + 1).toNat fun j =>
      (sumLoop ((f.curve i2).deg + 1).toNat fun k => do
        let m := fun d => if d = i2 then k2 - (f.curve i2).deg + (k : Int) else if d = i1 then k1 - (f.curve i1).deg + (j : Int)
          else k0 - (f.curve i0).deg + (i : Int)
        let index ← mapNode f (m 0) (m 1) (m 2)
        let bw := b2 k * (← elem weig index)
        some (V3.scale bw (← elem displ index), bw)).map (times (b1 j))).map (times (b0 i))
  finish f s target p h

/-- `nurbsEvaluator(livector1D)`, src/manipulators/FFDLattice.cpp:856-986: the values for a list of vertices -/
def evalList (f : Ffd) (o : Mesh.Obj V3) (list : List Nat) : Option (List V3) := do
  let displ ← fullGrid f f.displ
  let weig ← fullGrid f f.weights
  list.mapM (fun id => (get o.verts id).bind (evalVertex f displ weig))

/-- `nurbsEvaluator(darray3E)`, src/manipulators/FFDLattice.cpp:773-848: here `mappedIndex` is filled by position and not by
direction, and the weights of the denominator are taken with the number of the node of the grid -/
def evalPoint (f : Ffd) (target : V3) : Option V3 := do
  let s ← f.lat.grid.shape
  let p := toLocal s target
  let i0 := f.order.1
  let i1 := f.order.2.1
  let i2 := f.order.2.2
  let k0 ← knotInterval (f.curve i0) (p.at i0)
  let k1 ← knotInterval (f.curve i1) (p.at i1)
  let k2 ← knotInterval (f.curve i2) (p.at i2)
  let b0 ← basis (f.curve i0) k0 (p.at i0)
  let b1 ← basis (f.curve i1) k1 (p.at i1)
  let b2 ← basis (f.curve i2) k2 (p.at i2)
  let h ← sumLoop ((f.curve i0).deg + 1).toNat fun i =>
    (sumLoop ((f.curve i1).deg + 1).toNat fun j =>
      (sumLoop ((f.curve i2).deg + 1).toNat fun k => do
        let index ← mapNode f (k0 - (f.curve i0).deg + (i : Int)) (k1 - (f.curve i1).deg + (j : Int)) (k2 - (f.curve i2).deg + (k : Int))
        let dof ← elem f.lat.map index
        let w ← elem f.weights dof
        some (V3.scale (b2 k * w) (← elem f.displ dof), b2 k * (← elem f.weights index))).map (times (b1 j))).map (times (b0 i))
  finish f s target p h

/-! ## Setters and build -/

/-- `setDegrees`, src/manipulators/FFDLattice.cpp:273-276 -/
def Ffd.setDegrees (f : Ffd) (a b c : Int) : Ffd :=
  { f with c0 := { f.c0 with deg := a }, c1 := { f.c1 with deg := b }, c2 := { f.c2 with deg := c }
           lat := { f.lat with grid := { f.lat.grid with built := false } } }

/-- `getDegrees`, src/manipulators/FFDLattice.cpp:224-230 -/
def Ffd.degrees (f : Ffd) : Int × Int × Int := (f.c0.deg, f.c1.deg, f.c2.deg)

/-- `setDisplacements`, src/manipulators/FFDLattice.cpp:284-286: no check of the size -/
def Ffd.setDisplacements (f : Ffd) (d : List V3) : Ffd := { f with displ := d }

/-- `setDisplGlobal`, src/manipulators/FFDLattice.cpp:298 -/
def Ffd.setGlobal (f : Ffd) (b : Bool) : Ffd := { f with global := b }

/-- `m_collect_wg[ind] = val` -/
def putKey (l : List (Int × ℝ)) (i : Int) (v : ℝ) : List (Int × ℝ) := l.filter (fun e => e.1 ≠ i) ++ [(i, v)]

/-- `setNodalWeight(val, index)`, src/manipulators/FFDLattice.cpp:453-457; the map of a lattice never built is empty (`none`) -/
def Ffd.setWeight (f : Ffd) (v : ℝ) (index : Int) : Option Ffd :=
  (dofFromGrid f.lat index).map (fun d =>
    { f with collect := putKey f.collect d v, lat := { f.lat with grid := { f.lat.grid with built := false } } })

/-- `setNodalWeight(val, i, j, k)`, src/manipulators/FFDLattice.cpp:466-469 -/
def Ffd.setWeight3 (f : Ffd) (v : ℝ) (i j k : Int) : Option Ffd := f.setWeight v (pointIndex f.lat.grid i j k)

/-- `setNodalWeight(wg)`, src/manipulators/FFDLattice.cpp:475-482; `counter` is the next index -/
def Ffd.setWeights (f : Ffd) : List ℝ → Int → Option Ffd
  | [], _ => some f
  | v :: vs, counter => (f.setWeight v counter).bind (fun f => f.setWeights vs (counter + 1))

/-- `setFilter`, src/manipulators/FFDLattice.cpp:489-494 -/
def Ffd.setFilter (f : Ffd) (x : Field Nat ℝ) : Ffd := { f with filter := x, bfilter := !x.data.isEmpty }

/-- the port M_GEOM, and `setGeometry` of BaseManipulation -/
def Ffd.setGeometry (f : Ffd) (g : Nat) : Ffd := { f with geom := some g }

/-- the setters inherited from UStructMesh (Verif.Grid.Model) -/
def Ffd.onGrid (f : Ffd) (h : Grid → Grid) : Ffd := { f with lat := { f.lat with grid := h f.lat.grid } }

/-- `orderDimension`, src/manipulators/FFDLattice.cpp:1544-1558: the directions by increasing number of cells, then by number; the
`std::map` is written as comparisons -/
def orderOf (nx ny nz : Int) : Nat × Nat × Nat :=
  if nx ≤ ny then
    if ny ≤ nz then (0, 1, 2) else if nx ≤ nz then (0, 2, 1) else (2, 0, 1)
  else
    if nx ≤ nz then (1, 0, 2) else if ny ≤ nz then (1, 2, 0) else (2, 1, 0)

/-- `m_weights[it->first] = it->second` for the collected weights, src/manipulators/FFDLattice.cpp:1579-1581 -/
def takeWeights : List (Int × ℝ) → List ℝ → Option (List ℝ)
  | [], w => some w
  | e :: es, w => if e.1 < 0 then none else (put w e.1.toNat e.2).bind (takeWeights es)

/-- `v.resize(n, x)` -/
def resize {α : Type} (l : List α) (n : Nat) (x : α) : List α := l.take n ++ List.replicate (n - l.length) x

/-- `build`, src/manipulators/FFDLattice.cpp:1564-1589 (`none` without a shape: the null shape is dereferenced by line 1105) -/
def Ffd.build (f : Ffd) : Option Ffd := do
  let l ← Grid.execute f.lat
  let s ← l.grid.shape
  let d0 := min l.grid.nx (max 1 f.c0.deg)
  let d1 := min l.grid.ny (max 1 f.c1.deg)
  let d2 := min l.grid.nz (max 1 f.c2.deg)
  let w ← takeWeights f.collect (List.replicate l.np.toNat 1)
  let lo := localOrigin s
  let c0 ← curveOf (s.coord 0) (l.grid.nx + 1).toNat d0 s.span.x lo.x
  let c1 ← curveOf (s.coord 1) (l.grid.ny + 1).toNat d1 s.span.y lo.y
  let c2 ← curveOf (s.coord 2) (l.grid.nz + 1).toNat d2 s.span.z lo.z
  some { f with lat := l, c0 := c0, c1 := c1, c2 := c2, weights := w, displ := resize f.displ l.np.toNat ⟨0, 0, 0⟩
                order := orderOf l.grid.nx l.grid.ny l.grid.nz, collect := [] }

/-- `getWeights`, src/manipulators/FFDLattice.cpp:184-187 -/
def Ffd.getWeights (f : Ffd) : Option (List ℝ) := fullGrid f f.weights

/-- `setLattice(origin, span, type, dimensions, degrees)`, src/manipulators/FFDLattice.cpp:316-326; `j0`, `j2` as in
`Grid.setShape` -/
def Ffd.setLattice (f : Ffd) (o v : V3) (type : Kind) (a b c : Int) (d0 d1 d2 : Int) (j0 j2 : ℝ) : Option Ffd :=
  ((f.onGrid (fun g => setDimension (setSpanG (setOriginG (setShape { g with shape := none } type j0 j2) o) v) a b c)).setDegrees d0 d1 d2).build

/-- `clearLattice`, src/manipulators/FFDLattice.cpp:141-148, with Lattice::clearLattice, clearKnots (lines 1165-1180) and
clearFilter; `BaseManipulation::clear` empties the geometry -/
def Ffd.clear (f : Ffd) : Ffd where
  lat := ⟨clearMesh f.lat.grid, f.lat.np, []⟩
  c0 := .new
  c1 := .new
  c2 := .new
  weights := []
  displ := []
  order := (0, 1, 2)
  global := f.global
  collect := []
  filter := make none .undefined
  bfilter := false
  geom := none
  gdispl := f.gdispl

/-! ## Deformation -/

/-- `apply(darray3E)`, src/manipulators/FFDLattice.cpp:633-638 -/
def Ffd.applyPoint (f : Ffd) (p : V3) : Option V3 := do
  let s ← f.lat.grid.shape
  if ¬ pointIncluded s p ∨ f.lat.grid.built = false then some ⟨0, 0, 0⟩ else evalPoint f p

/-- `apply(dvecarr3E *)`, src/manipulators/FFDLattice.cpp:685-699: each index is written once -/
def Ffd.applyPoints (f : Ffd) (ps : List V3) : Option (List V3) :=
  if f.lat.grid.built = false then some []
  else do
    let s ← f.lat.grid.shape
    let list := includeList s ps 0
    list.foldlM (fun r i => do
      let v ← evalPoint f (← ps[i]?)
      if i < r.length then some (r.set i v) else none) (List.replicate ps.length ⟨0, 0, 0⟩)

/-- the vertices to be moved, src/manipulators/FFDLattice.cpp:659-660: `skd` is the tree of a geometry that supports it, `kd` the
tree of the points of the others, with the tolerance of bitpit's box test -/
def selected (s : Shape) (o : Mesh.Obj V3) (skd : Option Skd) (kd : Kd) (tol : ℝ) : List Nat :=
  match skd with
  | some t =>
    Mesh.vertexFromCells o (includeGeo s (fun id => ((get o.cells id).map (fun c => (Mesh.vertexIds c).filterMap (get o.verts))).getD []) (some t))
  | none => includeCloud s tol kd

/-- multiplication by the filter, src/manipulators/FFDLattice.cpp:667-671 -/
def modulate (filter : Data ℝ) : List Nat → List V3 → Option (List V3)
  | [], r => some r
  | _ :: _, [] => none
  | id :: ids, v :: vs => do
    let x ← get filter id
    let rest ← modulate filter ids vs
    some (V3.scale x v :: rest)

/-- `m_gdispl[mapp] = localdef[counter]`, src/manipulators/FFDLattice.cpp:617-620; an id that is not there is undefined -/
def store : List Nat → List V3 → Data V3 → Option (Data V3)
  | [], _, d => some d
  | _ :: _, [], _ => none
  | id :: ids, v :: vs, d => if has d id then store ids vs (setAt d id v) else none

/-- `execute`, src/manipulators/FFDLattice.cpp:579-623, with `apply(livector1D)`, lines 650-674 -/
def Ffd.execute (w : Manip.World) (skd : Option Skd) (kd : Kd) (tol : ℝ) (f : Ffd) : Option Ffd := do
  let g ← f.geom
  let f ← if f.lat.grid.built then some f else f.build
  let s ← f.lat.grid.shape
  let list := selected s (w g) skd kd tol
  let result ← evalList f (w g) list
  let fr ← if f.bfilter then do
      let x ← Manip.checkFilter w g f.filter
      let r ← modulate x.data list result
      some ({ f with filter := x }, r)
    else some (f, result)
  let zero ← insertAll (⟨0, 0, 0⟩ : V3) ((w g).verts.map Prod.fst) []
  let d ← store list fr.2 zero
  some { fr.1 with gdispl := ⟨some g, defaultName, .point, d⟩ }

/-- `apply()`, src/manipulators/FFDLattice.cpp:705-707, that is `_apply`, src/core/BaseManipulation.cpp:956-971 -/
def Ffd.apply (w : Manip.World) (f : Ffd) : Option Manip.World :=
  match f.geom with
  | none => some w
  | some g => (Mesh.applyDisp f.gdispl.data (w g)).map (fun o h => if h = g then o else w h)

end

end Verif.Ffd
