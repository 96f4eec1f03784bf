import Verif.Manip.FilterProps
/-
Model of `mimmo::MRBF` (src/manipulators/MRBF.cpp, src/manipulators/MRBF.hpp): displacements of a geometry by radial
basis functions.

* Geometries are handles, fields and the filter are those of Verif.Manip.Model; `double` is ℝ.
* The base class `bitpit::RBF` is external.  Its nodes are modelled as the list of (position, active flag), its data as
  the list of data sets (one list of nodal values each).  `addNode` appends active nodes, `addData` appends a data set,
  `removeAllNodes` and `removeAllData` empty the lists, `fitDataToNodes` cuts or pads with zeros.  `solve` and `greedy`
  (interpolation) are a parameter: they receive everything they can look at and give weights and active flags.
* Fields linked by pointer (displacements and radii on the vertices of the geometry of the nodes) are taken with their
  content at the time of the execution.
* The kd-tree is external: `hNeighbors` gives the vertices not farther than the distance asked for.
* Ports, plots, logging and the exchange between processes are not modelled (one process).
* A quotient 0/0 is NaN: no number (`none`).  A quotient x/0 with x positive is infinite: the value of the basis function
  there is a datum of the function (`none` if it is not a number).
-/
namespace Verif.Rbf
open Verif.Field Verif.Mesh Verif.Shape Verif.Manip
open List hiding get

noncomputable section
open scoped Classical

/-- a basis function: values at the finite distances and at infinity -/
structure Kernel where
  at_ : ℝ → ℝ
  far : Option ℝ

/-- `evalBasis(norm / radius)`, src/manipulators/MRBF.cpp:1219-1220 -/
def Kernel.eval (k : Kernel) (norm radius : ℝ) : Option ℝ :=
  if radius = 0 then (if norm = 0 then none else k.far) else some (k.at_ (norm / radius))

/-- `MRBFSol`, src/manipulators/MRBF.hpp:50-54 -/
inductive Sol
  | none | whole | greedy
  deriving DecidableEq

/-- a node of the base class: position and active flag -/
abbrev Node := V3 × Bool

/-- `solve()` or `greedy(tol)` of the base class (external), from mode, tolerance, basis function, radius of the base
class, nodes and data: the weights and the active flags -/
abbrev Solver := Sol → ℝ → Kernel → ℝ → List Node → List (List ℝ) → List (List ℝ) × List Bool

/-- data members, src/manipulators/MRBF.hpp:161-189, and those of the base class.  `data` are `m_weight` in mode NONE and
`m_value` in the other modes, `weights` are `m_weight` in the other modes. -/
structure Rbf where
  geom : Option Nat := none
  tol : ℝ := 1 / 10 ^ 6
  mode : Sol
  filter : Field Nat ℝ := make none .undefined
  bfilter : Bool := false
  srValue : ℝ := -1
  srReal : Bool := false
  radii : List ℝ := []
  factor : ℝ := 1
  kernel : Kernel
  compact : Bool := false
  displ : Field Nat V3 := make none .undefined
  sdispl : Field Nat ℝ := make none .undefined
  effective : List ℝ := []
  rbfGeom : Option Nat := none
  rbfDispl : Option (Field Nat V3) := none
  rbfScalar : Option (Field Nat ℝ) := none
  rbfRadii : Option (Field Nat ℝ) := none
  scalar : Bool := false
  nodes : List Node := []
  data : List (List ℝ) := []
  weights : List (List ℝ) := []
  baseRadius : ℝ := 1

/-- constructor, src/manipulators/MRBF.cpp:32-49; `k` is the basis function set by the base class -/
def Rbf.new (m : Sol) (k : Kernel) : Rbf := { mode := m, kernel := k }

/-- `setGeometry` of BaseManipulation, and the port M_GEOM -/
def Rbf.setGeometry (s : Rbf) (g : Nat) : Rbf := { s with geom := some g }

/-- `addNode`, src/manipulators/MRBF.cpp:310-323 -/
def Rbf.addNodes (s : Rbf) (l : List V3) : Rbf := { s with nodes := s.nodes ++ l.map (fun p => (p, true)) }

/-- `setNode` with a list, src/manipulators/MRBF.cpp:338-343 (one point: 328-333) -/
def Rbf.setNodes (s : Rbf) (l : List V3) : Rbf :=
  { s with nodes := l.map (fun p => (p, true)), rbfGeom := none }

/-- `setNode` with a geometry, src/manipulators/MRBF.cpp:349-353 -/
def Rbf.setNodeGeometry (s : Rbf) (g : Option Nat) : Rbf :=
  match g with
  | none => s
  | some g => { s with rbfGeom := some g }

/-- `setFilter`, src/manipulators/MRBF.cpp:359-365 -/
def Rbf.setFilter (s : Rbf) (f : Option (Field Nat ℝ)) : Rbf :=
  match f with
  | none => s
  | some f => { s with filter := f, bfilter := !f.data.isEmpty }

/-- `setSupportRadiusLocal`, src/manipulators/MRBF.cpp:418-424 -/
def Rbf.setRadiusLocal (s : Rbf) (r : ℝ) : Rbf := { s with srValue := max (-1) r, srReal := false, radii := [] }

/-- `setSupportRadiusReal`, src/manipulators/MRBF.cpp:435-441 (`setSupportRadiusValue`, 446-449, calls it) -/
def Rbf.setRadiusReal (s : Rbf) (r : ℝ) : Rbf := { s with srValue := max (-1) r, srReal := true, radii := [] }

/-- `setVariableSupportRadii` with a list, src/manipulators/MRBF.cpp:461-467 -/
def Rbf.setRadii (s : Rbf) (l : List ℝ) : Rbf :=
  if l.isEmpty = true ∨ s.mode ≠ .none then s else { s with radii := l, srValue := -1, srReal := false }

/-- `setVariableSupportRadii` with a field, src/manipulators/MRBF.cpp:475-481 -/
def Rbf.setRadiiField (s : Rbf) (f : Option (Field Nat ℝ)) : Rbf :=
  if f = none ∨ s.mode ≠ .none then s else { s with rbfRadii := f, srValue := -1, srReal := false }

/-- `setDiagonalFactor`, src/manipulators/MRBF.cpp:488-491 -/
def Rbf.setFactor (s : Rbf) (x : ℝ) : Rbf := { s with factor := min (max x 0) 1 }

/-- `setTol`, src/manipulators/MRBF.cpp:497-500 -/
def Rbf.setTol (s : Rbf) (x : ℝ) : Rbf := { s with tol := x }

/-- the three data sets of a list of vectors, src/manipulators/MRBF.cpp:518-524 -/
def columns (l : List V3) : List (List ℝ) := [l.map (fun v => v.x), l.map (fun v => v.y), l.map (fun v => v.z)]

/-- `setDisplacements` with a list, src/manipulators/MRBF.cpp:512-528 -/
def Rbf.setDispl (s : Rbf) (l : List V3) : Rbf := { s with data := columns l, rbfDispl := none, scalar := false }

/-- `setDisplacements` with a field, src/manipulators/MRBF.cpp:542-546 -/
def Rbf.setDisplField (s : Rbf) (f : Option (Field Nat V3)) : Rbf :=
  match f with
  | none => s
  | some f => { s with rbfDispl := some f, scalar := false }

/-- `setScalarDisplacements` with a list, src/manipulators/MRBF.cpp:561-569 -/
def Rbf.setScalar (s : Rbf) (l : List ℝ) : Rbf := { s with data := [l], rbfScalar := none, scalar := true }

/-- `setScalarDisplacements` with a field, src/manipulators/MRBF.cpp:582-586: the scalar flag is not touched -/
def Rbf.setScalarField (s : Rbf) (f : Option (Field Nat ℝ)) : Rbf :=
  match f with
  | none => s
  | some f => { s with rbfScalar := some f }

/-- `setFunction`, src/manipulators/MRBF.cpp:594-644 -/
def Rbf.setFunction (s : Rbf) (k : Kernel) (c : Bool := false) : Rbf := { s with kernel := k, compact := c }

/-- `setCompactSupport`, src/manipulators/MRBF.cpp:650-654 -/
def Rbf.setCompact (s : Rbf) (c : Bool) : Rbf := { s with compact := c }

/-- `clearFilter`, src/manipulators/MRBF.cpp:669-672 -/
def Rbf.clearFilter (s : Rbf) : Rbf := { s with filter := Field.clear s.filter, bfilter := false }

/-- `clear`, src/manipulators/MRBF.cpp:657-665 -/
def Rbf.clear (s : Rbf) : Rbf :=
  { s.clearFilter with geom := none, tol := 1 / 10 ^ 5, srValue := -1, srReal := false, radii := [] }

/-- copy constructor, src/manipulators/MRBF.cpp:95-111, with that of the base class -/
def Rbf.copy (s : Rbf) : Rbf :=
  { s with
    filter := if s.bfilter then s.filter else make none .undefined
    displ := make none .undefined
    sdispl := make none .undefined
    effective := [] }

/-- `getDisplacements`, src/manipulators/MRBF.cpp:261-265 -/
def Rbf.getDispl (s : Rbf) : Option (Field Nat V3) := if s.scalar then none else some s.displ

/-- `getScalarDisplacements`, src/manipulators/MRBF.cpp:275-279 -/
def Rbf.getScalar (s : Rbf) : Option (Field Nat ℝ) := if s.scalar then some s.sdispl else none

/-! ## Nodes given by a geometry -/

/-- are displacements or radii attached to the geometry of the nodes, src/manipulators/MRBF.cpp:1250-1286 -/
def linked {α : Type} (f : Option (Field Nat α)) (g : Nat) : Bool :=
  match f with
  | none => true
  | some f => f.geo == some g

/-- the vertices of the geometry of the nodes by increasing id (`std::map`), src/manipulators/MRBF.cpp:1293-1297 -/
def byId (vs : Data V3) : Data V3 := vs.mergeSort (fun a b => decide (a.1 ≤ b.1))

/-- value of a field at an id, 0 where there is none, src/manipulators/MRBF.cpp:1299-1308, 1409, 1420-1424 -/
def valueAt {α : Type} (zero : α) (f : Option (Field Nat α)) (id : Nat) : α :=
  match f with
  | none => zero
  | some f => (get f.data id).getD zero

/-- radius attached to an id, src/manipulators/MRBF.cpp:1309-1311 -/
def radiusAt (f : Option (Field Nat ℝ)) (id : Nat) : Option ℝ := f.bind (fun f => get f.data id)

/-- the loop `m_supportRadii[count] = radii[id]` over the nodes, src/manipulators/MRBF.cpp:1413-1429: a position beyond
the end of the list is undefined behaviour (`none`) -/
def radiiLoop (f : Option (Field Nat ℝ)) : List Nat → Nat → List ℝ → Option (List ℝ)
  | [], _, acc => some acc
  | id :: ids, count, acc =>
    match radiusAt f id with
    | none => radiiLoop f ids (count + 1) acc
    | some r => if count < acc.length then radiiLoop f ids (count + 1) (acc.set count r) else none

/-- `initRBFwGeometry`, src/manipulators/MRBF.cpp:1247-1439: `some (_, false)` is a refusal -/
def Rbf.init (w : World) (s : Rbf) (g : Nat) : Option (Rbf × Bool) :=
  if (s.scalar = false ∧ linked s.rbfDispl g = false) ∨ (s.scalar = true ∧ linked s.rbfScalar g = false) ∨
      linked s.rbfRadii g = false then some (s, false)
  else
    let vs := byId (w g).verts
    let ids := vs.map Prod.fst
    (radiiLoop s.rbfRadii ids 0 (replicate (ids.filter (fun i => (radiusAt s.rbfRadii i).isSome)).length 0)).map
      (fun radii =>
        ({ s with
            nodes := vs.map (fun e => (e.2, true))
            radii := radii
            data := if s.scalar then [ids.map (valueAt 0 s.rbfScalar)]
              else columns (ids.map (valueAt ⟨0, 0, 0⟩ s.rbfDispl)) }, true))

/-! ## Support radii -/

/-- `std::numeric_limits<double>::min()` -/
def tiny : ℝ := 1 / 2 ^ 1022

/-- `std::vector::resize(n, x)` -/
def resizeWith (x : ℝ) (l : List ℝ) (n : Nat) : List ℝ := l.take n ++ replicate (n - l.length) x

/-- the data of a node, src/manipulators/MRBF.cpp:1168-1171 (every data set has been fitted to the nodes) -/
def nodeData (data : List (List ℝ)) (i : Nat) : List ℝ := data.map (fun c => c.getD i 0)

/-- `norm2` of a vector of numbers (bitpit, external) -/
def normOf (l : List ℝ) : ℝ := √((l.map (fun x => x * x)).sum)

/-- the loop over the nodes, src/manipulators/MRBF.cpp:1167-1173 -/
def largestData (data : List (List ℝ)) (n : Nat) : ℝ :=
  (range n).foldl (fun r i => max r (normOf (nodeData data i))) 0

/-- the common radius, src/manipulators/MRBF.cpp:1160-1187; `diag` is the diagonal of the bounding box of the target -/
def Rbf.candidate (s : Rbf) (diag : ℝ) : ℝ :=
  if s.srValue < tiny then largestData s.data s.nodes.length * 3
  else if s.srReal then s.srValue else s.srValue * diag

/-- `computeEffectiveSupportRadiusList`, src/manipulators/MRBF.cpp:1145-1197 -/
def Rbf.computeRadii (s : Rbf) (diag : ℝ) : Rbf :=
  if !s.radii.isEmpty then { s with effective := resizeWith tiny s.radii s.nodes.length }
  else
    let c := s.candidate diag
    { s with
      effective := replicate s.nodes.length c
      baseRadius := if s.mode = .none then s.baseRadius else c }

/-! ## Execution -/

/-- `fitDataToNodes` for the data sets of another size, src/manipulators/MRBF.cpp:712-724 -/
def Rbf.fit (s : Rbf) : Rbf := { s with data := s.data.map (fun c => resizeWith 0 c s.nodes.length) }

/-- weights after `solve` or `greedy`, src/manipulators/MRBF.cpp:731-734 -/
def Rbf.solve (ext : Solver) (s : Rbf) : Rbf :=
  if s.mode = .none then s
  else
    let r := ext s.mode s.tol s.kernel s.baseRadius s.nodes s.data
    { s with weights := r.1, nodes := zipWith (fun n a => (n.1, a)) s.nodes r.2 }

/-- `m_weight` -/
def Rbf.activeWeights (s : Rbf) : List (List ℝ) := if s.mode = .none then s.data else s.weights

/-- the loop of `evalRBF`, src/manipulators/MRBF.cpp:1216-1226 -/
def evalLoop (k : Kernel) (p : V3) (radii : List ℝ) (weights : List (List ℝ)) :
    List Node → Nat → List ℝ → Option (List ℝ)
  | [], _, values => some values
  | n :: ns, i, values =>
    if n.2 then
      (k.eval (norm2 (p - n.1)) (radii.getD i 0)).bind (fun b =>
        evalLoop k p radii weights ns (i + 1) (zipWith (fun v c => v + b * c.getD i 0) values weights))
    else evalLoop k p radii weights ns (i + 1) values

/-- `evalRBF`, src/manipulators/MRBF.cpp:1208-1229: one value for each data set -/
def Rbf.eval (s : Rbf) (p : V3) : Option (List ℝ) :=
  evalLoop s.kernel p s.effective s.activeWeights s.nodes 0 (replicate s.data.length 0)

/-- the largest radius, src/manipulators/MRBF.cpp:745-751 -/
def maxRadius (l : List ℝ) : ℝ := l.foldl (fun m r => if r > m then r else m) 0

/-- `hNeighbors` of the kd-tree (external): ids of the vertices within a distance of a point -/
def near (vs : Data V3) (p : V3) (r : ℝ) : List Nat :=
  (vs.filter (fun e => decide (norm2 (e.2 - p) ≤ r))).map Prod.fst

/-- the vertices within the radius of a node, src/manipulators/MRBF.cpp:765-773 -/
def reached (vs : Data V3) (radii : List ℝ) : List Node → Nat → List Nat
  | [], _ => []
  | n :: ns, i => near vs n.1 (radii.getD i 0) ++ reached vs radii ns (i + 1)

/-- the set of the vertices to be moved, src/manipulators/MRBF.cpp:737-778 (its order is not the one of the
`std::unordered_set`, which only decides the order of the ids in the result) -/
def Rbf.targets (s : Rbf) (diag : ℝ) (vs : Data V3) : List Nat :=
  if s.compact = true ∧ ¬ maxRadius s.effective > s.factor * diag then (reached vs s.effective s.nodes 0).dedup
  else vs.map Prod.fst

/-- the value inserted for a vertex, src/manipulators/MRBF.cpp:786-791: fewer data sets than needed are undefined
behaviour -/
def asVector : List ℝ → Option V3
  | x :: y :: z :: _ => some ⟨x, y, z⟩
  | _ => none

def asScalar : List ℝ → Option ℝ
  | x :: _ => some x
  | _ => none

/-- the loop over the vertices, src/manipulators/MRBF.cpp:783-792 -/
def insertLoop {α : Type} (value : V3 → Option α) (vs : Data V3) : List Nat → Data α → Option (Data α)
  | [], acc => some acc
  | id :: ids, acc =>
    match get vs id with
    | none => none
    | some p => (value p).bind (fun v => (ins acc id v).bind (insertLoop value vs ids))

/-- multiplication by the filter, src/manipulators/MRBF.cpp:795-806 (`at` throws if the id is missing) -/
def filterAll {α : Type} (mul : ℝ → α → α) (filter : Data ℝ) : Data α → Option (Data α)
  | [] => some []
  | e :: es =>
    match get filter e.1 with
    | none => none
    | some x => (filterAll mul filter es).map (fun d => (e.1, mul x e.2) :: d)

/-- second half of `execute` for one kind of result, src/manipulators/MRBF.cpp:780-813 (`checkFilter` is 1015-1034): the field and the filter -/
def finish {α : Type} (w : World) (s : Rbf) (g : Nat) (diag : ℝ) (pick : List ℝ → Option α) (mul : ℝ → α → α)
    (zero : α) : Option (Field Nat α × Field Nat ℝ) :=
  match insertLoop (fun p => (s.eval p).bind pick) (w g).verts (s.targets diag (w g).verts) [] with
  | none => none
  | some d =>
    let out := if s.bfilter then
        (checkFilter w g s.filter).bind (fun f => (filterAll mul f.data d).map (fun d => (d, f)))
      else some (d, s.filter)
    out.bind (fun r =>
      (completeIn w ⟨some g, defaultName, .point, r.1⟩ zero).map (fun c => (c.1, r.2)))

/-- `execute` after the nodes are known, src/manipulators/MRBF.cpp:698-814 -/
def Rbf.run (ext : Solver) (w : World) (diag : Nat → ℝ) (s : Rbf) (g : Nat) : Option Rbf :=
  let s := ((s.fit).computeRadii (diag g)).solve ext
  if s.scalar then
    (finish w s g (diag g) asScalar (fun x y => y * x) 0).map (fun r =>
      { s with sdispl := r.1, filter := r.2, displ := make none .undefined })
  else
    (finish w s g (diag g) asVector V3.scale ⟨0, 0, 0⟩).map (fun r =>
      { s with displ := r.1, filter := r.2, sdispl := make none .undefined })

/-- `execute`, src/manipulators/MRBF.cpp:680-814: an exception without geometry; a refusal of the nodes leaves
everything as it is.  `diag` gives the diagonal of the bounding box of each geometry. -/
def Rbf.execute (ext : Solver) (w : World) (diag : Nat → ℝ) (s : Rbf) : Option Rbf :=
  match s.geom with
  | none => none
  | some g =>
    match s.rbfGeom with
    | none => s.run ext w diag g
    | some h =>
      match s.init w h with
      | none => none
      | some (s, false) => some s
      | some (s, true) => s.run ext w diag g

/-! ## Applying -/

/-- the loop over the vertices of a cell, src/manipulators/MRBF.cpp:843-849: `nrm c i` is the normal the surface gives at
the local vertex `i` of the cell `c`; a missing scalar is undefined behaviour -/
def alongCell (nrm : Nat → Nat → V3) (sc : Data ℝ) (c : Nat) : List Nat → Nat → Data V3 → Option (Data V3)
  | [], _, acc => some acc
  | id :: ids, i, acc =>
    if has acc id then alongCell nrm sc c ids (i + 1) acc
    else
      match get sc id with
      | none => none
      | some x => alongCell nrm sc c ids (i + 1) (acc ++ [(id, V3.scale x (nrm c i))])

/-- the loop over the cells, src/manipulators/MRBF.cpp:840-850 -/
def alongNormals (nrm : Nat → Nat → V3) (sc : Data ℝ) : Data Cell → Data V3 → Option (Data V3)
  | [], acc => some acc
  | c :: cs, acc => (alongCell nrm sc c.1 (vertexIds c.2) 0 acc).bind (alongNormals nrm sc cs)

/-- `apply`, src/manipulators/MRBF.cpp:819-856; scalar displacements are laid along the normals of a surface.
Adjacencies are derived data and not shown. -/
def Rbf.apply (nrm : Nat → Nat → Nat → V3) (w : World) (s : Rbf) : Option (World × Rbf) :=
  match s.geom with
  | none => some (w, s)
  | some g =>
    let put : Data V3 → Option World := fun d => (applyDisp d (w g)).map (fun o h => if h = g then o else w h)
    if s.scalar then
      if (w g).type ≠ 1 then some (w, s)
      else
        (alongNormals (nrm g) s.sdispl.data (w g).cells []).bind (fun d =>
          (put d).map (fun w' => (w', { s with displ := Field.clear s.displ })))
    else (put s.displ.data).map (fun w' => (w', s))

/-! ## Duplicated nodes -/

/-- the inner loop of `checkDuplicatedNodes`, src/manipulators/MRBF.cpp:381-387, from node `j` on -/
def dupInner (tol : ℝ) (p : V3) (i : Nat) : List V3 → Nat → List Nat × List Nat → List Nat × List Nat
  | [], _, r => r
  | q :: qs, j, (marked, check) =>
    dupInner tol p i qs (j + 1)
      (if j ∉ check ∧ norm2 (q - p) ≤ tol then (marked ++ [i], j :: check) else (marked, check))

/-- the outer loop, src/manipulators/MRBF.cpp:380-388; `check` lists the positions whose flag is true -/
def dupOuter (tol : ℝ) : List V3 → Nat → List Nat × List Nat → List Nat × List Nat
  | [], _, r => r
  | p :: ps, i, r => dupOuter tol ps (i + 1) (dupInner tol p i ps (i + 1) r)

/-- `checkDuplicatedNodes`, src/manipulators/MRBF.cpp:372-390 -/
def Rbf.checkDuplicated (s : Rbf) (tol : ℝ) : List Nat := (dupOuter tol (s.nodes.map Prod.fst) 0 ([], [])).1

/-- `removeNode` with a list (base class, external): the nodes at the given positions go away, each once; true if as many
were removed as were listed -/
def removeAt (l : List Node) (ids : List Nat) : List Node :=
  (l.zipIdx.filter (fun e => decide (e.2 ∉ ids))).map Prod.fst

/-- `removeDuplicatedNodes`, src/manipulators/MRBF.cpp:397-405; `1.0E-12` is the default tolerance -/
def Rbf.removeDuplicated (s : Rbf) (list : Option (List Nat)) : Rbf :=
  { s with nodes := removeAt s.nodes (list.getD (s.checkDuplicated (1 / 10 ^ 12))) }

/-! ## Basis functions of mimmo -/

/-- `heaviside10`, `heaviside50`, `heaviside100`, `heaviside1000`, src/manipulators/MRBF.cpp:1446-1483 -/
def heaviside (k : ℝ) (d : ℝ) : ℝ := 1 / (1 + Real.exp (-k * (1 - d)))

/-- `dsigmoid`, src/manipulators/MRBF.cpp:1494-1498 -/
def dsigmoid (d : ℝ) : ℝ := 4 * (Real.exp (-10 * d) / (1 + Real.exp (-10 * d)) ^ 2)

/-- as basis functions: both vanish at infinity -/
def heavisideK (k : ℝ) : Kernel := ⟨heaviside k, some 0⟩

end

end Verif.Rbf
