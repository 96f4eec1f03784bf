import Verif.Mesh.Fill
import Verif.Shape.FrameProps
/-
Model of `CreatePointCloud` (src/iogeneric/CreatePointCloud.cpp) and `Create3DCurve` (src/iogeneric/Create3DCurve.cpp), one process.

Input fields are held by value, as the code does.  Names of fields, plots and messages are left out.  The hash map of lines is a list in the
order of insertion: its order of iteration is not specified and no theorem depends on it.  The priority queue is a parameter `pop`, that
takes out an element.
-/
namespace Verif.Create
open Verif.Shape Verif.Field Verif.Mesh

noncomputable section

/-- raw data, src/iogeneric/CreatePointCloud.hpp and src/iogeneric/Create3DCurve.hpp -/
structure Raw where
  points : Data V3 := []
  scalar : Data ℝ := []
  vector : Data V3 := []

/-- the loop that numbers the entries of a list, src/iogeneric/CreatePointCloud.cpp:143-151, 169-177, 195-203,
src/iogeneric/Create3DCurve.cpp:166-174, 192-200, 218-226 -/
def number {α : Type} (l : List α) : Data α := (l.zipIdx 0).map fun e => (e.2, e.1)

/-- `setRawPoints` of a field, src/iogeneric/CreatePointCloud.cpp:135-137, src/iogeneric/Create3DCurve.cpp:158-160 -/
def Raw.setPoints (r : Raw) (d : Option (Data V3)) : Raw :=
  match d with
  | none => r
  | some d => { r with points := d }

/-- `setRawVectorField` of a field, src/iogeneric/CreatePointCloud.cpp:161-163, src/iogeneric/Create3DCurve.cpp:184-186 -/
def Raw.setVector (r : Raw) (d : Option (Data V3)) : Raw :=
  match d with
  | none => r
  | some d => { r with vector := d }

/-- `setRawScalarField` of a field, src/iogeneric/CreatePointCloud.cpp:187-189, src/iogeneric/Create3DCurve.cpp:210-212 -/
def Raw.setScalar (r : Raw) (d : Option (Data ℝ)) : Raw :=
  match d with
  | none => r
  | some d => { r with scalar := d }

/-- `initialize` on the vertices and the loop that writes the values of ids that exist, src/iogeneric/CreatePointCloud.cpp:257-277,
src/iogeneric/Create3DCurve.cpp:394-407 -/
def fillField {α : Type} (init : α) (ids : List Nat) (raw : Data α) : Data α :=
  raw.foldl (fun d e => if has d e.1 then setAt d e.1 e.2 else d) (ids.map fun id => (id, init))

/-! ### Point clouds -/

/-- members of `CreatePointCloud` -/
structure Cloud where
  raw : Raw := {}
  result : Option (Obj V3) := none
  scalarOut : Data ℝ := []
  vectorOut : Data V3 := []

/-- copy constructor, src/iogeneric/CreatePointCloud.cpp:60-64 (base members: the geometry of the result is shared) -/
def Cloud.copy (c : Cloud) : Cloud := { c with scalarOut := [], vectorOut := [] }

/-- `clear`, src/iogeneric/CreatePointCloud.cpp:209-216 -/
def Cloud.clear (_ : Cloud) : Cloud := {}

/-- one raw point, src/iogeneric/CreatePointCloud.cpp:250-254 -/
def addPoint (o : Obj V3) (e : Nat × V3) : Obj V3 :=
  (addConnectedCell (addVertex o 0 e.2 (some e.1)).1 0 [e.1] .vertex 0 (some e.1)).1

/-- `execute`, src/iogeneric/CreatePointCloud.cpp:222-280 -/
def Cloud.execute (c : Cloud) : Option Cloud := do
  let o ← ctor 3
  let o := c.raw.points.foldl addPoint o
  let s := fillField 0 (o.verts.map Prod.fst) c.raw.scalar
  let v := fillField ⟨0, 0, 0⟩ (o.verts.map Prod.fst) c.raw.vector
  let r ← update o
  some { c with result := some r, scalarOut := s, vectorOut := v }

/-! ### Curves -/

/-- members of `Create3DCurve` -/
structure Curve where
  raw : Raw := {}
  nCells : Int := 0
  closed : Bool := false
  result : Option (Obj V3) := none
  scalarOut : Data ℝ := []
  vectorOut : Data V3 := []

/-- `setNCells`, src/iogeneric/Create3DCurve.cpp:268-270 -/
def Curve.setNCells (c : Curve) (n : Int) : Curve := { c with nCells := n }

/-- `setClosedLoop`, src/iogeneric/Create3DCurve.cpp:256-258 -/
def Curve.setClosedLoop (c : Curve) (b : Bool) : Curve := { c with closed := b }

/-- copy constructor, src/iogeneric/Create3DCurve.cpp:77-83 -/
def Curve.copy (c : Curve) : Curve := { c with scalarOut := [], vectorOut := [] }

/-- `clear`, src/iogeneric/Create3DCurve.cpp:231-240 -/
def Curve.clear (_ : Curve) : Curve := {}

/-- an element of the queue with the greatest first component; the rest -/
abbrev Pop := List (ℝ × Nat) → Option ((ℝ × Nat) × List (ℝ × Nat))

/-- number of lines without refinement, src/iogeneric/Create3DCurve.cpp:355, 423 -/
def baseCells (np : Nat) (closed : Bool) : Int := (np : Int) - 1 + if closed then 1 else 0

/-- lines between consecutive points, `fillPreliminaryStructure`, src/iogeneric/Create3DCurve.cpp:420-447; `none`: the iterator before the
first of no points -/
def lines (closed : Bool) (ids : List Nat) : Option (Data (Nat × Nat)) :=
  let opened := number (ids.zip ids.tail)
  if closed then
    match ids.getLast?, ids.head? with
    | some l, some f => some (opened ++ [(ids.length - 1, (l, f))])
    | _, _ => none
  else some opened

/-- variables of `refineObject`, src/iogeneric/Create3DCurve.cpp:462-485 -/
structure Refine where
  points : Data V3
  scalar : Data ℝ
  vector : Data V3
  conn : Data (Nat × Nat)
  queue : List (ℝ × Nat)
  idV : Nat
  idC : Nat

/-- `0.5*(x + y)` -/
def half (x y : V3) : V3 := V3.scale (1 / 2) (x + y)

/-- one pass of the loop, src/iogeneric/Create3DCurve.cpp:487-515; `none`: `top` of an empty queue, or a missing entry -/
def refineStep (pop : Pop) (s : Refine) : Option Refine := do
  let (pp, q) ← pop s.queue
  let v := s.idV + 1
  let c := s.idC + 1
  let ab ← get s.conn pp.2
  let pb ← get s.points ab.2
  let pa ← get s.points ab.1
  let points ← ins s.points v (half pb pa)
  let sb ← get s.scalar ab.2
  let sa ← get s.scalar ab.1
  let scalar ← ins s.scalar v (1 / 2 * (sb + sa))
  let wb ← get s.vector ab.2
  let wa ← get s.vector ab.1
  let vector ← ins s.vector v (half wb wa)
  some {
    points := points
    scalar := scalar
    vector := vector
    conn := setAt s.conn pp.2 (ab.1, v) ++ [(c, (v, ab.2))]
    queue := (1 / 2 * pp.1, c) :: (1 / 2 * pp.1, pp.2) :: q
    idV := v
    idC := c }

/-- the loop, src/iogeneric/Create3DCurve.cpp:487 -/
def refineLoop (pop : Pop) : Nat → Refine → Option Refine
  | 0, s => some s
  | n + 1, s => (refineStep pop s).bind (refineLoop pop n)

/-- lengths of the lines, src/iogeneric/Create3DCurve.cpp:475-479 -/
def lengths (points : Data V3) : Data (Nat × Nat) → Option (List (ℝ × Nat))
  | [] => some []
  | e :: l => do
    let pb ← get points e.2.2
    let pa ← get points e.2.1
    let r ← lengths points l
    some ((norm2 (pb - pa), e.1) :: r)

/-- `refineObject`, src/iogeneric/Create3DCurve.cpp:461-516 -/
def refineObject (pop : Pop) (points : Data V3) (scalar : Data ℝ) (vector : Data V3) (conn : Data (Nat × Nat)) (n : Nat) : Option Refine :=
  if n = 0 then some ⟨points, scalar, vector, conn, [], 0, 0⟩
  else do
    let q ← lengths points conn
    refineLoop pop n ⟨points, scalar, vector, conn, q, (points.map Prod.fst).foldl max 0, (conn.map Prod.fst).foldl max 0⟩

/-- `execute`, src/iogeneric/Create3DCurve.cpp:337-410 -/
def Curve.execute (pop : Pop) (c : Curve) : Option Curve := do
  let np := c.raw.points.length
  let nCells := max c.nCells (baseCells np c.closed)
  let scalar : Data ℝ := c.raw.points.map fun e => (e.1, (get c.raw.scalar e.1).getD 0)
  let vector : Data V3 := c.raw.points.map fun e => (e.1, (get c.raw.vector e.1).getD ⟨0, 0, 0⟩)
  let conn ← lines c.closed (c.raw.points.map Prod.fst)
  let s ← refineObject pop c.raw.points scalar vector conn (max 0 (nCells - baseCells np c.closed)).toNat
  let o ← ctor 4
  let o := fillCells (fillVerts o s.points) (s.conn.map fun e => (e.1, ⟨.line, [e.2.1, e.2.2], 0, true⟩))
  let r ← update o
  some { c with
    nCells := nCells
    result := some r
    scalarOut := fillField 0 (o.verts.map Prod.fst) s.scalar
    vectorOut := fillField ⟨0, 0, 0⟩ (o.verts.map Prod.fst) s.vector }

end
end Verif.Create
