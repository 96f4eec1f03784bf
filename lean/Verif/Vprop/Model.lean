import Verif.Lapl.Propagate
/-
Model of PropagateVectorField (src/propagators/PropagateField.cpp:360-1292): the propagation of displacements into a mesh, with slip and periodic
boundaries and several steps.

Simplified as in Verif.Lapl.Propagate: `double` is ℝ; one process; the linear solver is external, a field is a result when it solves the system; the
damping at the points and the distances in the band are given as functions of the positions of the points (the surfaces they refer to are made of points
of the mesh and move with them, 736-763); the projection on the reference surface is given.
-/
namespace Verif.Vprop
open List Verif.Lapl

noncomputable section

/-! ### Conditions -/

/-- a loop over points with conditions: the rows that exist are fixed, src/propagators/PropagateField.cpp:890-905, 909-921, 924-937 -/
def pass (c : Nat → Option ℝ) (rows : Nat → Option (Sten ℝ)) : Nat → Option (Sten ℝ) :=
  fun id => match c id with | none => rows id | some v => (rows id).map (dirichletRow id v)

/-- the rows that are kept: the border and the points with given values, src/propagators/PropagateField.cpp:1146-1147, 1160-1162, 1176 -/
def borderRows (border : List Nat) (dir : Nat → Option V) (st : Nat → Option (Sten ℝ)) : Nat → Option (Sten ℝ) :=
  fun id => if id ∈ border ∨ (dir id).isSome then st id else none

/-- the rows with conditions, src/propagators/PropagateField.cpp:880-937; `corr`: the stage of correction -/
def workRows (corr : Bool) (slip : Nat → Option V) (periodic : List Nat) (dir : Nat → Option V) (c : Fin 3) (rows : Nat → Option (Sten ℝ)) :
    Nat → Option (Sten ℝ) :=
  let rows := if corr then pass (fun id => (slip id).map fun v => v c) rows else rows
  let rows := pass (fun id => if id ∈ periodic then some 0 else none) rows
  pass (fun id => (dir id).map fun v => v c) rows

/-- a field solves the system for a component, src/propagators/PropagateField.cpp:940-949: the rows with conditions replace those of the matrix, their
constants make the right-hand side -/
def VSolves (ids border : List Nat) (corr : Bool) (slip : Nat → Option V) (periodic : List Nat) (dir : Nat → Option V) (c : Fin 3)
    (st : Nat → Option (Sten ℝ)) (u : Nat → ℝ) : Prop :=
  ∀ id ∈ ids, match workRows corr slip periodic dir c (borderRows border dir st) id with
    | some s => rowProduct s u = 0 - s.const
    | none => ∀ s, st id = some s → rowProduct s u = 0

/-! ### Slip -/

/-- bitpit's `projectPointPlane` (external): exact for a normal of unit length -/
def projPlane (x q n : V) : V := x + dot n (q - x) • n

/-- `initializeSlipSurfaceAsPlane`, src/propagators/PropagateField.cpp:1038-1078: the mean of the points and of the normals of the cells -/
def averagePlane (points normals : List V) : V × V :=
  (if points.length > 0 then (1 / (points.length : ℝ)) • points.sum else points.sum,
   if normals.length > 0 then (1 / (normals.length : ℝ)) • normals.sum else normals.sum)

/-- `computeSlipBCCorrector` with a plane, src/propagators/PropagateField.cpp:969-987, 1023-1026 -/
def planeCorrector (plane : V × V) (slip : List Nat) (pos guess : Nat → V) : Nat → Option V :=
  fun id => if id ∈ slip then some (projPlane (pos id + guess id) plane.1 plane.2 - pos id) else none

/-- `computeSlipBCCorrector` with a reference surface of `nref` points, src/propagators/PropagateField.cpp:988-1026: the projections of the displaced points in
the order of the slip points; `none`: a position of an array that was not written, or behind its end -/
def refCorrector (proj : V → V) (nref : Nat) (slip : List Nat) (pos guess : Nat → V) : Option (List (Nat × V)) :=
  let points := slip.map fun id => pos id + guess id
  ((range nref).mapM fun i => points[i]?).bind fun ps =>
    let projected := ps.map proj
    slip.zipIdx.mapM fun e => projected[e.2]?.map fun q => (e.1, q - pos e.1)

/-- `checkBoundariesCoherence`, src/propagators/PropagateField.cpp:663-705 and PropagateField.tpp:592-625: whether the points of the patches belong to the mesh, the
slip points and the fixed points of periodic patches. A failure only gives a warning (1097-1099) -/
def coherence (mesh patches slip periodic : List Nat) : Bool × List Nat × List Nat :=
  if (patches.all fun id => mesh.contains id) && (slip.all fun id => mesh.contains id) then (true, slip, periodic) else (false, [], [])

/-- the reference surfaces of an execution, which are stored, src/propagators/PropagateField.cpp:1121-1122 -/
def references {σ : Type} (stored slip : List σ) : List σ := if slip = [] then stored else if stored = [] then slip else stored

/-! ### Steps -/

/-- what does not change between steps -/
structure Setup where
  ids : List Nat
  border : List Nat
  conn : Nat → List Nat
  relax : ℝ
  damp : (Nat → V) → Nat → ℝ
  band : (Nat → V) → Nat → Option ℝ
  thres : ℝ
  dir : Nat → Option V
  periodic : List Nat
  slipActive : Bool
  corrector : (Nat → V) → (Nat → V) → Nat → Option V

/-- the stencils at positions, src/propagators/PropagateField.cpp:1165-1172 -/
def Setup.fresh (S : Setup) (pos : Nat → V) : Nat → Option (Sten ℝ) := stencils pos (S.damp pos) S.conn S.ids (S.band pos) S.relax

/-- the three components, src/propagators/PropagateField.cpp:1199-1203, 1215-1219 -/
def Setup.Stage (S : Setup) (corr : Bool) (slip : Nat → Option V) (st : Nat → Option (Sten ℝ)) (u : Nat → V) : Prop :=
  ∀ c : Fin 3, VSolves S.ids S.border corr slip S.periodic S.dir c st fun id => u id c

/-- a step: a guess with free slip points, then a correction, src/propagators/PropagateField.cpp:1196-1224 -/
def Setup.Step (S : Setup) (pos : Nat → V) (st : Nat → Option (Sten ℝ)) (u : Nat → V) : Prop :=
  ∃ guess, S.Stage false (fun _ => none) st guess ∧ if S.slipActive then S.Stage true (S.corrector pos guess) st u else u = guess

open scoped Classical in
/-- the points whose stencils are computed again: those that moved and their neighbours, src/propagators/PropagateField.tpp:1221-1229, PropagateField.cpp:817-831 -/
def Setup.mask (S : Setup) (u : Nat → V) : List Nat :=
  let moved := S.ids.filter fun id => S.thres < norm2 (u id)
  moved ++ moved.flatMap S.conn

/-- the stencils after a step, src/propagators/PropagateField.cpp:1233-1264 -/
def Setup.update (S : Setup) (pos : Nat → V) (st : Nat → Option (Sten ℝ)) (u : Nat → V) : Nat → Option (Sten ℝ) :=
  fun id => if id ∈ S.mask u then S.fresh (fun k => pos k + u k) id else st id

/-- the loop over the steps, src/propagators/PropagateField.cpp:1193-1266: the positions at the end -/
def Setup.Run (S : Setup) : Nat → (Nat → V) → (Nat → Option (Sten ℝ)) → (Nat → V) → Prop
  | 0, pos, _, q => q = pos
  | n + 1, pos, st, q => ∃ u, S.Step pos st u ∧ S.Run n (fun k => pos k + u k) (S.update pos st u) q

/-- `subdivideBC`, src/propagators/PropagateField.cpp:711-715 -/
def Setup.subdivide (S : Setup) (n : Nat) : Setup := { S with dir := fun id => (S.dir id).map fun v => (1 / (n : ℝ)) • v }

/-- `execute`, src/propagators/PropagateField.cpp:1084-1292, for a number of steps: the field and the positions of the mesh afterwards; with several steps
the mesh is deformed, then restored, 769-786 -/
def Setup.Execute (S : Setup) (n : Nat) (pos field after : Nat → V) : Prop :=
  if n > 1 then ∃ q, (S.subdivide n).Run n pos ((S.subdivide n).fresh pos) q ∧ (field = fun id => q id - pos id) ∧ after = pos
  else S.Step pos (S.fresh pos) field ∧ after = pos

end

end Verif.Vprop
