import Verif.Lapl.Stencil
/-
Model of src/propagators/PropagateField.{hpp,tpp} and of PropagateScalarField (PropagateField.cpp): the propagation of a field from boundary patches
into a mesh.

Simplified: `double` is ℝ; one process; the positions and the edges of the mesh, the distances of its points and cells to surfaces and the volumes of its
cells are given; the linear solver (bitpit, PETSc) is external: a field is a result when it solves the system.
-/
namespace Verif.Lapl
open List

noncomputable section

/-! ### The system -/

open scoped Classical in
/-- a neighbour in the band at a larger distance, src/propagators/PropagateField.tpp:932-933 -/
def isFar (band : Nat → Option ℝ) (d : ℝ) (e : Nat × ℝ) : Bool := match band e.1 with | none => false | some d' => decide (d < d')

/-- `modifyStencilsForNarrowBand` at a point, src/propagators/PropagateField.tpp:918-941; `band`: the distances of the points in the band -/
def bandStencil (band : Nat → Option ℝ) (relax : ℝ) (id : Nat) (s : Sten ℝ) : Sten ℝ :=
  match band id with
  | none => s
  | some d =>
    let far := isFar band d
    let init := s.items.dropLast
    let old := ((init.filter far).map Prod.snd).sum
    let new := ((init.filter far).map fun e => e.2 * relax).sum
    ⟨(init.map fun e => if far e then (e.1, e.2 * relax) else e) ++ (s.items.getLast?.map fun e => (e.1, e.2 + (old - new))).toList, s.const⟩

/-- the row of a point with a given value, src/propagators/PropagateField.tpp:1120-1126 -/
def dirichletRow (id : Nat) (v : ℝ) (s : Sten ℝ) : Sten ℝ := (s.scale 0).add (((Sten.empty : Sten ℝ).append id 1).addConst (-v))

/-- the row of a point, src/propagators/PropagateField.tpp:1110-1131 (and 993-998 for the points without conditions) -/
def systemRow (st : Nat → Option (Sten ℝ)) (bc : Nat → Option ℝ) (id : Nat) : Option (Sten ℝ) :=
  (st id).map fun s => match bc id with | none => s | some v => dirichletRow id v s

/-- the product of a row of the matrix with a field -/
def rowProduct (s : Sten ℝ) (u : Nat → ℝ) : ℝ := (s.items.map fun e => u e.1 * e.2).sum

open scoped Classical in
/-- the right-hand side, src/propagators/PropagateField.tpp:1090-1093, 1135-1140: of the points on the border or with conditions, zero elsewhere -/
def rhs (border : List Nat) (st : Nat → Option (Sten ℝ)) (bc : Nat → Option ℝ) (id : Nat) : ℝ :=
  if id ∈ border ∨ (bc id).isSome then (match systemRow st bc id with | none => 0 | some s => 0 - s.const) else 0

/-- a field solves the system of the points `ids` -/
def Solves (ids border : List Nat) (st : Nat → Option (Sten ℝ)) (bc : Nat → Option ℝ) (u : Nat → ℝ) : Prop :=
  ∀ id ∈ ids, ∀ s, systemRow st bc id = some s → rowProduct s u = rhs border st bc id

/-- the stencils, src/propagators/PropagateField.cpp:307-311 -/
def stencils (pos : Nat → V) (damping : Nat → ℝ) (conn : Nat → List Nat) (ids : List Nat) (band : Nat → Option ℝ) (relax : ℝ) : Nat → Option (Sten ℝ) :=
  fun id => (graphStencils pos (some damping) conn ids id).map (bandStencil band relax id)

/-- the conditions of a step, src/propagators/PropagateField.cpp:325, 335 -/
def stepBc (nstep istep : Nat) (bc : Nat → Option ℝ) : Nat → Option ℝ := fun id => (bc id).map fun v => (istep + 1 : ℝ) * (v / nstep)

/-- the steps, src/propagators/PropagateField.cpp:332-341: the result is that of the last one; `solve` gives a field for the conditions of a step -/
def multiStep (solve : (Nat → Option ℝ) → Nat → ℝ) (nstep : Nat) (bc : Nat → Option ℝ) : Option (Nat → ℝ) :=
  (range nstep).foldl (fun _ i => some (solve (stepBc nstep i bc))) none

/-- `setSolverMultiStep`, src/propagators/PropagateField.cpp:159-163 -/
def setSteps (n : Nat) : Nat := max 1 n

/-! ### Damping -/

open scoped Classical in
/-- the part of the distance, src/propagators/PropagateField.tpp:793-800; `none`: a division by zero -/
def distPart (radius plateau decay d : ℝ) : Option ℝ :=
  if plateau = 0 then none
  else
    let m := (radius / plateau) ^ decay
    if d < plateau then some 1
    else if d = 0 ∨ m - 1 = 0 then none
    else some (((radius / d) ^ decay - 1) / (m - 1))

/-- damping by distance, src/propagators/PropagateField.tpp:802-805 -/
def dampDist (radius plateau decay d : ℝ) : Option ℝ :=
  (distPart radius plateau decay d).map fun f => ((radius / plateau) ^ decay - 1) * f + 1

/-- the smallest positive normal number -/
def dblMin : ℝ := 2⁻¹ ^ 1022

open scoped Classical in
/-- volumes from below, src/propagators/PropagateField.tpp:818-822 -/
def clampVol (v : ℝ) : ℝ := if v < dblMin then dblMin else v

/-- damping by volume, src/propagators/PropagateField.tpp:806-840; `vols`: the volumes of the cells within the radius -/
def dampVol (radius plateau decay : ℝ) (vols : List ℝ) (vol d : ℝ) : Option ℝ :=
  let vmax := (vols.map clampVol).foldl max 0
  let vmin := (vols.map clampVol).foldl min ((2 - 2⁻¹ ^ 52) * 2 ^ 1023)
  (distPart radius plateau decay d).map fun f => (1 + (vmax - vmin) / clampVol vol) ^ f

/-! ### Conditions -/

/-- a field of conditions: the patch and the values of its points -/
structure BcField where
  patch : Nat
  value : Nat → Option ℝ

/-- the conditions so far -/
abbrev Bcs := Nat → Option ℝ

/-- `insert` unless it exists -/
def Bcs.put (b : Bcs) (id : Nat) (v : ℝ) : Bcs := fun k => match b k with | some w => some w | none => if k = id then some v else none

/-- the points of a patch, src/propagators/PropagateField.tpp:653-661, 665-669 -/
def putPatch (verts : List Nat) (value : Nat → Option ℝ) (b : Bcs) : Bcs := verts.foldl (fun b id => b.put id ((value id).getD 0)) b

/-- the loop over the fields, src/propagators/PropagateField.tpp:647-662: the conditions and the patches without field -/
def fieldStep (verts : Nat → List Nat) (r : Bcs × List Nat) (f : BcField) : Bcs × List Nat :=
  if f.patch ∈ r.2 then (putPatch (verts f.patch) f.value r.1, r.2.filter fun p => p != f.patch) else r

/-- `distributeBCOnBoundaryPoints`, src/propagators/PropagateField.tpp:632-673; `fields`, `patches` in the order in which the sets are visited -/
def distribute (verts : Nat → List Nat) (fields : List BcField) (patches : List Nat) : Bcs :=
  let r := fields.foldl (fieldStep verts) (fun _ => none, patches)
  r.2.foldl (fun b p => putPatch (verts p) (fun _ => none) b) r.1

/-- a vector of fields with its buffer: the pointers kept in the set are a buffer and a position, PropagateField.hpp:128, 319; `grow`: the policy of the
library for a full buffer -/
structure Temp where
  buffer : Nat := 0
  capacity : Nat := 0
  size : Nat := 0
  pointers : List (Nat × Nat) := []

/-- `addDirichletConditions` of a scalar field, src/propagators/PropagateField.cpp:138-153: `push_back`, then a pointer to the last -/
def Temp.add (grow : Nat → Nat) (t : Temp) : Temp :=
  let t := if t.size < t.capacity then t else { t with buffer := t.buffer + 1, capacity := grow t.capacity }
  { t with size := t.size + 1, pointers := (t.buffer, t.size) :: t.pointers }

/-- a pointer is valid -/
def Temp.Valid (t : Temp) (p : Nat × Nat) : Prop := p.1 = t.buffer ∧ p.2 < t.size

/-! ### Settings -/

/-- the settings, src/propagators/PropagateField.hpp:118-146, 312 -/
structure Settings where
  thres : ℝ
  tol : ℝ
  bandActive : Bool
  bandwidth : ℝ
  bandrelax : ℝ
  dampingActive : Bool
  dampingType : Int
  decay : ℝ
  radius : ℝ
  plateau : ℝ
  nstep : Nat

/-- `setDefaults`, src/propagators/PropagateField.tpp:43-59 and PropagateField.cpp:47-51 for scalars -/
def Settings.default : Settings := ⟨-1, 1e-12, false, 0, 1, false, 0, 1, 0, 0, 1⟩

/-- the setters, src/propagators/PropagateField.tpp:145-147, 155-157, 273-275, 284-286, 304-306 and PropagateField.cpp:159-163 -/
def Settings.setTolerance (s : Settings) (x : ℝ) : Settings := { s with tol := max dblMin x }
def Settings.setThreshold (s : Settings) (x : ℝ) : Settings := { s with thres := max dblMin x }
def Settings.setWidth (s : Settings) (x : ℝ) : Settings := { s with bandwidth := max x 0 }
def Settings.setRelax (s : Settings) (x : ℝ) : Settings := { s with bandrelax := max 0 (min x 1) }
def Settings.setType (s : Settings) (t : Int) : Settings := { s with dampingType := max 0 (min 1 t) }
def Settings.setStep (s : Settings) (n : Nat) : Settings := { s with nstep := setSteps n }

/-- the keys of a section and the numbers that their texts stand for -/
abbrev Section := String → Option ℝ
def Section.put (x : Section) (k : String) (v : ℝ) : Section := fun q => if q = k then some v else x q

/-- the number of the text of `std::to_string` for a `double`: six decimals -/
def fixed6 (x : ℝ) : ℝ := (round (x * 10 ^ 6) : ℝ) / 10 ^ 6

def bnum (b : Bool) : ℝ := if b then 1 else 0

/-- `flushSectionXML`, src/propagators/PropagateField.tpp:535-557 and PropagateField.cpp:195-200 -/
def Settings.flush (s : Settings) (x : Section) : Section :=
  let x := (x.put "Tolerance" (fixed6 s.tol)).put "UpdateThres" (fixed6 s.thres)
  let x := x.put "NarrowBand" (bnum s.bandActive)
  let x := if s.bandActive then (x.put "NarrowBandWidth" (fixed6 s.bandwidth)).put "NarrowBandRelax" (fixed6 s.bandrelax) else x
  let x := x.put "Damping" (bnum s.dampingActive)
  let x := if s.dampingActive then (((x.put "DampingInnerDistance" (fixed6 s.plateau)).put "DampingOuterDistance" (fixed6 s.radius)).put
    "DampingType" s.dampingType).put "DecayFactor" (fixed6 s.decay) else x
  x.put "MultiStep" s.nstep

/-- set from an entry -/
def via {σ : Type} (e : Option ℝ) (f : σ → ℝ → σ) (s : σ) : σ := match e with | none => s | some v => f s v

/-- an entry and its old spelling -/
def old (x : Section) (k l : String) : Option ℝ := match x k with | some v => some v | none => x l

open scoped Classical in
/-- `absorbSectionXML`, src/propagators/PropagateField.tpp:369-526 and PropagateField.cpp:171-188; numbers only, `Print` has no effect on one process -/
def Settings.absorb (s : Settings) (x : Section) : Settings :=
  let s := via (x "Tolerance") (fun s v => s.setTolerance (max 0 v)) s
  let s := via (x "UpdateThres") (fun s v => s.setThreshold v) s
  let s := via (x "NarrowBand") (fun s v => { s with bandActive := decide (v ≠ 0) }) s
  let s := if s.bandActive then
      via (x "NarrowBandRelax") (fun s v => s.setRelax (max 0 v)) (via (x "NarrowBandWidth") (fun s v => s.setWidth (max 0 v)) s)
    else s
  let s := via (old x "Damping" "Dumping") (fun s v => { s with dampingActive := decide (v ≠ 0) }) s
  let s := if s.dampingActive then
      let s := via (x "DecayFactor") (fun s v => { s with decay := max 0 v }) s
      let s := via (old x "DampingType" "DumpingType") (fun s v => s.setType ⌊v⌋) s
      let s := via (old x "DampingInnerDistance" "DumpingInnerDistance") (fun s v => { s with plateau := max 0 v }) s
      via (old x "DampingOuterDistance" "DumpingOuterDistance") (fun s v => { s with radius := max 0 v }) s
    else s
  via (x "MultiStep") (fun s v => s.setStep (if 1 ≤ v then ⌊v⌋₊ else 1)) s

end

end Verif.Lapl
