import Verif.Tree.SelectProps

/-!
Cells and vertices of a mesh close to a surface: src/core/MimmoObject.cpp:4131-4519, serial part.

Parameters: the distances from the surface (`skdTreeUtils::distance` of the centre of a cell or of a vertex, with the threshold as
radius), the neighbours, the search trees.  The order of the results is that of the model: the code goes through hash sets.
Synchronization of trees and adjacencies is in `Verif.Mesh`.
-/

namespace Verif.Tree
open Verif.Shape
noncomputable section
open scoped Classical

/-- cells (vertices) within the threshold go in the result, src/core/MimmoObject.cpp:4218-4226 (4427-4435); `none`: an id is inserted twice
in a `PiercedVector`, an exception of bitpit -/
def seedsIn (f : Nat → ℝ) (m : ℝ) : List Nat → List (Nat × ℝ) → Option (List (Nat × ℝ))
  | [], acc => some acc
  | c :: l, acc =>
    if f c < m then
      if c ∈ acc.map Prod.fst then none else seedsIn f m l (acc ++ [(c, f c)])
    else seedsIn f m l acc

/-- neighbours of the seeds that are not seeds, src/core/MimmoObject.cpp:4228-4244 (4437-4453) -/
def firstStack (nbrs : Nat → List Nat) (res : List (Nat × ℝ)) : List Nat :=
  ((res.flatMap fun e => nbrs e.1).filter fun n => n ∉ res.map Prod.fst).dedup

/-- neighbours not visited yet: visited, next stack; src/core/MimmoObject.cpp:4286-4292 (4495-4501) -/
def visit : List Nat → List Nat × List Nat → List Nat × List Nat
  | [], st => st
  | n :: l, st => if n ∈ st.1 then visit l st else visit l (st.1 ++ [n], st.2 ++ [n])

/-- one pass over the stack, src/core/MimmoObject.cpp:4280-4294 (4489-4503): result, visited, next stack -/
def bandPass (f : Nat → ℝ) (m : ℝ) (nbrs : Nat → List Nat) :
    List Nat → List (Nat × ℝ) → List Nat × List Nat → Option (List (Nat × ℝ) × List Nat × List Nat)
  | [], res, st => some (res, st)
  | c :: l, res, st =>
    if f c < m then
      if c ∈ res.map Prod.fst then none else bandPass f m nbrs l (res ++ [(c, f c)]) (visit (nbrs c) st)
    else bandPass f m nbrs l res st

/-- passes until the stack is empty, src/core/MimmoObject.cpp:4253-4307 (4462-4515); `none`: more passes than given -/
def bandLoop (f : Nat → ℝ) (m : ℝ) (nbrs : Nat → List Nat) : Nat → List Nat → List (Nat × ℝ) → List Nat → Option (List (Nat × ℝ))
  | 0, _, _, _ => none
  | fuel + 1, stack, res, visited =>
    if stack = [] then some res
    else
      match bandPass f m nbrs stack res (visited, []) with
      | none => none
      | some (res', visited', next) => bandLoop f m nbrs fuel next res' visited'

/-- from candidates to the result, src/core/MimmoObject.cpp:4203-4308 (4412-4518) -/
def band (fuel : Nat) (f : Nat → ℝ) (m : ℝ) (nbrs : Nat → List Nat) (candidates : List Nat) : Option (List (Nat × ℝ)) :=
  match seedsIn f m candidates [] with
  | none => none
  | some res => bandLoop f m nbrs fuel (firstStack nbrs res) res (firstStack nbrs res ++ res.map Prod.fst)

/-- what is read from the mesh and the surface -/
structure BandIn where
  /-- type of the surface, type of the mesh -/
  surfType : Nat
  meshType : Nat
  /-- ids of cells, of vertices -/
  cells : List Nat
  verts : List Nat
  /-- face neighbours by the stored adjacencies; neighbours of a vertex along edges -/
  cellNbrs : Nat → List Nat
  vertNbrs : Nat → List Nat
  /-- distance from the surface, at most the threshold, of the centre of a cell, of a vertex -/
  cellDist : Nat → ℝ
  vertDist : Nat → ℝ
  /-- search trees of the surface and of the mesh -/
  surfTree : Skd
  meshTree : Skd

/-- `getCellsNarrowBandToExtSurfaceWDist`, src/core/MimmoObject.cpp:4131-4310; the seeds are given or not -/
def cellsBand (fuel : Nat) (i : BandIn) (m : ℝ) (seeds : Option (List Nat)) : Option (List (Nat × ℝ)) :=
  if i.surfType ≠ 1 then some []
  else if i.meshType = 3 then some []
  else
    match seeds with
    | some l => band fuel i.cellDist m i.cellNbrs (l.filter fun c => c ∈ i.cells)
    | none =>
      match selectByPatch i.surfTree i.meshTree m with
      | none => none
      | some l => band fuel i.cellDist m i.cellNbrs l

/-- `getVerticesNarrowBandToExtSurfaceWDist`, src/core/MimmoObject.cpp:4339-4518.  Without seeds the candidates are put in a variable of the
inner block (4406) and the number of points stays zero (4363): no candidate is looked at. -/
def vertsBand (fuel : Nat) (i : BandIn) (m : ℝ) (seeds : Option (List Nat)) : Option (List (Nat × ℝ)) :=
  if i.surfType ≠ 1 then some []
  else
    match seeds with
    | some l => band fuel i.vertDist m i.vertNbrs (l.filter fun v => v ∈ i.verts)
    | none =>
      if i.meshType ≠ 3 then
        match selectByPatch i.surfTree i.meshTree m with
        | none => none
        | some _ => band fuel i.vertDist m i.vertNbrs []
      else band fuel i.vertDist m i.vertNbrs []

end
end Verif.Tree
