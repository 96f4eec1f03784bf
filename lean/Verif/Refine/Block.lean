import Verif.Refine.SmoothProps
import Verif.Refine.MoreProps
import Verif.Create.Xml
/-
The block `RefineGeometry`: settings, execution, XML (src/geohandlers/RefineGeometry.cpp:35-273, 1166-1186).
-/
namespace Verif.Refine
open Verif.Field Verif.Mesh Verif.Shape Verif.Xml Verif.Create
open List hiding get get_of_mem

/-- `RefineType`, src/geohandlers/RefineGeometry.hpp:35-41 -/
inductive Kind where
  | ternary
  | redgreen
deriving DecidableEq, Repr

/-- settings, src/geohandlers/RefineGeometry.hpp:95-97 -/
structure Block where
  kind : Kind
  refinements : Int
  steps : Int
deriving DecidableEq, Repr

/-- constructor, src/geohandlers/RefineGeometry.cpp:35-40 -/
def Block.fresh : Block := ⟨.redgreen, 1, 0⟩

/-- `setRefineType(int)`, src/geohandlers/RefineGeometry.cpp:136-142; `none`: exception -/
def Block.setType (b : Block) (t : Int) : Option Block :=
  if t ≠ 0 ∧ t ≠ 1 then none else some { b with kind := if t = 0 then .ternary else .redgreen }

/-- `setRefineSteps`, `setSmoothingSteps`, src/geohandlers/RefineGeometry.cpp:149-162 -/
def Block.setRefineSteps (b : Block) (n : Int) : Block := { b with refinements := max 0 n }
def Block.setSmoothingSteps (b : Block) (n : Int) : Block := { b with steps := max 0 n }

/-- `clear`, src/geohandlers/RefineGeometry.cpp:167-170: only the base class (its geometry) is cleared -/
def Block.clear (b : Block) : Block := b

/-- what is external: ids given by the patch, centroids, means, adjacencies and interfaces, order of a hash table -/
structure Env where
  g : Gen V3
  bary : Obj V3 → Nat → V3
  mean : List V3 → V3
  topo : Obj V3 → Topo
  ord : Obj V3 → List Nat

/-- `checkTriangulation`, src/geohandlers/RefineGeometry.cpp:1170-1184 -/
def allTriangles {P : Type} (o : Obj P) : Bool := o.cells.foldl (fun check c => check && c.2.elem == .triangle) true

/-- the last part of `execute`, src/geohandlers/RefineGeometry.cpp:208-210 -/
noncomputable def finished (b : Block) (o : Obj V3) : Option (Obj V3) :=
  if b.steps > 0 then smoothing none b.steps.toNat o else some o

/-- `execute`, src/geohandlers/RefineGeometry.cpp:176-211: geometry before and after, `none` for an exception; runs of the
red-green refinement that do not end or raise an exception are left out -/
inductive Executes (E : Env) (b : Block) : Option (Obj V3) → Option (Option (Obj V3)) → Prop
  | empty : Executes E b none (some none)
  | type {o : Obj V3} : o.type ≠ 1 → Executes E b (some o) none
  | shape {o : Obj V3} : o.type = 1 → b.kind = .redgreen → allTriangles o = false → Executes E b (some o) (some (some o))
  | ternary {o : Obj V3} : o.type = 1 → b.kind = .ternary →
      Executes E b (some o) (((ternaries E.g E.bary b.refinements.toNat o).bind (finished b)).map some)
  | redgreen {o o1 : Obj V3} : o.type = 1 → b.kind = .redgreen → allTriangles o = true →
      RedGreens E.g E.mean E.topo E.ord b.refinements.toNat o o1 →
      Executes E b (some o) ((finished b o1).map some)

/-- one option read as an `int`, src/geohandlers/RefineGeometry.cpp:224-233 (and 235-255): a default for an empty text -/
def intOption (dflt : Int) (t : Text) : Int := if trim t = [] then dflt else readSigned (trim t)

/-- `absorbSectionXML`, src/geohandlers/RefineGeometry.cpp:218-259 (without the base class); `none`: exception -/
def Block.absorb (x : Section) (b : Block) : Option Block :=
  (match x "RefineType" with
  | none => some b
  | some t => b.setType (intOption 1 t)).map fun (b : Block) =>
    let b := match x "RefineSteps" with
      | none => b
      | some t => b.setRefineSteps (intOption 0 t)
    match x "SmoothingSteps" with
    | none => b
    | some t => b.setSmoothingSteps (intOption 0 t)

/-- `flushSectionXML`, src/geohandlers/RefineGeometry.cpp:266-273 (without the base class) -/
def Block.flush (b : Block) (x : Section) : Section :=
  ((x.set "RefineType" (intText (if b.kind = .ternary then 0 else 1))).set "RefineSteps" (intText b.refinements)).set
    "SmoothingSteps" (intText b.steps)

end Verif.Refine
