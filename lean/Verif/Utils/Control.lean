import Verif.Utils.AabbProps
import Verif.Tree.ProjectProps
/-
Model of `ControlDeformMaxDistance` (src/utils/ControlDeformMaxDistance.cpp) and `ControlDeformExtSurface`
(src/utils/ControlDeformExtSurface.cpp), one process.

Parameters: the search trees and cells of the surfaces (`Surf`, see Verif.Tree.Project), their bounding boxes, the
intersection of two boxes, the files.  Log files, plots and the reading of files are not modelled.  The set of constraints
and the map of files are kept as lists without repetitions.
-/
namespace Verif.Utils
open Verif.Shape Verif.Manip Verif.Field Verif.Tree
open Verif.Rbf (tiny huge)

noncomputable section
open scoped Classical

/-- members of both classes: target geometry, deformation, violation -/
structure Control where
  geom : Option Nat := none
  field : Field Nat V3 := make none .undefined
  violation : Field Nat ℝ := make none .undefined

/-- `setGeometry`, src/utils/ControlDeformMaxDistance.cpp:165-171, src/utils/ControlDeformExtSurface.cpp:190-199 -/
def Control.setGeometry (w : World) (c : Control) (g : Option Nat) : Control :=
  match g with
  | none => c
  | some h => if (w h).type = 1 then { c with geom := some h } else c

/-- deformed points with their ids and displacements, src/utils/ControlDeformMaxDistance.cpp:207-211, src/utils/ControlDeformExtSurface.cpp:334-342;
`none`: `operator[]` with an id that is not in the field -/
def deformed (d : Data V3) : Data V3 → Option (List (Nat × V3 × V3))
  | [] => some []
  | e :: l =>
    match get d e.1 with
    | none => none
    | some u => (deformed d l).map fun r => (e.1, e.2 + u, u) :: r

/-- `getViolation`, src/utils/ControlDeformMaxDistance.cpp:111-122, src/utils/ControlDeformExtSurface.cpp:125-136 -/
def Control.getViolation (c : Control) : ℝ := (c.violation.data.map Prod.snd).foldl max (-huge)

/-- values written in a field that holds all the ids -/
def writeAll (vals : List (Nat × ℝ)) (d : Data ℝ) : Data ℝ := vals.foldl (fun d v => setAt d v.1 v.2) d

/-! ## Largest distance -/

/-- data members, src/utils/ControlDeformMaxDistance.hpp -/
structure MaxDist extends Control where
  limit : ℝ := 0

/-- `setDefField`, src/utils/ControlDeformMaxDistance.cpp:142-148 -/
def MaxDist.setDefField (c : MaxDist) (f : Option (Field Nat V3)) : MaxDist :=
  match f with
  | none => c
  | some f => { c with field := f, violation := make none .undefined }

/-- `setLimitDistance`, src/utils/ControlDeformMaxDistance.cpp:155-158 -/
def MaxDist.setLimit (c : MaxDist) (x : ℝ) : MaxDist := { c with limit := max (1 / 10 ^ 12) x }

/-- copy constructor, src/utils/ControlDeformMaxDistance.cpp:64-66: the geometry is copied by the base class -/
def MaxDist.copy (c : MaxDist) : MaxDist := { geom := c.geom, limit := c.limit }

/-- `execute`, src/utils/ControlDeformMaxDistance.cpp:175-252 -/
def MaxDist.execute (w : World) (surf : Nat → Surf) (c : MaxDist) : Option MaxDist :=
  match c.geom with
  | none => none
  | some g =>
    match completeIn w c.field ⟨0, 0, 0⟩ with
    | none => none
    | some (f, _) =>
      match constField w g (-huge) with
      | none => none
      | some v =>
        match deformed f.data (w g).verts with
        | none => none
        | some ps =>
          let vals := ps.map fun e => (e.1, (distance (surf g) e.2.1 (max (1 / 10 ^ 8) (6 / 5 * norm2 e.2.2))).2 - c.limit)
          some { c with field := f, violation := { v with data := writeAll vals v.data } }

/-! ## External surfaces -/

/-- data members, src/utils/ControlDeformExtSurface.hpp -/
structure ExtSurf extends Control where
  tol : ℝ := 0
  geos : List Nat := []
  files : List (List Char × Nat) := []

/-- `setDefField`, src/utils/ControlDeformExtSurface.cpp:179-184 -/
def ExtSurf.setDefField (c : ExtSurf) (f : Option (Field Nat V3)) : ExtSurf :=
  match f with
  | none => c
  | some f => { c with field := f }

/-- `setTolerance`, src/utils/ControlDeformExtSurface.cpp:208-211 -/
def ExtSurf.setTolerance (c : ExtSurf) (x : ℝ) : ExtSurf := { c with tol := max 0 x }

/-- `addConstraint`, src/utils/ControlDeformExtSurface.cpp:219-227 -/
def ExtSurf.addConstraint (w : World) (c : ExtSurf) (g : Option Nat) : ExtSurf :=
  match g with
  | none => c
  | some h => if (w h).type = 1 then { c with geos := c.geos.insert h } else c

/-- `addConstraintFile`, src/utils/ControlDeformExtSurface.cpp:253-258; `allowed` are the formats STL, SURFVTU and NAS (38-40) -/
def ExtSurf.addFile (allowed : Nat → Bool) (c : ExtSurf) (f : List Char) (t : Nat) : ExtSurf :=
  if allowed t then { c with files := (c.files.filter fun e => e.1 ≠ f) ++ [(f, t)] } else c

/-- `setConstraintFiles`, src/utils/ControlDeformExtSurface.cpp:241-246: the files are added to those already there -/
def ExtSurf.setFiles (allowed : Nat → Bool) (c : ExtSurf) (l : List (List Char × Nat)) : ExtSurf :=
  l.foldl (fun c e => c.addFile allowed e.1 e.2) c

/-- `removeConstraintFile`, src/utils/ControlDeformExtSurface.cpp:273-276 -/
def ExtSurf.removeFile (c : ExtSurf) (f : List Char) : ExtSurf := { c with files := c.files.filter fun e => e.1 ≠ f }

/-- `removeConstraintFiles`, src/utils/ControlDeformExtSurface.cpp:281-284 -/
def ExtSurf.removeFiles (c : ExtSurf) : ExtSurf := { c with files := [] }

/-- `clear`, src/utils/ControlDeformExtSurface.cpp:289-297 -/
def ExtSurf.clear (_ : ExtSurf) : ExtSurf := {}

/-- copy constructor, src/utils/ControlDeformExtSurface.cpp:73-78 -/
def ExtSurf.copy (c : ExtSurf) : ExtSurf := { geom := c.geom, tol := c.tol, geos := c.geos, files := c.files }

/-- position of the last element that satisfies `P`: `find_last_of` -/
def lastOf (P : Char → Bool) (l : List Char) : Option Nat :=
  match l.reverse.findIdx? P with
  | none => none
  | some i => some (l.length - 1 - i)

/-- what is before and after the last of some characters, both the whole without one: `npos + 1` is zero, src/utils/ControlDeformExtSurface.cpp:544-551 -/
def cutLast (P : Char → Bool) (l : List Char) : List Char × List Char :=
  match lastOf P l with
  | none => (l, l)
  | some i => (l.take i, l.drop (i + 1))

/-- `extractInfo`, src/utils/ControlDeformExtSurface.cpp:539-559: directory, name, tag -/
def extractInfo (f : List Char) : List Char × List Char × List Char :=
  let a := cutLast (fun c => c = '/' || c = '\\') f
  let b := cutLast (fun c => c = '.') a.2
  (a.1, b.1, b.2)

/-- one pass over the points without a distance, src/utils/ControlDeformExtSurface.cpp:599-626: those still without, distances; `none`: a cell
that is not in the surface -/
def evalPass (s : Surf) (r : ℝ) : List (Nat × V3) → List ℝ → Option (List (Nat × V3) × List ℝ)
  | [], ds => some ([], ds)
  | (i, p) :: l, ds =>
    match signedDistance s p r with
    | none => none
    | some ⟨some _, some x, _⟩ => evalPass s r l (ds.set i x)
    | some _ => (evalPass s r l ds).map fun o => ((i, p) :: o.1, o.2)

/-- passes with a growing radius, src/utils/ControlDeformExtSurface.cpp:597-637 -/
def evalLoop (s : Surf) : Nat → ℝ → List (Nat × V3) → List ℝ → Option (List (Nat × V3) × List ℝ)
  | 0, _, work, ds => some (work, ds)
  | k + 1, r, work, ds =>
    if work = [] then some (work, ds)
    else
      match evalPass s r work ds with
      | none => none
      | some (work', ds') => evalLoop s k (r * (1 + 5 / 100)) work' ds'

/-- `evaluateSignedDistance`, src/utils/ControlDeformExtSurface.cpp:574-645 -/
def evaluate (s : Surf) (ps : List V3) (r : ℝ) : Option (List ℝ) :=
  match evalLoop s 1000 r (ps.zipIdx.map fun e => (e.2, e.1)) (List.replicate ps.length 0) with
  | none => none
  | some (work, ds) => some (work.foldl (fun ds e => ds.set e.1 (-(10 : ℝ) ^ 25)) ds)

/-- least and greatest coordinates -/
abbrev Corners := V3 × V3

/-- centre of a box -/
def middle (b : Corners) : V3 := V3.scale (1 / 2) (b.1 + b.2)

/-- radius to begin with, src/utils/ControlDeformExtSurface.cpp:374-379, 393-397 -/
def startRadius (meet : Corners → Corners → Option Corners) (a b : Corners) : ℝ :=
  let supp : ℝ := match meet a b with
    | none => 1 / 10 ^ 8
    | some c => max (1 / 10 ^ 8) (1 / 2 * norm2 (c.2 - c.1))
  max supp (norm2 (middle a - middle b))

/-- box of the deformed points, src/utils/ControlDeformExtSurface.cpp:331-343 -/
def boxOf (ps : List V3) : Corners :=
  (⟨(ps.map (·.x)).foldl min huge, (ps.map (·.y)).foldl min huge, (ps.map (·.z)).foldl min huge⟩,
   ⟨(ps.map (·.x)).foldl max (-huge), (ps.map (·.y)).foldl max (-huge), (ps.map (·.z)).foldl max (-huge)⟩)

/-- distances of the deformed points from one constraint with their sign, src/utils/ControlDeformExtSurface.cpp:368-401; `b` is the box of the
target before deformation -/
def constraint (meet : Corners → Corners → Option Corners) (s : Surf) (b bc : Corners) (ps : List V3) : Option (List ℝ) :=
  match evaluate s [middle b] (startRadius meet b bc) with
  | some [d0] =>
    let refsign : ℝ := if d0 > 0 then -1 else 1
    match evaluate s ps (startRadius meet (boxOf ps) bc) with
    | none => none
    | some ds => some (ds.map fun d => d * refsign)
  | _ => none

/-- loop over the constraints, src/utils/ControlDeformExtSurface.cpp:366-410 -/
def overConstraints (meet : Corners → Corners → Option Corners) (surf : Nat → Surf) (box : Nat → Corners) (b : Corners) (tol : ℝ) (ps : List V3) :
    List Nat → List ℝ → Option (List ℝ)
  | [], vs => some vs
  | c :: cs, vs =>
    match constraint meet (surf c) b (box c) ps with
    | none => none
    | some ds => overConstraints meet surf box b tol ps cs (List.zipWith (fun v d => max v (d + tol)) vs ds)

/-- `execute`, src/utils/ControlDeformExtSurface.cpp:302-415; `fromFiles` are the surfaces read from the files, `readFileConstraints` (506-533) -/
def ExtSurf.execute (w : World) (surf : Nat → Surf) (box : Nat → Corners) (meet : Corners → Corners → Option Corners) (fromFiles : List Nat)
    (c : ExtSurf) : Option ExtSurf :=
  match c.geom with
  | none => none
  | some g =>
    match completeIn w c.field ⟨0, 0, 0⟩ with
    | none => none
    | some (f, _) =>
      match constField w g (-(10 : ℝ) ^ 25) with
      | none => none
      | some v =>
        match deformed f.data (w g).verts with
        | none => none
        | some ps =>
          let pts := ps.map fun e => e.2.1
          match overConstraints meet surf box (box g) c.tol pts (fromFiles ++ c.geos) (pts.map fun _ => -(10 : ℝ) ^ 25) with
          | none => none
          | some vs => some { c with field := f, violation := { v with data := writeAll ((ps.map Prod.fst).zip vs) v.data } }

end
end Verif.Utils
