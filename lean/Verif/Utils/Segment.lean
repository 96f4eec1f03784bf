import Verif.Mesh.Fill
import Verif.Utils.ProjectProps
import Verif.Tree.ProjectProps
import Verif.Xml.Props
/-
Model of `ProjSegmentOnSurface` (src/utils/ProjSegmentOnSurface.cpp) and of what it takes from `ProjPrimitivesOnSurfaces`
(src/utils/ProjPrimitivesOnSurfaces.cpp), one process.

Parameters: the cells and the search tree of the target surface (`Surf`, see Verif.Tree.Project).  Plots and messages are not modelled.  Where a
computed coordinate is not a number, execution is taken as failed (`none`).
-/
namespace Verif.Utils
open Verif.Shape Verif.Manip Verif.Field Verif.Tree Verif.Mesh
open Verif.Rbf (huge)

noncomputable section
open scoped Classical

/-- members, src/utils/ProjSegmentOnSurface.hpp and src/utils/ProjPrimitivesOnSurfaces.hpp; the result is an object of its own -/
structure Segment where
  geom : Option Nat
  a : V3
  b : V3
  nC : Int
  topo : Nat
  skd : Bool
  kd : Bool
  result : Option (Obj V3)

/-- constructor, src/utils/ProjSegmentOnSurface.cpp:45-50, src/utils/ProjPrimitivesOnSurfaces.cpp:42-49 -/
def Segment.new : Segment := ⟨none, ⟨0, 0, 0⟩, ⟨1, 1, 1⟩, 1000, 1, false, false, none⟩

/-- `setGeometry`, src/utils/ProjPrimitivesOnSurfaces.cpp:142-146 -/
def Segment.setGeometry (w : World) (s : Segment) (g : Option Nat) : Segment :=
  match g with
  | none => s
  | some g => if (w g).type ≠ 1 then s else { s with geom := some g }

/-- `setSegment`, src/utils/ProjSegmentOnSurface.cpp:121-127 -/
def Segment.setSegment (s : Segment) (p q : V3) : Segment :=
  if norm2 (q - p) < 1 / 10 ^ 18 then s else { s with a := p, b := q }

/-- `setSegment` with a direction and a length, src/utils/ProjSegmentOnSurface.cpp:136-138 -/
def Segment.setDirection (s : Segment) (o dir : V3) (length : ℝ) : Segment := s.setSegment o (o + V3.scale length dir)

/-- `setProjElementTargetNCells`, src/utils/ProjPrimitivesOnSurfaces.cpp:171-173 -/
def Segment.setCells (s : Segment) (n : Int) : Segment := { s with nC := n }

/-- `setBuildSkdTree`, src/utils/ProjPrimitivesOnSurfaces.cpp:154-156 -/
def Segment.setSkd (s : Segment) (b : Bool) : Segment := { s with skd := b }

/-- `setBuildKdTree`, src/utils/ProjPrimitivesOnSurfaces.cpp:163-165 -/
def Segment.setKd (s : Segment) (b : Bool) : Segment := { s with kd := b }

/-- copy constructor, src/utils/ProjSegmentOnSurface.cpp:81-84, src/utils/ProjPrimitivesOnSurfaces.cpp:59-64 -/
def Segment.copy (s : Segment) : Segment := { s with result := none }

/-- `clear`, src/utils/ProjSegmentOnSurface.cpp:109-113, src/utils/ProjPrimitivesOnSurfaces.cpp:190-194: the trees asked for stay -/
def Segment.clear (s : Segment) : Segment :=
  { s with result := none, nC := 1000, geom := none, a := ⟨0, 0, 0⟩, b := ⟨1, 1, 1⟩ }

/-- points of the segment, src/utils/ProjSegmentOnSurface.cpp:247-254; `none`: a negative number of cells (the containers cannot be
resized or reserved), or none (division by zero) -/
def Segment.points (s : Segment) : Option (List V3) :=
  if s.nC ≤ 0 then none
  else
    let n := s.nC.toNat
    let dx := V3.scale (1 / (n : ℝ)) (s.b - s.a)
    some ((List.range (n + 1)).map fun i : Nat => s.a + V3.scale (i : ℝ) dx)

/-- all or nothing -/
def allOf {α : Type} : List (Option α) → Option (List α)
  | [] => some []
  | none :: _ => none
  | some x :: l => (allOf l).map (x :: ·)

/-- `addVertex` of the projected points, src/utils/ProjSegmentOnSurface.cpp:287-291: ids from 0 -/
def curveVerts (qs : List V3) : Data V3 := (qs.zipIdx 0).map fun e => (e.2, e.1)

/-- `addConnectedCell`, src/utils/ProjSegmentOnSurface.cpp:295-303 -/
def curveCells (n : Nat) : Data Cell := (List.range n).map fun i => (i, ⟨.line, [i, i + 1], 0, true⟩)

/-- `projection`, src/utils/ProjSegmentOnSurface.cpp:239-321; `fuel` bounds the passes of the search -/
def Segment.projection (surf : Surf) (fuel : Nat) (geo : Obj V3) (s : Segment) : Option (Obj V3) := do
  let ps ← s.points
  let _ ← buildSkd geo
  let (qs, _) ← projectPoints surf fuel ps (ps.map fun _ => huge)
  let vs ← allOf qs
  let o ← ctor 4
  update (fillCells (fillVerts o (curveVerts vs)) (curveCells s.nC.toNat))

/-- `execute`, src/utils/ProjPrimitivesOnSurfaces.cpp:201-216; `none`: an exception, or coordinates that are not numbers -/
def Segment.execute (surf : Nat → Surf) (fuel : Nat) (w : World) (s : Segment) : Option Segment :=
  match s.geom with
  | none => none
  | some g =>
    ((s.projection (surf g) fuel (w g)).bind (buildTrees s.skd s.kd)).map fun o => { s with result := some o }

/-! ### XML -/

open Verif.Xml

/-- `stringstream >> double`, again and again, on a text (only unsigned whole numbers are distinguished; signs, points and exponents make the
text outside the model): the values of the runs of digits; a character that is neither a digit nor a blank gives a last zero; nothing is read
after it, or after the end -/
def readNums (fuel : Nat) (t : Text) : List Nat :=
  match fuel with
  | 0 => []
  | f + 1 =>
    let t := t.dropWhile blank
    let ds := t.takeWhile isDigit
    if t = [] then [] else if ds = [] then [0] else digitsVal ds :: readNums f (t.dropWhile isDigit)

/-- the six coordinates read over the default ones, src/utils/ProjSegmentOnSurface.cpp:153-161 (what is not read keeps its value) -/
def readSegment (t : Text) : V3 × V3 :=
  let ns := readNums 6 (trim t)
  let g : Nat → ℝ → ℝ := fun i d => match ns[i]? with
    | none => d
    | some n => (n : ℝ)
  (⟨g 0 0, g 1 0, g 2 0⟩, ⟨g 3 1, g 4 1, g 5 1⟩)

/-- `if (hasOption(k)) …` with the text of the option -/
def option {α : Type} (x : Section) (k : String) (f : Text → α → α) (s : α) : α :=
  match x k with
  | none => s
  | some t => f t s

/-- `stringstream >> bool` on the trimmed text, false when empty, src/utils/ProjSegmentOnSurface.cpp:175-202 -/
def flag (t : Text) : Bool := if t = [] then false else readBool (trim t)

/-- `absorbSectionXML`, src/utils/ProjSegmentOnSurface.cpp:145-203 (without the base class) -/
def Segment.absorb (x : Section) (s : Segment) : Segment :=
  let s := option x "Segment" (fun t s => if t = [] then s.setSegment ⟨0, 0, 0⟩ ⟨1, 1, 1⟩ else s.setSegment (readSegment t).1 (readSegment t).2) s
  let s := option x "nCells" (fun t s => s.setCells (if trim t = [] then 1000 else readInt (trim t))) s
  let s := option x "BvTree" (fun t s => s.setSkd (flag t)) s
  let s := option x "SkdTree" (fun t s => s.setSkd (flag t)) s
  option x "KdTree" (fun t s => s.setKd (flag t)) s

/-- `flushSectionXML`, src/utils/ProjSegmentOnSurface.cpp:210-237; `p` is how a coordinate is printed -/
def Segment.flush (p : ℝ → Text) (s : Segment) (x : Section) : Section :=
  let x := x.set "Segment" (p s.a.x ++ p s.a.y ++ p s.a.z ++ p s.b.x ++ p s.b.y ++ p s.b.z)
  let x := x.set "nCells" (if s.nC < 0 then '-' :: toText s.nC.natAbs else toText s.nC.toNat)
  let x := if s.skd then x.set "SkdTree" (toText 1) else x
  if s.kd then x.set "KdTree" (toText 1) else x

end
end Verif.Utils
