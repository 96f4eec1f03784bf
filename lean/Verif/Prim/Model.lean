import Verif.Grid.Model
import Verif.Xml.Model
/-
The settings of the blocks holding a shape in the dictionary: `mimmo::Primitive` (src/core/Primitive.cpp) and `mimmo::Lattice`
(src/core/Lattice.cpp).

The object is the settings common to all blocks (`Verif.Xml`) and the mesh (`Verif.Grid`).  The texts of three numbers are a
parameter: `print` is the text written, `parse d t` the numbers read from a text that is not blank, the ones that are not there being
those of `d`.  The name of the class is not modelled.  `none` is an exception.
-/
namespace Verif.Prim
open Verif.Shape Verif.Grid Verif.Xml

noncomputable section

/-- a section of the dictionary: its options and its subsection `RefSystem` -/
structure Sec where
  opts : Section
  axes : Option Section

/-- writing and reading three numbers, real or integer -/
structure Env where
  print : V3 → Text
  parse : V3 → Text → V3
  printI : Int × Int × Int → Text
  parseI : Int × Int × Int → Text → Int × Int × Int

structure Block where
  base : Settings
  grid : Grid

/-- the constructors, src/core/Primitive.cpp:32-34, src/core/Lattice.cpp:35-39 -/
def fresh : Block := ⟨Settings.fresh, new⟩

/-- the text of an option as three numbers, src/core/Primitive.cpp:132-141 and the like -/
def triple (E : Env) (d : V3) (t : Text) : V3 := if trim t = [] then d else E.parse d (trim t)

/-- src/core/Primitive.cpp:118-129, src/core/Lattice.cpp:299-310 -/
def kindOf (t : Text) : Kind :=
  if t = "CYLINDER".toList then .cylinder else if t = "SPHERE".toList then .sphere else if t = "WEDGE".toList then .wedge else .cube

/-- the axes of a subsection, src/core/Primitive.cpp:154-170, src/core/Lattice.cpp:335-351: `get` throws where the option is missing -/
def readAxes (E : Env) (x : Section) : Option M3 := do
  let a ← x "axis0"
  let b ← x "axis1"
  let c ← x "axis2"
  some ⟨triple E M3.one.r0 a, triple E M3.one.r1 b, triple E M3.one.r2 c⟩

/-- Shape, Origin and Span, src/core/Primitive.cpp:117-152, src/core/Lattice.cpp:298-333.  `j0` and `j2` as in `Grid.setShape`. -/
def absorbShape (E : Env) (x : Section) (j0 j2 : ℝ) (g : Grid) : Grid :=
  let g := match x "Shape" with
    | none => g
    | some t => setShape g (kindOf (trim t)) j0 j2
  let g := match x "Origin" with
    | none => g
    | some t => setOriginG g (triple E ⟨0, 0, 0⟩ t)
  match x "Span" with
  | none => g
  | some t => setSpanG g (triple E ⟨0, 0, 0⟩ t)

/-- RefSystem, src/core/Primitive.cpp:154-172, src/core/Lattice.cpp:335-353 -/
def absorbAxes (E : Env) (x : Option Section) (g : Grid) : Option Grid :=
  match x with
  | none => some g
  | some x => (readAxes E x).map (fun m => setRef3G g m.r0 m.r1 m.r2)

/-- InfLimits, src/core/Primitive.cpp:174-183, src/core/Lattice.cpp:355-364 -/
def absorbInf (E : Env) (x : Section) (g : Grid) : Option Grid :=
  match x "InfLimits" with
  | none => some g
  | some t => setInfAllG g (triple E ⟨0, 0, 0⟩ t)

/-- Dimension, src/core/Lattice.cpp:366-375 -/
def absorbDim (E : Env) (x : Section) (g : Grid) : Grid :=
  match x "Dimension" with
  | none => g
  | some t =>
    let d := if trim t = [] then (2, 2, 2) else E.parseI (2, 2, 2) (trim t)
    setDimension g d.1 d.2.1 d.2.2

/-- `Primitive::absorbSectionXML`, src/core/Primitive.cpp:111-185 -/
def absorbPrimitive (E : Env) (x : Sec) (j0 j2 : ℝ) (b : Block) : Option Block := do
  let g ← absorbAxes E x.axes (absorbShape E x.opts j0 j2 b.grid)
  let g ← absorbInf E x.opts g
  some ⟨absorbSection x.opts b.base, g⟩

/-- `Lattice::absorbSectionXML`, src/core/Lattice.cpp:292-376 -/
def absorbLattice (E : Env) (x : Sec) (j0 j2 : ℝ) (b : Block) : Option Block := do
  let g ← absorbAxes E x.axes (absorbShape E x.opts j0 j2 b.grid)
  let g ← absorbInf E x.opts g
  some ⟨absorbSection x.opts b.base, absorbDim E x.opts g⟩

/-- src/core/Primitive.cpp:198-207, src/core/Lattice.cpp:389-398 -/
def kindText : Kind → Text
  | .cylinder => "CYLINDER".toList
  | .sphere => "SPHERE".toList
  | .wedge => "WEDGE".toList
  | .cube => "CUBE".toList

/-- the axes, src/core/Primitive.cpp:221-234, src/core/Lattice.cpp:412-424 -/
def flushAxes (E : Env) (m : M3) : Section :=
  ((Section.set (fun _ => none) "axis0" (E.print m.r0)).set "axis1" (E.print m.r1)).set "axis2" (E.print m.r2)

/-- `Primitive::flushSectionXML`, src/core/Primitive.cpp:192-236: the lower limits are not written -/
def flushPrimitive (E : Env) (b : Block) (x : Section) : Sec :=
  ⟨(((flushSection b.base x).set "Shape" (kindText (getKind b.grid))).set "Origin" (E.print (getOrigin b.grid))).set "Span"
    (E.print (getSpanG b.grid)), some (flushAxes E (getRef b.grid))⟩

/-- `Lattice::flushSectionXML`, src/core/Lattice.cpp:383-437 -/
def flushLattice (E : Env) (b : Block) (x : Section) : Sec :=
  ⟨(((((flushSection b.base x).set "Shape" (kindText (getKind b.grid))).set "Origin" (E.print (getOrigin b.grid))).set "Span"
    (E.print (getSpanG b.grid))).set "InfLimits" (E.print (getInf b.grid))).set "Dimension" (E.printI (getDimension b.grid)),
    some (flushAxes E (getRef b.grid))⟩

end
end Verif.Prim
