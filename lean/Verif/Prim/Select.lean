import Verif.Prim.Model
import Verif.Field.Model
/-
The settings of the selections by shape in the dictionary: `mimmo::SelectionByBox`, `SelectionByCylinder` and `SelectionBySphere`
(src/geohandlers/SelectionByBox.cpp, SelectionByCylinder.cpp, SelectionBySphere.cpp); and the block computing the magnitude of a vector
field, `mimmo::Module` (src/core/Module.cpp).
-/
namespace Verif.Prim
open Real Verif.Shape Verif.Xml

noncomputable section

/-! ## Selections -/

/-- members: the common settings, `m_dual` and the shape the class inherits -/
structure Sel where
  base : Settings
  dual : Bool
  shape : Shape

/-- the constructors, SelectionByBox.cpp:32-35, SelectionByCylinder.cpp:33-36, SelectionBySphere.cpp:33-36, GenericSelection.cpp:35 -/
def freshSel (k : Kind) : Sel := ⟨Settings.fresh, false, basic k⟩

/-- the dimensions of a blank text, SelectionByBox.cpp:186, SelectionByCylinder.cpp:193, SelectionBySphere.cpp:190 -/
def blankSpan : Kind → V3
  | .cylinder => ⟨1, 2 * π, 1⟩
  | .sphere => ⟨1, 2 * π, π⟩
  | _ => ⟨1, 1, 1⟩

/-- an axis, SelectionByBox.cpp:204-229: the one of the world where the option is missing or blank -/
def axisOr (E : Env) (x : Section) (key : String) (d : V3) : V3 :=
  match x key with
  | none => d
  | some t => triple E d t

/-- `absorbSectionXML`, SelectionByBox.cpp:153-233, SelectionByCylinder.cpp:159-253, SelectionBySphere.cpp:156-250; a box has no
`InfLimits` -/
def absorbSel (E : Env) (x : Sec) (l : Sel) : Sel :=
  let dual := match x.opts "Dual" with
    | none => l.dual
    | some t => if trim t = [] then false else readBool (trim t)
  let s := l.shape
  let s := match x.opts "Origin" with
    | none => s
    | some t => setOrigin s (triple E ⟨0, 0, 0⟩ t)
  let s := match x.opts "Span" with
    | none => s
    | some t => setSpan s (triple E (blankSpan s.kind) t)
  let s := match x.axes with
    | none => s
    | some a => setRef3 s (axisOr E a "axis0" M3.one.r0) (axisOr E a "axis1" M3.one.r1) (axisOr E a "axis2" M3.one.r2)
  let s := match x.opts "InfLimits" with
    | none => s
    | some t => if s.kind = .cube then s else setInfAll s (triple E ⟨0, 0, 0⟩ t)
  ⟨absorbSection x.opts l.base, dual, s⟩

/-- `std::to_string` of a boolean -/
def bit (b : Bool) : Text := if b then ['1'] else ['0']

/-- `flushSectionXML`, SelectionByBox.cpp:241-276, SelectionByCylinder.cpp:261-304, SelectionBySphere.cpp:258-301 -/
def flushSel (E : Env) (l : Sel) (x : Section) : Sec :=
  let y := (((flushSection l.base x).set "Dual" (bit l.dual)).set "Origin" (E.print l.shape.origin)).set "Span" (E.print (getSpan l.shape))
  ⟨if l.shape.kind = .cube then y else y.set "InfLimits" (E.print l.shape.inf), some (flushAxes E l.shape.sdr)⟩

/-! ## Magnitudes -/
open Verif.Field

/-- members of `Module`, src/core/Module.hpp: the input and the result -/
structure Magn where
  field : Field Geo V3
  result : Field Geo ℝ

/-- `setField`, Module.cpp:110-114 -/
def setField (f : Option (Field Geo V3)) (m : Magn) : Magn :=
  match f with
  | none => m
  | some f => { m with field := f }

/-- the loop of `execute`, Module.cpp:135-138: `none` where an id is inserted twice -/
def magnLoop : Data V3 → Data ℝ → Option (Data ℝ)
  | [], r => some r
  | e :: d, r => (ins r e.1 (norm2 e.2)).bind (magnLoop d)

/-- `execute`, Module.cpp:128-139 -/
def magnExecute (m : Magn) : Option Magn :=
  let r : Field Geo ℝ := { (clear m.result) with loc := m.field.loc, geo := m.field.geo }
  (magnLoop m.field.data r.data).map (fun d => { m with result := { r with data := d } })

end
end Verif.Prim
