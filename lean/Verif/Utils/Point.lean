import Verif.Manip.TurnProps
import Verif.Rbf.Model
/-
Model of `TranslationPoint` (src/utils/TranslationPoint.cpp) and `RotationAxes` (src/utils/RotationAxes.cpp).

Numbers are real numbers.  A vector whose components are not numbers (division of zero by zero) or which was never written
is `none`.  Ports call the setters and the getters modelled here.
-/
namespace Verif.Utils
open Verif.Shape Verif.Manip
open Verif.Rbf (tiny)

noncomputable section
open scoped Classical

/-! ## TranslationPoint -/

/-- data members, src/utils/TranslationPoint.hpp:76-79; `m_origin` and `m_translated` are written by no constructor -/
structure Shift where
  direction : Option V3
  origin : Option V3 := none
  alpha : ℝ := 0
  translated : Option V3 := none

/-- `setDirection`, src/utils/TranslationPoint.cpp:132-139: the direction is divided by its length only when that length
is below the smallest normal number; dividing the zero vector by its length gives no numbers -/
def pointDirection (d : V3) : Option V3 :=
  if norm2 d < tiny then (if norm2 d = 0 then none else some d.unit) else some d

/-- constructor, src/utils/TranslationPoint.cpp:31-35; the argument is zero by default (TranslationPoint.hpp:82) -/
def Shift.new (d : V3 := ⟨0, 0, 0⟩) : Shift := { direction := pointDirection d }

/-- constructor from a XML section before the section is read, src/utils/TranslationPoint.cpp:41-45 -/
def Shift.newXml : Shift := { direction := some ⟨0, 0, 0⟩ }

/-- the calls on a TranslationPoint -/
inductive Shift.Call where
  | direction (d : V3)
  | origin (o : V3)
  | translation (a : ℝ)
  | execute

/-- `m_origin + m_alpha*m_direction`, src/utils/TranslationPoint.cpp:165 -/
def Shift.value (s : Shift) : Option V3 :=
  match s.origin, s.direction with
  | some o, some d => some (o + V3.scale s.alpha d)
  | _, _ => none

/-- setters and `execute`, src/utils/TranslationPoint.cpp:132-166 -/
def Shift.call (s : Shift) : Shift.Call → Shift
  | .direction d => { s with direction := pointDirection d }
  | .origin o => { s with origin := some o }
  | .translation a => { s with alpha := a }
  | .execute => { s with translated := s.value }

/-- a history of calls -/
def Shift.calls (s : Shift) (cs : List Shift.Call) : Shift := cs.foldl Shift.call s

/-- copy constructor, src/utils/TranslationPoint.cpp:63-67: the result is not copied -/
def Shift.copy (s : Shift) : Shift := { s with translated := none }

/-! ## RotationAxes -/

/-- data members, src/utils/RotationAxes.hpp:86-92 -/
structure Turn where
  origin : V3
  direction : V3
  axes : M3
  axesOrigin : V3
  rotax : M3
  rotaxOrigin : V3
  alpha : ℝ

/-- `setDirection`, src/utils/RotationAxes.cpp:169-176 -/
def axisDirection (d : V3) : V3 := if norm2 d > tiny then d.unit else d

/-- the axes written by the constructors, src/utils/RotationAxes.cpp:36-39: `m_axes[1][1]` is written twice, `m_axes[2][2]`
never -/
def firstAxes : M3 := ⟨⟨1, 0, 0⟩, ⟨0, 1, 0⟩, ⟨0, 0, 0⟩⟩

/-- constructor, src/utils/RotationAxes.cpp:32-51; both arguments are zero by default (RotationAxes.hpp:95); the constructor
from a XML section, 57-78, starts from the same values -/
def Turn.new (o : V3 := ⟨0, 0, 0⟩) (d : V3 := ⟨0, 0, 0⟩) : Turn :=
  ⟨o, axisDirection d, firstAxes, ⟨0, 0, 0⟩, firstAxes, ⟨0, 0, 0⟩, 0⟩

/-- the calls on a RotationAxes -/
inductive Turn.Call where
  | axis (o d : V3)
  | origin (o : V3)
  | direction (d : V3)
  | rotation (a : ℝ)
  | axes (m : M3)
  | axesOrigin (o : V3)
  | execute

/-- Rodrigues' formula on the three axes, src/utils/RotationAxes.cpp:239-243 -/
def turnRows (u : V3) (a : ℝ) (m : M3) : M3 := ⟨rodrigues u a m.r0, rodrigues u a m.r1, rodrigues u a m.r2⟩

/-- `execute`, src/utils/RotationAxes.cpp:222-245; the origin of the axes is moved and moved back -/
def Turn.execute (s : Turn) : Turn :=
  let q := s.axesOrigin + V3.scale (-1) s.origin
  { s with
    rotaxOrigin := rodrigues s.direction s.alpha q + s.origin
    axesOrigin := q + s.origin
    rotax := turnRows s.direction s.alpha s.axes }

/-- setters, src/utils/RotationAxes.cpp:152-200 -/
def Turn.call (s : Turn) : Turn.Call → Turn
  | .axis o d => { s with origin := o, direction := axisDirection d }
  | .origin o => { s with origin := o }
  | .direction d => { s with direction := axisDirection d }
  | .rotation a => { s with alpha := a }
  | .axes m => { s with axes := m }
  | .axesOrigin o => { s with axesOrigin := o }
  | .execute => s.execute

/-- a history of calls -/
def Turn.calls (s : Turn) (cs : List Turn.Call) : Turn := cs.foldl Turn.call s

/-- copy constructor, src/utils/RotationAxes.cpp:96-108: the results are not copied -/
def Turn.copy (s : Turn) : Turn := { s with rotax := firstAxes, rotaxOrigin := ⟨0, 0, 0⟩ }

end
end Verif.Utils
