import Verif.Rbf.ApplyProps
/-
Model of `mimmo::RBFBox` (src/utils/RBFBox.cpp) and of the XML section of `mimmo::MRBF` (src/manipulators/MRBF.cpp).

* One process, `double` is ℝ.
* The XML section is modelled by the values of its options: an option that is missing is `none`.  `wr` gives the number read
  back from the text written for a number (`std::scientific` with six decimals, external).  Options that are present but
  blank, or not a number, are not modelled.
-/
namespace Verif.Rbf
open Verif.Field Verif.Mesh Verif.Shape Verif.Manip
open List hiding get

noncomputable section
open scoped Classical

/-- `std::numeric_limits<double>::max()` -/
def huge : ℝ := (2 - 1 / 2 ^ 52) * 2 ^ 1023

/-- data members, src/utils/RBFBox.hpp -/
structure Box where
  geom : Option Nat := none
  origin : V3 := ⟨0, 0, 0⟩
  span : V3 := ⟨0, 0, 0⟩
  radius : ℝ := 0

/-- `setGeometry`, src/utils/RBFBox.cpp:142-147 -/
def Box.setGeometry (w : World) (b : Box) (g : Option Nat) : Box :=
  match g with
  | none => b
  | some g => if (w g).type ≠ 3 then b else { b with geom := some g }

/-- `setSupportRadius`, src/utils/RBFBox.cpp:152-155 -/
def Box.setRadius (b : Box) (r : ℝ) : Box := { b with radius := max 0 r }

/-- one coordinate of the loop over the vertices, src/utils/RBFBox.cpp:217-229 -/
def lowest (r : ℝ) (l : List ℝ) : ℝ := l.foldl (fun m v => min m (v - r * (101 / 100))) huge
def highest (r : ℝ) (l : List ℝ) : ℝ := l.foldl (fun m v => max m (v + r * (101 / 100))) (-huge)

/-- `execute`, src/utils/RBFBox.cpp:208-240 -/
def Box.execute (w : World) (b : Box) : Option Box :=
  match b.geom with
  | none => none
  | some g =>
    let vs := (w g).verts.map Prod.snd
    let lo : V3 := ⟨lowest b.radius (vs.map (fun v => v.x)), lowest b.radius (vs.map (fun v => v.y)),
      lowest b.radius (vs.map (fun v => v.z))⟩
    let hi : V3 := ⟨highest b.radius (vs.map (fun v => v.x)), highest b.radius (vs.map (fun v => v.y)),
      highest b.radius (vs.map (fun v => v.z))⟩
    let span := hi - lo
    some { b with span := span, origin := lo + V3.scale (1 / 2) span }

/-- `getAABB`, src/utils/RBFBox.cpp:132-136 -/
def Box.corners (b : Box) : V3 × V3 := (b.origin - V3.scale (1 / 2) b.span, b.origin + V3.scale (1 / 2) b.span)

/-! ## XML section of MRBF -/

/-- the part of the state of MRBF that has to do with the section.  `shape` is `getFunctionType()`; 0 is a function of the
user. -/
structure Cfg where
  mode : Int := 0
  tol : ℝ := 1 / 10 ^ 6
  shape : Int := 1
  srValue : ℝ := -1
  srReal : Bool := false
  radii : List ℝ := []
  compact : Bool := false
  factor : ℝ := 1

/-- the options of the section -/
structure Opts where
  mode : Option Int := none
  tol : Option ℝ := none
  shape : Option Int := none
  srLocal : Option ℝ := none
  srLegacy : Option ℝ := none
  srReal : Option ℝ := none
  compact : Option Bool := none
  factor : Option ℝ := none

/-- `flushSectionXML`, src/manipulators/MRBF.cpp:969-1008 -/
def Cfg.flush (wr : ℝ → ℝ) (c : Cfg) : Opts :=
  { mode := some c.mode
    tol := if c.tol ≠ 1 / 10 ^ 6 then some (wr c.tol) else none
    shape := if c.shape ≠ 0 then some c.shape else none
    srReal := if c.radii.isEmpty = true ∧ c.srReal = true then some (wr c.srValue) else none
    srLocal := if c.radii.isEmpty = true ∧ c.srReal = false then some (wr c.srValue) else none
    compact := if c.compact then some true else none
    factor := if c.factor ≠ 1 then some (wr c.factor) else none }

/-- the shape read, src/manipulators/MRBF.cpp:885-907 -/
def readShape (v : Int) : Int :=
  let v := max 1 v
  if v > 100 then (if v > 105 then 105 else v) else if v > 13 then 1 else v

/-- `setSupportRadiusLocal` and `setSupportRadiusReal`, src/manipulators/MRBF.cpp:418-441 -/
def Cfg.setRadius (c : Cfg) (real : Bool) (r : Option ℝ) : Cfg :=
  match r with
  | none => c
  | some r => { c with srValue := max (-1) r, srReal := real, radii := [] }

/-- `absorbSectionXML`, src/manipulators/MRBF.cpp:864-962 -/
def Cfg.absorb (c : Cfg) (o : Opts) : Cfg :=
  let c := { c with tol := 1 / 10 ^ 6 }
  let c := match o.tol with
    | some t => if t > 0 then { c with tol := t } else c
    | none => c
  let c := match o.shape with
    | some v => { c with shape := readShape v, compact := false }
    | none => c
  let c := c.setRadius false o.srLocal
  let c := c.setRadius false o.srLegacy
  let c := c.setRadius true o.srReal
  let c := match o.compact with
    | some b => { c with compact := b }
    | none => c
  let c := { c with factor := 1 }
  match o.factor with
  | some x => if 0 ≤ x ∧ x ≤ 1 then { c with factor := min (max x 0) 1 } else c
  | none => c

/-- constructor from a section of the class, src/manipulators/MRBF.cpp:55-89: the only place where the mode is read -/
def Cfg.ofXml (o : Opts) : Cfg := ({ mode := min 2 (max 0 (o.mode.getD 0)) } : Cfg).absorb o

end

end Verif.Rbf
