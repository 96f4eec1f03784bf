import Verif.Recon.Extract
import Verif.Xml.Model
/-
Model of the blocks that choose a field in a list (src/geohandlers/SelectField.cpp, SelectScalarField.cpp; the vector variant has the same
text, the long and string variants differ in the values that overlap), serial build.

* Geometries are handles into the world of Verif.Recon.Extract; tolerances are rational numbers.
* Names are texts; a field holds the bytes of its name.
* Plots are left out.
-/
namespace Verif.Recon
open Verif.Field Verif.Mesh Verif.Xml

variable {P α : Type}

/-- bytes of a text (of characters of one byte) -/
def enc (t : Text) : List Verif.BinStream.Byte := t.map fun c => UInt8.ofNat c.toNat

/-- sum and division by a number, for the values of scalar and vector fields -/
structure Arith (α : Type) where
  add : α → α → α
  div : α → Nat → α

/-- what is done with values for the same id: their mean (src/geohandlers/SelectScalarField.cpp:242-261, SelectVectorField.cpp), or the first
(src/geohandlers/SelectLongField.cpp:242-251, SelectStringField.cpp:241-250) -/
inductive Overlap (α : Type) where
  | mean (a : Arith α)
  | first

/-- data members, src/geohandlers/SelectField.hpp:99-103, 194-196, defaults SelectField.cpp:31-35; the mode is the integer behind the enumeration: 0 GEOMETRY, 1 NAME,
2 MAPPING -/
structure Sel (α : Type) where
  mode : Int := 1
  name : Text := ['d', 'a', 't', 'a']
  tol : Rat := 1 / 1000000000000
  loc : Loc := .point
  geo : Option Nat := none
  fields : List (Field Nat α) := []
  result : Field Nat α := make none .undefined

/-- constructor, src/geohandlers/SelectScalarField.cpp:36-40 -/
def Sel.new (l : Loc) : Sel α := { loc := if l = .undefined then .point else l }

/-- `setFieldName`, src/geohandlers/SelectField.cpp:83-86 -/
def Sel.setFieldName (s : Sel α) (n : Text) : Sel α := { s with name := n }

/-- `setMode`, src/geohandlers/SelectField.cpp:92-104 -/
def Sel.setMode (s : Sel α) (m : Int) : Sel α := { s with mode := m }

/-- `setTolerance`, src/geohandlers/SelectField.cpp:110-113 -/
def Sel.setTolerance (s : Sel α) (t : Rat) : Sel α := { s with tol := max (1 / 1000000000000) t }

/-- `setGeometry`, src/core/BaseManipulation.cpp:433-435 -/
def Sel.setGeometry (s : Sel α) (g : Option Nat) : Sel α := { s with geo := g }

/-- a field that is taken, src/geohandlers/SelectScalarField.cpp:133, 147 -/
def Sel.takes (s : Sel α) (f : Field Nat α) : Bool := f.loc == s.loc && f.geo.isSome

/-- `addField`, src/geohandlers/SelectScalarField.cpp:145-151 -/
def Sel.addField (s : Sel α) (f : Option (Field Nat α)) : Sel α :=
  match f with
  | none => s
  | some f => if s.takes f then { s with fields := s.fields ++ [f] } else s

/-- `setFields`, src/geohandlers/SelectScalarField.cpp:127-138 -/
def Sel.setFields (s : Sel α) (fs : List (Option (Field Nat α))) : Sel α :=
  fs.foldl (fun s f => s.addField f) { s with fields := [] }

/-- `clear`, src/geohandlers/SelectScalarField.cpp:157-161 and SelectField.cpp:127-129: mode, name, tolerance and location stay -/
def Sel.clear (s : Sel α) : Sel α := { s with fields := [], result := Field.clear s.result, geo := none }

/-- one value of an extracted field, src/geohandlers/SelectScalarField.cpp:242-254: values and how many of them have been added, where more
than one -/
def mergeOne (ov : Overlap α) (acc : Data α × Data Nat) (e : Nat × α) : Data α × Data Nat :=
  match get acc.1 e.1 with
  | none => (acc.1 ++ [e], acc.2)
  | some v =>
    match ov with
    | .first => acc
    | .mean a =>
      (setAt acc.1 e.1 (a.add v e.2),
        match get acc.2 e.1 with
        | none => acc.2 ++ [(e.1, 2)]
        | some n => setAt acc.2 e.1 (n + 1))

/-- division of one value, src/geohandlers/SelectScalarField.cpp:260 -/
def divideOne (a : Arith α) (d : Data α) (e : Nat × Nat) : Data α :=
  match get d e.1 with
  | none => d
  | some v => setAt d e.1 (a.div v e.2)

/-- division of the values that overlap, src/geohandlers/SelectScalarField.cpp:259-261 -/
def divideAll (ov : Overlap α) (acc : Data α × Data Nat) : Data α :=
  match ov with
  | .first => acc.1
  | .mean a => acc.2.foldl (divideOne a) acc.1

/-- loop over the fields, src/geohandlers/SelectScalarField.cpp:233-255; `none`: an exception -/
def mapFields (w : World P) (ov : Overlap α) : List (Field Nat α) → Ext α → Data α × Data Nat → Option (Data α × Data Nat)
  | [], _, acc => some acc
  | f :: fs, ef, acc =>
    match (ef.setField (some f)).extract w with
    | none => none
    | some (ef, false) => mapFields w ov fs ef acc
    | some (ef, true) => mapFields w ov fs ef (ef.result.data.foldl (mergeOne ov) acc)

/-- `mSelect`, src/geohandlers/SelectScalarField.cpp:178-273: the block and whether a field was chosen -/
def Sel.select (w : World P) (ov : Overlap α) (s : Sel α) : Option (Sel α × Bool) :=
  let s := { s with result := Field.clear s.result }
  if s.mode = 0 then
    match s.geo with
    | none => some (s, false)
    | some g =>
      match s.fields.find? (fun f => f.geo == some g) with
      | some f => some ({ s with result := f }, true)
      | none => some (s, false)
  else if s.mode = 1 then
    match s.fields.find? (fun f => f.name == enc s.name) with
    | some f => some ({ s with result := f }, true)
    | none => some (s, false)
  else if s.mode = 2 then
    match s.geo with
    | none => some (s, false)
    | some g =>
      if (w.obj g).type = 3 then some (s, false)
      else
        (mapFields w ov s.fields (((({} : Ext α).setGeometry (some g)).setMode 3).setTolerance s.tol) ([], [])).map fun acc =>
          ({ s with result := { s.result with geo := some g, loc := s.loc, data := divideAll ov acc } }, true)
  else some (s, false)

/-- `execute`, src/geohandlers/SelectField.cpp:134-157: a failure is only logged -/
def Sel.execute (w : World P) (ov : Overlap α) (s : Sel α) : Option (Sel α) := (s.select w ov).map Prod.fst

/-! ### XML -/

/-- integer of a location, src/core/MimmoPiercedVector.hpp:39-44 -/
def locCode : Loc → Nat
  | .undefined => 0
  | .point => 1
  | .cell => 2
  | .interface => 3

/-- location of an integer, src/geohandlers/SelectScalarField.cpp:57-62 -/
def locOf (n : Nat) : Loc := if n = 2 then .cell else if n = 3 then .interface else .point

/-- `SelectField::absorbSectionXML`, src/geohandlers/SelectField.cpp:164-200 (without the base class): the mode is read as a boolean;
`num` reads the tolerance -/
def Sel.absorbBase (num : Text → Rat) (x : Section) (s : Sel α) : Sel α :=
  let s := match x "SelectType" with
    | none => s
    | some t => s.setMode (if trim t = [] then 0 else if readBool (trim t) then 1 else 0)
  let s := match x "FieldName" with
    | none => s
    | some t => if trim t = [] then s else s.setFieldName (trim t)
  match x "Tolerance" with
  | none => s
  | some t => s.setTolerance (if trim t = [] then 0 else num (trim t))

/-- `absorbSectionXML`, src/geohandlers/SelectScalarField.cpp:280-301; `none`: an exception -/
def Sel.absorb (num : Text → Rat) (x : Section) (s : Sel α) : Option (Sel α) :=
  match x "DataLocation" with
  | none => some (s.absorbBase num x)
  | some t => if trim t ≠ [] ∧ readInt (trim t) = locCode s.loc then some (s.absorbBase num x) else none

/-- constructor from a section, src/geohandlers/SelectScalarField.cpp:46-71 (right class name); a location that `std::stoi` cannot read makes it
throw; here such a text counts as 0 and it is `absorb` that throws, with the same effect -/
def Sel.fromXml (num : Text → Rat) (x : Section) : Option (Sel α) :=
  match x "DataLocation" with
  | none => (Sel.new .point).absorb num x
  | some t => if trim t = [] then none else (Sel.new (locOf (readInt (trim t)))).absorb num x

/-- `flushSectionXML`, src/geohandlers/SelectScalarField.cpp:308-313, SelectField.cpp:207-218; `dec` writes the tolerance; the mode is not
negative in a block set by its own methods -/
def Sel.flush (dec : Rat → Text) (s : Sel α) (x : Section) : Section :=
  let x := x.set "DataLocation" (toText (locCode s.loc))
  let x := x.set "SelectType" (toText s.mode.toNat)
  let x := if s.mode = 2 then x.set "Tolerance" (dec s.tol) else x
  x.set "FieldName" s.name

end Verif.Recon
