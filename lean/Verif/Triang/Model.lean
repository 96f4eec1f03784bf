import Verif.Mesh.Model
import Verif.Xml.Model
/-
The block `mimmo::SurfaceTriangulator` (src/geohandlers/SurfaceTriangulator.cpp), serial.  Objects that are shared are
places of a memory; a new object gets a new place.  Plots are not modelled.
-/
namespace Verif.Triang
open Verif.Field Verif.Mesh Verif.Xml

variable {P : Type}

/-- the objects that exist and the members of the block: linked geometry, internal patch, flag;
src/geohandlers/SurfaceTriangulator.hpp:82-84 -/
structure State (P : Type) where
  mem : List (Obj P)
  target : Option Nat
  patch : Option Nat
  work : Bool

/-- constructor, src/geohandlers/SurfaceTriangulator.cpp:33-36 -/
def State.new (mem : List (Obj P)) : State P := ⟨mem, none, none, false⟩

/-- `setGeometry`, src/geohandlers/SurfaceTriangulator.cpp:121-124 -/
def State.setGeometry (s : State P) (g : Option Nat) : State P :=
  match g with
  | none => s
  | some i => { s with target := some i }

/-- `setWorkOnTarget`, src/geohandlers/SurfaceTriangulator.cpp:132-134 -/
def State.setWork (s : State P) (b : Bool) : State P := { s with work := b }

/-- `getGeometry`, src/geohandlers/SurfaceTriangulator.cpp:103-106 -/
def State.geometry (s : State P) : Option Nat := if s.work then s.target else s.patch

/-- `execute`, src/geohandlers/SurfaceTriangulator.cpp:139-154; false: exception.  `bary` is the centroid (external).  An
object whose triangulation raises an exception is left as it is: true of objects that are no surfaces, refused first. -/
def State.execute (bary : Obj P → Nat → P) (s : State P) : State P × Bool :=
  match s.target with
  | none => (s, false)
  | some t =>
    match s.mem[t]? with
    | none => (s, false)
    | some o =>
      if s.work then
        (match triangulate bary o with
        | none => (s, false)
        | some o' => ({ s with mem := s.mem.set t o' }, true))
      else
        (match clone o with
        | none => (s, false)
        | some r =>
          let s' := { s with mem := s.mem ++ [r], patch := some s.mem.length }
          match triangulate bary r with
          | none => (s', false)
          | some r' => ({ s' with mem := s.mem ++ [r'] }, true))

/-- `absorbSectionXML`, src/geohandlers/SurfaceTriangulator.cpp:170-188 (without the base class) -/
def State.absorb (x : Section) (s : State P) : State P :=
  match x "WorkOnTarget" with
  | none => s
  | some t => s.setWork (if trim t = [] then false else readBool (trim t))

/-- `flushSectionXML`, src/geohandlers/SurfaceTriangulator.cpp:195-201 (without the base class) -/
def State.flush (s : State P) (x : Section) : Section := x.set "WorkOnTarget" (toText (if s.work then 1 else 0))

end Verif.Triang
