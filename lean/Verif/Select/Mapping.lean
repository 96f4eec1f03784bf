import Verif.Select.Model
import Verif.Recon.Extract
import Verif.Create.Xml
/-
The block `mimmo::SelectionByMapping` (src/geohandlers/SelectionByMapping.cpp), serial.  Geometries are handles into
the world of Verif.Recon.Extract, whose `near` is `selectByPatch`; `read dir name type` is the handle of the geometry that
MimmoGeometry reads (`none`: exception).  The trees built on the way are not modelled; the two hash tables are lists.
-/
namespace Verif.Select
open Verif.Field Verif.Mesh Verif.Recon Verif.Xml Verif.Create

variable {P : Type}

/-- data members, src/geohandlers/MeshSelection.hpp:461-465 and GenericSelection -/
structure Mapping where
  topo : Nat := 1
  dual : Bool := false
  tol : Rat := 1 / 100000000
  geo : Option Nat := none
  files : List (Text × Int) := []
  objs : List Nat := []
deriving DecidableEq, Repr

/-- codes and names of the smart enum `FileType`, src/iogeneric/MimmoGeometry.hpp:32 -/
def fileTypes : List (Int × Text) :=
  [(0, ['S', 'T', 'L']), (1, ['S', 'U', 'R', 'F', 'V', 'T', 'U']), (2, ['V', 'O', 'L', 'V', 'T', 'U']), (3, ['N', 'A', 'S']),
   (4, ['P', 'C', 'V', 'T', 'U']), (5, ['C', 'U', 'R', 'V', 'E', 'V', 'T', 'U']), (99, ['M', 'I', 'M', 'M', 'O'])]

/-- `m_allowedType`, src/geohandlers/SelectionByMapping.cpp:45-56; other rows are empty -/
def allowedTypes : Nat → List Int
  | 1 => [0, 1, 3, 99, 5]
  | 2 => [2, 99]
  | 4 => [5, 99]
  | _ => []

/-- `m_allowedTopology`, src/geohandlers/SelectionByMapping.cpp:58-64 -/
def allowedTopology : Nat → List Nat
  | 1 => [1, 4]
  | 2 => [2]
  | 4 => [4]
  | _ => []

/-- `topo = max(1, topo); if(topo > 4 || topo == 3) topo = 1`, src/geohandlers/SelectionByMapping.cpp:41-43 and 87-89 -/
def clipTopo (n : Int) : Nat := if max 1 n > 4 ∨ max 1 n = 3 then 1 else (max 1 n).toNat

/-- constructor, src/geohandlers/SelectionByMapping.cpp:36-66 -/
def Mapping.new (n : Int) : Mapping := { topo := clipTopo n }

/-- `setTolerance`, src/geohandlers/SelectionByMapping.cpp:233-238 -/
def Mapping.setTolerance (s : Mapping) (t : Rat) : Mapping := { s with tol := if t < 0 then 1 / 100000000 else t }

/-- `setDual`, src/geohandlers/GenericSelection.cpp:151-154 -/
def Mapping.setDual (s : Mapping) (b : Bool) : Mapping := { s with dual := b }

/-- `setGeometry`, src/geohandlers/SelectionByMapping.cpp:246-264 -/
def Mapping.setGeometry (s : Mapping) (w : World P) (g : Option Nat) : Mapping :=
  match g with
  | none => s
  | some i => if (w.obj i).type ≠ s.topo then s else { s with geo := some i }

/-- `addFile`, src/geohandlers/SelectionByMapping.cpp:291-296; the hash table keeps an existing key -/
def Mapping.addFile (s : Mapping) (f : Text × Int) : Mapping :=
  if f.2 ∈ allowedTypes s.topo then
    (if s.files.any (fun e => e.1 == f.1) then s else { s with files := s.files ++ [f] })
  else s

/-- `setFiles`, src/geohandlers/SelectionByMapping.cpp:280-284 -/
def Mapping.setFiles (s : Mapping) (l : List (Text × Int)) : Mapping := l.foldl Mapping.addFile s

/-- `addMappingGeometry`, src/geohandlers/SelectionByMapping.cpp:303-307; a null pointer is dereferenced -/
def Mapping.addGeo (s : Mapping) (w : World P) (g : Option Nat) : Option Mapping :=
  g.map fun i => if (w.obj i).type ∈ allowedTopology s.topo then { s with objs := insSet s.objs i } else s

/-- `removeFile`, `removeFiles`, `removeMappingGeometries`, src/geohandlers/SelectionByMapping.cpp:314-332 -/
def Mapping.removeFile (s : Mapping) (f : Text) : Mapping := { s with files := s.files.filter (fun e => e.1 != f) }
def Mapping.removeFiles (s : Mapping) : Mapping := { s with files := [] }
def Mapping.removeGeos (s : Mapping) : Mapping := { s with objs := [] }

/-- `clear`, src/geohandlers/SelectionByMapping.cpp:338-343 -/
def Mapping.clear (s : Mapping) : Mapping := { s.removeFiles.removeGeos with geo := none }

/-- constructor from files and target, src/geohandlers/SelectionByMapping.cpp:126-161; the tolerance is not checked.
`std::min(1, type)` is the least of both. -/
def Mapping.newWith (w : World P) (l : List (Text × Int)) (g : Option Nat) (t : Rat) : Mapping :=
  match g with
  | none => {}
  | some i =>
    let n : Int := min 1 ((w.obj i).type : Int)
    let s : Mapping := { topo := if n > 4 ∨ n = 3 then 1 else n.toNat }
    { (s.setGeometry w (some i)).setFiles l with tol := t }

/-- `find_last_of(key)` and the two sides: before and after the last of these characters -/
def cutLast (key : Char → Bool) (t : Text) : Option (Text × Text) :=
  match t.reverse.dropWhile (fun c => !key c) with
  | [] => none
  | _ :: a => some (a.reverse, (t.reverse.takeWhile (fun c => !key c)).reverse)

/-- `extractInfo`, src/geohandlers/SelectionByMapping.cpp:453-472: directory, name, tag; without the character searched for, both
sides are the whole text (`substr(0, npos)` and `substr(npos + 1)`) -/
def extractInfo (file : Text) : Text × Text × Text :=
  let (root, temp) := (cutLast (fun c => c == '/' || c == '\\') file).getD (file, file)
  let (name, tag) := (cutLast (fun c => c == '.') temp).getD (temp, temp)
  (root, name, tag)

/-- `getProximity` of a file, src/geohandlers/SelectionByMapping.cpp:399-427 -/
def Mapping.nearFile (s : Mapping) (w : World P) (read : Text → Text → Int → Option Nat) (t : Nat) (f : Text × Int) : Option (List Nat) :=
  (read (extractInfo f.1).1 (extractInfo f.1).2.1 f.2).map fun i => if (w.obj i).type = 3 then [] else w.near i t s.tol

/-- `getProximity` of a geometry, src/geohandlers/SelectionByMapping.cpp:434-446 -/
def Mapping.nearObj (s : Mapping) (w : World P) (t : Nat) (i : Nat) : List Nat := w.near i t s.tol

/-- `extractSelection`, src/geohandlers/SelectionByMapping.cpp:350-391, with the geometry `t` linked.  Sets of ids are in increasing
order; the merging loop is the one of `excludeGeometry`. -/
def Mapping.extract (s : Mapping) (w : World P) (read : Text → Text → Int → Option Nat) (t : Nat) : Option (List Nat) :=
  (s.files.mapM (s.nearFile w read t)).bind fun ls =>
    let ex := distinct (ls.flatten ++ s.objs.flatMap (s.nearObj w t))
    if s.dual then
      (if (cellIds (w.obj t)).length = ex.length then some [] else Shape.complement (cellIds (w.obj t)) ex)
    else some (Shape.sorted ex)

/-- `execute` of GenericSelection, src/geohandlers/GenericSelection.cpp:222-275: the patch; `none`: exception -/
def Mapping.execute (clean : Obj P → Data P × Data Cell) (s : Mapping) (w : World P) (read : Text → Text → Int → Option Nat) : Option (Obj P) :=
  s.geo.bind fun t => (s.extract w read t).bind fun ex => Select.execute clean (w.obj t) s.topo ex

/-! ### XML -/

/-- options of a section; `tol` the number in the option `Tolerance` (an empty text is the default), `files` the
sub-sections of `Files` in the order bitpit gives them: options `fullpath` and `tag` -/
structure MapXml where
  topo : Option Text := none
  dual : Option Text := none
  tol : Option Rat := none
  files : Option (List (Option Text × Option Text)) := none

/-- one sub-section, src/geohandlers/SelectionByMapping.cpp:529-547 -/
def readFile (f : Option Text × Option Text) : Option (Text × Int) :=
  let path := trim (f.1.getD [])
  match fileTypes.find? (fun e => e.2 == trim (f.2.getD [])) with
  | none => none
  | some e => if path = [] then none else some (path, e.1)

/-- `mapp[path] = type`: the last type given for a path -/
def mapSetT (l : List (Text × Int)) (f : Text × Int) : List (Text × Int) :=
  if l.any (fun e => e.1 == f.1) then l.map (fun e => if e.1 = f.1 then f else e) else l ++ [f]

/-- a topology in the section that is not the one of the block, src/geohandlers/SelectionByMapping.cpp:485-496 -/
def Mapping.wrongTopo (x : MapXml) (s : Mapping) : Bool :=
  match x.topo with
  | none => false
  | some t => decide ((s.topo : Int) ≠ (if trim t = [] then -1 else readSigned (trim t)))

/-- the `Dual` option, src/geohandlers/SelectionByMapping.cpp:500-509 -/
def Mapping.readDual (x : MapXml) (s : Mapping) : Mapping :=
  match x.dual with
  | none => s
  | some t => s.setDual (if trim t = [] then false else readBool (trim t))

/-- the `Tolerance` option, src/geohandlers/SelectionByMapping.cpp:511-520 -/
def Mapping.readTol (x : MapXml) (s : Mapping) : Mapping :=
  match x.tol with
  | none => s
  | some t => s.setTolerance t

/-- the `Files` section, src/geohandlers/SelectionByMapping.cpp:522-552 -/
def Mapping.readFiles (x : MapXml) (s : Mapping) : Mapping :=
  match x.files with
  | none => s
  | some l => s.setFiles ((l.filterMap readFile).foldl mapSetT [])

/-- `absorbSectionXML`, src/geohandlers/SelectionByMapping.cpp:480-554 (without the base class); `none`: exception -/
def Mapping.absorb (x : MapXml) (s : Mapping) : Option Mapping :=
  if s.wrongTopo x then none else some (((s.readDual x).readTol x).readFiles x)

/-- an optional sign and what follows it -/
def signOf (t : Text) : Bool × Text :=
  match t with
  | '-' :: u => (true, u)
  | '+' :: u => (false, u)
  | u => (false, u)

/-- `std::stoi` of a trimmed text: an exception without digits or out of range -/
def stoi (t : Text) : Option Int :=
  let ds := (signOf (t.dropWhile blank)).2.takeWhile isDigit
  let v : Int := if (signOf (t.dropWhile blank)).1 then -(digitsVal ds : Int) else digitsVal ds
  if ds = [] ∨ v < INT_MIN ∨ (INT_MAX : Int) < v then none else some v

/-- constructor from XML, src/geohandlers/SelectionByMapping.cpp:72-118 -/
def Mapping.newXml (x : MapXml) : Option Mapping :=
  (stoi (trim (x.topo.getD ['-', '1']))).bind fun n => (Mapping.new n).absorb x

/-- `flushSectionXML`, src/geohandlers/SelectionByMapping.cpp:561-591; `sci` rounds to seven digits; `none`: a file type without name -/
def Mapping.flush (sci : Rat → Rat) (s : Mapping) : Option MapXml :=
  (s.files.mapM fun f => (fileTypes.find? (fun e => e.1 == f.2)).map fun e => (some f.1, some e.2)).map fun l =>
    ⟨some (toText s.topo), some (toText (if s.dual then 1 else 0)), if s.tol ≠ 1 / 100000000 then some (sci s.tol) else none, some l⟩

end Verif.Select
