import Verif.Xml.Model
import Verif.Mesh.Model
/-!
# Reading, writing and converting geometries

`src/iogeneric/MimmoGeometry.cpp`: the settings of the block, their XML section, the reference PID and the execution.
`bitpit::Config` is a table of options, as in `Verif.Xml`; what is in the files and how their formats are read is a
parameter (see `Verif.Obj`, `Verif.Vtu`, `Verif.Nas` for formats).
-/
namespace Verif.Geo

open Verif.Xml (Text Section trim toText readBool isDigit digitsVal blank)
open Verif.Mesh

/-- `FileType`, MimmoGeometry.hpp 32. -/
inductive FileType where
  | stl | surfvtu | volvtu | nas | pcvtu | curvevtu | mimmo
  deriving DecidableEq, Repr

def FileType.all : List FileType := [.stl, .surfvtu, .volvtu, .nas, .pcvtu, .curvevtu, .mimmo]

/-- `_to_integral`, MimmoGeometry.hpp 32. -/
def FileType.num : FileType → Int
  | .stl => 0
  | .surfvtu => 1
  | .volvtu => 2
  | .nas => 3
  | .pcvtu => 4
  | .curvevtu => 5
  | .mimmo => 99

/-- `_to_string`, MimmoGeometry.hpp 32. -/
def FileType.name : FileType → Text
  | .stl => "STL".toList
  | .surfvtu => "SURFVTU".toList
  | .volvtu => "VOLVTU".toList
  | .nas => "NAS".toList
  | .pcvtu => "PCVTU".toList
  | .curvevtu => "CURVEVTU".toList
  | .mimmo => "MIMMO".toList

/-- `_from_integral_nothrow`, and STL for what is not a type, MimmoGeometry.cpp 200-205, 238-243, 343-349. -/
def FileType.ofNum (n : Int) : FileType := (FileType.all.find? (·.num == n)).getD .stl

/-- `FileDataInfo`. -/
structure Info where
  dir : Text
  name : Text
  type : FileType
  deriving DecidableEq, Repr

/-- The members; `T` are the tolerances. -/
structure Settings (T : Type) where
  base : Verif.Xml.Settings
  read : Bool
  write : Bool
  rinfo : Info
  winfo : Info
  long : Bool
  codex : Bool
  skd : Bool
  kd : Bool
  refPID : Nat
  multi : Bool
  tol : T
  clean : Bool
  restore : Bool
  deriving DecidableEq, Repr

/-- What is done with tolerances: printing (`std::scientific`), reading, and the maximum with 1.0e-15, MimmoGeometry.cpp
374-377, 1157-1165, 1255-1257; `mpi` is the compilation with MPI. -/
structure Env (T : Type) where
  print : T → Text
  parse : Text → T
  floor : T → T
  default : T
  mpi : Bool

def defaultInfo : Info := ⟨"./".toList, "mimmoGeometry".toList, .stl⟩

/-- `setDefaults`, MimmoGeometry.cpp 154-176. -/
def defaults {T : Type} (E : Env T) : Settings T :=
  { base := Verif.Xml.Settings.fresh, read := false, write := false, rinfo := defaultInfo, winfo := defaultInfo, long := false,
    codex := true, skd := false, kd := false, refPID := 0, multi := false, tol := E.default, clean := true, restore := E.mpi }

/-! ## Setters -/

/-- The modes, MimmoGeometry.hpp. -/
inductive Mode where
  | read | write | convert
  deriving DecidableEq, Repr

variable {T : Type}

/-- `setIOMode`, MimmoGeometry.cpp 279-299. -/
def setIOMode (m : Mode) (s : Settings T) : Settings T :=
  match m with
  | .read => { s with read := true, write := false }
  | .write => { s with read := false, write := true }
  | .convert => { s with read := true, write := true }

/-- MimmoGeometry.cpp 314-318. -/
def setDir (d : Text) (s : Settings T) : Settings T :=
  { s with rinfo := { s.rinfo with dir := d }, winfo := { s.winfo with dir := d } }

/-- MimmoGeometry.cpp 323-327. -/
def setFilename (f : Text) (s : Settings T) : Settings T :=
  { s with rinfo := { s.rinfo with name := f }, winfo := { s.winfo with name := f } }

/-- MimmoGeometry.cpp 333-349. -/
def setFileType (t : FileType) (s : Settings T) : Settings T :=
  { s with rinfo := { s.rinfo with type := t }, winfo := { s.winfo with type := t } }

/-- MimmoGeometry.cpp 191-223: of the reading only. -/
def setReadFileType (t : FileType) (s : Settings T) : Settings T := { s with rinfo := { s.rinfo with type := t } }
def setReadDir (d : Text) (s : Settings T) : Settings T := { s with rinfo := { s.rinfo with dir := d } }
def setReadFilename (f : Text) (s : Settings T) : Settings T := { s with rinfo := { s.rinfo with name := f } }

/-- MimmoGeometry.cpp 229-271: of the writing only. -/
def setWriteFileType (t : FileType) (s : Settings T) : Settings T := { s with winfo := { s.winfo with type := t } }
def setWriteDir (d : Text) (s : Settings T) : Settings T := { s with winfo := { s.winfo with dir := d } }
def setWriteFilename (f : Text) (s : Settings T) : Settings T := { s with winfo := { s.winfo with name := f } }

/-- `setReferencePID`, MimmoGeometry.cpp 455-458. -/
def setReferencePID (p : Int) (s : Settings T) : Settings T := { s with refPID := (max 0 p).toNat }

/-- `setTolerance`, MimmoGeometry.cpp 374-377. -/
def setTolerance (E : Env T) (t : T) (s : Settings T) : Settings T := { s with tol := E.floor t }

/-! ## XML -/

def LONG_MAX : Nat := 2 ^ 63 - 1

/-- `stringstream >> long`, as `readInt` in `Verif.Xml`. -/
def readLong (t : Text) : Nat :=
  let ds := (t.dropWhile blank).takeWhile isDigit
  if digitsVal ds ≤ LONG_MAX then digitsVal ds else LONG_MAX

/-- An option of the section, when it is there. -/
def opt (x : Section) (k : String) (f : Text → Settings T → Settings T) (s : Settings T) : Settings T :=
  match x k with
  | none => s
  | some t => f t s

/-- A flag: the default when the text is empty. -/
def flag (d : Bool) (t : Text) : Bool := if t = [] then d else readBool (trim t)

/-- The type with a name. -/
def typeOf (t : Text) : Option FileType := FileType.all.find? (·.name == t)

/-- `if(!input.empty()) set(input)`. -/
def filled (f : Text → Settings T → Settings T) (t : Text) (s : Settings T) : Settings T :=
  if trim t = [] then s else f (trim t) s

/-- The loop on the types. -/
def withType (f : FileType → Settings T → Settings T) (t : Text) (s : Settings T) : Settings T :=
  match typeOf t with
  | some c => f c s
  | none => s

/-- `absorbSectionXML`, MimmoGeometry.cpp 1003-1203, the options on names and types. -/
def absorbFiles (x : Section) (s : Settings T) : Settings T :=
  let s := opt x "FileType" (fun t s => if trim t = [] then setFileType .stl s else withType setFileType (trim t) s) s
  let s := opt x "ReadFileType" (filled (withType setReadFileType)) s
  let s := opt x "WriteFileType" (filled (withType setWriteFileType)) s
  let s := opt x "Dir" (fun t s => setDir (if trim t = [] then "./".toList else trim t) s) s
  let s := opt x "Filename" (fun t s => setFilename (if trim t = [] then "mimmoGeometry".toList else trim t) s) s
  let s := opt x "ReadDir" (filled setReadDir) s
  let s := opt x "ReadFilename" (filled setReadFilename) s
  let s := opt x "WriteDir" (filled setWriteDir) s
  opt x "WriteFilename" (filled setWriteFilename) s

/-- The same, the other options. -/
def absorbFlags (E : Env T) (x : Section) (s : Settings T) : Settings T :=
  let s := opt x "Codex" (fun t s => { s with codex := flag true t }) s
  let s := opt x "BvTree" (fun t s => { s with skd := flag false t }) s
  let s := opt x "SkdTree" (fun t s => { s with skd := flag false t }) s
  let s := opt x "KdTree" (fun t s => { s with kd := flag false t }) s
  let s := opt x "AssignRefPID" (fun t s => setReferencePID (if t = [] then 0 else readLong (trim t)) s) s
  let s := opt x "WriteMultiSolidSTL" (fun t s => { s with multi := flag true t }) s
  let s := opt x "Tolerance" (fun t s => if t = [] then s else setTolerance E (E.parse (trim t)) s) s
  let s := opt x "Clean" (fun t s => { s with clean := flag true t }) s
  let s := opt x "FormatNAS" (fun t s => { s with long := flag false t }) s
  opt x "ParallelRestore" (fun t s => { s with restore := flag true t }) s

/-- `absorbSectionXML`, MimmoGeometry.cpp 1003-1203. -/
def absorb (E : Env T) (x : Section) (s : Settings T) : Settings T :=
  absorbFlags E x (absorbFiles x { s with base := Verif.Xml.absorbSection x s.base })

/-- The mode in a section, MimmoGeometry.cpp 59-65. -/
def modeOf (x : Section) : Mode :=
  let mode := trim ((x "IOMode").getD "READ".toList)
  if mode = "CONVERT".toList then .convert else if mode = "WRITE".toList then .write else .read

/-- The constructor from a section, MimmoGeometry.cpp 50-72. -/
def create (E : Env T) (x : Section) : Settings T :=
  let s := setIOMode (modeOf x) (defaults E)
  if trim ((x "ClassName").getD "ClassNONE".toList) = "mimmo.Geometry".toList then absorb E x s else s

/-- `std::to_string` of a flag. -/
def flagText (b : Bool) : Text := if b then ['1'] else ['0']

/-- `flushSectionXML`, MimmoGeometry.cpp 1208-1271, the names and the types of the files, 1223-1245. -/
def flushFiles (s : Settings T) (x : Section) : Section :=
  if s.read && s.write then
    (((((x.set "ReadDir" s.rinfo.dir).set "ReadFilename" s.rinfo.name).set "WriteDir" s.winfo.dir).set "WriteFilename"
      s.winfo.name).set "ReadFileType" s.rinfo.type.name).set "WriteFileType" s.winfo.type.name
  else ((x.set "Dir" s.rinfo.dir).set "Filename" s.rinfo.name).set "FileType" s.rinfo.type.name

/-- The same, the other options, 1247-1269. -/
def flushFlags (E : Env T) (s : Settings T) (x : Section) : Section :=
  ((((((((x.set "Codex" (flagText s.codex)).set "SkdTree" (flagText s.skd)).set "KdTree" (flagText s.kd)).set "AssignRefPID"
    (toText s.refPID)).set "WriteMultiSolidSTL" (flagText s.multi)).set "Tolerance" (E.print s.tol)).set "Clean"
    (flagText s.clean)).set "FormatNAS" (flagText s.long)).set "ParallelRestore" (flagText s.restore)

/-- The name of the mode, 1216-1221. -/
def modeText (s : Settings T) : Text :=
  if s.read && s.write then "CONVERT".toList else if s.write then "WRITE".toList else "READ".toList

/-- `flushSectionXML`, MimmoGeometry.cpp 1208-1271, on a new section. -/
def flush (E : Env T) (s : Settings T) : Section :=
  flushFlags E s (flushFiles s ((Verif.Xml.flushSection s.base
    (Section.set (fun _ => none) "ClassName" "mimmo.Geometry".toList)).set "IOMode" (modeText s)))

/-! ## Execution -/

variable {P : Type}

/-- `getCompactPID`, MimmoObject.cpp 1552-1561. -/
def compactPID (o : Obj P) : List Int := if o.pids = [] then [] else o.cells.map fun c => c.2.pid

/-- The reference PID, MimmoGeometry.cpp 512-522, 932-940. -/
def addRef (r : Nat) (o : Obj P) : Obj P :=
  let t := setPIDVec o ((compactPID o).map (· + (r : Int)))
  t.pids.foldl (fun t p => (setPIDName t p ((nameOf o.names (p - r)).getD "")).1) t

inductive Outcome (P : Type) where
  /-- done: the geometry and what is written, in which file -/
  | done (geometry : Option (Obj P)) (written : Option (Info × Obj P))
  /-- `throw std::runtime_error`: no file -/
  | notFound
  /-- a null pointer is dereferenced -/
  | null

/-- `execute`, MimmoGeometry.cpp 968-996, with `write` and `read`, 509-660, 672-948: `files` is what is in the files, with
cleaning and trees done.  The reference PID after the execution, and the outcome. -/
def execute (files : Info → Option (Obj P)) (s : Settings T) (geometry : Option (Obj P)) : Nat × Outcome P :=
  if s.read then
    match files s.rinfo with
    | none => (s.refPID, .notFound)
    | some o =>
      let o := addRef s.refPID o
      if s.write then let o := addRef 0 o; (0, .done (some o) (some (s.winfo, o)))
      else (0, .done (some o) none)
  else if s.write then
    match geometry with
    | none => (s.refPID, .null)
    | some o => let o := addRef s.refPID o; (0, .done (some o) (some (s.winfo, o)))
  else (s.refPID, .done geometry none)

end Verif.Geo
