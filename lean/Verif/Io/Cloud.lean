import Verif.Io.Displs
import Verif.Field.Props
import Verif.Mesh.Fill
/-
Model of src/iogeneric/IOCloudPoints.cpp: the block that reads and writes clouds of points with fields.

Simplified: files are texts under paths and can always be written; one process (src/iogeneric/IOCloudPoints.cpp:401-404, 536-548, 592-598 are
not modelled); the geometry of a field is the list of its ids.  bitpit numbers points with negative labels itself: such labels are outside
the model and are counted with undefined behaviour.
-/
namespace Verif.Io
open Verif.Xml Verif.Create Verif.Field
open List hiding get get_of_mem

variable {D : Type}

abbrev Pc (D : Type) := Verif.Mesh.Obj (P3 D)

/-- the ids of a geometry -/
def idsOf (o : Pc D) : Geo := ⟨o.verts.map Prod.fst, o.cells.map Prod.fst, []⟩

/-- "scalarfield", "vectorfield" -/
def scalarName : List BinStream.Byte := [115, 99, 97, 108, 97, 114, 102, 105, 101, 108, 100]
def vectorName : List BinStream.Byte := [118, 101, 99, 116, 111, 114, 102, 105, 101, 108, 100]

/-- data members, src/iogeneric/IOCloudPoints.hpp:131-140, and their values after construction, src/iogeneric/IOCloudPoints.cpp:33-39; the
lists of labels and points are empty outside of `read` -/
structure Cloud (D : Type) where
  read : Bool
  dir : Text := ".".toList
  file : Text := "mimmo.IOCloudPoints_source.dat".toList
  template : Bool := false
  geo : Option (Pc D) := none
  scalar : Field Geo D := make none .undefined
  vector : Field Geo (P3 D) := make none .undefined

/-- setters, src/iogeneric/IOCloudPoints.cpp:156-234 -/
def Cloud.setReadDir (b : Cloud D) (t : Text) : Cloud D := if !b.read then b else { b with dir := t }
def Cloud.setReadFile (b : Cloud D) (t : Text) : Cloud D := if !b.read then b else { b with file := t }
def Cloud.setWriteDir (b : Cloud D) (t : Text) : Cloud D := if b.read then b else { b with dir := t }
def Cloud.setWriteFile (b : Cloud D) (t : Text) : Cloud D := if b.read then b else { b with file := t }
def Cloud.setTemplate (b : Cloud D) (f : Bool) : Cloud D := if b.read then b else { b with template := f }

/-- `setGeometry`, src/iogeneric/IOCloudPoints.cpp:186-191; the pointer is used without a test -/
def Cloud.setGeometry (b : Cloud D) (g : Option (Pc D)) : Res (Cloud D) :=
  match g with
  | none => .undefined
  | some o => .done (if o.type ≠ 3 then b else { b with geo := some o })

/-- `setScalarField`, `setVectorField`, src/iogeneric/IOCloudPoints.cpp:208-223 -/
def Cloud.setScalar (b : Cloud D) (f : Option (Field Geo D)) : Res (Cloud D) :=
  if b.read then .done b
  else match f with
    | none => .undefined
    | some f => .done { b with scalar := f }
def Cloud.setVector (b : Cloud D) (f : Option (Field Geo (P3 D))) : Res (Cloud D) :=
  if b.read then .done b
  else match f with
    | none => .undefined
    | some f => .done { b with vector := f }

/-- `clear`, src/iogeneric/IOCloudPoints.cpp:239-246, src/core/BaseManipulation.cpp:540-545 -/
def Cloud.clear (b : Cloud D) : Cloud D :=
  { b with
    vector := Verif.Field.clear b.vector, scalar := Verif.Field.clear b.scalar, template := false
    file := "mimmo.IOCloudPoints_source.dat".toList, geo := none }

/-- copy constructor, src/iogeneric/IOCloudPoints.cpp:76-81, src/core/BaseManipulation.cpp:83-107 -/
def Cloud.copy (b : Cloud D) : Cloud D := { read := b.read, dir := b.dir, file := b.file, template := b.template, geo := b.geo }

/-- src/iogeneric/IOCloudPoints.cpp:409, 533 -/
def Cloud.path (b : Cloud D) : Text := b.dir ++ '/' :: b.file

def pointKey : Text := "$POINT".toList
def scalarKey : Text := "$SCALARF".toList
def vectorKey : Text := "$VECTORF".toList

/-- `mapP`, src/iogeneric/IOCloudPoints.cpp:438-442: the position of a label; `mapP[label]` is 0 for a label that is not there -/
def posOf (ls : List Int) : Int → Nat := (ls.zipIdx).foldl (fun m e => fun j => if j = e.1 then e.2 else m j) (fun _ => 0)

def Res.bind {α β : Type} (r : Res α) (f : α → Res β) : Res β :=
  match r with
  | .done a => f a
  | .thrown => .thrown
  | .undefined => .undefined

/-- the variables of the second loop: `label`, `temp` and the fields -/
structure Fields (D : Type) where
  label : Option Int
  temp : Option D
  scalar : Data D
  vector : Data (P3 D)

/-- one line in the second loop, src/iogeneric/IOCloudPoints.cpp:451-468 -/
def fieldStep (F : Fmt D) (pos : Int → Nat) (s : Fields D) (line : Text) : Res (Fields D) :=
  let k := keyOf line
  let l := k.2.long
  if k.1 = scalarKey then
    let t := l.2.num F
    match l.1.or s.label, t.1.or s.temp with
    | some v, some x =>
      match ins s.scalar (pos v) x with
      | none => .thrown
      | some d => .done { s with label := some v, temp := some x, scalar := d }
    | _, _ => .undefined
  else if k.1 = vectorKey then
    match l.1.or s.label with
    | none => .undefined
    | some v =>
      match ins s.vector (pos v) (three F l.2) with
      | none => .thrown
      | some d => .done { s with label := some v, vector := d }
  else .done s

def fieldRows (F : Fmt D) (pos : Int → Nat) (s : Fields D) (ts : List Text) : Res (Fields D) :=
  ts.foldl (fun r t => r.bind fun s => fieldStep F pos s t) (.done s)

/-- a point of the file becomes a vertex and a cell, src/iogeneric/IOCloudPoints.cpp:486-491 -/
def putPoint (o : Pc D) (l : Nat) (p : P3 D) : Pc D :=
  (Verif.Mesh.addConnectedCell (Verif.Mesh.addVertex o 0 p (some l)).1 0 [l] .vertex 0 (some l)).1

def putPoints (ps : List (Int × P3 D)) (o : Pc D) : Res (Pc D) :=
  ps.foldl (fun r e => r.bind fun o => if e.1 < 0 then .undefined else .done (putPoint o e.1.toNat e.2)) (.done o)

/-- `read`, src/iogeneric/IOCloudPoints.cpp:390-507; a mesh that cannot be updated: undefined -/
def Cloud.load (F : Fmt D) (fs : Files) (b : Cloud D) : Res (Cloud D) :=
  match fs b.path with
  | none => .thrown
  | some t =>
    match (linesOf t).foldlM (rowStep F pointKey) (none, [], []) with
    | none => .undefined
    | some r =>
      (fieldRows F (posOf r.2.1) ⟨r.1, none, [], []⟩ (linesOf t)).bind fun s =>
      match Verif.Mesh.ctor (P := P3 D) 3 with
      | none => .thrown
      | some o =>
        (putPoints (r.2.1.zip r.2.2) o).bind fun o =>
        match Verif.Mesh.update o with
        | none => .undefined
        | some o => .done { b with
            geo := some o
            scalar := ⟨some (idsOf o), scalarName, .point, s.scalar⟩
            vector := ⟨some (idsOf o), vectorName, .point, s.vector⟩ }

/-- the field made ready for writing, src/iogeneric/IOCloudPoints.cpp:516-523; `none`: an exception -/
def ready {α : Type} (o : Pc D) (zero : α) (f : Field Geo α) : Option (Field Geo α) :=
  let f := { f with geo := some (f.geo.getD (idsOf o)), loc := .point }
  if f.data.isEmpty then some f else (completeMissingData f zero).map Prod.fst

/-- a row with a value, src/iogeneric/IOCloudPoints.cpp:561-568 -/
def scalarText (F : Fmt D) (template : Bool) (l : Nat) (v : D) : Text :=
  scalarKey ++ '\t' :: (intText l ++ '\t' :: (if template then holder 's' l else F.put v))

/-- what is written, src/iogeneric/IOCloudPoints.cpp:552-585; the fields of a template are not used -/
def cloudText (F : Fmt D) (template : Bool) (o : Pc D) (sc : Data D) (ve : Data (P3 D)) : Text :=
  o.verts.flatMap (fun e => rowText F pointKey false e.1 e.2 ++ ['\n']) ++ '\n' ::
  ((o.verts.map Prod.fst).flatMap (fun l : Nat =>
      if template then scalarText F true l F.zero ++ ['\n']
      else match get sc l with
        | none => []
        | some v => scalarText F false l v ++ ['\n']) ++ '\n' ::
    ((o.verts.map Prod.fst).flatMap (fun l : Nat =>
      if template then rowText F vectorKey true l (F.zero, F.zero, F.zero) ++ ['\n']
      else match get ve l with
        | none => []
        | some v => rowText F vectorKey false (l : Int) v ++ ['\n']) ++ ['\n']))

/-- `write`, src/iogeneric/IOCloudPoints.cpp:512-600; without a geometry a null pointer is used (line 554) -/
def Cloud.save (F : Fmt D) (fs : Files) (b : Cloud D) : Res (Cloud D × Files) :=
  match b.geo with
  | none => .undefined
  | some o =>
    match ready o F.zero b.scalar, ready o (F.zero, F.zero, F.zero) b.vector with
    | some sc, some ve => .done ({ b with scalar := sc, vector := ve }, fs.put b.path (cloudText F b.template o sc.data ve.data))
    | _, _ => .thrown

/-- `execute`, src/iogeneric/IOCloudPoints.cpp:252-259 -/
def Cloud.execute (F : Fmt D) (fs : Files) (b : Cloud D) : Res (Cloud D × Files) :=
  if b.read then (b.load F fs).bind fun b => .done (b, fs) else b.save F fs

/-- `absorbSectionXML`, src/iogeneric/IOCloudPoints.cpp:266-328 (without the base class) -/
def Cloud.absorb (x : Section) (b : Cloud D) : Res (Cloud D) :=
  if (match x "IOmode" with | none => b.read | some t => modeOption t) ≠ b.read then .thrown
  else
    let b := if b.read then
        let b := match x "ReadDir" with | none => b | some t => b.setReadDir (trim t)
        match x "ReadFilename" with | none => b | some t => b.setReadFile (trim t)
      else
        let b := match x "WriteDir" with | none => b | some t => b.setWriteDir (trim t)
        match x "WriteFilename" with | none => b | some t => b.setWriteFile (trim t)
    .done (match x "Template" with | none => b | some t => b.setTemplate (flagOption t))

/-- `flushSectionXML`, src/iogeneric/IOCloudPoints.cpp:335-353 (without the base class) -/
def Cloud.flush (b : Cloud D) (x : Section) : Section :=
  let x := x.set "IOmode" (toText b.read.toNat)
  let x := if b.read then (x.set "ReadDir" b.dir).set "ReadFilename" b.file else (x.set "WriteDir" b.dir).set "WriteFilename" b.file
  x.set "Template" (toText b.template.toNat)

/-- constructor from a section, src/iogeneric/IOCloudPoints.cpp:45-68; `atoi` as `>> int` -/
def Cloud.fromXml (x : Section) : Res (Cloud D) :=
  let b : Cloud D := { read := readSigned (trim ((x "IOmode").getD ['1'])) != 0 }
  if trim ((x "ClassName").getD "ClassNONE".toList) = "mimmo.IOCloudPoints".toList then b.absorb x else .done b

end Verif.Io
