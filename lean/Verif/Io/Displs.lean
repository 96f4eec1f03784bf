import Verif.Io.Stream
/-
Model of src/iogeneric/GenericDispls.cpp: the block that reads and writes lists of displacements.

Simplified: files are texts under paths and can always be written; one process (src/iogeneric/GenericDispls.cpp:434-444 are not modelled);
numbers of entries fit in `int`; the settings of the base class are in Verif/Xml.
-/
namespace Verif.Io
open Verif.Xml Verif.Create List

variable {D : Type}

/-- how a call ends: normally, by an exception, or with undefined behaviour (a variable read before it is set) -/
inductive Res (α : Type) where
  | done (a : α)
  | thrown
  | undefined

abbrev P3 (D : Type) := D × D × D

/-- files by path -/
abbrev Files := Text → Option Text

def Files.put (fs : Files) (p t : Text) : Files := fun q => if q = p then some t else fs q

/-- data members, src/iogeneric/GenericDispls.hpp:104-111, and their values after construction, src/iogeneric/GenericDispls.cpp:34-41 -/
structure Displs (D : Type) where
  read : Bool
  dir : Text := ".".toList
  file : Text := "mimmo.GenericDispls_source.dat".toList
  n : Int := 0
  displ : List (P3 D) := []
  labels : List Int := []
  template : Bool := false

/-- `setReadDir`, `setReadFilename`, `setWriteDir`, `setWriteFilename`, src/iogeneric/GenericDispls.cpp:168-202 -/
def Displs.setReadDir (b : Displs D) (t : Text) : Displs D := if !b.read then b else { b with dir := t }
def Displs.setReadFile (b : Displs D) (t : Text) : Displs D := if !b.read then b else { b with file := t }
def Displs.setWriteDir (b : Displs D) (t : Text) : Displs D := if b.read then b else { b with dir := t }
def Displs.setWriteFile (b : Displs D) (t : Text) : Displs D := if b.read then b else { b with file := t }

/-- `setNDispl`, src/iogeneric/GenericDispls.cpp:210-214 -/
def Displs.setN (b : Displs D) (n : Int) : Displs D := if b.read then b else { b with n := n }

/-- `setLabels`, src/iogeneric/GenericDispls.cpp:221-227 -/
def Displs.setLabels (b : Displs D) (l : List Int) : Displs D :=
  if b.read then b
  else
    let b := { b with labels := l }
    if b.displ.isEmpty then b.setN l.length else b

/-- `setDispl`, src/iogeneric/GenericDispls.cpp:234-240 -/
def Displs.setDispl (b : Displs D) (l : List (P3 D)) : Displs D := if b.read then b else { b with displ := l, n := l.length }

/-- `setTemplate`, src/iogeneric/GenericDispls.cpp:246-250 -/
def Displs.setTemplate (b : Displs D) (f : Bool) : Displs D := if b.read then b else { b with template := f }

/-- `clear`, src/iogeneric/GenericDispls.cpp:255-262 -/
def Displs.clear (b : Displs D) : Displs D :=
  { b with n := 0, displ := [], labels := [], template := false, file := "mimmo.GenericDispls_source.dat".toList }

/-- the file that is read or written, src/iogeneric/GenericDispls.cpp:386, 484 -/
def Displs.path (b : Displs D) : Text := b.dir ++ '/' :: b.file

/-- `dtrial.fill(0.0); ss>>dtrial[0]>>dtrial[1]>>dtrial[2]`, src/iogeneric/GenericDispls.cpp:417-418 -/
def three (F : Fmt D) (s : In) : P3 D :=
  let a := s.num F
  let b := a.2.num F
  let c := b.2.num F
  (a.1.getD F.zero, b.1.getD F.zero, c.1.getD F.zero)

def displKey : Text := "$DISPL".toList

/-- the keyword of a line and the stream after it, src/iogeneric/GenericDispls.cpp:405-411 -/
def keyOf (line : Text) : Text × In :=
  let q := (⟨trim line, false, false⟩ : In).word
  (trim (q.1.getD []), q.2)

/-- one line of a file, src/iogeneric/GenericDispls.cpp:405-420: the variable `label`, unset before the first line, the labels and the
points so far -/
def rowStep (F : Fmt D) (key : Text) (s : Option Int × List Int × List (P3 D)) (line : Text) : Option (Option Int × List Int × List (P3 D)) :=
  let k := keyOf line
  if k.1 = key then
    let l := k.2.long
    match l.1.or s.1 with
    | none => none
    | some v => some (some v, s.2.1 ++ [v], s.2.2 ++ [three F l.2])
  else some s

/-- the loop over the lines, src/iogeneric/GenericDispls.cpp:397-422 -/
def readRows (F : Fmt D) (key : Text) (t : Text) : Option (List Int × List (P3 D)) :=
  ((linesOf t).foldlM (rowStep F key) (none, [], [])).map (fun s => s.2)

/-- `read`, src/iogeneric/GenericDispls.cpp:383-433 -/
def Displs.load (F : Fmt D) (fs : Files) (b : Displs D) : Res (Displs D) :=
  match fs b.path with
  | none => .thrown
  | some t =>
    match readRows F displKey t with
    | none => .undefined
    | some r => .done { b with displ := r.2, labels := r.1, n := r.2.length }

/-- the labels that are missing, src/iogeneric/GenericDispls.cpp:469-474 -/
def moreLabels : Nat → Int → List Int → List Int
  | 0, _, l => l
  | k + 1, m, l => moreLabels k (m + 1) (l ++ [m + 1])

/-- the labels fitted to the displacements, src/iogeneric/GenericDispls.cpp:459-474 -/
def fitLabels (l : List Int) (n : Nat) : List Int := moreLabels (n - l.length) (l.foldl max 0) (l.take n)

/-- `keyT1+"x"+std::to_string(label)+keyT2`, src/iogeneric/GenericDispls.cpp:492-494 -/
def holder (c : Char) (l : Int) : Text := '{' :: c :: (intText l ++ ['}'])

/-- one line, src/iogeneric/GenericDispls.cpp:490-501 -/
def rowText (F : Fmt D) (key : Text) (template : Bool) (l : Int) (p : P3 D) : Text :=
  key ++ '\t' :: (intText l ++ '\t' ::
    (if template then holder 'x' l ++ '\t' :: (holder 'y' l ++ '\t' :: holder 'z' l)
     else F.put p.1 ++ '\t' :: (F.put p.2.1 ++ '\t' :: F.put p.2.2)))

/-- `write`, src/iogeneric/GenericDispls.cpp:451-512; the name with "TEMPLATE_" in front is made but not used -/
def Displs.save (F : Fmt D) (fs : Files) (b : Displs D) : Displs D × Files :=
  let b := { b with labels := fitLabels b.labels b.displ.length }
  let t := (b.labels.zip b.displ).flatMap (fun x => rowText F displKey b.template x.1 x.2 ++ ['\n'])
  (b, fs.put b.path t)

/-- `execute`, src/iogeneric/GenericDispls.cpp:268-276 -/
def Displs.execute (F : Fmt D) (fs : Files) (b : Displs D) : Res (Displs D × Files) :=
  if b.read then
    match b.load F fs with
    | .done b => .done (b, fs)
    | .thrown => .thrown
    | .undefined => .undefined
  else .done (b.save F fs)

/-! ### XML -/

/-- `bool value = true; if(!input.empty()) { std::stringstream ss(trim(input)); ss>>value; }`, src/iogeneric/GenericDispls.cpp:291-296 -/
def modeOption (t : Text) : Bool := if t = [] then true else readBool (trim t)

/-- a text read as a truth value, src/iogeneric/GenericDispls.cpp:343-349 -/
def flagOption (t : Text) : Bool := if trim t = [] then false else readBool (trim t)

/-- `absorbSectionXML`, src/iogeneric/GenericDispls.cpp:282-353 (without the base class) -/
def Displs.absorb (x : Section) (b : Displs D) : Res (Displs D) :=
  if (match x "IOmode" with | none => b.read | some t => modeOption t) ≠ b.read then .thrown
  else
    let b := if b.read then
        let b := match x "ReadDir" with | none => b | some t => b.setReadDir (trim t)
        match x "ReadFilename" with | none => b | some t => b.setReadFile (trim t)
      else
        let b := match x "WriteDir" with | none => b | some t => b.setWriteDir (trim t)
        match x "WriteFilename" with | none => b | some t => b.setWriteFile (trim t)
    let b := match x "NDispl" with | none => b | some t => b.setN (if trim t = [] then 0 else readSigned (trim t))
    .done (match x "Template" with | none => b | some t => b.setTemplate (flagOption t))

/-- `flushSectionXML`, src/iogeneric/GenericDispls.cpp:360-378 (without the base class) -/
def Displs.flush (b : Displs D) (x : Section) : Section :=
  let x := x.set "IOmode" (toText b.read.toNat)
  let x := if b.read then (x.set "ReadDir" b.dir).set "ReadFilename" b.file else (x.set "WriteDir" b.dir).set "WriteFilename" b.file
  (x.set "NDispl" (intText b.n)).set "Template" (toText b.template.toNat)

/-- constructor from a section, src/iogeneric/GenericDispls.cpp:47-72; `atoi` as `>> int` -/
def Displs.fromXml (x : Section) : Res (Displs D) :=
  let b : Displs D := { read := readSigned (trim ((x "IOmode").getD ['1'])) != 0 }
  if trim ((x "ClassName").getD "ClassNONE".toList) = "mimmo.GenericDispls".toList then b.absorb x else .done b

/-- copy constructor, src/iogeneric/GenericDispls.cpp:81-89 -/
def Displs.copy (b : Displs D) : Displs D :=
  { read := b.read, dir := b.dir, file := b.file, n := b.n, displ := b.displ, labels := b.labels, template := b.template }

end Verif.Io
