import Verif.Io.Cloud
/-
Model of src/iogeneric/GenericInput.{cpp,tpp} and src/iogeneric/GenericOutput.{cpp,tpp}: blocks that read values from files and write them.

Simplified: files are texts under paths and can always be written; one process (src/iogeneric/GenericInput.tpp:358-394, 517-554 and
src/iogeneric/GenericOutput.tpp:277-329 are not modelled); a block is used with one type of values (the `static_cast` in
src/iogeneric/GenericInput.tpp:350 to another type is not modelled).  The bad bit of a stream is not modelled.  The formats that bitpit writes and
reads outside of the CSV mode are parameters; negative ids, which the container of bitpit does not accept, are counted with undefined behaviour.
-/
namespace Verif.Csv
open Verif.Xml Verif.Create Verif.Io Verif.Field
open List hiding get get_of_mem

variable {D α : Type}

/-- a type of numbers or words: `<<` and `>>` -/
structure Scal (D : Type) where
  put : D → Text
  get : In → Option D × In

def realS (F : Fmt D) : Scal D := ⟨F.put, In.num F⟩
def intS : Scal Int := ⟨intText, In.whole INT_MIN INT_MAX⟩
def longS : Scal Int := ⟨intText, In.long⟩
def wordS : Scal Text := ⟨id, In.word⟩

/-- `>> bool`: true with the fail bit for a number that is neither 0 nor 1 -/
def boolS : Scal Bool :=
  ⟨fun b => if b then ['1'] else ['0'],
   fun s => let q := s.long; (q.1.map (fun v => decide (v ≠ 0)), { q.2 with fail := q.2.fail || (q.1.elim false fun v => decide (v ≠ 0 ∧ v ≠ 1)) })⟩

/-- `ifstreamcsv` of a number, src/iogeneric/GenericInput.tpp:36-46; `x`: the variable, `none` when it is not set -/
def readMid (S : Scal D) (x : Option D) (s : In) : Option D × In :=
  if s.good then
    let a := S.get s
    if a.2.fail then (x, a.2)
    else
      let c := a.2.char
      if c.2.fail then (x, c.2) else (a.1, c.2)
  else (x, s)

/-- `ifstreamcsvend` of a number, src/iogeneric/GenericInput.tpp:54-62 -/
def readLast (S : Scal D) (x : Option D) (s : In) : Option D × In :=
  if s.good then
    let a := S.get s
    if a.2.fail then (x, a.2) else (a.1, a.2)
  else (x, s)

/-- `ifstreamcsv` and `ifstreamcsvend` of an array, src/iogeneric/GenericInput.tpp:98-125, from component i on; `dummy`: the local variable -/
def readArr (S : Scal D) : Option D → List (Option D) → In → List (Option D) × In
  | _, [], s => ([], s)
  | dummy, [x], s =>
    let r := readLast S dummy s
    ([if r.2.fail then x else r.1], r.2)
  | dummy, x :: xs, s =>
    if s.good then
      let r := readMid S dummy s
      let q := readArr S r.1 xs r.2
      ((if r.2.fail then x else r.1) :: q.1, q.2)
    else
      let r := readLast S dummy s
      ((if r.2.fail then x else r.1) :: xs, r.2)

/-- `ofstreamcsv` of a vector or an array, src/iogeneric/GenericOutput.tpp:62-75, 96-106: the last element is written in another way -/
def putList (mid last : α → Text) : List α → Text
  | [] => []
  | [x] => last x
  | x :: xs => mid x ++ putList mid last xs

/-- a type of elements: how a variable of the type (`Var`, `init` before anything is read, `value` when it is set) is read and written before
the end of a row and at the end of it -/
structure Elem (α : Type) where
  Var : Type
  init : Var
  value : Var → Option α
  readMid : Var → In → Var × In
  readLast : Var → In → Var × In
  putMid : α → Text
  putLast : α → Text

/-- numbers; writing: src/iogeneric/GenericOutput.tpp:35-54 -/
def scalE (S : Scal D) : Elem D where
  Var := Option D
  init := none
  value := id
  readMid := Csv.readMid S
  readLast := Csv.readLast S
  putMid x := S.put x ++ [',']
  putLast x := S.put x ++ ['\n']

/-- all components of an array are set -/
def allSet : List (Option D) → Option (List D)
  | [] => some []
  | none :: _ => none
  | some x :: xs => (allSet xs).map (x :: ·)

/-- arrays of `n` numbers; writing: src/iogeneric/GenericOutput.tpp:95-120 -/
def arrE (S : Scal D) (zero : D) (n : Nat) : Elem (List D) where
  Var := List (Option D)
  init := replicate n none
  value := allSet
  readMid := readArr S (some zero)
  readLast := readArr S (some zero)
  putMid := putList (fun x => S.put x ++ [',']) (fun x => S.put x ++ ['\n'])
  putLast := putList (fun x => S.put x ++ [',']) (fun x => S.put x ++ ['\n'])

/-- `ifstreamcsv` of a vector, src/iogeneric/GenericInput.tpp:70-79; an element that is not set, and a loop that does not advance and so
does not end, are counted with undefined behaviour -/
def readVec (E : Elem α) (v : E.Var) (acc : List α) (s : In) : Res (List α × In) :=
  if s.good then
    let r := E.readMid v s
    let acc' : Option (List α) := if r.2.fail then some acc else (E.value r.1).map fun x => acc ++ [x]
    match acc' with
    | none => .undefined
    | some acc' =>
      if r.2.rest.length < s.rest.length then readVec E r.1 acc' r.2
      else if r.2.good then .undefined else .done (acc', r.2)
  else .done (acc, s)
termination_by s.rest.length

/-- the value of a variable -/
def ofVar : Option α → Res α
  | none => .undefined
  | some x => .done x

/-- what is read from a whole file in CSV mode: a number or an array, a vector -/
def csvOne (E : Elem α) (t : Text) : Res α := ofVar (E.value (E.readMid E.init ⟨t, false, false⟩).1)
def csvVec (E : Elem α) (t : Text) : Res (List α) := (readVec E E.init [] ⟨t, false, false⟩).bind fun r => .done r.1

/-- what is written in CSV mode -/
def putVec (E : Elem α) (l : List α) : Text := putList E.putMid E.putLast l

/-- a number outside of CSV mode, src/iogeneric/GenericInput.tpp:338, src/iogeneric/GenericOutput.tpp:184 -/
def plainOne (S : Scal D) (t : Text) : Res D := ofVar (S.get ⟨t, false, false⟩).1

/-! ### Fields -/

/-- name, location and values of a `MimmoPiercedVector` (the location as number, src/core/MimmoPiercedVector.hpp:39-44) -/
structure Mpv (α : Type) where
  name : Text := "data".toList
  loc : Int := 0
  data : Data α := []
deriving DecidableEq

/-- `intIsValidLocation`, src/core/MimmoPiercedVector.tpp:516-520 -/
def validLoc (v : Int) : Bool := !(decide (v < 0) && decide (v > 3))

/-- the loop over the rows of a field, src/iogeneric/GenericInput.tpp:154-158, 191-196 -/
def readRows (E : Elem α) : Nat → Option Int → E.Var → Data α → In → Res (Data α × In)
  | 0, _, _, d, s => .done (d, s)
  | n + 1, id, v, d, s =>
    let i := readMid longS id s
    let e := E.readLast v i.2
    match i.1, E.value e.1 with
    | some k, some x =>
      if k < 0 then .undefined
      else match ins d k.toNat x with
        | none => .thrown
        | some d => readRows E n i.1 e.1 d e.2
    | _, _ => .undefined

/-- `ifstreamcsv` of a field, src/iogeneric/GenericInput.tpp:133-161, 166-200 (`arr`: of arrays); a negative number of rows is refused when the
container is reserved; no other number is too large -/
def readMpv (E : Elem α) (arr : Bool) (m : Mpv α) (s : In) : Res (Mpv α) :=
  let w := readLast wordS (some []) s
  let m := if w.2.fail then m else { m with name := w.1.getD [] }
  let l := readLast intS none w.2
  let next := fun m : Mpv α =>
    let n := readLast longS none l.2
    match (if n.2.fail then some 0 else n.1) with
    | none => .undefined
    | some k =>
      let k := if arr && decide (k = LONG_MAX) then 0 else k
      if k < 0 then .thrown
      else (readRows E k.toNat none E.init m.data n.2).bind fun r => .done { m with data := r.1 }
  if l.2.fail then next m
  else match l.1 with
    | none => .undefined
    | some v => next (if validLoc v then { m with loc := v } else m)

/-- what is read from a whole file -/
def csvMpv (E : Elem α) (arr : Bool) (t : Text) : Res (Mpv α) := readMpv E arr {} ⟨t, false, false⟩

/-- `ofstreamcsv` of a field, src/iogeneric/GenericOutput.tpp:128-146 -/
def putMpv (E : Elem α) (m : Mpv α) : Text :=
  if m.data.length = 0 then []
  else m.name ++ '\n' :: (intText m.loc ++ '\n' :: (intText m.data.length ++ '\n' ::
    m.data.flatMap (fun e => intText e.1 ++ ',' :: E.putLast e.2)))

/-- bitpit's `flushBINARY` and `absorbBINARY` of a type; `none`: the file is too short -/
structure Codec (α : Type) where
  put : α → Text
  get : Text → Option (α × Text)

/-- the types that are written to a binary file: `std::size_t`, `char`, `int`, `long` and that of the values -/
structure Codecs (α : Type) where
  size : Codec Nat
  char : Codec Char
  int : Codec Int
  long : Codec Int
  elem : Codec α

/-- src/iogeneric/GenericOutput.tpp:245-257 -/
def putBin (C : Codecs α) (m : Mpv α) : Text :=
  C.size.put m.name.length ++ (m.name.flatMap C.char.put ++ (C.int.put m.loc ++ (C.long.put m.data.length ++
    m.data.flatMap (fun e => C.long.put e.1 ++ C.elem.put e.2))))

/-- `setDataLocation(int)`, src/core/MimmoPiercedVector.tpp:335-339 -/
def clampLoc (v : Int) : Int := let v := max 0 v; if v > 3 then 0 else v

/-- characters of the name, src/iogeneric/GenericInput.tpp:463-465 -/
def getChars (C : Codec Char) : Nat → Text → Option (List Char × Text)
  | 0, t => some ([], t)
  | n + 1, t => (C.get t).bind fun c => (getChars C n c.2).map fun r => (c.1 :: r.1, r.2)

/-- rows of a binary file, src/iogeneric/GenericInput.tpp:470-474 -/
def getRows (C : Codecs α) : Nat → Data α → Text → Res (Data α)
  | 0, d, _ => .done d
  | n + 1, d, t =>
    match C.long.get t with
    | none => .undefined
    | some (k, t) =>
      match C.elem.get t with
      | none => .undefined
      | some (x, t) =>
        if k < 0 then .undefined
        else match ins d k.toNat x with
          | none => .thrown
          | some d => getRows C n d t

/-- a binary file, src/iogeneric/GenericInput.tpp:459-477; line 466 makes the name from itself, that is from nothing -/
def getBin (C : Codecs α) (t : Text) : Res (Mpv α) :=
  match C.size.get t with
  | none => .undefined
  | some (n, t) =>
    match getChars C.char n t with
    | none => .undefined
    | some (_, t) =>
      let name : Text := []
      match C.int.get t with
      | none => .undefined
      | some (l, t) =>
        match C.long.get t with
        | none => .undefined
        | some (k, t) =>
          if k < 0 then .thrown
          else (getRows C k.toNat [] t).bind fun d => .done ⟨name, clampLoc l, d⟩

/-! ### Blocks -/

/-- data members of `GenericInput`, src/iogeneric/GenericInput.hpp:113-119, and their values after construction, src/iogeneric/GenericInput.cpp:36-42 -/
structure Input (τ : Type) where
  fromFile : Bool := false
  csv : Bool := false
  dir : Text := "./".toList
  file : Text := []
  input : Option τ := none
  result : Option τ := none

variable {τ : Type}

/-- `setInput`, src/iogeneric/GenericInput.tpp:207-224; the pointer is used without a test -/
def Input.setInput (b : Input τ) (x : τ) : Input τ := { b with input := some x, result := some x }
def Input.setResult (b : Input τ) (x : τ) : Input τ := { b with result := some x }
def Input.clearInput (b : Input τ) : Input τ := { b with input := none }
def Input.clearResult (b : Input τ) : Input τ := { b with result := none }

/-- copy constructor, src/iogeneric/GenericInput.cpp:88-93 -/
def Input.copy (b : Input τ) : Input τ := { fromFile := b.fromFile, csv := b.csv, dir := b.dir, file := b.file }

/-- `getResult`, src/iogeneric/GenericInput.tpp:321-351; `rd`: what is read from a file, by mode -/
def Input.getResult (rd : Bool → Text → Res τ) (fs : Files) (b : Input τ) : Res (τ × Input τ) :=
  if b.fromFile then
    match fs (b.dir ++ '/' :: b.file) with
    | none => .thrown
    | some t => (rd b.csv t).bind fun x => .done (x, { b with result := some x })
  else match b.result with
    | none => .undefined
    | some x => .done (x, b)

/-- `absorbSectionXML`, src/iogeneric/GenericInput.cpp:198-241 (without the base class) -/
def Input.absorb (x : Section) (b : Input τ) : Input τ :=
  let b := match x "ReadFromFile" with | none => b | some t => { b with fromFile := flagOption t }
  let b := match x "CSV" with | none => b | some t => { b with csv := flagOption t }
  let b := match x "Filename" with | none => b | some t => if b.fromFile then { b with file := trim t } else b
  match x "ReadDir" with | none => b | some t => if b.fromFile then { b with dir := trim t } else b

/-- `flushSectionXML`, src/iogeneric/GenericInput.cpp:248-258 (without the base class) -/
def Input.flush (b : Input τ) (x : Section) : Section :=
  (((x.set "ReadFromFile" (toText b.fromFile.toNat)).set "CSV" (toText b.csv.toNat)).set "ReadDir" b.dir).set "Filename" b.file

/-- constructor from a section, src/iogeneric/GenericInput.cpp:48-66 -/
def Input.fromXml (x : Section) : Input τ :=
  let b : Input τ := { file := "input.txt".toList }
  if trim ((x "ClassName").getD "ClassNONE".toList) = "mimmo.GenericInput".toList then b.absorb x else b

/-- data members of `GenericOutput`, src/iogeneric/GenericOutput.hpp:111-116, and their values, src/iogeneric/GenericOutput.cpp:34-40 -/
structure Output (τ : Type) where
  dir : Text := "./".toList
  file : Text := "output.txt".toList
  csv : Bool := false
  input : Option τ := none

/-- `setInput`, src/iogeneric/GenericOutput.tpp:168-199; `wr`: what is written, by mode -/
def Output.setInput (wr : Bool → τ → Text) (fs : Files) (b : Output τ) (x : τ) : Output τ × Files :=
  ({ b with input := some x }, fs.put (b.dir ++ '/' :: b.file) (wr b.csv x))

/-- copy constructor, src/iogeneric/GenericOutput.cpp:72-76 -/
def Output.copy (b : Output τ) : Output τ := { dir := b.dir, file := b.file, csv := b.csv }

/-- `absorbSectionXML`, src/iogeneric/GenericOutput.cpp:173-204 (without the base class) -/
def Output.absorb (x : Section) (b : Output τ) : Output τ :=
  let b := match x "Filename" with | none => b | some t => { b with file := trim t }
  let b := match x "WriteDir" with | none => b | some t => { b with dir := trim t }
  match x "CSV" with | none => b | some t => { b with csv := flagOption t }

/-- `flushSectionXML`, src/iogeneric/GenericOutput.cpp:211-220 (without the base class) -/
def Output.flush (b : Output τ) (x : Section) : Section :=
  ((x.set "Filename" b.file).set "WriteDir" b.dir).set "CSV" (toText b.csv.toNat)

/-- constructor from a section, src/iogeneric/GenericOutput.cpp:46-62 -/
def Output.fromXml (x : Section) : Output τ :=
  if trim ((x "ClassName").getD "ClassNONE".toList) = "mimmo.GenericOutput".toList then ({} : Output τ).absorb x else {}

/-- data members of `GenericInputMPVData`, src/iogeneric/GenericInput.hpp:248-254, src/iogeneric/GenericInput.cpp:266-272; the geometry of the
base class -/
structure MInput (α : Type) where
  csv : Bool := false
  binary : Bool := false
  dir : Text := "./".toList
  file : Text := []
  geo : Option Geo := none
  result : Option (Mpv α × Option Geo) := none

/-- the location as the type of src/core/MimmoPiercedVector.hpp:39-44; others fall into the default case -/
def locOf (v : Int) : Loc := if v = 1 then .point else if v = 2 then .cell else if v = 3 then .interface else .undefined

/-- `getResult`, src/iogeneric/GenericInput.tpp:404-408, 436-513; `asc`: bitpit's format for texts.  With a geometry the field is restricted to
its ids (the copy has the default name, Verif/Field) -/
def MInput.getResult (E : Elem α) (arr : Bool) (C : Codecs α) (asc : Text → Res (Mpv α)) (fs : Files) (b : MInput α) : Res (MInput α) :=
  let b := if b.csv then { b with binary := false } else b
  match fs (b.dir ++ '/' :: b.file) with
  | none => .thrown
  | some t =>
    (if b.binary then getBin C t else if b.csv then csvMpv E arr t else asc t).bind fun m =>
    match b.geo with
    | none => .done { b with result := some (m, none) }
    | some g =>
      match resizeToCoherent (⟨some g, [], locOf m.loc, m.data⟩ : Field Geo α) with
      | none => .thrown
      | some f => .done { b with result := some (⟨"data".toList, m.loc, f.data⟩, some g) }

/-- data members of `GenericOutputMPVData`, src/iogeneric/GenericOutput.hpp:205-212, src/iogeneric/GenericOutput.cpp:230-237 -/
structure MOutput (α : Type) where
  dir : Text := "./".toList
  file : Text := "output.txt".toList
  csv : Bool := false
  binary : Bool := false
  input : Option (Mpv α) := none

/-- `setInput`, src/iogeneric/GenericOutput.tpp:226-275 -/
def MOutput.setInput (E : Elem α) (C : Codecs α) (asc : Mpv α → Text) (fs : Files) (b : MOutput α) (m : Mpv α) : MOutput α × Files :=
  let b := { b with input := some m }
  let b := if b.csv then { b with binary := false } else b
  (b, fs.put (b.dir ++ '/' :: b.file) (if b.binary then putBin C m else if b.csv then putMpv E m else asc m))

/-- copy constructors, src/iogeneric/GenericInput.cpp:318-323, src/iogeneric/GenericOutput.cpp:270-275; the geometry is that of the base class -/
def MInput.copy (b : MInput α) : MInput α := { csv := b.csv, dir := b.dir, file := b.file, binary := b.binary, geo := b.geo }
def MOutput.copy (b : MOutput α) : MOutput α := { dir := b.dir, file := b.file, csv := b.csv, binary := b.binary }

/-- `absorbSectionXML`, src/iogeneric/GenericInput.cpp:414-457 (without the base class) -/
def MInput.absorb (x : Section) (b : MInput α) : MInput α :=
  let b := match x "CSV" with | none => b | some t => { b with csv := flagOption t }
  let b := match x "Filename" with | none => b | some t => { b with file := trim t }
  let b := match x "ReadDir" with | none => b | some t => { b with dir := trim t }
  match x "Binary" with | none => b | some t => { b with binary := flagOption t }

/-- `flushSectionXML`, src/iogeneric/GenericInput.cpp:464-475 (without the base class) -/
def MInput.flush (b : MInput α) (x : Section) : Section :=
  (((x.set "CSV" (toText b.csv.toNat)).set "ReadDir" b.dir).set "Filename" b.file).set "Binary" (toText b.binary.toNat)

/-- constructor from a section, src/iogeneric/GenericInput.cpp:278-296 -/
def MInput.fromXml (x : Section) : MInput α :=
  let b : MInput α := { file := "input.txt".toList }
  if trim ((x "ClassName").getD "ClassNONE".toList) = "mimmo.GenericInputMPVData".toList then b.absorb x else b

/-- `absorbSectionXML`, src/iogeneric/GenericOutput.cpp:374-415 (without the base class) -/
def MOutput.absorb (x : Section) (b : MOutput α) : MOutput α :=
  let b := match x "Filename" with | none => b | some t => { b with file := trim t }
  let b := match x "WriteDir" with | none => b | some t => { b with dir := trim t }
  let b := match x "CSV" with | none => b | some t => { b with csv := flagOption t }
  match x "Binary" with | none => b | some t => { b with binary := flagOption t }

/-- `flushSectionXML`, src/iogeneric/GenericOutput.cpp:422-432 (without the base class) -/
def MOutput.flush (b : MOutput α) (x : Section) : Section :=
  (((x.set "Filename" b.file).set "WriteDir" b.dir).set "CSV" (toText b.csv.toNat)).set "Binary" (toText b.binary.toNat)

/-- constructor from a section, src/iogeneric/GenericOutput.cpp:243-260 -/
def MOutput.fromXml (x : Section) : MOutput α :=
  if trim ((x "ClassName").getD "ClassNONE".toList) = "mimmo.GenericOutputMPVData".toList then ({} : MOutput α).absorb x else {}

end Verif.Csv
