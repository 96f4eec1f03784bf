import Verif.BinStream.Props
/-
Model of `mimmo::MimmoPiercedVector` (src/core/MimmoPiercedVector.tpp): values attached to the vertices,
cells or interfaces of a geometry.

The base container `bitpit::PiercedVector` is external.  It is modelled as the list of its (id, value)
pairs in iteration order; inserting an id that is already present is refused by an exception (`none`);
inserting into a container without holes appends (this only matters for iteration order).
Ids are `long`; the container accepts no negative id, so they are natural numbers here.
-/
namespace Verif.Field
open Verif.BinStream

/-- `MPVLocation`, src/core/MimmoPiercedVector.hpp:39-44 -/
inductive Loc where
  | undefined | point | cell | interface
deriving DecidableEq, Repr

/-- ids of the entities of a geometry, in the iteration order of its containers -/
structure Geo where
  vertices : List Nat
  cells : List Nat
  interfaces : List Nat
deriving DecidableEq, Repr

/-- content of the base container -/
abbrev Data (α : Type) := List (Nat × α)

section data
variable {α : Type}

/-- `exists(id)` of the base container -/
def has (d : Data α) (id : Nat) : Bool := d.any (fun e => e.1 == id)

/-- `at(id)`, `find(id)` of the base container -/
def get (d : Data α) (id : Nat) : Option α := (d.find? (fun e => e.1 == id)).map Prod.snd

/-- `insert(id, value)` of the base container -/
def ins (d : Data α) (id : Nat) (v : α) : Option (Data α) := if has d id then none else some (d ++ [(id, v)])

/-- `at(id) = value` for an existing id -/
def setAt (d : Data α) (id : Nat) (v : α) : Data α := d.map (fun e => if e.1 = id then (id, v) else e)

end data

/-- data members, src/core/MimmoPiercedVector.hpp (geometry, name, location, base container) -/
structure Field (γ α : Type) where
  geo : Option γ
  name : List Byte
  loc : Loc
  data : Data α
deriving DecidableEq

/-- default name "data" -/
def defaultName : List Byte := [100, 97, 116, 97]

variable {α : Type}

/-- `clear`, MimmoPiercedVector.tpp:155-162 -/
def clear {γ : Type} (_ : Field γ α) : Field γ α := ⟨none, defaultName, .undefined, []⟩

/-- constructor, MimmoPiercedVector.tpp:90-96 -/
def make {γ : Type} (g : Option γ) (l : Loc) : Field γ α := ⟨g, defaultName, l, []⟩

/-- `getGeometryIds`, MimmoPiercedVector.tpp:528-546 (unordered) -/
def geometryIds (f : Field Geo α) : List Nat :=
  match f.geo with
  | none => []
  | some g =>
    match f.loc with
    | .point => g.vertices
    | .cell => g.cells
    | .interface => g.interfaces
    | .undefined => []

/-- `checkDataSizeCoherence`, MimmoPiercedVector.tpp:376-400 -/
def sizeCoherent (f : Field Geo α) : Bool :=
  match f.geo with
  | none => false
  | some g =>
    match f.loc with
    | .cell => f.data.length == g.cells.length
    | .interface => f.data.length == g.interfaces.length
    | .point => f.data.length == g.vertices.length
    | .undefined => false

/-- `checkDataIdsCoherence`, MimmoPiercedVector.tpp:410-448 -/
def idsCoherent (f : Field Geo α) : Bool :=
  match f.geo with
  | none => false
  | some g =>
    if f.data.isEmpty then true
    else
      match f.loc with
      | .cell => f.data.all (fun e => g.cells.contains e.1)
      | .interface => f.data.all (fun e => g.interfaces.contains e.1)
      | .point => f.data.all (fun e => g.vertices.contains e.1)
      | .undefined => false

/-- the loop of `completeMissingData`, MimmoPiercedVector.tpp:574-576 -/
def fill (def_ : α) : List Nat → Data α → Option (Data α)
  | [], d => some d
  | id :: ids, d => if has d id then fill def_ ids d else (ins d id def_).bind (fill def_ ids)

/-- `completeMissingData`, MimmoPiercedVector.tpp:565-579 -/
def completeMissingData (f : Field Geo α) (def_ : α) : Option (Field Geo α × Bool) :=
  if !idsCoherent f then some (f, false)
  else if !sizeCoherent f then
    (fill def_ (geometryIds f) f.data).map (fun d => ({ f with data := d }, true))
  else some (f, true)

/-- the loops that copy selected entries into a new container, MimmoPiercedVector.tpp:872-876, 470-475 … -/
def copyIf (keep : Nat → Bool) : Data α → Data α → Option (Data α)
  | [], acc => some acc
  | e :: d, acc => if keep e.1 then (ins acc e.1 e.2).bind (copyIf keep d) else copyIf keep d acc

/-- the loop over the list of ids to keep, MimmoPiercedVector.tpp:882-886 -/
def copyIds (d : Data α) : List Nat → Data α → Option (Data α)
  | [], acc => some acc
  | id :: ids, acc =>
    match get d id with
    | none => copyIds d ids acc
    | some v => (ins acc id v).bind (copyIds d ids)

/-- `squeezeOutExcept`, MimmoPiercedVector.tpp:862-889 (list) and :897-923 (set: a list without
repetitions) -/
def squeezeOutExcept (f : Field Geo α) (list : List Nat) (keepOrder : Bool) : Option (Field Geo α) :=
  if keepOrder then
    (copyIf (fun id => list.contains id) f.data []).map (fun d => ⟨f.geo, f.name, f.loc, d⟩)
  else
    (copyIds f.data list []).map (fun d => ⟨f.geo, f.name, f.loc, d⟩)

/-- `resizeToCoherentDataIds`, MimmoPiercedVector.tpp:456-509: the result is made by the constructor and its
name is never set -/
def resizeToCoherent (f : Field Geo α) : Option (Field Geo α) :=
  match f.geo with
  | none => some (make f.geo f.loc)
  | some g =>
    let copy := fun l : List Nat => (copyIf (fun id => l.contains id) f.data []).map
      (fun d => { (make f.geo f.loc : Field Geo α) with data := d })
    match f.loc with
    | .cell => copy g.cells
    | .interface => copy g.interfaces
    | .point => copy g.vertices
    | .undefined => some (make f.geo f.loc)

/-- `getDataFrom`, MimmoPiercedVector.tpp:838-854 -/
def getDataFrom (strict : Bool) : Data α → Data α → Nat → Option (Data α × Nat)
  | [], d, k => some (d, k)
  | e :: o, d, k =>
    if has d e.1 then getDataFrom strict o (setAt d e.1 e.2) (k + 1)
    else if strict then getDataFrom strict o d k
    else (ins d e.1 e.2).bind (fun d' => getDataFrom strict o d' (k + 1))

/-- insertion of a constant on a list of ids -/
def insertAll (v : α) : List Nat → Data α → Option (Data α)
  | [], d => some d
  | id :: ids, d => (ins d id v).bind (insertAll v ids)

/-- `initialize`, MimmoPiercedVector.tpp:591-636 (the warning about missing interfaces is not modelled) -/
def initField (f : Field Geo α) (g : Geo) (l : Loc) (v : α) : Option (Field Geo α) :=
  match l with
  | .undefined => some f
  | .point => (insertAll v g.vertices []).map (fun d => ⟨some g, defaultName, l, d⟩)
  | .cell => (insertAll v g.cells []).map (fun d => ⟨some g, defaultName, l, d⟩)
  | .interface => (insertAll v g.interfaces []).map (fun d => ⟨some g, defaultName, l, d⟩)

/-- `getDataAsVector`, MimmoPiercedVector.tpp:212-226 -/
def dataAsVector (f : Field Geo α) : List α :=
  match f.geo with
  | none => []
  | some _ => (geometryIds f).filterMap (get f.data)

/-- `setData`, MimmoPiercedVector.tpp:346-356 -/
def setData (f : Field Geo α) (vs : List α) : Option (Field Geo α) :=
  let rec go : List α → Nat → Data α → Option (Data α)
    | [], _, d => some d
    | v :: vs, id, d => (ins d id v).bind (go vs (id + 1))
  (go vs 0 []).map (fun d => { f with data := d })

/-- code of a location -/
def Loc.code : Loc → Nat
  | .undefined => 0 | .point => 1 | .cell => 2 | .interface => 3

/-- `static_cast<MPVLocation>` of a valid code -/
def Loc.ofCode : Nat → Loc
  | 1 => .point | 2 => .cell | 3 => .interface | _ => .undefined

/-- `setDataLocation(int)`, MimmoPiercedVector.tpp:333-339 -/
def setDataLocation (loc : Int) : Loc :=
  let l := max 0 loc
  let l := if l > 3 then 0 else l
  Loc.ofCode l.toNat

/-- `intIsValidLocation`, MimmoPiercedVector.tpp:516-520 -/
def intIsValidLocation (v : Int) : Bool := !(decide (v < 0) && decide (v > 3))

/-! ### Streams -/

/-- what goes on the wire for the geometry: a `MimmoSharedPointer`, i.e. two raw pointers
(src/core/MimmoSharedPointer.tpp:32-54) -/
abbrev GeoPtr := List Byte × List Byte

/-- `operator<<`, MimmoPiercedVector.tpp:65-80; `t` is the type of the values, `noGeo` the bytes of the null
pointers -/
def fieldWrite (t : Ty) (noGeo : GeoPtr) (f : Field GeoPtr t.D) : List Byte :=
  (f.geo.getD noGeo).1 ++ (f.geo.getD noGeo).2 ++ (write .str f.name ++ (le 4 f.loc.code ++
    (le sizeBytes f.data.length ++ f.data.flatMap (fun e => le 8 e.1 ++ write t e.2))))

/-- the reading loop, MimmoPiercedVector.tpp:49-55 (one value variable for the whole loop) -/
def readData (t : Ty) : Nat → t.D → Data t.D → List Byte → Option (Data t.D × List Byte)
  | 0, _, d, bs => some (d, bs)
  | n + 1, val, d, bs =>
    match readRaw 8 bs with
    | none => none
    | some (idb, bs') =>
      match read t val bs' with
      | none => none
      | some (v, bs'') => (ins d (unle idb) v).bind (fun d' => readData t n v d' bs'')

/-- `operator>>`, MimmoPiercedVector.tpp:31-57, reading into an existing field -/
def fieldRead (t : Ty) (noGeo : GeoPtr) (target : Field GeoPtr t.D) (bs : List Byte) :
    Option (Field GeoPtr t.D × List Byte) :=
  let f0 := clear target
  match readRaw 8 bs with
  | none => none
  | some (p, bs) =>
    match readRaw 8 bs with
    | none => none
    | some (q, bs) =>
      match read .str ([] : List Byte) bs with
      | none => none
      | some (name, bs) =>
        match readRaw 4 bs with
        | none => none
        | some (l, bs) =>
          match readSize bs with
          | none => none
          | some (n, bs) =>
            (readData t n t.fresh f0.data bs).map (fun r =>
              (⟨if (p, q) = noGeo then none else some (p, q), name, Loc.ofCode (unle l), r.1⟩, r.2))

end Verif.Field
