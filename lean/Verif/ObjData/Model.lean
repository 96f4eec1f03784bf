import Mathlib.Analysis.InnerProductSpace.Basic
/-!
# The data attached to an OBJ mesh and their manipulation

Transcription of `ManipulateWFOBJData`, `src/iogeneric/IOWavefrontOBJ.cpp` 310-1127.  Names are lists of
characters.  A field of strings on the cells is a function of the id of the cell; the fields have a value on
every cell of the geometry (`completeMissingData`, 815) and the ids which are not cells are dropped
(`squeezeOutExcept`, 824).  The update of the object of the normals (erasing and inserting cells, cleaning,
880-980) is not modelled.
-/
namespace Verif.ObjData

abbrev Name := List Char

/-- `OverlapAnnotationMode`, IOWavefrontOBJ.hpp. -/
inductive Mode where
  | hard | soft | all | allNoBlanks
  deriving DecidableEq, Repr

/-- A list of annotated cells: the name of the field and the ids of its elements. -/
structure Note where
  name : Name
  ids : List Int
  deriving DecidableEq, Repr

/-- The `switch` on the mode, IOWavefrontOBJ.cpp 829-857. -/
def mark (m : Mode) (old name : Name) : Name :=
  match m with
  | .soft => if old = [] then name else old
  | .all => if old = [] then name else old ++ ' ' :: name
  | .allNoBlanks => if old = [] then name else if name <:+: old then old else old ++ name
  | .hard => name

/-- The annotations of one list, IOWavefrontOBJ.cpp 822-858. -/
def annotate1 (m : Mode) (cells : List Int) (g : Int → Name) (a : Note) : Int → Name :=
  (a.ids.filter fun id => cells.contains id).foldl
    (fun g id => fun j => if j = id then mark m (g id) a.name else g j) g

/-- `computeAnnotations`, IOWavefrontOBJ.cpp 806-860. -/
def annotate (m : Mode) (cells : List Int) (notes : List Note) (g : Int → Name) : Int → Name :=
  notes.foldl (annotate1 m cells) g

/-- `addAnnotation`, IOWavefrontOBJ.cpp 481-485: fields without a name are refused. -/
def addNote (notes : List Note) (a : Note) : List Note := if a.name = [] then notes else notes ++ [a]

/-! ## Pinned lists -/

/-- The data of the cells, in the order of the fields. -/
structure Data where
  materials : List (Int × Name)
  groups : List (Int × Name)
  smooths : List (Int × Int)
  deriving DecidableEq, Repr

/-- The geometry: cells with their PIDs, PIDs with their names in the order of the map. -/
structure Geo where
  cells : List (Int × Int)
  pids : List (Int × Name)
  deriving DecidableEq, Repr

/-- The names asked for, without the blanks around them (IOWavefrontOBJ.cpp 525-578). -/
structure Pins where
  materials : List Name := []
  groups : List Name := []
  smooths : List Int := []
  objects : List Name := []
  deriving DecidableEq, Repr

/-- `unordered_map::insert` on each name with its PID: the first one stays, IOWavefrontOBJ.cpp 1042-1045. -/
def insertNames : List (Int × Name) → List (Name × Int) → List (Name × Int)
  | [], m => m
  | (p, n) :: ps, m => insertNames ps (if (m.lookup n).isSome then m else (n, p) :: m)

/-- The four lists. -/
structure Pinned where
  materials : List Int
  groups : List Int
  smooths : List Int
  objects : List Int
  deriving DecidableEq, Repr

/-- `extractPinnedLists`, IOWavefrontOBJ.cpp 984-1052; the order of the list of groups is that of an
`unordered_set`, here that of the field.  A missing geometry is announced and then used (987-993). -/
def extract (geo : Option Geo) (d : Data) (q : Pins) : Option Pinned :=
  match geo with
  | none => none
  | some geo => some {
      materials := (d.materials.filter fun e => q.materials.contains e.2).map Prod.fst
      groups := (d.groups.filter fun e =>
        if q.groups.contains e.2 then true else q.groups.any fun n => decide (n <:+: e.2)).map Prod.fst
      smooths := (d.smooths.filter fun e => q.smooths.contains e.2).map Prod.fst
      objects :=
        let map := insertNames geo.pids []
        let pids := q.objects.filterMap fun n => map.lookup n
        (geo.cells.filter fun e => pids.contains e.2).map Prod.fst }

/-! ## Normals -/

section Normals
variable {V : Type} [NormedAddCommGroup V] [InnerProductSpace ℝ V]

/-- The average of the normals of the ring of a vertex with areas or angles as weights,
`evalVNormal`, IOWavefrontOBJ.cpp 1069-1119. -/
noncomputable def average (ring : List (ℝ × V)) : V :=
  (1 / (ring.map Prod.fst).sum) • (ring.map fun e => e.1 • e.2).sum

/-- The correction of one normal, IOWavefrontOBJ.cpp 791-796; `eq` is `DoubleFloatingEqual`, `least` the least
positive number. -/
noncomputable def fixNormal (eq : ℝ → ℝ → Prop) (least : ℝ) (v : V) : V :=
  open Classical in if ¬ eq ‖v‖ 1 ∧ ‖v‖ > least then (1 / ‖v‖) • v else v

/-- `execute` as far as normals go, IOWavefrontOBJ.cpp 771-774: the check comes before the computation.  A
normal is kept or computed from the ring of its vertex. -/
noncomputable def runNormals (eq : ℝ → ℝ → Prop) (least : ℝ) (check : Bool) (vs : List (V × Option (List (ℝ × V)))) :
    List V :=
  vs.map fun e => match e.2 with
    | some ring => average ring
    | none => if check then fixNormal eq least e.1 else e.1

end Normals

/-! ## Settings -/

structure Settings where
  check : Bool := false
  annMode : Mode := .hard
  normalsMode : Nat := 0
  pins : Pins := {}
  deriving DecidableEq, Repr

/-- A section: the options as text already split into words. -/
structure Section where
  check : Option Bool := none
  annMode : Option Int := none
  normalsMode : Option Int := none
  materials : Option (List Name) := none
  groups : Option (List Name) := none
  smooths : Option (List Int) := none
  objects : Option (List Name) := none
  deriving DecidableEq, Repr

/-- The number of a mode and `static_cast` back. -/
def Mode.num : Mode → Int
  | .hard => 0 | .soft => 1 | .all => 2 | .allNoBlanks => 3
def Mode.ofNum : Int → Mode
  | 1 => .soft | 2 => .all | 3 => .allNoBlanks | _ => .hard

/-- The loop on the numbers of `PinSmoothIds`, IOWavefrontOBJ.cpp 694-705: without any number the variable is
used without having been set; `junk` is what it holds. -/
def readInts (junk : Int) (ws : List Int) : List Int := if ws = [] then [junk] else ws

/-- `absorbSectionXML`, IOWavefrontOBJ.cpp 625-721. -/
def Settings.absorb (junk : Int) (s : Settings) (x : Section) : Settings :=
  let s := match x.check with | none => s | some b => { s with check := b }
  let s := match x.annMode with | none => s | some k => { s with annMode := Mode.ofNum (min 2 (max 0 k)) }
  let s := match x.normalsMode with | none => s | some k => { s with normalsMode := (min 2 (max 0 k)).toNat }
  let s := match x.materials with | none => s | some l => { s with pins := { s.pins with materials := l } }
  let s := match x.groups with | none => s | some l => { s with pins := { s.pins with groups := l } }
  let s := match x.smooths with | none => s | some l => { s with pins := { s.pins with smooths := readInts junk l } }
  match x.objects with | none => s | some l => { s with pins := { s.pins with objects := l } }

/-- The words of a name. -/
def words : Name → List Name
  | [] => []
  | c :: cs =>
    if c = ' ' then words cs
    else match cs, words cs with
      | [], _ => [[c]]
      | d :: _, ws => if d = ' ' then [c] :: ws else match ws with
        | [] => [[c]]
        | w :: ws => (c :: w) :: ws

/-- `flushSectionXML`, IOWavefrontOBJ.cpp 728-759. -/
def Settings.flush (s : Settings) : Section where
  check := some s.check
  annMode := some s.annMode.num
  normalsMode := some s.normalsMode
  materials := some (words (s.pins.materials.flatMap fun n => n ++ [' ']))
  groups := some (words (s.pins.groups.flatMap fun n => n ++ [' ']))
  smooths := some s.pins.smooths
  objects := some (words (s.pins.objects.flatMap fun n => n ++ [' ']))

end Verif.ObjData
