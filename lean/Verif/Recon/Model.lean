import Verif.Recon.Extract
import Verif.Shape.Model
/-
Model of the blocks that put fields of sub-patches together (src/geohandlers/ReconstructScalar.cpp and
ReconstructVector.cpp), serial build; values are real numbers or vectors of real numbers.

* Geometries are handles into a `World`.
* `none` is an exception or undefined behaviour (null pointer, missing value, last element of an empty list).
-/
namespace Verif.Recon
open Verif.Field Verif.Mesh

variable {P : Type}

/-- what the block does with values: `+=`, what `<` compares (the value, or its length) and the division by a number -/
structure Ops (α : Type) where
  add : α → α → α
  key : α → ℝ
  div : α → Nat → α
  zero : α

/-- scalars, src/geohandlers/ReconstructScalar.cpp:314, 319, 357-387 -/
noncomputable def scalarOps : Ops ℝ := ⟨fun a b => a + b, fun a => a, fun a n => a / n, 0⟩

/-- vectors, src/geohandlers/ReconstructVector.cpp:312-313, 318, 358-395 -/
noncomputable def vectorOps : Ops Shape.V3 :=
  ⟨fun a b => a + b, Shape.norm2, fun a n => ⟨a.x / n, a.y / n, a.z / n⟩, ⟨0, 0, 0⟩⟩

/-- `OverlapMethod`, src/geohandlers/ReconstructFields.hpp -/
inductive Crit where
  | max | min | average | sum
deriving DecidableEq, Repr

/-- data members -/
structure Rec (α : Type) where
  loc : Loc
  crit : Crit
  geo : Option Nat := none
  subs : List (Field Nat α) := []
  result : Field Nat α := make none .undefined
  subresults : List (Field Nat α) := []

variable {α : Type}

/-- constructor, src/geohandlers/ReconstructScalar.cpp:33-38 (criterion MAX), ReconstructVector.cpp:33-38 (SUM) -/
def Rec.new (l : Loc) (c : Crit) : Rec α :=
  { loc := if l = .undefined ∨ l = .interface then .point else l, crit := c }

/-- code of a criterion -/
def Crit.code : Crit → Int
  | .max => 1 | .min => 2 | .average => 3 | .sum => 4

/-- `setOverlapCriterium`, src/geohandlers/ReconstructScalar.cpp:168-172 -/
def Rec.setCrit (s : Rec α) (c : Int) : Rec α :=
  if c < 1 ∨ c > 4 then s
  else { s with crit := if c = 1 then .max else if c = 2 then .min else if c = 3 then .average else .sum }

/-- `addData`, src/geohandlers/ReconstructScalar.cpp:179-189; the argument may be a null pointer.  The type of a null
geometry is asked when the location is the right one. -/
def Rec.addData (s : Rec α) (w : World P) (f : Option (Field Nat α)) : Option (Rec α) :=
  match f with
  | none => some s
  | some f =>
    match f.geo with
    | none => if f.loc ≠ s.loc then some s else none
    | some g =>
      if (w.obj g).type = 3 ∧ s.loc = .cell then some s
      else some { s with subs := s.subs ++ [f] }

/-- `while(back().getGeometry() == patch) pop_back()`, src/geohandlers/ReconstructScalar.cpp:199-201, on the list in
reverse order -/
def popWhile (p : Option Nat) : List (Field Nat α) → Option (List (Field Nat α))
  | [] => none
  | f :: l => if f.geo = p then popWhile p l else some (f :: l)

/-- the same loop on the list as it is -/
def trim (p : Option Nat) (l : List (Field Nat α)) : Option (List (Field Nat α)) := (popWhile p l.reverse).map List.reverse

/-- the search loop, src/geohandlers/ReconstructScalar.cpp:204-216; `i` position of the iterator, `n` steps at most (the
list has no more elements) -/
def sweep (p : Option Nat) : Nat → Nat → List (Field Nat α) → Option (List (Field Nat α))
  | 0, _, l => some l
  | n + 1, i, l =>
    match l[i]? with
    | none => some l
    | some f =>
      if f.geo = p then
        match l.getLast? with
        | none => none
        | some b => (trim p ((l.set i b).dropLast)).bind (sweep p n (i + 1))
      else sweep p n (i + 1) l

/-- `removeData`, src/geohandlers/ReconstructScalar.cpp:195-218 -/
def Rec.removeData (s : Rec α) (p : Option Nat) : Option (Rec α) :=
  (trim p s.subs).bind fun l => (sweep p l.length 0 l).map fun l => { s with subs := l }

/-- `removeAllData`, src/geohandlers/ReconstructScalar.cpp:223-228 -/
def Rec.removeAll (s : Rec α) : Rec α := { s with subs := [], result := Field.clear s.result, subresults := [] }

/-- `clear`, src/geohandlers/ReconstructScalar.cpp:233-238; `c` is the default criterion -/
def Rec.clear (s : Rec α) (c : Crit) : Rec α := { s.removeAll with geo := none, crit := c }

/-- `idsGeoDataLocation`, src/geohandlers/ReconstructScalar.cpp:473-478 -/
def locIds (w : World P) (l : Loc) (g : Nat) : List Nat :=
  match l with
  | .point => (w.obj g).verts.map Prod.fst
  | .cell => cellIds (w.obj g)
  | _ => []

/-- `overlapFields`, src/geohandlers/ReconstructScalar.cpp:357-387: value in the result and new value -/
noncomputable def overlap (o : Ops α) (c : Crit) (cur new : α) : α :=
  match c with
  | .max => open Classical in if o.key cur < o.key new then new else cur
  | .min => open Classical in if o.key cur > o.key new then new else cur
  | .average => o.add cur new
  | .sum => o.add cur new

/-- one id of a sub-patch, src/geohandlers/ReconstructScalar.cpp:294-305: result and counters -/
noncomputable def recId (o : Ops α) (c : Crit) (target : List Nat) (f : Field Nat α) (s : Data α × Data Nat) (id : Nat) :
    Option (Data α × Data Nat) :=
  if id ∉ target then some s
  else
    (get f.data id).bind fun v =>
      match get s.1 id with
      | none => (ins s.1 id v).bind fun d => (ins s.2 id 1).map fun n => (d, n)
      | some cur => (get s.2 id).map fun k => (setAt s.1 id (overlap o c cur v), setAt s.2 id (k + 1))

/-- one sub-patch, src/geohandlers/ReconstructScalar.cpp:290-307 -/
noncomputable def recSub (o : Ops α) (c : Crit) (w : World P) (l : Loc) (target : List Nat) (s : Data α × Data Nat)
    (f : Field Nat α) : Option (Data α × Data Nat) :=
  f.geo.bind fun g => (locIds w l g).foldlM (recId o c target f) s

/-- the division, src/geohandlers/ReconstructScalar.cpp:309-316 -/
def average (o : Ops α) (n : Data Nat) (d : Data α) : Option (Data α) :=
  d.mapM fun e => (get n e.1).map fun k => (e.1, o.div e.2 k)

/-- the values of the result on a sub-patch, src/geohandlers/ReconstructScalar.cpp:324-335 -/
def subResult (w : World P) (l : Loc) (target : List Nat) (res : Data α) (f : Field Nat α) : Option (Field Nat α) :=
  f.geo.bind fun g =>
    ((locIds w l g).foldlM (fun (d : Data α) id =>
      if id ∈ target then (get res id).bind fun v => ins d id v else some d) []).map
      fun d => { (make (some g) l : Field Nat α) with data := d }

/-- `execute`, src/geohandlers/ReconstructScalar.cpp:270-336; a result incoherent with the target is only logged -/
noncomputable def Rec.execute (o : Ops α) (s : Rec α) (w : World P) : Option (Rec α) :=
  s.geo.bind fun t =>
    let target := locIds w s.loc t
    (s.subs.foldlM (recSub o s.crit w s.loc target) ([], [])).bind fun r =>
    (if s.crit = .average then average o r.2 r.1 else some r.1).bind fun d =>
    let f : Field Geo α := ⟨some (geoOf w t), defaultName, s.loc, d⟩
    (completeMissingData f o.zero).bind fun f =>
    (s.subs.mapM (subResult w s.loc target f.1.data)).map fun subs =>
      { s with result := ⟨some t, defaultName, s.loc, f.1.data⟩, subresults := subs }

end Verif.Recon
