import Verif.Field.Model
import Mathlib.Algebra.Order.Field.Basic
import Mathlib.Algebra.BigOperators.Group.List.Basic
import Mathlib.Tactic.Ring
import Mathlib.Tactic.Linarith
import Mathlib.Tactic.FieldSimp
/-
Model of the interpolations between point, cell and interface data
(src/core/MimmoPiercedVector.tpp:644-827).

`double` is replaced by an arbitrary linearly ordered field `K` (no rounding); vector values are handled
component by component.  Distances, cell volumes and `std::pow` come from outside and are parameters.
-/
namespace Verif.Interp
open Verif.Field (Data get ins has setAt)

variable {K : Type} [_root_.Field K]

/-- the part of a geometry used by the interpolations: cells with their vertices, vertices, distance of a
vertex from the centre of a cell (`norm2(center-point)`) -/
structure Mesh (K : Type) where
  cells : List (Nat × List Nat)
  vertices : List Nat
  dist : Nat → Nat → K

/-- loop over the vertices of a cell, MimmoPiercedVector.tpp:654-666; the accumulator is (data, sumWeights)
once initialised; `at` of an absent id throws (`none`) -/
def cellLoop (at_ : Nat → Option K) (w : Nat → K) : List Nat → Option (K × K) → Option (Option (K × K))
  | [], acc => some acc
  | v :: vs, acc =>
    match at_ v with
    | none => none
    | some x =>
      match acc with
      | none => cellLoop at_ w vs (some (x * w v, w v))
      | some (d, s) => cellLoop at_ w vs (some (d + x * w v, s + w v))

/-- `pointDataToCellData`, MimmoPiercedVector.tpp:644-671; `pw d = std::pow(d, p)`.  A cell without vertices
reads a missing entry of `sumWeights` (`none`). -/
def pointToCell (pw : K → K) (g : Mesh K) (at_ : Nat → Option K) : List (Nat × List Nat) → Data K → Option (Data K)
  | [], out => some out
  | c :: cs, out =>
    match cellLoop at_ (fun v => 1 / pw (g.dist c.1 v)) c.2 none with
    | some (some (d, s)) => (ins out c.1 (d / s)).bind (pointToCell pw g at_ cs)
    | _ => none

/-- one step of the accumulation on points, MimmoPiercedVector.tpp:692-701 -/
def addPoint (pd sw : Data K) (v : Nat) (xw w : K) : Option (Data K × Data K) :=
  if !has pd v then
    (ins pd v xw).bind (fun pd' => (ins sw v w).map (fun sw' => (pd', sw')))
  else
    match get pd v, get sw v with
    | some d, some s => some (setAt pd v (d + xw), setAt sw v (s + w))
    | _, _ => none

/-- loop over the vertices of a cell, MimmoPiercedVector.tpp:690-702 -/
def scatterVerts (x : K) (w : Nat → K) : List Nat → Data K × Data K → Option (Data K × Data K)
  | [], st => some st
  | v :: vs, st => (addPoint st.1 st.2 v (x * w v) (w v)).bind (scatterVerts x w vs)

/-- loop over the cells, MimmoPiercedVector.tpp:686-704 -/
def scatterCells (pw : K → K) (g : Mesh K) (at_ : Nat → Option K) :
    List (Nat × List Nat) → Data K × Data K → Option (Data K × Data K)
  | [], st => some st
  | c :: cs, st =>
    match at_ c.1 with
    | none => scatterCells pw g at_ cs st
    | some x => (scatterVerts x (fun v => 1 / pw (g.dist c.1 v)) c.2 st).bind (scatterCells pw g at_ cs)

/-- final division, MimmoPiercedVector.tpp:705-710 -/
def divideAll : List Nat → Data K × Data K → Option (Data K)
  | [], st => some st.1
  | v :: vs, st =>
    if has st.1 v then
      match get st.1 v, get st.2 v with
      | some d, some s => divideAll vs (setAt st.1 v (d / s), st.2)
      | _, _ => none
    else divideAll vs st

/-- `cellDataToPointData(p)`, MimmoPiercedVector.tpp:681-712 -/
def cellToPoint (pw : K → K) (g : Mesh K) (at_ : Nat → Option K) : Option (Data K) :=
  (scatterCells pw g at_ g.cells ([], [])).bind (divideAll g.vertices)

/-- an interface: id, border flag, vertices -/
structure Iface where
  id : Nat
  border : Bool
  verts : List Nat

/-- loop over the vertices of an interface, MimmoPiercedVector.tpp:804-819: absent values contribute nothing
to `data` but their weight is still counted -/
def ifaceLoop (at_ : Nat → Option K) (w : Nat → K) : List Nat → Option (K × K) → Option (K × K)
  | [], acc => acc
  | v :: vs, none => ifaceLoop at_ w vs (some (match at_ v with | some x => x * w v | none => 0, w v))
  | v :: vs, some (d, s) =>
    ifaceLoop at_ w vs (some (match at_ v with | some x => d + x * w v | none => d, s + w v))

/-- `pointDataToBoundaryInterfaceData`, MimmoPiercedVector.tpp:784-827 -/
def pointToIface (pw : K → K) (dist : Nat → Nat → K) (at_ : Nat → Option K) : List Iface → Data K → Option (Data K)
  | [], out => some out
  | i :: is, out =>
    if i.border then
      let found := i.verts.countP (fun v => (at_ v).isSome)
      if found == i.verts.length then
        match ifaceLoop at_ (fun v => 1 / pw (dist i.id v)) i.verts none with
        | some (d, s) => (ins out i.id (d / s)).bind (pointToIface pw dist at_ is)
        | none => none
      else pointToIface pw dist at_ is out
    else pointToIface pw dist at_ is out

/-! ### The version with gradients -/

/-- geometry used by the version with gradients -/
structure GMesh (K : Type) where
  cells : List (Nat × List Nat)
  vertices : List Nat
  volume : Nat → K
  center : Nat → K × K × K
  point : Nat → K × K × K

/-- reconstructed value at a vertex, MimmoPiercedVector.tpp:743-746 -/
def reconstruct (x : K) (gr : K × K × K) (p c : K × K × K) : K :=
  let value := x + x * (gr.1 * (p.1 - c.1))
  let value := value + x * (gr.2.1 * (p.2.1 - c.2.1))
  value + x * (gr.2.2 * (p.2.2 - c.2.2))

variable [LinearOrder K]

/-- one step, MimmoPiercedVector.tpp:747-763; `value` is already multiplied by the weight; `norm2` of a
scalar is its absolute value -/
def addPointG (maximum : Bool) (pd sw : Data K) (v : Nat) (value w : K) : Option (Data K × Data K) :=
  if !has pd v then
    (ins pd v value).bind (fun pd' => (ins sw v w).map (fun sw' => (pd', sw')))
  else
    match get pd v, get sw v with
    | some d, some s =>
      if maximum then
        if |value| > |d| then some (setAt pd v value, sw) else some (pd, sw)
      else some (setAt pd v (d + value), setAt sw v (s + w))
    | _, _ => none

/-- loop over the vertices of a cell, MimmoPiercedVector.tpp:740-764 -/
def scatterVertsG (maximum : Bool) (val : Nat → K) (w : K) : List Nat → Data K × Data K → Option (Data K × Data K)
  | [], st => some st
  | v :: vs, st => (addPointG maximum st.1 st.2 v (val v * w) w).bind (scatterVertsG maximum val w vs)

/-- loop over the cells, MimmoPiercedVector.tpp:734-766; `grad` is defined on the cells having gradient
data (`at` throws otherwise) -/
def scatterCellsG (maximum : Bool) (pw : K → K) (g : GMesh K) (at_ : Nat → Option K) (grad : Nat → Option (K × K × K)) :
    List (Nat × List Nat) → Data K × Data K → Option (Data K × Data K)
  | [], st => some st
  | c :: cs, st =>
    match at_ c.1 with
    | none => scatterCellsG maximum pw g at_ grad cs st
    | some x =>
      match c.2, grad c.1 with
      | [], _ => scatterCellsG maximum pw g at_ grad cs st
      | _ :: _, none => none
      | vs, some gr =>
        (scatterVertsG maximum (fun v => reconstruct x gr (g.point v) (g.center c.1)) (1 / pw (g.volume c.1)) vs st).bind
          (scatterCellsG maximum pw g at_ grad cs)

/-- `cellDataToPointData` with gradients, MimmoPiercedVector.tpp:727-776; `pw` is the power with exponent 3,
or 0 when `maximum` -/
def cellToPointG (maximum : Bool) (pw : K → K) (g : GMesh K) (at_ : Nat → Option K)
    (grad : Nat → Option (K × K × K)) : Option (Data K) :=
  (scatterCellsG maximum pw g at_ grad g.cells ([], [])).bind (fun st =>
    if maximum then some st.1 else divideAll g.vertices st)

end Verif.Interp
