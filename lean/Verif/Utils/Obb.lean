import Verif.Utils.AabbProps
import Verif.Recon.ChooseXml
import Verif.Create.Xml
/-
Model of `OBBox` (src/utils/OBBox.cpp), one process, exact arithmetic.

`LAPACKE_dsyev` (external) is the parameter `syev`: the matrix whose rows are the columns it returns, and the eigenvalues.  The matrix
`loc` of `evaluatePointsCovarianceMatrix`, which is never initialised, is the parameter `junk`.  A result that is not a number, an
exception or the reading of an unset number other than `loc` is `none`.  The map of the geometries is kept as a list without
repetitions, in the unspecified order in which it is run through.  The visualization file (only the eight points drawn, see AABBox) and
the file with the results are not modelled.
-/
namespace Verif.Utils
open Verif.Shape Verif.Manip Verif.Field Verif.Xml Verif.Create
open Verif.Mesh (Obj Cell vertexIds)
open Verif.Rbf (tiny huge)

noncomputable section
open scoped Classical

/-- `OBBStrategy`, src/utils/OBBox.hpp:36-40 -/
inductive Strategy
  | obb | aabb | minvol
deriving DecidableEq

/-- data members, src/utils/OBBox.hpp:92-98, and their values after construction, src/utils/OBBox.cpp:31-43 -/
structure Obb where
  geos : List Nat := []
  origin : V3 := ⟨0, 0, 0⟩
  span : V3 := ⟨1, 1, 1⟩
  axes : M3 := M3.one
  strategy : Strategy := .obb
  info : Bool := false

/-- `clearOBBox`, src/utils/OBBox.cpp:119-133 -/
def Obb.clear (_ : Obb) : Obb := {}

/-- `setGeometry`, src/utils/OBBox.cpp:211-225 -/
def Obb.setGeometry (w : World) (b : Obb) (g : Option Nat) : Obb :=
  match g with
  | none => b
  | some g => if (w g).type = 2 then b else { b with geos := b.geos.insert g }

/-- `setGeometries`, src/utils/OBBox.cpp:198-204 -/
def Obb.setGeometries (w : World) (b : Obb) (l : List (Option Nat)) : Obb := l.foldl (Obb.setGeometry w) { b with geos := [] }

/-- `setForceAABB`, src/utils/OBBox.cpp:231-235 -/
def Obb.setForceAABB (b : Obb) (flag : Bool) : Obb := { b with strategy := if flag then .aabb else .obb }

/-- `setOBBStrategy`, src/utils/OBBox.cpp:241-244 -/
def Obb.setStrategy (b : Obb) (s : Strategy) : Obb := { b with strategy := s }

/-- `static_cast<OBBStrategy>` of a number from 0 to 2 -/
def strategyOf (n : Int) : Strategy := if n = 0 then .obb else if n = 1 then .aabb else .minvol

/-- `setOBBStrategyInt`, src/utils/OBBox.cpp:250-254 -/
def Obb.setStrategyInt (b : Obb) (n : Int) : Obb := { b with strategy := strategyOf (min 2 (max n 0)) }

/-- `setWriteInfo`, src/utils/OBBox.cpp:261-264 -/
def Obb.setWriteInfo (b : Obb) (flag : Bool) : Obb := { b with info := flag }

/-- `isForcedAABB`, src/utils/OBBox.cpp:179-182 -/
def Obb.isForcedAABB (b : Obb) : Bool := b.strategy == .aabb

/-! ### The matrices -/

/-- one corner, src/utils/OBBox.cpp:723-725 and 949-962; an unknown vertex is an exception -/
def cornerOf (o : Obj V3) (id : Nat) : Option V3 := get o.verts id

/-- the loop of `get3RepPoints` over the corners of a polygon from the position `cand` on: `a` is the corner before, `none` when none is
left; the two last corners looked at are kept, src/utils/OBBox.cpp:952-965 -/
def repFrom (o : Obj V3) (p0 : V3) : V3 → List Nat → Option (V3 × V3)
  | _, [] => none
  | a, b :: l =>
    match cornerOf o b with
    | none => none
    | some pb => if 0 < norm2 (cross (a - p0) (pb - p0)) ∨ l = [] then some (a, pb) else repFrom o p0 pb l

/-- `get3RepPoints` and the coordinates, src/utils/OBBox.cpp:930-974 and 719-725: `some none` is a cell that is skipped -/
def repPoints (o : Obj V3) (c : Cell) : Option (Option (V3 × V3 × V3)) :=
  match c.elem with
  | .triangle =>
    match c.conn with
    | a :: b :: d :: _ => (cornerOf o a).bind fun p => (cornerOf o b).bind fun q => (cornerOf o d).map fun r => some (p, q, r)
    | _ => none
  | .quad | .polygon =>
    match vertexIds c with
    | a :: b :: l => (cornerOf o a).bind fun p => (cornerOf o b).bind fun q => (repFrom o p q l).map fun x => some (p, x.1, x.2)
    | _ => none
  | _ => some none

/-- a symmetric matrix by its six entries -/
structure S3 where
  xx : ℝ
  yy : ℝ
  zz : ℝ
  xy : ℝ
  xz : ℝ
  yz : ℝ

/-- what is summed cell by cell, src/utils/OBBox.cpp:704-710 -/
structure Sums where
  mass : V3 := ⟨0, 0, 0⟩
  area : ℝ := 0
  mom : S3 := ⟨0, 0, 0, 0, 0, 0⟩

/-- `0.5*norm2(crossProduct(q-p, r-p))` and `(p+q+r)/3.0`, src/utils/OBBox.cpp:727-728 -/
def triArea (p q r : V3) : ℝ := 1 / 2 * norm2 (cross (q - p) (r - p))
def triMid (p q r : V3) : V3 := ⟨(p.x + q.x + r.x) / 3, (p.y + q.y + r.y) / 3, (p.z + q.z + r.z) / 3⟩

/-- one triangle, src/utils/OBBox.cpp:727-741 -/
def Sums.add (s : Sums) (t : V3 × V3 × V3) : Sums :=
  let p := t.1
  let q := t.2.1
  let r := t.2.2
  let a := triArea p q r
  let c := triMid p q r
  { mass := s.mass + V3.scale a c
    area := s.area + a
    mom := ⟨s.mom.xx + a * (9 * c.x * c.x + p.x * p.x + q.x * q.x + r.x * r.x) / 12,
            s.mom.yy + a * (9 * c.y * c.y + p.y * p.y + q.y * q.y + r.y * r.y) / 12,
            s.mom.zz + a * (9 * c.z * c.z + p.z * p.z + q.z * q.z + r.z * r.z) / 12,
            s.mom.xy + a * (9 * c.x * c.y + p.x * p.y + q.x * q.y + r.x * r.y) / 12,
            s.mom.xz + a * (9 * c.x * c.z + p.x * p.z + q.x * q.z + r.x * r.z) / 12,
            s.mom.yz + a * (9 * c.y * c.z + p.y * p.z + q.y * q.z + r.y * r.z) / 12⟩ }

/-- the triangles run through, src/utils/OBBox.cpp:713-725 -/
def trisOf (w : World) (geos : List Nat) : Option (List (Option (V3 × V3 × V3))) :=
  (geos.flatMap (fun g => (w g).cells.map (fun e => ((w g), e.2)))).mapM (fun x => repPoints x.1 x.2)

/-- `evaluateElementsCovarianceMatrix`, src/utils/OBBox.cpp:695-771; zero total area divides by zero -/
def elementsMatrix (w : World) (geos : List Nat) : Option M3 :=
  (trisOf w geos).bind fun ts =>
    let s := (ts.filterMap id).foldl Sums.add {}
    if s.area = 0 then none
    else
      let c := V3.scale (1 / s.area) s.mass
      let m := s.mom
      let a := s.area
      some ⟨⟨m.xx / a - c.x * c.x, m.xy / a - c.x * c.y, m.xz / a - c.x * c.z⟩,
            ⟨m.xy / a - c.y * c.x, m.yy / a - c.y * c.y, m.yz / a - c.y * c.z⟩,
            ⟨m.xz / a - c.z * c.x, m.yz / a - c.z * c.y, m.zz / a - c.z * c.z⟩⟩

/-- `loc[j][k] += temp[j]*temp[k]` for `j ≤ k`, src/utils/OBBox.cpp:651-655 -/
def S3.outer (m : S3) (t : V3) : S3 :=
  ⟨m.xx + t.x * t.x, m.yy + t.y * t.y, m.zz + t.z * t.z, m.xy + t.x * t.y, m.xz + t.x * t.z, m.yz + t.y * t.z⟩

def S3.plus (a b : S3) : S3 := ⟨a.xx + b.xx, a.yy + b.yy, a.zz + b.zz, a.xy + b.xy, a.xz + b.xz, a.yz + b.yz⟩

/-- the coordinates of the vertices of a geometry -/
def coordsOf (o : Obj V3) : List V3 := o.verts.map Prod.snd

/-- one geometry: `loc` goes on from where it was, src/utils/OBBox.cpp:647-663 -/
def cloudStep (c : V3) (s : S3 × S3) (ps : List V3) : S3 × S3 :=
  let loc := ps.foldl (fun m p => m.outer (p - c)) s.1
  (loc, s.2.plus loc)

/-- sum of points -/
def sumOf (ps : List V3) : V3 := ps.foldl (· + ·) ⟨0, 0, 0⟩

/-- `evaluatePointsCovarianceMatrix`, src/utils/OBBox.cpp:616-684; no vertices at all divide by zero -/
def pointsMatrix (junk : S3) (w : World) (geos : List Nat) : Option M3 :=
  let ps := pointsOf w geos
  let n : ℝ := ps.length
  if ps.length = 0 then none
  else
    let c := V3.scale (1 / n) (sumOf ps)
    let m := ((geos.map (fun g => coordsOf (w g))).foldl (cloudStep c) (junk, ⟨0, 0, 0, 0, 0, 0⟩)).2
    some ⟨⟨m.xx / n, m.xy / n, m.xz / n⟩, ⟨m.xy / n, m.yy / n, m.yz / n⟩, ⟨m.xz / n, m.yz / n, m.zz / n⟩⟩

/-- the choice, src/utils/OBBox.cpp:420-433 -/
def allCloud (w : World) (geos : List Nat) : Bool := geos.any (fun g => (w g).type == 3 || (w g).type == 4)
def covariance (junk : S3) (w : World) (geos : List Nat) : Option M3 :=
  if allCloud w geos then pointsMatrix junk w geos else elementsMatrix w geos

/-! ### The axes -/

/-- `eigenVectors`, src/utils/OBBox.cpp:780-817 -/
def eigenVectors (syev : M3 → M3 × V3) (m : M3) : M3 × V3 :=
  let a := (syev m).1
  let s := (syev m).2
  (⟨a.r2.unit, a.r1.unit, a.r0.unit⟩, ⟨s.z, s.y, s.x⟩)

/-- `if(dotProduct(eigVec[2], crossProduct(eigVec[0], eigVec[1])) < 0.0) eigVec[2] *= -1.0`, src/utils/OBBox.cpp:851-854 -/
def turned (m : M3) : M3 := if dot m.r2 (cross m.r0 m.r1) < 0 then { m with r2 := V3.scale (-1) m.r2 } else m

/-- `adjustBasis`, src/utils/OBBox.cpp:828-877 -/
def adjustBasis (m : M3) (v : V3) : M3 :=
  let d0 := |v.y - v.x|
  let d1 := |v.z - v.y|
  let d2 := |v.x - v.z|
  if d0 ≤ tiny ∧ d1 ≤ tiny ∧ d2 ≤ tiny then M3.one
  else if d0 > tiny ∧ d1 > tiny ∧ d2 > tiny then turned m
  else
    let gts : Nat × Nat × Nat := if d1 ≤ tiny then (1, 2, 0) else (0, 1, 2)
    let c := cross (m.row gts.2.2) (m.row gts.1)
    turned (m.setRow gts.2.1 (if norm2 c > tiny then c.unit else c))

/-! ### The boxes -/

/-- what a computation gives -/
structure BoxData where
  origin : V3
  span : V3
  axes : M3

/-- extents along the axes, src/utils/OBBox.cpp:438-476; `inverse` (901-920) is the function of src/core/BasicShapes.cpp -/
def boxAlong (w : World) (geos : List Nat) (m : M3) : Option BoxData :=
  let ps := pointsOf w geos
  let lo := leastAlong m ps
  let hi := mostAlong m ps
  if m.det = 0 then none else some ⟨m.inverse.app (V3.scale (1 / 2) (lo + hi)), raised (hi - lo), m⟩

/-- `computeOBB`, src/utils/OBBox.cpp:415-477 -/
def computeObb (syev : M3 → M3 × V3) (junk : S3) (w : World) (geos : List Nat) : Option BoxData :=
  (covariance junk w geos).bind fun c =>
    let e := eigenVectors syev c
    boxAlong w geos (adjustBasis e.1 e.2)

/-- extents along the coordinates, src/utils/OBBox.cpp:495-508 -/
def leastPoint (ps : List V3) : V3 := ⟨least (ps.map V3.x), least (ps.map V3.y), least (ps.map V3.z)⟩
def mostPoint (ps : List V3) : V3 := ⟨most (ps.map V3.x), most (ps.map V3.y), most (ps.map V3.z)⟩

/-- `computeAABB`, src/utils/OBBox.cpp:486-529 -/
def computeAabb (w : World) (geos : List Nat) : BoxData :=
  let ps := pointsOf w geos
  let lo := leastPoint ps
  let hi := mostPoint ps
  ⟨V3.scale (1 / 2) (lo + hi), raised (hi - lo), M3.one⟩

/-- product of the spans, src/utils/OBBox.cpp:365 -/
def BoxData.volume (d : BoxData) : ℝ := d.span.x * d.span.y * d.span.z

/-- members replaced, src/utils/OBBox.cpp:348-377 -/
def Obb.put (b : Obb) (d : BoxData) : Obb := { b with origin := d.origin, span := d.span, axes := d.axes }

/-- `execute`, src/utils/OBBox.cpp:328-406 -/
def Obb.execute (syev : M3 → M3 × V3) (junk : S3) (w : World) (b : Obb) : Option Obb :=
  if b.geos.isEmpty then some (b.put ⟨⟨0, 0, 0⟩, ⟨0, 0, 0⟩, M3.one⟩)
  else
    match b.strategy with
    | .obb => (computeObb syev junk w b.geos).map b.put
    | .aabb => some (b.put (computeAabb w b.geos))
    | .minvol => (computeObb syev junk w b.geos).map fun d =>
        let a := computeAabb w b.geos
        b.put (if d.volume < a.volume then d else a)

/-! ### XML -/

/-- a text read as a truth value, src/utils/OBBox.cpp:558-564 -/
def boolOption (t : Text) : Bool := if trim t = [] then false else readBool (trim t)

/-- `absorbSectionXML`, src/utils/OBBox.cpp:548-591 (without the base class) -/
def Obb.absorb (x : Section) (b : Obb) : Obb :=
  let b := match x "ForceAABB" with
    | none => b
    | some t => if boolOption t then b.setStrategy .aabb else b.setStrategy .obb
  let b := match x "OBBStrategy" with
    | none => b
    | some t => b.setStrategyInt (if trim t = [] then 0 else readSigned (trim t))
  match x "WriteInfo" with
  | none => b
  | some t => b.setWriteInfo (boolOption t)

/-- `static_cast<int>` of the strategy -/
def Strategy.code : Strategy → Nat
  | .obb => 0
  | .aabb => 1
  | .minvol => 2

/-- `flushSectionXML`, src/utils/OBBox.cpp:598-607 (without the base class) -/
def Obb.flush (b : Obb) (x : Section) : Section :=
  let x : Section := fun k => if k = "OBBStrategy" then some (toText b.strategy.code) else x k
  fun k => if k = "WriteInfo" then some (toText b.info.toNat) else x k

/-- constructor from a section, src/utils/OBBox.cpp:49-71 -/
def Obb.fromXml (x : Section) : Obb :=
  if trim ((x "ClassName").getD "ClassNONE".toList) = "mimmo.OBBox".toList then Obb.absorb x {} else {}

end
end Verif.Utils
