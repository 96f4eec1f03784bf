import Verif.Field.Props
import Verif.Mesh.Elem
/-
Model of `mimmo::MimmoObject` (src/core/MimmoObject.cpp), serial build.

* The underlying `bitpit::PatchKernel` is external: it is its vertices (id, coordinates) and its cells
  (id, element type, connectivity, PID), in iteration order.  `P` is the type of coordinates.
* Derived structures (trees, adjacencies, interfaces, numbering, bounding box, point connectivity) are pairs of
  the reported status and a snapshot of what they were computed from; the algorithms that compute them are
  external (bitpit) and are not modelled, except point connectivity (Verif.Mesh.Graph).
* The automatic choice of an id by bitpit is a parameter `gen`, an id not in use.
* A crash (null pointer, missing vertex) or an exception is `none`.
-/
namespace Verif.Mesh
open Verif.Field

/-- `SyncStatus`, src/core/MimmoObject.hpp:123-128, ordered NOTSUPPORTED < NONE < UNSYNC < SYNC -/
inductive Status where
  | notSupported | none | unsync | sync
deriving DecidableEq, Repr

/-- `std::min(status, SyncStatus::UNSYNC)` -/
def Status.cap : Status → Status
  | .sync => .unsync
  | s => s

/-- a cell of the patch; `pid` is an `int`; `interior` is `isInterior()` -/
structure Cell where
  elem : Elem
  conn : List Nat
  pid : Int
  interior : Bool := true
deriving DecidableEq, Repr

/-- vertices of the faces of a polyhedron record (after the number of faces) -/
def polyVerts : Nat → List Nat → List Nat
  | 0, _ => []
  | _ + 1, [] => []
  | n + 1, k :: rest => rest.take k ++ polyVerts n (rest.drop k)

/-- insertion into an `unordered_set` (the order of the elements is irrelevant) -/
def insSet {α : Type} [DecidableEq α] (l : List α) (p : α) : List α := if p ∈ l then l else l ++ [p]

/-- distinct elements of a list, as an `unordered_set` holds them -/
def distinct {α : Type} [DecidableEq α] (l : List α) : List α := l.foldl insSet []

/-- `getVertexIds` of bitpit: the vertices of a cell -/
def vertexIds (c : Cell) : List Nat :=
  match c.elem with
  | .polygon => c.conn.tail
  | .polyhedron =>
    match c.conn with
    | [] => []
    | n :: rest => distinct (polyVerts n rest)
  | _ => c.conn

/-- a derived structure: reported status, and what its present content was computed from -/
structure Der (α : Type) where
  st : Status
  val : Option α
deriving DecidableEq

/-- data members, src/core/MimmoObject.hpp:152-186.  `tree`: the skd-tree object is allocated.
`tol`: the geometric tolerance; 1 stands for the default 1.0e-06. -/
structure Obj (P : Type) where
  type : Nat
  verts : Data P
  cells : Data Cell
  pids : List Int
  names : List (Int × String)
  tree : Bool
  kd : Der (Data P)
  skd : Der (List (Nat × Elem × List (Option P)))
  adj : Der (List (Nat × Elem × List Nat))
  int : Der (List (Nat × Elem × List Nat))
  info : Der (List Nat)
  bbox : Der (Data P)
  pc : Der (List (Nat × Elem × List Nat))
  tol : Nat := 1
deriving DecidableEq

variable {P : Type}

/-! What each derived structure depends on. -/

/-- cells as shapes located in space (skd-tree) -/
def shapes (o : Obj P) : List (Nat × Elem × List (Option P)) :=
  o.cells.map (fun c => (c.1, c.2.elem, (vertexIds c.2).map (get o.verts)))

/-- cells as combinatorial objects (adjacencies, interfaces, point connectivity) -/
def topo (o : Obj P) : List (Nat × Elem × List Nat) := o.cells.map (fun c => (c.1, c.2.elem, c.2.conn))

/-- ids of the cells (numbering) -/
def cellIds (o : Obj P) : List Nat := o.cells.map Prod.fst

/-- every vertex of every cell exists -/
def complete (o : Obj P) : Bool := o.cells.all (fun c => (vertexIds c.2).all (fun v => has o.verts v))

/-! Constructors -/

/-- constructor `MimmoObject(type)`, src/core/MimmoObject.cpp:235-316; exception for types above 4 -/
def ctor (type : Int) : Option (Obj P) :=
  let t := (max type 1).toNat
  if t > 4 then none
  else some {
    type := t, verts := [], cells := [], pids := [], names := [], tree := t != 3
    kd := ⟨.none, none⟩, skd := ⟨if t = 3 then .notSupported else .none, none⟩
    adj := ⟨.none, none⟩, int := ⟨.none, none⟩, info := ⟨.sync, some []⟩, bbox := ⟨.none, none⟩
    pc := ⟨.none, none⟩ }

/-- element types refused by the constructors that take an existing patch, src/core/MimmoObject.cpp:493-569 -/
def refused (type : Nat) (t : Elem) : Bool :=
  match type with
  | 1 => [Elem.vertex, .line, .tetra, .hexahedron, .voxel, .wedge, .pyramid, .polyhedron, .undefined].contains t
  | 2 => [Elem.vertex, .line, .triangle, .quad, .pixel, .polygon, .undefined].contains t
  | 3 => t != .vertex
  | 4 => t != .line
  | _ => false

/-- constructor from an existing patch, src/core/MimmoObject.cpp:469-612 (and 625-770, the same with ownership);
`a`, `i`: adjacencies / interfaces already built in the patch -/
def ctorPatch (type : Int) (verts : Data P) (cells : Data Cell) (a i : Bool) : Option (Obj P) :=
  let t := (max type 1).toNat
  if t > 4 then none
  else if cells.any (fun c => refused t c.2.elem) then none
  else some {
    type := t, verts := verts, cells := cells
    pids := distinct (cells.map (fun c => c.2.pid))
    names := (distinct (cells.map (fun c => c.2.pid))).map (fun p => (p, ""))
    tree := t != 3
    kd := ⟨.none, none⟩, skd := ⟨if t = 3 then .notSupported else .none, none⟩
    adj := ⟨if a then .unsync else .none, none⟩, int := ⟨if i then .unsync else .none, none⟩
    info := ⟨.sync, some (cells.map Prod.fst)⟩, bbox := ⟨.unsync, none⟩, pc := ⟨.none, none⟩ }

/-! PIDs -/

/-- conversion from `long` to `int` -/
def toInt32 (p : Int) : Int := p.bmod 4294967296

/-- `insert(make_pair(pid, name))` into the map of names: an existing key is kept -/
def insName (l : List (Int × String)) (p : Int) (s : String) : List (Int × String) :=
  if l.any (fun e => e.1 == p) then l else l ++ [(p, s)]

/-- name of a PID in the map -/
def nameOf (l : List (Int × String)) (p : Int) : Option String := (l.find? (fun e => e.1 == p)).map Prod.snd

/-- change of the PID of an existing cell -/
def putPid (cells : Data Cell) (id : Nat) (p : Int) : Data Cell :=
  cells.map (fun c => if c.1 = id then (c.1, { c.2 with pid := p }) else c)

/-- `setPIDCell`, src/core/MimmoObject.cpp:2407-2415 -/
def setPIDCell (o : Obj P) (id : Nat) (pid : Int) : Obj P :=
  if has o.cells id then
    { o with cells := putPid o.cells id (toInt32 pid), pids := insSet o.pids pid, names := insName o.names pid "" }
  else o

/-- `setPID(vector)`, src/core/MimmoObject.cpp:2358-2374 -/
def setPIDVec (o : Obj P) (l : List Int) : Obj P :=
  if l.length ≠ o.cells.length then o
  else
    { o with
      cells := (o.cells.zip l).map (fun e => (e.1.1, { e.1.2 with pid := toInt32 e.2 }))
      pids := distinct l
      names := (distinct l).map (fun p => (p, "")) }

/-- one entry of the map in `setPID(map)`, src/core/MimmoObject.cpp:2389-2394 -/
def putEntry (s : Data Cell × List Int) (e : Nat × Int) : Data Cell × List Int :=
  if has s.1 e.1 then (putPid s.1 e.1 (toInt32 e.2), insSet s.2 e.2) else s

/-- `setPID(map)`, src/core/MimmoObject.cpp:2382-2400; the map is a list of entries -/
def setPIDMap (o : Obj P) (m : List (Nat × Int)) : Obj P :=
  if o.cells = [] then o
  else
    let r := m.foldl putEntry (o.cells, [])
    { o with cells := r.1, pids := r.2, names := r.2.map (fun p => (p, "")) }

/-- `setPIDName`, src/core/MimmoObject.cpp:2424-2429 -/
def setPIDName (o : Obj P) (pid : Int) (s : String) : Obj P × Bool :=
  if o.names.any (fun e => e.1 == pid) then
    ({ o with names := o.names.map (fun e => if e.1 = pid then (pid, s) else e) }, true)
  else (o, false)

/-- `resyncPID`, src/core/MimmoObject.cpp:2436-2453 -/
def resyncPID (o : Obj P) : Obj P :=
  let l := distinct (o.cells.map (fun c => c.2.pid))
  { o with pids := l, names := l.map (fun p => (p, (nameOf o.names p).getD "")) }

/-! Insertions and changes -/

/-- `addVertex`, src/core/MimmoObject.cpp:2119-2142 (and 2155-2178) -/
def addVertex (o : Obj P) (gen : Nat) (p : P) (idtag : Option Nat) : Obj P × Option Nat :=
  match idtag with
  | some i => if has o.verts i then (o, none) else put i
  | none => put gen
where put (i : Nat) : Obj P × Option Nat :=
  ({ o with
      verts := o.verts ++ [(i, p)]
      kd := { o.kd with st := o.kd.st.cap }
      info := { o.info with st := o.info.st.cap }
      bbox := { o.bbox with st := o.bbox.st.cap }
      pc := { o.pc with st := o.pc.st.cap } }, some i)

/-- `modifyVertex`, src/core/MimmoObject.cpp:2187-2201 -/
def modifyVertex (o : Obj P) (p : P) (id : Nat) : Obj P × Bool :=
  if has o.verts id then
    ({ o with
        verts := setAt o.verts id p
        skd := { o.skd with st := o.skd.st.cap }
        kd := { o.kd with st := o.kd.st.cap }
        info := { o.info with st := o.info.st.cap }
        bbox := { o.bbox with st := o.bbox.st.cap } }, true)
  else (o, false)

/-- statuses after a cell insertion, src/core/MimmoObject.cpp:2274-2281 and 2341-2348 -/
def unsyncCell (o : Obj P) : Obj P :=
  { o with
    skd := { o.skd with st := o.skd.st.cap }
    adj := { o.adj with st := o.adj.st.cap }
    int := { o.int with st := o.int.st.cap }
    info := { o.info with st := o.info.st.cap }
    pc := { o.pc with st := o.pc.st.cap } }

/-- insertion of a cell with a given id into the patch, PID and statuses:
src/core/MimmoObject.cpp:2266-2282 and 2332-2349 -/
def putCell (o : Obj P) (t : Elem) (conn : List Nat) (pid : Int) (i : Nat) : Obj P :=
  unsyncCell (setPIDCell { o with cells := o.cells ++ [(i, ⟨t, conn, 0, true⟩)] } i pid)

/-- `addConnectedCell`, src/core/MimmoObject.cpp:2248-2283 -/
def addConnectedCell (o : Obj P) (gen : Nat) (conn : List Nat) (t : Elem) (pid : Int) (idtag : Option Nat) :
    Obj P × Option Nat :=
  if conn = [] then (o, none)
  else if idtag.any (fun i => has o.cells i) then (o, none)
  else if checkConn t (conn.map Int.ofNat) = false then (o, none)
  else (putCell o t conn pid (idtag.getD gen), some (idtag.getD gen))

/-- `addCell`, src/core/MimmoObject.cpp:2310-2350 -/
def addCell (o : Obj P) (gen : Nat) (c : Cell) (idtag : Option Nat) : Obj P × Option Nat :=
  if idtag.any (fun i => has o.cells i) then (o, none)
  else (putCell o c.elem c.conn c.pid (idtag.getD gen), some (idtag.getD gen))

/-! Derived structures -/

/-- `buildSkdTree`, src/core/MimmoObject.cpp:3265-3274; the bitpit build needs the vertices of all cells -/
def buildSkd (o : Obj P) : Option (Obj P) :=
  if o.skd.st = .notSupported then some o
  else if o.skd.st = .sync then some o
  else if o.tree = false then none
  else if complete o = false then none
  else some { o with skd := ⟨.sync, some (shapes o)⟩ }

/-- `cleanSkdTree`, src/core/MimmoObject.cpp:3312-3319 -/
def cleanSkd (o : Obj P) : Option (Obj P) :=
  if o.skd.st = .notSupported then some o
  else if o.tree = false then none
  else some { o with skd := ⟨o.skd.st.cap, none⟩ }

/-- `cleanKdTree`, src/core/MimmoObject.cpp:3301-3307 -/
def cleanKd (o : Obj P) : Obj P := { o with kd := ⟨o.kd.st.cap, none⟩ }

/-- `buildKdTree`, src/core/MimmoObject.cpp:3280-3296 -/
def buildKd (o : Obj P) : Obj P :=
  if o.verts = [] then o
  else if o.kd.st = .sync then o
  else { cleanKd o with kd := ⟨.sync, some o.verts⟩ }

/-- `buildPatchInfo`, src/core/MimmoObject.cpp:3324-3331 -/
def buildInfo (o : Obj P) : Obj P := { o with info := ⟨.sync, some (cellIds o)⟩ }

/-- `cleanPatchInfo`, src/core/MimmoObject.cpp:3336-3341 -/
def cleanInfo (o : Obj P) : Obj P := { o with info := ⟨o.info.st.cap, none⟩ }

/-- `cleanBoundingBox`, src/core/MimmoObject.cpp:3348-3352 -/
def cleanBBox (o : Obj P) : Obj P := { o with bbox := { o.bbox with st := o.bbox.st.cap } }

/-- `updateAdjacencies`, src/core/MimmoObject.cpp:3571-3592 -/
def updateAdj (o : Obj P) : Obj P :=
  match o.adj.st with
  | .notSupported => o
  | .sync => o
  | _ => { o with adj := ⟨.sync, some (topo o)⟩ }

/-- `updateInterfaces`, src/core/MimmoObject.cpp:3600-3625 -/
def updateInt (o : Obj P) : Obj P :=
  let o := if o.adj.st ≠ .sync then updateAdj o else o
  match o.int.st with
  | .notSupported => o
  | .sync => o
  | _ => { o with int := ⟨.sync, some (topo o)⟩ }

/-- `destroyAdjacencies`, src/core/MimmoObject.cpp:3630-3633 -/
def destroyAdj (o : Obj P) : Obj P := { o with adj := ⟨.none, none⟩ }

/-- `destroyInterfaces`, src/core/MimmoObject.cpp:3638-3642 -/
def destroyInt (o : Obj P) : Obj P := { o with int := ⟨.none, none⟩ }

/-- `cleanPointConnectivity`, src/core/MimmoObject.cpp:4741-4749 -/
def cleanPC (o : Obj P) : Obj P := { o with pc := ⟨o.pc.st.cap, none⟩ }

/-- `buildPointConnectivity`, src/core/MimmoObject.cpp:4680-4736 (statuses; content in Verif.Mesh.Graph) -/
def buildPC (o : Obj P) : Obj P :=
  let o := cleanPC o
  if o.type = 3 then o
  else if o.type = 1 ∨ o.type = 2 ∨ o.type = 4 then { o with pc := ⟨.sync, some (topo o)⟩ }
  else o

/-- `setUnsyncAll`, src/core/MimmoObject.cpp:2538-2550 -/
def setUnsyncAll (o : Obj P) : Obj P :=
  cleanPC { o with
    adj := { o.adj with st := o.adj.st.cap }
    int := { o.int with st := o.int.st.cap }
    kd := { o.kd with st := o.kd.st.cap }
    skd := { o.skd with st := o.skd.st.cap }
    info := { o.info with st := o.info.st.cap }
    bbox := { o.bbox with st := .unsync } }

/-! The steps of `update`, src/core/MimmoObject.cpp:3359-3440 (serial). -/

/-- src/core/MimmoObject.cpp:3374-3377 -/
def stepAdj (o : Obj P) : Obj P := if o.adj.st = .unsync then updateAdj o else o

/-- src/core/MimmoObject.cpp:3387-3390 -/
def stepInt (o : Obj P) : Obj P := if o.int.st = .unsync then updateInt o else o

/-- src/core/MimmoObject.cpp:3398-3401 -/
def stepSkd (o : Obj P) : Option (Obj P) := if o.skd.st = .unsync then buildSkd o else some o

/-- src/core/MimmoObject.cpp:3402-3405 -/
def stepKd (o : Obj P) : Obj P := if o.kd.st = .unsync then buildKd o else o

/-- src/core/MimmoObject.cpp:3408-3411 -/
def stepInfo (o : Obj P) : Obj P := if o.info.st = .unsync then buildInfo o else o

/-- src/core/MimmoObject.cpp:3414-3418 -/
def stepBBox (o : Obj P) : Obj P := if o.bbox.st ≠ .sync then { o with bbox := ⟨.sync, some o.verts⟩ } else o

/-- src/core/MimmoObject.cpp:3421-3424 -/
def stepPC (o : Obj P) : Obj P := if o.pc.st = .unsync then buildPC o else o

/-- `update`, src/core/MimmoObject.cpp:3359-3440; the patch's own `update` (line 3394) changes neither vertices nor
cells -/
def update (o : Obj P) : Option (Obj P) :=
  (stepSkd (stepInt (stepAdj o))).map fun o => stepPC (stepBBox (stepInfo (stepKd o)))

/-- `resetPatch`, src/core/MimmoObject.cpp:3647-3664 -/
def resetPatch (o : Obj P) : Option (Obj P) :=
  (cleanSkd { o with verts := [], cells := [], adj := ⟨.none, none⟩, int := ⟨.none, none⟩ }).map fun o =>
    { o with
      skd := ⟨.none, none⟩, kd := ⟨.none, none⟩, info := ⟨.none, none⟩
      bbox := ⟨.none, o.bbox.val⟩, pc := ⟨.none, none⟩ }

/-- `swap`, src/core/MimmoObject.cpp:863-898: the content is exchanged, the numbering of `this` is recomputed and
its point connectivity marked as absent; numbering and point connectivity of `x` stay as they are. -/
def swap (a x : Obj P) : Obj P × Obj P :=
  ({ x with info := ⟨.sync, some (cellIds x)⟩, pc := ⟨.none, a.pc.val⟩ },
   { a with info := x.info, pc := x.pc })

/-- constructor from vertices and connectivity, src/core/MimmoObject.cpp:352-457.  The connectivity pointer is
dereferenced whatever it is; the support test of the tree is inverted. -/
def ctorLists (type : Int) (vs : List P) (conns : Option (List (List Nat))) (gens : Nat → Nat) : Option (Obj P) :=
  let t := (max type 1).toNat
  if t > 4 then none
  else
    let o : Obj P := {
      type := t, verts := [], cells := [], pids := [], names := [], tree := t != 3
      kd := ⟨.none, none⟩, skd := ⟨if t ≠ 3 then .notSupported else .none, none⟩
      adj := ⟨.none, none⟩, int := ⟨.none, none⟩, info := ⟨.none, none⟩, bbox := ⟨.none, none⟩, pc := ⟨.none, none⟩ }
    let o := vs.foldl (fun o p => (addVertex o (gens o.verts.length) p none).1) o
    match conns with
    | none => none
    | some cs =>
      let o := cs.foldl (fun o c =>
        if desume t (c.map Int.ofNat) ≠ .undefined then
          (addConnectedCell o (gens o.cells.length) c (desume t (c.map Int.ofNat)) 0 none).1
        else o) o
      some { o with
        pids := insSet o.pids 0, names := insName o.names 0 ""
        info := ⟨.sync, some (cellIds o)⟩, bbox := ⟨.none, o.bbox.val⟩, pc := ⟨.none, o.pc.val⟩ }

/-! Triangulation -/

/-- `deleteCell` of the patch -/
def delCell (o : Obj P) (id : Nat) : Obj P := { o with cells := o.cells.filter (fun c => c.1 ≠ id) }

/-- insertion of successive triangles with successive ids, src/core/MimmoObject.cpp:4825-4831 and 4844-4850 -/
def addTris (o : Obj P) (pid : Int) : Nat → List (List Nat) → Obj P × Nat
  | newId, [] => (o, newId)
  | newId, t :: ts => addTris (addConnectedCell o 0 t .triangle pid (some newId)).1 pid (newId + 1) ts

/-- the two triangles of a quadrilateral, src/core/MimmoObject.cpp:4825-4828 -/
def quadTris (conn : List Nat) : List (List Nat) :=
  [0, 1].map (fun i => [conn.getD 0 0, conn.getD (i + 1) 0, conn.getD (i + 2) 0])

/-- the triangles of a polygon around the new vertex, src/core/MimmoObject.cpp:4836-4847 -/
def polyTris (v : Nat) (conn : List Nat) : List (List Nat) :=
  let n := conn.length - 1
  (List.range n).map (fun i => [v, conn.getD (1 + i % n) 0, conn.getD (1 + (i + 1) % n) 0])

/-- one cell in the loop, src/core/MimmoObject.cpp:4811-4863; `bary` is the centroid (external).
State: object, next cell id, next vertex id -/
def triStep (bary : Obj P → Nat → P) (s : Obj P × Nat × Nat) (id : Nat) : Option (Obj P × Nat × Nat) :=
  match get s.1.cells id with
  | none => none
  | some c =>
    match c.elem with
    | .quad | .pixel =>
      let r := addTris (delCell s.1 id) c.pid s.2.1 (quadTris c.conn)
      some (r.1, r.2, s.2.2)
    | .polygon =>
      let o := (addVertex s.1 0 (bary s.1 id) (some s.2.2)).1
      let r := addTris (delCell o id) c.pid s.2.1 (polyTris s.2.2 c.conn)
      some (r.1, r.2, s.2.2 + 1)
    | .triangle => some s
    | _ => none

/-- the loop over cells -/
def triLoop (bary : Obj P → Nat → P) : List Nat → Obj P × Nat × Nat → Option (Obj P × Nat × Nat)
  | [], s => some s
  | id :: ids, s => (triStep bary s id).bind (triLoop bary ids)

/-- `getIds(true)`: the ids in increasing order -/
def ordered (l : List Nat) : List Nat := l.mergeSort (fun a b => decide (a ≤ b))

/-- statuses before the final update, src/core/MimmoObject.cpp:4866-4871 -/
def unsyncTri (o : Obj P) : Obj P :=
  { unsyncCell o with kd := { o.kd with st := o.kd.st.cap } }

/-- the part of `triangulate` before the final update, src/core/MimmoObject.cpp:4776-4875 -/
def triangulateBody (bary : Obj P → Nat → P) (o : Obj P) : Option (Obj P) :=
  if o.type ≠ 1 then none
  else if o.verts = [] ∨ o.cells = [] then some o
  else (triLoop bary (ordered (cellIds o))
      (o, (ordered (cellIds o)).getLastD 0 + 1, (ordered (o.verts.map Prod.fst)).getLastD 0 + 1)).map
    fun s => unsyncTri s.1

/-- `triangulate`, src/core/MimmoObject.cpp:4776-4883 -/
def triangulate (bary : Obj P → Nat → P) (o : Obj P) : Option (Obj P) := (triangulateBody bary o).bind update

/-! Degenerate elements -/

/-- first vertices met at each position, src/core/MimmoObject.cpp:4938-4952: the pairs (id, coordinates) kept, and
the map from dropped vertices to kept ones.  Equality of vertices is equality of coordinates (bitpit compares with
a floating-point tolerance).  `fill` is the optional container of collapsed vertices, which refuses a second
insertion of an id (exception). -/
def uniq [DecidableEq P] (o : Obj P) : List Nat → List (Nat × P) → List (Nat × Nat) → Option (List Nat) →
    Option (List (Nat × P) × List (Nat × Nat) × Option (List Nat))
  | [], kept, vmap, fill => some (kept, vmap, fill)
  | v :: vs, kept, vmap, fill =>
    match get o.verts v with
    | none => none
    | some p =>
      match kept.find? (fun e => decide (e.2 = p)) with
      | none => uniq o vs (kept ++ [(v, p)]) vmap fill
      | some w =>
        let vmap := if vmap.any (fun e => e.1 == v) then vmap else vmap ++ [(v, w.1)]
        match fill with
        | none => uniq o vs kept vmap none
        | some l => if v ∈ l then none else uniq o vs kept vmap (some (l ++ [v]))

/-- state of the loop over the cells: cells to delete, cells to insert, vertex map, collapsed vertices -/
structure Degr where
  del : List Nat
  ins : List (Nat × Cell)
  vmap : List (Nat × Nat)
  fill : Option (List Nat)

/-- one cell, src/core/MimmoObject.cpp:4928-4972 -/
def degrStep [DecidableEq P] (o : Obj P) (s : Degr) (c : Nat × Cell) : Option Degr :=
  match uniq o (vertexIds c.2) [] s.vmap s.fill with
  | none => none
  | some (kept, vmap, fill) =>
    let ids := kept.map Prod.fst
    let t := desume o.type (ids.map Int.ofNat)
    if t ≠ c.2.elem then
      some { del := s.del ++ [c.1]
             ins := if t ≠ .undefined then s.ins ++ [(c.1, ⟨t, ids, c.2.pid, true⟩)] else s.ins
             vmap := vmap, fill := fill }
    else some { s with vmap := vmap, fill := fill }

/-- image of a vertex id -/
def renumId (m : List (Nat × Nat)) (v : Nat) : Nat := ((m.find? (fun e => e.1 == v)).map Prod.snd).getD v

/-- renumbering inside the faces of a polyhedron record -/
def renumFaces (m : List (Nat × Nat)) : Nat → List Nat → List Nat
  | 0, l => l
  | _ + 1, [] => []
  | n + 1, k :: rest => k :: ((rest.take k).map (renumId m) ++ renumFaces m n (rest.drop k))

/-- `renumberVertices` of bitpit -/
def renumber (m : List (Nat × Nat)) (c : Cell) : Cell :=
  { c with conn :=
    match c.elem with
    | .polygon =>
      (match c.conn with
      | [] => []
      | n :: vs => n :: vs.map (renumId m))
    | .polyhedron =>
      (match c.conn with
      | [] => []
      | n :: rest => n :: renumFaces m n rest)
    | _ => c.conn.map (renumId m) }

/-- the part of `degradeDegenerateElements` before the final update, src/core/MimmoObject.cpp:4898-5003; `fill`:
whether the caller asked for the collapsed vertices -/
def degradeBody [DecidableEq P] (o : Obj P) (fill : Bool) : Option (Obj P) :=
  (o.cells.foldlM (degrStep o) ⟨[], [], [], if fill then some [] else none⟩).map fun s =>
    let o1 := { o with cells := o.cells.filter (fun c => ! s.del.contains c.1) }
    let o2 := s.ins.foldl (fun o c => (addCell o 0 c.2 (some c.1)).1) o1
    let o3 := if s.vmap = [] then o2 else { o2 with cells := o2.cells.map (fun c => (c.1, renumber s.vmap c.2)) }
    if s.del = [] then o3 else unsyncTri o3

/-- `degradeDegenerateElements`, src/core/MimmoObject.cpp:4898-5007 -/
def degrade [DecidableEq P] (o : Obj P) (fill : Bool) : Option (Obj P) := (degradeBody o fill).bind update

/-! Copies and cleaning -/

/-- `clone`, src/core/MimmoObject.cpp:2463-2497; the clone of the patch has its adjacencies and interfaces built
when the original patch has -/
def clone (o : Obj P) : Option (Obj P) :=
  (ctorPatch o.type o.verts o.cells (o.adj.st ≠ .none) (o.int.st ≠ .none)).bind fun r =>
    let r := resyncPID r
    let r := o.names.foldl (fun r e => (setPIDName r e.1 e.2).1) r
    let r := if o.kd.st = .sync then buildKd r else r
    (if o.skd.st = .sync then buildSkd r else some r).map fun r =>
      if o.pc.st = .sync then buildPC r else r

/-- `cleanGeometry`, src/core/MimmoObject.cpp:2506-2528 (serial): `vs`, `cs` are what the patch contains after
`deleteCoincidentVertices` (external) -/
def cleanGeometry (o : Obj P) (vs : Data P) (cs : Data Cell) : Obj P :=
  let o' := { o with verts := vs, cells := cs }
  if o.verts.length = vs.length then o' else setUnsyncAll o'

end Verif.Mesh
