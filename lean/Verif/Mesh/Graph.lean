import Verif.Mesh.Query
/-
Graph algorithms of `mimmo::MimmoObject` (src/core/MimmoObject.cpp), serial build: closed-surface test, decomposition
in connected pieces, narrow bands around a surface, point connectivity.

Loops of the code are relations `Runs`: a run that ends with a result, or with an exception, or never ends.
Sets whose iteration order is unspecified are lists; results are compared as sets.
-/
namespace Verif.Mesh
open Verif.Field

/-- outcome of one iteration of a loop -/
inductive Out (σ ρ : Type) where
  | next (s : σ)
  | done (r : ρ)
  | fail

/-- the loop started in a state ends with a result, or (`none`) with an exception -/
inductive Runs {σ ρ : Type} (f : σ → Out σ ρ) : σ → Option ρ → Prop
  | done {s r} : f s = .done r → Runs f s (some r)
  | fail {s} : f s = .fail → Runs f s none
  | next {s s' r} : f s = .next s' → Runs f s' r → Runs f s r

/-! Closed-surface test -/

/-- what the test reads of a cell -/
structure CFace where
  interior : Bool
  border : List Bool

/-- one iteration of the loop of `isClosedLoop`, src/core/MimmoObject.cpp:3482-3492; state: cells from the iterator
on, and the flag.  The iterator only advances on interior cells. -/
def closedStep (s : List CFace × Bool) : Out (List CFace × Bool) Bool :=
  match s with
  | ([], chk) => .done chk
  | (_ :: _, false) => .done false
  | (c :: cs, true) =>
    if c.interior then .next (cs, c.border.foldl (fun chk b => chk && !b) true) else .next (c :: cs, true)

/-! Connected pieces -/

/-- first neighbour through a face not yet reached, src/core/MimmoObject.cpp:3545-3556; state: stack (last first) and
set of the reached cells -/
def faceStep (s : List Nat × List Nat) (neighs : List Nat) : List Nat × List Nat :=
  match neighs.find? (fun n => !s.2.contains n) with
  | none => s
  | some n => (n :: s.1, insSet s.2 n)

/-- the inner loop, src/core/MimmoObject.cpp:3533-3558; state: stack, collected cells, reached cells.
`cells` gives the neighbours of a cell face by face; `at` of a cell that does not exist throws. -/
def pieceStep (cells : Data (List (List Nat))) (s : List Nat × List Nat × List Nat) :
    Out (List Nat × List Nat × List Nat) (List Nat × List Nat) :=
  match s with
  | ([], save, chk) => .done (save, chk)
  | (t :: st, save, chk) =>
    match get cells t with
    | none => .fail
    | some faces =>
      let r := faces.foldl faceStep (st, chk)
      .next (r.1, save ++ [t], r.2)

/-- id of the cell the next piece starts from, src/core/MimmoObject.cpp:3519-3528; -1 if there is none (`none`) -/
def pieceStart (ids chk : List Nat) : Option Nat := ids.find? (fun i => !chk.contains i)

/-- one iteration of the outer loop has the result `r`, src/core/MimmoObject.cpp:3515-3562 -/
inductive Piece (cells : Data (List (List Nat))) (ids chk : List Nat) : Option (List Nat × List Nat) → Prop
  | run {i r} : pieceStart ids chk = some i → Runs (pieceStep cells) ([i], [], insSet chk i) r → Piece cells ids chk r
  /-- `at(-1)` throws -/
  | empty : pieceStart ids chk = none → Piece cells ids chk none

/-- `decomposeLoop`, src/core/MimmoObject.cpp:3508-3566 (adjacencies up to date); `chk`, `acc`: reached cells and
pieces collected so far; `none`: exception -/
inductive Decompose (cells : Data (List (List Nat))) (ids : List Nat) :
    List Nat → List (List Nat) → Option (List (List Nat)) → Prop
  | last {chk acc save chk'} : Piece cells ids chk (some (save, chk')) → ¬ chk'.length < ids.length →
      Decompose cells ids chk acc (some (acc ++ [save]))
  | more {chk acc save chk' r} : Piece cells ids chk (some (save, chk')) → chk'.length < ids.length →
      Decompose cells ids chk' (acc ++ [save]) r → Decompose cells ids chk acc r
  | throw {chk acc} : Piece cells ids chk none → Decompose cells ids chk acc none

/-! Narrow bands -/

/-- insertion of a seed or of a reached entity with its distance; a second insertion of an id throws -/
def bandInsert {D : Type} (dist : Nat → D) (close : Nat → Bool) (r : Data D) (id : Nat) : Option (Data D) :=
  if close id then ins r id (dist id) else some r

/-- unvisited neighbours of an entity of the band: new stack and visited entities,
src/core/MimmoObject.cpp:4280-4285 and 4492-4497 -/
def bandPush (s : List Nat × List Nat) (neighs : List Nat) : List Nat × List Nat :=
  neighs.foldl (fun s n => if s.2.contains n then s else (s.1 ++ [n], s.2 ++ [n])) s

/-- one entity of the stack, src/core/MimmoObject.cpp:4273-4287; state: result, new stack, visited -/
def bandOne {D : Type} (neighs : Nat → List Nat) (dist : Nat → D) (close : Nat → Bool)
    (s : Data D × List Nat × List Nat) (id : Nat) : Option (Data D × List Nat × List Nat) :=
  if close id then
    (ins s.1 id (dist id)).map fun r =>
      let p := bandPush (s.2.1, s.2.2) (neighs id)
      (r, p.1, p.2)
  else some s

/-- one round, src/core/MimmoObject.cpp:4241-4300 -/
def bandRound {D : Type} (neighs : Nat → List Nat) (dist : Nat → D) (close : Nat → Bool)
    (s : Data D × List Nat × List Nat) : Out (Data D × List Nat × List Nat) (Data D) :=
  match s.2.1 with
  | [] => .done s.1
  | _ :: _ =>
    match s.2.1.foldlM (bandOne neighs dist close) (s.1, [], s.2.1.foldl insSet s.2.2) with
    | none => .fail
    | some s' => .next s'

/-- state before the first round, src/core/MimmoObject.cpp:4204-4233: the seeds close enough, their neighbours that
are not seeds (each once), and the visited entities.  An exception if a close seed is listed twice. -/
def bandInit {D : Type} (neighs : Nat → List Nat) (dist : Nat → D) (close : Nat → Bool) (seeds : List Nat) :
    Option (Data D × List Nat × List Nat) :=
  (seeds.foldlM (bandInsert dist close) []).map fun r =>
    let st := r.foldl (fun v e => (neighs e.1).foldl (fun v n => if has r n then v else insSet v n) v) []
    (r, st, (r.map Prod.fst).foldl insSet st)

/-- outcome of the whole search -/
inductive Band {D : Type} (neighs : Nat → List Nat) (dist : Nat → D) (close : Nat → Bool) (seeds : List Nat) :
    Option (Data D) → Prop
  | run {s r} : bandInit neighs dist close seeds = some s → Runs (bandRound neighs dist close) s r →
      Band neighs dist close seeds r
  | throw : bandInit neighs dist close seeds = none → Band neighs dist close seeds none

/-- candidates for seeds: the ids of the list that exist, src/core/MimmoObject.cpp:4157-4164 and 4371-4378 -/
def bandSeeds (exist : List Nat) (seedlist : List Nat) : List Nat := seedlist.filter (fun i => exist.contains i)

/-- `getCellsNarrowBandToExtSurfaceWDist`, src/core/MimmoObject.cpp:4131-4305.  `faceNeighs`: neighbours in the patch
when its adjacencies are built (`adj`; without them bitpit reports no neighbour; the code updates the adjacencies of
the other surface only).  `found`: the cells selected with the trees when no seed list is given (external).
`close`: distance below the limit, `dist`: distance (external). -/
def BandCells {D : Type} (surfType type : Nat) (cells : List Nat) (adj : Bool) (faceNeighs : Nat → List Nat)
    (dist : Nat → D) (close : Nat → Bool) (found : List Nat) (seedlist : Option (List Nat)) (r : Option (Data D)) : Prop :=
  if surfType ≠ 1 ∨ type = 3 then r = some []
  else
    Band (if adj then faceNeighs else fun _ => []) dist close
      (match seedlist with
      | some l => bandSeeds cells l
      | none => found) r

/-- `getVerticesNarrowBandToExtSurfaceWDist`, src/core/MimmoObject.cpp:4339-4517.  Without a seed list the candidates
found are stored in a second variable of the same name and the number of points stays 0 (4396-4414). -/
def BandVerts {D : Type} (surfType : Nat) (verts : List Nat) (neighs : Nat → List Nat) (dist : Nat → D)
    (close : Nat → Bool) (seedlist : Option (List Nat)) (r : Option (Data D)) : Prop :=
  if surfType ≠ 1 then r = some []
  else
    Band neighs dist close
      (match seedlist with
      | some l => bandSeeds verts l
      | none => []) r

/-! Edges and point connectivity -/

/-- closed ring of vertices as edges -/
def ringEdges : List Nat → List (Nat × Nat)
  | [] => []
  | r :: l => List.zip (r :: l) (l ++ [r])

/-- edges between given local positions -/
def localEdges (conn : List Nat) (l : List (Nat × Nat)) : List (Nat × Nat) :=
  l.map (fun e => (conn.getD e.1 0, conn.getD e.2 0))

/-- edges of the faces of a polyhedron record -/
def polyEdges : Nat → List Nat → List (Nat × Nat)
  | 0, _ => []
  | _ + 1, [] => []
  | n + 1, k :: rest => ringEdges (rest.take k) ++ polyEdges n (rest.drop k)

/-- edges of a cell as bitpit defines them (external): `getFaceVertexIds` of surface cells, `getEdgeVertexIds` of
volume cells, the two vertices of a line -/
def edgesOf (c : Cell) : List (Nat × Nat) :=
  match c.elem with
  | .line => localEdges c.conn [(0, 1)]
  | .triangle => ringEdges c.conn
  | .quad => ringEdges c.conn
  | .pixel => localEdges c.conn [(0, 2), (1, 3), (0, 1), (2, 3)]
  | .polygon => ringEdges c.conn.tail
  | .tetra => localEdges c.conn [(0, 1), (1, 2), (2, 0), (3, 0), (3, 1), (3, 2)]
  | .pyramid => localEdges c.conn [(0, 1), (1, 2), (2, 3), (3, 0), (4, 0), (4, 1), (4, 2), (4, 3)]
  | .wedge => localEdges c.conn [(0, 1), (1, 2), (2, 0), (3, 4), (4, 5), (5, 3), (0, 3), (1, 4), (2, 5)]
  | .hexahedron => localEdges c.conn [(0, 1), (1, 2), (2, 3), (3, 0), (4, 5), (5, 6), (6, 7), (7, 4), (0, 4), (1, 5),
      (2, 6), (3, 7)]
  | .voxel => localEdges c.conn [(0, 1), (2, 3), (4, 5), (6, 7), (0, 2), (1, 3), (4, 6), (5, 7), (0, 4), (1, 5), (2, 6),
      (3, 7)]
  | .polyhedron =>
    (match c.conn with
    | [] => []
    | n :: rest => polyEdges n rest)
  | .vertex => []
  | .undefined => []

/-- `m_pointConnectivity[a].insert(b)` -/
def pcInsert (m : Data (List Nat)) (a b : Nat) : Data (List Nat) :=
  mapSet m a (insSet ((get m a).getD []) b)

/-- one edge, src/core/MimmoObject.cpp:4713-4726; state: set of ordered pairs already met, and the map -/
def pcEdge (s : List (Nat × Nat) × Data (List Nat)) (e : Nat × Nat) : List (Nat × Nat) × Data (List Nat) :=
  let item := if e.1 < e.2 then (e.1, e.2) else (e.2, e.1)
  if s.1.contains item then s
  else (s.1 ++ [item], pcInsert (pcInsert s.2 e.1 e.2) e.2 e.1)

/-- content of the map after `buildPointConnectivity`, src/core/MimmoObject.cpp:4680-4736 -/
def pointConn {P : Type} (o : Obj P) : Data (List Nat) :=
  if o.type = 1 ∨ o.type = 2 ∨ o.type = 4 then
    (o.cells.foldl (fun s c => (edgesOf c.2).foldl pcEdge s) ([], [])).2
  else []

end Verif.Mesh
