import Verif.Mesh.Model
/-
`reset`, `dump` and `restore` of `mimmo::MimmoObject` (src/core/MimmoObject.cpp), serial build.

The bytes of the stream are those of Verif.BinStream; here a dumped object is the record of the values written, in
their order.  The patch is written and read by bitpit (external): its vertices, its cells with their PIDs, and its
adjacencies and interfaces where they were built.
-/
namespace Verif.Mesh
open Verif.Field

variable {P : Type}

/-- `reset`, src/core/MimmoObject.cpp:3724-3809.  Types below 0 give 0 (no patch at all), types above 4 give 1.
The lists of PIDs and names and the tolerance are not touched; a tree allocated before stays for point clouds. -/
def reset (o : Obj P) (type : Int) : Option (Obj P) :=
  (resetPatch o).map fun o =>
    let t := (max 0 type).toNat
    let t := if t > 4 then 1 else t
    { o with
      type := t, tree := if t = 1 ∨ t = 2 ∨ t = 4 then true else o.tree
      kd := ⟨.none, none⟩, skd := ⟨if t = 3 then .notSupported else .none, none⟩
      adj := ⟨.none, none⟩, int := ⟨.none, none⟩, info := ⟨.none, none⟩, bbox := ⟨.none, none⟩, pc := ⟨.none, none⟩ }

/-- values on the stream, in their order -/
structure Dumped (P : Type) where
  type : Int
  pid : List Int
  sspid : List String
  adj : Status
  int : Status
  pc : Status
  verts : Data P
  cells : Data Cell

/-- `dump`, src/core/MimmoObject.cpp:3818-3846: the object itself has its PIDs resynchronised -/
def dump (o : Obj P) : Dumped P × Obj P :=
  let o := resyncPID o
  ({ type := o.type, pid := o.names.map Prod.fst, sspid := o.names.map Prod.snd
     adj := o.adj.st, int := o.int.st, pc := o.pc.st, verts := o.verts, cells := o.cells }, o)

/-- the PID loop at the end of `restore`, src/core/MimmoObject.cpp:3904-3910 -/
def readPids (s : List Int × List (Int × String)) (e : Int × String) : List Int × List (Int × String) :=
  (insSet s.1 e.1, insName s.2 e.1 e.2)

/-- `restore`, src/core/MimmoObject.cpp:3857-3913 -/
def restore (o : Obj P) (d : Dumped P) : Option (Obj P) :=
  (reset o d.type).map fun o =>
    let o := { o with
      adj := ⟨d.adj, none⟩, int := ⟨d.int, none⟩, pc := ⟨d.pc, none⟩, verts := d.verts, cells := d.cells }
    let o := { o with
      adj := ⟨d.adj, if d.adj = Status.none then none else some (topo o)⟩
      int := ⟨d.int, if d.int = Status.none then none else some (topo o)⟩ }
    let o := { o with info := ⟨.sync, some (cellIds o)⟩, bbox := ⟨.sync, some o.verts⟩ }
    let o := if o.pc.st = .sync then buildPC o else o
    let r := (d.pid.zip d.sspid).foldl readPids (o.pids, o.names)
    { o with pids := r.1, names := r.2 }

end Verif.Mesh
