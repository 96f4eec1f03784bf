import Mathlib.Data.List.Basic
/-
The elements of CGNS files, as `mimmo::IOCGNS` writes and reads them (src/iocgns/IOCGNS.cpp).

The CGNS library is external: of it the numbers of the types of elements (`ElementType_t` of cgnslib.h) are used.  Ids and vertices are
natural numbers, and the numbers in a file are 1 or more.  A `std::map` from types to lists is a function to lists, empty for missing
keys; the PIDs, which are the same for all the cells of a zone, and the patch the cells are added to are left out: the cells are listed in
the order in which they are added.
-/
namespace Verif.Cgns
open List

/-- types of elements of bitpit -/
inductive El where
  | tetra | pyramid | wedge | hexa | triangle | quad | other
  deriving DecidableEq, Repr

structure Cell where
  id : Nat
  type : El
  conn : List Nat
  deriving DecidableEq, Repr

/-! ### Writing -/

/-- the types of CGNS for volumes, IOCGNS.cpp:1579-1595 -/
def volCode : El → Option Nat
  | .tetra => some 10
  | .pyramid => some 12
  | .wedge => some 14
  | .hexa => some 17
  | _ => none

/-- the types of CGNS for boundaries, IOCGNS.cpp:1653-1663 -/
def surfCode : El → Option Nat
  | .triangle => some 5
  | .quad => some 7
  | _ => none

/-- `std::swap(c[1], c[2]); std::swap(c[4], c[5])`, IOCGNS.cpp:1608-1609, 892-893 and 1778-1779; a wedge has six vertices -/
def turn : List Nat → List Nat
  | a :: b :: c :: d :: e :: f :: r => a :: c :: b :: d :: f :: e :: r
  | l => l

/-- connectivities and numbers of cells by type -/
structure Out where
  conn : Nat → List Nat
  n : Nat → Nat

def Out.empty : Out := ⟨fun _ => [], fun _ => 0⟩

/-- IOCGNS.cpp:1611-1616 -/
def Out.add (o : Out) (tt : Nat) (c : List Nat) : Out :=
  ⟨fun k => if k = tt then o.conn k ++ c else o.conn k, fun k => if k = tt then o.n k + 1 else o.n k⟩

/-- the loop of `getZoneConn`, IOCGNS.cpp:1576-1617, with the flag `unsupported` set before the loop; `none` for an exception of `at` -/
def zoneLoop (cells : Nat → Option Cell) (loc : Nat → Option Nat) : List Nat → Bool → Out → Option Out
  | [], _, o => some o
  | id :: ids, unsupported, o =>
    match cells id with
    | none => none
    | some c =>
      let unsupported := unsupported || (volCode c.type).isNone
      if unsupported then zoneLoop cells loc ids unsupported o
      else
        match c.conn.mapM loc with
        | none => none
        | some l => zoneLoop cells loc ids unsupported (o.add ((volCode c.type).getD 0) (if (volCode c.type).getD 0 = 14 then turn l else l))

/-- `getZoneConn`, IOCGNS.cpp:1563-1620 -/
def zoneConn (cells : Nat → Option Cell) (loc : Nat → Option Nat) (ids : List Nat) : Option Out := zoneLoop cells loc ids false Out.empty

/-- the loop of `getBCElementsConn`, IOCGNS.cpp:1650-1678: the connectivities and the ids by type -/
def surfLoop (cells : Nat → Option Cell) (loc : Nat → Option Nat) : List Nat → Bool → (Nat → List Nat) → (Nat → List Nat) →
    Option ((Nat → List Nat) × (Nat → List Nat))
  | [], _, m, i => some (m, i)
  | id :: ids, unsupported, m, i =>
    match cells id with
    | none => none
    | some c =>
      let unsupported := unsupported || (surfCode c.type).isNone
      if unsupported then surfLoop cells loc ids unsupported m i
      else
        match c.conn.mapM loc with
        | none => none
        | some l =>
          let tt := (surfCode c.type).getD 0
          surfLoop cells loc ids unsupported (fun k => if k = tt then m k ++ l else m k) (fun k => if k = tt then i k ++ [id] else i k)

/-- `insert(make_pair(val, counter)); ++counter`, IOCGNS.cpp:1682-1685: an existing entry is kept -/
def number (g : (Nat → Option Nat) × Nat) (id : Nat) : (Nat → Option Nat) × Nat :=
  (fun j => if j = id ∧ g.1 id = none then some g.2 else g.1 j, g.2 + 1)

/-- `getBCElementsConn`, IOCGNS.cpp:1635-1689: the connectivities, the numbers of cells and the numbers given to the cells; the map of the
numbers is empty before (line 1314) and the types are in increasing order -/
def surfConn (cells : Nat → Option Cell) (loc : Nat → Option Nat) (ids : List Nat) : Option (Out × (Nat → Option Nat)) :=
  (surfLoop cells loc ids false (fun _ => []) (fun _ => [])).map fun r =>
    (⟨r.1, fun k => (r.2 k).length⟩, ((r.2 7).foldl number ((r.2 5).foldl number (fun _ => none, 0))).1)

/-! ### Reading -/

/-- families of elements of CGNS -/
inductive Fam where
  | node | bar | tri | quad | tetra | pyra | penta | hexa
  deriving DecidableEq, Repr

/-- the types read, with their number of nodes; the numbers are those of cgnslib.h, the types those of IOCGNS.cpp:1720-1863 -/
def elementOf : Nat → Option (Fam × Nat)
  | 2 => some (.node, 1)
  | 3 => some (.bar, 2) | 4 => some (.bar, 3) | 24 => some (.bar, 4) | 40 => some (.bar, 5)
  | 5 => some (.tri, 3) | 6 => some (.tri, 6) | 25 => some (.tri, 9) | 26 => some (.tri, 10) | 41 => some (.tri, 12) | 42 => some (.tri, 15)
  | 7 => some (.quad, 4) | 8 => some (.quad, 8) | 9 => some (.quad, 9) | 27 => some (.quad, 12) | 28 => some (.quad, 16) | 44 => some (.quad, 25)
  | 10 => some (.tetra, 4) | 11 => some (.tetra, 10) | 29 => some (.tetra, 16) | 30 => some (.tetra, 20) | 45 => some (.tetra, 22)
  | 46 => some (.tetra, 34) | 47 => some (.tetra, 35)
  | 12 => some (.pyra, 5) | 21 => some (.pyra, 13) | 13 => some (.pyra, 14) | 31 => some (.pyra, 21) | 32 => some (.pyra, 29)
  | 33 => some (.pyra, 30) | 49 => some (.pyra, 50) | 50 => some (.pyra, 55)
  | 14 => some (.penta, 6) | 15 => some (.penta, 15) | 16 => some (.penta, 18) | 34 => some (.penta, 24) | 35 => some (.penta, 38)
  | 36 => some (.penta, 40) | 51 => some (.penta, 33) | 52 => some (.penta, 66) | 53 => some (.penta, 75)
  | 17 => some (.hexa, 8) | 18 => some (.hexa, 20) | 19 => some (.hexa, 27) | 37 => some (.hexa, 32) | 38 => some (.hexa, 56)
  | 39 => some (.hexa, 64) | 54 => some (.hexa, 44) | 55 => some (.hexa, 98) | 56 => some (.hexa, 125)
  | _ => none

/-- the entries taken for an element, IOCGNS.cpp:1731, 1751, 1772, 1798, 1815, 1831, 1841, 1846-1864 -/
def taken : Fam → Nat → Nat
  | .node, _ => 1
  | .bar, n => n
  | .tri, _ => 3
  | .quad, _ => 4
  | .tetra, _ => 4
  | .pyra, _ => 5
  | .penta, _ => 6
  | .hexa, _ => 8

/-- the type of the cell added to the volume -/
def volOf : Fam → Option El
  | .tetra => some .tetra
  | .pyra => some .pyramid
  | .penta => some .wedge
  | .hexa => some .hexa
  | _ => none

/-- the vertices of a cell from its entries -/
def vertices (f : Fam) (voff : Nat) (l : List Nat) : List Nat :=
  if f = .penta then turn (l.map (voff + ·)) else l.map (voff + ·)

/-- what the reading has so far: the cells added to the volume, the surface elements by id, the next id -/
structure Got where
  vol : List Cell
  surf : List (Nat × List Nat)
  next : Nat
  deriving DecidableEq, Repr

/-- `undefined` for entries taken beyond the end -/
inductive Outcome where
  | throws | undefined | done (g : Got)
  deriving DecidableEq, Repr

/-- an element: cells to the volume, triangles and quads to the surface, the rest skipped -/
def Got.add (g : Got) (f : Fam) (voff coff : Nat) (l : List Nat) : Got :=
  match volOf f with
  | some e => { g with vol := g.vol ++ [⟨g.next + coff, e, vertices f voff l⟩], next := g.next + 1 }
  | none =>
    if f = .tri ∨ f = .quad then { g with surf := g.surf ++ [(g.next, vertices f voff l)], next := g.next + 1 }
    else { g with next := g.next + 1 }

/-- the loop of a section of one type, IOCGNS.cpp:832-959: entries are taken by groups.  `fuel` bounds the number of groups by the number
of entries. -/
def sectionLoop (f : Fam) (voff coff : Nat) : Nat → List Nat → Got → Outcome
  | _, [], g => .done g
  | 0, _ :: _, _ => .undefined
  | fuel + 1, l, g => if l.length < taken f 0 then .undefined else sectionLoop f voff coff fuel (l.drop (taken f 0)) (g.add f voff coff (l.take (taken f 0)))

/-- the loop of `unpackMixedConns`, IOCGNS.cpp:1715-1876, with its own copy of the surface elements -/
def mixedLoop (voff coff : Nat) : Nat → List Nat → Got → Outcome
  | _, [], g => .done g
  | 0, _ :: _, _ => .undefined
  | fuel + 1, e :: l, g =>
    match elementOf e with
    | none => .throws
    | some (f, n) => if l.length < taken f n then .undefined else mixedLoop voff coff fuel (l.drop (taken f n)) (g.add f voff coff (l.take (taken f n)))

/-- `unpackMixedConns`, IOCGNS.cpp:1702-1877: the surface elements are passed by value, those of the caller stay as they are -/
def unpackMixed (voff coff : Nat) (l : List Nat) (g : Got) : Outcome :=
  match mixedLoop voff coff l.length l g with
  | .done r => .done { r with surf := g.surf }
  | r => r

/-- a section of a file: 1 is subtracted from all its entries (lines 686-691), then it is unpacked (lines 832-967); a section of bars or
nodes is left out with a warning -/
def readSection (type : Nat) (voff coff : Nat) (file : List Nat) (g : Got) : Outcome :=
  let l := file.map (· - 1)
  if type = 20 then unpackMixed voff coff l g
  else
    match elementOf type with
    | some (.node, _) => .done g
    | some (.bar, _) => .done g
    | some (f, _) => sectionLoop f voff coff l.length l g
    | none => .done g

end Verif.Cgns
