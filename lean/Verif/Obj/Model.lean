/-!
# Reading and writing Wavefront OBJ files

Transcription of `src/iogeneric/IOWavefrontOBJ.cpp`: the class `IOWavefrontOBJ`, its reader
(1601-1858, 2097-2442) and its writer (1864-1963, 2467-2628).

A file is a list of lines, each ended by a newline.  The step from the characters of a line to its words
is not modelled: a line arrives already split at the blanks, with its numbers converted.  What is kept of
the characters is whether blanks follow the last word, because the reader asks the state of the stream
after each word.  Lines of a single character are left out; so are words that are not numbers where
numbers are expected.
-/
namespace Verif.Obj

/-- A point, `std::array<double,3>`.  `α` is the type of the coordinates. -/
abbrev Pt (α : Type) := α × α × α

/-- A word of a facet line: `v`, `v/vt`, `v/vt/vn` or `v//vn` (comment at IOWavefrontOBJ.cpp 2252-2260). -/
structure Ref where
  v : Int
  t : Option Int := none
  n : Option Int := none
  deriving DecidableEq, Repr

/-- The lines of a file, named after their first characters.  `other` is any line of at least two
characters which begins with a character not listed here, or with `vp`. -/
inductive Line (α : Type) where
  | blank
  | obj (name : String)
  | v (c : List α) (trail : Bool)
  | vt (c : List α) (trail : Bool)
  | vn (c : List α) (trail : Bool)
  | f (refs : List Ref) (trail : Bool)
  | usemtl (words : List String)
  | g (words : List String)
  | s (word : Option (Option Int))
  | other
  deriving DecidableEq, Repr

/-- How reading can end badly: `at(0)` on an empty line throws `std::out_of_range`; `std::stod` and
`std::stol` on an empty word throw `std::invalid_argument`; a line that holds no coordinates is taken for
one (its words are converted all the same, or an exception is thrown); a null pointer is followed. -/
inductive Err where
  | outOfRange | badNumber | stray | null
  deriving DecidableEq, Repr

/-- Number of `v`, `vt` and `vn` lines. -/
structure Counts where
  v : Nat
  t : Nat
  n : Nat
  deriving DecidableEq, Repr

/-- The three counters of an object, IOWavefrontOBJ.cpp 2147-2185: they are taken between the line of the
object and the next one. -/
def tally {α : Type} : List (Line α) → Counts
  | [] => ⟨0, 0, 0⟩
  | .obj _ :: _ => ⟨0, 0, 0⟩
  | .v _ _ :: ls => { tally ls with v := (tally ls).v + 1 }
  | .vt _ _ :: ls => { tally ls with t := (tally ls).t + 1 }
  | .vn _ _ :: ls => { tally ls with n := (tally ls).n + 1 }
  | _ :: ls => tally ls

/-- `searchObjectPosition`, IOWavefrontOBJ.cpp 2131-2201: the name of each object and the lines from its
position to the end of the file. -/
def objects {α : Type} : List (Line α) → List (String × List (Line α))
  | [] => []
  | .obj s :: ls => (s, ls) :: objects ls
  | _ :: ls => objects ls

/-- `checkFacetDefinition`, IOWavefrontOBJ.cpp 2705-2717: the number of slashes, 3 for `v//vn`. -/
def Ref.form (r : Ref) : Nat :=
  match r.t, r.n with
  | none, none => 0
  | some _, none => 1
  | some _, some _ => 2
  | none, some _ => 3

/-- The numbers of a word once the slashes are blanks, IOWavefrontOBJ.cpp 2340. -/
def Ref.toks (r : Ref) : List Int := r.v :: (r.t.toList ++ r.n.toList)

/-- The three offsets while a facet is read; vertices are numbered from one without holes, so that the
offset is one more than the number of vertices read so far (`vOffset`, IOWavefrontOBJ.cpp 1655, 2284). -/
structure Offs where
  v : Nat
  t : Nat
  n : Nat
  deriving DecidableEq, Repr

/-- A number below zero counts from the offset, IOWavefrontOBJ.cpp 2348, 2355, 2361, 2365, 2372. -/
def shift (off : Nat) (k : Int) : Int := if k < 0 then k + off else k

/-- `txtEntry` and `normalEntry`, IOWavefrontOBJ.cpp 2237: they keep the last word read into them. -/
structure Stale where
  t : Option Int := none
  n : Option Int := none
  deriving DecidableEq, Repr

/-- A corner of a facet: the vertex, and the texture and the normal when its form has them. -/
structure Corner where
  v : Int
  t : Option Int := none
  n : Option Int := none
  deriving DecidableEq, Repr

/-- A word which is not there leaves the variable as it was; `std::stol` throws on an empty one. -/
def need (o : Option Int) : Except Err Int :=
  match o with
  | some x => .ok x
  | none => .error .badNumber

/-- The loop on a facet line, IOWavefrontOBJ.cpp 2344-2382, with `d` the form decided by the first facet
of the object.  The loop goes on while the stream is good after a vertex number: it is not when that
number is the last of the line and no blank follows it. -/
def corners (d : Nat) (o : Offs) (trail : Bool) : List Int → Stale → Except Err (List Corner × Stale)
  | [], st => .ok ([], st)
  | [c], st =>
    if trail then
      match d with
      | 0 => .ok ([⟨shift o.v c, none, none⟩], st)
      | 1 => do
        let t ← need st.t
        .ok ([⟨shift o.v c, some (shift o.t t), none⟩], st)
      | 2 => do
        let t ← need st.t
        let n ← need st.n
        .ok ([⟨shift o.v c, some (shift o.t t), some (shift o.n n)⟩], st)
      | _ => do
        let n ← need st.n
        .ok ([⟨shift o.v c, none, some (shift o.n n)⟩], st)
    else .ok ([], st)
  | [c, a], st =>
    match d with
    | 0 => do
      let r ← corners d o trail [a] st
      .ok (⟨shift o.v c, none, none⟩ :: r.1, r.2)
    | 1 => .ok ([⟨shift o.v c, some (shift o.t a), none⟩], { st with t := some a })
    | 2 => do
      let n ← need st.n
      .ok ([⟨shift o.v c, some (shift o.t a), some (shift o.n n)⟩], { st with t := some a })
    | _ => .ok ([⟨shift o.v c, none, some (shift o.n a)⟩], { st with n := some a })
  | c :: a :: b :: rest, st =>
    match d with
    | 0 => do
      let r ← corners d o trail (a :: b :: rest) st
      .ok (⟨shift o.v c, none, none⟩ :: r.1, r.2)
    | 1 => do
      let r ← corners d o trail (b :: rest) { st with t := some a }
      .ok (⟨shift o.v c, some (shift o.t a), none⟩ :: r.1, r.2)
    | 2 => do
      let r ← corners d o trail rest { t := some a, n := some b }
      .ok (⟨shift o.v c, some (shift o.t a), some (shift o.n b)⟩ :: r.1, r.2)
    | _ => do
      let r ← corners d o trail (b :: rest) { st with n := some a }
      .ok (⟨shift o.v c, none, some (shift o.n a)⟩ :: r.1, r.2)

/-- A cell of the geometry just read with its attributes, IOWavefrontOBJ.cpp 2385-2397.  The cells of the
textures and of the normals have the same id and exist when they have at least three vertices
(`pushCell`, 2667-2691). -/
structure Cell where
  conn : List Int
  txt : List Int
  nrm : List Int
  pid : Nat
  mat : String
  grp : String
  smooth : Int
  deriving DecidableEq, Repr

/-- What has been read so far: the vertex of id `k + 1` is the `k`-th of the list, the cell of id `k + 1`
too (`addVertex(temp, vOffset + i)`, `cOffset`). -/
structure Res (α : Type) where
  verts : List (Pt α) := []
  txts : List (Pt α) := []
  nrms : List (Pt α) := []
  cells : List Cell := []
  deriving DecidableEq, Repr

/-- Where the reader stands inside an object: between two turns of its loop, or inside one of the three
inner loops with so many lines still to be absorbed. -/
inductive Mode where
  | idle | inV (k : Nat) | inT (k : Nat) | inN (k : Nat)
  deriving DecidableEq, Repr

/-- The local variables of `readObjectData`, IOWavefrontOBJ.cpp 2234-2260. -/
structure Loc (α : Type) where
  mode : Mode := .idle
  cast : Option α := none
  form : Option Nat := none
  stale : Stale := {}
  mat : String := ""
  grp : String := ""
  smooth : Int := 0
  deriving DecidableEq, Repr

/-- The coordinates written on a line. -/
def Line.coords? {α : Type} : Line α → Option (List α × Bool)
  | .v c t => some (c, t)
  | .vt c t => some (c, t)
  | .vn c t => some (c, t)
  | _ => none

/-- `ss >> cast_stod; val = std::stod(cast_stod)`: without a word the variable keeps the last one. -/
def word {α : Type} (c : List α) (st : Option α) : Except Err (α × List α) :=
  match c, st with
  | x :: xs, _ => .ok (x, xs)
  | [], some y => .ok (y, [])
  | [], none => .error .badNumber

/-- The three coordinates of a `v` or of a `vn` line, IOWavefrontOBJ.cpp 2272-2278, 2312-2318. -/
def triple {α : Type} (c : List α) (st : Option α) : Except Err (Pt α × Option α) := do
  let a ← word c st
  let b ← word a.2 (some a.1)
  let d ← word b.2 (some b.1)
  .ok ((a.1, b.1, d.1), some d.1)

/-- The coordinates of a `vt` line, IOWavefrontOBJ.cpp 2291-2299: they are read while the stream is good,
the others stay zero. -/
def texel {α : Type} [Zero α] (c : List α) (trail : Bool) (st : Option α) : Except Err (Pt α × Option α) :=
  match c with
  | [] =>
    if trail then
      match st with
      | some y => .ok ((y, 0, 0), st)
      | none => .error .badNumber
    else .ok ((0, 0, 0), st)
  | [x] => if trail then .ok ((x, x, 0), some x) else .ok ((x, 0, 0), some x)
  | [x, y] => if trail then .ok ((x, y, y), some y) else .ok ((x, y, 0), some y)
  | x :: y :: z :: _ => .ok ((x, y, z), some z)

/-- What an object is read with: its name, its PID, its counters, `m_ignoringCellGroups`. -/
structure Env where
  name : String
  pid : Nat
  cnt : Counts
  ign : Bool := false
  deriving DecidableEq, Repr

variable {α : Type} [Zero α]

/-- A turn of the loop on the `v` lines, IOWavefrontOBJ.cpp 2270-2284. -/
def absorbV (L : Line α) (s : Loc α × Res α) : Except Err (Loc α × Res α) :=
  match L.coords? with
  | none => .error .stray
  | some c => do
    let p ← triple c.1 s.1.cast
    .ok ({ s.1 with cast := p.2 }, { s.2 with verts := s.2.verts ++ [p.1] })

/-- A turn of the loop on the `vt` lines, IOWavefrontOBJ.cpp 2289-2305. -/
def absorbT (L : Line α) (s : Loc α × Res α) : Except Err (Loc α × Res α) :=
  match L.coords? with
  | none => .error .stray
  | some c => do
    let p ← texel c.1 c.2 s.1.cast
    .ok ({ s.1 with cast := p.2 }, { s.2 with txts := s.2.txts ++ [p.1] })

/-- A turn of the loop on the `vn` lines, IOWavefrontOBJ.cpp 2310-2324. -/
def absorbN (L : Line α) (s : Loc α × Res α) : Except Err (Loc α × Res α) :=
  match L.coords? with
  | none => .error .stray
  | some c => do
    let p ← triple c.1 s.1.cast
    .ok ({ s.1 with cast := p.2 }, { s.2 with nrms := s.2.nrms ++ [p.1] })

/-- The offsets of a state. -/
def offs (r : Res α) : Offs := ⟨r.verts.length + 1, r.txts.length + 1, r.nrms.length + 1⟩

/-- The form of the facets: decided once per object, IOWavefrontOBJ.cpp 2330-2338. -/
def formOf (form : Option Nat) (refs : List Ref) : Option Nat :=
  match form with
  | some d => some d
  | none => refs.head?.map Ref.form

/-- The case of a facet, IOWavefrontOBJ.cpp 2328-2399 (`pushCell` refuses less than three vertices). -/
def facet (e : Env) (refs : List Ref) (trail : Bool) (s : Loc α × Res α) : Except Err (Loc α × Res α) :=
  match formOf s.1.form refs with
  | none => .ok s
  | some d => do
    let r ← corners d (offs s.2) trail (refs.flatMap Ref.toks) s.1.stale
    let loc := { s.1 with form := some d, stale := r.2 }
    if r.1.length < 3 then .ok (loc, s.2)
    else
      .ok (loc, { s.2 with cells := s.2.cells ++
        [⟨r.1.map Corner.v, r.1.filterMap Corner.t, r.1.filterMap Corner.n, e.pid,
          s.1.mat, s.1.grp, s.1.smooth⟩] })

/-- The switch on the key of the line, IOWavefrontOBJ.cpp 2327-2438 and `convertKeyEntryToInt`,
2637-2649; the flag tells that the key is `o`, which ends the loop. -/
def dispatch (e : Env) (L : Line α) (s : Loc α × Res α) : Except Err ((Loc α × Res α) × Bool) :=
  match L with
  | .f refs trail => do
    let s' ← facet e refs trail s
    .ok (s', false)
  | .usemtl w => .ok (({ s.1 with mat := w.headD s.1.mat }, s.2), false)
  | .g w =>
    if e.ign then .ok (s, false)
    else
      let a := w.headD s.1.grp
      .ok (({ s.1 with grp := if a = e.name then "" else a }, s.2), false)
  | .s w =>
    .ok (({ s.1 with smooth := match w with | some (some k) => k | _ => 0 }, s.2), false)
  | .obj _ => .ok (s, true)
  | _ => .ok (s, false)

/-- The test for `vn`, IOWavefrontOBJ.cpp 2308, and what follows it. -/
def stageN (e : Env) (L : Line α) (s : Loc α × Res α) : Except Err ((Loc α × Res α) × Bool) :=
  match L, e.cnt.n with
  | .vn _ _, k + 1 => do
    let s' ← absorbN L s
    .ok (({ s'.1 with mode := .inN k }, s'.2), false)
  | _, _ => dispatch e L ({ s.1 with mode := .idle }, s.2)

/-- The test for `vt`, IOWavefrontOBJ.cpp 2287, and what follows it. -/
def stageT (e : Env) (L : Line α) (s : Loc α × Res α) : Except Err ((Loc α × Res α) × Bool) :=
  match L, e.cnt.t with
  | .vt _ _, k + 1 => do
    let s' ← absorbT L s
    .ok (({ s'.1 with mode := .inT k }, s'.2), false)
  | _, _ => stageN e L s

/-- The test for `v`, IOWavefrontOBJ.cpp 2268, and what follows it. -/
def stageV (e : Env) (L : Line α) (s : Loc α × Res α) : Except Err ((Loc α × Res α) × Bool) :=
  match L, e.cnt.v with
  | .v _ _, k + 1 => do
    let s' ← absorbV L s
    .ok (({ s'.1 with mode := .inV k }, s'.2), false)
  | _, _ => stageT e L s

/-- The next line of an object.  Between two turns of the loop a short line is skipped (2265); inside
the inner loops `line.at(0)` follows every `getline` (2281, 2302, 2321). -/
def line (e : Env) (L : Line α) (s : Loc α × Res α) : Except Err ((Loc α × Res α) × Bool) :=
  match s.1.mode, L with
  | .idle, .blank => .ok (s, false)
  | .idle, _ => stageV e L s
  | _, .blank => .error .outOfRange
  | .inV (k + 1), _ => do
    let s' ← absorbV L s
    .ok (({ s'.1 with mode := .inV k }, s'.2), false)
  | .inV 0, _ => stageT e L s
  | .inT (k + 1), _ => do
    let s' ← absorbT L s
    .ok (({ s'.1 with mode := .inT k }, s'.2), false)
  | .inT 0, _ => stageN e L s
  | .inN (k + 1), _ => do
    let s' ← absorbN L s
    .ok (({ s'.1 with mode := .inN k }, s'.2), false)
  | .inN 0, _ => dispatch e L ({ s.1 with mode := .idle }, s.2)

/-- `readObjectData`, IOWavefrontOBJ.cpp 2223-2442: line after line up to the key `o` or to the end of the
file, where the line is empty. -/
def readObj (e : Env) : List (Line α) → Loc α × Res α → Except Err (Res α)
  | [], s => if s.1.mode = .idle then .ok s.2 else .error .outOfRange
  | L :: ls, s => do
    let r ← line e L s
    if r.2 then .ok r.1.2 else readObj e ls r.1

/-- The loop on the objects, IOWavefrontOBJ.cpp 1657-1663: PIDs from zero, fresh local variables. -/
def readObjs (ign : Bool) : Nat → List (String × List (Line α)) → Res α → Except Err (Res α)
  | _, [], r => .ok r
  | pid, o :: os, r => do
    let r' ← readObj { name := o.1, pid := pid, cnt := tally o.2, ign := ign } o.2 ({}, r)
    readObjs ign (pid + 1) os r'

/-- The part of `read` which goes through the file, IOWavefrontOBJ.cpp 1625-1665. -/
def scanFile (ign : Bool) (file : List (Line α)) : Except Err (Res α) := readObjs ign 0 (objects file) {}

/-- `read`, IOWavefrontOBJ.cpp 1601-1858.  The textures and the normals are reset to null when they have
no vertex (1707-1714); the last lines call `update` on both (1855-1856) whatever they are.  The cleaning
of the mesh in between (1718-1848) is not modelled. -/
def readFile (ign : Bool) (file : List (Line α)) : Except Err (Res α) := do
  let r ← scanFile ign file
  if r.txts = [] ∨ r.nrms = [] then .error .null else .ok r

end Verif.Obj
