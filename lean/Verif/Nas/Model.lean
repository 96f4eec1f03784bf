import Verif.Xml.Props
import Mathlib.Algebra.Field.Rat
/-!
# Nastran files

Transcription of `NastranInterface` (`src/iogeneric/MimmoGeometry.cpp` 1275-1958 and `MimmoGeometry.hpp` 253-330) as
MimmoGeometry uses it.  A file is a list of lines, split at the ends of lines: a file which ends with an end of line has
an empty last line.  The cards RBE2 and RBE3, which are never enabled (the functions which enable are protected), are
not modelled.
-/
namespace Verif.Nas

open Verif.Xml (Text trim blank toText isDigit digitsVal INT_MAX)

/-! ## Writing -/

/-- Digits of the decimals: the last `k` digits of `f`. -/
def decimals : Nat → Nat → Text
  | 0, _ => []
  | k + 1, f => decimals k (f / 10) ++ [Char.ofNat (48 + f % 10)]

/-- A coordinate as `std::fixed` with `k` decimals prints it: sign, integer part, decimals (rounding to `k` decimals is
that of the stream). -/
structure Num where
  neg : Bool
  int : Nat
  frac : Nat
  deriving DecidableEq, Repr

def Num.text (k : Nat) (x : Num) : Text :=
  (if x.neg then ['-'] else []) ++ (toText x.int ++ '.' :: decimals k x.frac)

/-- `std::setw` on the right: blanks before. -/
def padLeft (w : Nat) (t : Text) : Text := List.replicate (w - t.length) ' ' ++ t

/-- `std::setw` on the left: blanks after. -/
def padRight (w : Nat) (t : Text) : Text := t ++ List.replicate (w - t.length) ' '

/-- The width of the fields: `offset + 3`, MimmoGeometry.hpp 295-297; also the decimals, 299. -/
def width (long : Bool) : Nat := if long then 16 else 8

/-- `writeValue`, MimmoGeometry.hpp 292-330, of a printed value: its first characters.  The branches on exponents are
never taken, because of `std::fixed`. -/
def writeValue (long : Bool) (t : Text) : Text := padLeft (width long) (t.take (width long))

/-- `writeKeyword`, MimmoGeometry.cpp 1306-1322. -/
def writeKeyword (long : Bool) (key : Text) : Text := padRight 8 (if long then key ++ ['*'] else key)

/-- A point. -/
structure Point where
  id : Nat
  x : Num
  y : Num
  z : Num
  deriving DecidableEq, Repr

/-- `writeCoord`, MimmoGeometry.cpp 1330-1381: one line, two in the long format. -/
def writeCoord (long : Bool) (p : Point) : List Text :=
  let k := width long
  if long then
    [writeKeyword long "GRID".toList ++ (writeValue long (toText p.id) ++ (writeValue long [] ++
      (writeValue long (p.x.text k) ++ writeValue long (p.y.text k)))),
     writeKeyword long [] ++ writeValue long (p.z.text k)]
  else
    [writeKeyword long "GRID".toList ++ (writeValue long (toText p.id) ++ (writeValue long [] ++
      (writeValue long (p.x.text k) ++ (writeValue long (p.y.text k) ++ writeValue long (p.z.text k)))))]

/-- `writeFace`, MimmoGeometry.cpp 1391-1452: always in the short format. -/
def writeFace (type : Text) (conn : List Nat) (id pid : Nat) : Text :=
  writeKeyword false type ++ (writeValue false (toText id) ++ (writeValue false (toText pid) ++
    conn.flatMap fun v => writeValue false (toText v)))

/-- The loop on the faces, MimmoGeometry.cpp 1479-1493: the labels and the PIDs advance with the faces which are
written. -/
def writeFaces : List (List Nat) → List Nat → List Nat → List Text
  | [], _, _ => []
  | f :: fs, ids, pids =>
    if f.length = 3 then writeFace "CTRIA3".toList f (ids.headD 0) (pids.headD 0) :: writeFaces fs ids.tail pids.tail
    else if f.length = 4 then
      writeFace "CQUAD4".toList f (ids.headD 0) (pids.headD 0) :: writeFaces fs ids.tail pids.tail
    else writeFaces fs ids pids

/-- `writeFooter`, MimmoGeometry.cpp 1502-1546, with a list of PIDs. -/
def writeFooter (long : Bool) (pids : List Nat) : List Text :=
  pids.map (fun pid => writeKeyword long "PSHELL".toList ++ (writeValue long (toText pid) ++
    (List.replicate 6 (writeValue long (toText 1))).flatten)) ++
  [writeKeyword long "MAT1".toList ++ (writeValue long (toText 1) ++ (List.replicate 7 (writeValue long [])).flatten)]

/-- `write`, MimmoGeometry.cpp 1561-1574; `none` when it throws.  The lines of the file, the last of which is empty. -/
def write (long : Bool) (name : Text) (pts : List Point) (faces : List (List Nat)) (ids pids pidset : List Nat) :
    Option (List Text) :=
  if faces.length ≠ ids.length then none
  else if pids.length ≠ faces.length then none
  else some (["TITLE=mimmo ".toList ++ (name ++ " mesh".toList), "$".toList, "BEGIN BULK".toList] ++
    (pts.flatMap (writeCoord long) ++ (writeFaces faces ids pids ++ (writeFooter long pidset ++ ["ENDDATA".toList, []]))))

/-! ## Reading -/

/-- `std::string::substr`; `none` when it throws. -/
def sub (l : Text) (pos len : Nat) : Option Text := if pos ≤ l.length then some ((l.drop pos).take len) else none

/-- The sign of a number. -/
def splitSign : Text → Bool × Text
  | '-' :: r => (true, r)
  | '+' :: r => (false, r)
  | u => (false, u)

/-- The digits after the point, and what follows them. -/
def fraction : Text → Text × Text
  | '.' :: s => (s.takeWhile isDigit, s.dropWhile isDigit)
  | s => ([], s)

/-- `std::stoi`: blanks, a sign and digits; `none` when it throws. -/
def stoi (t : Text) : Option Int :=
  let r := splitSign (t.dropWhile blank)
  let ds := r.2.takeWhile isDigit
  if ds = [] then none
  else if digitsVal ds ≤ INT_MAX then some (if r.1 then -(digitsVal ds : Int) else digitsVal ds)
  else none

/-- The exponent after a number: zero when there is none. -/
def exponent : Text → Int
  | 'E' :: '-' :: t => -(digitsVal (t.takeWhile isDigit) : Int)
  | 'E' :: '+' :: t => digitsVal (t.takeWhile isDigit)
  | 'E' :: t => digitsVal (t.takeWhile isDigit)
  | _ => 0

/-- `std::stod` of decimal numbers: sign, digits, point, digits and exponent; what follows is ignored; `none` when there
are no digits.  (A small `e`, infinities, NaN and hexadecimals are outside the model; the value is exact.) -/
def stod (t : Text) : Option ℚ :=
  let r := splitSign (t.dropWhile blank)
  let ip := r.2.takeWhile isDigit
  let q := fraction (r.2.dropWhile isDigit)
  if ip ++ q.1 = [] then none
  else some ((if r.1 then -1 else 1) * ((digitsVal (ip ++ q.1) : ℚ) / 10 ^ q.1.length) * 10 ^ exponent q.2)

/-- `find_last_of`. -/
def lastIdx (c : Char) : Text → Option Nat
  | [] => none
  | x :: t => match lastIdx c t with
    | some k => some (k + 1)
    | none => if x = c then some 0 else none

/-- `insert(pos, "E")`. -/
def insertE (t : Text) (p : Nat) : Text := t.take p ++ 'E' :: t.drop p

/-- `convertVertex`, MimmoGeometry.cpp 1801-1814. -/
def convertVertex (t : Text) : Text :=
  match lastIdx '-' t with
  | some (p + 1) => insertE t (p + 1)
  | _ => match lastIdx '+' t with
    | some (p + 1) => insertE t (p + 1)
    | _ => t

/-- The cards. -/
inductive Card where
  | grid | gridL | tria | triaL | quad | quadL | bar
  deriving DecidableEq, Repr

/-- The first eight characters without blanks. -/
def key (l : Text) : Text := trim (l.take 8)

/-- The names of the cards, MimmoGeometry.cpp 1608-1701. -/
def cardOf (k : Text) : Option Card :=
  if k = "GRID".toList then some .grid
  else if k = "GRID*".toList then some .gridL
  else if k = "CTRIA3".toList then some .tria
  else if k = "CTRIA3*".toList then some .triaL
  else if k = "CQUAD4".toList then some .quad
  else if k = "CQUAD4*".toList then some .quadL
  else if k = "CBAR".toList then some .bar
  else none

/-- What is enabled, MimmoGeometry.cpp 1282-1291. -/
def Card.enabled : Card → Bool
  | .bar => false
  | _ => true

/-- What is read. -/
structure Face where
  id : Int
  pid : Int
  conn : List Int
  deriving DecidableEq, Repr

structure Got where
  pts : List (Int × ℚ × ℚ × ℚ)
  faces : List Face
  deriving DecidableEq, Repr

def int (l : Text) (pos len : Nat) : Option Int := (sub l pos len).bind stoi
def real (l : Text) (pos len : Nat) : Option ℚ := (sub l pos len).bind fun t => stod (convertVertex (trim t))

/-- A point, MimmoGeometry.cpp 1618-1637. -/
def readPoint (l : Text) (i x y z len : Nat) (g : Got) : Option Got :=
  (int l i len).bind fun id => (real l x len).bind fun a => (real l y len).bind fun b => (real l z len).map fun c =>
    { g with pts := g.pts ++ [(id, a, b, c)] }

/-- A face: label, PID and vertices. -/
def readFace (l : Text) (i p : Nat) (vs : List Nat) (len : Nat) (g : Got) : Option Got :=
  (int l i len).bind fun id => (int l p len).bind fun pid => (vs.mapM fun v => int l v len).map fun conn =>
    { g with faces := g.faces ++ [⟨id, pid, conn⟩] }

/-- The branches of `read`, MimmoGeometry.cpp 1618-1713; `none` when it throws. -/
def process (l : Text) : Card → Got → Option Got
  | .grid, g => readPoint l 8 24 32 40 8 g
  | .gridL, g => readPoint l 16 48 64 80 16 g
  | .tria, g => readFace l 8 16 [24, 32, 40] 8 g
  | .triaL, g => readFace l 16 32 [48, 64, 80] 16 g
  | .quad, g => readFace l 8 16 [24, 32, 40, 48] 8 g
  | .quadL, g => readFace l 16 32 [48, 64, 80, 96] 16 g
  | .bar, g => readFace l 8 16 [24, 32] 8 g

/-- The loops of `read`, MimmoGeometry.cpp 1604-1713, as one: the line, the lines not yet read (none is the end of the
file) and what was got.  A line which is no enabled card is followed by the next one; when the end of the file is met
there, the line is processed even when it is not enabled. -/
def loop : Text → List Text → Got → Option Got
  | _, [], g => some g
  | cur, l :: rest, g =>
    match (cardOf (key cur)).filter Card.enabled with
    | some c => (process cur c g).bind fun g' => loop l rest g'
    | none =>
      if rest = [] then
        match cardOf (key l) with
        | some c => process l c g
        | none => some g
      else loop l rest g

def read (lines : List Text) : Option Got := loop [] lines ⟨[], []⟩

/-! ## The PIDs -/

/-- The PIDs which MimmoGeometry gives to the interface, MimmoGeometry.cpp 594-606. -/
def shiftPids (set pids : List Int) : List Int × List Int :=
  if set.contains (-1) || set.contains 0 then
    let offset : Int := 1 + if set.contains (-1) then 1 else 0
    (set.map (· + offset), pids.map (· + offset))
  else (set, pids)

/-- The export of a mesh, MimmoGeometry.cpp 567-620: the labels are one more than the ids.  (The PIDs of a mesh, and `-1`
for none, are not lower than `-1`.) -/
def exportMesh (long : Bool) (name : Text) (verts : List Point) (cells : List (Nat × List Nat)) (set pids : List Int) :
    Option (List Text) :=
  let s := shiftPids set pids
  write long name (verts.map fun p => { p with id := p.id + 1 }) (cells.map fun c => c.2.map (· + 1))
    (cells.map (·.1 + 1)) (s.2.map Int.toNat) (s.1.map Int.toNat)

end Verif.Nas
