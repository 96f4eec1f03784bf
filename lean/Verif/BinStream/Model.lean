/-
Model of the binary streams used to pass values through ports: src/common/mimmo_binary_stream.tpp,
src/common/mimmo_binary_stream.cpp.

Plain scalars are written by bitpit's `OBinaryStream` as their object representation and read back as
such (bitpit is not in the repository; this and the exception on reading past the end are assumed).
-/
namespace Verif.BinStream

abbrev Byte := UInt8

/-- Types that can be sent: a plain scalar of `w` bytes (bool, int, long, double, enum via int, raw
pointer, …), `std::string`, `std::array<T,d>`, `std::pair<T,Q>`, `std::vector<T>`,
`std::map<T,Q>`/`std::unordered_map<T,Q>`. -/
inductive Ty where
  | scalar (w : Nat)
  | str
  | arr (d : Nat) (t : Ty)
  | pair (a b : Ty)
  | vec (t : Ty)
  | map (k v : Ty)
deriving DecidableEq, Repr

/-- Values: a scalar is its object representation; a map is the list of its entries in iteration
order.  (The well-formed ones are singled out by `Wf`.) -/
@[reducible] def Ty.D : Ty → Type
  | .scalar _ => List Byte
  | .str => List Byte
  | .arr _ t => List t.D
  | .pair a b => a.D × b.D
  | .vec t => List t.D
  | .map k v => List (k.D × v.D)

/-- equality of values is decidable -/
def Ty.decEq : (t : Ty) → DecidableEq t.D
  | .scalar _ => inferInstanceAs (DecidableEq (List Byte))
  | .str => inferInstanceAs (DecidableEq (List Byte))
  | .arr _ t => have := t.decEq; inferInstanceAs (DecidableEq (List t.D))
  | .pair a b => have := a.decEq; have := b.decEq; inferInstanceAs (DecidableEq (a.D × b.D))
  | .vec t => have := t.decEq; inferInstanceAs (DecidableEq (List t.D))
  | .map k v => have := k.decEq; have := v.decEq; inferInstanceAs (DecidableEq (List (k.D × v.D)))

instance (t : Ty) : DecidableEq t.D := t.decEq

/-- A freshly declared variable of the type (`T temp;`).  Scalars are uninitialised in the code; zero
bytes stand for whatever is there (they are always overwritten). -/
def Ty.fresh : (t : Ty) → t.D
  | .scalar w => List.replicate w (0 : Byte)
  | .str => ([] : List Byte)
  | .arr d t => List.replicate d t.fresh
  | .pair a b => (a.fresh, b.fresh)
  | .vec t => ([] : List t.D)
  | .map k v => ([] : List (k.D × v.D))

/-- little-endian bytes of a number (`std::size_t` on the supported platforms is 8 bytes) -/
def le : Nat → Nat → List Byte
  | 0, _ => []
  | k + 1, n => UInt8.ofNat (n % 256) :: le k (n / 256)

/-- value of little-endian bytes -/
def unle : List Byte → Nat
  | [] => 0
  | b :: bs => b.toNat + 256 * unle bs

/-- bytes of a `std::size_t` -/
def sizeBytes : Nat := 8

/-- `operator<<` for every type: scalars (bitpit), string (src/common/mimmo_binary_stream.cpp:66-79),
array (mimmo_binary_stream.tpp:72-79), pair (:120-126), vector (:35-44), maps (:156-165, :195-204). -/
def write : (t : Ty) → t.D → List Byte
  | .scalar _, (x : List Byte) => x
  | .str, (x : List Byte) => le sizeBytes x.length ++ x
  | .arr _ t, (x : List t.D) => x.flatMap (write t)
  | .pair a b, (x : a.D × b.D) => write a x.1 ++ write b x.2
  | .vec t, (x : List t.D) => le sizeBytes x.length ++ x.flatMap (write t)
  | .map k v, (x : List (k.D × v.D)) =>
    le sizeBytes x.length ++ x.flatMap (fun e => write k e.1 ++ write v e.2)

/-- reading `w` raw bytes; `none` = bitpit's exception when the buffer ends -/
def readRaw (w : Nat) (bs : List Byte) : Option (List Byte × List Byte) :=
  if bs.length < w then none else some (bs.take w, bs.drop w)

/-- reading a `std::size_t` -/
def readSize (bs : List Byte) : Option (Nat × List Byte) :=
  (readRaw sizeBytes bs).map (fun r => (unle r.1, r.2))

/-- element-wise reading into existing variables, mimmo_binary_stream.tpp:59-61 and :91-93 -/
def readInto {α : Type} (f : α → List Byte → Option (α × List Byte)) :
    List α → List Byte → Option (List α × List Byte)
  | [], bs => some ([], bs)
  | o :: os, bs =>
    match f o bs with
    | none => none
    | some (x, bs') =>
      match readInto f os bs' with
      | none => none
      | some (xs, bs'') => some (x :: xs, bs'')

/-- `std::vector::resize` -/
def resize {α : Type} (n : Nat) (d : α) (l : List α) : List α := l.take n ++ List.replicate (n - l.length) d

/-- `var[key] = value` -/
def put {α β : Type} [DecidableEq α] : List (α × β) → α → β → List (α × β)
  | [], k, v => [(k, v)]
  | e :: m, k, v => if e.1 = k then (k, v) :: m else e :: put m k v

/-- the reading loop of maps, mimmo_binary_stream.tpp:138-146 and :177-185: `key` and `value` are
declared once, before the loop, and read into again at every turn -/
def readEntries {α β : Type} [DecidableEq α] (f : α → List Byte → Option (α × List Byte))
    (g : β → List Byte → Option (β × List Byte)) :
    Nat → α → β → List (α × β) → List Byte → Option (List (α × β) × List Byte)
  | 0, _, _, m, bs => some (m, bs)
  | n + 1, key, value, m, bs =>
    match f key bs with
    | none => none
    | some (key', bs') =>
      match g value bs' with
      | none => none
      | some (value', bs'') => readEntries f g n key' value' (put m key' value') bs''

/-- `operator>>` into an existing variable `old`: scalars (bitpit), string
(src/common/mimmo_binary_stream.cpp:87-104), array (mimmo_binary_stream.tpp:88-95), pair (:103-112, into
fresh temporaries), vector (:53-63), maps (:135-148, :174-187). -/
def read : (t : Ty) → t.D → List Byte → Option (t.D × List Byte)
  | .scalar w, _, bs => readRaw w bs
  | .str, _, bs =>
    match readSize bs with
    | none => none
    | some (n, bs') => readRaw n bs'
  | .arr d t, (old : List t.D), bs => readInto (read t) (resize d t.fresh old) bs
  | .pair a b, _, bs =>
    match read a a.fresh bs with
    | none => none
    | some (x, bs') =>
      match read b b.fresh bs' with
      | none => none
      | some (y, bs'') => some ((x, y), bs'')
  | .vec t, (old : List t.D), bs =>
    match readSize bs with
    | none => none
    | some (n, bs') => readInto (read t) (resize n t.fresh old) bs'
  | .map k v, (old : List (k.D × v.D)), bs =>
    match readSize bs with
    | none => none
    | some (n, bs') => readEntries (read k) (read v) n k.fresh v.fresh old bs'

/-- What happens when a value goes through a port (`writeBuffer`, src/core/InOut.tpp:127-138, then
`readBuffer`, :251-263: the receiver reads into a fresh `T temp`).  `rest` is whatever an earlier,
longer message left in the output buffer behind the value. -/
def transport (t : Ty) (x : t.D) (rest : List Byte) : Option (t.D × List Byte) :=
  read t t.fresh (write t x ++ rest)

end Verif.BinStream
