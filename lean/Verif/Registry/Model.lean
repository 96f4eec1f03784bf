/-
Model of the registries: `PortManager` (src/common/portManager.hpp), `Factory` (src/common/factory.hpp)
and the creation of ports in a block (src/core/BaseManipulation.tpp).
Unordered maps are association lists in insertion order (their iteration order is not observed).
-/
namespace Verif.Registry

/-- lookup in a map -/
def find {β : Type} (m : List (String × β)) (k : String) : Option β :=
  (m.find? (fun e => e.1 == k)).map Prod.snd

/-- `m[k] = v` -/
def put {β : Type} : List (String × β) → String → β → List (String × β)
  | [], k, v => [(k, v)]
  | e :: m, k, v => if e.1 == k then (k, v) :: m else e :: put m k v

/-- `erase(k)` -/
def erase {β : Type} (m : List (String × β)) (k : String) : List (String × β) := m.filter (fun e => e.1 != k)

/-- `InfoPort`, portManager.hpp:44-59 -/
structure InfoPort where
  id : Nat
  container : String
  datatype : String
  file : String
deriving DecidableEq, Repr

/-- default `InfoPort()`, portManager.hpp:51-56 -/
def InfoPort.default : InfoPort := ⟨0, "", "", ""⟩

/-- data members of PortManager, portManager.hpp:189-193 -/
structure PortManager where
  ports : List (String × InfoPort)
  containers : List (String × Nat)
  datatypes : List (String × Nat)
deriving DecidableEq, Repr

def PortManager.empty : PortManager := ⟨[], [], []⟩

/-- `containsPort`, portManager.hpp:140-142 -/
def containsPort (s : PortManager) (n : String) : Bool := (find s.ports n).isSome

/-- arguments of a registration -/
structure Reg where
  name : String
  container : String
  datatype : String
  file : String
deriving DecidableEq, Repr

/-- `addPort`, portManager.hpp:99-134.  `dbg`: assertions are compiled in (no NDEBUG); `none`: the program
aborts on the assertion of line 111.  Error messages are not modelled. -/
def addPort (dbg : Bool) (s : PortManager) (r : Reg) : Option (PortManager × Nat) :=
  match find s.ports r.name with
  | some i =>
    if (i.container != r.container || i.datatype != r.datatype) && dbg then none
    else some (s, i.id)
  | none =>
    let i : InfoPort := ⟨s.ports.length, r.container, r.datatype, r.file⟩
    let idC := s.containers.length
    let idD := s.datatypes.length
    some ({ ports := put s.ports r.name i,
            containers := if (find s.containers r.container).isSome then s.containers
                          else put s.containers r.container idC,
            datatypes := if (find s.datatypes r.datatype).isSome then s.datatypes
                         else put s.datatypes r.datatype idD }, i.id)

/-- `getPortData`, portManager.hpp:183-186: `ports[name]` inserts a default record when the name is not
registered and assertions are off. -/
def getPortData (dbg : Bool) (s : PortManager) (n : String) : Option (PortManager × InfoPort) :=
  match find s.ports n with
  | some i => some (s, i)
  | none => if dbg then none else some ({ s with ports := put s.ports n InfoPort.default }, InfoPort.default)

/-- a sequence of registrations (the static initialisers of REGISTER_PORT, portManager.hpp:211-213) -/
def addPorts (dbg : Bool) (s : PortManager) : List Reg → Option PortManager
  | [] => some s
  | r :: rs => (addPort dbg s r).bind (fun p => addPorts dbg p.1 rs)

/-! ### Factory -/

/-- data members of Factory, factory.hpp:144-146 (the default creator is stored and never used), and the
log of creators deleted so far.  A creator is identified by its address. -/
structure Factory where
  creators : List (String × Nat)
  freed : List Nat
deriving DecidableEq, Repr

def Factory.empty : Factory := ⟨[], []⟩

/-- `removeCreator`, factory.hpp:96-102; `none`: double delete -/
def removeCreator (f : Factory) (n : String) : Option Factory :=
  match find f.creators n with
  | none => some f
  | some c => if f.freed.contains c then none
    else some { creators := erase f.creators n, freed := c :: f.freed }

/-- `addCreator`, factory.hpp:109-113, with its return value -/
def addCreator (f : Factory) (n : String) (c : Nat) : Option (Factory × Nat) :=
  (removeCreator f n).map (fun f1 =>
    let f2 := { f1 with creators := put f1.creators n c }
    (f2, f2.creators.length + 1))

/-- which creator `create(name)` runs, factory.hpp:87-91: `some none` is the null result, `none` is the
use of a deleted creator -/
def createWith (f : Factory) (n : String) : Option (Option Nat) :=
  match find f.creators n with
  | none => some none
  | some c => if f.freed.contains c then none else some (some c)

/-- `mapRegisteredBlocks`, factory.hpp:134-142 -/
def registeredBlocks (f : Factory) : List String := f.creators.map Prod.fst

inductive FOp where
  | add (name : String) (creator : Nat)
  | remove (name : String)
deriving DecidableEq, Repr

def fstep (f : Factory) : FOp → Option Factory
  | .add n c => (addCreator f n c).map Prod.fst
  | .remove n => removeCreator f n

def frun (f : Factory) : List FOp → Option Factory
  | [] => some f
  | op :: ops => (fstep f op).bind (fun f1 => frun f1 ops)

/-! ### Ports of a block -/

/-- `m_portOut`, `m_portIn` of a block: names with the container and data type of the port -/
structure BlockPorts where
  out : List (String × (String × String))
  inn : List (String × (String × String))
deriving DecidableEq, Repr

/-- `createPortOut`, BaseManipulation.tpp:33-52 and :62-81 -/
def createPortOut (s : PortManager) (b : BlockPorts) (n : String) : BlockPorts × Bool :=
  match find s.ports n with
  | none => (b, false)
  | some i => if (find b.out n).isSome then (b, false)
    else ({ b with out := put b.out n (i.container, i.datatype) }, true)

/-- `createPortIn`, BaseManipulation.tpp:92-111 and :123-141: the test for an existing port looks at the
*output* ports -/
def createPortIn (s : PortManager) (b : BlockPorts) (n : String) : BlockPorts × Bool :=
  match find s.ports n with
  | none => (b, false)
  | some i => if (find b.out n).isSome then (b, false)
    else ({ b with inn := put b.inn n (i.container, i.datatype) }, true)

end Verif.Registry
