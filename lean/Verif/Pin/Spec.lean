import Verif.Pin.Model
/-
Specification vocabulary for connections: a network *is* a list of pins, in order of creation.
-/
namespace Verif.Pin

/-- a connection: output port `o` of `s` to input port `i` of `r` -/
structure Pin where
  s : Obj
  o : PortId
  r : Obj
  i : PortId
deriving DecidableEq, Repr

/-- the pin a request asks for -/
def Req.pin (q : Req) : Pin := ⟨q.s, q.o, q.r, q.i⟩

/-- a request is legal: sender may send, receiver may receive, both ports exist, and the port types
agree unless forced -/
def Legal (P : Ports) (q : Req) : Prop :=
  P.canBuild q.s = true ∧ P.canBuild q.r = true ∧ P.dir q.s ≠ .backward ∧ P.dir q.r ≠ .forward ∧
  q.o ∈ P.outs q.s ∧ q.i ∈ P.ins q.r ∧ (q.forced = true ∨ P.outType q.s q.o = P.inType q.r q.i)

instance (P : Ports) (q : Req) : Decidable (Legal P q) := by unfold Legal; infer_instance

/-- the map has distinct keys and positive counters -/
def Counter.Ok (c : Counter) : Prop := (Counter.keys c).Nodup ∧ ∀ e ∈ c, 0 < e.2

/-- the state of all blocks describes exactly the given pins: output ports list their receivers in
order of creation, input ports their senders, and the child/parent maps hold the number of pins
between two blocks (no entry when there is none) -/
structure Agrees (n : Net) (pins : List Pin) : Prop where
  out : ∀ s o, n.out s o = (pins.filter (fun p => p.s == s && p.o == o)).map (fun p => (p.r, p.i))
  inn : ∀ r i, n.inn r i = (pins.filter (fun p => p.r == r && p.i == i)).map (fun p => p.s)
  child : ∀ s r, (n.child s).get r = pins.countP (fun p => p.s == s && p.r == r)
  parent : ∀ r s, (n.parent r).get s = pins.countP (fun p => p.s == s && p.r == r)
  childOk : ∀ s, (n.child s).Ok
  parentOk : ∀ r, (n.parent r).Ok

/-- every pin uses existing ports -/
def PortsOk (P : Ports) (pins : List Pin) : Prop := ∀ p ∈ pins, p.o ∈ P.outs p.s ∧ p.i ∈ P.ins p.r

/-- the port lists of each block have no repetitions (they are keys of maps) -/
def Ports.Ok (P : Ports) : Prop := (∀ s, (P.outs s).Nodup) ∧ ∀ r, (P.ins r).Nodup

/-- the connections from `s` to `r` are simple: no two of them share the output port or the input
port -/
def SimpleBetween (pins : List Pin) (s r : Obj) : Prop :=
  (∀ o, pins.countP (fun p => p.s == s && p.r == r && p.o == o) ≤ 1) ∧
  (∀ i, pins.countP (fun p => p.s == s && p.r == r && p.i == i) ≤ 1)

/-- all connections touching `b` are simple -/
def SimpleAt (pins : List Pin) (b : Obj) : Prop :=
  ∀ s r, (s = b ∨ r = b) → SimpleBetween pins s r

end Verif.Pin
