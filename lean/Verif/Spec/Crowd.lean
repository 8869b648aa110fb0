/- Vocabulary for C166: a node whose receiving threads work at the same time, and the same datagrams handled one at a time. -/
import Verif.Spec.Atomic
import Verif.Model.Crowd
import Verif.Spec.Whole

namespace Uecho.Spec
open Crowd

/-- Something that can be seen of the node, or the moment at which the datagram read by thread `t` takes effect: `l` is what is sent for it, and `lives` whether the thread survives. -/
inductive Beat where
  | seen (e : Happening)
  | effect (t : Nat) (d : Bytes) (a : Addr) (l : List Sent) (lives : Bool)
deriving DecidableEq

def callUse : Speech → Use
  | .announce m => .announce m
  | .send m a => .send m a

/-- What a beat does to a device that handles one thing at a time. -/
def Beat.use : Beat → Option Use
  | .effect t d a _ _ => some (.arrive ⟨t, d, a⟩)
  | .seen (.app c p v) => some (.store c p v)
  | .seen (.call k _ _) => some (callUse k)
  | .seen _ => none

/-- The program sets data of an object. -/
def RefDevice.assign (D : RefDevice) (c p : Int) (v : Bytes) : RefDevice :=
  match D.things c with
  | none => D
  | some t => D.setThing c (t.assign p v)

/-- What the program has the device say: the device then, what is sent, and the result. -/
def RefDevice.says (D : RefDevice) : Speech → RefDevice × List Sent × Given
  | .announce m => D.announce m
  | .send m a => D.send m a

def givenBy : Option Bool → Given
  | some b => .value b
  | none => .raised

/-- One at a time: from `D`, through the effects and what the program does, to `D'`; every effect is all that the device does with the datagram, as it is then. -/
def InTurn : RefDevice → List Beat → RefDevice → Prop
  | D, [], D' => D' = D
  | D, .effect _ d a l b :: h, D' => (D.actual d a).2 = (l, b) ∧ InTurn (D.actual d a).1 h D'
  | D, .seen (.app c p v) :: h, D' => InTurn (D.assign c p v) h D'
  | D, .seen (.call k l r) :: h, D' => (D.says k).2 = (l, givenBy r) ∧ InTurn (D.says k).1 h D'
  | D, .seen _ :: h, D' => InTurn D h D'

/-- What a thread is doing: nothing; it has read a datagram; the datagram has had its effect, `l` is to be sent; it has ended. -/
inductive Phase where
  | free
  | got (d : Bytes) (a : Addr)
  | did (l : List Sent) (lives : Bool)
  | over
deriving DecidableEq

/-- Reading, taking effect, sending, in this order; `none` if something is out of order. What other threads do makes no difference. -/
def Phase.next (t : Nat) : Phase → Beat → Option Phase
  | p, .seen (.app ..) => some p
  | p, .seen (.call ..) => some p
  | p, .seen (.recv u d a) => if u = t then (if p = .free then some (.got d a) else none) else some p
  | p, .effect u d a l b => if u = t then (if p = .got d a then some (.did l b) else none) else some p
  | p, .seen (.sent u l) => if u = t then (if p = .did l true then some .free else none) else some p
  | p, .seen (.ended u) => if u = t then (if p = .did [] false then some .over else none) else some p

def Phase.after (t : Nat) : Phase → List Beat → Option Phase
  | p, [] => some p
  | p, x :: h => (p.next t x).bind fun p => p.after t h

/-- `h` tells what could be seen, `log`, as a story of datagrams handled one at a time: each takes effect once, after it was read and before anything is sent for it. -/
structure Tale (D : RefDevice) (log : List Happening) (h : List Beat) (D' : RefDevice) : Prop where
  same : (h.filterMap fun | .seen e => some e | .effect .. => none) = log
  inTurn : InTurn D h D'
  order : ∀ t, Phase.after t .free h ≠ none

/-- The device a node with busy threads is. -/
def crowdDevice (G : St) : RefDevice :=
  { things := fun c => (G.objs c).map fun s => thingOf s.obj
    ifs := (working G.node.mgr.servers).map Server.ifaddr
    tid := G.node.mgr.tid
    ctl := G.node.controller }

/-- The data of property `p` of object `c` may change in the course of `log`: it can be written from outside and a request to write it comes, or the program sets it. -/
def MayChangeAt (D : RefDevice) (log : List Happening) (c p : Int) : Prop :=
  (∃ t, D.things c = some t ∧ t.canSet p = true ∧ ∃ u d a m, Happening.recv u d a ∈ log ∧ readMsg (d.take 1024) = some m ∧ m.deoj = c ∧ Alters m p) ∨ ∃ v, Happening.app c p v ∈ log

/-- A datagram that has a transaction number other than 0 and names at most one property that may change, and this once. -/
def OneAt (D : RefDevice) (log : List Happening) (d : Bytes) : Prop :=
  ∀ m, readMsg (d.take 1024) = some m → m.tid ≠ 0 ∧ (m.props ++ m.setProps ++ m.getProps).Pairwise fun i j => ¬ (MayChangeAt D log m.deoj i.code ∧ MayChangeAt D log m.deoj j.code)

end Uecho.Spec
