/-
A network of any number of devices and controllers whose datagrams may be delivered to anybody, in any
order, and several times. Nobody but the machines sends anything.
-/
import Verif.Model.Controller
import Verif.Model.Running

namespace Uecho.Spec

/-- A machine running this library. -/
inductive Party where
  | device (n : LocalNode)
  | controller (c : Ctl)

def Party.mgr : Party → Manager
  | .device n => n.mgr
  | .controller c => c.ln.mgr

/-- What user code, listeners and the operating system do while a datagram is handled: anything. -/
structure Moment where
  env : Env
  cenv : CEnv
  net : Net

def raised {α : Type} : Except Exc α → Option Exc
  | .error e => some e
  | .ok _ => none

/-- The machine hands a message to its node. -/
def Party.deliver (ord : List Int → List Int) (w : Moment) : Party → Msg → Party × Option Exc
  | .device n, m => (.device (n.messageReceived w.env w.net m).1, raised (n.messageReceived w.env w.net m).2)
  | .controller c, m => (.controller (c.messageReceived ord w.env w.cenv w.net m).1, raised (c.messageReceived ord w.env w.cenv w.net m).2)

/-- A datagram arrives. -/
def Party.hear (ord : List Int → List Int) (w : Moment) (p : Party) (bytes : Bytes) (src : Addr) : Party :=
  (recvOne (Party.deliver ord w) p bytes src).1

/-- A datagram on its way to a machine. -/
structure Packet where
  dst : Nat
  src : Addr
  bytes : Bytes

/-- The service of a datagram is its eleventh byte. -/
def AsksFor (bytes : Bytes) : Prop := ∃ b ∈ bytes[10]?, b ∈ ([0x60, 0x61, 0x62, 0x63, 0x6E, 0x74] : List UInt8)

instance (bytes : Bytes) : Decidable (AsksFor bytes) := by unfold AsksFor; infer_instance

structure Lan where
  parties : Nat → Party
  air : List Packet

/-- One datagram reaches its machine. Each datagram the machine then hands to the operating system becomes
up to `K` packets, to whomever. -/
inductive Lan.Step (ord : List Int → List Int) (K : Nat) : Lan → Lan → Prop where
  | arrive (s : Lan) (before after copies : List Packet) (x : Packet) (w : Moment) (sent : List (Sent × Int))
      (hair : s.air = before ++ x :: after)
      (hsent : ((s.parties x.dst).hear ord w x.bytes x.src).mgr.log = (s.parties x.dst).mgr.log ++ sent)
      (hcopies : ∀ y ∈ copies, ∃ z ∈ sent, y.bytes = z.1.bytes) (hmany : copies.length ≤ K * sent.length) :
      Lan.Step ord K s
        { parties := fun i => if i = x.dst then (s.parties x.dst).hear ord w x.bytes x.src else s.parties i
          air := before ++ after ++ copies }

/-- Any number of them. -/
inductive Lan.Steps (ord : List Int → List Int) (K : Nat) : Nat → Lan → Lan → Prop where
  | refl (s) : Lan.Steps ord K 0 s s
  | step {k s t u} (h : Lan.Step ord K s t) (hs : Lan.Steps ord K k t u) : Lan.Steps ord K (k + 1) s u

/-- How long traffic may go on: a request counts for itself and the packets of its answer. -/
def weight (K B : Nat) (air : List Packet) : Nat := (air.map fun x => if AsksFor x.bytes then 1 + K * B else 1).sum

end Uecho.Spec
