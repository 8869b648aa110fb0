/-
What the transport is specified by: what a datagram means, which servers should be there, which can
send, which histories keep a receiver alive.
-/
import Verif.Model.Frame
import Verif.Spec.Wire

namespace Uecho.Spec

/-- What a datagram means: the message its first 1024 bytes start with, stamped with the sender. -/
def Decodes (d : Bytes) (a : Addr) (m : Msg) : Prop :=
  ∃ w t, Encodable w ∧ w = onWire w ∧ d.take 1024 = encode w ++ t ∧ m = { w with fromAddr := some a }

/-- The IPv4 addresses of the interfaces, in order, without 127.0.0.1. -/
def addresses (l : List IfInfo) : List String :=
  ((l.filterMap id).flatten.filterMap id).filter fun a => decide (a ≠ "127.0.0.1")

/-- One running unicast and one running multicast server for each address. -/
def serversFor (as : List String) : List Server :=
  as.flatMap fun a => [{ kind := .unicast, ifaddr := a, open_ := true }, { kind := .multicast, ifaddr := a, open_ := true }]

/-- The unicast servers with an open socket. -/
def working (ss : List Server) : List Server := ss.filter fun s => decide (s.kind = .unicast ∧ s.open_ = true)

/-- The receiver survives the datagrams: each means a message, and delivering it does not raise. The
last argument is the state of the observers afterwards. -/
inductive Survives {σ : Type} (deliver : σ → Msg → σ × Option Exc) : σ → List (Bytes × Addr) → σ → Prop
  | nil (st : σ) : Survives deliver st [] st
  | cons {st st' st'' : σ} {d : Bytes} {a : Addr} {m : Msg} {ds : List (Bytes × Addr)} :
      Decodes d a m → deliver st m = (st', none) → Survives deliver st' ds st'' →
      Survives deliver st ((d, a) :: ds) st''

end Uecho.Spec
