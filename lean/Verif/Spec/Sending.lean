/-
What the calls of a program, and the datagrams it receives, may make the machine send. Refers to the calls and to the fields of
messages only.
-/
import Verif.Lemmas.Dispatch
import Verif.Lemmas.Controller

namespace Uecho.Spec

/-- Where announcements go: the multicast address of the protocol, at its port. -/
def everybody : Addr := ("224.0.23.0", 3610)

/-- `m` is the message `u` of the program as it goes out: a message without a TID gets one, a controller puts its own node profile as the
sender, everything else is the program's. -/
structure GoesOut (ctl : Bool) (u m : Msg) : Prop where
  esv : m.esv = u.esv
  deoj : m.deoj = u.deoj
  seoj : m.seoj = if ctl = true then 0x0EF001 else u.seoj
  props : m.props = u.props ∧ m.setProps = u.setProps ∧ m.getProps = u.getProps
  kept : u.tid ≠ 0 → m.tid = u.tid
  given : u.tid = 0 → 1 ≤ m.tid ∧ m.tid ≤ 65535

/-- `m` is an answer to the request `q`: a response or a notification, to the object that asked, from the object asked (a controller:
from its node profile), with the TID of the request. -/
structure AnswerTo (ctl : Bool) (q m : Msg) : Prop where
  request : q.esv ∈ ([0x60, 0x61, 0x62, 0x63, 0x6E, 0x74] : List Int)
  esv : m.esv ∈ ([0x50, 0x52, 0x53, 0x5E, 0x71, 0x72, 0x73, 0x7A, 0x7E] : List Int)
  deoj : m.deoj = q.seoj % 2 ^ 24
  seoj : m.seoj = if ctl = true then 0x0EF001 else q.deoj % 2 ^ 24
  tid : q.tid % 2 ^ 16 ≠ 0 → m.tid = q.tid % 2 ^ 16

/-- What a call on a local node, or a message delivered to it, may make it send: to whom, and what. -/
def NodeCauses (ctl : Bool) : NodeOp → Addr → Msg → Prop
  | .receive _ _ q, a, m => AnswerTo ctl q m ∧ (if m.esv = 0x73 then a = everybody else q.fromAddr = some a)
  | .announce _ u, a, m => a = everybody ∧ GoesOut ctl u m
  | .send _ u d, a, m => d = some a ∧ GoesOut ctl u m
  | _, _, _ => False

/-- The search of a controller: a read of the instance list of every node profile. -/
def isSearch (m : Msg) : Prop :=
  m.seoj = 0x0EF001 ∧ m.deoj = 0x0EF001 ∧ m.esv = 0x62 ∧ m.props.map (fun p => (p.code, p.data)) = [(0xD6, [])] ∧ m.setProps = [] ∧ m.getProps = [] ∧
    1 ≤ m.tid ∧ m.tid ≤ 65535

/-- Where a controller is told to send: to the node given, or the address given, at port 3610 if no port is given. -/
def destOf : PyDest → Addr → Prop
  | .remote r, a => a = (r.node.ip, r.node.port)
  | .str ip, a => a = (ip, 3610)
  | .pair p, a => a = p
  | .other, _ => False

/-- The same for a controller. -/
def CtlCauses : CtlOp → Addr → Msg → Prop
  | .receive _ _ _ q, a, m => AnswerTo true q m ∧ (if m.esv = 0x73 then a = everybody else q.fromAddr = some a)
  | .announce _ u, a, m => a = everybody ∧ GoesOut true u m
  | .send _ u d, a, m => destOf d a ∧ GoesOut true u m
  | .post _ u d, a, m => destOf d a ∧ GoesOut true u m
  | .start _ _, a, m => a = everybody ∧ isSearch m
  | .search _, a, m => a = everybody ∧ isSearch m
  | _, _, _ => False

end Uecho.Spec
