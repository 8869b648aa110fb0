/- Networks in which programs ask only what the library can stand. -/
import Verif.Spec.Closed

namespace Uecho.Spec

/-- A request to read or write, of at most three properties. -/
def ShortRequest (m : Msg) : Prop := (m.esv = 0x60 ∨ m.esv = 0x61 ∨ m.esv = 0x62) ∧ m.props.length ≤ 3

/-- The controller at an address, if there is one, knows the node at another. -/
def RefNet.Knows (N : RefNet) (ip dst : String) : Prop := ∀ R, N.controllers ip = some R → R.ctl.node dst ≠ none

/-- Devices do not speak unless spoken to, except that one alone at its address may send short requests to an address. Controllers search, and send short requests, but not for instance lists, to
nodes they know. -/
def RefNet.Polite (N : RefNet) : Incident → Prop
  | .device _ (.announce _) => False
  | .device ip (.send m (some a)) => N.controllers ip = none ∧ ShortRequest m ∧ a.1 ≠ "224.0.23.0"
  | .controller _ (.device (.announce _)) => False
  | .controller ip (.device (.send m (some a))) => ShortRequest m ∧ (∀ i ∈ m.props, i.code ≠ 0xD5 ∧ i.code ≠ 0xD6) ∧ a.1 ≠ "224.0.23.0" ∧ RefNet.Knows N ip a.1
  | .controller ip (.sendTo m d) => ∀ a, whereTo d = some a → ShortRequest m ∧ (∀ i ∈ m.props, i.code ≠ 0xD5 ∧ i.code ≠ 0xD6) ∧ a.1 ≠ "224.0.23.0" ∧ RefNet.Knows N ip a.1
  | .controller ip (.post m d) => ∀ a, whereTo d = some a → ShortRequest m ∧ (∀ i ∈ m.props, i.code ≠ 0xD5 ∧ i.code ≠ 0xD6) ∧ a.1 ≠ "224.0.23.0" ∧ RefNet.Knows N ip a.1
  | _ => True

/-- All of it, each at its time. -/
def RefNet.Politely (fresh : Int → Int → Option Bytes) (N : RefNet) : List Incident → Prop
  | [] => True
  | e :: es => RefNet.Polite N e ∧ RefNet.Politely fresh (N.step RefRun.use (RefCtlRun.use fresh) e).1 es

/-- The request of a search. -/
def Searches (m : Msg) : Prop := m = { theSearch with tid := m.tid }

end Uecho.Spec
