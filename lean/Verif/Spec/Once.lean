/- What nodes held, and what others say about it. -/
import Verif.Spec.Polite

namespace Uecho.Spec

/-- The node at an address, device or controller, holds these data in a property of an object. -/
def RefNet.Holds (N : RefNet) (ip : String) (o c : Int) (b : Bytes) : Prop :=
  (∃ R e, N.devices ip = some R ∧ R.dev.entry o c = some e ∧ e.data = b) ∨ ∃ R e, N.controllers ip = some R ∧ R.ctl.dev.entry o c = some e ∧ e.data = b

/-- A message that tells the values of properties: the answer to a read, or an announcement. -/
def Tells (m : Msg) : Prop := m.esv = 0x72 ∨ m.esv = 0x73

def Incident.at_ : Incident → String
  | .device ip _ => ip
  | .controller ip _ => ip

/-- What a program itself tells of a node's properties is so. -/
def RefNet.Honest (N : RefNet) (e : Incident) : Prop :=
  ∀ dst m, e.says = some (dst, m) → Tells m → ∀ i ∈ m.props, N.Holds e.at_ (m.seoj % 2 ^ 24) i.code i.data

/-- Each at its time. -/
def RefNet.Honestly (fresh : Int → Int → Option Bytes) (N : RefNet) : List Incident → Prop
  | [] => True
  | e :: es => RefNet.Honest N e ∧ RefNet.Honestly fresh (N.step RefRun.use (RefCtlRun.use fresh) e).1 es

/-- Programs talk with and about objects in `O` only. -/
def Incident.About (O : Int → Prop) (e : Incident) : Prop :=
  ∀ dst m, e.says = some (dst, m) → (isRequestEsv m.esv = true → O (m.deoj % 2 ^ 24)) ∧ (Tells m → O (m.seoj % 2 ^ 24))

end Uecho.Spec
