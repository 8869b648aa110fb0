/- What the confirmation of a write means. -/
import Verif.Spec.Once

namespace Uecho.Spec

/-- A message that confirms a write: the answer to a write with response, or to a write and read. -/
def Confirms (m : Msg) : Prop := m.esv = 0x71 ∨ m.esv = 0x7E

/-- What was last said of a property. -/
def lastOf : List PProp → Int → Option Bytes
  | [], _ => none
  | i :: is, c => match lastOf is c with
    | some b => some b
    | none => if i.code = c then some i.data else none

/-- `r` confirms the request `w`, to it and for all its properties; and with these properties everything was written as asked, and what `r` says of others is so. -/
structure Did (props : Int → Option Entry) (w r : Msg) : Prop where
  number : r.tid = w.tid ∨ w.tid = 0
  to_ : r.deoj = w.seoj
  does : (w.esv = 0x61 ∧ r.esv = 0x71 ∧ r.props.map PProp.code = w.props.map PProp.code ∧ ∀ c b, lastOf w.props c = some b → ∃ e, props c = some e ∧ e.data = b) ∨
    (w.esv = 0x6E ∧ r.esv = 0x7E ∧ r.setProps.map PProp.code = w.setProps.map PProp.code ∧ r.getProps.map PProp.code = w.getProps.map PProp.code ∧
      (∀ c b, lastOf w.setProps c = some b → ∃ e, props c = some e ∧ e.data = b) ∧ ∀ i ∈ r.getProps, ∃ e, props i.code = some e ∧ e.data = i.data)

/-- The node at an address has done, and confirmed with `r`, what `w` asked for: these are its properties. If it is no controller the confirmation is from the object asked. -/
def RefNet.HasDone (N : RefNet) (ip : String) (w r : Msg) : Prop :=
  ∃ D : RefDevice, ((∃ R, N.devices ip = some R ∧ R.dev = D) ∨ ∃ R, N.controllers ip = some R ∧ R.ctl.dev = D) ∧ Did (D.entry w.deoj) w r ∧ (D.ctl = false → r.seoj = w.deoj)

end Uecho.Spec
