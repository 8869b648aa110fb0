/- Requests and their answers as single steps of the object asked. -/
import Verif.Spec.Done

namespace Uecho.Spec

/-- A message that answers a request, well or ill, and is not announced. -/
def Replies (m : Msg) : Prop := m.esv ∈ [(0x50 : Int), 0x51, 0x52, 0x53, 0x5E, 0x71, 0x72, 0x7A, 0x7E]

/-- A device takes `w` and answers `r`: the object asked does what it does, and says so, with the number of the request if it has one; a controller signs with its profile. -/
def OneStep (D D' : RefDevice) (w r : Msg) : Prop :=
  ∃ t r0 so k, D.things w.deoj = some t ∧ D'.things w.deoj = some (t.actual w).1 ∧ (t.actual w).2.1 = some r0 ∧ r = onWire { r0 with seoj := so, tid := k } ∧ (k = w.tid ∨ w.tid = 0) ∧
    (D.ctl = false → so = w.deoj)

/-- A property that is there and may be written, or read. -/
def MayWrite (props : Int → Option Entry) (c : Int) : Prop := ∃ e, props c = some e ∧ e.writable = true
def MayRead (props : Int → Option Entry) (c : Int) : Prop := ∃ e, props c = some e ∧ e.readable = true

/-- What may be written is: each property has what was last said of it. -/
def Written (before after : Int → Option Entry) (is : List PProp) : Prop := ∀ c b, lastFor is c = some b → MayWrite before c → ∃ e, after c = some e ∧ e.data = b

/-- `r` tells the values of properties that may be read. -/
def Shown (props : Int → Option Entry) (is : List PProp) : Prop := ∀ i ∈ is, ∀ e, props i.code = some e → e.readable = true → i.data = e.data

/-- `r` refuses the request `w`, and for a reason: some property asked for is not there or may not be written or read. What may be written has been, and what may be read is told. -/
def Justified (before after : Int → Option Entry) (w r : Msg) : Prop :=
  (r.esv = 0x50 ∧ (w.esv = 0x60 ∨ w.esv = 0x61) ∧ r.props.map PProp.code = w.props.map PProp.code ∧ (∃ i ∈ w.props, ¬ MayWrite before i.code) ∧ Written before after w.props) ∨
  (r.esv = 0x52 ∧ w.esv = 0x62 ∧ r.props.map PProp.code = w.props.map PProp.code ∧ (∃ i ∈ w.props, ¬ MayRead before i.code) ∧ Shown after r.props ∧ after = before) ∨
  (r.esv = 0x5E ∧ w.esv = 0x6E ∧ r.setProps.map PProp.code = w.setProps.map PProp.code ∧ r.getProps.map PProp.code = w.getProps.map PProp.code ∧
    ((∃ i ∈ w.setProps, ¬ MayWrite before i.code) ∨ ∃ i ∈ w.getProps, ¬ MayRead before i.code) ∧ Written before after w.setProps ∧ Shown after r.getProps)

/-- `r` answers the read `w` with the values of all properties asked for, all at once. -/
def Snapshot (props : Int → Option Entry) (w r : Msg) : Prop :=
  r.esv = 0x72 ∧ w.esv = 0x62 ∧ r.props.map PProp.code = w.props.map PProp.code ∧ ∀ i ∈ r.props, ∃ e, props i.code = some e ∧ e.readable = true ∧ i.data = e.data

/-- From one moment to the next the node at an address takes `w` and answers `r`. -/
def RefNet.Serves (N N' : RefNet) (ip : String) (w r : Msg) : Prop :=
  (∃ R R', N.devices ip = some R ∧ N'.devices ip = some R' ∧ OneStep R.dev R'.dev w r) ∨ ∃ R R', N.controllers ip = some R ∧ N'.controllers ip = some R' ∧ OneStep R.ctl.dev R'.ctl.dev w r

end Uecho.Spec
