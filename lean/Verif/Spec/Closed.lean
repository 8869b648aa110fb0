/- What may be said of a network in which only what was sent arrives. -/
import Verif.Spec.Whole

namespace Uecho.Spec

/-- A message that writes property `c` of object `o`. -/
def Writes (o c : Int) (m : Msg) : Prop :=
  m.deoj % 2 ^ 24 = o ∧ (((m.esv = 0x60 ∨ m.esv = 0x61) ∧ ∃ i ∈ m.props, i.code = c) ∨ (m.esv = 0x6E ∧ ∃ i ∈ m.setProps, i.code = c))

/-- A message with all its data in `S`. -/
def Made (S : Bytes → Prop) (m : Msg) : Prop := (∀ i ∈ m.props, S i.data) ∧ (∀ i ∈ m.setProps, S i.data) ∧ ∀ i ∈ m.getProps, S i.data

/-- What a call sends, and to which address; `none` is everyone. -/
def Use.says : Use → Option (Option String × Msg)
  | .announce m => some (none, m)
  | .send m (some a) => some (some a.1, m)
  | _ => none

def CtlUse.says : CtlUse → Option (Option String × Msg)
  | .device u => u.says
  | .sendTo m d => (whereTo d).map fun a => (some a.1, m)
  | .post m d => (whereTo d).map fun a => (some a.1, m)
  | .search => some (none, theSearch)
  | _ => none

def Incident.says : Incident → Option (Option String × Msg)
  | .device _ u => u.says
  | .controller _ u => u.says

/-- A use that gives new data to a property: which, and the data. -/
def Use.stores : Use → Option (Int × Int × Bytes)
  | .store o c d => some (o, c, d)
  | _ => none

def CtlUse.stores : CtlUse → Option (Int × Int × Bytes)
  | .device u => u.stores
  | _ => none

def Incident.stores : Incident → Option (String × Int × Int × Bytes)
  | .device ip u => u.stores.map fun x => (ip, x)
  | .controller ip u => u.stores.map fun x => (ip, x)

/-- A message can be read in a datagram that was sent to `dst`. -/
def Home.Said {δ κ : Type} (sentD : δ → List Sent) (sentC : κ → List Sent) (N : Home δ κ) (dst : String) (m : Msg) : Prop :=
  ∃ ip s, ((∃ r, N.devices ip = some r ∧ s ∈ sentD r) ∨ (∃ r, N.controllers ip = some r ∧ s ∈ sentC r)) ∧ s.dest.1 = dst ∧ readMsg (s.bytes.take 1024) = some m

/-- A property of a device, or of the device a controller is. -/
def RefDevice.entry (D : RefDevice) (o c : Int) : Option Entry := (D.things o).bind fun t => t.props c

/-- The property of a node of the library: may it be read, may it be written, and its data. -/
def nodeEntry (n : LocalNode) (o c : Int) : Option Entry :=
  (n.getObject (.int o)).bind fun ob => (lookup ob.props c).map fun p => { readable := decide (CanRead p), writable := decide (CanWrite p), data := p.data }

/-- All values a controller shows are in `S`, and all it has told its listeners. -/
def RefController.Shows (S : Bytes → Prop) (C : RefController) : Prop :=
  (∀ ip N o c b, C.node ip = some N → N.data o c = some b → S b) ∧ (∀ l ip o c b, (l, Told.propertyUpdated ip o c b) ∈ C.told → S b) ∧ ∀ m, C.answer = some m → Made S m

end Uecho.Spec
