/- Which datagrams a node can cope with. -/
import Verif.Spec.Frame
import Verif.Spec.Handling
import Verif.Model.Running

namespace Uecho.Spec

/-- The object does not use code of the user that could raise, and every property it has can be sent. -/
def Plain (env : Env) (o : Obj) : Prop :=
  WellFormed o ∧ (o.handler = .self_ ∨ o.handler = .none) ∧ (∀ m, Quiet env o m) ∧ ∀ c p, lookup o.props c = some p → p.data.length ≤ 255

/-- Every object of the node does. -/
def PlainNode (env : Env) (n : LocalNode) : Prop := ∀ c o, n.getObject (.int c) = some o → Plain env o

/-- A write-read request whose Get part names a property the addressed object does not have. -/
def UnknownGet (n : LocalNode) (m : Msg) : Prop :=
  m.esv = 0x6E ∧ ∃ o, n.getObject (.int m.deoj) = some o ∧ o.handler = .self_ ∧ ∃ i ∈ m.getProps, lookup o.props i.code = none

/-- The datagrams that end the thread they arrive at. -/
def Harmful (n : LocalNode) (d : Bytes) (a : Addr) : Prop := ∀ m, Decodes d a m → UnknownGet n m

end Uecho.Spec
