/- Messages that agree about a property. -/
import Verif.Spec.Done

namespace Uecho.Spec

/-- If a message writes property `c` of object `o`, it writes `v`. -/
def OnlyGives (o c : Int) (v : Bytes) (m : Msg) : Prop := Writes o c m → ∀ i, i ∈ m.props ∨ i ∈ m.setProps → i.code = c → i.data = v

/-- A request that writes `v` to property `c` of object `o`, and says nothing else of it later. -/
def Sets (o c : Int) (v : Bytes) (m : Msg) : Prop := m.deoj = o ∧ ((m.esv = 0x61 ∧ lastOf m.props c = some v) ∨ (m.esv = 0x6E ∧ lastOf m.setProps c = some v))

end Uecho.Spec
