/- An exchange begun with a method of an object or a property instead of the controller's `post_message`. -/
import Verif.Spec.EndToEnd
import Verif.Model.Linked

namespace Uecho.Spec

/-- As `Exchange`, for a call `b` that begins to post: one datagram goes to the device at `da`; a receiving thread
of the device handles it and goes on, having sent one datagram to the controller at `ca`; a receiving thread of
the controller handles that and goes on; what the posting thread finds is `r`. -/
def ExchangeBy (ord : List Int → List Int) (w : World) (ca da : Addr) (b : Ctl × Except Exc Bool) (c : Ctl) (n : LocalNode)
    (c' : Ctl) (n' : LocalNode) (r : Msg) : Prop :=
  ∃ c1 i j q d, b = (c1, .ok true) ∧ c1.ln.mgr.log = c.ln.mgr.log ++ [(⟨i, da, q⟩, (q.length : Int))] ∧
    recvOne (LocalNode.deliver w.env w.net) n q ca = (n', true) ∧ n'.mgr.log = n.mgr.log ++ [(⟨j, ca, d⟩, (d.length : Int))] ∧
    recvOne (Ctl.deliver ord w.cuser w.cenv w.cnet) c1 d da = (c', true) ∧ c'.last.response = some r

/-- The pairs `(code, data)` as Python values, and as properties of a message. -/
def asItems (l : List (Int × Bytes)) : List Obj.PyItem := l.map fun cd => .pair cd.1 cd.2
def asProps (l : List (Int × Bytes)) : List PProp := l.map fun cd => { code := cd.1, data := cd.2 }

end Uecho.Spec
