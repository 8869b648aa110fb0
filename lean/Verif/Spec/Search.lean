/-
A network of devices a controller searches. Refers to the calls of the machines and to the datagrams they
hand to the operating system only.
-/
import Verif.Spec.EndToEnd

namespace Uecho.Spec

/-- A machine on the network: its address, the local node running there, its user code, its network. -/
structure Host where
  addr : Addr
  node : LocalNode
  env : Env
  net : Net

/-- A device that can be found: a node with any history, able to send, with at most 84 devices whose codes
are object codes; nobody has replaced its node profile, observers of the profile do not raise. -/
structure Host.Ready (ord : List Int → List Int) (h : Host) : Prop where
  reach : Reachable ord h.node
  own : OwnProfile h.node
  range : ∀ o ∈ h.node.objs, 0 ≤ o.code ∧ o.code < 2 ^ 24
  few : (instancesOf (h.node.objs.map Obj.code)).length ≤ 84
  sends : CanSend h.node.mgr
  net : NetWorks h.net
  quiet : ∀ m, Quiet h.env h.node.profile m

/-- A receiving thread of the host handles the datagram `q` from `ca` and goes on, having sent one
datagram, `d`, to `ca`. -/
def Host.Answers (h : Host) (q : Bytes) (ca : Addr) (d : Bytes) : Prop :=
  ∃ n' j, recvOne (LocalNode.deliver h.env h.net) h.node q ca = (n', true) ∧
    n'.mgr.log = h.node.mgr.log ++ [(⟨j, ca, d⟩, (d.length : Int))]

end Uecho.Spec
