/-
A controller and a device on a network: what an exchange of a request and its response is. Refers to the
calls of the two machines and to the datagrams they hand to the operating system only.
-/
import Verif.Spec.Controller
import Verif.Lemmas.Controller

namespace Uecho

/-- What a receiving thread of a controller's machine delivers to: the controller, which `start` registers as
an observer (local_node.py:71, controller.py:277). -/
def Ctl.deliver (ord : List Int → List Int) (env : Env) (cenv : CEnv) (net : Net) (c : Ctl) (m : Msg) : Ctl × Option Exc :=
  match c.messageReceived ord env cenv net m with
  | (c, .ok _) => (c, none)
  | (c, .error e) => (c, some e)

end Uecho

namespace Uecho.Spec

/-- A message that can be encoded and fits the receive buffer. -/
def FitsDatagram (m : Msg) : Prop := Encodable m ∧ (encode m).length ≤ 1024

instance (m : Msg) : Decidable (FitsDatagram m) := by unfold FitsDatagram; infer_instance

/-- The two machines: a controller with any history and a device with any history, both able to send. -/
structure Connected (ord : List Int → List Int) (c : Ctl) (n : LocalNode) : Prop where
  ctl : ∃ ops, CtlReach ord c ops
  ctlSends : CanSend c.ln.mgr
  dev : Reachable ord n
  device : n.controller = false
  devSends : CanSend n.mgr

/-- The environments of the two machines. -/
structure World where
  /-- the user code and the network of the device -/
  env : Env
  net : Net
  /-- those of the controller -/
  cenv : CEnv
  cuser : Env
  cnet : Net

/-- The network takes every datagram, listeners do not raise, request handlers leave object codes alone. -/
structure World.Works (w : World) : Prop where
  net : NetWorks w.net
  cnet : NetWorks w.cnet
  calm : Calm w.cenv
  stable : CodeStable w.env
  cstable : CodeStable w.cuser

/-- The controller has found a node at that IP address. -/
def Found (c : Ctl) (ip : String) : Prop := ip ∈ Dict.keys c.found

/-- The controller posts `m`, which is one datagram to the device at `da`; a receiving thread of the device
handles it and goes on, having sent one datagram, `d`, to the controller at `ca`. -/
def Asked (w : World) (ca da : Addr) (dest : PyDest) (c : Ctl) (n : LocalNode) (m : Msg) (c1 : Ctl) (n' : LocalNode) (d : Bytes) : Prop :=
  ∃ i j q, c.postBegin w.cnet m dest = (c1, .ok true) ∧ c1.ln.mgr.log = c.ln.mgr.log ++ [(⟨i, da, q⟩, (q.length : Int))] ∧
    recvOne (LocalNode.deliver w.env w.net) n q ca = (n', true) ∧ n'.mgr.log = n.mgr.log ++ [(⟨j, ca, d⟩, (d.length : Int))]

/-- The controller asks the device as above; a receiving thread of the controller handles the datagram that
comes back and goes on; what the posting thread finds is `r`. -/
def Exchange (ord : List Int → List Int) (w : World) (ca da : Addr) (dest : PyDest) (c : Ctl) (n : LocalNode) (m : Msg)
    (c' : Ctl) (n' : LocalNode) (r : Msg) : Prop :=
  ∃ c1 d, Asked w ca da dest c n m c1 n' d ∧
    recvOne (Ctl.deliver ord w.cuser w.cenv w.cnet) c1 d da = (c', true) ∧ c'.last.response = some r

end Uecho.Spec
