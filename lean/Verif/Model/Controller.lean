/- Model of uecho/controller.py (one thread; the interleavings of `post_message` with the receiving
threads are in `Model/Post.lean`). -/
import Verif.Model.LocalNode
import Verif.Model.Messages

namespace Uecho

/-- A `RemoteNode` as the controller keeps it: the node, and whether `node.controller` has been set
(remote_node.py:28-32, controller.py:249). -/
structure Remote where
  node : Node Obj
  linked : Bool := false

/-- The calls a `ControleListener` can get (controller.py:36-53). -/
inductive Call where
  | nodeAdd (r : Remote)
  | nodeUpdated (r : Remote)
  | objectUpdated (r : Remote) (obj : Int)
  | propertyUpdated (r : Remote) (obj : Int) (prop : Int) (data : Bytes)

/-- What the controller meets outside: `socket.gethostbyname` (a result or an exception), and the
listeners, of which only the fact that they may raise is modelled here (for listeners that call the controller
see `Model/Hearing`). They see the controller's table of nodes. -/
structure CEnv where
  resolve : String → Except Exc String
  listen : Nat → Dict String Remote → Call → Option Exc

/-- `__PostMessage` (controller.py:63-77). -/
structure Post where
  request : Option Msg := none
  response : Option Msg := none

/-- controller.py:72-77 -/
def Post.isWaiting (p : Post) : Bool :=
  match p.request with
  | none => false
  | some _ =>
    match p.response with
    | some _ => false
    | none => true

/-- `Controller` (controller.py:79-91). `calls` records the calls of listeners: who, with which table of
nodes in place, what. -/
structure Ctl where
  ln : LocalNode
  found : Dict String Remote := []
  last : Post := {}
  listeners : List Nat := []
  calls : List (Nat × Dict String Remote × Call) := []

/-- `addr` of `get_node` (controller.py:134): a string, a pair, anything else (`None`). -/
inductive PyAddr where
  | str (s : String)
  | pair (a : Addr)
  | other

/-- `dest` of `send_message` (controller.py:161): a `RemoteNode`, a string, a pair, anything else. -/
inductive PyDest where
  | remote (r : Remote)
  | str (s : String)
  | pair (a : Addr)
  | other

namespace Ctl

/-- `Controller.__init__` (controller.py:85-91). -/
def new (ord : List Int → List Int) (rnd : NodeProfile.Random) : Ctl × Except Exc Unit :=
  match LocalNode.new ord rnd true with
  | (n, .error e) => ({ ln := n }, .error e)
  | (n, .ok _) => ({ ln := n }, .ok ())

/-- `nodes` (controller.py:97-107) -/
def nodes (c : Ctl) : List Remote := Dict.values c.found

/-- `add_listener`, `remove_listener` (controller.py:109-123); `list.remove` removes the first one and
raises `ValueError` if there is none. -/
def addListener (c : Ctl) (l : Nat) : Ctl := { c with listeners := c.listeners ++ [l] }
def removeListener (c : Ctl) (l : Nat) : Ctl × Except Exc Unit :=
  if l ∈ c.listeners then ({ c with listeners := c.listeners.erase l }, .ok ()) else (c, .error .valueError)

/-- The loop of `get_node` (controller.py:143-152). -/
def getNodeLoop (cenv : CEnv) (addr : PyAddr) : List (String × Remote) → Except Exc (Option Remote)
  | [] => .ok none
  | (k, r) :: l =>
    match addr with
    | .str s =>
      if s = k then .ok (some r)
      else match cenv.resolve s with
        | .error e => .error e
        | .ok ip => if ip = k then .ok (some r) else getNodeLoop cenv addr l
    | .pair a => if a.1 = k then .ok (some r) else getNodeLoop cenv addr l
    | .other => getNodeLoop cenv addr l

/-- `get_node` (controller.py:134-153) -/
def getNode (cenv : CEnv) (c : Ctl) (addr : PyAddr) : Except Exc (Option Remote) := getNodeLoop cenv addr c.found

/-- `announce_message` (controller.py:155-159): `LocalNode.announceMessage` knows that it belongs to a
controller. -/
def announceMessage (net : Net) (c : Ctl) (m : Msg) : Ctl × Msg × Except Exc Bool :=
  let (n, m, r) := c.ln.announceMessage net m
  ({ c with ln := n }, m, r)

/-- `to_addr` (controller.py:172-176) -/
def toAddr : PyDest → Option Addr
  | .remote r => some (r.node.ip, r.node.port)
  | .str s => some (s, 3610)
  | .pair a => some a
  | .other => none

/-- `send_message` (controller.py:161-177) -/
def sendMessage (net : Net) (c : Ctl) (m : Msg) (dest : PyDest) : Ctl × Msg × Except Exc Bool :=
  let (n, m, r) := c.ln.sendMessage net m (toAddr dest)
  ({ c with ln := n }, m, r)

/-- `search` (controller.py:179-183) -/
def search (net : Net) (c : Ctl) : Ctl × Except Exc Bool :=
  let (c, _, r) := c.announceMessage net SearchMessage
  (c, r)

/-- `post_message` up to the wait (controller.py:195-199). The slot refers to the message, so that it
sees the TID the message gets. -/
def postBegin (net : Net) (c : Ctl) (m : Msg) (dest : PyDest) : Ctl × Except Exc Bool :=
  let c := { c with last := {} }
  let (c, m, r) := c.sendMessage net m dest
  ({ c with last := { request := some m } }, r)

/-- `start` (controller.py:207-214) -/
def start (net : Net) (c : Ctl) (caller : Option Nat) : Ctl × Except Exc Bool :=
  match c.ln.start net caller with
  | (n, .error e) => ({ c with ln := n }, .error e)
  | (n, .ok false) => ({ c with ln := n }, .ok false)
  | (n, .ok true) =>
    match ({ c with ln := n } : Ctl).search net with
    | (c, .error e) => (c, .error e)
    | (c, .ok false) => (c, .ok false)
    | (c, .ok true) => (c, .ok true)

/-- `stop` (controller.py:216-221) -/
def stop (c : Ctl) (caller : Option Nat) : Ctl × Except Exc Bool :=
  match c.ln.stop caller with
  | (n, .error e) => ({ c with ln := n }, .error e)
  | (n, .ok false) => ({ c with ln := n }, .ok false)
  | (n, .ok true) => ({ c with ln := n }, .ok true)

/-- The loops over the listeners (controller.py:223-237): the first that raises ends it. -/
def notifyLoop (cenv : CEnv) (call : Call) : List Nat → Ctl → Ctl × Option Exc
  | [], c => (c, none)
  | l :: ls, c =>
    let c' := { c with calls := c.calls ++ [(l, c.found, call)] }
    match cenv.listen l c.found call with
    | some e => (c', some e)
    | none => notifyLoop cenv call ls c'

def notify (cenv : CEnv) (c : Ctl) (call : Call) : Ctl × Option Exc := notifyLoop cenv call c.listeners c

/-- `__notify_node_updated` (controller.py:227-229) calls `node_add`. -/
def notifyNodeUpdated (cenv : CEnv) (c : Ctl) (r : Remote) : Ctl × Option Exc := c.notify cenv (.nodeAdd r)

/-- `_add_found_node` (controller.py:239-251) of a `RemoteNode`. -/
def addFoundNode (cenv : CEnv) (c : Ctl) (r : Remote) : Ctl × Except Exc Bool :=
  let q := if r.node.ip ∉ Dict.keys c.found then c.notify cenv (.nodeAdd r) else c.notifyNodeUpdated cenv r
  match q with
  | (c, some e) => (c, .error e)
  | (c, none) => ({ c with found := Dict.set c.found r.node.ip { r with linked := true } }, .ok true)

/-- Store a node that was changed in place back into the table. -/
def putRemote (c : Ctl) (ip : String) (r : Remote) : Ctl := { c with found := Dict.modify c.found ip (fun _ => r) }

/-- The node with the object under `code` changed in place. -/
def _root_.Uecho.Remote.putObj (r : Remote) (code : Int) (o : Obj) : Remote :=
  { r with node := { r.node with objects := Dict.modify r.node.objects code (fun _ => o) } }

/-- The loop of `_update_properties` (controller.py:262-271); `r` and `o` are the node and the object
as changed so far. -/
def updateLoop (cenv : CEnv) (ip : String) (code : Int) :
    List PProp → Ctl → Remote → Obj → Bool → Ctl × Remote × Except Exc Bool
  | [], c, r, _, upd => (c, r, .ok upd)
  | mp :: ms, c, r, o, upd =>
    match o.getProperty mp.code with
    | none => updateLoop cenv ip code ms c r o upd
    | some p =>
      if p.data ≠ mp.data then
        let o := o.storeData mp.code mp.data
        let r := r.putObj code o
        let c := c.putRemote ip r
        match c.notify cenv (.propertyUpdated r o.code mp.code mp.data) with
        | (c, some e) => (c, r, .error e)
        | (c, none) => updateLoop cenv ip code ms c r o true
      else updateLoop cenv ip code ms c r o upd

/-- `_update_properties` (controller.py:253-275). `node is Node` never holds, so an unknown node
(`None`) raises. -/
def updateProperties (cenv : CEnv) (c : Ctl) (m : Msg) : Ctl × Except Exc Unit :=
  match c.getNode cenv (match m.fromAddr with | none => .other | some a => .pair a) with
  | .error e => (c, .error e)
  | .ok none => (c, .error .attributeError)                              -- `None.get_object`, l.258
  | .ok (some r) =>
    match r.node.getObject (.int m.deoj) with
    | none => (c, .ok ())
    | some o =>
      match updateLoop cenv r.node.ip m.deoj m.props c r o false with
      | (c, _, .error e) => (c, .error e)
      | (c, _, .ok false) => (c, .ok ())
      | (c, r, .ok true) =>
        match c.notify cenv (.objectUpdated r o.code) with
        | (c, some e) => (c, .error e)
        | (c, none) =>
          match c.notifyNodeUpdated cenv r with
          | (c, some e) => (c, .error e)
          | (c, none) => (c, .ok ())

/-- `Message.is_node_profile_message` (message.py:32-37): `NodeProfile.CODE_READ_ONLY` does not exist. -/
def _root_.Uecho.Msg.isNodeProfileMessage (m : Msg) : Except Exc Bool :=
  if m.esv ≠ ESV.NOTIFICATION ∧ m.esv ≠ ESV.READ_RESPONSE then .ok false
  else if m.deoj ≠ NodeProfile.CODE then .error .attributeError
  else .ok true

/-- controller.py:290-293 -/
def receiveProfile (ord : List Int → List Int) (cenv : CEnv) (c : Ctl) (msg : Msg) : Ctl × Except Exc Unit :=
  match msg.isNodeProfileMessage with
  | .error e => (c, .error e)
  | .ok false => (c, .ok ())
  | .ok true =>
    match RemoteNode.new ord msg.fromAddr with
    | .error e => (c, .error e)
    | .ok node =>
      match RemoteNode.parseMessage ord node msg with
      | (_, .error e) => (c, .error e)
      | (_, .ok false) => (c, .ok ())
      | (node, .ok true) =>
        match c.addFoundNode cenv { node := node } with
        | (c, .error e) => (c, .error e)
        | (c, .ok _) => (c, .ok ())

/-- controller.py:295-296 -/
def receiveProperties (cenv : CEnv) (c : Ctl) (msg : Msg) : Ctl × Except Exc Unit :=
  if ESV.isNotification msg.esv || ESV.isReadResponse msg.esv then c.updateProperties cenv msg else (c, .ok ())

/-- controller.py:298-303, without the notification of the waiting thread. -/
def receiveResponse (c : Ctl) (msg : Msg) : Ctl :=
  if c.last.isWaiting then
    match c.last.request with
    | some req => if req.isResponseMessage msg then { c with last := { c.last with response := some msg } } else c
    | none => c                                                          -- excluded by `is_waiting`
  else c

/-- `message_received` (controller.py:277-303). -/
def messageReceived (ord : List Int → List Int) (env : Env) (cenv : CEnv) (net : Net) (c : Ctl) (proto : Msg) : Ctl × Except Exc Unit :=
  if c.ln.isEnabled LocalNode.IGNORE_SELF_MESSAGE && LocalNode.truthy (c.ln.isSelfMessage proto) then (c, .ok ())  -- l.278-280
  else
    let (n, r) := if ESV.isRequest proto.esv then c.ln.messageReceived env net proto else (c.ln, .ok ())         -- l.282-283
    let c := { c with ln := n }
    match r with
    | .error e => (c, .error e)
    | .ok _ =>
      if ESV.isResponse proto.esv = false then (c, .ok ())               -- l.285-286
      else match Msg.copyOf (some proto) with                            -- l.288
      | .error e => (c, .error e)
      | .ok msg =>
        match c.receiveProfile ord cenv msg with
        | (c, .error e) => (c, .error e)
        | (c, .ok _) =>
          match c.receiveProperties cenv msg with
          | (c, .error e) => (c, .error e)
          | (c, .ok _) => (c.receiveResponse msg, .ok ())

end Ctl
end Uecho
