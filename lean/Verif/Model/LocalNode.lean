/- Model of uecho/local_node.py and uecho/option.py. -/
import Verif.Model.Node
import Verif.Model.Frame

namespace Uecho

/-- What a local node's table holds: its own node profile (also kept in `__node_profile_obj`,
local_node.py:34), or another object. Objects are values here: that the user may keep references to
them and change them behind the node's back is modelled by `update` and, with several nodes, in `Model/Pool`. -/
inductive Slot where
  | profile
  | user (o : Obj)

/-- `LocalNode` (local_node.py:31-36). `controller` tells a `Controller` from a plain `LocalNode`: it
overrides `announce_message` and `send_message` (controller.py:155-177). -/
structure LocalNode where
  node : Node Slot := {}
  profile : Obj
  options : Int := 1
  mgr : Manager := {}
  controller : Bool := false

namespace LocalNode

/-- option.py -/
def IGNORE_SELF_MESSAGE : Int := 0x01

/-- The object behind a slot. -/
def deref (n : LocalNode) : Slot → Obj
  | .profile => n.profile
  | .user o => o

/-- The objects of the node in table order (`self.objects`). -/
def objs (n : LocalNode) : List Obj := n.node.objectList.map n.deref

/-- `self.__node_profile_obj._update_map_properties(self.objects)` (local_node.py:44). -/
def refresh (ord : List Int → List Int) (n : LocalNode) : LocalNode × Except Exc Bool :=
  let (p, r) := NodeProfile.updateMapProperties ord n.profile (n.objs.map Obj.code)
  ({ n with profile := p }, r)

/-- `add_object` (local_node.py:41-44) of an `Object` other than the node's own profile. -/
def addObject (ord : List Int → List Int) (n : LocalNode) (o : Obj) : LocalNode × Except Exc Bool :=
  refresh ord { n with node := n.node.put o.code (.user o) }

/-- `LocalNode.__init__` (local_node.py:31-36); for a `Controller` see controller.py:85-91. -/
def new (ord : List Int → List Int) (rnd : NodeProfile.Random) (controller : Bool) : LocalNode × Except Exc Unit :=
  match NodeProfile.new ord rnd with
  | (p, .error e) => ({ profile := p, controller := controller }, .error e)
  | (p, .ok _) =>
    let n : LocalNode := { profile := p, controller := controller }
    match refresh ord { n with node := n.node.put p.code .profile } with
    | (n, .error e) => (n, .error e)
    | (n, .ok _) => (n, .ok ())

/-- `get_object` -/
def getObject (n : LocalNode) (code : PyCode) : Option Obj := (n.node.getObject code).map n.deref

/-- `set_enabled` (local_node.py:55-60) -/
def setEnabled (n : LocalNode) (opt : Int) (v : Bool) : LocalNode :=
  if v then { n with options := pyOr n.options opt } else { n with options := pyAnd n.options (-opt - 1) }

/-- `is_enabled` (local_node.py:62-65) -/
def isEnabled (n : LocalNode) (opt : Int) : Bool := if pyAnd n.options opt = 0 then false else true

/-- `_is_self_message` (local_node.py:77-79): `False` or, by falling off the end, `None`. -/
def isSelfMessage (n : LocalNode) (m : Msg) : Option Bool :=
  if m.fromAddr ≠ n.node.address then some false else none

/-- Python truth of such a value. -/
def truthy : Option Bool → Bool
  | some true => true
  | _ => false

/-- `announce_message` (local_node.py:49-50; controller.py:155-159). -/
def announceMessage (net : Net) (n : LocalNode) (m : Msg) : LocalNode × Msg × Except Exc Bool :=
  let m := if n.controller then { m with seoj := NodeProfile.CODE } else m
  let (g, m, r) := n.mgr.announce net m
  ({ n with mgr := g }, m, r)

/-- `send_message` to a pair (local_node.py:52-53; controller.py:161-177). -/
def sendMessage (net : Net) (n : LocalNode) (m : Msg) (addr : Option Addr) : LocalNode × Msg × Except Exc Bool :=
  let m := if n.controller then { m with seoj := NodeProfile.CODE } else m
  let (g, m, r) := n.mgr.send net m addr
  ({ n with mgr := g }, m, r)

/-- Store the object back after it has handled a message (in Python it was changed in place). -/
def putBack (n : LocalNode) (code : Int) (s : Slot) (o : Obj) : LocalNode :=
  match s with
  | .profile => { n with profile := o }
  | .user _ => { n with node := { n.node with objects := n.node.objects.modify code (fun _ => .user o) } }

/-- The program changes an object it has added, by calls on the object it keeps a reference to (`set_property_data`,
`add_property`, …; object.py:222-298). The node's own profile is not changed that way. -/
def update (n : LocalNode) (code : Int) (f : Obj → Obj) : LocalNode :=
  match Dict.get? n.node.objects code with
  | some (.user o) => n.putBack code (.user o) (f o)
  | _ => n

/-- The end of `message_received` (local_node.py:95-104): what is done with the answer. The value
returned by `announce_message`/`send_message` is not used. -/
def answer (net : Net) (n : LocalNode) (req : Msg) : Option Msg → LocalNode × Except Exc Unit
  | none => (n, .ok ())
  | some res =>
    if ESV.isNotification res.esv then
      match n.announceMessage net res with
      | (n, _, .error e) => (n, .error e)
      | (n, _, .ok _) => (n, .ok ())
    else
      match n.sendMessage net res req.fromAddr with
      | (n, _, .error e) => (n, .error e)
      | (n, _, .ok _) => (n, .ok ())

/-- `LocalNode.message_received` (local_node.py:81-104). -/
def messageReceived (env : Env) (net : Net) (n : LocalNode) (proto : Msg) : LocalNode × Except Exc Unit :=
  if n.isEnabled IGNORE_SELF_MESSAGE && truthy (n.isSelfMessage proto) then (n, .ok ())   -- l.82-84
  else match Msg.copyOf (some proto) with                                 -- l.86
  | .error e => (n, .error e)
  | .ok req =>
    match n.node.getObject (.int req.deoj) with                           -- l.89-91
    | none => (n, .ok ())
    | some s =>
      let r := (n.deref s).messageReceived env req                        -- l.93
      let n := n.putBack req.deoj s r.obj
      match r.result with
      | .error e => (n, .error e)
      | .ok res => answer net n req res

/-- `start` (local_node.py:67-72); the argument is ignored. The node registers itself as observer
number 0. -/
def start (net : Net) (n : LocalNode) (caller : Option Nat) (_ifaddrs : List String := []) : LocalNode × Except Exc Bool :=
  match n.mgr.start net caller [] with
  | (g, .error e) => ({ n with mgr := g }, .error e)
  | (g, .ok false) => ({ n with mgr := g }, .ok false)
  | (g, .ok true) =>
    ({ n with mgr := g.addObserver 0, node := (n.node.setAddress (some (g.ifaddr, g.port))).1 }, .ok true)

/-- `stop` (local_node.py:74-75) -/
def stop (n : LocalNode) (caller : Option Nat) : LocalNode × Except Exc Bool :=
  let (g, r) := n.mgr.stop caller
  ({ n with mgr := g }, r)

/-- What a receiving thread delivers to: the node. -/
def deliver (env : Env) (net : Net) (n : LocalNode) (m : Msg) : LocalNode × Option Exc :=
  match n.messageReceived env net m with
  | (n, .error e) => (n, some e)
  | (n, .ok _) => (n, none)

end LocalNode
end Uecho
