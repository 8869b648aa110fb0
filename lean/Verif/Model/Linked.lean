/-
Model of the methods of objects and properties that follow their back references: `Object.send_message`,
`Object.post_message`, `Object.copy` (uecho/object.py:269-328, 438-445), `Property.send_message`,
`Property.post_message`, `Property.copy` (uecho/property.py:102-128, 172-173).
-/
import Verif.Model.Controller

namespace Uecho

/-- What `obj.node` refers to (object.py:95, node.py:57-62): nothing, a local node (a `Controller` is one
too; `controller` says which), or a remote node, whose `controller` is `None` or the controller it was found by
(remote_node.py:28-32, controller.py:249). -/
inductive Owner where
  | nobody
  | local_ (n : LocalNode)
  | remote (r : Remote)

/-- `self.node.controller` (object.py:313, 328): `None` and local nodes have no attribute `controller`; the
`controller` of a remote node may be `None`, of which `send_message` is asked then. The result is the destination. -/
def Owner.controller : Owner → Except Exc Remote
  | .nobody => .error .attributeError
  | .local_ _ => .error .attributeError
  | .remote r => if r.linked then .ok r else .error .attributeError

namespace Ctl

/-- `Object.send_message` (object.py:300-313); `c` is the controller remote nodes are linked to. -/
def objSend (net : Net) (c : Ctl) (own : Owner) (o : Obj) (esv : Int) (props : Option (List Obj.PyItem)) : Ctl × Except Exc Bool :=
  match o.createMessage esv props with
  | none => (c, .ok false)
  | some m =>
    match own.controller with
    | .error e => (c, .error e)
    | .ok r =>
      let (c, _, res) := c.sendMessage net m (.remote r)
      (c, res)

/-- `Object.post_message` (object.py:315-328), up to the wait; `false` means that `None` is returned at once. -/
def objPostBegin (net : Net) (c : Ctl) (own : Owner) (o : Obj) (esv : Int) (props : Option (List Obj.PyItem)) : Ctl × Except Exc Bool :=
  match o.createMessage esv props with
  | none => (c, .ok false)
  | some m =>
    match own.controller with
    | .error e => (c, .error e)
    | .ok r => c.postBegin net m (.remote r)

/-- `Property.send_message` (property.py:102-113) of a property with that code. `parent` is `prop.object`, which
`add_property` sets (object.py:223), with its node. -/
def propSend (net : Net) (c : Ctl) (parent : Option (Owner × Obj)) (code esv : Int) (data : Bytes) : Ctl × Except Exc Bool :=
  match parent with
  | none => (c, .error .attributeError)
  | some (own, o) => c.objSend net own o esv (some [.pair code data])

/-- `Property.post_message` (property.py:115-126), up to the wait. -/
def propPostBegin (net : Net) (c : Ctl) (parent : Option (Owner × Obj)) (code esv : Int) (data : Bytes) : Ctl × Except Exc Bool :=
  match parent with
  | none => (c, .error .attributeError)
  | some (own, o) => c.objPostBegin net own o esv (some [.pair code data])

end Ctl

/-- `copy.deepcopy` of a property (property.py:175-176) follows `prop.object`, `object.node` and so on. It raises
`TypeError` when it meets a lock, a thread or a socket: a controller has a `Condition` (controller.py:88), and a
server is a thread (frame/server.py:24). Handlers and observers supplied by users are taken to be copyable, as are
the other properties. A remote node refers to its own objects and to its controller only. -/
def Owner.deepcopy : Owner → Except Exc Unit
  | .nobody => .ok ()
  | .local_ n => if n.controller || !n.mgr.servers.isEmpty then .error .typeError else .ok ()
  | .remote r => if r.linked then .error .typeError else .ok ()

/-- `Property.copy` (property.py:175-176): the property with `parent` as above; the copy refers to a copy of the
parent. -/
def OProp.copy (p : OProp) (parent : Option Owner) : Except Exc OProp :=
  match parent with
  | none => .ok p
  | some own => match own.deepcopy with
    | .error e => .error e
    | .ok _ => .ok p

/-- The loop of `Object.copy` (object.py:442-443) over the properties. -/
def Obj.copyLoop (own : Owner) : List OProp → Obj → Except Exc Obj
  | [], o => .ok o
  | p :: ps, o =>
    match p.copy (some own) with
    | .error e => .error e
    | .ok p => Obj.copyLoop own ps (o.addPropertyBase p)

/-- `Object.copy` (object.py:438-445) of an object with that node: code and properties; neither handler nor observers
nor node. (`Obj.copy` is the case in which nothing raises.) -/
def Obj.copyOwned (own : Owner) (o : Obj) : Except Exc Obj :=
  Obj.copyLoop own (Dict.values o.props) { code := o.code }

end Uecho
