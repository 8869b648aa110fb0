/- Model of uecho/node.py, node_profile.py and remote_node.py. -/
import Verif.Model.Database

namespace Uecho

/-! ### Node (node.py) -/

/-- `uecho.Node` (node.py:19-28). The table is generic in what it stores: `Obj` for a plain or remote
node, a slot for a local node, where one of the objects is also referenced from elsewhere. -/
structure Node (σ : Type) where
  address : Option Addr := none          -- `()`, l.26
  objects : Dict Int σ := []

namespace Node
variable {σ : Type}

/-- node.py:20 -/
def PORT : Int := 3610

/-- `set_address` (node.py:30-34); `none` stands for anything but a 2-tuple. -/
def setAddress (n : Node σ) (addr : Option Addr) : Node σ × Bool :=
  match addr with
  | none => (n, false)
  | some a => ({ n with address := some a }, true)

/-- `ip`, `port` (node.py:40-50) -/
def ip (n : Node σ) : String := match n.address with | none => "" | some a => a.1
def port (n : Node σ) : Int := match n.address with | none => 0 | some _ => PORT

/-- `self.__objects[obj.code] = obj` (node.py:55). -/
def put (n : Node σ) (code : Int) (s : σ) : Node σ := { n with objects := Dict.set n.objects code s }

/-- `objects` (node.py:59-64) -/
def objectList (n : Node σ) : List σ := Dict.values n.objects

/-- `has_object` (node.py:66-67) -/
def hasObject (n : Node σ) (code : Int) : Bool := decide (code ∈ Dict.keys n.objects)

/-- `get_object` (node.py:69-83): the key is the code of `Object(code)`, which is 0 when `code` is
not a valid code (object.py:92-97). -/
def getObject (n : Node σ) (code : PyCode) : Option σ := Dict.get? n.objects (setCode 0 code).1

/-- `add_object` of an `Object` (node.py:52-57). The back reference `obj.node` is not modelled. -/
def addObject (n : Node Obj) (o : Obj) : Node Obj × Bool := (n.put o.code o, true)

end Node

/-! ### NodeProfile (node_profile.py) -/

namespace NodeProfile

/-- node_profile.py:29, 154 -/
def CODE : Int := 0x0EF001
def READ_ONLY_CODE : Int := 0x0EF002

/-- node_profile.py:34-43, profile.py -/
def OPERATING_STATUS : Int := 0x80
def VERSION_INFORMATION : Int := 0x82
def IDENTIFICATION_NUMBER : Int := 0x83
def UNIQUE_IDENTIFIER_DATA : Int := 0xBF
def NUMBER_OF_SELF_NODE_INSTANCES : Int := 0xD3
def NUMBER_OF_SELF_NODE_CLASSES : Int := 0xD4
def INSTANCE_LIST_NOTIFICATION : Int := 0xD5
def SELF_NODE_INSTANCE_LIST_S : Int := 0xD6
def SELF_NODE_CLASS_LIST_S : Int := 0xD7

/-- const.py: ECHONET_LITE_VERSION -/
def ECHONET_LITE_VERSION : Int := 0x010D0100

/-- `__is_node_profile_object` (node_profile.py:89-94), of an object's code. -/
def isNodeProfile (code : Int) : Bool :=
  if code = CODE then true else if code = READ_ONLY_CODE then true else false

/-- The loop of `__update_instance_properties` (node_profile.py:97-103) over the objects' codes. -/
def instanceLoop : List Int → Nat → Bytes → Nat × Bytes
  | [], cnt, l => (cnt, l)
  | c :: cs, cnt, l =>
    if isNodeProfile c then instanceLoop cs cnt l
    else instanceLoop cs (cnt + 1) (l ++ fromInt c 3)

/-- `__update_instance_properties` (node_profile.py:96-115). -/
def updateInstance (self : Obj) (codes : List Int) : Obj × Bool :=
  let (cnt, list) := instanceLoop codes 0 []
  match self.setPropertyData NUMBER_OF_SELF_NODE_INSTANCES (fromInt cnt 3) with
  | (self, false) => (self, false)
  | (self, true) =>
    let bytes := fromInt cnt 1 ++ list
    match self.setPropertyData INSTANCE_LIST_NOTIFICATION bytes with
    | (self, false) => (self, false)
    | (self, true) =>
      match self.setPropertyData SELF_NODE_INSTANCE_LIST_S bytes with
      | (self, false) => (self, false)
      | (self, true) => (self, true)

/-- The search for the class in `class_list` (node_profile.py:125-129): two bytes per class. -/
def hasSameClass : Bytes → Int → Int → Bool
  | g :: c :: rest, group, cls =>
    if (g.toNat : Int) = group ∧ (c.toNat : Int) = cls then true else hasSameClass rest group cls
  | _, _, _ => false

/-- The loop of `__update_class_properties` (node_profile.py:118-132); every object is counted.
`group_code` and `class_code` are bytes, so `bytes([…])` does not raise. -/
def classLoop : List Int → Nat → Bytes → Nat × Bytes
  | [], cnt, l => (cnt, l)
  | c :: cs, cnt, l =>
    if isNodeProfile c then classLoop cs (cnt + 1) l
    else if hasSameClass l (groupCode c) (classCode c) then classLoop cs (cnt + 1) l
    else classLoop cs (cnt + 1) (l ++ [UInt8.ofNat (groupCode c).toNat, UInt8.ofNat (classCode c).toNat])

/-- `__update_class_properties` (node_profile.py:117-141). -/
def updateClass (self : Obj) (codes : List Int) : Obj × Bool :=
  let (cnt, list) := classLoop codes 0 []
  match self.setPropertyData NUMBER_OF_SELF_NODE_CLASSES (fromInt cnt 2) with
  | (self, false) => (self, false)
  | (self, true) =>
    let bytes := fromInt cnt 1 ++ list
    match self.setPropertyData SELF_NODE_CLASS_LIST_S bytes with
    | (self, false) => (self, false)
    | (self, true) => (self, true)

/-- `_update_map_properties` (node_profile.py:143-150); of `objs` only the codes are used. -/
def updateMapProperties (ord : List Int → List Int) (self : Obj) (codes : List Int) : Obj × Except Exc Bool :=
  match updateInstance self codes with
  | (self, false) => (self, .ok false)
  | (self, true) =>
    match updateClass self codes with
    | (self, false) => (self, .ok false)
    | (self, true) =>
      match SuperObj.updateMaps ord self with
      | (self, .error e) => (self, .error e)
      | (self, .ok b) => (self, .ok b)

/-- The random bytes drawn by `__init__` (node_profile.py:78-86): 13 for the identification number, two
for the unique identifier. -/
structure Random where
  id : Bytes
  u1 : UInt8
  u2 : UInt8

/-- `__update_initial_properties` (node_profile.py:70-87). -/
def initial (self : Obj) (rnd : Random) : Obj :=
  let self := (self.setPropertyData OPERATING_STATUS (fromInt 0x30 1)).1
  let self := (self.setPropertyData VERSION_INFORMATION (fromInt ECHONET_LITE_VERSION 4)).1
  let self := (self.setPropertyData IDENTIFICATION_NUMBER ([0xFE, 0x00, 0x00, 0x00] ++ rnd.id)).1
  (self.setPropertyData UNIQUE_IDENTIFIER_DATA [rnd.u1 &&& 0xC0, rnd.u2]).1

/-- `NodeProfile.__init__` (node_profile.py:64-68). `SuperObject.__init__` and l.66 both make the
object its own handler. -/
def new (ord : List Int → List Int) (rnd : Random) : Obj × Except Exc Unit :=
  match ProfileObj.new ord stdObjects (.int CODE) with
  | (o, .error e) => (o, .error e)
  | (o, .ok _) =>
    let o := o.setRequestHandler .self_
    let o := initial o rnd
    match updateMapProperties ord o [o.code] with
    | (o, .error e) => (o, .error e)
    | (o, .ok _) => (o, .ok ())

/-- `NodeProfileReadOnly.__init__` (node_profile.py:156-158); the handler is the object, whose
`property_write_requested` is overridden (l.160-161). -/
def newReadOnly (ord : List Int → List Int) (rnd : Random) : Obj × Except Exc Unit :=
  match new ord rnd with
  | (o, .error e) => (o, .error e)
  | (o, .ok _) =>
    match ProfileObj.setCode ord stdObjects { o with handler := .readOnly } (.int READ_ONLY_CODE) with
    | (o, .error e) => (o, .error e)
    | (o, .ok _) => (o, .ok ())

end NodeProfile

/-! ### RemoteNode (remote_node.py) -/

namespace RemoteNode

/-- `RemoteNode(addr)` (remote_node.py:30-33). -/
def new (ord : List Int → List Int) (addr : Option Addr) : Except Exc (Node Obj) :=
  match StdObj.new ord stdObjects (.int 0x0EF001) with
  | (_, .error e) => .error e
  | (o, .ok _) => .ok ((({} : Node Obj).setAddress addr).1.addObject o).1

/-- object.py: CODE_SIZE -/
def CODE_SIZE : Nat := 3

/-- The loop of `parse_message` (remote_node.py:51-55): `k` iterations left, at index `n`. -/
def parseLoop (ord : List Int → List Int) (data : Bytes) : Nat → Nat → Node Obj → Node Obj × Except Exc Bool
  | 0, _, node => (node, .ok true)
  | k + 1, n, node =>
    let offset := CODE_SIZE * n + 1
    match StdObj.new ord stdObjects (.int (toInt (pySlice data offset (offset + CODE_SIZE)))) with
    | (_, .error e) => (node, .error e)
    | (o, .ok _) => parseLoop ord data k (n + 1) (node.addObject o).1

/-- `parse_message` (remote_node.py:35-57) of a `Message`. -/
def parseMessage (ord : List Int → List Int) (node : Node Obj) (msg : Msg) : Node Obj × Except Exc Bool :=
  match msg.props with
  | [] => (node, .ok false)                                              -- l.39-40
  | prop :: _ =>
    if prop.code ≠ NodeProfile.INSTANCE_LIST_NOTIFICATION ∧ prop.code ≠ NodeProfile.SELF_NODE_INSTANCE_LIST_S then
      (node, .ok false)                                                  -- l.44-45
    else match prop.data with                                            -- l.47
    | [] => (node, .error .indexError)
    | cnt :: _ =>
      if prop.data.length < cnt.toNat * CODE_SIZE + 1 then (node, .ok false)   -- l.48-49
      else parseLoop ord prop.data cnt.toNat 0 node

end RemoteNode
end Uecho
