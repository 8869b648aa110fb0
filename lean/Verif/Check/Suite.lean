/-
The tests of the project (test/), replayed on the model: evidence that the model is a model of the code, not part of any proof. Every assertion of test/ that does not ask the operating
system is here; `ord` is the order in which Python happens to list a set, for which any order will do (`List.dedup`). Left out: test/log (log levels), test/transport/interface_test.py (the
interfaces of the machine); those that need a network (`test_controller`, `test_manager`, `test_device`) are run on one that works.
-/
import Verif.Model.Controller
import Mathlib.Data.List.Dedup

namespace Uecho.Suite

/-! ### test/util -/

/-- test/util/bytes_test.py:19-37 -/
example : (List.range 0x100).all (fun n => toInt (fromInt n 1) == n) = true := by decide +kernel
example : (List.range 256).all (fun k => let n : Int := (k * (0xFFFF / 0xFF) : Nat); toInt (fromInt n 2) == n) = true := by decide +kernel
example : (List.range 256).all (fun k => let n : Int := (k * (0xFFFFFF / 0xFF) : Nat); toInt (fromInt n 3) == n) = true := by decide +kernel
example : (List.range 256).all (fun k => let n : Int := (k * (0xFFFFFFFF / 0xFF) : Nat); toInt (fromInt n 4) == n) = true := by decide +kernel

/-- test/util/hex_test.py:18-20 -/
example : hexFromString (some "62") = .ok 0x62 ∧ hexFromString (some "029101") = .ok 0x029101 := by decide +kernel

/-! ### test/protocol -/

/-- test/protocol/esv_test.py, property_test.py, message_test.py:19-27, object_test.py:94-98 -/
example : ({} : Msg).esv = ESV.UNKNOWN ∧ ({ code := 0 } : PProp).data = [] ∧ ({} : OProp).code = 0 ∧ ({} : OProp).data = [] := by decide
example : Msg.pyEq {} {} = .ok true := by decide +kernel

/-- test/protocol/message_test.py:38-72 -/
def plainBytes : Bytes :=
  [Msg.EHD1_ECHONET, Msg.EHD2_FORMAT1] ++ fromInt 100 2 ++ fromInt 0x0A0B0C 3 ++ fromInt 0x0D0E0F 3 ++
    [0x73, 3, 1, 1, 0x41, 2, 2, 0x41, 0x42, 3, 3, 0x41, 0x42, 0x43]

/-- test/protocol/message_test.py:74-85 -/
def plainMsg : Msg :=
  { tid := 100, seoj := 0x0A0B0C, deoj := 0x0D0E0F, esv := ESV.NOTIFICATION
    props := [{ code := 1, data := [0x41] }, { code := 2, data := [0x41, 0x42] }, { code := 3, data := [0x41, 0x42, 0x43] }] }

/-- test/protocol/message_test.py:87-94 -/
example : Msg.parseBytes {} plainBytes = (plainMsg, .ok true) ∧ plainMsg.toBytes = .ok plainBytes := by decide +kernel

/-- test/protocol/message_test.py:104-150 -/
def bothBytes : Bytes :=
  [Msg.EHD1_ECHONET, Msg.EHD2_FORMAT1] ++ fromInt 100 2 ++ fromInt 0x0A0B0C 3 ++ fromInt 0x0D0E0F 3 ++
    [0x6E, 3, 1, 1, 0x41, 2, 2, 0x41, 0x42, 3, 3, 0x41, 0x42, 0x43, 3, 1, 1, 0x78, 2, 2, 0x78, 0x79, 3, 3, 0x78, 0x79, 0x7A]

/-- test/protocol/message_test.py:152-167 -/
def bothMsg : Msg :=
  { tid := 100, seoj := 0x0A0B0C, deoj := 0x0D0E0F, esv := ESV.WRITE_READ_REQUEST
    setProps := [{ code := 1, data := [0x41] }, { code := 2, data := [0x41, 0x42] }, { code := 3, data := [0x41, 0x42, 0x43] }]
    getProps := [{ code := 1, data := [0x78] }, { code := 2, data := [0x78, 0x79] }, { code := 3, data := [0x78, 0x79, 0x7A] }] }

/-- test/protocol/message_test.py:169-177 -/
example : Msg.parseBytes {} bothBytes = (bothMsg, .ok true) ∧ bothMsg.toBytes = .ok bothBytes := by decide +kernel

/-! ### test/std -/

/-- test/std/database_test.py:19-34 -/
example : ([("Panasonic", .int 0x00000B), ("Panasonic", .bytes [0x00, 0x00, 0x0B]), ("Sharp", .int 0x000005), ("Sharp", .bytes [0x00, 0x00, 0x05])] : List (String × ManArg)).all
    (fun e => (getManufacturer e.2).any fun m => e.1.toList.isPrefixOf m.2.toList) = true := by decide +kernel

/-- What `test_object_database` asks of a property. -/
def hasAttrs (o : Obj) (c get set anno : Int) : Bool :=
  (o.getProperty c).any fun p =>
    (match p.getAttribute OProp.GET with | .ok v => v == get | _ => false) && (match p.getAttribute OProp.SET with | .ok v => v == set | _ => false) &&
      (match p.getAttribute OProp.ANNO with | .ok v => v == anno | _ => false)

/-- test/std/database_test.py:37-57 -/
example : (dbGetObject stdObjects (.tuple [0x00, 0x01])).any (fun o => (o.getProperty 0x00).isNone &&
    hasAttrs o 0x80 OProp.REQUIRED OProp.OPTIONAL OProp.REQUIRED && hasAttrs o 0xB0 OProp.OPTIONAL OProp.OPTIONAL OProp.PROHIBITED &&
    hasAttrs o 0xB1 OProp.REQUIRED OProp.PROHIBITED OProp.REQUIRED && hasAttrs o 0xBF OProp.PROHIBITED OProp.OPTIONAL OProp.PROHIBITED) = true := by decide +kernel

/-- test/std/database_test.py:60-76 -/
example : (dbGetObject stdObjects (.tuple [0x02, 0x91])).any (fun o => (o.getProperty 0x00).isNone &&
    hasAttrs o 0x80 OProp.REQUIRED OProp.REQUIRED OProp.REQUIRED && hasAttrs o 0xB0 OProp.OPTIONAL OProp.OPTIONAL OProp.OPTIONAL) = true := by decide +kernel

/-! ### test/object_test.py -/

/-- What the tests ask after every `set_code`. -/
def codeIs (c g k i : Int) (full : Bool) : Bool :=
  groupCode c == g && classCode c == k && instanceCode c == i && (!full || isCode c (.int c) && isCode c (.tuple [g, k, i])) &&
    isCode c (.tuple [g, k]) && isCode c (.tuple [g]) && isGroup c g && isClass c g k

/-- test/object_test.py:19-44: one object, two calls -/
example : setCode 0 (.int 0x0EF001) = (0x0EF001, true) ∧ codeIs 0x0EF001 0x0E 0xF0 1 true = true ∧
    setCode 0x0EF001 (.int 0x029101) = (0x029101, true) ∧ codeIs 0x029101 0x02 0x91 1 true = true := by decide +kernel

/-- test/object_test.py:47-72 -/
example : setCode 0 (.tuple [0x0E, 0xF0, 0x01]) = (0x0EF001, true) ∧ setCode 0x0EF001 (.tuple [0x02, 0x91, 0x01]) = (0x029101, true) := by decide +kernel

/-- test/object_test.py:75-97 -/
example : setCode 0 (.tuple [0x0E, 0xF0]) = (0x0EF000, true) ∧ codeIs 0x0EF000 0x0E 0xF0 0 false = true ∧
    setCode 0x0EF000 (.tuple [0x02, 0x91]) = (0x029100, true) ∧ codeIs 0x029100 0x02 0x91 0 false = true := by decide +kernel

/-- test/object_test.py:105-113 -/
example : ["108100010EF0010EF0017201D6040105FF01", "108100010EF0010EF0017201D607020F2001029101"].all (fun s =>
    match Msg.parseHexString {} s with
    | (proto, .ok true) => match Msg.copyOf (some proto) with
      | .ok m => match m.pyEq proto with
        | .ok b => b
        | _ => false
      | _ => false
    | _ => false) = true := by decide +kernel

/-! ### test/node_test.py -/

/-- test/node_test.py:20-33 -/
example : let (n, ok) := ({} : Node Obj).setAddress (some ("127.0.0.1", 80))
    ok = true ∧ n.ip = "127.0.0.1" ∧ n.port = Node.PORT ∧
    (dbGetObject stdObjects (.tuple [0x02, 0x91])).any (fun o =>
      let n := (n.addObject { o.copy with code := (setCode o.copy.code (.int 0x029101)).1 }).1
      (n.getObject (.int 0x029100)).isNone && (n.getObject (.int 0x029101)).isSome &&
      (n.getObject (.tuple [0x02, 0x91, 0x00])).isNone && (n.getObject (.tuple [0x02, 0x91, 0x01])).isSome) = true := by decide +kernel

/-- test/node_test.py:36-39 -/
example : let n := (LocalNode.new List.dedup ⟨[], 0, 0⟩ false).1
    n.isEnabled LocalNode.IGNORE_SELF_MESSAGE = true ∧ (n.setEnabled LocalNode.IGNORE_SELF_MESSAGE false).isEnabled LocalNode.IGNORE_SELF_MESSAGE = false := by
  decide +kernel

/-! ### test/profile_test.py -/

/-- 13 bytes, and two. -/
def rnd : NodeProfile.Random := ⟨[1, 2, 3, 4, 5, 6, 7, 8, 9, 10, 11, 12, 13], 0xFF, 0xFF⟩

/-- test/profile_test.py:19-41 (`BOOTING` is 0x30; the sizes are 1, 17, 3 and 2: node_profile.py:44-61) -/
example : let p := (NodeProfile.new List.dedup rnd).1
    (p.getProperty NodeProfile.OPERATING_STATUS).any (fun q => q.data.length == 1 && q.number == 0x30) = true ∧
    (p.getProperty NodeProfile.IDENTIFICATION_NUMBER).any (fun q => q.data.length == 17) = true ∧
    (p.getProperty NodeProfile.NUMBER_OF_SELF_NODE_INSTANCES).any (fun q => q.data.length == 3 && q.number == 0) = true ∧
    (p.getProperty NodeProfile.NUMBER_OF_SELF_NODE_CLASSES).any (fun q => q.data.length == 2 && q.number == 1) = true := by decide +kernel

/-! ### test/remote_node_test.py -/

/-- What `parse_message` of a new node gives. -/
def parsed (m : Msg) : Node Obj × Bool :=
  match RemoteNode.new List.dedup none with
  | .error _ => ({}, false)
  | .ok n => match RemoteNode.parseMessage List.dedup n m with
    | (n, .ok b) => (n, b)
    | (n, .error _) => (n, false)

/-- test/remote_node_test.py:19-34 -/
example : (parsed (({} : Msg).addProperty (.prop { code := NodeProfile.SELF_NODE_INSTANCE_LIST_S, data := [1] ++ fromInt 0x0EF001 RemoteNode.CODE_SIZE })).1).2 = true := by
  decide +kernel

/-- test/remote_node_test.py:37-44 -/
example : let r := parsed (Msg.parseHexString {} "108100010EF0010EF0017201D607020F2001029101").1
    r.2 = true ∧ r.1.hasObject 0x0EF001 = true ∧ r.1.hasObject 0x0F2001 = true ∧ r.1.hasObject 0x029101 = true := by decide +kernel

/-! ### test/super_object_test.py -/

/-- The codes in a property map, and those expected, are the same, each once. -/
def mapIs (o : Obj) (c : Int) (expected : List Int) : Bool :=
  (o.getProperty c).any fun p => match OProp.propertyMapCodes p.data with
    | .ok (.codes l) => decide (l ≠ []) && l.length == expected.length && l.all (expected.contains ·) && expected.all (l.contains ·)
    | _ => false

/-- The body of the inner loop (test/super_object_test.py:35-60). -/
def mapStep (o : Obj) (c : Int) (list : Obj → List Int) : Obj × Bool :=
  let o := (StdObj.setCode List.dedup stdObjects o (.int c)).1
  (o, mapIs o c (list o))

/-- test/super_object_test.py:19-60 -/
example : [(0x0EF0 : Int), 0x02A6].all (fun c =>
    let o := (StdObj.new List.dedup stdObjects (.int c)).1
    let r := mapStep o SuperObj.ANNO_PROPERTY_MAP SuperObj.annoList
    let s := mapStep r.1 SuperObj.SET_PROPERTY_MAP SuperObj.setList
    r.2 && s.2) = true := by decide +kernel

/-! ### test/controller_test.py -/

/-- A machine with one interface, on which every call of the operating system works. -/
def net : Net :=
  { sendto := fun _ _ _ b => .ok b.length, bind := fun _ _ _ => none, thread := fun _ => none, interfaces := [some [some "10.0.0.2"]] }

/-- Nobody observes, nobody listens; `localhost` is known. -/
def noEnv : Env := { handler := fun _ => { read := fun o p => (o, o.superRead p), write := fun o p _ => (o, o.superWrite p) }, observe := fun _ _ => none }
def noOne : CEnv := { resolve := fun s => .ok (if s = "localhost" then "127.0.0.1" else s), listen := fun _ _ _ => none }

def isTrue (r : Except Exc Bool) : Bool := match r with
  | .ok b => b
  | .error _ => false

/-- test/controller_test.py:19-23; test/transport/manager_test.py -/
example : let c := (Ctl.new List.dedup rnd).1
    let a := c.start net none
    let b := a.1.search net
    isTrue a.2 = true ∧ isTrue b.2 = true ∧ isTrue (b.1.stop none).2 = true := by decide +kernel

/-- test/controller_test.py:26-34 -/
example : ["108100010EF0010EF0017201D6040105FF01", "108100010EF0010EF0017201D607020F2001029101"].all (fun s =>
    match Msg.parseHexString { fromAddr := some ("127.0.0.1", 80) } s with
    | (m, .ok true) => match (Ctl.messageReceived List.dedup noEnv noOne net (Ctl.new List.dedup rnd).1 m).2 with
      | .ok _ => true
      | .error _ => false
    | _ => false) = true := by decide +kernel

def isSomeNode (r : Except Exc (Option Remote)) : Bool := match r with
  | .ok o => o.isSome
  | .error _ => false

/-- test/controller_test.py:37-44 -/
example : (match RemoteNode.new List.dedup (some ("127.0.0.1", 80)) with
    | .error _ => false
    | .ok n =>
      let a := (Ctl.new List.dedup rnd).1.addFoundNode noOne { node := n }
      isTrue a.2 && isSomeNode (a.1.getNode noOne (.str "127.0.0.1")) && isSomeNode (a.1.getNode noOne (.pair ("127.0.0.1", 80))) &&
        isSomeNode (a.1.getNode noOne (.str "localhost"))) = true := by decide +kernel

/-! ### test/device_test.py -/

/-- `MonoLight` (test/device_test.py:26-49), as the request handler number 1. -/
def lightEnv : Env :=
  { noEnv with
    handler := fun _ =>
      { read := fun o p => (o, o.superRead p)
        write := fun o p d =>
          if p.code = 0x80 then
            if p.data.length ≠ 1 then (o, .ok false)
            else match d with
              | [] => (o, .error .indexError)
              | b :: _ => if b ≠ 0x30 ∧ b ≠ 0x31 then (o, .ok false) else (o, o.superWrite p)
          else (o, o.superWrite p) } }

/-- `create_test_device` (test/device_test.py:52-67) -/
def light : Obj × Bool :=
  let o := ((StdObj.new List.dedup stdObjects (.int 0x029101)).1).setRequestHandler (.user 1)
  let r := o.setPropertyData 0x80 (fromInt 0x31 1)
  (r.1, o.hasProperty 0x80 && o.hasProperty 0x8A && o.hasProperty 0xB0 && r.2 && r.1.getPropertyData 0x80 == some [0x31])

example : light.2 = true := by decide +kernel

/-- The machine is alone on its network: every datagram it sends, from number `k` on, reaches it. -/
def pump : Nat → Nat → Ctl → Ctl
  | 0, _, c => c
  | f + 1, k, c =>
    match c.ln.mgr.log[k]? with
    | none => c
    | some (d, _) =>
      match Msg.parseBytes { fromAddr := some (d.ifaddr, 3610) } d.bytes with
      | (m, .ok true) => pump f (k + 1) (c.messageReceived List.dedup lightEnv noOne net m).1
      | _ => pump f (k + 1) c

/-- `post_message` to the found node 10.0.0.2. -/
def post (c : Ctl) (m : Msg) : Ctl × Option Msg :=
  match Dict.get? c.found "10.0.0.2" with
  | none => (c, none)
  | some r =>
    let k := c.ln.mgr.log.length
    let c := pump 8 k (c.postBegin net m (.remote r)).1
    (c, c.last.response)

/-- `send_message` to the found node 10.0.0.2. -/
def send (c : Ctl) (m : Msg) : Ctl × Bool :=
  match Dict.get? c.found "10.0.0.2" with
  | none => (c, false)
  | some r =>
    let k := c.ln.mgr.log.length
    let s := c.sendMessage net m (.remote r)
    (pump 8 k s.1, isTrue s.2.2)

/-- test/device_test.py:70-88: the controller with the light, started, with the nodes it has found -/
def started : Ctl :=
  let c := (Ctl.new List.dedup rnd).1
  let c := { c with ln := c.ln.setEnabled LocalNode.IGNORE_SELF_MESSAGE false }
  let c := { c with ln := (c.ln.addObject List.dedup light.1).1 }
  pump 8 0 (c.start net none).1

/-- What is expected of an answer. -/
def isAnswer (r : Option Msg) (esv : Int) (props set get : List PProp) : Bool :=
  r.any fun m => m.esv == esv && m.props == props && m.setProps == set && m.getProps == get

def readReq : Msg := ((ReadRequest 0x029101).addProperty (.int 0x80)).1

/-- test/device_test.py:85-160 -/
example :
    let id := (started.ln.profile.getPropertyData NodeProfile.IDENTIFICATION_NUMBER).getD []
    let a := post started ((ReadRequest NodeProfile.CODE).addProperty (.int NodeProfile.IDENTIFICATION_NUMBER)).1
    let b := post a.1 readReq
    let c := send b.1 ((WriteRequest 0x029101).addProperty (.tuple2 0x80 [0x30])).1
    let d := post c.1 readReq
    let e := post d.1 ((WriteResponseRequiredRequest 0x029101).addProperty (.tuple2 0x80 [0x31])).1
    let f := post e.1 (((WriteReadRequest 0x029101).addSetProperty (.tuple2 0x80 [0x30])).1.addGetProperty (.int 0x80)).1
    1 ≤ started.nodes.length ∧
    isAnswer a.2 ESV.READ_RESPONSE [{ code := NodeProfile.IDENTIFICATION_NUMBER, data := id }] [] [] = true ∧
    isAnswer b.2 ESV.READ_RESPONSE [{ code := 0x80, data := [0x31] }] [] [] = true ∧
    c.2 = true ∧
    isAnswer d.2 ESV.READ_RESPONSE [{ code := 0x80, data := [0x30] }] [] [] = true ∧
    isAnswer e.2 ESV.WRITE_RESPONSE [{ code := 0x80, data := [] }] [] [] = true ∧
    isAnswer f.2 ESV.WRITE_READ_RESPONSE [] [{ code := 0x80, data := [] }] [{ code := 0x80, data := [0x30] }] = true ∧
    isTrue (f.1.stop none).2 = true := by decide +kernel

end Uecho.Suite
