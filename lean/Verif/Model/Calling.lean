/-
Model of requests to an object whose request handler uses the node the object is in: it may send and announce messages and change objects while it is asked
(uecho/object.py:330-436, uecho/local_node.py:81-104). `Model/Object` has handlers that change the object they serve only.

A handler is a function on the whole node; the object served is the one in the table of the node (Python has references; `self` is that object).
Only objects of the program, with a handler of the program, are modelled here; observers only raise or not, as in `Model/Object`.
-/
import Verif.Model.LocalNode

namespace Uecho.Calling

/-- An `ObjectRequestHandler` (object.py:25-52) that has the node. -/
structure NodeHandler where
  read : LocalNode → Option OProp → LocalNode × Except Exc Bool
  write : LocalNode → OProp → Bytes → LocalNode × Except Exc Bool

/-- The object with this code in the node. -/
def own (n : LocalNode) (code : Int) : Obj :=
  match Dict.get? n.node.objects code with
  | some s => n.deref s
  | none => {}

/-- `obj_prop.data = …` at l.355 and 378 of object.py -/
def store (n : LocalNode) (code : Int) (c : Int) (data : Bytes) : LocalNode := n.update code fun o => o.storeData c data

/-- The loop over `set_properties` (object.py:350-359). -/
def setLoop (H : NodeHandler) (code : Int) : LocalNode → List PProp → Nat → List PProp → LocalNode × Except Exc (Nat × List PProp)
  | n, [], cnt, acc => (n, .ok (cnt, acc))
  | n, mp :: ms, cnt, acc =>
    match (own n code).getProperty mp.code with
    | none => setLoop H code n ms cnt (acc ++ [{ code := mp.code }])
    | some p =>
      match H.write n p mp.data with
      | (n, .error e) => (n, .error e)
      | (n, .ok true) => setLoop H code (store n code mp.code mp.data) ms (cnt + 1) (acc ++ [{ code := mp.code }])
      | (n, .ok false) => setLoop H code n ms cnt (acc ++ [{ code := mp.code, data := mp.data }])

/-- The loop over `get_properties` (object.py:360-366). -/
def getLoop (H : NodeHandler) (code : Int) : LocalNode → List PProp → Nat → List PProp → LocalNode × Except Exc (Nat × List PProp)
  | n, [], cnt, acc => (n, .ok (cnt, acc))
  | n, mp :: ms, cnt, acc =>
    match H.read n ((own n code).getProperty mp.code) with
    | (n', .error e) => (n', .error e)
    | (n', .ok true) =>
      match (own n code).getProperty mp.code, (own n' code).getPropertyData mp.code with
      | some _, some d => getLoop H code n' ms (cnt + 1) (acc ++ [{ code := mp.code, data := d }])
      | _, _ => (n', .error .attributeError)
    | (n', .ok false) => getLoop H code n' ms cnt (acc ++ [{ code := mp.code }])

/-- The loop over `properties` (object.py:368-382). -/
def plainLoop (H : NodeHandler) (code : Int) (esv : Int) : LocalNode → List PProp → Nat → List PProp → LocalNode × Except Exc (Nat × List PProp)
  | n, [], cnt, acc => (n, .ok (cnt, acc))
  | n, mp :: ms, cnt, acc =>
    match (own n code).getProperty mp.code with
    | none => plainLoop H code esv n ms cnt (acc ++ [{ code := mp.code }])
    | some p =>
      if ESV.isReadRequest esv then
        match H.read n (some p) with
        | (n, .error e) => (n, .error e)
        | (n, .ok true) =>
          plainLoop H code esv n ms (cnt + 1)
            (acc ++ [{ code := mp.code, data := ((own n code).getPropertyData mp.code).getD p.data }])
        | (n, .ok false) => plainLoop H code esv n ms cnt (acc ++ [{ code := mp.code }])
      else if ESV.isWriteRequest esv then
        match H.write n p mp.data with
        | (n, .error e) => (n, .error e)
        | (n, .ok true) =>
          plainLoop H code esv (store n code mp.code mp.data) ms (cnt + 1) (acc ++ [{ code := mp.code }])
        | (n, .ok false) => plainLoop H code esv n ms cnt (acc ++ [{ code := mp.code, data := mp.data }])
      else plainLoop H code esv n ms cnt (acc ++ [{ code := mp.code }])

/-- The part of `message_received` after the observers have been notified (object.py:336-436). -/
def handleRequest (H : NodeHandler) (code : Int) (n : LocalNode) (req : Msg) : LocalNode × Except Exc (Option Msg) :=
  if ESV.isRequest req.esv = false then (n, .ok none)
  else
    let res : Msg := { tid := req.tid, deoj := req.seoj, seoj := req.deoj }
    if ESV.isWriteReadRequest req.esv then
      match setLoop H code n req.setProps 0 [] with
      | (n, .error e) => (n, .error e)
      | (n, .ok (cnt, sps)) =>
        match getLoop H code n req.getProps cnt [] with
        | (n, .error e) => (n, .error e)
        | (n, .ok (cnt, gps)) => (n, .ok (Obj.respond req { res with setProps := sps, getProps := gps } cnt))
    else
      match plainLoop H code req.esv n req.props 0 [] with
      | (n, .error e) => (n, .error e)
      | (n, .ok (cnt, ps)) => (n, .ok (Obj.respond req { res with props := ps } cnt))

/-- `LocalNode.message_received` (local_node.py:81-104) for the object with this code, `H` being its handler. -/
def messageReceived (H : NodeHandler) (env : Env) (net : Net) (n : LocalNode) (proto : Msg) : LocalNode × Except Exc Unit :=
  if n.isEnabled LocalNode.IGNORE_SELF_MESSAGE && LocalNode.truthy (n.isSelfMessage proto) then (n, .ok ())
  else match Msg.copyOf (some proto) with
  | .error e => (n, .error e)
  | .ok req =>
    match n.node.getObject (.int req.deoj) with
    | none => (n, .ok ())
    | some _ =>
      match Obj.notify env req (own n req.deoj).observers with          -- object.py:334
      | (_, some e) => (n, .error e)
      | (_, none) =>
        match handleRequest H req.deoj n req with
        | (n, .error e) => (n, .error e)
        | (n, .ok res) => n.answer net req res

/-- A handler that makes no calls: it only changes the object it serves. -/
def plain (env : Env) (h : Nat) (code : Int) : NodeHandler where
  read n p := (n.update code fun o => ((env.handler h).read o p).1, ((env.handler h).read (own n code) p).2)
  write n p d := (n.update code fun o => ((env.handler h).write o p d).1, ((env.handler h).write (own n code) p d).2)

end Uecho.Calling
