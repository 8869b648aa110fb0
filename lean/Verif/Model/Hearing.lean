/-
Listeners that call the controller they listen to (controller.py:223-303, with listeners that take the controller).
`Model/Controller` has listeners that only return or raise.
-/
import Verif.Model.Controller

namespace Uecho.Hearing

/-- A listener: what it does to the controller when called, and what it raises (controller.py:36-55). -/
abbrev Listener := Nat → Ctl → Call → Ctl × Option Exc

/-- The loops over the listeners (controller.py:223-237). The list iterated is the one at the beginning: that a listener adds or removes
listeners is left to `Model/Listeners`. -/
def notifyLoop (L : Listener) (call : Call) : List Nat → Ctl → Ctl × Option Exc
  | [], c => (c, none)
  | l :: ls, c =>
    match L l { c with calls := c.calls ++ [(l, c.found, call)] } call with
    | (c, some e) => (c, some e)
    | (c, none) => notifyLoop L call ls c

def notify (L : Listener) (c : Ctl) (call : Call) : Ctl × Option Exc := notifyLoop L call c.listeners c

/-- `__notify_node_updated` (controller.py:227-229) calls `node_add`. -/
def notifyNodeUpdated (L : Listener) (c : Ctl) (r : Remote) : Ctl × Option Exc := notify L c (.nodeAdd r)

/-- `_add_found_node` (controller.py:239-251) of a `RemoteNode`. -/
def addFoundNode (L : Listener) (c : Ctl) (r : Remote) : Ctl × Except Exc Bool :=
  let q := if r.node.ip ∉ Dict.keys c.found then notify L c (.nodeAdd r) else notifyNodeUpdated L c r
  match q with
  | (c, some e) => (c, .error e)
  | (c, none) => ({ c with found := Dict.set c.found r.node.ip { r with linked := true } }, .ok true)

/-- The loop of `_update_properties` (controller.py:262-271). -/
def updateLoop (L : Listener) (ip : String) (code : Int) : List PProp → Ctl → Remote → Obj → Bool → Ctl × Remote × Except Exc Bool
  | [], c, r, _, upd => (c, r, .ok upd)
  | mp :: ms, c, r, o, upd =>
    match o.getProperty mp.code with
    | none => updateLoop L ip code ms c r o upd
    | some p =>
      if p.data ≠ mp.data then
        let o := o.storeData mp.code mp.data
        let r := r.putObj code o
        let c := c.putRemote ip r
        match notify L c (.propertyUpdated r o.code mp.code mp.data) with
        | (c, some e) => (c, r, .error e)
        | (c, none) => updateLoop L ip code ms c r o true
      else updateLoop L ip code ms c r o upd

/-- `_update_properties` (controller.py:253-275). -/
def updateProperties (L : Listener) (cenv : CEnv) (c : Ctl) (m : Msg) : Ctl × Except Exc Unit :=
  match c.getNode cenv (match m.fromAddr with | none => .other | some a => .pair a) with
  | .error e => (c, .error e)
  | .ok none => (c, .error .attributeError)
  | .ok (some r) =>
    match r.node.getObject (.int m.deoj) with
    | none => (c, .ok ())
    | some o =>
      match updateLoop L r.node.ip m.deoj m.props c r o false with
      | (c, _, .error e) => (c, .error e)
      | (c, _, .ok false) => (c, .ok ())
      | (c, r, .ok true) =>
        match notify L c (.objectUpdated r o.code) with
        | (c, some e) => (c, .error e)
        | (c, none) =>
          match notifyNodeUpdated L c r with
          | (c, some e) => (c, .error e)
          | (c, none) => (c, .ok ())

/-- controller.py:290-293 -/
def receiveProfile (ord : List Int → List Int) (L : Listener) (c : Ctl) (msg : Msg) : Ctl × Except Exc Unit :=
  match msg.isNodeProfileMessage with
  | .error e => (c, .error e)
  | .ok false => (c, .ok ())
  | .ok true =>
    match RemoteNode.new ord msg.fromAddr with
    | .error e => (c, .error e)
    | .ok node =>
      match RemoteNode.parseMessage ord node msg with
      | (_, .error e) => (c, .error e)
      | (_, .ok false) => (c, .ok ())
      | (node, .ok true) =>
        match addFoundNode L c { node := node } with
        | (c, .error e) => (c, .error e)
        | (c, .ok _) => (c, .ok ())

/-- controller.py:295-296 -/
def receiveProperties (L : Listener) (cenv : CEnv) (c : Ctl) (msg : Msg) : Ctl × Except Exc Unit :=
  if ESV.isNotification msg.esv || ESV.isReadResponse msg.esv then updateProperties L cenv c msg else (c, .ok ())

/-- `message_received` (controller.py:277-303). -/
def messageReceived (ord : List Int → List Int) (env : Env) (L : Listener) (cenv : CEnv) (net : Net) (c : Ctl) (proto : Msg) : Ctl × Except Exc Unit :=
  if c.ln.isEnabled LocalNode.IGNORE_SELF_MESSAGE && LocalNode.truthy (c.ln.isSelfMessage proto) then (c, .ok ())
  else
    let (n, r) := if ESV.isRequest proto.esv then c.ln.messageReceived env net proto else (c.ln, .ok ())
    let c := { c with ln := n }
    match r with
    | .error e => (c, .error e)
    | .ok _ =>
      if ESV.isResponse proto.esv = false then (c, .ok ())
      else match Msg.copyOf (some proto) with
      | .error e => (c, .error e)
      | .ok msg =>
        match receiveProfile ord L c msg with
        | (c, .error e) => (c, .error e)
        | (c, .ok _) =>
          match receiveProperties L cenv c msg with
          | (c, .error e) => (c, .error e)
          | (c, .ok _) => (c.receiveResponse msg, .ok ())

end Uecho.Hearing
