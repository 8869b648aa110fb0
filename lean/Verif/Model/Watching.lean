/-
Observers of an object that use the node the object is in (uecho/protocol/subject.py:47-54, uecho/object.py:330-334, uecho/local_node.py:81-104).
`Model/Object` has observers that only return or raise.

The object served is the one in the table of the node, as in `Model/Calling`. If an observer puts another object in its place, Python goes on with the
old one; the theorems are about observers that do not.
-/
import Verif.Model.Calling

namespace Uecho.Watching

/-- An observer: what it does to the node when told of a message, and what it raises. -/
abbrev Watcher := Nat → LocalNode → Msg → LocalNode × Option Exc

/-- `Subject.notify` (protocol/subject.py:47-54). The observers are those at the beginning. -/
def notifyLoop (W : Watcher) (m : Msg) : List Nat → LocalNode → LocalNode × Option Exc
  | [], n => (n, none)
  | k :: ks, n =>
    match W k n m with
    | (n, some e) => (n, some e)
    | (n, none) => notifyLoop W m ks n

/-- `LocalNode.message_received` (local_node.py:81-104); `handle` is what the object with this code does after its observers have been told
(object.py:336-436). -/
def receive (W : Watcher) (handle : Int → LocalNode → Msg → LocalNode × Except Exc (Option Msg)) (net : Net) (n : LocalNode) (proto : Msg) : LocalNode × Except Exc Unit :=
  if n.isEnabled LocalNode.IGNORE_SELF_MESSAGE && LocalNode.truthy (n.isSelfMessage proto) then (n, .ok ())
  else match Msg.copyOf (some proto) with
  | .error e => (n, .error e)
  | .ok req =>
    match n.node.getObject (.int req.deoj) with
    | none => (n, .ok ())
    | some s =>
      match notifyLoop W req (n.deref s).observers n with                -- object.py:334
      | (n, some e) => (n, .error e)
      | (n, none) =>
        match handle req.deoj n req with
        | (n, .error e) => (n, .error e)
        | (n, .ok res) => n.answer net req res

/-- An object whose handler changes the object only, as in `Model/Object`. -/
def plainly (env : Env) (code : Int) (n : LocalNode) (req : Msg) : LocalNode × Except Exc (Option Msg) :=
  match Dict.get? n.node.objects code with
  | none => (n, .ok none)                                                -- nothing removes an object
  | some s => (n.putBack code s ((n.deref s).handleRequest env req).1, ((n.deref s).handleRequest env req).2)

/-- A node whose observers make calls. -/
def messageReceived (W : Watcher) (env : Env) : Net → LocalNode → Msg → LocalNode × Except Exc Unit := receive W (plainly env)

/-- A node whose observers make calls, as does the handler of the object addressed. -/
def bothReceived (W : Watcher) (H : Calling.NodeHandler) : Net → LocalNode → Msg → LocalNode × Except Exc Unit := receive W (Calling.handleRequest H)

end Uecho.Watching
