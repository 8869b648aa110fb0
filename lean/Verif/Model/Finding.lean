/-
Model of `Controller.message_received` (uecho/controller.py:277-303) run by the receiving threads of a controller at the same time, on one table of
found nodes. Nodes are objects with an identity here (a number into `heap`): a thread goes on changing the node it has got hold of, even if
another thread has meanwhile put a newer one into the table.

A thread can be interrupted before it creates the node (l.291), before listeners are told (l.243-246), before the store into the table (l.248) and
before the link (l.249); whenever it asks for the next entry in the loop of `get_node` (l.143, the iterator is that of Model/Iterate); and before it
compares and before it stores the data of a property (l.267-268).

Simplified: the listeners are told in one step and do not raise (Model/Controller and Model/Listeners have them in detail); requests, which do not
use the table (l.282), and the slot of `post_message` (l.298-303, in Model/Post) are left out.
-/
import Verif.Model.Controller
import Verif.Spec.Controller

namespace Uecho.Finding
open Spec

/-- Where a thread is. `i` is the node in its local variable `node`, `todo` are the properties still to come, `upd` is `property_updated`. -/
inductive Pc where
  | idle
  | start (m : Msg)                                          -- l.288-292
  | tell (m : Msg) (i : Nat)                                 -- l.243-246
  | store (m : Msg) (i : Nat)                                -- l.248
  | link (m : Msg) (i : Nat)                                 -- l.249
  | report (m : Msg)                                         -- l.295, 254
  | look (m : Msg) (pos used : Nat)                          -- l.143-152
  | item (m : Msg) (i : Nat) (todo : List PProp) (upd : Bool) -- l.263-267, 273
  | put (m : Msg) (i : Nat) (p : PProp) (todo : List PProp)  -- l.268-270
  | done (r : Except Exc Unit)

/-- The nodes there are (the first `next` of `heap`), the table, the listeners and what they were told, and the threads. -/
structure St where
  heap : Nat → Remote
  next : Nat
  found : Dict String Nat
  listeners : List Nat := []
  told : List (Nat × Told) := []
  pc : Nat → Pc := fun _ => .idle

def St.goto (s : St) (t : Nat) (p : Pc) : St := { s with pc := fun u => if u = t then p else s.pc u }
def St.say (s : St) (x : Told) : St := { s with told := s.told ++ tellAll s.listeners x }
def St.setNode (s : St) (i : Nat) (r : Remote) : St := { s with heap := fun j => if j = i then r else s.heap j }

/-- The address `get_node` looks for (l.254, 151): nothing matches `None`. -/
def matchesKey (m : Msg) (k : String) : Bool :=
  match m.fromAddr with
  | none => false
  | some a => decide (a.1 = k)

/-- One step of thread `t`. -/
def tick (ord : List Int → List Int) (s : St) (t : Nat) : St :=
  match s.pc t with
  | .idle => s
  | .start proto =>
    if ESV.isResponse proto.esv = false then s.goto t (.done (.ok ()))                 -- l.285-286
    else match Msg.copyOf (some proto) with                                            -- l.288
    | .error e => s.goto t (.done (.error e))
    | .ok m =>
      match m.isNodeProfileMessage with                                                -- l.290
      | .error e => s.goto t (.done (.error e))
      | .ok false => s.goto t (.report m)
      | .ok true =>
        match RemoteNode.new ord m.fromAddr with                                       -- l.291
        | .error e => s.goto t (.done (.error e))
        | .ok node =>
          match RemoteNode.parseMessage ord node m with                                -- l.292
          | (_, .error e) => s.goto t (.done (.error e))
          | (_, .ok false) => s.goto t (.report m)
          | (node, .ok true) => ({ s.setNode s.next { node := node } with next := s.next + 1 }).goto t (.tell m s.next)
  | .tell m i => (s.say (.nodeAdd (s.heap i).node.ip)).goto t (.store m i)             -- both branches call `node_add`
  | .store m i => ({ s with found := Dict.set s.found (s.heap i).node.ip i }).goto t (.link m i)
  | .link m i => (s.setNode i { s.heap i with linked := true }).goto t (.report m)
  | .report m =>
    if ESV.isNotification m.esv || ESV.isReadResponse m.esv then s.goto t (.look m 0 s.found.length) else s.goto t (.done (.ok ()))
  | .look m pos used =>
    if used ≠ s.found.length then s.goto t (.done (.error .runtimeError))
    else match s.found[pos]? with
      | none => s.goto t (.done (.error .attributeError))                              -- `None.get_object`, l.258
      | some (k, i) =>
        if matchesKey m k then
          match (s.heap i).node.getObject (.int m.deoj) with                           -- l.258-260
          | none => s.goto t (.done (.ok ()))
          | some _ => s.goto t (.item m i m.props false)
        else s.goto t (.look m (pos + 1) used)
  | .item m i [] upd =>                                                                -- l.273-275
    if upd then ((s.say (.objectUpdated (s.heap i).node.ip m.deoj)).say (.nodeAdd (s.heap i).node.ip)).goto t (.done (.ok ()))
    else s.goto t (.done (.ok ()))
  | .item m i (p :: todo) upd =>
    match ((s.heap i).node.getObject (.int m.deoj)).bind (fun o => o.getProperty p.code) with
    | none => s.goto t (.item m i todo upd)                                            -- l.265-266
    | some q => if q.data ≠ p.data then s.goto t (.put m i p todo) else s.goto t (.item m i todo upd)
  | .put m i p todo =>
    match (s.heap i).node.getObject (.int m.deoj) with
    | none => s                                                                        -- does not happen: objects are never taken away
    | some o => ((s.setNode i ((s.heap i).putObj m.deoj (o.storeData p.code p.data))).say (.propertyUpdated (s.heap i).node.ip m.deoj p.code p.data)).goto t (.item m i todo true)
  | .done _ => s

/-- What happens: a thread that has nothing to do gets a message, or a thread goes on. -/
inductive Ev where
  | recv (t : Nat) (m : Msg)
  | tick (t : Nat)

def step (ord : List Int → List Int) (s : St) : Ev → St
  | .recv t m =>
    match s.pc t with
    | .idle => s.goto t (.start m)
    | .done (.ok _) => s.goto t (.start m)
    | _ => s                                                                           -- busy, or ended by an exception (server.py:71-72)
  | .tick t => tick ord s t

def run (ord : List Int → List Int) (s : St) (es : List Ev) : St := es.foldl (step ord) s

/-- The table as the program sees it. -/
def St.table (s : St) : Dict String Remote := s.found.map fun kv => (kv.1, s.heap kv.2)

/-- The controller as it is when all threads are idle. -/
def ofCtl (c : Ctl) : St :=
  { heap := fun i => ((Dict.values c.found)[i]?).getD { node := {} }
    next := c.found.length
    found := (Dict.keys c.found).zipIdx
    listeners := c.listeners
    told := toldAll c }

end Uecho.Finding
