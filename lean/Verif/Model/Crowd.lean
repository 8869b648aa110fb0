/-
Model of a node whose receiving threads work at the same time: `Server.run` (frame/server.py:53-72) of several
threads, each with `LocalNode.message_received` (local_node.py:81-104) and `Object.message_received`, the latter
in the steps of `Model/Threads.lean`. There are no locks in the library (Notes: frame/manager.py, object.py).

Steps of their own are: reading a datagram, parsing it and finding the object; every step of
`Object.message_received`; sending the answer. The answer is sent in one step, also if it goes out through
several interfaces, and so is what the program announces or sends. The node's objects are in `objs`, each with
the threads that are in it; `node` has the sockets, the transaction numbers and the options. Not in this model:
what the program does besides `set_property_data`, `announce_message` and `send_message`, observers, and what
only controllers do (controller.py).
-/
import Verif.Model.Threads
import Verif.Model.LocalNode

namespace Uecho.Crowd
open Par

/-- Where a receiving thread is. -/
inductive Place where
  | free                                    -- reading (frame/server.py:57)
  | inside (req : Msg)                      -- in `message_received` of the object (local_node.py:93)
  | sending (req : Msg) (res : Option Msg)  -- the object has returned (local_node.py:95)
  | dead                                    -- an exception: the thread has ended

/-- What the program has the node say (local_node.py:49-53). -/
inductive Speech where
  | announce (m : Msg)
  | send (m : Msg) (a : Option Addr)
deriving DecidableEq

/-- What can be seen of the node: datagrams that arrive and are sent (`sent t []`: thread `t` is done and has sent nothing), threads that end, data set by the program, and its calls, with what is
sent and the result (`none`: an exception). -/
inductive Happening where
  | recv (t : Nat) (d : Bytes) (a : Addr)
  | sent (t : Nat) (l : List Sent)
  | ended (t : Nat)
  | app (c p : Int) (v : Bytes)
  | call (k : Speech) (l : List Sent) (r : Option Bool)
deriving DecidableEq

structure St where
  node : LocalNode
  objs : Int → Option Sys
  places : Nat → Place := fun _ => .free
  log : List Happening := []

inductive Act where
  | arrive (t : Nat) (d : Bytes) (a : Addr)
  | run (t : Nat)
  | app (c p : Int) (v : Bytes)
  | call (k : Speech)

/-- A node as its program has set it up. -/
def begin (n : LocalNode) : St := { node := n, objs := fun c => (n.getObject (.int c)).map fun o => { obj := o } }

/-- The result of `Object.message_received` of a thread that is at its end. -/
def ending : PC → Option Msg
  | .next f => f.result
  | _ => none

namespace St

def goto (G : St) (t : Nat) (p : Place) : St := { G with places := fun i => if i = t then p else G.places i }
def emit (G : St) (e : Happening) : St := { G with log := G.log ++ [e] }
def put (G : St) (c : Int) (s : Sys) : St := { G with objs := fun c' => if c' = c then some s else G.objs c' }
def die (G : St) (t : Nat) : St := (G.goto t .dead).emit (.ended t)

/-- A thread reads a datagram (frame/server.py:53-72, up to the call of `message_received`; local_node.py:81-93). -/
def arrive (G : St) (t : Nat) (d : Bytes) (a : Addr) : Option St :=
  match G.places t with
  | .free =>
    let G := G.emit (.recv t d a)
    match recvOne (fun _ m => (some m, none)) none d a with
    | (_, false) => some (G.die t)
    | (none, true) => some (G.emit (.sent t []))
    | (some m, true) =>
      if G.node.isEnabled LocalNode.IGNORE_SELF_MESSAGE && LocalNode.truthy (G.node.isSelfMessage m) then some (G.emit (.sent t []))   -- l.82-84
      else match Msg.copyOf (some m) with                                                                         -- l.86
      | .error _ => some (G.die t)
      | .ok req =>
        match G.objs req.deoj with                                                                                -- l.89-91
        | none => some (G.emit (.sent t []))
        | some s =>
          match s.recv t req with                                                                                 -- l.93
          | none => none
          | some s' =>
            match s'.pc t with
            | .idle => some ((G.put req.deoj s').goto t (.sending req none))
            | _ => some ((G.put req.deoj s').goto t (.inside req))
  | _ => none

/-- A thread goes on (object.py:330-436; local_node.py:95-104). -/
def run (net : Net) (G : St) (t : Nat) : Option St :=
  match G.places t with
  | .inside req =>
    match G.objs req.deoj with
    | none => none
    | some s =>
      match s.run t with
      | none => none
      | some s' =>
        match s'.pc t with
        | .idle => some ((G.put req.deoj s').goto t (.sending req (ending (s.pc t))))
        | .crashed => some ((G.put req.deoj s').die t)
        | _ => some (G.put req.deoj s')
  | .sending req res =>
    match G.node.answer net req res with
    | (n, .error _) => some ({ G with node := n }.die t)
    | (n, .ok _) => some (({ G with node := n }.goto t .free).emit (.sent t ((n.mgr.log.drop G.node.mgr.log.length).map Prod.fst)))
  | _ => none

/-- The program calls `set_property_data` (object.py:247-252) of an object of the node. -/
def app (G : St) (c p : Int) (v : Bytes) : Option St :=
  match G.objs c with
  | none => none
  | some s => some ((G.put c (s.app p v)).emit (.app c p v))

/-- The program calls `announce_message` or `send_message` (local_node.py:49-53). -/
def call (net : Net) (G : St) (k : Speech) : St :=
  let r := match k with
    | .announce m => G.node.announceMessage net m
    | .send m a => G.node.sendMessage net m a
  { G with node := r.1 }.emit (.call k ((r.1.mgr.log.drop G.node.mgr.log.length).map Prod.fst) r.2.2.toOption)

def act (net : Net) (G : St) : Act → Option St
  | .arrive t d a => G.arrive t d a
  | .run t => G.run net t
  | .app c p v => G.app c p v
  | .call k => some (G.call net k)

def exec (net : Net) (G : St) : List Act → Option St
  | [] => some G
  | a :: l => match G.act net a with
    | some G => exec net G l
    | none => none

end St
end Uecho.Crowd
