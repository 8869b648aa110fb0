/-
Model of what refers to what, and of when `__del__` is called (local_node.py:38-39, frame/manager.py:32-33, frame/server.py:40-41, controller.py:93-95).
Python keeps an object as long as the program or a running thread can reach it; `__del__` is called at some time after that has ended. The nodes
and objects are those of `Model/Pool`.

Simplified: a node, its manager (local_node.py:33) and its profile are one thing here; which thread the interpreter uses for `__del__` is left out
(never one of the node's own threads that tell the node something: they would reach it).
-/
import Verif.Model.Pool

namespace Uecho.Life
open Pool

/-- What can be referred to: a node, an object of the program, the server number `k` in the list of a node, or something else the program has made (an
observer, a request handler, a listener; whatever these refer to). -/
inductive Ent where
  | node (i : Nat)
  | object (j : Nat)
  | server (i k : Nat)
  | user (u : Nat)
deriving DecidableEq

/-- `held` is what the variables of the program refer to, `user` what the program's own things refer to, `ended` are the servers whose thread has left its loop
although their socket is still open (server.py:71-72). -/
structure Memory where
  heap : Heap
  held : List Ent := []
  user : Nat → List Ent := fun _ => []
  ended : List (Nat × Nat) := []

def serversOf (w : Memory) (i : Nat) : List Server := (w.heap.nodes i).base.mgr.servers

/-- What an object refers to besides its node: its observers and its request handler (object.py:66-67, 218-230). -/
def usersOf (o : Obj) : List Nat := o.observers ++ match o.handler with
  | .user n => [n]
  | _ => []

/-- The references. A node refers to the objects in its table (node.py:55) and, through its manager, to its servers (local_node.py:33, frame/manager.py:25);
an object to its node (node.py:56); a server to its observers (protocol/subject.py:23, 44), of which number 0 is the node itself (local_node.py:71). -/
inductive Refers (w : Memory) : Ent → Ent → Prop
  | table {i c j} : (c, Ref.obj j) ∈ (w.heap.nodes i).table → Refers w (.node i) (.object j)
  | profile {i u} : u ∈ usersOf (w.heap.nodes i).base.profile → Refers w (.node i) (.user u)
  | server {i k s} : (serversOf w i)[k]? = some s → Refers w (.node i) (.server i k)
  | home {i j} : w.heap.home j = some i → Refers w (.object j) (.node i)
  | object {j u} : u ∈ usersOf (w.heap.objs j) → Refers w (.object j) (.user u)
  | told {i k s} : (serversOf w i)[k]? = some s → 0 ∈ s.observers → Refers w (.server i k) (.node i)
  | watcher {i k s u} : (serversOf w i)[k]? = some s → u + 1 ∈ s.observers → Refers w (.server i k) (.user u)
  | user {u e} : e ∈ w.user u → Refers w (.user u) e

/-- The thread of server `k` of node `i` is running (a started `threading.Thread` is kept by the interpreter until it ends). -/
def Running (w : Memory) (i k : Nat) : Prop := ∃ s, (serversOf w i)[k]? = some s ∧ s.open_ = true ∧ (i, k) ∉ w.ended

/-- What the program or a running thread can reach. -/
inductive Reach (w : Memory) : Ent → Prop
  | held {e} : e ∈ w.held → Reach w e
  | thread {i k} : Running w i k → Reach w (.server i k)
  | ref {e e'} : Reach w e → Refers w e e' → Reach w e'

/-- What happens: something happens to nodes or objects, the program begins or ceases to refer to something, a thing of the program changes what it refers to, a
receiving thread leaves its loop, or `__del__` of a node is called. -/
inductive Event where
  | does (op : Op)
  | keeps (e : Ent)
  | forgets (e : Ent)
  | refers (u : Nat) (es : List Ent)
  | ends (i k : Nat)
  | del (i : Nat)

/-- The node whose servers an operation drops: `stop`, with which `start` begins, empties the list unless it raises (frame/manager.py:82, 111-115). -/
def restarts (h : Heap) : Op → Option Nat
  | .start i _ caller | .stop i caller => match ((h.nodes i).base.mgr.stop caller).2 with
    | .ok _ => some i
    | .error _ => none
  | _ => none

/-- `LocalNode.__del__` (local_node.py:38-39) calls `stop`; so do, on the same servers, `Manager.__del__` (frame/manager.py:32-33) and `Server.__del__`
(frame/server.py:40-41). `Controller.__del__` (controller.py:93-95) does it twice. Exceptions are ignored. -/
def step (ord : List Int → List Int) (w : Memory) : Event → Memory
  | .does op => { w with heap := Pool.step ord w.heap op, ended := w.ended.filter fun ik => restarts w.heap op ≠ some ik.1 }
  | .keeps e => { w with held := e :: w.held }
  | .forgets e => { w with held := w.held.filter (· ≠ e) }
  | .refers u es => { w with user := fun v => if v = u then es else w.user v }
  | .ends i k => { w with ended := (i, k) :: w.ended }
  | .del i => { w with heap := Pool.step ord w.heap (.stop i none), ended := w.ended.filter fun ik => ik.1 ≠ i }

/-- The things an operation is about: something must be able to reach them. -/
def about : Op → List Ent
  | .add i j => [.node i, .object j]
  | .receive i _ _ _ | .enable i _ _ | .start i _ _ | .stop i _ | .announce i _ _ | .send i _ _ _ => [.node i]
  | .change j _ => [.object j]

/-- Who is registered with an object after an operation was registered before, or can be reached. -/
def KnownUsers (w : Memory) (h : Heap) : Prop :=
  (∀ j u, u ∈ usersOf (h.objs j) → u ∈ usersOf (w.heap.objs j) ∨ Reach w (.user u)) ∧
  (∀ i u, u ∈ usersOf (h.nodes i).base.profile → u ∈ usersOf (w.heap.nodes i).base.profile ∨ Reach w (.user u))

/-- When something can happen: only what can be reached can be used or kept, and only what cannot be reached is collected. -/
def Possible (ord : List Int → List Int) (w : Memory) : Event → Prop
  | .does op => (∀ e ∈ about op, Reach w e) ∧ KnownUsers w (Pool.step ord w.heap op)
  | .keeps e => Reach w e
  | .forgets _ => True
  | .refers u es => Reach w (.user u) ∧ ∀ e ∈ es, Reach w e
  | .ends i k => Running w i k
  | .del i => ¬ Reach w (.node i)

def run (ord : List Int → List Int) (w : Memory) (evs : List Event) : Memory := evs.foldl (step ord) w

/-- Every event is possible when it happens. -/
def AllPossible (ord : List Int → List Int) : Memory → List Event → Prop
  | _, [] => True
  | w, ev :: evs => Possible ord w ev ∧ AllPossible ord (step ord w ev) evs

/-- The process ends when the program has ended and no thread that keeps it from ending runs: the servers are not daemon threads (server.py:33-34). -/
def Exits (w : Memory) : Prop := ∀ i k, ¬ Running w i k

end Uecho.Life
