/-
Model of a program with several local nodes: nodes and objects are Python objects with an identity, the tables of the nodes hold references
(uecho/node.py:52-83, uecho/local_node.py:31-104). `Model/LocalNode` gives every node objects of its own; here an object may be in the tables of several
nodes, and the program keeps references to all of them.
-/
import Verif.Lemmas.LocalNode

namespace Uecho.Pool

/-- An entry of the table of a node: the node's own profile, or an object of the program. -/
inductive Ref where
  | profile
  | obj (j : Nat)
deriving DecidableEq

/-- A `LocalNode` (local_node.py:31-36). `base` is all but the table; its own table is not used. -/
structure HNode where
  table : Dict Int Ref := [(0x0EF001, .profile)]
  base : LocalNode

/-- All nodes and all objects of a program, by number; `home` is `obj.node` (node.py:56). -/
structure Heap where
  nodes : Nat → HNode
  objs : Nat → Obj
  home : Nat → Option Nat := fun _ => none

/-- The object an entry refers to. -/
def deref (h : Heap) (i : Nat) : Ref → Obj
  | .profile => (h.nodes i).base.profile
  | .obj j => h.objs j

def setNode (h : Heap) (i : Nat) (n : HNode) : Heap := { h with nodes := fun k => if k = i then n else h.nodes k }

/-- The object is changed in place. -/
def store (h : Heap) (i : Nat) (r : Ref) (o : Obj) : Heap :=
  match r with
  | .profile => setNode h i { h.nodes i with base := { (h.nodes i).base with profile := o } }
  | .obj j => { h with objs := fun k => if k = j then o else h.objs k }

/-- `add_object` (local_node.py:41-44, node.py:52-57) of object `j`: it is put into the table under its code, its `node` is set, and the profile is told the codes
of all objects. -/
def addObject (ord : List Int → List Int) (h : Heap) (i j : Nat) : Heap × Except Exc Bool :=
  let n := h.nodes i
  let table := Dict.set n.table (h.objs j).code (.obj j)                  -- node.py:55
  let q := NodeProfile.updateMapProperties ord n.base.profile ((Dict.values table).map fun r => (deref h i r).code)
  let h := setNode h i { table := table, base := { n.base with profile := q.1 } }
  ({ h with home := fun k => if k = j then some i else h.home k }, q.2)   -- node.py:56

/-- `LocalNode.message_received` (local_node.py:81-104) of node `i`. -/
def messageReceived (env : Env) (net : Net) (h : Heap) (i : Nat) (proto : Msg) : Heap × Except Exc Unit :=
  let n := (h.nodes i).base
  if n.isEnabled LocalNode.IGNORE_SELF_MESSAGE && LocalNode.truthy (n.isSelfMessage proto) then (h, .ok ())   -- l.82-84
  else match Msg.copyOf (some proto) with                                 -- l.86
  | .error e => (h, .error e)
  | .ok req =>
    match Dict.get? (h.nodes i).table (setCode 0 (.int req.deoj)).1 with  -- l.89-91, node.py:79-83
    | none => (h, .ok ())
    | some r =>
      let q := (deref h i r).messageReceived env req                      -- l.93
      let h := store h i r q.obj
      match q.result with
      | .error e => (h, .error e)
      | .ok res =>
        let a := (h.nodes i).base.answer net req res
        (setNode h i { h.nodes i with base := a.1 }, a.2)

/-- What happens: an object is added to a node, a message arrives at a node, the program changes an object, or something that does not touch objects (options, `start`,
`stop`, sending) happens to a node. -/
inductive Op where
  | add (i j : Nat)
  | receive (i : Nat) (env : Env) (net : Net) (m : Msg)
  | change (j : Nat) (f : Obj → Obj)
  | enable (i : Nat) (opt : Int) (v : Bool)
  | start (i : Nat) (net : Net) (caller : Option Nat)
  | stop (i : Nat) (caller : Option Nat)
  | announce (i : Nat) (net : Net) (m : Msg)
  | send (i : Nat) (net : Net) (m : Msg) (a : Option Addr)

/-- Something that does not touch objects. -/
def onBase (ord : List Int → List Int) (h : Heap) (i : Nat) (op : NodeOp) : Heap := setNode h i { h.nodes i with base := op.run ord (h.nodes i).base }

def step (ord : List Int → List Int) (h : Heap) : Op → Heap
  | .add i j => (addObject ord h i j).1
  | .receive i env net m => (messageReceived env net h i m).1
  | .change j f => { h with objs := fun k => if k = j then f (h.objs j) else h.objs k }
  | .enable i opt v => onBase ord h i (.enable opt v)
  | .start i net caller => onBase ord h i (.start net caller)
  | .stop i caller => onBase ord h i (.stop caller)
  | .announce i net m => onBase ord h i (.announce net m)
  | .send i net m a => onBase ord h i (.send net m a)

def run (ord : List Int → List Int) (h : Heap) (ops : List Op) : Heap := ops.foldl (step ord) h

end Uecho.Pool
