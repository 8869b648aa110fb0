/-
Model of `Object.message_received` (object.py:330-436) run by any number of receiving threads for the same
object at the same time, while the application changes data.

One step is one look-up and permission check (which use the property table and the attributes only: nothing
changes these here), one load or one store of a property's `data`. The request handler is the default one
(super_object.py:99-109). Observers (l.334) are not in this model; `Model/Object.lean` has the function as run
by one thread, and `alone` in `Lemmas/Threads.lean` shows that a thread that is not interrupted does the same.
-/
import Verif.Model.Object

namespace Uecho.Par

/-- What is done for an item of a request: the loops of l.350, l.360 and l.368 (of the last, for read
requests, write requests, and others). -/
inductive Kind where
  | set
  | get
  | read
  | write
  | pass
deriving DecidableEq

/-- The local variables of `message_received`: the request, the items still to come, the number of accepted
items, and the properties of the response so far. -/
structure Frame where
  req : Msg
  todo : List (Kind × PProp)
  cnt : Nat := 0
  sets : List PProp := []
  gets : List PProp := []
  props : List PProp := []

/-- `res_msg.add_set_property`, `add_get_property`, `add_property` (l.359, 366, 382) and going on. -/
def Frame.push (f : Frame) (k : Kind) (p : PProp) (n : Nat) : Frame :=
  match k with
  | .set => { f with todo := f.todo.tail, sets := f.sets ++ [p], cnt := f.cnt + n }
  | .get => { f with todo := f.todo.tail, gets := f.gets ++ [p], cnt := f.cnt + n }
  | _ => { f with todo := f.todo.tail, props := f.props ++ [p], cnt := f.cnt + n }

/-- The items of a request (l.349, 350, 360, 368, 372, 376). -/
def items (m : Msg) : List (Kind × PProp) :=
  if ESV.isWriteReadRequest m.esv then m.setProps.map (Prod.mk .set) ++ m.getProps.map (Prod.mk .get)
  else m.props.map (Prod.mk (if ESV.isReadRequest m.esv then .read else if ESV.isWriteRequest m.esv then .write else .pass))

/-- The response (l.342-345, 384-436). -/
def Frame.result (f : Frame) : Option Msg :=
  Obj.respond f.req { tid := f.req.tid, deoj := f.req.seoj, seoj := f.req.deoj, setProps := f.sets, getProps := f.gets, props := f.props } f.cnt

/-- Where a thread is. -/
inductive PC where
  | idle
  | next (f : Frame)                          -- at the head of a loop (l.350, 360, 368)
  | store (f : Frame) (k : Kind) (i : PProp)  -- permitted, about to store (l.355, 378)
  | load (f : Frame) (k : Kind) (i : PProp)   -- permitted, about to load (l.364, 374)
  | crashed                                   -- an exception: the thread has ended

/-- What has happened. -/
inductive Event where
  | recv (t : Nat) (m : Msg)
  | store (t : Nat) (c : Int) (d : Bytes)
  | app (c : Int) (d : Bytes)
  | answer (t : Nat) (m : Msg) (r : Option Msg)
  | crash (t : Nat) (m : Msg)
deriving DecidableEq

structure Sys where
  obj : Obj
  pc : Nat → PC := fun _ => .idle
  log : List Event := []

/-- A thread gets a message, or goes on; the application calls `set_property_data`. -/
inductive Act where
  | recv (t : Nat) (m : Msg)
  | run (t : Nat)
  | app (c : Int) (d : Bytes)

namespace Sys

def goto (s : Sys) (t : Nat) (p : PC) : Sys := { s with pc := fun i => if i = t then p else s.pc i }

def emit (s : Sys) (e : Event) : Sys := { s with log := s.log ++ [e] }

/-- One turn of a loop, up to the access to the data (object.py:350-382, super_object.py:99-109). -/
def check (s : Sys) (t : Nat) (f : Frame) : Sys :=
  match f.todo with
  | [] => (s.goto t .idle).emit (.answer t f.req f.result)
  | (.set, i) :: _ =>
    match s.obj.getProperty i.code with
    | none => s.goto t (.next (f.push .set { code := i.code } 0))
    | some p =>
      match s.obj.superWrite p with
      | .error _ => (s.goto t .crashed).emit (.crash t f.req)
      | .ok true => s.goto t (.store f .set i)
      | .ok false => s.goto t (.next (f.push .set { code := i.code, data := i.data } 0))
  | (.get, i) :: _ =>
    match s.obj.superRead (s.obj.getProperty i.code) with
    | .error _ => (s.goto t .crashed).emit (.crash t f.req)
    | .ok true => s.goto t (.load f .get i)
    | .ok false => s.goto t (.next (f.push .get { code := i.code } 0))
  | (.read, i) :: _ =>
    match s.obj.getProperty i.code with
    | none => s.goto t (.next (f.push .read { code := i.code } 0))
    | some p =>
      match s.obj.superRead (some p) with
      | .error _ => (s.goto t .crashed).emit (.crash t f.req)
      | .ok true => s.goto t (.load f .read i)
      | .ok false => s.goto t (.next (f.push .read { code := i.code } 0))
  | (.write, i) :: _ =>
    match s.obj.getProperty i.code with
    | none => s.goto t (.next (f.push .write { code := i.code } 0))
    | some p =>
      match s.obj.superWrite p with
      | .error _ => (s.goto t .crashed).emit (.crash t f.req)
      | .ok true => s.goto t (.store f .write i)
      | .ok false => s.goto t (.next (f.push .write { code := i.code, data := i.data } 0))
  | (.pass, i) :: _ => s.goto t (.next (f.push .pass { code := i.code } 0))

/-- One step of a thread. -/
def run (s : Sys) (t : Nat) : Option Sys :=
  match s.pc t with
  | .idle => none
  | .crashed => none
  | .next f => some (s.check t f)
  | .store f k i =>
    some (({ s with obj := s.obj.storeData i.code i.data }.goto t (.next (f.push k { code := i.code } 1))).emit (.store t i.code i.data))
  | .load f k i =>
    match s.obj.getPropertyData i.code with
    | some d => some (s.goto t (.next (f.push k { code := i.code, data := d } 1)))
    | none => some ((s.goto t .crashed).emit (.crash t f.req))

/-- A thread takes up a message (l.336-345). -/
def recv (s : Sys) (t : Nat) (m : Msg) : Option Sys :=
  match s.pc t with
  | .idle =>
    if ESV.isRequest m.esv = false then some ((s.emit (.recv t m)).emit (.answer t m none))
    else if s.obj.handler = .none then some ((s.emit (.recv t m)).emit (.answer t m none))
    else some ((s.emit (.recv t m)).goto t (.next { req := m, todo := items m }))
  | _ => none

/-- `set_property_data` (object.py:247-252) called by the application. -/
def app (s : Sys) (c : Int) (d : Bytes) : Sys :=
  { s with obj := (s.obj.setPropertyData c d).1 }.emit (.app c d)

def act (s : Sys) : Act → Option Sys
  | .recv t m => s.recv t m
  | .run t => s.run t
  | .app c d => some (s.app c d)

/-- A schedule: what happens, in order; `none` if something of it cannot happen. -/
def exec (s : Sys) : List Act → Option Sys
  | [] => some s
  | a :: l => match s.act a with
    | some s => exec s l
    | none => none

end Sys
end Uecho.Par
