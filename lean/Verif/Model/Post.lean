/-
Model of `Controller.post_message` (controller.py:185-205), of the end of `Controller.message_received`
(controller.py:298-303) and of `Manager.__next_TID` with its use (frame/manager.py:35-39, 72-73), run by any
number of threads, one access to shared data at a time.

One step is one load or store of an attribute that other threads can see (CPython switches threads between
bytecodes, and each of these is one bytecode), or one operation on the condition variable.

Not modelled: what `message_received` does before line 298 (`Model/Controller.lean` has it; a thread enters
here once that is done without an exception), what the operating system does with a datagram (the result of
`send_message` is arbitrary), and the time: a wait may time out at any moment.
-/
import Verif.Model.Message

namespace Uecho.Conc

/-- An object of class `__PostMessage` (controller.py:63-77); the request is a reference to a message
object, whose TID is still to be set. -/
structure Slot where
  req : Option Nat := none
  resp : Option Msg := none

/-- Where a thread is. `w` tells whether it is in `post_message` (else in `send_message`); `q` is the message
object it sends, `m` the message it has received, `s` the `__PostMessage` it has loaded. -/
inductive PC where
  | idle
  -- post_message
  | load1 (q : Nat)                       -- l.196, about to load `self.__last_post_msg`
  | setReq (q : Nat) (s : Nat)            -- l.196, about to store `.request`
  -- Manager.send_message, __next_TID
  | chk (w : Bool) (q : Nat)              -- manager.py:72, about to load `msg.TID`
  | ld (w : Bool) (q : Nat)               -- manager.py:36, about to load `self.__TID`
  | st (w : Bool) (q : Nat) (v : Int)     -- manager.py:36, about to store v + 1
  | cmp (w : Bool) (q : Nat)              -- manager.py:37, about to load and compare
  | rst (w : Bool) (q : Nat)              -- manager.py:38, about to store 1
  | ret (w : Bool) (q : Nat)              -- manager.py:39, about to load what is returned
  | set (w : Bool) (q : Nat) (v : Int)    -- manager.py:73, about to store `msg.TID`
  | out (w : Bool) (q : Nat)              -- manager.py:74-79, sending
  -- post_message, after sending
  | acq (q : Nat)                         -- l.201, about to acquire
  | wt (q : Nat)                          -- l.202, about to wait
  | waiting (q : Nat)                     -- l.202, waiting
  | reacq (q : Nat)                       -- l.202, about to acquire again
  | rel (q : Nat)                         -- l.203, about to release
  | load2 (q : Nat)                       -- l.205, about to load `self.__last_post_msg`
  | rd (q : Nat) (s : Nat)                -- l.205, about to load `.response`
  | done (q : Nat) (r : Option Msg)       -- returned r
  | raised                                -- `send_message` raised
  -- message_received
  | r0 (m : Msg)                          -- l.298, about to load `self.__last_post_msg`
  | r1 (m : Msg) (s : Nat)                -- is_waiting, l.73, about to load `.request`
  | r2 (m : Msg) (s : Nat)                -- is_waiting, l.75, about to load `.response`
  | r3 (m : Msg)                          -- l.299, about to load `self.__last_post_msg`
  | r4 (m : Msg) (s : Nat)                -- l.299, about to load `.request`
  | r5 (m : Msg) (q : Nat)                -- l.299, is_response_message, about to load the TID
  | r6 (m : Msg)                          -- l.300, about to load `self.__last_post_msg`
  | r7 (m : Msg) (s : Nat)                -- l.300, about to store `.response`
  | r8 (m : Msg)                          -- l.301, about to acquire
  | r9 (m : Msg)                          -- l.302, about to notify
  | r10 (m : Msg)                         -- l.303, about to release
  | crashed                               -- AttributeError: `None.is_response_message` (l.299)

/-- What all threads share. `assigned` records the automatic TIDs, in the order in which `__next_TID` loads
them for returning. -/
structure Sys where
  slots : Nat → Slot := fun _ => {}
  next : Nat := 1
  last : Nat := 0
  tid : Nat → Int := fun _ => 0
  counter : Int := 0
  lock : Option Nat := none
  waiters : List Nat := []
  pc : Nat → PC := fun _ => .idle
  assigned : List Int := []

/-- What can happen to a thread: it calls `post_message` or `send_message` with a message object, it
receives a message, it goes on; sending succeeds, returns False or raises; the wait times out. -/
inductive Act where
  | post (q : Nat)
  | send (q : Nat)
  | recv (m : Msg)
  | run
  | sent
  | refused
  | sendRaises
  | timeout

def upd {α : Type} (f : Nat → α) (k : Nat) (v : α) : Nat → α := fun i => if i = k then v else f i

namespace Sys

def goto (s : Sys) (t : Nat) (p : PC) : Sys := { s with pc := upd s.pc t p }

/-- The threads that may call something. -/
def _root_.Uecho.Conc.PC.free : PC → Bool
  | .idle => true
  | .done _ _ => true
  | .raised => true
  | _ => false

/-- After `send_message` returned True or False. -/
def sentTo (w : Bool) (q : Nat) (b : Bool) : PC :=
  if w then if b then .acq q else .done q none else .idle

/-- `run` (controller.py:195-205, 298-303, manager.py:35-39, 72-79). -/
def goOn (s : Sys) (t : Nat) : PC → Option Sys
  | .load1 q => some (s.goto t (.setReq q s.last))
  | .setReq q n => some ({ s with slots := upd s.slots n { s.slots n with req := some q } }.goto t (.chk true q))
  | .chk w q => some (s.goto t (if s.tid q = 0 then .ld w q else .out w q))
  | .ld w q => some (s.goto t (.st w q s.counter))
  | .st w q v => some ({ s with counter := v + 1 }.goto t (.cmp w q))
  | .cmp w q => some (s.goto t (if 0xFFFF < s.counter then .rst w q else .ret w q))
  | .rst w q => some ({ s with counter := 1 }.goto t (.ret w q))
  | .ret w q => some ({ s with assigned := s.assigned ++ [s.counter] }.goto t (.set w q s.counter))
  | .set w q v => some ({ s with tid := upd s.tid q v }.goto t (.out w q))
  | .acq q => if s.lock = none then some ({ s with lock := some t }.goto t (.wt q)) else none
  | .wt q => some ({ s with lock := none, waiters := s.waiters ++ [t] }.goto t (.waiting q))
  | .waiting q => if t ∈ s.waiters then none else some (s.goto t (.reacq q))
  | .reacq q => if s.lock = none then some ({ s with lock := some t }.goto t (.rel q)) else none
  | .rel q => some ({ s with lock := none }.goto t (.load2 q))
  | .load2 q => some (s.goto t (.rd q s.last))
  | .rd q n => some (s.goto t (.done q (s.slots n).resp))
  | .r0 m => some (s.goto t (.r1 m s.last))
  | .r1 m n => some (s.goto t (match (s.slots n).req with | none => .idle | some _ => .r2 m n))
  | .r2 m n => some (s.goto t (match (s.slots n).resp with | none => .r3 m | some _ => .idle))
  | .r3 m => some (s.goto t (.r4 m s.last))
  | .r4 m n => some (s.goto t (match (s.slots n).req with | none => .crashed | some q => .r5 m q))
  | .r5 m q => some (s.goto t (if s.tid q ≠ m.tid then .idle else .r6 m))
  | .r6 m => some (s.goto t (.r7 m s.last))
  | .r7 m n => some ({ s with slots := upd s.slots n { s.slots n with resp := some m } }.goto t (.r8 m))
  | .r8 m => if s.lock = none then some ({ s with lock := some t }.goto t (.r9 m)) else none
  | .r9 m => some ({ s with waiters := s.waiters.tail }.goto t (.r10 m))
  | .r10 _ => some ({ s with lock := none }.goto t .idle)
  | _ => none

/-- One step of thread t; `none` if it cannot do that. `post_message` begins with the store of a new
`__PostMessage` (l.195). -/
def step (s : Sys) (t : Nat) : Act → Option Sys
  | .post q => if (s.pc t).free then
      some ({ s with slots := upd s.slots s.next {}, last := s.next, next := s.next + 1 }.goto t (.load1 q)) else none
  | .send q => if (s.pc t).free then some (s.goto t (.chk false q)) else none
  | .recv m => match s.pc t with
    | .idle => some (s.goto t (.r0 m))
    | _ => none
  | .run => s.goOn t (s.pc t)
  | .sent => match s.pc t with
    | .out w q => some (s.goto t (sentTo w q true))
    | _ => none
  | .refused => match s.pc t with
    | .out w q => some (s.goto t (sentTo w q false))
    | _ => none
  | .sendRaises => match s.pc t with
    | .out _ _ => some (s.goto t .raised)
    | _ => none
  | .timeout => match s.pc t with
    | .waiting q => some ({ s with waiters := s.waiters.erase t }.goto t (.reacq q))
    | _ => none

/-- A schedule: which thread does what. -/
def exec (s : Sys) : List (Nat × Act) → Option Sys
  | [] => some s
  | (t, a) :: l => match s.step t a with
    | none => none
    | some s' => exec s' l

end Sys
end Uecho.Conc
