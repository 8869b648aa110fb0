/-
Model of one server of a node while several threads use it: threads in `send_message` or `announce_message`
(frame/unicast_server.py:37-60), threads in `stop` (frame/server.py:100-110) and the receiving thread (frame/server.py:53-72).
A thread can be interrupted before every access to `self.sock` and before every call on the socket object. What is left out:
`to_string` and `to_bytes` of the message, which touch nothing shared (C54 has them), and what the receiving thread does with
a message (Model/Threads has that).
-/
import Verif.Model.Py

namespace Uecho.Closing

/-- Where a thread is.
* `send_message`: before the test of `self.sock` (l.52, l.38), before `self.sock` is read again (l.56, l.43), with the socket in
  hand before `sendto`, through.
* `stop`: before the test (server.py:101), before `shutdown` (l.104), before `self.sock` is read for `close` (l.107), with the socket
  in hand before `close`, before `self.sock = None` (l.108), before `join` (l.109), through.
* `run`: before the test (l.56), before `self.sock` is read (l.59), in `recvfrom`, handling a message (l.61-70), ended. -/
inductive Pc where
  | sendTest | sendLoad | sendCall | sendDone (r : Except Exc Bool)
  | stopTest | stopShut | stopLoad | stopClose | stopClear | stopJoin | stopDone (r : Except Exc Bool)
  | recvTest | recvLoad | recvWait | recvHandle | recvDone
deriving DecidableEq

/-- `held`: `self.sock is not None`; `closed`: the socket object has been closed; `sent`: the threads whose `sendto` was called on
the open socket, in order. -/
structure St where
  held : Bool := true
  closed : Bool := false
  sent : List Nat := []
  pc : Nat → Pc

def St.goto (s : St) (i : Nat) (p : Pc) : St := { s with pc := fun j => if j = i then p else s.pc j }

/-- What happens next: thread `i` goes on, or a datagram arrives for a thread in `recvfrom`. -/
inductive Ev where
  | go (i : Nat)
  | arrive (i : Nat)
deriving DecidableEq

/-- One step. `os i` is what `sendto` does for thread `i` on an open socket: whether it returned a positive number, or its exception. `receiver` is
the number of the receiving thread, for which `join` waits. A closed socket makes `sendto` raise `OSError` and `recvfrom` return or raise,
which ends the loop (server.py:71-72). `shutdown` may raise anything; l.105 swallows it. -/
def step (os : Nat → Except Exc Bool) (receiver : Nat) (s : St) : Ev → St
  | .arrive i => if s.pc i = .recvWait ∧ s.closed = false then s.goto i .recvHandle else s
  | .go i =>
    match s.pc i with
    | .sendTest => if s.held then s.goto i .sendLoad else s.goto i (.sendDone (.ok false))
    | .sendLoad => if s.held then s.goto i .sendCall else s.goto i (.sendDone (.error .attributeError))
    | .sendCall => if s.closed then s.goto i (.sendDone (.error .osError)) else { s.goto i (.sendDone (os i)) with sent := s.sent ++ [i] }
    | .stopTest => if s.held then s.goto i .stopShut else s.goto i (.stopDone (.ok false))
    | .stopShut => s.goto i .stopLoad
    | .stopLoad => if s.held then s.goto i .stopClose else s.goto i (.stopDone (.error .attributeError))
    | .stopClose => { s.goto i .stopClear with closed := true }
    | .stopClear => { s.goto i .stopJoin with held := false }
    | .stopJoin => if s.pc receiver = .recvDone then s.goto i (.stopDone (.ok true)) else s
    | .recvTest => if s.held then s.goto i .recvLoad else s.goto i .recvDone
    | .recvLoad => if s.held then s.goto i .recvWait else s.goto i .recvDone
    | .recvWait => if s.closed then s.goto i .recvDone else s
    | .recvHandle => s.goto i .recvTest
    | .sendDone _ | .stopDone _ | .recvDone => s

def run (os : Nat → Except Exc Bool) (receiver : Nat) (s : St) (es : List Ev) : St := es.foldl (step os receiver) s

end Uecho.Closing
