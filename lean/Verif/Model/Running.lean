/-
Model of a node whose receiving threads are running: one thread per server (frame/server.py:45-72), all
delivering to the same node. A datagram is handled as a whole here; interleavings inside a handler are the
subject of Model/Threads.lean.
-/
import Verif.Model.Frame
import Verif.Model.LocalNode

namespace Uecho

/-- The receiver and, for each receiving thread, whether it is still running. -/
structure Running (σ : Type) where
  st : σ
  alive : Nat → Bool

/-- A datagram from `src` arriving at the socket of a thread. -/
structure Arrival where
  thread : Nat
  bytes : Bytes
  src : Addr

/-- One turn of the loop of `Server.run` (frame/server.py:48-72) of the thread the datagram arrives at. A
thread whose loop has ended reads nothing any more; nobody starts it again. -/
def Running.arrive {σ : Type} (deliver : σ → Msg → σ × Option Exc) (r : Running σ) (x : Arrival) : Running σ :=
  if r.alive x.thread then
    let (st, on) := recvOne deliver r.st x.bytes x.src
    { st := st, alive := fun i => if i = x.thread then on else r.alive i }
  else r

/-- Any number of datagrams. -/
def Running.arrivals {σ : Type} (deliver : σ → Msg → σ × Option Exc) (r : Running σ) (xs : List Arrival) : Running σ :=
  xs.foldl (Running.arrive deliver) r

end Uecho
