/- Model of `LocalNode.add_observer` (uecho/local_node.py:46-47). -/
import Verif.Model.LocalNode

namespace Uecho

/-- `LocalNode.add_observer` (local_node.py:46-47) passes the observer on to the servers there are (frame/manager.py:55-57);
nothing keeps it otherwise. Number 0 is the node itself. -/
def LocalNode.addObserver (n : LocalNode) (k : Nat) : LocalNode := { n with mgr := n.mgr.addObserver k }

/-- Several calls. -/
def LocalNode.addObservers (n : LocalNode) (ks : List Nat) : LocalNode := ks.foldl LocalNode.addObserver n

/-- The receiving thread of a server notifies its observers (frame/server.py:70, 86-92); `obs` says what each does. -/
def Server.deliver {σ : Type} (obs : Nat → σ → Msg → σ × Option Exc) (s : Server) : σ → Msg → σ × Option Exc :=
  notifyAll (s.observers.map obs)

end Uecho
