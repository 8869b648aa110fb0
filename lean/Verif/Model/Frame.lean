/- Model of uecho/frame: interface.py, server.py, unicast_server.py, multicast_server.py, manager.py. -/
import Verif.Model.Message

namespace Uecho

/-! ### Interface (frame/interface.py) -/

/-- What `netifaces` reports about one interface: the `AF_INET` entries if the key is there, each with
its `addr` if that key is there. -/
abbrev IfInfo := Option (List (Option String))

/-- The inner loop of `get_all_ipaddrs` (frame/interface.py:28-33). -/
def inetLoop : List (Option String) → List String → List String
  | [], acc => acc
  | none :: l, acc => inetLoop l acc
  | some a :: l, acc => if a = "127.0.0.1" then inetLoop l acc else inetLoop l (acc ++ [a])

/-- `Interface.get_all_ipaddrs` (frame/interface.py:21-34). -/
def getAllIpaddrs : List IfInfo → List String → List String
  | [], acc => acc
  | none :: l, acc => getAllIpaddrs l acc
  | some inets :: l, acc => getAllIpaddrs l (inetLoop inets acc)

/-! ### Servers -/

inductive SrvKind where
  | unicast
  | multicast
deriving DecidableEq, Repr

/-- `Server` (frame/server.py:33-38). `open_` is `sock is not None`; the thread of
every server in a manager's list has been started; observers are identified by a number. The port is always 3610
(server.py:37). -/
structure Server where
  kind : SrvKind
  ifaddr : String := ""
  open_ : Bool := false
  observers : List Nat := []
deriving DecidableEq, Repr

/-- frame/server.py:26, frame/multicast_server.py:20 -/
def SERVER_PORT : Int := 3610
def MULTICAST_ADDRESS : String := "224.0.23.0"

/-- A datagram handed to the operating system: through which interface, to whom, the bytes. -/
structure Sent where
  ifaddr : String
  dest : Addr
  bytes : Bytes
deriving DecidableEq, Repr

/-- The operating system as the servers see it. All answers may depend on how many calls were made
before (the `Nat`), so they are arbitrary.
* `sendto`: the number returned, or an exception (`OSError`);
* `bind`: creating and binding the socket and, for the multicast server, joining the group; it
  succeeds or raises;
* `thread`: starting the thread succeeds or raises;
* `interfaces`: what `netifaces` reports. -/
structure Net where
  sendto : Nat → String → Addr → Bytes → Except Exc Int
  bind : Nat → SrvKind → String → Option Exc
  thread : Nat → Option Exc
  interfaces : List IfInfo

/-- `frame.Manager` (frame/manager.py:28-30). `calls` counts calls to the operating system, `log` the
`sendto` calls that did not raise with the number they returned. -/
structure Manager where
  servers : List Server := []
  tid : Int := 0
  calls : Nat := 0
  log : List (Sent × Int) := []

namespace Manager

/-- `__next_TID` (frame/manager.py:35-39). -/
def nextTid (g : Manager) : Manager × Int :=
  let g := { g with tid := g.tid + 1 }
  let g := if 0xFFFF < g.tid then { g with tid := 1 } else g
  (g, g.tid)

/-- l.64-65 and l.72-73 of frame/manager.py. -/
def assignTid (g : Manager) (m : Msg) : Manager × Msg :=
  if m.tid = 0 then
    let (g, t) := g.nextTid
    (g, { m with tid := t })
  else (g, m)

/-- `self.sock.sendto(…) <= 0` and what follows (unicast_server.py:43-47, 56-60): `to_string` is
evaluated before `to_bytes`, both raise under the same conditions. -/
def transmit (net : Net) (g : Manager) (s : Server) (m : Msg) (dest : Addr) : Manager × Except Exc Bool :=
  match m.toStr with
  | .error e => (g, .error e)
  | .ok _ =>
    match m.toBytes with
    | .error e => (g, .error e)
    | .ok b =>
      match net.sendto g.calls s.ifaddr dest b with
      | .error e => ({ g with calls := g.calls + 1 }, .error e)
      | .ok n => ({ g with calls := g.calls + 1, log := g.log ++ [(⟨s.ifaddr, dest, b⟩, n)] }, .ok (!decide (n ≤ 0)))

/-- `UnicastServer.announce_message` (frame/unicast_server.py:37-47). -/
def serverAnnounce (net : Net) (g : Manager) (s : Server) (m : Msg) : Manager × Msg × Except Exc Bool :=
  if s.open_ = false then (g, m, .ok false)
  else
    let m := { m with toAddr := some (MULTICAST_ADDRESS, SERVER_PORT) }
    let (g, r) := g.transmit net s m (MULTICAST_ADDRESS, SERVER_PORT)
    (g, m, r)

/-- `UnicastServer.send_message` (frame/unicast_server.py:49-60); `none` is an address that is not a
pair. -/
def serverSend (net : Net) (g : Manager) (s : Server) (m : Msg) (addr : Option Addr) : Manager × Msg × Except Exc Bool :=
  match addr with
  | none => (g, m, .ok false)
  | some a =>
    if s.open_ = false then (g, m, .ok false)
    else
      let m := { m with toAddr := some a }
      let (g, r) := g.transmit net s m a
      (g, m, r)

/-- The loop of `announce_message` (frame/manager.py:66-69). -/
def announceLoop (net : Net) : List Server → Manager → Msg → Manager × Msg × Except Exc Bool
  | [], g, m => (g, m, .ok true)
  | s :: ss, g, m =>
    if s.kind = .unicast then
      match g.serverAnnounce net s m with
      | (g, m, .error e) => (g, m, .error e)
      | (g, m, .ok _) => announceLoop net ss g m
    else announceLoop net ss g m

/-- `announce_message` (frame/manager.py:63-69). The message is changed in place; its new value is the
second component. -/
def announce (net : Net) (g : Manager) (m : Msg) : Manager × Msg × Except Exc Bool :=
  let (g, m) := g.assignTid m
  announceLoop net g.servers g m

/-- The loop of `send_message` (frame/manager.py:74-79). -/
def sendLoop (net : Net) (addr : Option Addr) : List Server → Manager → Msg → Manager × Msg × Except Exc Bool
  | [], g, m => (g, m, .ok false)
  | s :: ss, g, m =>
    if s.kind = .unicast then
      match g.serverSend net s m addr with
      | (g, m, .error e) => (g, m, .error e)
      | (g, m, .ok true) => (g, m, .ok true)
      | (g, m, .ok false) => sendLoop net addr ss g m
    else sendLoop net addr ss g m

/-- `send_message` (frame/manager.py:71-79). -/
def send (net : Net) (g : Manager) (m : Msg) (addr : Option Addr) : Manager × Msg × Except Exc Bool :=
  let (g, m) := g.assignTid m
  sendLoop net addr g.servers g m

/-! ### Life cycle -/

/-- The loop of `stop` (frame/manager.py:112-113) over `Server.stop` (frame/server.py:100-110).
`caller` is the index of the server whose own thread is executing this (a callback), if any: joining
the current thread raises `RuntimeError`, after the socket has been closed. Closing does not raise, and
other threads are assumed to end once their socket is closed. -/
def stopLoop (caller : Option Nat) : List Server → Nat → List Server × Option Exc
  | [], _ => ([], none)
  | s :: ss, i =>
    if s.open_ = false then
      let (ss, r) := stopLoop caller ss (i + 1)
      (s :: ss, r)
    else if caller = some i then ({ s with open_ := false } :: ss, some .runtimeError)
    else
      let (ss, r) := stopLoop caller ss (i + 1)
      ({ s with open_ := false } :: ss, r)

/-- `stop` (frame/manager.py:111-115). -/
def stop (g : Manager) (caller : Option Nat) : Manager × Except Exc Bool :=
  match stopLoop caller g.servers 0 with
  | (ss, some e) => ({ g with servers := ss }, .error e)
  | (_, none) => ({ g with servers := [] }, .ok true)

/-- Creating, binding and starting one server (manager.py:88-95, 97-104). `bind` cannot return
`False` (unicast_server.py:30-35, multicast_server.py:28-35), and then `start` cannot either
(server.py:94-98); both can raise. -/
def launch (net : Net) (g : Manager) (k : SrvKind) (ifaddr : String) : Manager × Option Exc :=
  match net.bind g.calls k ifaddr with
  | some e => ({ g with calls := g.calls + 1 }, some e)
  | none =>
    match net.thread (g.calls + 1) with
    | some e => ({ g with calls := g.calls + 2 }, some e)
    | none =>
      ({ g with calls := g.calls + 2
                servers := g.servers ++ [{ kind := k, ifaddr := ifaddr, open_ := true }] }, none)

/-- The loop of `start` (frame/manager.py:87-104). -/
def startLoop (net : Net) : List String → Manager → Manager × Option Exc
  | [], g => (g, none)
  | a :: as, g =>
    match g.launch net .unicast a with
    | (g, some e) => (g, some e)
    | (g, none) =>
      match g.launch net .multicast a with
      | (g, some e) => (g, some e)
      | (g, none) => startLoop net as g

/-- `start` (frame/manager.py:81-109). -/
def start (net : Net) (g : Manager) (caller : Option Nat) (ifaddrs : List String) : Manager × Except Exc Bool :=
  match g.stop caller with
  | (g, .error e) => (g, .error e)
  | (g, .ok false) => (g, .ok false)                                     -- l.82-83
  | (g, .ok true) =>
    let ifaddrs := if ifaddrs.length ≤ 0 then getAllIpaddrs net.interfaces [] else ifaddrs
    match startLoop net ifaddrs g with
    | (g, some e) => (g, .error e)
    | (g, none) => if g.servers.length ≤ 0 then (g, .ok false) else (g, .ok true)

/-- `add_observer` (frame/manager.py:55-57) and `Subject.add_observer` (protocol/subject.py:29-45). -/
def addObserver (g : Manager) (n : Nat) : Manager :=
  { g with servers := g.servers.map fun s =>
      if n ∈ s.observers then s else { s with observers := s.observers ++ [n] } }

/-- `ifaddr`, `port` (frame/manager.py:41-53). -/
def ifaddr (g : Manager) : String :=
  match g.servers.find? (fun s => s.kind = .unicast) with
  | some s => s.ifaddr
  | none => ""
def port (g : Manager) : Int :=
  match g.servers.find? (fun s => s.kind = .unicast) with
  | some _ => SERVER_PORT
  | none => 0

end Manager

/-! ### The receiving thread (frame/server.py:53-72) -/

/-- `Subject.notify` (protocol/subject.py:47-54): every observer in turn; an exception ends it. -/
def notifyAll {σ : Type} : List (σ → Msg → σ × Option Exc) → σ → Msg → σ × Option Exc
  | [], st, _ => (st, none)
  | f :: fs, st, m =>
    match f st m with
    | (st, some e) => (st, some e)
    | (st, none) => notifyAll fs st m

/-- server.py:59 -/
def RECV_SIZE : Nat := 1024

/-- What the thread does with one datagram: the exceptions of `parse_bytes`, of `to_string` and of the
observers all end the loop (server.py:71-72). `deliver` is `self.notify(msg)` on whatever state the
observers share. The result says whether the loop goes on. -/
def recvOne {σ : Type} (deliver : σ → Msg → σ × Option Exc) (st : σ) (dgram : Bytes) (frm : Addr) : σ × Bool :=
  match Msg.parseBytes {} (dgram.take RECV_SIZE) with
  | (_, .error _) => (st, false)
  | (_, .ok false) => (st, true)
  | (m, .ok true) =>
    let m := { m with fromAddr := some frm }
    match m.toStr with
    | .error _ => (st, false)
    | .ok _ =>
      match deliver st m with
      | (st, some _) => (st, false)
      | (st, none) => (st, true)

/-- `run` (frame/server.py:53-72) over the datagrams that arrive while the socket is open: the state
after them, and whether the thread is still there. -/
def runLoop {σ : Type} (deliver : σ → Msg → σ × Option Exc) : σ → List (Bytes × Addr) → σ × Bool
  | st, [] => (st, true)
  | st, (d, a) :: ds =>
    match recvOne deliver st d a with
    | (st, false) => (st, false)
    | (st, true) => runLoop deliver st ds

end Uecho
