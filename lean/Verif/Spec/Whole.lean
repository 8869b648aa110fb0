/-
Devices and controllers that are used as well as written to, and networks of them: what the calls a program makes do to the machines of `Spec/Device` and `Spec/Picture`. Written
without reference to the model's functions.
-/
import Verif.Spec.Picture

namespace Uecho.Spec

/-- What a call gives: nothing, a value, or an exception. -/
inductive Given where
  | nothing
  | value (b : Bool)
  | raised
  deriving DecidableEq

/-! ### Calls on a device -/

namespace RefDevice

/-- The message as it goes out: a controller signs with its profile; a message without a number gets the next one. -/
def stamped (D : RefDevice) (m : Msg) : Msg :=
  { m with seoj := if D.ctl then 0x0EF001 else m.seoj, tid := if m.tid = 0 then chosenTid D.tid else m.tid }

/-- The device after it numbered the message. -/
def counted (D : RefDevice) (m : Msg) : RefDevice := { D with tid := if m.tid = 0 then chosenTid D.tid else D.tid }

/-- To everyone, through all interfaces; a message that cannot be written raises. -/
def announce (D : RefDevice) (m : Msg) : RefDevice × List Sent × Given :=
  if Encodable m then (D.counted m, D.ifs.map fun i => ⟨i, ("224.0.23.0", 3610), encode (D.stamped m)⟩, .value true) else (D.counted m, [], .raised)

/-- To one address, through the first interface; what is no address is refused. -/
def send (D : RefDevice) (m : Msg) : Option Addr → RefDevice × List Sent × Given
  | none => (D.counted m, [], .value false)
  | some a => if Encodable m then (D.counted m, (D.ifs.take 1).map fun i => ⟨i, a, encode (D.stamped m)⟩, .value true) else (D.counted m, [], .raised)

/-- A property gets new data, if there is one. -/
def store (D : RefDevice) (obj code : Int) (data : Bytes) : RefDevice :=
  match D.things obj with
  | none => D
  | some t => D.setThing obj { t with props := fun c => if c = code then (t.props c).map fun e => { e with data := data } else t.props c }

end RefDevice

/-- What happens to a device: a datagram arrives, or the program makes a call. -/
inductive Use where
  | arrive (x : Arrival)
  | announce (m : Msg)
  | send (m : Msg) (a : Option Addr)
  | store (obj code : Int) (data : Bytes)

/-- Data a message can carry, in objects the program has added. -/
def Use.Fair : Use → Prop
  | .store obj _ data => obj ≠ 0x0EF001 ∧ data.length ≤ 255
  | _ => True

def RefRun.use (R : RefRun) : Use → RefRun × Given
  | .arrive x => (R.arrive x, .nothing)
  | .announce m => ({ R with dev := (R.dev.announce m).1, sent := R.sent ++ (R.dev.announce m).2.1 }, (R.dev.announce m).2.2)
  | .send m a => ({ R with dev := (R.dev.send m a).1, sent := R.sent ++ (R.dev.send m a).2.1 }, (R.dev.send m a).2.2)
  | .store obj code data => ({ R with dev := R.dev.store obj code data }, .nothing)

/-! ### Calls on a controller -/

/-- The address a destination stands for. -/
def whereTo : PyDest → Option Addr
  | .pair a => some a
  | .str s => some (s, 3610)
  | .remote r => match r.node.address with
    | some a => some (a.1, 3610)
    | none => some ("", 0)
  | .other => none

/-- What happens to a controller besides. -/
inductive CtlUse where
  | device (u : Use)
  | sendTo (m : Msg) (d : PyDest)
  | post (m : Msg) (d : PyDest)
  | search
  | listen (l : Nat)
  | unlisten (l : Nat)

def CtlUse.Fair : CtlUse → Prop
  | .device u => u.Fair
  | _ => True

/-- The request every search sends: the instance list of all nodes. -/
def theSearch : Msg := { seoj := 0x0EF001, deoj := 0x0EF001, esv := 0x62, props := [{ code := 0xD6 }] }

/-- A call on the device a controller is. -/
def RefCtlRun.onDevice (R : RefCtlRun) (q : RefDevice × List Sent × Given) : RefCtlRun × Given :=
  ({ R with ctl := { R.ctl with dev := q.1 }, sent := R.sent ++ q.2.1 }, q.2.2)

/-- The listeners without the first `l`. -/
def without (l : Nat) : List Nat → List Nat
  | [] => []
  | x :: xs => if x = l then xs else x :: without l xs

def RefCtlRun.use (fresh : Int → Int → Option Bytes) (R : RefCtlRun) : CtlUse → RefCtlRun × Given
  | .device (.arrive x) => (R.arrive fresh x, .nothing)
  | .device (.announce m) => R.onDevice (R.ctl.dev.announce m)
  | .device (.send m a) => R.onDevice (R.ctl.dev.send m a)
  | .device (.store obj code data) => ({ R with ctl := { R.ctl with dev := R.ctl.dev.store obj code data } }, .nothing)
  | .sendTo m d => R.onDevice (R.ctl.dev.send m (whereTo d))
  | .post m d =>
    let q := R.onDevice (R.ctl.dev.send m (whereTo d))
    ({ q.1 with ctl := { q.1.ctl with asked := some (R.ctl.dev.stamped m).tid, answer := none } }, q.2)
  | .search => R.onDevice (R.ctl.dev.announce theSearch)
  | .listen l => ({ R with ctl := { R.ctl with listeners := R.ctl.listeners ++ [l] } }, .nothing)
  | .unlisten l =>
    if l ∈ R.ctl.listeners then ({ R with ctl := { R.ctl with listeners := without l R.ctl.listeners } }, .nothing) else (R, .raised)

/-! ### Networks -/

/-- What happens in a network: something at one of its devices or controllers. -/
inductive Incident where
  | device (ip : String) (u : Use)
  | controller (ip : String) (u : CtlUse)

def Incident.Fair : Incident → Prop
  | .device _ u => u.Fair
  | .controller _ u => u.Fair

/-- The devices and controllers of a network, by address. -/
structure Home (δ κ : Type) where
  devices : String → Option δ
  controllers : String → Option κ

/-- A network behaves as its devices and controllers do. -/
def Home.step {δ κ : Type} (onD : δ → Use → δ × Given) (onC : κ → CtlUse → κ × Given) (N : Home δ κ) : Incident → Home δ κ × Given
  | .device ip u =>
    match N.devices ip with
    | none => (N, .nothing)
    | some r => ({ N with devices := fun ip' => if ip' = ip then some (onD r u).1 else N.devices ip' }, (onD r u).2)
  | .controller ip u =>
    match N.controllers ip with
    | none => (N, .nothing)
    | some r => ({ N with controllers := fun ip' => if ip' = ip then some (onC r u).1 else N.controllers ip' }, (onC r u).2)

def Home.run {δ κ : Type} (onD : δ → Use → δ × Given) (onC : κ → CtlUse → κ × Given) (N : Home δ κ) : List Incident → Home δ κ × List Given
  | [] => (N, [])
  | e :: es =>
    let q := (N.step onD onC e).1.run onD onC es
    (q.1, (N.step onD onC e).2 :: q.2)

/-- A datagram with these bytes was sent at `ip`, to `dst` or to everyone. -/
def Home.Carried {δ κ : Type} (sentD : δ → List Sent) (sentC : κ → List Sent) (N : Home δ κ) (ip dst : String) (b : Bytes) : Prop :=
  ∃ s, ((∃ r, N.devices ip = some r ∧ s ∈ sentD r) ∨ (∃ r, N.controllers ip = some r ∧ s ∈ sentC r)) ∧ s.bytes = b ∧ (s.dest.1 = dst ∨ s.dest.1 = "224.0.23.0")

/-- Only what was sent arrives, where it was sent to. -/
def Home.Real {δ κ : Type} (sentD : δ → List Sent) (sentC : κ → List Sent) (N : Home δ κ) : Incident → Prop
  | .device ip (.arrive x) => N.Carried sentD sentC x.src.1 ip x.bytes
  | .controller ip (.device (.arrive x)) => N.Carried sentD sentC x.src.1 ip x.bytes
  | _ => True

/-- What may happen in a closed network, one after the other. -/
def Home.May {δ κ : Type} (onD : δ → Use → δ × Given) (onC : κ → CtlUse → κ × Given) (sentD : δ → List Sent) (sentC : κ → List Sent) (N : Home δ κ) : List Incident → Prop
  | [] => True
  | e :: es => N.Real sentD sentC e ∧ Home.May onD onC sentD sentC (N.step onD onC e).1 es

/-- A network of machines. -/
abbrev RefNet := Home RefRun RefCtlRun

/-! ### Networks as the standard describes them -/

/-- A device that follows the standard when a datagram arrives. -/
def RefRun.standardUse (R : RefRun) : Use → RefRun × Given
  | .arrive x => ({ R with dev := (R.dev.standard x.bytes x.src).1, sent := R.sent ++ (R.dev.standard x.bytes x.src).2 }, .nothing)
  | u => R.use u

/-- A controller that does what may be expected when a datagram arrives. -/
def RefCtlRun.intendedUse (fresh : Int → Int → Option Bytes) (R : RefCtlRun) : CtlUse → RefCtlRun × Given
  | .device (.arrive x) => ({ R with ctl := (R.ctl.intended fresh x.bytes x.src).1, sent := R.sent ++ (R.ctl.intended fresh x.bytes x.src).2 }, .nothing)
  | u => R.use fresh u

/-- Not one of the datagrams a device or controller is known to treat differently. -/
def RefNet.Ordinary (fresh : Int → Int → Option Bytes) (N : RefNet) : Incident → Prop
  | .device ip (.arrive x) => ∀ R, N.devices ip = some R → ¬ R.dev.Differs x.bytes
  | .controller ip (.device (.arrive x)) => ∀ R, N.controllers ip = some R → ¬ R.ctl.Differs fresh x.bytes x.src
  | _ => True

/-- None of them, each at its time. -/
def RefNet.Usual (fresh : Int → Int → Option Bytes) (N : RefNet) : List Incident → Prop
  | [] => True
  | e :: es => RefNet.Ordinary fresh N e ∧ RefNet.Usual fresh (N.step RefRun.standardUse (RefCtlRun.intendedUse fresh) e).1 es

/-- Every thread is there. -/
def RefNet.Awake (N : RefNet) : Prop := (∀ ip R, N.devices ip = some R → ∀ i, R.alive i = true) ∧ ∀ ip R, N.controllers ip = some R → ∀ i, R.alive i = true

def RefCtlRun.careless (R : RefCtlRun) : RefCtlRun := { R with ctl := R.ctl.careless }

/-- A network whose listeners do not care whether a node is said to be added or updated. -/
def RefNet.careless (N : RefNet) : RefNet := { N with controllers := fun ip => (N.controllers ip).map RefCtlRun.careless }

/-! ### The machines nodes are -/

def given : Except Exc Bool → Given
  | .ok b => .value b
  | .error _ => .raised

/-- A datagram arrives at a node, or the program calls `announce_message` or `send_message` (local_node.py:49-53) or `set_property_data` of an object it has added. -/
def nodeUse (env : Env) (net : Net) (r : Running LocalNode) : Use → Running LocalNode × Given
  | .arrive x => (r.arrive (LocalNode.deliver env net) x, .nothing)
  | .announce m => ({ r with st := (r.st.announceMessage net m).1 }, given (r.st.announceMessage net m).2.2)
  | .send m a => ({ r with st := (r.st.sendMessage net m a).1 }, given (r.st.sendMessage net m a).2.2)
  | .store obj code data => ({ r with st := r.st.update obj fun o => (o.setPropertyData code data).1 }, .nothing)

/-- The same at a controller, and its own `send_message`, `post_message` up to the wait, `search`, `add_listener` and `remove_listener` (controller.py:109-123, 155-199). -/
def ctlUse (ord : List Int → List Int) (env : Env) (cenv : CEnv) (net : Net) (r : Running Ctl) : CtlUse → Running Ctl × Given
  | .device (.arrive x) => (r.arrive (Ctl.deliver ord env cenv net) x, .nothing)
  | .device (.announce m) => ({ r with st := (r.st.announceMessage net m).1 }, given (r.st.announceMessage net m).2.2)
  | .device (.send m a) => ({ r with st := { r.st with ln := (r.st.ln.sendMessage net m a).1 } }, given (r.st.ln.sendMessage net m a).2.2)
  | .device (.store obj code data) => ({ r with st := { r.st with ln := r.st.ln.update obj fun o => (o.setPropertyData code data).1 } }, .nothing)
  | .sendTo m d => ({ r with st := (r.st.sendMessage net m d).1 }, given (r.st.sendMessage net m d).2.2)
  | .post m d => ({ r with st := (r.st.postBegin net m d).1 }, given (r.st.postBegin net m d).2)
  | .search => ({ r with st := (r.st.search net).1 }, given (r.st.search net).2)
  | .listen l => ({ r with st := r.st.addListener l }, .nothing)
  | .unlisten l => ({ r with st := (r.st.removeListener l).1 }, match (r.st.removeListener l).2 with | .ok _ => .nothing | .error _ => .raised)

/-- The machine of a node: the device it is, its threads, and all it has sent. -/
def runOf (r : Running LocalNode) : RefRun := { dev := deviceOf r.st, alive := r.alive, sent := r.st.mgr.log.map Prod.fst }

def ctlRunOf (r : Running Ctl) : RefCtlRun := { ctl := controllerOf r.st, alive := r.alive, sent := r.st.ln.mgr.log.map Prod.fst }

/-- The network of nodes and controllers of the library. -/
abbrev RealNet := Home (Running LocalNode) (Running Ctl)

/-- What nodes and controllers of the library have sent. -/
def sentBy (r : Running LocalNode) : List Sent := r.st.mgr.log.map Prod.fst
def sentByCtl (r : Running Ctl) : List Sent := r.st.ln.mgr.log.map Prod.fst

/-- The network of their machines. -/
def homeOf (N : RealNet) : RefNet := { devices := fun ip => (N.devices ip).map runOf, controllers := fun ip => (N.controllers ip).map ctlRunOf }

end Uecho.Spec
