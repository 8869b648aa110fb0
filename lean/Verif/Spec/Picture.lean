/-
A controller seen from outside, as a machine from datagrams to what it knows of the network, what it tells its listeners and what it sends: the one a user of
the library may expect, and the one that is there. Both are written without reference to the model's functions.
-/
import Verif.Spec.Device
import Verif.Spec.Controller

namespace Uecho.Spec

deriving instance DecidableEq for ListRead

/-- What a controller knows of a node: where it is, its objects in order, and the data of their properties. -/
structure RefNode where
  addr : Option Addr
  objs : List Int
  data : Int → Int → Option Bytes

/-- A controller: the device it is itself; the nodes it knows, in order of discovery; the transaction number of the request it waits for an answer to, and the answer; its
listeners; and all they were told. -/
structure RefController where
  dev : RefDevice
  known : List String
  node : String → Option RefNode
  asked : Option Int
  answer : Option Msg
  listeners : List Nat
  told : List (Nat × Told)

/-- Store one value, if there is such a property. -/
def putData (data : Int → Option Bytes) (i : PProp) : Int → Option Bytes :=
  fun c => if c = i.code then (data c).map fun _ => i.data else data c

/-- Store several, one after the other. -/
def putsData (data : Int → Option Bytes) (is : List PProp) : Int → Option Bytes := is.foldl putData data

/-- Those of the values that differ from what is stored when it is their turn. -/
def newsIn (data : Int → Option Bytes) : List PProp → List PProp
  | [] => []
  | i :: is =>
    match data i.code with
    | none => newsIn data is
    | some b => if b = i.data then newsIn data is else i :: newsIn (putData data i) is

namespace RefController

def setNode (C : RefController) (ip : String) (N : RefNode) : RefController := { C with node := fun ip' => if ip' = ip then some N else C.node ip' }

def tell (C : RefController) (t : Told) : RefController := { C with told := C.told ++ tellAll C.listeners t }

/-- A message is taken for the answer that is waited for if its transaction number is that of the request. -/
def answered (C : RefController) (m : Msg) : RefController := if C.asked = some m.tid ∧ C.answer = none then { C with answer := some m } else C

/-- The node an instance list describes; `fresh` is what is known of an object before it reports anything. -/
def listed (fresh : Int → Int → Option Bytes) (a : Addr) (l : List Int) : RefNode :=
  { addr := some a, objs := addCodes [0x0EF001] l, data := fun o => if o ∈ addCodes [0x0EF001] l then fresh o else fun _ => none }

/-- The order of discovery. -/
def discover (C : RefController) (ip : String) : RefController := { C with known := if ip ∈ C.known then C.known else C.known ++ [ip] }

/-- Listeners are told of every value that changed, then of the object, then `t`. -/
def tellNews (C : RefController) (ip : String) (o : Int) (t : Told) (is : List PProp) : RefController :=
  { C with told := C.told ++ is.flatMap (fun i => tellAll C.listeners (.propertyUpdated ip o i.code i.data)) ++
      if is = [] then [] else tellAll C.listeners (.objectUpdated ip o) ++ tellAll C.listeners t }

/-- Values reported for object `o` of a node known. -/
def report (C : RefController) (ip : String) (N : RefNode) (o : Int) (t : Told) (is : List PProp) : RefController :=
  if o ∈ N.objs then
    (C.setNode ip { N with data := fun o' => if o' = o then putsData (N.data o) is else N.data o' }).tellNews ip o t (newsIn (N.data o) is)
  else C

/-! ### What is there -/

/-- An instance list makes a new node, whatever was known. -/
def actualList (fresh : Int → Int → Option Bytes) (C : RefController) (a : Addr) (m : Msg) : RefController :=
  if m.esv = 0x72 ∨ m.esv = 0x73 then
    match instanceListOf m with
    | .codes l => ((C.discover a.1).setNode a.1 (listed fresh a l)).tell (.nodeAdd a.1)
    | _ => C
  else C

/-- Values are stored in the object the message is *for*; that a node changed is told as its addition. -/
def actualReport (C : RefController) (a : Addr) (m : Msg) : RefController × Bool :=
  if m.esv = 0x72 ∨ m.esv = 0x73 ∨ m.esv = 0x7E then
    match C.node a.1 with
    | none => (C, false)
    | some N => ((C.report a.1 N m.deoj (.nodeAdd a.1) m.props).answered { m with fromAddr := some a }, true)
  else (C.answered { m with fromAddr := some a }, true)

/-- **What is there.** What a controller does with a datagram, what it sends, and whether the receiving thread survives. -/
def actual (fresh : Int → Int → Option Bytes) (C : RefController) (d : Bytes) (a : Addr) : RefController × List Sent × Bool :=
  match readMsg (d.take 1024) with
  | none => (C, [], false)
  | some m =>
    if isRequestEsv m.esv then
      ({ C with dev := (C.dev.actual d a).1 }, (C.dev.actual d a).2)
    else if (m.esv = 0x72 ∨ m.esv = 0x73) ∧ (m.deoj ≠ 0x0EF001 ∨ instanceListOf m = .empty) then (C, [], false)
    else
      let q := (C.actualList fresh a m).actualReport a m
      (q.1, [], q.2)

/-! ### What may be expected -/

/-- An instance list of a node profile: a node not known is added; of one known, the objects it still has keep what is known of them. -/
def intendedList (fresh : Int → Int → Option Bytes) (C : RefController) (a : Addr) (m : Msg) : RefController :=
  if (m.esv = 0x72 ∨ m.esv = 0x73 ∨ m.esv = 0x74) ∧ m.seoj = 0x0EF001 then
    match instanceListOf m with
    | .codes l =>
      match C.node a.1 with
      | none => ((C.discover a.1).setNode a.1 (listed fresh a l)).tell (.nodeAdd a.1)
      | some N => ((C.discover a.1).setNode a.1 (listed (fun o => if o ∈ N.objs then N.data o else fresh o) a l)).tell (.nodeUpdated a.1)
    | _ => C
  else C

/-- Values are those of the object the message is *from*; what comes from nodes not known is of no interest. -/
def intendedReport (C : RefController) (a : Addr) (m : Msg) : RefController :=
  match C.node a.1 with
  | none => C
  | some N =>
    if m.esv = 0x72 ∨ m.esv = 0x73 ∨ m.esv = 0x74 then C.report a.1 N m.seoj (.nodeUpdated a.1) m.props
    else if m.esv = 0x7E then C.report a.1 N m.seoj (.nodeUpdated a.1) m.getProps
    else C

/-- **What may be expected.** -/
def intended (fresh : Int → Int → Option Bytes) (C : RefController) (d : Bytes) (a : Addr) : RefController × List Sent :=
  match readMsg d with
  | none => (C, [])
  | some m =>
    let q := C.dev.standard d a
    let C := (({ C with dev := q.1 } : RefController).intendedList fresh a m).intendedReport a m
    (if isRequestEsv m.esv then C else C.answered { m with fromAddr := some a }, q.2)

end RefController

/-- A controller with its receiving threads, and all it has sent. -/
structure RefCtlRun where
  ctl : RefController
  alive : Nat → Bool
  sent : List Sent := []

/-- A datagram arrives at a thread; one that has ended reads nothing. -/
def RefCtlRun.arrive (fresh : Int → Int → Option Bytes) (R : RefCtlRun) (x : Arrival) : RefCtlRun :=
  if R.alive x.thread then
    let q := R.ctl.actual fresh x.bytes x.src
    { ctl := q.1, alive := fun i => if i = x.thread then q.2.2 else R.alive i, sent := R.sent ++ q.2.1 }
  else R

def RefCtlRun.arrivals (fresh : Int → Int → Option Bytes) (R : RefCtlRun) (xs : List Arrival) : RefCtlRun := xs.foldl (RefCtlRun.arrive fresh) R

/-! ### The machine a controller is -/

/-- The data of an object's properties. -/
def dataOf (o : Obj) (c : Int) : Option Bytes := (lookup o.props c).map OProp.data

def nodeOf (r : Remote) : RefNode :=
  { addr := r.node.address
    objs := Dict.keys r.node.objects
    data := fun o c => (Dict.get? r.node.objects o).bind fun x => dataOf x c }

def controllerOf (c : Ctl) : RefController :=
  { dev := deviceOf c.ln
    known := Dict.keys c.found
    node := fun ip => (Dict.get? c.found ip).map nodeOf
    asked := c.last.request.map Msg.tid
    answer := c.last.response
    listeners := c.listeners
    told := toldAll c }

/-! ### Where they differ -/

/-- The datagrams a controller does not treat as may be expected: those that are no message or longer than 1024 bytes; requests its own device does not treat as the standard says, and
announcements to be confirmed; values that are not from a node profile to a node profile, from a node not known, or in the answer to a write-read request; instance lists
without any byte, and those of a node known of which anything is known that was not known of it at first. -/
def RefController.Differs (fresh : Int → Int → Option Bytes) (C : RefController) (d : Bytes) (a : Addr) : Prop :=
  1024 < d.length ∨ readMsg d = none ∨ C.dev.Differs d ∨ ∃ m, readMsg d = some m ∧
    (m.esv = 0x74 ∨
     ((m.esv = 0x72 ∨ m.esv = 0x73) ∧ (m.seoj ≠ 0x0EF001 ∨ m.deoj ≠ 0x0EF001 ∨ instanceListOf m = .empty ∨
        ((∀ l, instanceListOf m ≠ .codes l) ∧ C.node a.1 = none) ∨
        ∃ l N, instanceListOf m = .codes l ∧ C.node a.1 = some N ∧ ∃ o, o ∈ N.objs ∧ o ∈ addCodes [0x0EF001] l ∧ N.data o ≠ fresh o)) ∨
     (m.esv = 0x7E ∧ (C.node a.1 = none ∨ m.getProps ≠ [])))

/-- Additions read as updates. -/
def asUpdate : Told → Told
  | .nodeAdd ip => .nodeUpdated ip
  | t => t

/-- A controller whose listeners do not care whether a node is said to be added or updated. -/
def RefController.careless (C : RefController) : RefController := { C with told := C.told.map fun x => (x.1, asUpdate x.2) }

/-- What a controller as expected is and has sent after some datagrams. -/
def RefController.intendeds (fresh : Int → Int → Option Bytes) (C : RefController) (xs : List Arrival) : RefController × List Sent :=
  xs.foldl (fun q x => ((q.1.intended fresh x.bytes x.src).1, q.2 ++ (q.1.intended fresh x.bytes x.src).2)) (C, [])

/-- None of the datagrams, each at its time, is one of those. -/
def RefController.Usual (fresh : Int → Int → Option Bytes) (C : RefController) : List Arrival → Prop
  | [] => True
  | x :: xs => ¬ C.Differs fresh x.bytes x.src ∧ RefController.Usual fresh (C.intended fresh x.bytes x.src).1 xs

end Uecho.Spec
