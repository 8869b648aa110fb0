/-
A device seen from outside, as a machine from datagrams to datagrams: the one the standard describes (ECHONET Lite specification, part II, 3.2 and 4.2), and the
one that is there. Both are written without reference to the model's functions.
-/
import Verif.Spec.Running
import Verif.Spec.Session

namespace Uecho.Spec

/-! ### Reading datagrams -/

/-- The next `n` properties: EPC, PDC, EDT. -/
def readItems : Nat → Bytes → Option (List PProp × Bytes)
  | 0, r => some ([], r)
  | n + 1, epc :: pdc :: r =>
    if pdc.toNat ≤ r.length then
      (readItems n (r.drop pdc.toNat)).map fun q => ({ code := epc.toNat, data := r.take pdc.toNat } :: q.1, q.2)
    else none
  | _ + 1, _ => none

/-- A section: OPC and that many properties. -/
def readSection : Bytes → Option (List PProp × Bytes)
  | [] => none
  | opc :: r => readItems opc.toNat r

/-- A message; what follows it is of no interest. -/
def readMsg : Bytes → Option Msg
  | 0x10 :: 0x81 :: t1 :: t2 :: s1 :: s2 :: s3 :: d1 :: d2 :: d3 :: e :: r =>
    let m : Msg := { tid := beValue [t1, t2], seoj := beValue [s1, s2, s3], deoj := beValue [d1, d2, d3], esv := e.toNat }
    if TwoSections m.esv then
      match readSection r with
      | none => none
      | some q => (readSection q.2).map fun q' => { m with setProps := q.1, getProps := q'.1 }
    else (readSection r).map fun q => { m with props := q.1 }
  | _ => none

/-! ### Objects -/

/-- An object: whether it answers requests at all, and its properties. -/
structure Thing where
  serves : Bool
  props : Int → Option Entry

namespace Thing

def canGet (t : Thing) (c : Int) : Bool := isReadable (t.props c)
def canSet (t : Thing) (c : Int) : Bool := isWritable (t.props c)
def knows (t : Thing) (c : Int) : Bool := (t.props c).isSome

/-- The data one may read. -/
def value (t : Thing) (c : Int) : Bytes := match t.props c with
  | some e => if e.readable then e.data else []
  | none => []

/-- Write one property, if it may be written. -/
def put (t : Thing) (i : PProp) : Thing :=
  { t with props := fun c => if c = i.code then (t.props c).map fun e => if e.writable then { e with data := i.data } else e else t.props c }

/-- Write several, one after the other. -/
def puts (t : Thing) (is : List PProp) : Thing := is.foldl put t

def canGetAll (t : Thing) (is : List PProp) : Bool := is.all fun i => t.canGet i.code
def canSetAll (t : Thing) (is : List PProp) : Bool := is.all fun i => t.canSet i.code

/-- The values of properties. -/
def values (t : Thing) (is : List PProp) : List PProp := is.map fun i => { code := i.code, data := t.value i.code }

/-- Nothing for what was written, what was to be written for everything else. -/
def unwritten (t : Thing) (is : List PProp) : List PProp := is.map fun i => { code := i.code, data := if t.canSet i.code then [] else i.data }

end Thing

def codesOnly (is : List PProp) : List PProp := is.map fun i => { code := i.code }

/-- **The standard.** What an object does with a message, and its answer. -/
def Thing.standard (t : Thing) (m : Msg) : Thing × Option Msg :=
  let re : Msg := { tid := m.tid, seoj := m.deoj, deoj := m.seoj }
  if m.esv = 0x60 then                                                   -- SetI; SetI_SNA
    (t.puts m.props, if t.canSetAll m.props then none else some { re with esv := 0x50, props := t.unwritten m.props })
  else if m.esv = 0x61 then                                              -- SetC; Set_Res, SetC_SNA
    (t.puts m.props, some { re with esv := if t.canSetAll m.props then 0x71 else 0x51, props := t.unwritten m.props })
  else if m.esv = 0x62 then                                              -- Get; Get_Res, Get_SNA
    (t, some { re with esv := if t.canGetAll m.props then 0x72 else 0x52, props := t.values m.props })
  else if m.esv = 0x63 then                                              -- INF_REQ; INF, INF_SNA
    (t, some { re with esv := if t.canGetAll m.props then 0x73 else 0x53, props := t.values m.props })
  else if m.esv = 0x6E then                                              -- SetGet; SetGet_Res, SetGet_SNA
    let t' := t.puts m.setProps
    (t', some { re with esv := if t.canSetAll m.setProps && t.canGetAll m.getProps then 0x7E else 0x5E, setProps := t.unwritten m.setProps
                        getProps := t'.values m.getProps })
  else if m.esv = 0x74 then                                              -- INFC; INFC_Res
    (t, some { re with esv := 0x7A, props := codesOnly m.props })
  else (t, none)

/-- Nothing for what was written and for what does not exist. -/
def Thing.refused (t : Thing) (is : List PProp) : List PProp :=
  is.map fun i => { code := i.code, data := if t.knows i.code && !t.canSet i.code then i.data else [] }

/-- **What is there.** What an object does with a message, its answer, and whether the receiving thread survives. -/
def Thing.actual (t : Thing) (m : Msg) : Thing × Option Msg × Bool :=
  let re : Msg := { tid := m.tid, seoj := m.deoj, deoj := m.seoj }
  if t.serves = false then (t, none, true)
  else if m.esv = 0x60 then
    (t.puts m.props, if t.canSetAll m.props then none else some { re with esv := 0x50, props := t.refused m.props }, true)
  else if m.esv = 0x61 then
    (t.puts m.props, some { re with esv := if t.canSetAll m.props then 0x71 else 0x50, props := t.refused m.props }, true)
  else if m.esv = 0x62 then
    (t, some { re with esv := if t.canGetAll m.props then 0x72 else 0x52, props := t.values m.props }, true)
  else if m.esv = 0x63 then
    (t, some { re with esv := if m.props = [] then 0x73 else 0x53, props := codesOnly m.props }, true)
  else if m.esv = 0x6E then
    let t' := t.puts m.setProps
    if m.getProps.all fun i => t.knows i.code then
      (t', some { re with esv := if t.canSetAll m.setProps && t.canGetAll m.getProps then 0x7E else 0x5E, setProps := t.refused m.setProps
                          getProps := t'.values m.getProps }, true)
    else (t', none, false)
  else if m.esv = 0x74 then (t, if m.props = [] then some { re with esv := 0x7A } else none, true)
  else (t, none, true)

/-! ### Devices -/

/-- A device: its objects by code, the interfaces it can send through, the last transaction number it chose itself, and whether it is a controller. -/
structure RefDevice where
  things : Int → Option Thing
  ifs : List String
  tid : Int
  ctl : Bool

namespace RefDevice

def setThing (D : RefDevice) (c : Int) (t : Thing) : RefDevice := { D with things := fun c' => if c' = c then some t else D.things c' }

/-- An announcement goes to everyone through all interfaces, everything else to the one who asked, through the first. -/
def sends (D : RefDevice) (r : Msg) (a : Addr) : List Sent :=
  if r.esv = 0x73 then D.ifs.map fun i => ⟨i, ("224.0.23.0", 3610), encode r⟩ else (D.ifs.take 1).map fun i => ⟨i, a, encode r⟩

/-- The objects a code names: an instance number of 0 names all instances of the class. -/
def targets (c : Int) : List Int := if c % 256 = 0 then (List.range 127).map fun i => c + i + 1 else [c]

/-- One of the objects addressed, by the standard. -/
def standardAt (m : Msg) (a : Addr) (q : RefDevice × List Sent) (c : Int) : RefDevice × List Sent :=
  match q.1.things c with
  | none => q
  | some t =>
    let x := t.standard { m with deoj := c }
    (q.1.setThing c x.1, q.2 ++ match x.2 with
      | none => []
      | some r => q.1.sends r a)

/-- **The standard.** What a device does with a datagram, and what it sends. -/
def standard (D : RefDevice) (d : Bytes) (a : Addr) : RefDevice × List Sent :=
  match readMsg d with
  | none => (D, [])
  | some m => (targets m.deoj).foldl (standardAt m a) (D, [])

def chosenTid (t : Int) : Int := if 65535 < t + 1 then 1 else t + 1

/-- **What is there.** The same, and whether the receiving thread survives. -/
def actual (D : RefDevice) (d : Bytes) (a : Addr) : RefDevice × List Sent × Bool :=
  match readMsg (d.take 1024) with
  | none => (D, [], false)
  | some m =>
    match D.things m.deoj with
    | none => (D, [], true)
    | some t =>
      let q := t.actual m
      let D := D.setThing m.deoj q.1
      match q.2.1 with
      | none => (D, [], q.2.2)
      | some r =>
        let r := if D.ctl then { r with seoj := 0x0EF001 } else r
        if r.tid = 0 then
          let x := chosenTid D.tid
          ({ D with tid := x }, D.sends { r with tid := x } a, q.2.2)
        else (D, D.sends r a, q.2.2)

end RefDevice

/-- A device with its receiving threads, and all it has sent. -/
structure RefRun where
  dev : RefDevice
  alive : Nat → Bool
  sent : List Sent := []

/-- A datagram arrives at a thread; one that has ended reads nothing. -/
def RefRun.arrive (R : RefRun) (x : Arrival) : RefRun :=
  if R.alive x.thread then
    let q := R.dev.actual x.bytes x.src
    { dev := q.1, alive := fun i => if i = x.thread then q.2.2 else R.alive i, sent := R.sent ++ q.2.1 }
  else R

def RefRun.arrivals (R : RefRun) (xs : List Arrival) : RefRun := xs.foldl RefRun.arrive R

/-! ### The device a node is -/

def thingOf (o : Obj) : Thing :=
  { serves := decide (o.handler ≠ .none)
    props := fun c => (lookup o.props c).map fun p => { readable := decide (CanRead p), writable := decide (CanWrite p), data := p.data } }

def deviceOf (n : LocalNode) : RefDevice :=
  { things := fun c => (n.getObject (.int c)).map thingOf
    ifs := (working n.mgr.servers).map Server.ifaddr
    tid := n.mgr.tid
    ctl := n.controller }

/-! ### Where they differ -/

def isRequestEsv (e : Int) : Bool := decide (e ∈ ([0x60, 0x61, 0x62, 0x63, 0x6E, 0x74] : List Int))

/-- The requests an object does not treat as the standard says: it is not in service; announcements asked for, or to be confirmed; a write with confirmation of which something is
refused; writes to, or reads along with writes of, properties that do not exist. -/
def Thing.Differs (t : Thing) (m : Msg) : Prop :=
  t.serves = false ∨ (m.esv = 0x63 ∧ m.props ≠ []) ∨ (m.esv = 0x74 ∧ m.props ≠ []) ∨ (m.esv = 0x61 ∧ t.canSetAll m.props = false) ∨
  (m.esv = 0x60 ∧ ∃ i ∈ m.props, t.knows i.code = false) ∨
  (m.esv = 0x6E ∧ ((∃ i ∈ m.setProps, t.knows i.code = false) ∨ ∃ i ∈ m.getProps, t.knows i.code = false))

/-- The datagrams a device does not treat as the standard says: those that are no message or longer than 1024 bytes; requests to all instances of a class, with transaction number 0, or to a
controller; and those an object does not. -/
def RefDevice.Differs (D : RefDevice) (d : Bytes) : Prop :=
  1024 < d.length ∨ readMsg d = none ∨ ∃ m, readMsg d = some m ∧ isRequestEsv m.esv = true ∧
    (m.deoj % 256 = 0 ∨ ∃ t, D.things m.deoj = some t ∧ (m.tid = 0 ∨ D.ctl = true ∨ t.Differs m))

/-- What a device that follows the standard is and has sent after some datagrams. -/
def RefDevice.standards (D : RefDevice) (xs : List Arrival) : RefDevice × List Sent :=
  xs.foldl (fun q x => ((q.1.standard x.bytes x.src).1, q.2 ++ (q.1.standard x.bytes x.src).2)) (D, [])

/-- None of the datagrams, each at its time, is one of those. -/
def RefDevice.Usual (D : RefDevice) : List Arrival → Prop
  | [] => True
  | x :: xs => ¬ D.Differs x.bytes ∧ RefDevice.Usual (D.standard x.bytes x.src).1 xs

end Uecho.Spec
