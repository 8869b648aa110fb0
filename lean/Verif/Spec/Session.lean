/-
A controller and any number of devices: sequences of requests, and the store they should look like.
-/
import Verif.Spec.Search

namespace Uecho.Spec

/-- What is known about a property: may it be read, may it be written, its data. -/
structure Entry where
  readable : Bool
  writable : Bool
  data : Bytes
deriving DecidableEq

/-- All properties of all objects of all machines: by IP address, object code and property code. -/
abbrev Store := String → Int → Int → Option Entry

/-- A request of a controller to an object at an IP address: to read properties, to write them, or to write some and read others. -/
inductive Req where
  | read (ip : String) (obj : Int) (codes : List Int)
  | write (ip : String) (obj : Int) (items : List (Int × Bytes))
  | writeRead (ip : String) (obj : Int) (items : List (Int × Bytes)) (codes : List Int)

def Req.ip : Req → String
  | .read ip .. => ip
  | .write ip .. => ip
  | .writeRead ip .. => ip
def Req.obj : Req → Int
  | .read _ k _ => k
  | .write _ k _ => k
  | .writeRead _ k _ _ => k

def itemProps (items : List (Int × Bytes)) : List PProp := items.map fun i => { code := i.1, data := i.2 }

/-- The message a user posts for it: 0x62, 0x61 or 0x6E. -/
def Req.message : Req → Msg
  | .read _ k codes => { deoj := k, esv := 0x62, props := codes.map fun c => { code := c } }
  | .write _ k items => { deoj := k, esv := 0x61, props := itemProps items }
  | .writeRead _ k items codes => { deoj := k, esv := 0x6E, setProps := itemProps items, getProps := codes.map fun c => { code := c } }

def isReadable (e : Option Entry) : Bool := match e with | some e => e.readable | none => false
def isWritable (e : Option Entry) : Bool := match e with | some e => e.writable | none => false

/-- The result of reading: the data of what may be read. -/
def Store.got (s : Store) (ip : String) (k : Int) (codes : List Int) : List PProp :=
  codes.map fun c => { code := c, data := match s ip k c with | some e => if e.readable then e.data else [] | none => [] }

/-- The result of writing: nothing, but for the data refused by a property that exists. -/
def Store.refused (s : Store) (ip : String) (k : Int) (items : List (Int × Bytes)) : List PProp :=
  items.map fun i => { code := i.1, data := match s ip k i.1 with | some e => if e.writable then [] else i.2 | none => [] }

def Store.allRead (s : Store) (ip : String) (k : Int) (codes : List Int) : Bool := codes.all fun c => isReadable (s ip k c)
def Store.allWritten (s : Store) (ip : String) (k : Int) (items : List (Int × Bytes)) : Bool := items.all fun i => isWritable (s ip k i.1)

/-- Write one item. -/
def Store.put (s : Store) (ip : String) (k : Int) (i : Int × Bytes) : Store := fun ip' k' c =>
  if ip' = ip ∧ k' = k ∧ c = i.1 then (s ip' k' c).map fun e => if e.writable then { e with data := i.2 } else e else s ip' k' c

/-- Write several, in order. -/
def Store.puts (s : Store) (ip : String) (k : Int) (items : List (Int × Bytes)) : Store := items.foldl (fun s i => s.put ip k i) s

/-- The store after a request. -/
def Store.after (s : Store) : Req → Store
  | .read .. => s
  | .write ip k items => s.puts ip k items
  | .writeRead ip k items _ => s.puts ip k items

/-- The response to a request. The service says whether everything was granted: 0x72, 0x71, 0x7E; otherwise 0x52, 0x50 (documented: 0x51, see C17) and 0x5E. A request that writes and reads
reads what is there after the writing. -/
def Store.answer (s : Store) : Req → Msg
  | .read ip k codes => { seoj := k, deoj := 0x0EF001, esv := if s.allRead ip k codes then 0x72 else 0x52, props := s.got ip k codes }
  | .write ip k items => { seoj := k, deoj := 0x0EF001, esv := if s.allWritten ip k items then 0x71 else 0x50, props := s.refused ip k items }
  | .writeRead ip k items codes =>
    { seoj := k, deoj := 0x0EF001, esv := if s.allWritten ip k items && s.allRead ip k codes then 0x7E else 0x5E
      setProps := s.refused ip k items, getProps := (s.puts ip k items).got ip k codes }

/-- The store after a sequence of requests, and the responses to them: from where, and what. -/
def Store.final (s : Store) (rs : List Req) : Store := rs.foldl Store.after s
def Store.answers (s : Store) : List Req → List (String × Msg)
  | [] => []
  | r :: rs => (r.ip, s.answer r) :: (s.after r).answers rs

/-- What a request writes to an object of a machine. -/
def Req.writes (ip : String) (k : Int) : Req → List PProp
  | .read .. => []
  | .write ip' k' items => if ip' = ip ∧ k' = k then itemProps items else []
  | .writeRead ip' k' items _ => if ip' = ip ∧ k' = k then itemProps items else []

/-- What a request that writes and reads reads exists: if it does not, the handler of the library raises, and nothing is answered (C19). -/
def Store.Knows (s : Store) : Req → Prop
  | .writeRead ip k _ codes => ∀ c ∈ codes, (s ip k c).isSome = true
  | _ => True

/-- All requests and responses fit a datagram, no response is an instance list without data (C62), all is known where it has to be. -/
def Store.Fits (s : Store) : List Req → Prop
  | [] => True
  | r :: rs => FitsDatagram r.message ∧ FitsDatagram (s.answer r) ∧ ((s.answer r).esv = 0x72 → instanceListOf (s.answer r) ≠ .empty) ∧ s.Knows r ∧ (s.after r).Fits rs

/-- The machines of a network by IP address. -/
abbrev Machines := String → Option Host

/-- Replace the node running at an address. -/
def Machines.put (H : Machines) (ip : String) (n : LocalNode) : Machines := fun ip' => if ip' = ip then (H ip).map fun h => { h with node := n } else H ip'

/-- The controller's side: its address, user code, listeners and network. -/
structure Side where
  addr : Addr
  cenv : CEnv
  cuser : Env
  cnet : Net

def Side.world (k : Side) (h : Host) : World := { env := h.env, net := h.net, cenv := k.cenv, cuser := k.cuser, cnet := k.cnet }

/-- A controller posts the requests one after the other, each of them and each response being delivered. -/
inductive Session (ord : List Int → List Int) (k : Side) : Ctl → Machines → List Req → Ctl → Machines → List Msg → Prop where
  | nil (c H) : Session ord k c H [] c H []
  | cons {c H r rs c1 n1 m c' H' ms} (h : Host) (hh : H r.ip = some h) (hx : Exchange ord (k.world h) k.addr h.addr (.str r.ip) c h.node r.message c1 n1 m)
      (ht : Session ord k c1 (H.put r.ip n1) rs c' H' ms) : Session ord k c H (r :: rs) c' H' (m :: ms)

/-- The properties stored in the machines. -/
def Machines.store (H : Machines) : Store := fun ip k c =>
  (H ip).bind fun h => (h.node.getObject (.int k)).bind fun o => (lookup o.props c).map fun p => { readable := decide (CanRead p), writable := decide (CanWrite p), data := p.data }

/-- A machine at the address a request goes to that can answer it: a device with any history, able to send; the object asked is there and has the
handler of the library, and its observers do not raise. -/
structure Serves (ord : List Int → List Int) (k : Side) (c : Ctl) (H : Machines) (ip : String) (obj : Int) : Prop where
  host : ∃ h, H ip = some h ∧ h.addr = (ip, 3610) ∧ Connected ord c h.node ∧ (k.world h).Works ∧ ∃ o, h.node.getObject (.int obj) = some o ∧ WellFormed o ∧ o.handler = .self_ ∧ ∀ m, Quiet h.env o m
  code : 0 ≤ obj ∧ obj < 2 ^ 24
  found : Found c ip

end Uecho.Spec
