/-
Several controllers and several devices on a network that loses, delays, duplicates and reorders datagrams as it likes: what they do, and the one
store and the mail it should look like.
-/
import Verif.Spec.Several

namespace Uecho.Spec

/-! ### Orders, and what a store makes of them -/

/-- What a controller can want of an object: a request that is answered (`Req`), or a write that is not (0x60). -/
inductive Order where
  | ask (r : Req)
  | tell (ip : String) (obj : Int) (items : List (Int × Bytes))

def Order.ip : Order → String
  | .ask r => r.ip
  | .tell ip .. => ip

def Order.obj : Order → Int
  | .ask r => r.obj
  | .tell _ k _ => k

/-- The message a user sends for it. -/
def Order.message : Order → Msg
  | .ask r => r.message
  | .tell _ k items => { deoj := k, esv := 0x60, props := itemProps items }

/-- The store after an order. -/
def Store.obey (s : Store) : Order → Store
  | .ask r => s.after r
  | .tell ip k items => s.puts ip k items

/-- The answer to an order: a write of 0x60 is answered only if some of it was refused, with 0x50. -/
def Store.reply (s : Store) : Order → Option Msg
  | .ask r => some (s.answer r)
  | .tell ip k items => if s.allWritten ip k items then none else some { seoj := k, deoj := 0x0EF001, esv := 0x50, props := s.refused ip k items }

/-- What an order writes to an object of a machine. -/
def Order.writes (ip : String) (k : Int) : Order → List PProp
  | .ask r => r.writes ip k
  | .tell ip' k' items => if ip' = ip ∧ k' = k then itemProps items else []

/-! ### The mail: what should happen -/

/-- What happens: controller `i` posts an order (`post_message`) or sends it without waiting (`send_message`); datagram number `j` of all that
were ever sent arrives where it was sent to, be it for the first time or once more; the program of a device gives a property new data. A datagram that
never arrives is lost. -/
inductive Ev where
  | post (i : Nat) (o : Order)
  | send (i : Nat) (o : Order)
  | arrive (j : Nat)
  | assign (ip : String) (obj code : Int) (data : Bytes)

/-- A letter: the `n`-th order of controller `i`, or an answer to that. -/
inductive Letter where
  | order (i n : Nat) (o : Order)
  | reply (i n : Nat) (ip : String) (a : Msg)

/-- The store, all letters ever sent, how many orders each controller has given, the number of the order it posted last, and the first answer to
that. -/
structure Mail where
  store : Store
  air : List Letter := []
  count : Nat → Nat := fun _ => 0
  cur : Nat → Option Nat := fun _ => none
  resp : Nat → Option (String × Msg) := fun _ => none

/-- `f` with another value at `i`. -/
def change {α : Type} (f : Nat → α) (i : Nat) (x : α) : Nat → α := fun j => if j = i then x else f j

def Mail.step (X : Mail) : Ev → Mail
  | .post i o =>
    { X with air := X.air ++ [.order i (X.count i) o], count := change X.count i (X.count i + 1)
             cur := change X.cur i (some (X.count i)), resp := change X.resp i none }
  | .send i o => { X with air := X.air ++ [.order i (X.count i) o], count := change X.count i (X.count i + 1) }
  | .arrive j =>
    match X.air[j]? with
    | none => X
    | some (.order i n o) =>
      { X with store := X.store.obey o, air := X.air ++ match X.store.reply o with | none => [] | some a => [.reply i n o.ip a] }
    | some (.reply i n ip a) =>
      if X.cur i = some n ∧ X.resp i = none then { X with resp := change X.resp i (some (ip, a)) } else X
  | .assign ip k c data => { X with store := X.store.assign ip k c data }

def Mail.run (X : Mail) (es : List Ev) : Mail := es.foldl Mail.step X

/-- As `Store.Fits`, for an order: the answer fits a datagram and is not an empty instance list (C62), and what is read by a request that writes and reads exists (C19). -/
def Store.Takes (s : Store) (o : Order) : Prop :=
  (∀ a, s.reply o = some a → FitsDatagram a ∧ (a.esv = 0x72 → instanceListOf a ≠ .empty)) ∧ ∀ r, o = .ask r → s.Knows r

/-- What is assumed of what happens: only datagrams that were sent arrive; orders and answers fit; no answer is so late that 65535 orders were given in between (C110). -/
def Mail.Fair (X : Mail) : Ev → Prop
  | .post _ o => FitsDatagram o.message
  | .send _ o => FitsDatagram o.message
  | .arrive j =>
    match X.air[j]? with
    | none => False
    | some (.order _ _ o) => X.store.Takes o
    | some (.reply i n _ _) => ∀ m, X.cur i = some m → n < m + 65535 ∧ m < n + 65535
  | .assign _ _ _ _ => True

def Mail.FairAll (X : Mail) : List Ev → Prop
  | [] => True
  | e :: es => X.Fair e ∧ (X.step e).FairAll es

/-! ### The machines: what does happen -/

/-- A datagram as the network sees it. -/
structure Datagram where
  src : Addr
  dst : Addr
  bytes : Bytes

/-- The controllers, the machines, all datagrams ever sent, and whether all receiving threads are still there. -/
structure Place where
  C : Ctls
  H : Machines
  air : List Datagram := []
  alive : Bool := true

/-- What a machine at `src` has handed to the operating system since its log was `old`. -/
def news (src : Addr) (old new : List (Sent × Int)) : List Datagram := (new.drop old.length).map fun x => ⟨src, x.1.dest, x.1.bytes⟩

/-- One step of the machines; there are `N` controllers. A datagram arrives at the machine, or at the controller, with the address it was sent to. -/
inductive Step (ord : List Int → List Int) (N : Nat) (K : Nat → Side) : Place → Ev → Place → Prop where
  | post {P i o c} (hi : i < N) (hc : c = ((P.C i).postBegin (K i).cnet o.message (.str o.ip)).1) :
      Step ord N K P (.post i o) { P with C := P.C.put i c, air := P.air ++ news (K i).addr (P.C i).ln.mgr.log c.ln.mgr.log }
  | send {P i o c} (hi : i < N) (hc : c = ((P.C i).sendMessage (K i).cnet o.message (.str o.ip)).1) :
      Step ord N K P (.send i o) { P with C := P.C.put i c, air := P.air ++ news (K i).addr (P.C i).ln.mgr.log c.ln.mgr.log }
  | host {P j p h n b} (hp : P.air[j]? = some p) (hh : P.H p.dst.1 = some h) (ha : h.addr = p.dst)
      (hr : recvOne (LocalNode.deliver h.env h.net) h.node p.bytes p.src = (n, b)) :
      Step ord N K P (.arrive j)
        { P with H := P.H.put p.dst.1 n, air := P.air ++ news h.addr h.node.mgr.log n.mgr.log, alive := P.alive && b }
  | ctl {P j p i c b} (hp : P.air[j]? = some p) (hi : i < N) (ha : (K i).addr = p.dst)
      (hr : recvOne (Ctl.deliver ord (K i).cuser (K i).cenv (K i).cnet) (P.C i) p.bytes p.src = (c, b)) :
      Step ord N K P (.arrive j)
        { P with C := P.C.put i c, air := P.air ++ news (K i).addr (P.C i).ln.mgr.log c.ln.mgr.log, alive := P.alive && b }
  | assign {P ip k c data h} (hh : P.H ip = some h) :
      Step ord N K P (.assign ip k c data) { P with H := P.H.put ip (h.node.update k fun o => (o.setPropertyData c data).1) }

inductive Steps (ord : List Int → List Int) (N : Nat) (K : Nat → Side) : Place → List Ev → Place → Prop where
  | nil (P) : Steps ord N K P [] P
  | cons {P e Q es R} (h : Step ord N K P e Q) (t : Steps ord N K Q es R) : Steps ord N K P (e :: es) R

/-- Who may do what: controller `i` may give orders to object `k` at `ip`; the program at `ip` may change its objects other than the node profile. -/
structure Rights where
  order : Nat → String → Int → Prop
  assign : String → Prop

def Rights.Allow (L : Rights) : Ev → Prop
  | .post i o => L.order i o.ip o.obj
  | .send i o => L.order i o.ip o.obj
  | .arrive _ => True
  | .assign ip k _ _ => L.assign ip ∧ k ≠ 0x0EF001

/-- The machines at the beginning: whoever may be given orders can obey them (`Serves`), every program that may do something runs, no two machines have the same address. -/
structure Prepared (ord : List Int → List Int) (N : Nat) (K : Nat → Side) (L : Rights) (C : Ctls) (H : Machines) : Prop where
  order : ∀ i ip k, L.order i ip k → i < N ∧ Serves ord (K i) (C i) H ip k
  assign : ∀ ip, L.assign ip → ∃ h, H ip = some h ∧ Reachable ord h.node
  apart : ∀ i j, i < N → j < N → (K i).addr = (K j).addr → i = j
  hosts : ∀ i h, i < N → H (K i).addr.1 = some h → h.addr ≠ (K i).addr

/-- The response a waiting `post_message` of controller `i` finds, apart from its TID. -/
def Place.response (P : Place) (i : Nat) : Option Msg := (P.C i).last.response.map fun m => { m with tid := 0 }

end Uecho.Spec
