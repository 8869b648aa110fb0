/-
Several controllers and several devices on one network: what they do, one after the other, and the one store it should look like.
-/
import Verif.Spec.Session

namespace Uecho.Spec

/-- Something that happens: controller number `i` posts a request; the program at a device gives a property of one of its objects new data
(`set_property_data`); a message of any kind from anywhere reaches controller number `i`. -/
inductive Deed where
  | request (i : Nat) (r : Req)
  | assign (ip : String) (obj code : Int) (data : Bytes)
  | hear (i : Nat) (m : Msg)

/-- New data for one property, whether or not it may be written over the network. -/
def Store.assign (s : Store) (ip : String) (k c : Int) (data : Bytes) : Store := fun ip' k' c' =>
  if ip' = ip ∧ k' = k ∧ c' = c then (s ip' k' c').map fun e => { e with data := data } else s ip' k' c'

def Store.does (s : Store) : Deed → Store
  | .request _ r => s.after r
  | .assign ip k c data => s.assign ip k c data
  | .hear _ _ => s

/-- The store after all deeds. -/
def Store.doesAll (s : Store) (ds : List Deed) : Store := ds.foldl Store.does s

/-- The responses: for which controller, from where, and what. -/
def Store.replies (s : Store) : List Deed → List (Nat × String × Msg)
  | [] => []
  | .request i r :: ds => (i, r.ip, s.answer r) :: (s.does (.request i r)).replies ds
  | d :: ds => (s.does d).replies ds

/-- As `Store.Fits`: all requests and responses fit a datagram, and so on. -/
def Store.FitsAll (s : Store) : List Deed → Prop
  | [] => True
  | .request i r :: ds => s.Fits [r] ∧ (s.does (.request i r)).FitsAll ds
  | d :: ds => (s.does d).FitsAll ds

/-- What a deed does to the data of one property that may, or may not, be written over the network. -/
def Deed.touch (ip : String) (k c : Int) (writable : Bool) (data : Bytes) : Deed → Bytes
  | .request _ r => if writable then (lastFor (r.writes ip k) c).getD data else data
  | .assign ip' k' c' d => if ip' = ip ∧ k' = k ∧ c' = c then d else data
  | .hear _ _ => data

abbrev Ctls := Nat → Ctl

def Ctls.put (C : Ctls) (i : Nat) (c : Ctl) : Ctls := fun j => if j = i then c else C j

/-- The deeds take place one after the other; every request and response is delivered. `ms` are the responses the waiting posts return. -/
inductive Course (ord : List Int → List Int) (K : Nat → Side) : Ctls → Machines → List Deed → Ctls → Machines → List (Nat × Msg) → Prop where
  | nil (C H) : Course ord K C H [] C H []
  | request {C H i r ds c1 n1 m C' H' ms} (h : Host) (hh : H r.ip = some h)
      (hx : Exchange ord ((K i).world h) (K i).addr h.addr (.str r.ip) (C i) h.node r.message c1 n1 m)
      (ht : Course ord K (C.put i c1) (H.put r.ip n1) ds C' H' ms) : Course ord K C H (.request i r :: ds) C' H' ((i, m) :: ms)
  | assign {C H ip obj code data ds C' H' ms} (h : Host) (hh : H ip = some h)
      (ht : Course ord K C (H.put ip (h.node.update obj fun o => (o.setPropertyData code data).1)) ds C' H' ms) :
      Course ord K C H (.assign ip obj code data :: ds) C' H' ms
  | hear {C H i m ds C' H' ms}
      (ht : Course ord K (C.put i ((C i).messageReceived ord (K i).cuser (K i).cenv (K i).cnet m).1) H ds C' H' ms) :
      Course ord K C H (.hear i m :: ds) C' H' ms

/-- A deed can take place: a request is for a machine that serves it (see `Serves`); the program of a device changes an object it has added, not the
node profile; what a controller hears was decoded from a datagram, and its listeners do not raise. -/
def Deed.Ready (ord : List Int → List Int) (K : Nat → Side) (C : Ctls) (H : Machines) : Deed → Prop
  | .request i r => Serves ord (K i) (C i) H r.ip r.obj
  | .assign ip obj _ _ => obj ≠ 0x0EF001 ∧ ∃ h, H ip = some h ∧ Reachable ord h.node
  | .hear i m => Delivered m ∧ (∃ ops, CtlReach ord (C i) ops) ∧ Calm (K i).cenv ∧ CodeStable (K i).cuser

end Uecho.Spec
