/- Vocabulary for C169: what a device can have become in the course of what was seen of it. -/
import Verif.Spec.Nowait

namespace Uecho.Spec
open Crowd

/-- A datagram that was read asks for property `p` of object `c` to be written with `v`. -/
def AskedFor (log : List Happening) (c p : Int) (v : Bytes) : Prop :=
  ∃ u d a m, Happening.recv u d a ∈ log ∧ readMsg (d.take 1024) = some m ∧ m.deoj = c ∧
    (((m.esv = 0x60 ∨ m.esv = 0x61) ∧ ∃ i ∈ m.props, i.code = p ∧ i.data = v) ∨ m.esv = 0x6E ∧ ∃ i ∈ m.setProps, i.code = p ∧ i.data = v)

/-- What property `p` of object `c` can have become: its data are what they were, what the program has set, or what a datagram has asked for, if it can be written. -/
structure EntryGrown (log : List Happening) (c p : Int) (e e' : Entry) : Prop where
  readable : e'.readable = e.readable
  writable : e'.writable = e.writable
  data : e'.data = e.data ∨ Happening.app c p e'.data ∈ log ∨ e.writable = true ∧ AskedFor log c p e'.data

structure ThingGrown (log : List Happening) (c : Int) (t t' : Thing) : Prop where
  serves : t'.serves = t.serves
  props : ∀ p, Option.Rel (EntryGrown log c p) (t.props p) (t'.props p)

/-- What a device can have become; its transaction numbers aside. -/
structure Grown (log : List Happening) (D D' : RefDevice) : Prop where
  ifs : D'.ifs = D.ifs
  ctl : D'.ctl = D.ctl
  things : ∀ c, Option.Rel (ThingGrown log c) (D.things c) (D'.things c)

/-- What is seen when thread `t` is done with a datagram. -/
def doneWith (t : Nat) (q : List Sent × Bool) : Happening := if q.2 then .sent t q.1 else .ended t

/-- What a message asks to read. -/
def asksToRead (m : Msg) : List PProp := if m.esv = 0x62 then m.props else if m.esv = 0x6E then m.getProps else []

/-- A datagram that was read and whose thread is not done with it. -/
def Unfinished (log : List Happening) (e : Happening) : Prop := ∃ u d a, e = .recv u d a ∧ ∃ p q, log = p ++ .recv u d a :: q ∧ ∀ x ∈ q, ¬ DoneBy u x

end Uecho.Spec
