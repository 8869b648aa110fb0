/- Vocabulary for C168: what a receiving thread is doing, as can be seen from outside. -/
import Verif.Spec.Crowd

namespace Uecho.Spec
open Crowd

inductive Doing where
  | nothing
  | working
  | ended
deriving DecidableEq

/-- A thread works from reading a datagram until it is done with it or ends. -/
def Doing.next (t : Nat) (w : Doing) : Happening → Doing
  | .recv u _ _ => if u = t then .working else w
  | .sent u _ => if u = t then .nothing else w
  | .ended u => if u = t then .ended else w
  | .app .. => w
  | .call .. => w

def doing (t : Nat) (log : List Happening) : Doing := log.foldl (Doing.next t) .nothing

/-- Thread `t` is done with a datagram. -/
def DoneBy (t : Nat) (e : Happening) : Prop := e = .ended t ∨ ∃ l, e = .sent t l

/-- The number of properties a datagram names. -/
def namedIn (d : Bytes) : Nat :=
  match readMsg (d.take 1024) with
  | none => 0
  | some m => m.props.length + m.setProps.length + m.getProps.length

/-- How often a thread goes on in the course of some steps. -/
def turns (t : Nat) (l : List Crowd.Act) : Nat := l.countP fun | .run u => decide (u = t) | _ => false

end Uecho.Spec
