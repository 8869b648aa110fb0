/-
Model of the loop over the listeners of a controller (uecho/controller.py:223-237) while listeners are added and removed
(controller.py:109-123), by the listeners that are called or by other threads. CPython: an iterator over a list is a position; the
next element is the one at that position at the moment it is asked for, and the loop ends when there is none.
-/
import Verif.Model.Controller

namespace Uecho.Listen

/-- The loop asks for the next listener and calls it, or somebody adds or removes a listener. -/
inductive Ev where
  | tick
  | add (l : Nat)
  | remove (l : Nat)
deriving DecidableEq

/-- The listeners; the position of the iterator; the listeners that have been called, in this order; whether the loop has ended. -/
structure St where
  listeners : List Nat
  pos : Nat := 0
  called : List Nat := []
  ended : Bool := false
deriving DecidableEq

/-- `listeners.append` and `listeners.remove` (controller.py:115, 123): the first equal one goes; if there is none, `ValueError` is
raised in who called, and nothing changes. -/
def step (s : St) : Ev → St
  | .tick =>
    if s.ended then s
    else match s.listeners[s.pos]? with
      | none => { s with ended := true }
      | some l => { s with pos := s.pos + 1, called := s.called ++ [l] }
  | .add l => { s with listeners := s.listeners ++ [l] }
  | .remove l => { s with listeners := s.listeners.erase l }

def run (s : St) (es : List Ev) : St := es.foldl step s

end Uecho.Listen
