/-
What the receiving threads of a controller do to its table of nodes, in terms of what happened: the messages whose nodes were stored, in the
order in which that happened. Refers to the states of the threads only.
-/
import Verif.Model.Finding

namespace Uecho.Finding
open Spec

/-- The message whose node is stored into the table by this. -/
def storedBy (s : St) : Ev → List Msg
  | .tick t => match s.pc t with
    | .store m _ => [m]
    | _ => []
  | .recv _ _ => []

/-- The messages whose nodes are stored, in order. -/
def stores (ord : List Int → List Int) : St → List Ev → List Msg
  | _, [] => []
  | s, e :: es => storedBy s e ++ stores ord (step ord s e) es

/-- How often a thread is given the processor. -/
def ticks (t : Nat) : List Ev → Nat
  | [] => 0
  | .tick u :: es => (if u = t then 1 else 0) + ticks t es
  | .recv _ _ :: es => ticks t es

/-- Thread `t` gets no further message. -/
def NoMore (t : Nat) (es : List Ev) : Prop := ∀ e ∈ es, ∀ m, e ≠ .recv t m

/-- The messages handed to threads. -/
def arriving (es : List Ev) : List Msg := es.filterMap fun e => match e with | .recv _ m => some m | .tick _ => none

/-- A message that a controller takes when it is alone with it: not a list with no data, nor one that is sent to another object than the profile. -/
def Fit (m : Msg) : Prop := ¬ ((m.esv = 0x72 ∨ m.esv = 0x73) ∧ m.deoj % 2 ^ 24 ≠ 0x0EF001) ∧ ¬ ((m.esv = 0x72 ∨ m.esv = 0x73) ∧ instanceListOf m = .empty)

/-- A message from one of these addresses. -/
def From (K : List String) (m : Msg) : Prop := ∃ a, m.fromAddr = some a ∧ a.1 ∈ K

end Uecho.Finding
