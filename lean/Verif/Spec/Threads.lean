/- Vocabulary for C70: what has been written, when, and by whom. -/
import Verif.Spec.Handling
import Verif.Model.Threads

namespace Uecho.Spec
open Par

/-- Everything that has been stored, in order. -/
def writes (log : List Event) : List PProp :=
  log.filterMap fun
    | .store _ c d => some { code := c, data := d }
    | .app c d => some { code := c, data := d }
    | _ => none

/-- What the application has stored. -/
def appWrites (log : List Event) : List PProp :=
  log.filterMap fun
    | .app c d => some { code := c, data := d }
    | _ => none

/-- What thread `t` has stored. -/
def storesOf (t : Nat) (log : List Event) : List PProp :=
  log.filterMap fun
    | .store u c d => if u = t then some { code := c, data := d } else none
    | _ => none

/-- Nothing was received or answered by thread `t`. -/
def Busy (t : Nat) (log : List Event) : Prop :=
  ∀ e ∈ log, (∀ m, e ≠ .recv t m) ∧ (∀ m r, e ≠ .answer t m r) ∧ ∀ m, e ≠ .crash t m

/-- The data of property `c` of an object that began as `o`, after `log`. -/
def dataAt (o : Obj) (log : List Event) (c : Int) : Option Bytes :=
  (lookup o.props c).map fun p => (lastFor (writes log) c).getD p.data

/-- `r` reports property `i` as thread `t`, having taken up its message after `before`, may find it: if it may be
read, with the data it had at some moment while the message was being handled and all its writes had been made,
else with no data. -/
def ReadBack (o : Obj) (before : List Event) (t : Nat) (m : Msg) (during : List Event) (i r : PProp) : Prop :=
  r.code = i.code ∧
  if (attrPolicy o).canRead i.code = true then
    ∃ a b, during = a ++ b ∧ storesOf t a = acceptedWrites o (attrPolicy o) (writeItems m) ∧ dataAt o (before ++ a) i.code = some r.data
  else r.data = []

/-- A state that can come about: an object with the default request handler, threads that have not begun. -/
def Possible (o : Obj) (s : Sys) : Prop := ∃ acts, Sys.exec { obj := o } acts = some s

end Uecho.Spec
