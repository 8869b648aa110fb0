/- Vocabulary for C165: requests with which no other interferes. -/
import Verif.Spec.Atomic

namespace Uecho.Spec
open Par

/-- The message is about property `c`. -/
def Names (m : Msg) (c : Int) : Prop := ∃ i, (i ∈ m.props ∨ i ∈ m.setProps ∨ i ∈ m.getProps) ∧ i.code = c

/-- While thread `t` handled `m` nobody else stored data of a property `m` is about. -/
def Undisturbed (t : Nat) (m : Msg) (during : List Event) : Prop :=
  ∀ e ∈ during, (∀ u c d, e = .store u c d → Names m c → u = t) ∧ ∀ c d, e = .app c d → ¬ Names m c

/-- An object that began as `o`, after `log`: each property has the data last stored. -/
def thingAt (o : Obj) (log : List Event) : Thing :=
  { serves := (thingOf o).serves, props := fun c => ((thingOf o).props c).map fun e => { e with data := (lastFor (writes log) c).getD e.data } }

end Uecho.Spec
