/- Vocabulary for C130: the same operations on one object whose properties are nobody else's. -/
import Verif.Model.Aliasing

namespace Uecho.Spec

open Alias

/-- Object `i` as a value. -/
def view (h : Heap) (i : Nat) : Obj where
  code := (h.objs i).code
  props := (h.objs i).table.map fun kr => (kr.1, (h.cells kr.2).prop)
  handler := .self_

/-- An operation on an object by itself; `made` are the properties as the program made them. -/
def alone (ord : List Int → List Int) (made : Nat → OProp) (o : Obj) : Op → Obj × Out
  | .add _ r => let x := SuperObj.addProperty ord o (made r); (x.1, .bool x.2)
  | .setData _ c d => let x := o.setPropertyData c d; (x.1, .bool (.ok x.2))
  | .receive _ m => let x := o.messageReceived ⟨fun _ => ⟨fun o _ => (o, .ok false), fun o _ _ => (o, .ok false)⟩, fun _ _ => none⟩ m; (x.obj, .answer x.result)

/-- A program on an object by itself. -/
def runAlone (ord : List Int → List Int) (made : Nat → OProp) (o : Obj) : List Op → Obj × List Out
  | [] => (o, [])
  | op :: ops =>
    let x := alone ord made o op
    let y := runAlone ord made x.1 ops
    (y.1, x.2 :: y.2)

/-- The operations about object `i`. -/
def about (i : Nat) (ops : List Op) : List Op := ops.filter fun op => decide (op.target = i)

/-- The properties a program adds, in order. -/
def addedProps (ops : List Op) : List Nat := ops.filterMap fun op => match op with | .add _ r => some r | _ => none

/-- The state in which a program begins: its objects have no properties. -/
def Fresh (h : Heap) : Prop := ∀ i, (h.objs i).table = []

end Uecho.Spec
