/-
What a controller hears and should know, in terms of the messages received. Refers to the model's data
types only.
-/
import Verif.Model.Controller
import Verif.Spec.Node
import Verif.Spec.Frame

namespace Uecho.Spec

/-- No listener raises. -/
def Calm (cenv : CEnv) : Prop := ∀ l t call, cenv.listen l t call = none

/-- What a listener is told, reduced to addresses, codes and data. -/
inductive Told where
  | nodeAdd (ip : String)
  | nodeUpdated (ip : String)
  | objectUpdated (ip : String) (obj : Int)
  | propertyUpdated (ip : String) (obj : Int) (prop : Int) (data : Bytes)
deriving DecidableEq

/-- The IP address of a node, empty if it has none. -/
def ipOf (r : Remote) : String := match r.node.address with | some a => a.1 | none => ""

def told : Call → Told
  | .nodeAdd r => .nodeAdd (ipOf r)
  | .nodeUpdated r => .nodeUpdated (ipOf r)
  | .objectUpdated r o => .objectUpdated (ipOf r) o
  | .propertyUpdated r o p d => .propertyUpdated (ipOf r) o p d

/-- All that listeners have been told, in order. -/
def toldAll (c : Ctl) : List (Nat × Told) := c.calls.map fun x => (x.1, told x.2.2)

/-- Every listener is told. -/
def tellAll (ls : List Nat) (t : Told) : List (Nat × Told) := ls.map fun l => (l, t)

/-- The items that change the stored data when they are stored one after the other. -/
def changes (o : Obj) : List PProp → List PProp
  | [] => []
  | i :: items =>
    match lookup o.props i.code with
    | none => changes o items
    | some p => if p.data = i.data then changes o items else i :: changes (afterWrites o [i]) items

/-- The valid instance list a message announces, with its sender: a notification or a read response to the
node profile whose first property is a complete instance list. -/
def announced (m : Msg) : Option (Addr × List Int) :=
  if (m.esv = 0x72 ∨ m.esv = 0x73) ∧ m.deoj % 2 ^ 24 = 0x0EF001 then
    match m.fromAddr, instanceListOf m with
    | some a, .codes l => some (a, l)
    | _, _ => none
  else none

/-- The latest instance list announced from an IP address. -/
def latest (ms : List Msg) (ip : String) : Option (Addr × List Int) :=
  ((ms.filterMap announced).filter fun x => decide (x.1.1 = ip)).getLast?

end Uecho.Spec
