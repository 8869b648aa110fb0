/-
Nodes seen one at a time.
-/
import Verif.Model.Pool

namespace Uecho.Spec

def slotOf (h : Pool.Heap) : Pool.Ref → Slot
  | .profile => .profile
  | .obj j => .user (h.objs j)

/-- Node `i`, with the objects it refers to as they are. -/
def nodeView (h : Pool.Heap) (i : Nat) : LocalNode :=
  { (h.nodes i).base with node := { (h.nodes i).base.node with objects := (h.nodes i).table.map fun kr => (kr.1, slotOf h kr.2) } }

/-- Under which code a table has an object. -/
def keyOf (t : Dict Int Pool.Ref) (j : Nat) : Option Int := (t.find? fun kr => decide (kr.2 = .obj j)).map Prod.fst

/-- What something that happens is for node `i`, if the node were the only one and had its objects for itself. -/
def forNode (i : Nat) (h : Pool.Heap) : Pool.Op → List NodeOp
  | .add k j => if k = i then [.add (h.objs j)] else []
  | .receive k env net m => if k = i then [.receive env net m] else []
  | .change j f => match keyOf (h.nodes i).table j with
    | some c => [.update c f]
    | none => []
  | .enable k opt v => if k = i then [.enable opt v] else []
  | .start k net caller => if k = i then [.start net caller] else []
  | .stop k caller => if k = i then [.stop caller] else []
  | .announce k net m => if k = i then [.announce net m] else []
  | .send k net m a => if k = i then [.send net m a] else []

/-- The life of node `i` as the only node. -/
def lifeOf (ord : List Int → List Int) (i : Nat) : Pool.Heap → List Pool.Op → List NodeOp
  | _, [] => []
  | h, op :: ops => forNode i h op ++ lifeOf ord i (Pool.step ord h op) ops

/-- The objects added, in order. -/
def addedObjs (ops : List Pool.Op) : List Nat := ops.filterMap fun
  | .add _ j => some j
  | _ => none

/-- The restriction of `NodeOp.Allowed`: neither handlers nor the program change the codes of objects. -/
def KeepsCodes : Pool.Op → Prop
  | .receive _ env _ _ => CodeStable env
  | .change _ f => ∀ o, (f o).code = o.code
  | _ => True

/-- No object has been added to any node. -/
def NoObjects (h : Pool.Heap) : Prop := ∀ i, (h.nodes i).table = [(0x0EF001, .profile)]

/-- All nodes have just been made. -/
def NewNodes (ord : List Int → List Int) (h : Pool.Heap) : Prop := NoObjects h ∧ ∀ i, ∃ rnd ctl, (h.nodes i).base = (LocalNode.new ord rnd ctl).1

end Uecho.Spec
