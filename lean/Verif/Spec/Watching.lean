/- Observers that use the node: what they may do. -/
import Verif.Model.Watching
import Verif.Spec.Calling

namespace Uecho.Spec

/-- The call neither puts another object in the place of the object with this code, nor changes who observes objects, nor delivers a message. -/
def Leaves (c : Int) : NodeOp → Prop
  | .update _ f => ∀ o, (f o).observers = o.observers
  | .add o => o.code ≠ c
  | .receive _ _ _ => False
  | _ => True

/-- Observers that raise what the observers of `env` raise, and make calls to the node of the kinds `P`; which ones may depend on everything. -/
def Watches (ord : List Int → List Int) (P : NodeOp → Prop) (env : Env) (W : Watching.Watcher) : Prop :=
  ∀ k n m, ∃ ops, (∀ op ∈ ops, P op) ∧ W k n m = (runOps ord n ops, env.observe k m)

end Uecho.Spec
