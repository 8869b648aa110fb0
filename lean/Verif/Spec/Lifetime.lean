/-
Nodes that go on, and what leaves them alone.
-/
import Verif.Model.Lifetime

namespace Uecho.Spec
open Life

/-- Server `k` of node `i` receives, and tells the node what it receives. -/
def ServingNode (w : Memory) (i k : Nat) : Prop :=
  ∃ s, (serversOf w i)[k]? = some s ∧ s.open_ = true ∧ (i, k) ∉ w.ended ∧ 0 ∈ s.observers

/-- Neither does anyone call `start` or `stop` of node `i`, nor does the thread of its server `k` end. -/
def LeavesServer (i k : Nat) : Event → Prop
  | .does (.start i' _ _) => i' ≠ i
  | .does (.stop i' _) => i' ≠ i
  | .ends i' k' => ¬ (i' = i ∧ k' = k)
  | _ => True

/-- No thread that runs tells anyone anything. -/
def Untold (w : Memory) : Prop := ∀ i k s, Running w i k → (serversOf w i)[k]? = some s → s.observers = []

end Uecho.Spec
