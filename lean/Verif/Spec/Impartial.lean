/-
Who asks: requests that ask for the same, whoever they come from.
-/
import Verif.Spec.Handling
import Verif.Lemmas.LocalNode

namespace Uecho.Spec

/-- The two messages ask the same of the same object. They may come from different places, in the name of different objects, with different TIDs. -/
def SameAsk (m m' : Msg) : Prop := m'.deoj = m.deoj ∧ m'.esv = m.esv ∧ m'.props = m.props ∧ m'.setProps = m.setProps ∧ m'.getProps = m.getProps

instance (m m' : Msg) : Decidable (SameAsk m m') := by unfold SameAsk; infer_instance

/-- Two programs with the same request handlers. Observers may do what they like, except that whether one raises must not depend on who asks. -/
def SameProgram (env env' : Env) : Prop := env'.handler = env.handler ∧ ∀ k m m', SameAsk m m' → env'.observe k m' = env.observe k m

/-- All objects of a node, the node profile included. -/
def devices (n : LocalNode) : Dict Int Slot × Obj := (n.node.objects, n.profile)

/-- The things that may change an object: the others are options, `start`, `stop`, and sending. -/
def Touches : NodeOp → Bool
  | .add _ => true
  | .receive _ _ _ => true
  | .update _ _ => true
  | _ => false

/-- Two things that happen, which are the same but for who asks. The network may behave differently. -/
inductive SameFor : NodeOp → NodeOp → Prop
  | same (op : NodeOp) : SameFor op op
  | receive (env env' : Env) (net net' : Net) (m m' : Msg) (he : SameProgram env env') (hm : SameAsk m m') : SameFor (.receive env net m) (.receive env' net' m')

end Uecho.Spec
