/-
Listeners that use the controller they listen to: what they may do.
-/
import Verif.Model.Hearing
import Verif.Spec.Sending

namespace Uecho.Spec
open Hearing

/-- The calls a listener may make: send, announce, search, start, stop, set options, add and change objects of the controller. Not `post_message`,
which waits for the thread it is called from (C94), nor adding and removing listeners (C96). -/
def Usable : CtlOp → Prop
  | .receive _ _ _ _ => False
  | .post _ _ _ => False
  | .listen _ => False
  | .unlisten _ => False
  | _ => True

/-- The listeners raise what those of `cenv` raise. Besides they make calls to the controller of the kinds `P`; which ones may depend on
everything, among it what has been called before. -/
def Besides (ord : List Int → List Int) (P : CtlOp → Prop) (cenv : CEnv) (L : Listener) : Prop :=
  ∀ l c call, ∃ ops, (∀ op ∈ ops, P op ∧ Usable op) ∧ L l c call = (runCtl ord c ops, cenv.listen l c.found call)

end Uecho.Spec
