/-
Handlers that use the node they are asked in: what they may do, and what is expected of them as handlers.
-/
import Verif.Model.Calling
import Verif.Spec.Sending

namespace Uecho.Spec
open Calling

/-- The call does not change the object with this code: it is not about it, and neither adds an object nor delivers a message. -/
def Spares (c : Int) : NodeOp → Prop
  | .update k _ => k ≠ c
  | .add _ => False
  | .receive _ _ _ => False
  | _ => True

/-- The call does not open or close sockets. -/
def Gentle : NodeOp → Prop
  | .start _ _ => False
  | .stop _ => False
  | _ => True

/-- `H` is, towards the object with this code, the handler number `h` of `env`: it answers and changes the object as that one does. Besides it makes
calls to the node of the kinds `P`; which ones may depend on everything. -/
structure Alongside (ord : List Int → List Int) (P : NodeOp → Prop) (env : Env) (h : Nat) (code : Int) (H : NodeHandler) : Prop where
  read : ∀ n o p, Dict.get? n.node.objects code = some (.user o) → o.handler = .user h →
    ∃ ops, (∀ op ∈ ops, P op) ∧ (H.read n p).1 = runOps ord n ops ∧
      Dict.get? (H.read n p).1.node.objects code = some (.user ((env.handler h).read o p).1) ∧ (H.read n p).2 = ((env.handler h).read o p).2
  write : ∀ n o p d, Dict.get? n.node.objects code = some (.user o) → o.handler = .user h →
    ∃ ops, (∀ op ∈ ops, P op) ∧ (H.write n p d).1 = runOps ord n ops ∧
      Dict.get? (H.write n p d).1.node.objects code = some (.user ((env.handler h).write o p d).1) ∧ (H.write n p d).2 = ((env.handler h).write o p d).2

/-- The handler does not replace itself. -/
def Stays (env : Env) (h : Nat) : Prop :=
  ∀ o : Obj, o.handler = .user h → (∀ p, ((env.handler h).read o p).1.handler = .user h) ∧ ∀ p d, ((env.handler h).write o p d).1.handler = .user h

end Uecho.Spec
