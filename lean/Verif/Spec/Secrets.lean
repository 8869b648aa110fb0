/-
What may not be read: objects and nodes with the data of unreadable properties blotted out.
-/
import Verif.Spec.Handling
import Verif.Lemmas.LocalNode

namespace Uecho.Spec

/-- The access rule for reading is "required" or "optional". -/
def mayRead (p : OProp) : Bool := decide (p.attrGet = 1 ∨ p.attrGet = 2)

/-- The property without its data, if it may not be read. -/
def censorP (p : OProp) : OProp := if mayRead p then p else { p with data := [] }

/-- The object without the data nobody may read. -/
def censor (o : Obj) : Obj := { o with props := o.props.map fun kp => (kp.1, censorP kp.2) }

def censorSlot : Slot → Slot
  | .profile => .profile
  | .user o => .user (censor o)

/-- The node without the data nobody may read. All else is there: in particular what it has sent. -/
def censorNode (n : LocalNode) : LocalNode :=
  { n with node := { n.node with objects := n.node.objects.map fun kv => (kv.1, censorSlot kv.2) } }

/-- The handler keeps the secrets of the object it serves: what it answers and does depends on what may be read only, and it lets nobody read what may not be read. -/
structure Discreet (h : Handler) : Prop where
  read : ∀ o o' c, WellFormed o → WellFormed o' → censor o = censor o' →
    censor (h.read o (o.getProperty c)).1 = censor (h.read o' (o'.getProperty c)).1 ∧ WellFormed (h.read o (o.getProperty c)).1 ∧
    (h.read o (o.getProperty c)).2 = (h.read o' (o'.getProperty c)).2 ∧
    ((h.read o (o.getProperty c)).2 = .ok true → (∀ p, o.getProperty c = some p → mayRead p = true) ∧
      ∀ p, (h.read o (o.getProperty c)).1.getProperty c = some p → mayRead p = true)
  write : ∀ o o' c p p' d, WellFormed o → WellFormed o' → censor o = censor o' → o.getProperty c = some p → o'.getProperty c = some p' →
    censor (h.write o p d).1 = censor (h.write o' p' d).1 ∧ WellFormed (h.write o p d).1 ∧ (h.write o p d).2 = (h.write o' p' d).2

/-- All handlers of the program are like that. -/
def AllDiscreet (env : Env) : Prop := ∀ h, Discreet (env.handler h)

/-- Two things that happen to two nodes, the same but for data that may not be read: the programs may set such data differently, and add objects
that differ in it. -/
inductive SameBut : NodeOp → NodeOp → Prop
  | receive (env : Env) (net : Net) (m : Msg) (h : AllDiscreet env) : SameBut (.receive env net m) (.receive env net m)
  | enable (opt : Int) (v : Bool) : SameBut (.enable opt v) (.enable opt v)
  | start (net : Net) (caller : Option Nat) : SameBut (.start net caller) (.start net caller)
  | stop (caller : Option Nat) : SameBut (.stop caller) (.stop caller)
  | announce (net : Net) (m : Msg) : SameBut (.announce net m) (.announce net m)
  | send (net : Net) (m : Msg) (a : Option Addr) : SameBut (.send net m a) (.send net m a)
  | add (o o' : Obj) (h : censor o = censor o') (hw : WellFormed o) (hw' : WellFormed o') : SameBut (.add o) (.add o')
  | update (code : Int) (f f' : Obj → Obj) (h : ∀ o o', WellFormed o → WellFormed o' → censor o = censor o' → censor (f o) = censor (f' o'))
      (hw : ∀ o, WellFormed o → WellFormed (f o) ∧ WellFormed (f' o)) : SameBut (.update code f) (.update code f')

/-- Every object of the program in the node has its properties under their codes. -/
def AllWellFormed (n : LocalNode) : Prop := ∀ c o, Dict.get? n.node.objects c = some (.user o) → WellFormed o

end Uecho.Spec
