/-
Vocabulary for the properties about request handling: who may read and write, which write items
count, what an object looks like after a list of writes. Refers to the model's data types only.
-/
import Verif.Model.Object

namespace Uecho.Spec

/-- A property may be read / written / must be announced according to its attributes
(1 = required, 2 = optional). -/
def CanRead (p : OProp) : Prop := p.attrGet = 1 ∨ p.attrGet = 2
def CanWrite (p : OProp) : Prop := p.attrSet = 1 ∨ p.attrSet = 2
def MustAnnounce (p : OProp) : Prop := p.attrAnno = 1

instance (p : OProp) : Decidable (CanRead p) := by unfold CanRead; infer_instance
instance (p : OProp) : Decidable (CanWrite p) := by unfold CanWrite; infer_instance
instance (p : OProp) : Decidable (MustAnnounce p) := by unfold MustAnnounce; infer_instance

/-- The property an object stores under a code. -/
def lookup : List (Int × OProp) → Int → Option OProp
  | [], _ => none
  | (k, p) :: l, c => if k = c then some p else lookup l c

/-- An object as the API builds it: no code twice, every property stored under its own code. -/
def WellFormed (o : Obj) : Prop :=
  (o.props.map Prod.fst).Nodup ∧ ∀ kp ∈ o.props, kp.2.code = kp.1

instance (o : Obj) : Decidable (WellFormed o) := by unfold WellFormed; infer_instance

/-- The data of the last item naming `c`, if any. -/
def lastFor (items : List PProp) (c : Int) : Option Bytes :=
  ((items.filter (fun i => decide (i.code = c))).getLast?).map PProp.data

/-- The object with the data of each property replaced by the last item naming it; nothing else
changes (in particular no property is added). -/
def afterWrites (o : Obj) (items : List PProp) : Obj :=
  { o with props := o.props.map fun kp =>
      (kp.1, { kp.2 with data := (lastFor items kp.1).getD kp.2.data }) }

/-- An access policy: which codes may be read, which data may be written to which code. -/
structure Policy where
  canRead : Int → Bool
  canWrite : Int → Bytes → Bool

/-- The policy of the property attributes of `o`. -/
def attrPolicy (o : Obj) : Policy where
  canRead c := match lookup o.props c with | some p => decide (CanRead p) | none => false
  canWrite c _ := match lookup o.props c with | some p => decide (CanWrite p) | none => false

/-- The object with all property data erased: what a request cannot change. -/
def skeleton (o : Obj) : Obj :=
  { o with props := o.props.map fun kp => (kp.1, { kp.2 with data := [] }) }

/-- The request handler of `o` follows policy `P`: as long as only data change, it answers about
stored properties according to `P`, without raising and without side effects. -/
def Follows (env : Env) (o : Obj) (P : Policy) : Prop :=
  o.handler ≠ .none ∧
  ∀ o', skeleton o' = skeleton o → ∀ c p, lookup o'.props c = some p →
    o'.callRead env (some p) = (o', .ok (P.canRead c)) ∧
    ∀ d, o'.callWrite env p d = (o', .ok (P.canWrite c d))

/-- The items a request asks to write. -/
def writeItems (m : Msg) : List PProp :=
  if m.esv = 0x60 ∨ m.esv = 0x61 then m.props else if m.esv = 0x6E then m.setProps else []

/-- Items naming a stored property that the policy lets write. -/
def acceptedWrites (o : Obj) (P : Policy) (items : List PProp) : List PProp :=
  items.filter fun i => (lookup o.props i.code).isSome && P.canWrite i.code i.data

/-- No observer of the object raises on this message. -/
def Quiet (env : Env) (o : Obj) (m : Msg) : Prop := ∀ n ∈ o.observers, env.observe n m = none

/-- The value reading `c` gives under the policy: data if known and readable, else empty. -/
def readValue (o : Obj) (P : Policy) (c : Int) : Bytes :=
  match lookup o.props c with
  | some p => if P.canRead c then p.data else []
  | none => []

/-- Only the sections selected by the ESV are populated (what the parser produces). -/
def OwnSections (m : Msg) : Prop :=
  if m.esv = 0x6E ∨ m.esv = 0x7E ∨ m.esv = 0x5E then m.props = []
  else m.setProps = [] ∧ m.getProps = []

instance (m : Msg) : Decidable (OwnSections m) := by unfold OwnSections; infer_instance

end Uecho.Spec
