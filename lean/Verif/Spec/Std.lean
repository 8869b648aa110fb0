/-
What the standard tables say, independently of how the library loads and searches them. Refers to
the generated tables and to the model's data types only.
-/
import Verif.Model.StdData
import Verif.Spec.PropertyMap

namespace Uecho.Spec

/-- The entry of a class in one table: the last one with that key. -/
def entryIn (t : List StdEntry) (g c : Int) : Option StdEntry :=
  (t.filter fun e => decide (e.key = (g, c))).getLast?

/-- The entry of a class: the MRA one if there is one, otherwise the SCSL one. -/
@[irreducible] def stdClass (g c : Int) : Option StdEntry :=
  (entryIn StdData.mra g c).or (entryIn StdData.scsl g c)

/-- The last line of an entry for property code `c`. -/
def lineFor (e : StdEntry) (c : Int) : Option (Int × RawAttr × RawAttr × RawAttr) :=
  (e.props.filter fun l => decide (l.1 = c)).getLast?

/-- The access rule values: 0 no access, 1 required, 2 optional. -/
def ruleOf : RawAttr → Int
  | .mandatory => 1
  | .required => 1
  | .optional => 2
  | _ => 0

/-- The property a line describes, with empty data. -/
def propOf (l : Int × RawAttr × RawAttr × RawAttr) : OProp :=
  { code := l.1, attrGet := ruleOf l.2.1, attrSet := ruleOf l.2.2.1, attrAnno := ruleOf l.2.2.2 }

/-- `o` is a faithful copy of the entry of class (g, c). -/
structure Loaded (g c : Int) (e : StdEntry) (o : Obj) : Prop where
  code : o.code = g * 65536 + c * 256
  wf : WellFormed o
  props : ∀ pc, lookup o.props pc = (lineFor e pc).map propOf
  codes : ∀ kp ∈ o.props, 0x80 ≤ kp.1 ∧ kp.1 < 0x100
  plain : o.handler = .none ∧ o.observers = []

/-- The property with code `pc` of a standard device of class (g, c): as the class has it, otherwise
as the super class (0, 0) has it. -/
def deviceProp (g c pc : Int) : Option OProp :=
  (((stdClass g c).bind (lineFor · pc)).or ((stdClass 0 0).bind (lineFor · pc))).map propOf

end Uecho.Spec
