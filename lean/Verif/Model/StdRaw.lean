/- Types of the generated tables, and the model of uecho/std/reader.py. -/
import Verif.Model.SuperObject

namespace Uecho

/-- The strings occurring as access rules in the tables (std/objects_mra.py, objects_scsl.py). -/
inductive RawAttr where
  | mandatory
  | required
  | optional
  | notApplicable
  | dash
  | requiredC
  | requiredO
  | empty
deriving DecidableEq, Repr

/-- The text in the table. -/
def RawAttr.text : RawAttr → String
  | mandatory => "mandatory"
  | required => "required"
  | optional => "optional"
  | notApplicable => "notApplicable"
  | dash => "-"
  | requiredC => "required_c"
  | requiredO => "required_o"
  | empty => ""

/-- One object of a table: the dictionary key, the group and class codes given to `Object`, and the
`add_property` lines (code, get, set, announce) in order. -/
structure StdEntry where
  key : Int × Int
  group : Int
  cls : Int
  props : List (Int × RawAttr × RawAttr × RawAttr)

/-- What `__to_attribute` distinguishes (std/reader.py:52-61). -/
inductive AttrArg where
  | int (v : Int)
  | str (s : String)
  | other

/-- `str.lower()` as far as comparison with the ASCII words of std/reader.py:57-59 goes: the only
non-ASCII characters Python lowers to an ASCII one are U+212A (to `k`) and U+0130 (to `i` and a
combining dot), and neither can make a string equal one of these words. -/
def pyLower (s : String) : List Char :=
  s.toList.map fun c => if 'A' ≤ c ∧ c ≤ 'Z' then Char.ofNat (c.toNat + 32) else c

/-- `Property.__to_attribute` (std/reader.py:52-61). -/
def toAttribute : AttrArg → Int
  | .int v => v
  | .str s =>
    if pyLower s = "mandatory".toList ∨ pyLower s = "required".toList then OProp.REQUIRED
    else if pyLower s = "optional".toList then OProp.OPTIONAL
    else OProp.PROHIBITED
  | .other => OProp.PROHIBITED

/-- `reader.Property(code, name, typ, size, get, set, anno)` (std/reader.py:42-50). -/
def readerProperty (code : Int) (get set anno : AttrArg) : OProp :=
  { code := code, attrGet := toAttribute get, attrSet := toAttribute set, attrAnno := toAttribute anno }

/-- The property of a table line. -/
def stdProperty (e : Int × RawAttr × RawAttr × RawAttr) : OProp :=
  readerProperty e.1 (.str e.2.1.text) (.str e.2.2.1.text) (.str e.2.2.2.text)

/-- `reader.Object(name, g, c)` followed by the `add_property` lines (std/reader.py:32-36; the base
class method, object.py:222-227: no property maps here). -/
def stdObject (e : StdEntry) : Obj :=
  (e.props.map stdProperty).foldl Obj.addPropertyBase { code := setClassCode (setGroupCode 0 e.group) e.cls }

end Uecho
