/- What the properties 0xD3 to 0xD7 of a node profile say about a node whose objects have these codes. Refers to the model's data types only. -/
import Verif.Spec.Node

namespace Uecho.Spec

/-- `data` is what property `pc` has to be: the number of instances, their list, the number of objects, the classes after a number
(that 0xD4 and the number in 0xD7 count objects is C44's concern). -/
def DescribesCodes (pc : Int) (data : Bytes) (codes : List Int) : Prop :=
  (pc = 0xD3 → data = beDigits (instancesOf codes).length 3) ∧
  (pc = 0xD4 → data = beDigits codes.length 2) ∧
  (pc = 0xD5 ∨ pc = 0xD6 → data = beDigits (instancesOf codes).length 1 ++ codeBytes (instancesOf codes)) ∧
  (pc = 0xD7 → ∃ l, ListsClasses l (instancesOf codes) ∧ data = beDigits codes.length 1 ++ classBytes l)

/-- The properties concerned. -/
def Describing (pc : Int) : Prop := pc = 0xD3 ∨ pc = 0xD4 ∨ pc = 0xD5 ∨ pc = 0xD6 ∨ pc = 0xD7

end Uecho.Spec
