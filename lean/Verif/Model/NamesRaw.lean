/- Names, types and sizes of objects and properties: the parts of `Object` and `Property` that
`Model/Object` and `Model/Property` leave out. -/
import Verif.Model.Database

namespace Uecho

/-- One object of a table: the dictionary key, the name given to `Object`, and the `add_property` lines (code, name, type,
size) in order. -/
structure NameEntry where
  key : Int × Int
  name : String
  props : List (Int × String × String × Nat)

/-- The attributes `name`, `typ` and `size` of a property. Those of a property that is not from the tables are
missing: property.py:52-53 declares `name` and `size` and `__init__` (property.py:57-60) does not set them. -/
structure PropLabel where
  name : String
  typ : String
  size : Nat
deriving DecidableEq, Repr

/-- What an object carries beyond `Obj`: its name (object.py:94) and the labels of the properties it has, in order. -/
structure Label where
  name : String := ""
  props : Dict Int (Option PropLabel) := []
deriving DecidableEq, Repr

/-- `prop.name`: `AttributeError` when it was never set. -/
def propName : Option PropLabel → Except Exc String
  | none => .error .attributeError
  | some l => .ok l.name

/-- `prop.size` -/
def propSize : Option PropLabel → Except Exc Nat
  | none => .error .attributeError
  | some l => .ok l.size

namespace Label

/-- `Object.add_property` (object.py:222-227) of a property with that code and label. The label is a part of the property,
so that it replaces the label of the property it replaces. -/
def addProperty (l : Label) (code : Int) (p : Option PropLabel) : Label := { l with props := Dict.set l.props code p }

/-- `reader.Object(name, g, c)` and the `add_property` lines (std/reader.py:32-50). -/
def ofEntry (e : NameEntry) : Label :=
  e.props.foldl (fun l p => l.addProperty p.1 (some ⟨p.2.1, p.2.2.1, p.2.2.2⟩)) { name := e.name }

/-- `_set_object_properties` (super_object.py:37-44): the name, and copies of the properties, which have the same labels. -/
def setObjectProperties (l : Label) : Option Label → Label
  | none => l
  | some s => s.props.foldl (fun l kp => l.addProperty kp.1 kp.2) { l with name := s.name }

/-- `Object.copy` (object.py:438-445): an object with the same name and copies of the properties. -/
def copy (l : Label) : Label := l.props.foldl (fun x kp => x.addProperty kp.1 kp.2) { name := l.name }

end Label
end Uecho
