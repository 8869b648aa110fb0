/-
Model of the objects of the standard database as what they are: objects of the modules uecho/std/objects_*.py, made once, which
`Database.get_object` and `Controller.get_standard_object` return themselves (std/database.py:53-63, controller.py:131-132,
std/objects.py:27-31: a new dictionary with the same objects), and from which devices copy their properties
(super_object.py:37-44, std/object.py:28-47).
-/
import Verif.Model.Database
import Verif.Model.Linked

namespace Uecho.Shared

/-- The objects of the modules, by class. -/
abbrev Tables := Dict (Int × Int) Obj

/-- `Database().get_object(code).set_property_data(pc, data)` (std/database.py:58-63, object.py:247-252); the result is that of
`set_property_data`, or an `AttributeError` if there is no object. -/
def setData (T : Tables) (code : PyCode) (pc : Int) (data : Bytes) : Tables × Except Exc Bool :=
  match setCode 0 code with
  | (_, false) => (T, .error .attributeError)
  | (c, true) =>
    match Dict.get? T (groupCode c, classCode c) with
    | none => (T, .error .attributeError)
    | some o => (Dict.modify T (groupCode c, classCode c) (fun _ => (o.setPropertyData pc data).1), .ok (o.setPropertyData pc data).2)

/-- `_set_object_properties` (super_object.py:37-44) of a database object whose `node` is `own`: every property is copied with
`deepcopy`, which follows `prop.object` and `object.node` (`OProp.copy`), and added. -/
def addCopies (ord : List Int → List Int) (own : Owner) (o : Obj) : List OProp → Obj × Except Exc Unit
  | [] => (o, .ok ())
  | p :: ps =>
    match p.copy (some own) with
    | .error e => (o, .error e)
    | .ok p =>
      match SuperObj.addProperty ord o p with
      | (o, .error e) => (o, .error e)
      | (o, .ok _) => addCopies ord own o ps

/-- As `StdObj.setObjectProperties`. -/
def setObjectProperties (ord : List Int → List Int) (own : Int × Int → Owner) (T : Tables) (o : Obj) (key : Int × Int) : Obj × Except Exc Unit :=
  match Dict.get? T key with
  | none => (o, .ok ())
  | some s => addCopies ord (own key) o (Dict.values s.props)

/-- `Device(code)` (device.py:22-23, std/object.py:24-47) when the objects of the modules are `T` and their nodes `own` (`nobody`,
unless somebody has added one to a node: node.py:57-62). -/
def device (ord : List Int → List Int) (own : Int × Int → Owner) (T : Tables) (code : PyCode) : Obj × Except Exc Bool :=
  match setCode SuperObj.new.code code with
  | (c, false) => ({ SuperObj.new with code := c }, .ok false)
  | (c, true) =>
    match setObjectProperties ord own T { SuperObj.new with code := c } (0, 0) with
    | (o, .error e) => (o, .error e)
    | (o, .ok _) =>
      match setObjectProperties ord own T o (groupCode c, classCode c) with
      | (o, .error e) => (o, .error e)
      | (o, .ok _) => SuperObj.updateMaps ord o

end Uecho.Shared
