/- Model of uecho/std/objects.py, database.py and object.py, of uecho/device.py and uecho/profile.py. -/
import Verif.Model.StdData

namespace Uecho

/-- The dictionary built by a table module: one assignment per entry. -/
def tableDict (es : List StdEntry) : Dict (Int × Int) Obj :=
  es.foldl (fun d e => Dict.set d e.key (stdObject e)) []

/-- `get_all_std_objects` (std/objects.py:27-31). -/
@[irreducible] def stdObjects : Dict (Int × Int) Obj :=
  Dict.update (Dict.update [] (tableDict StdData.scsl)) (tableDict StdData.mra)

/-- The dictionary of std/manufacturers.py: code and name of a `Manufacture`. -/
@[irreducible] def stdManufacturers : Dict Int (Int × String) :=
  StdData.manufacturers.foldl (fun d m => Dict.set d m.1 m.2) []

/-- The argument of `get_manufacturer`. -/
inductive ManArg where
  | int (v : Int)
  | bytes (b : Bytes)
  | other

/-- `Database.get_manufacturer` (std/database.py:33-45). The result is (code, name). -/
def getManufacturer (a : ManArg) : Option (Int × String) :=
  let man_code := match a with
    | .int v => v
    | .bytes b => toInt b
    | .other => 0
  Dict.get? stdManufacturers man_code

/-- `Database.get_manufacturer_name` (std/database.py:47-51). -/
def getManufacturerName (a : ManArg) : Option String :=
  match getManufacturer a with
  | some m => some m.2
  | none => none

/-- `Database.get_object` (std/database.py:53-63). -/
def dbGetObject (db : Dict (Int × Int) Obj) (code : PyCode) : Option Obj :=
  match setCode 0 code with
  | (_, false) => none
  | (c, true) => Dict.get? db (groupCode c, classCode c)

namespace StdObj

/-- The loop of `_set_object_properties` (super_object.py:41-43). Copies are equal to the originals. -/
def addCopies (ord : List Int → List Int) (o : Obj) : List OProp → Obj × Except Exc Unit
  | [] => (o, .ok ())
  | p :: ps =>
    match SuperObj.addProperty ord o p with
    | (o, .error e) => (o, .error e)
    | (o, .ok _) => addCopies ord o ps

/-- `_set_object_properties` of what the database returned (super_object.py:37-44); `None` is not an
`Object`, so nothing happens (std/object.py:41, 45). -/
def setObjectProperties (ord : List Int → List Int) (o : Obj) (src : Option Obj) : Obj × Except Exc Unit :=
  match src with
  | none => (o, .ok ())
  | some s => addCopies ord o (Dict.values s.props)

/-- super_object.py:25 -/
def SUPER_CODE : PyCode := .int 0

/-- `StandardObject.set_code` (std/object.py:28-47) with database `db`. -/
def setCode (ord : List Int → List Int) (db : Dict (Int × Int) Obj) (o : Obj) (code : PyCode) : Obj × Except Exc Bool :=
  match Uecho.setCode o.code code with
  | (c, false) => ({ o with code := c }, .ok false)
  | (c, true) =>
    match setObjectProperties ord { o with code := c } (dbGetObject db SUPER_CODE) with
    | (o, .error e) => (o, .error e)
    | (o, .ok _) =>
      match setObjectProperties ord o (dbGetObject db code) with
      | (o, .error e) => (o, .error e)
      | (o, .ok _) => SuperObj.updateMaps ord o

/-- `StandardObject(code)`, `Device(code)` (std/object.py:24-26, device.py:22-23). The first call of
`set_code`, from `Object.__init__` (object.py:97), is `set_code(None)` and does nothing. -/
def new (ord : List Int → List Int) (db : Dict (Int × Int) Obj) (code : PyCode) : Obj × Except Exc Bool :=
  setCode ord db SuperObj.new code

end StdObj

namespace ProfileObj

/-- `Profile.set_code` (profile.py:31-45). -/
def setCode (ord : List Int → List Int) (db : Dict (Int × Int) Obj) (o : Obj) (code : PyCode) : Obj × Except Exc Bool :=
  match Uecho.setCode o.code code with
  | (c, false) => ({ o with code := c }, .ok false)
  | (c, true) =>
    match StdObj.setObjectProperties ord { o with code := c } (dbGetObject db code) with
    | (o, .error e) => (o, .error e)
    | (o, .ok _) => SuperObj.updateMaps ord o

/-- `Profile.__init__` (profile.py:24-29). -/
def new (ord : List Int → List Int) (db : Dict (Int × Int) Obj) (code : PyCode) : Obj × Except Exc Bool :=
  match StdObj.setObjectProperties ord SuperObj.new (dbGetObject db StdObj.SUPER_CODE) with
  | (o, .error e) => (o, .error e)
  | (o, .ok _) => setCode ord db o code

end ProfileObj
end Uecho
