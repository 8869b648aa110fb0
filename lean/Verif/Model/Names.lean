/- The names of the objects of the standard database (uecho/std), of standard objects, devices and profiles. -/
import Verif.Model.StdNames

namespace Uecho

/-- The dictionary built by a table module: one assignment per entry. -/
def tableNames (es : List NameEntry) : Dict (Int × Int) Label := es.foldl (fun d e => Dict.set d e.key (Label.ofEntry e)) []

/-- `get_all_std_objects` (std/objects.py:27-31). -/
@[irreducible] def stdNames : Dict (Int × Int) Label := Dict.update (Dict.update [] (tableNames StdNames.scsl)) (tableNames StdNames.mra)

/-- `Database.get_object` (std/database.py:53-63). -/
def dbGetLabel (code : PyCode) : Option Label :=
  match setCode 0 code with
  | (_, false) => none
  | (c, true) => Dict.get? stdNames (groupCode c, classCode c)

/-- `StandardObject.set_code` (std/object.py:28-47) of an object with code `old`. (Property maps are set with
`set_property_data`, which leaves labels as they are.) -/
def StdObj.setLabel (old : Int) (l : Label) (code : PyCode) : Label :=
  match Uecho.setCode old code with
  | (_, false) => l
  | (_, true) => (l.setObjectProperties (dbGetLabel StdObj.SUPER_CODE)).setObjectProperties (dbGetLabel code)

/-- `StandardObject(code)`, `Device(code)` -/
def StdObj.label (code : PyCode) : Label := StdObj.setLabel 0 {} code

/-- `Profile.__init__` (profile.py:24-29) and `Profile.set_code` (profile.py:31-45). -/
def ProfileObj.label (code : PyCode) : Label :=
  let l := ({} : Label).setObjectProperties (dbGetLabel StdObj.SUPER_CODE)
  match Uecho.setCode 0 code with
  | (_, false) => l
  | (_, true) => l.setObjectProperties (dbGetLabel code)

end Uecho
