/- Model of uecho/property.py. -/
import Verif.Model.Message

namespace Uecho

/-- `uecho.Property` as stored in an object (property.py:30-58). `attrs` is Python's three element
list, indexed GET = 0, SET = 1, ANNO = 2 (l.41-43); the code never changes its length, so it is
modelled as three fields. `name`, `size`, `anno_status` and the back reference `object` are not
modelled. -/
structure OProp where
  code : Int := 0
  data : Bytes := []
  attrGet : Int := 0       -- PROHIBITED, l.45, l.57
  attrSet : Int := 0
  attrAnno : Int := 0
deriving DecidableEq, Repr

namespace OProp

/-- property.py:45-47 -/
def PROHIBITED : Int := 0
def REQUIRED : Int := 1
def OPTIONAL : Int := 2

/-- property.py:41-43 -/
def GET : Int := 0
def SET : Int := 1
def ANNO : Int := 2

/-- `set_attribute` (property.py:60-61): list item assignment, Python negative indices included. -/
def setAttribute (p : OProp) (typ attr : Int) : OProp × Except Exc Unit :=
  let i := if typ < 0 then typ + 3 else typ
  if i = 0 then ({ p with attrGet := attr }, .ok ())
  else if i = 1 then ({ p with attrSet := attr }, .ok ())
  else if i = 2 then ({ p with attrAnno := attr }, .ok ())
  else (p, .error .indexError)

/-- `get_attribute` (property.py:63-64). -/
def getAttribute (p : OProp) (typ : Int) : Except Exc Int :=
  let i := if typ < 0 then typ + 3 else typ
  if i = 0 then .ok p.attrGet
  else if i = 1 then .ok p.attrSet
  else if i = 2 then .ok p.attrAnno
  else .error .indexError

/-- `__is_attribute_enabled` (property.py:66-71) -/
def isAttributeEnabled (v : Int) : Bool :=
  if v = REQUIRED then true else if v = OPTIONAL then true else false

/-- `__is_attribute_required` (property.py:73-76) -/
def isAttributeRequired (v : Int) : Bool := if v = REQUIRED then true else false

/-- `is_mandatory` (property.py:78-82): loop over `attrs`. -/
def isMandatory (p : OProp) : Bool :=
  if p.attrGet = REQUIRED then true
  else if p.attrSet = REQUIRED then true
  else if p.attrAnno = REQUIRED then true
  else false

/-- property.py:84-100 -/
def isReadEnabled (p : OProp) : Bool := isAttributeEnabled p.attrGet
def isWriteEnabled (p : OProp) : Bool := isAttributeEnabled p.attrSet
def isAnnounceEnabled (p : OProp) : Bool := isAttributeEnabled p.attrAnno
def isReadRequired (p : OProp) : Bool := isAttributeRequired p.attrGet
def isWriteRequired (p : OProp) : Bool := isAttributeRequired p.attrSet
def isAnnounceRequired (p : OProp) : Bool := isAttributeRequired p.attrAnno

/-- property.py:34-38 -/
def FORMAT1_MAX_SIZE : Nat := 15
def FORMAT2_MAP_SIZE : Nat := 16
def CODE_MIN : Int := 0x80

/-- `is_propertymap_description_format1` (property.py:22-23) -/
def isFormat1 (n : Nat) : Bool := n ≤ FORMAT1_MAX_SIZE

/-- `number` (property.py:131-133) -/
def number (p : OProp) : Int := toInt p.data

/-- Result of `property_map_codes` (property.py:136-170): `None`, `False` or a list. -/
inductive MapCodes where
  | none
  | false
  | codes (l : List Int)
deriving DecidableEq, Repr

/-- `l[i] = v` on a Python list. -/
def setItem (l : List Int) (i : Nat) (v : Int) : Except Exc (List Int) :=
  if i < l.length then .ok (l.set i v) else .error .indexError

/-- The inner loop of format 2 decoding (property.py:160-169), over the values of `j`. The state is
`(prop_code_idx, prop_codes)`. -/
def decodeBits (b : UInt8) (cnt i : Nat) : List Nat → Nat × List Int → Except Exc (Nat × List Int)
  | [], st => .ok st
  | j :: js, (idx, codes) =>
    let bit := pyAnd (pyShl 1 j) 0x0F                              -- l.161
    if pyAnd (b.toNat : Int) bit = 0 then decodeBits b cnt i js (idx, codes)     -- l.162-163
    else if cnt ≤ idx then decodeBits b cnt i js (idx, codes)      -- l.164-165
    else match setItem codes idx (0x10 * (j : Int) + CODE_MIN + (i : Int)) with  -- l.166-168
      | .error e => .error e
      | .ok codes => decodeBits b cnt i js (idx + 1, codes)        -- l.169

/-- The outer loop of format 2 decoding (property.py:158-159), over the values of `i`. -/
def decodeBytes (data : Bytes) (cnt : Nat) : List Nat → Nat × List Int → Except Exc (Nat × List Int)
  | [], st => .ok st
  | i :: is, st =>
    match data[i + 1]? with                                        -- l.159
    | none => .error .indexError
    | some b =>
      match decodeBits b cnt i (List.range 8) st with
      | .error e => .error e
      | .ok st => decodeBytes data cnt is st

/-- The loop of format 1 decoding (property.py:147-148). -/
def decodeFormat1 (data : Bytes) : List Nat → List Int → Except Exc (List Int)
  | [], acc => .ok acc
  | n :: ns, acc =>
    match data[n + 1]? with
    | none => .error .indexError
    | some b => decodeFormat1 data ns (acc ++ [(b.toNat : Int)])

/-- `property_map_codes` (property.py:135-170) on the property data. -/
def propertyMapCodes (data : Bytes) : Except Exc MapCodes :=
  if data.length < 1 then .ok .none                                -- l.137-138
  else match data[0]? with                                         -- l.139
  | none => .error .indexError
  | some c =>
    let cnt := c.toNat
    if isFormat1 cnt then                                          -- l.143
      if data.length ≠ cnt + 1 then .ok .false                     -- l.145-146
      else match decodeFormat1 data (List.range cnt) [] with       -- l.147-149
        | .error e => .error e
        | .ok l => .ok (.codes l)
    else if data.length ≠ FORMAT2_MAP_SIZE + 1 then .ok .none      -- l.153-154
    else match decodeBytes data cnt (List.range FORMAT2_MAP_SIZE) (0, List.replicate cnt 0) with   -- l.156-170
      | .error e => .error e
      | .ok st => .ok (.codes st.2)

end OProp
end Uecho
