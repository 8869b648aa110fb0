/- Model of uecho/super_object.py. -/
import Verif.Model.Object

namespace Uecho

/-- `list(set(l))` (super_object.py:88-90): the distinct elements in an order the code does not
control. Everything below is parametrised by the order; `ValidOrder` is all that is assumed. -/
def ValidOrder (ord : List Int → List Int) : Prop :=
  ∀ l, (ord l).Nodup ∧ ∀ c, c ∈ ord l ↔ c ∈ l

namespace SuperObj

/-- object.py:73-75 -/
def ANNO_PROPERTY_MAP : Int := 0x9D
def SET_PROPERTY_MAP : Int := 0x9E
def GET_PROPERTY_MAP : Int := 0x9F

/-- `map_bytes.extend(bytes([c]))` for every `c` (super_object.py:51-53, 58-60, 72-74). -/
def extendBytes (buf : Bytes) : List Int → Except Exc Bytes
  | [] => .ok buf
  | c :: cs =>
    match Msg.appendByte buf c with
    | .error e => .error e
    | .ok buf => extendBytes buf cs

/-- `bytearray(bytes([n]))` followed by one byte per element. -/
def mapBytes (n : Nat) (l : List Int) : Except Exc Bytes :=
  match Msg.appendByte [] (n : Int) with
  | .error e => .error e
  | .ok buf => extendBytes buf l

/-- The loop of description format 2 (super_object.py:65-70). `set`/`getD` stay in range: the index
is masked with 0x0F and the list has 16 elements. -/
def format2Codes (prop_map : List Int) : List Int :=
  prop_map.foldl (fun l c =>
      let idx := (pyAnd (c - OProp.CODE_MIN) 0x0F).toNat
      let bit := (pyAnd (pyShr (pyAnd (c - OProp.CODE_MIN) 0xF0) 4) 0x0F).toNat
      l.set idx (pyOr (l.getD idx 0) (pyAnd (pyShl 1 bit) 0x0F)))
    (List.replicate OProp.FORMAT2_MAP_SIZE 0)

/-- `__set_property_map_property` (super_object.py:46-75). -/
def setPropertyMap (o : Obj) (code : Int) (prop_map : List Int) : Obj × Except Exc Bool :=
  if o.hasProperty code = false then (o, .ok false)                     -- l.48-49
  else match mapBytes prop_map.length prop_map with                     -- l.51-53
  | .error e => (o, .error e)
  | .ok mb =>
    if OProp.isFormat1 prop_map.length then                             -- l.57-61
      let (o, r) := o.setPropertyData code mb; (o, .ok r)
    else match mapBytes OProp.FORMAT2_MAP_SIZE (format2Codes prop_map) with   -- l.65-74
    | .error e => (o, .error e)
    | .ok mb => let (o, r) := o.setPropertyData code mb; (o, .ok r)     -- l.75

/-- The lists collected in super_object.py:78-87. -/
def annoList (o : Obj) : List Int := (o.props.values.filter (fun p => p.isAnnounceRequired)).map OProp.code
def getList (o : Obj) : List Int := (o.props.values.filter (fun p => p.isReadEnabled)).map OProp.code
def setList (o : Obj) : List Int := (o.props.values.filter (fun p => p.isWriteEnabled)).map OProp.code

/-- `_update_property_map_properties` (super_object.py:77-97). -/
def updateMaps (ord : List Int → List Int) (o : Obj) : Obj × Except Exc Bool :=
  let anno_map := ord (annoList o)
  let get_map := ord (getList o)
  let set_map := ord (setList o)
  match setPropertyMap o ANNO_PROPERTY_MAP anno_map with
  | (o, .error e) => (o, .error e)
  | (o, .ok false) => (o, .ok false)
  | (o, .ok true) =>
    match setPropertyMap o GET_PROPERTY_MAP get_map with
    | (o, .error e) => (o, .error e)
    | (o, .ok false) => (o, .ok false)
    | (o, .ok true) => setPropertyMap o SET_PROPERTY_MAP set_map

/-- `SuperObject.add_property` (super_object.py:31-35) of a `Property`. -/
def addProperty (ord : List Int → List Int) (o : Obj) (p : OProp) : Obj × Except Exc Bool :=
  let o := o.addPropertyBase p
  match updateMaps ord o with
  | (o, .error e) => (o, .error e)
  | (o, .ok _) => (o, .ok true)

/-- `SuperObject.__init__` with the default code (super_object.py:27-29). -/
def new : Obj := ({} : Obj).setRequestHandler .self_

end SuperObj
end Uecho
