/-
Model of objects and properties as what Python has: objects with an identity, held in tables by reference (uecho/object.py:90-98, 218-258).
`Model/Object` gives every object properties of its own; here a `Property` may be in the tables of several objects.
Only objects that handle requests themselves (`SuperObject`, devices) are modelled, without observers.
-/
import Verif.Model.SuperObject

namespace Uecho.Alias

/-- A `Property` (property.py:27-45): what `Model/Property` has of it, and `object`, the object it was last added to (object.py:226). -/
structure Cell where
  prop : OProp
  owner : Option Nat := none

/-- A `SuperObject`: its code, and the table `__properties` from codes to properties (object.py:88, 93). -/
structure HObj where
  code : Int := 0
  table : Dict Int Nat := []

/-- All properties and all objects of a program, by number. -/
structure Heap where
  cells : Nat → Cell
  objs : Nat → HObj

/-- `get_property` (object.py:229-233) -/
def getRef (h : Heap) (i : Nat) (code : Int) : Option Nat := Dict.get? (h.objs i).table code

/-- The property `get_property` returns. -/
def getProperty (h : Heap) (i : Nat) (code : Int) : Option OProp := (getRef h i code).map fun r => (h.cells r).prop

/-- `prop.data = data` -/
def storeRef (h : Heap) (r : Nat) (data : Bytes) : Heap :=
  { h with cells := fun k => if k = r then { h.cells r with prop := { (h.cells r).prop with data := data } } else h.cells k }

/-- `set_property_data` (object.py:247-252) -/
def setPropertyData (h : Heap) (i : Nat) (code : Int) (data : Bytes) : Heap × Bool :=
  match getRef h i code with
  | none => (h, false)
  | some r => (storeRef h r data, true)

/-- `properties` (object.py:218-220) -/
def properties (h : Heap) (i : Nat) : List OProp := (Dict.values (h.objs i).table).map fun r => (h.cells r).prop

/-- `Object.add_property` (object.py:222-227) of property `r`. -/
def addPropertyBase (h : Heap) (i r : Nat) : Heap where
  objs := fun j => if j = i then { h.objs i with table := Dict.set (h.objs i).table (h.cells r).prop.code r } else h.objs j
  cells := fun k => if k = r then { h.cells r with owner := some i } else h.cells k

/-- `__set_property_map_property` (super_object.py:46-75). -/
def setPropertyMap (h : Heap) (i : Nat) (code : Int) (prop_map : List Int) : Heap × Except Exc Bool :=
  if (getRef h i code).isSome = false then (h, .ok false)               -- l.48-49
  else match SuperObj.mapBytes prop_map.length prop_map with            -- l.51-53
  | .error e => (h, .error e)
  | .ok mb =>
    if OProp.isFormat1 prop_map.length then                             -- l.57-61
      let (h, r) := setPropertyData h i code mb; (h, .ok r)
    else match SuperObj.mapBytes OProp.FORMAT2_MAP_SIZE (SuperObj.format2Codes prop_map) with   -- l.65-74
    | .error e => (h, .error e)
    | .ok mb => let (h, r) := setPropertyData h i code mb; (h, .ok r)   -- l.75

/-- `_update_property_map_properties` (super_object.py:77-97). -/
def updateMaps (ord : List Int → List Int) (h : Heap) (i : Nat) : Heap × Except Exc Bool :=
  let anno_map := ord (((properties h i).filter fun p => p.isAnnounceRequired).map OProp.code)
  let get_map := ord (((properties h i).filter fun p => p.isReadEnabled).map OProp.code)
  let set_map := ord (((properties h i).filter fun p => p.isWriteEnabled).map OProp.code)
  match setPropertyMap h i SuperObj.ANNO_PROPERTY_MAP anno_map with
  | (h, .error e) => (h, .error e)
  | (h, .ok false) => (h, .ok false)
  | (h, .ok true) =>
    match setPropertyMap h i SuperObj.GET_PROPERTY_MAP get_map with
    | (h, .error e) => (h, .error e)
    | (h, .ok false) => (h, .ok false)
    | (h, .ok true) => setPropertyMap h i SuperObj.SET_PROPERTY_MAP set_map

/-- `SuperObject.add_property` (super_object.py:31-35). -/
def addProperty (ord : List Int → List Int) (h : Heap) (i r : Nat) : Heap × Except Exc Bool :=
  match updateMaps ord (addPropertyBase h i r) i with
  | (h, .error e) => (h, .error e)
  | (h, .ok _) => (h, .ok true)

/-- `SuperObject.property_read_requested` (super_object.py:99-103); `none` is `None`. -/
def readRequested (h : Heap) (i : Nat) : Option Nat → Except Exc Bool
  | none => .error .attributeError
  | some r =>
    match getProperty h i (h.cells r).prop.code with
    | none => .ok false
    | some q => .ok q.isReadEnabled

/-- `SuperObject.property_write_requested` (super_object.py:105-109) -/
def writeRequested (h : Heap) (i r : Nat) : Bool :=
  match getProperty h i (h.cells r).prop.code with
  | none => false
  | some q => q.isWriteEnabled

/-- The loop over `set_properties` (object.py:350-359). -/
def setLoop (i : Nat) : Heap → List PProp → Nat → List PProp → Heap × Nat × List PProp
  | h, [], cnt, acc => (h, cnt, acc)
  | h, mp :: ms, cnt, acc =>
    match getRef h i mp.code with
    | none => setLoop i h ms cnt (acc ++ [{ code := mp.code }])
    | some r =>
      if writeRequested h i r then setLoop i (storeRef h r mp.data) ms (cnt + 1) (acc ++ [{ code := mp.code }])
      else setLoop i h ms cnt (acc ++ [{ code := mp.code, data := mp.data }])

/-- The loop over `get_properties` (object.py:360-366). -/
def getLoop (i : Nat) : Heap → List PProp → Nat → List PProp → Except Exc (Nat × List PProp)
  | _, [], cnt, acc => .ok (cnt, acc)
  | h, mp :: ms, cnt, acc =>
    match getRef h i mp.code, readRequested h i (getRef h i mp.code) with
    | _, .error e => .error e
    | some r, .ok true => getLoop i h ms (cnt + 1) (acc ++ [{ code := mp.code, data := (h.cells r).prop.data }])
    | none, .ok true => .error .attributeError
    | _, .ok false => getLoop i h ms cnt (acc ++ [{ code := mp.code }])

/-- The loop over `properties` of any other request (object.py:368-382). -/
def plainLoop (i : Nat) (esv : Int) : Heap → List PProp → Nat → List PProp → Heap × Except Exc (Nat × List PProp)
  | h, [], cnt, acc => (h, .ok (cnt, acc))
  | h, mp :: ms, cnt, acc =>
    match getRef h i mp.code with
    | none => plainLoop i esv h ms cnt (acc ++ [{ code := mp.code }])
    | some r =>
      if ESV.isReadRequest esv then
        match readRequested h i (some r) with
        | .error e => (h, .error e)
        | .ok true => plainLoop i esv h ms (cnt + 1) (acc ++ [{ code := mp.code, data := (h.cells r).prop.data }])
        | .ok false => plainLoop i esv h ms cnt (acc ++ [{ code := mp.code }])
      else if ESV.isWriteRequest esv then
        if writeRequested h i r then plainLoop i esv (storeRef h r mp.data) ms (cnt + 1) (acc ++ [{ code := mp.code }])
        else plainLoop i esv h ms cnt (acc ++ [{ code := mp.code, data := mp.data }])
      else plainLoop i esv h ms cnt (acc ++ [{ code := mp.code }])

/-- `message_received` (object.py:330-436) of object `i`; the choice of the service is that of `Model/Object`. -/
def messageReceived (h : Heap) (i : Nat) (req : Msg) : Heap × Except Exc (Option Msg) :=
  if ESV.isRequest req.esv = false then (h, .ok none)                    -- l.336-337
  else
    let res : Msg := { tid := req.tid, deoj := req.seoj, seoj := req.deoj }   -- l.342-345
    if ESV.isWriteReadRequest req.esv then                               -- l.349
      match setLoop i h req.setProps 0 [] with
      | (h, cnt, sps) =>
        match getLoop i h req.getProps cnt [] with
        | .error e => (h, .error e)
        | .ok (cnt, gps) => (h, .ok (Obj.respond req { res with setProps := sps, getProps := gps } cnt))
    else
      match plainLoop i req.esv h req.props 0 [] with
      | (h, .error e) => (h, .error e)
      | (h, .ok (cnt, ps)) => (h, .ok (Obj.respond req { res with props := ps } cnt))

/-! ### Programs -/

/-- What a program, and the network, do to object `i`: add property `r` to it, set the data of a property of it, send it a message. -/
inductive Op where
  | add (i r : Nat)
  | setData (i : Nat) (code : Int) (data : Bytes)
  | receive (i : Nat) (m : Msg)

/-- What a call returns. -/
inductive Out where
  | bool (r : Except Exc Bool)
  | answer (r : Except Exc (Option Msg))

/-- One operation. -/
def step (ord : List Int → List Int) (h : Heap) : Op → Heap × Out
  | .add i r => let x := addProperty ord h i r; (x.1, .bool x.2)
  | .setData i c d => let x := setPropertyData h i c d; (x.1, .bool (.ok x.2))
  | .receive i m => let x := messageReceived h i m; (x.1, .answer x.2)

/-- The object an operation is about. -/
def Op.target : Op → Nat
  | .add i _ => i
  | .setData i _ _ => i
  | .receive i _ => i

/-- A whole program, with what each call returned. -/
def run (ord : List Int → List Int) (h : Heap) : List Op → Heap × List (Nat × Out)
  | [] => (h, [])
  | op :: ops =>
    let x := step ord h op
    let y := run ord x.1 ops
    (y.1, (op.target, x.2) :: y.2)

end Uecho.Alias
