/- Model of uecho/object.py and uecho/protocol/subject.py. -/
import Verif.Model.Property

namespace Uecho

/-- What `__request_handler` refers to (object.py:88, 260-267):
* `none`  – no handler;
* `self_` – the object itself, with `SuperObject`'s methods (super_object.py:29, 99-109);
* `readOnly` – the object itself, with `NodeProfileReadOnly`'s methods (node_profile.py:160-161);
* `user n` – code supplied by the user of the library (see `Env.handler`). -/
inductive HandlerRef where
  | none
  | self_
  | readOnly
  | user (n : Nat)
deriving DecidableEq, Repr

/-- `uecho.Object` (object.py:84-98). `name` and the back reference `node` are not modelled.
`observers` are the observers of `__msg_subject` (identified by a number). `ustate` stands for
whatever state user supplied handlers keep (any countable state can be coded in it). -/
structure Obj where
  code : Int := 0                       -- CODE_UNKNOWN, l.63, l.92
  props : Dict Int OProp := []
  handler : HandlerRef := .none
  observers : List Nat := []
  ustate : Nat := 0
deriving DecidableEq, Repr

/-- A user supplied `ObjectRequestHandler` (object.py:25-52). It may change the object it serves
(the property's data in particular), answer, or raise. `read` gets `None` when the property is
unknown (object.py:362-363). -/
structure Handler where
  read : Obj → Option OProp → Obj × Except Exc Bool
  write : Obj → OProp → Bytes → Obj × Except Exc Bool

/-- User supplied code: request handlers, and observers, of which only the fact that they may raise
is modelled. -/
structure Env where
  handler : Nat → Handler
  observe : Nat → Msg → Option Exc

/-! ### Object codes (object.py:103-216) -/

/-- The values `set_code` and friends distinguish (object.py:103-132): `None`, an `Object` (only its
code matters), an `int`, a tuple of ints, anything else. -/
inductive PyCode where
  | none
  | obj (code : Int)
  | int (code : Int)
  | tuple (l : List Int)
  | other
deriving DecidableEq, Repr

/-- getters, object.py:194-196, 202-204, 210-212 -/
def groupCode (code : Int) : Int := pyAnd (pyShr code 16) 0xFF
def classCode (code : Int) : Int := pyAnd (pyShr code 8) 0xFF
def instanceCode (code : Int) : Int := pyAnd code 0xFF

/-- setters, object.py:198-200, 206-208, 214-216 -/
def setGroupCode (code v : Int) : Int := pyOr code (pyShl (pyAnd v 0xFF) 16)
def setClassCode (code v : Int) : Int := pyOr code (pyShl (pyAnd v 0xFF) 8)
def setInstanceCode (code v : Int) : Int := pyOr code (pyAnd v 0xFF)

/-- `Object.set_code` (object.py:103-132): new code and return value. -/
def setCode (old : Int) : PyCode → Int × Bool
  | .none => (old, false)
  | .obj c => (c, false)                     -- l.114-115, falls through to l.132
  | .int c => (c, true)
  | .tuple [g, c] => (setClassCode (setGroupCode 0 g) c, true)
  | .tuple [g, c, i] => (setInstanceCode (setClassCode (setGroupCode 0 g) c) i, true)
  | .tuple _ => (old, false)
  | .other => (old, false)

/-- `is_code` (object.py:134-169) -/
def isCode (code : Int) : PyCode → Bool
  | .obj c => if code = c then true else false
  | .int c => if code = c then true else false
  | .tuple [g] => if groupCode code ≠ g then false else true
  | .tuple [g, c] =>
    if groupCode code ≠ g then false else if classCode code ≠ c then false else true
  | .tuple [g, c, i] =>
    if groupCode code ≠ g then false else if classCode code ≠ c then false
    else if instanceCode code ≠ i then false else true
  | .tuple _ => false
  | .none => false
  | .other => false

/-- object.py:171-192 -/
def isGroup (code g : Int) : Bool := isCode code (.tuple [g])
def isClass (code g c : Int) : Bool := isCode code (.tuple [g, c])

namespace Obj

/-! ### The property store (object.py:218-258) -/

/-- `get_property` (object.py:229-233) -/
def getProperty (o : Obj) (code : Int) : Option OProp := o.props.get? code

/-- `Object.add_property` (object.py:222-227) of a `Property`. -/
def addPropertyBase (o : Obj) (p : OProp) : Obj := { o with props := o.props.set p.code p }

/-- `get_property_data` (object.py:235-239) -/
def getPropertyData (o : Obj) (code : Int) : Option Bytes :=
  match o.props.get? code with
  | some p => some p.data
  | none => none

/-- `has_property` (object.py:241-245) -/
def hasProperty (o : Obj) (code : Int) : Bool :=
  match o.getProperty code with
  | some _ => true
  | none => false

/-- `prop.data = data` through the reference stored under `code`. -/
def storeData (o : Obj) (code : Int) (data : Bytes) : Obj :=
  { o with props := o.props.modify code (fun p => { p with data := data }) }

/-- `set_property_data` (object.py:247-252) -/
def setPropertyData (o : Obj) (code : Int) (data : Bytes) : Obj × Bool :=
  match o.getProperty code with
  | none => (o, false)
  | some _ => (o.storeData code data, true)

/-- `set_property_string` (object.py:254-255) -/
def setPropertyString (o : Obj) (code : Int) (s : String) : Obj × Bool :=
  o.setPropertyData code s.toUTF8.toList

/-- `set_property_integer` (object.py:257-258): `Bytes.from_int` runs first and may raise. -/
def setPropertyInteger (o : Obj) (code data size : Int) : Obj × Except Exc Bool :=
  match fromIntPy data size with
  | .error e => (o, .error e)
  | .ok b => let (o, r) := o.setPropertyData code b; (o, .ok r)

/-! ### The default request handler (super_object.py:99-109) -/

/-- `SuperObject.property_read_requested` (super_object.py:99-103); `None` has no `code`. -/
def superRead (o : Obj) : Option OProp → Except Exc Bool
  | none => .error .attributeError
  | some p =>
    match o.getProperty p.code with
    | none => .ok false
    | some q => .ok q.isReadEnabled

/-- `SuperObject.property_write_requested` (super_object.py:105-109) -/
def superWrite (o : Obj) (p : OProp) : Except Exc Bool :=
  match o.getProperty p.code with
  | none => .ok false
  | some q => .ok q.isWriteEnabled

/-- `self.__request_handler.property_read_requested(obj_prop)`. The handler is looked up at every
call (object.py:363, 373). -/
def callRead (env : Env) (o : Obj) (p : Option OProp) : Obj × Except Exc Bool :=
  match o.handler with
  | .none => (o, .error .attributeError)
  | .self_ => (o, o.superRead p)
  | .readOnly => (o, o.superRead p)
  | .user n => (env.handler n).read o p

/-- `self.__request_handler.property_write_requested(obj_prop, data)` (object.py:354, 377).
`NodeProfileReadOnly.property_write_requested` always refuses (node_profile.py:160-161). -/
def callWrite (env : Env) (o : Obj) (p : OProp) (data : Bytes) : Obj × Except Exc Bool :=
  match o.handler with
  | .none => (o, .error .attributeError)
  | .self_ => (o, o.superWrite p)
  | .readOnly => (o, .ok false)
  | .user n => (env.handler n).write o p data

/-! ### Message handling (object.py:330-436) -/

/-- `Subject.notify` (protocol/subject.py:47-54): observers are called in order until one raises;
returns the observers that were called, and the exception. -/
def notify (env : Env) (msg : Msg) : List Nat → List Nat × Option Exc
  | [] => ([], none)
  | n :: ns =>
    match env.observe n msg with
    | some e => ([n], some e)
    | none => let (l, x) := notify env msg ns; (n :: l, x)

/-- The loop over `set_properties` of a write-read request (object.py:350-359). Simplification: the
handler is assumed not to replace the property object stored under the code it is asked about, so
that `obj_prop` is still the stored one at l.355. -/
def setLoop (env : Env) : Obj → List PProp → Nat → List PProp → Obj × Except Exc (Nat × List PProp)
  | o, [], cnt, acc => (o, .ok (cnt, acc))
  | o, mp :: ms, cnt, acc =>
    match o.getProperty mp.code with
    | none => setLoop env o ms cnt (acc ++ [{ code := mp.code }])
    | some p =>
      match o.callWrite env p mp.data with
      | (o, .error e) => (o, .error e)
      | (o, .ok true) => setLoop env (o.storeData mp.code mp.data) ms (cnt + 1) (acc ++ [{ code := mp.code }])
      | (o, .ok false) => setLoop env o ms cnt (acc ++ [{ code := mp.code, data := mp.data }])

/-- The loop over `get_properties` of a write-read request (object.py:360-366). `obj_prop.data` is
read after the handler ran; if the handler accepts an unknown property, `None.data` raises. -/
def getLoop (env : Env) : Obj → List PProp → Nat → List PProp → Obj × Except Exc (Nat × List PProp)
  | o, [], cnt, acc => (o, .ok (cnt, acc))
  | o, mp :: ms, cnt, acc =>
    match o.callRead env (o.getProperty mp.code) with
    | (o', .error e) => (o', .error e)
    | (o', .ok true) =>
      match o.getProperty mp.code, o'.getPropertyData mp.code with
      | some _, some d => getLoop env o' ms (cnt + 1) (acc ++ [{ code := mp.code, data := d }])
      | _, _ => (o', .error .attributeError)
    | (o', .ok false) => getLoop env o' ms cnt (acc ++ [{ code := mp.code }])

/-- The loop over `properties` of any other request (object.py:368-382). -/
def plainLoop (env : Env) (esv : Int) :
    Obj → List PProp → Nat → List PProp → Obj × Except Exc (Nat × List PProp)
  | o, [], cnt, acc => (o, .ok (cnt, acc))
  | o, mp :: ms, cnt, acc =>
    match o.getProperty mp.code with
    | none => plainLoop env esv o ms cnt (acc ++ [{ code := mp.code }])
    | some p =>
      if ESV.isReadRequest esv then
        match o.callRead env (some p) with
        | (o, .error e) => (o, .error e)
        | (o, .ok true) =>
          plainLoop env esv o ms (cnt + 1)
            (acc ++ [{ code := mp.code, data := (o.getPropertyData mp.code).getD p.data }])
        | (o, .ok false) => plainLoop env esv o ms cnt (acc ++ [{ code := mp.code }])
      else if ESV.isWriteRequest esv then
        match o.callWrite env p mp.data with
        | (o, .error e) => (o, .error e)
        | (o, .ok true) =>
          plainLoop env esv (o.storeData mp.code mp.data) ms (cnt + 1) (acc ++ [{ code := mp.code }])
        | (o, .ok false) => plainLoop env esv o ms cnt (acc ++ [{ code := mp.code, data := mp.data }])
      else plainLoop env esv o ms cnt (acc ++ [{ code := mp.code }])

/-- The choice of the response service (object.py:384-436). -/
def respond (req res : Msg) (accepted : Nat) : Option Msg :=
  let all := req.opc + req.opcSet + req.opcGet                          -- l.384
  if req.esv = ESV.WRITE_REQUEST then
    if accepted = all then none else some { res with esv := ESV.WRITE_REQUEST_ERROR }
  else if req.esv = ESV.WRITE_REQUEST_RESPONSE_REQUIRED then
    if accepted = all then some { res with esv := ESV.WRITE_RESPONSE }
    else some { res with esv := ESV.WRITE_REQUEST_ERROR }               -- l.400
  else if req.esv = ESV.READ_REQUEST then
    if accepted = all then some { res with esv := ESV.READ_RESPONSE }
    else some { res with esv := ESV.READ_REQUEST_ERROR }
  else if req.esv = ESV.WRITE_READ_REQUEST then
    if accepted = all then some { res with esv := ESV.WRITE_READ_RESPONSE }
    else some { res with esv := ESV.WRITE_READ_REQUEST_ERROR }
  else if req.esv = ESV.NOTIFICATION_REQUEST then
    if accepted = all then some { res with esv := ESV.NOTIFICATION }
    else some { res with esv := ESV.NOTIFICATION_REQUEST_ERROR }
  else if req.esv = ESV.NOTIFICATION_RESPONSE_REQUIRED then
    if accepted = all then some { res with esv := ESV.NOTIFICATION_RESPONSE } else none
  else none

/-- What `message_received` leaves behind. -/
structure Recv where
  obj : Obj
  notified : List Nat
  result : Except Exc (Option Msg)

/-- The part of `message_received` after the observers have been notified (object.py:336-436). -/
def handleRequest (env : Env) (o : Obj) (req : Msg) : Obj × Except Exc (Option Msg) :=
  if ESV.isRequest req.esv = false then (o, .ok none)                    -- l.336-337
  else if o.handler = .none then (o, .ok none)                           -- l.339-340
  else
    let res : Msg := { tid := req.tid, deoj := req.seoj, seoj := req.deoj }   -- l.342-345
    if ESV.isWriteReadRequest req.esv then                               -- l.349
      match setLoop env o req.setProps 0 [] with
      | (o, .error e) => (o, .error e)
      | (o, .ok (cnt, sps)) =>
        match getLoop env o req.getProps cnt [] with
        | (o, .error e) => (o, .error e)
        | (o, .ok (cnt, gps)) => (o, .ok (respond req { res with setProps := sps, getProps := gps } cnt))
    else
      match plainLoop env req.esv o req.props 0 [] with
      | (o, .error e) => (o, .error e)
      | (o, .ok (cnt, ps)) => (o, .ok (respond req { res with props := ps } cnt))

/-- `message_received` (object.py:330-436) of a `Message`. -/
def messageReceived (env : Env) (o : Obj) (req : Msg) : Recv :=
  match notify env req o.observers with                                  -- l.334
  | (l, some e) => { obj := o, notified := l, result := .error e }
  | (l, none) =>
    let (o, r) := handleRequest env o req
    { obj := o, notified := l, result := r }

/-- `Subject.add_observer` (protocol/subject.py:29-45); the `None` test of l.39 is about the builtin
`object` and never holds. -/
def addObserver (o : Obj) (n : Nat) : Obj × Bool :=
  if n ∈ o.observers then (o, true) else ({ o with observers := o.observers ++ [n] }, true)

/-- `set_request_handler` (object.py:260-267) -/
def setRequestHandler (o : Obj) (h : HandlerRef) : Obj := { o with handler := h }

/-- One element of the list given to `send_message`/`post_message`: an `(int, bytes)` pair, or
anything else (object.py:276-281). -/
inductive PyItem where
  | pair (code : Int) (data : Bytes)
  | bad

/-- The loop of `__create_message` (object.py:275-285). -/
def createLoop (m : Msg) : List PyItem → Option Msg
  | [] => some m
  | .bad :: _ => none
  | .pair c d :: l => createLoop { m with props := m.props ++ [{ code := c, data := d }] } l

/-- `__create_message` (object.py:269-286); `none` for `props` is a value that is not a list. -/
def createMessage (o : Obj) (esv : Int) (props : Option (List PyItem)) : Option Msg :=
  match props with
  | none => none
  | some l => createLoop { deoj := o.code, esv := esv } l

/-- `copy` (object.py:438-444): a plain `Object` (no handler, no observers) with copies of the
properties. -/
def copy (o : Obj) : Obj :=
  o.props.values.foldl addPropertyBase { code := o.code }

end Obj
end Uecho
