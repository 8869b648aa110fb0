/- Model of uecho/protocol/message.py, uecho/protocol/property.py, uecho/message.py (class
`Message`); the builders of uecho/messages.py are in `Model/Messages.lean`. -/
import Verif.Model.Bytes
import Verif.Model.Esv

namespace Uecho

/-- `uecho.protocol.property.Property` (protocol/property.py:16-26): what a message carries. -/
structure PProp where
  code : Int := 0
  data : Bytes := []
deriving DecidableEq, Repr

/-- A socket address `(host, port)`. -/
abbrev Addr := String × Int

/-- `uecho.protocol.message.Message` (protocol/message.py:38-56) with its initial values. -/
structure Msg where
  tid : Int := 0
  seoj : Int := 0
  deoj : Int := 0
  esv : Int := ESV.UNKNOWN
  props : List PProp := []
  setProps : List PProp := []
  getProps : List PProp := []
  fromAddr : Option Addr := none
  toAddr : Option Addr := none
deriving DecidableEq, Repr

namespace Msg

/-- protocol/message.py:25-28 -/
def FORMAT1_HEADER_SIZE : Nat := 3 + 3 + 1 + 1
def EHD1_ECHONET : UInt8 := 0x10
def EHD2_FORMAT1 : UInt8 := 0x81

/-- `OPC` (protocol/message.py:63-65) -/
def opc (m : Msg) : Nat := m.props.length
/-- `OPCSet` (protocol/message.py:67-69) -/
def opcSet (m : Msg) : Nat := m.setProps.length
/-- `OPCGet` (protocol/message.py:71-73) -/
def opcGet (m : Msg) : Nat := m.getProps.length
/-- `all_properties` (protocol/message.py:75-77) -/
def allProps (m : Msg) : List PProp := m.props ++ m.setProps ++ m.getProps

/-- `is_response_message` (protocol/message.py:97-100): only the TIDs are compared. -/
def isResponseMessage (m msg : Msg) : Bool := if m.tid ≠ msg.tid then false else true

/-- The loop of `__parse_property_bytes` (protocol/message.py:107-119): `n` iterations left. -/
def parsePropsLoop (bs : Bytes) : Nat → Nat → List PProp → Except Exc (Nat × List PProp)
  | 0, off, acc => .ok (off, acc)
  | n + 1, off, acc =>
    if bs.length < off + 1 then .error .parserError            -- l.108-109
    else match bs[off]? with                                   -- l.111
      | none => .error .indexError
      | some code =>
        match bs[off + 1]? with                                -- l.113
        | none => .error .indexError
        | some pdc =>
          if bs.length < off + 2 + pdc.toNat then .error .parserError   -- l.115-116
          else parsePropsLoop bs n (off + 2 + pdc.toNat)
            (acc ++ [{ code := (code.toNat : Int)
                       data := pySlice bs (off + 2) (off + 2 + pdc.toNat) }])

/-- `__parse_property_bytes` (protocol/message.py:102-120). -/
def parseProps (bs : Bytes) (off : Nat) : Except Exc (Nat × List PProp) :=
  match bs[off]? with                                          -- l.105
  | none => .error .indexError
  | some opc => parsePropsLoop bs opc.toNat (off + 1) []

/-- `__is_read_write_message` (protocol/message.py:122-127). -/
def isReadWriteMessage (m : Msg) : Bool :=
  if ESV.isWriteReadRequest m.esv then true
  else if ESV.isWriteReadResponse m.esv then true
  else false

/-- `parse_bytes` (protocol/message.py:129-151). The first component is the message object after
the call, also when an exception is raised half way. -/
def parseBytes (m : Msg) (bs : Bytes) : Msg × Except Exc Bool :=
  if bs.length < FORMAT1_HEADER_SIZE then (m, .error .parserError)           -- l.131-132
  else match bs[0]?, bs[1]? with
  | some b0, some b1 =>
    if b0 ≠ EHD1_ECHONET then (m, .error .parserError)                       -- l.133-134
    else if b1 ≠ EHD2_FORMAT1 then (m, .error .parserError)                  -- l.135-136
    else
      let m := { m with tid := toInt (pySlice bs 2 4) }                      -- l.137
      let m := { m with seoj := toInt (pySlice bs 4 7) }                     -- l.140
      let m := { m with deoj := toInt (pySlice bs 7 10) }                    -- l.141
      match bs[10]? with                                                     -- l.142
      | none => (m, .error .indexError)
      | some e =>
        let m := { m with esv := (e.toNat : Int) }
        if m.isReadWriteMessage then                                         -- l.145-147
          match parseProps bs 11 with
          | .error x => (m, .error x)
          | .ok (off, ps) =>
            let m := { m with setProps := ps }
            match parseProps bs off with
            | .error x => (m, .error x)
            | .ok (_, qs) => ({ m with getProps := qs }, .ok true)
        else                                                                 -- l.148-149
          match parseProps bs 11 with
          | .error x => (m, .error x)
          | .ok (_, ps) => ({ m with props := ps }, .ok true)
  | _, _ => (m, .error .indexError)    -- impossible: 8 ≤ len

/-- `parse_hexstring` (protocol/message.py:153-154). -/
def parseHexString (m : Msg) (s : String) : Msg × Except Exc Bool :=
  match bytesFromString s with
  | .error e => (m, .error e)
  | .ok bs => m.parseBytes bs

/-- `bytearray.append(v)`: `ValueError` unless `0 ≤ v < 256`. -/
def appendByte (buf : Bytes) (v : Int) : Except Exc Bytes :=
  if 0 ≤ v ∧ v < 256 then .ok (buf ++ [UInt8.ofNat v.toNat]) else .error .valueError

/-- The loop of `__append_property_bytes` (protocol/message.py:158-161). -/
def appendPropList (buf : Bytes) : List PProp → Except Exc Bytes
  | [] => .ok buf
  | p :: ps => do
    let buf ← appendByte buf p.code
    let buf ← appendByte buf (p.data.length : Int)
    appendPropList (buf ++ p.data) ps

/-- `__append_property_bytes` (protocol/message.py:156-161). -/
def appendPropertyBytes (buf : Bytes) (ps : List PProp) : Except Exc Bytes := do
  let buf ← appendByte buf (ps.length : Int)
  appendPropList buf ps

/-- `to_bytes` (protocol/message.py:163-176). -/
def toBytes (m : Msg) : Except Exc Bytes := do
  let buf : Bytes := [EHD1_ECHONET, EHD2_FORMAT1]
  let buf := buf ++ fromInt m.tid 2
  let buf := buf ++ fromInt m.seoj 3
  let buf := buf ++ fromInt m.deoj 3
  let buf ← appendByte buf m.esv
  if m.isReadWriteMessage then
    let buf ← appendPropertyBytes buf m.setProps
    appendPropertyBytes buf m.getProps
  else
    appendPropertyBytes buf m.props

/-- `to_string` (protocol/message.py:178-179). -/
def toStr (m : Msg) : Except Exc String := do
  let b ← m.toBytes
  return String.ofList (hexUpper b)

/-- `__eq__` between two messages (protocol/message.py:58-61). -/
def pyEq (m other : Msg) : Except Exc Bool := do
  let a ← m.toBytes
  let b ← other.toBytes
  return a == b

/-- `uecho.Message(msg)` (message.py:25-30). `none` models a constructor call without a message.
The exceptions of `to_bytes`/`parse_bytes` propagate and no object is created. -/
def copyOf (msg : Option Msg) : Except Exc Msg :=
  match msg with
  | none => .ok {}
  | some msg => do
    let bs ← msg.toBytes
    match Msg.parseBytes {} bs with
    | (_, .error e) => .error e
    | (m, .ok _) => .ok { m with fromAddr := msg.fromAddr, toAddr := msg.toAddr }

/-- The values `add_property` and friends may be given (message.py:39-52). `tuple2` is a pair
`(int, bytes)`, `tupleN` a tuple of any other length, `protoProp` a `protocol.Property` that is
not a `uecho.Property`, `other` anything else. -/
inductive PropArg where
  | prop (p : PProp)
  | int (code : Int)
  | tuple2 (code : Int) (data : Bytes)
  | tupleN
  | protoProp (p : PProp)
  | other
deriving DecidableEq, Repr

/-- Result of `__to_property` (message.py:39-52): a property, `None` or `False`. -/
inductive ToProp where
  | prop (p : PProp)
  | none
  | false

/-- `__to_property` (message.py:39-52). `Property()` starts with empty data (property.py:55). -/
def toProperty : PropArg → ToProp
  | .prop p => .prop p
  | .int c => .prop { code := c }
  | .tuple2 c d => .prop { code := c, data := d }
  | .tupleN => .false
  | .protoProp _ => .none
  | .other => .none

/-- `uecho.Message.add_property` (message.py:54-66) on top of protocol/message.py:79-83. -/
def addProperty (m : Msg) (a : PropArg) : Msg × Bool :=
  match toProperty a with
  | .none => (m, false)
  | .false => (m, false)          -- `super().add_property(False)`: not a Property
  | .prop p => ({ m with props := m.props ++ [p] }, true)

/-- `uecho.Message.add_set_property` (message.py:68-80) and protocol/message.py:85-89. -/
def addSetProperty (m : Msg) (a : PropArg) : Msg × Bool :=
  match toProperty a with
  | .none => (m, false)
  | .false => (m, false)
  | .prop p => ({ m with setProps := m.setProps ++ [p] }, true)

/-- `uecho.Message.add_get_property` (message.py:82-94) and protocol/message.py:91-95. -/
def addGetProperty (m : Msg) (a : PropArg) : Msg × Bool :=
  match toProperty a with
  | .none => (m, false)
  | .false => (m, false)
  | .prop p => ({ m with getProps := m.getProps ++ [p] }, true)

end Msg
end Uecho
