/-
Model of the sample device examples/device/monolight/monolight.py (monolight-sense.py is the same with a LED), and of the device of
doc/device_overview.md. The argument parsing and the sleeping main loop are not modelled.
-/
import Verif.Model.Database

namespace Uecho.Light

/-- `MonoLight.on` (monolight.py:37-39; monolight-sense.py:36-39). `ustate` is the lamp: 1 on, 0 off ("ON" has been printed last, the LED is
lit). The result of `set_property_integer` is not used; it cannot raise for size 1. -/
def on (o : Obj) : Obj := { (o.setPropertyInteger 0x80 0x30 1).1 with ustate := 1 }

/-- `MonoLight.off` (monolight.py:41-43; monolight-sense.py:41-44) -/
def off (o : Obj) : Obj := { (o.setPropertyInteger 0x80 0x31 1).1 with ustate := 0 }

/-- `MonoLight.property_read_requested` (monolight.py:45-50): `None.code` raises at l.46, or at l.47 if the object does not have the
property. -/
def read (o : Obj) : Option OProp → Obj × Except Exc Bool
  | none => (o, .error .attributeError)
  | some p =>
    match o.getProperty p.code with
    | none => (o, .error .attributeError)
    | some q => (o, o.superRead (some q))

/-- `MonoLight.property_write_requested` (monolight.py:52-63): l.54 looks at the data the property has, not at the data to be written;
`data[0]` of empty data raises. -/
def write (o : Obj) (p : OProp) (data : Bytes) : Obj × Except Exc Bool :=
  if p.code = 0x80 then
    if p.data.length ≠ 1 then (o, .ok false)
    else
      match data with
      | [] => (o, .error .indexError)
      | b :: _ =>
        if b ≠ 0x30 ∧ b ≠ 0x31 then (o, .ok false)
        else if b = 0x30 then (on o, .ok true)
        else (off o, .ok true)
  else (o, o.superWrite p)

/-- The light as request handler. -/
def handler : Handler := ⟨read, write⟩

/-- `MonoLight()` (monolight.py:30-32): a standard device whose handler (number 0) is the light. -/
def new (ord : List Int → List Int) : Obj := { (StdObj.new ord stdObjects (.int 0x029101)).1 with handler := .user 0 }

/-- The device of doc/device_overview.md:63-66 (the same in doc/device_inside.md:42-45): reading. -/
def docRead (o : Obj) : Option OProp → Obj × Except Exc Bool
  | none => (o, .error .attributeError)
  | some p => if p.code ≠ 0x80 then (o, .ok false) else (o, .ok true)

/-- The device of doc/device_overview.md:68-75: writing. -/
def docWrite (o : Obj) (p : OProp) (data : Bytes) : Obj × Except Exc Bool :=
  if p.code ≠ 0x80 then (o, .ok false)
  else if p.data.length ≠ 1 then (o, .ok false)
  else
    match data with
    | [] => (o, .error .indexError)
    | b :: _ => if b ≠ 0x30 ∧ b ≠ 0x31 then (o, .ok false) else (o, .ok true)

def docHandler : Handler := ⟨docRead, docWrite⟩

end Uecho.Light
