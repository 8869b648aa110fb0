/- GENERATED by tools/gen_std.py from uecho/std/objects_mra.py, objects_scsl.py and manufacturers.py.
Property names, types and sizes and class names are left out. -/
import Verif.Model.StdRaw

namespace Uecho.StdData
open RawAttr

/-- std/objects_scsl.py:31-36 -/
def scsl_0001 : StdEntry :=
  { key := (0x00, 0x01), group := 0x00, cls := 0x01
    props := [
      (0x80, mandatory, optional, mandatory),
      (0xB0, optional, optional, dash),
      (0xB1, mandatory, dash, mandatory),
      (0xBF, dash, optional, dash)
    ] }

/-- std/objects_scsl.py:39-44 -/
def scsl_0002 : StdEntry :=
  { key := (0x00, 0x02), group := 0x00, cls := 0x02
    props := [
      (0x80, mandatory, optional, mandatory),
      (0xB0, optional, optional, dash),
      (0xB1, mandatory, dash, mandatory),
      (0xBF, dash, optional, dash)
    ] }

/-- std/objects_scsl.py:47-51 -/
def scsl_0003 : StdEntry :=
  { key := (0x00, 0x03), group := 0x00, cls := 0x03
    props := [
      (0x80, mandatory, optional, mandatory),
      (0xB1, mandatory, dash, mandatory),
      (0xBF, dash, optional, dash)
    ] }

/-- std/objects_scsl.py:54-59 -/
def scsl_0004 : StdEntry :=
  { key := (0x00, 0x04), group := 0x00, cls := 0x04
    props := [
      (0x80, mandatory, optional, mandatory),
      (0xB0, optional, optional, dash),
      (0xB1, mandatory, dash, mandatory),
      (0xBF, dash, optional, dash)
    ] }

/-- std/objects_scsl.py:62-67 -/
def scsl_0005 : StdEntry :=
  { key := (0x00, 0x05), group := 0x00, cls := 0x05
    props := [
      (0x80, mandatory, optional, mandatory),
      (0xB0, optional, optional, dash),
      (0xB1, mandatory, dash, mandatory),
      (0xBF, dash, optional, dash)
    ] }

/-- std/objects_scsl.py:70-75 -/
def scsl_0006 : StdEntry :=
  { key := (0x00, 0x06), group := 0x00, cls := 0x06
    props := [
      (0x80, mandatory, optional, mandatory),
      (0xB0, optional, optional, dash),
      (0xB1, mandatory, dash, mandatory),
      (0xBF, dash, optional, dash)
    ] }

/-- std/objects_scsl.py:78-82 -/
def scsl_0007 : StdEntry :=
  { key := (0x00, 0x07), group := 0x00, cls := 0x07
    props := [
      (0x80, mandatory, optional, mandatory),
      (0xB0, optional, optional, dash),
      (0xB1, mandatory, dash, mandatory)
    ] }

/-- std/objects_scsl.py:85-90 -/
def scsl_0008 : StdEntry :=
  { key := (0x00, 0x08), group := 0x00, cls := 0x08
    props := [
      (0x80, mandatory, optional, mandatory),
      (0xB0, optional, optional, dash),
      (0xB1, mandatory, dash, mandatory),
      (0xBE, optional, optional, dash)
    ] }

/-- std/objects_scsl.py:93-98 -/
def scsl_0009 : StdEntry :=
  { key := (0x00, 0x09), group := 0x00, cls := 0x09
    props := [
      (0x80, mandatory, optional, mandatory),
      (0xB0, optional, optional, dash),
      (0xB1, mandatory, dash, mandatory),
      (0xBE, optional, optional, dash)
    ] }

/-- std/objects_scsl.py:101-105 -/
def scsl_000A : StdEntry :=
  { key := (0x00, 0x0A), group := 0x00, cls := 0x0A
    props := [
      (0x80, mandatory, optional, mandatory),
      (0xB0, optional, optional, dash),
      (0xB1, mandatory, dash, mandatory)
    ] }

/-- std/objects_scsl.py:108-112 -/
def scsl_000B : StdEntry :=
  { key := (0x00, 0x0B), group := 0x00, cls := 0x0B
    props := [
      (0x80, mandatory, optional, mandatory),
      (0xB0, optional, optional, dash),
      (0xB1, mandatory, dash, mandatory)
    ] }

/-- std/objects_scsl.py:115-118 -/
def scsl_000C : StdEntry :=
  { key := (0x00, 0x0C), group := 0x00, cls := 0x0C
    props := [
      (0x80, mandatory, optional, mandatory),
      (0xE0, mandatory, dash, dash)
    ] }

/-- std/objects_scsl.py:121-125 -/
def scsl_000D : StdEntry :=
  { key := (0x00, 0x0D), group := 0x00, cls := 0x0D
    props := [
      (0x80, mandatory, optional, mandatory),
      (0xE0, mandatory, dash, dash),
      (0xE1, mandatory, dash, dash)
    ] }

/-- std/objects_scsl.py:128-133 -/
def scsl_000E : StdEntry :=
  { key := (0x00, 0x0E), group := 0x00, cls := 0x0E
    props := [
      (0x80, mandatory, optional, mandatory),
      (0xB0, optional, optional, dash),
      (0xB1, mandatory, dash, mandatory),
      (0xBE, optional, optional, dash)
    ] }

/-- std/objects_scsl.py:136-140 -/
def scsl_000F : StdEntry :=
  { key := (0x00, 0x0F), group := 0x00, cls := 0x0F
    props := [
      (0x80, mandatory, optional, mandatory),
      (0xB0, optional, optional, dash),
      (0xB1, mandatory, dash, mandatory)
    ] }

/-- std/objects_scsl.py:143-147 -/
def scsl_0010 : StdEntry :=
  { key := (0x00, 0x10), group := 0x00, cls := 0x10
    props := [
      (0x80, mandatory, optional, mandatory),
      (0xB0, optional, optional, dash),
      (0xB1, mandatory, dash, mandatory)
    ] }

/-- std/objects_scsl.py:150-153 -/
def scsl_0011 : StdEntry :=
  { key := (0x00, 0x11), group := 0x00, cls := 0x11
    props := [
      (0x80, mandatory, optional, mandatory),
      (0xE0, mandatory, dash, dash)
    ] }

/-- std/objects_scsl.py:156-159 -/
def scsl_0012 : StdEntry :=
  { key := (0x00, 0x12), group := 0x00, cls := 0x12
    props := [
      (0x80, mandatory, optional, mandatory),
      (0xE0, mandatory, dash, dash)
    ] }

/-- std/objects_scsl.py:162-166 -/
def scsl_0013 : StdEntry :=
  { key := (0x00, 0x13), group := 0x00, cls := 0x13
    props := [
      (0x80, mandatory, optional, mandatory),
      (0xB0, optional, optional, dash),
      (0xB1, mandatory, dash, mandatory)
    ] }

/-- std/objects_scsl.py:169-174 -/
def scsl_0014 : StdEntry :=
  { key := (0x00, 0x14), group := 0x00, cls := 0x14
    props := [
      (0x80, mandatory, optional, mandatory),
      (0xB0, optional, dash, dash),
      (0xB1, optional, dash, mandatory),
      (0xE0, mandatory, dash, dash)
    ] }

/-- std/objects_scsl.py:177-182 -/
def scsl_0015 : StdEntry :=
  { key := (0x00, 0x15), group := 0x00, cls := 0x15
    props := [
      (0x80, mandatory, optional, mandatory),
      (0xB0, optional, dash, dash),
      (0xB1, optional, dash, mandatory),
      (0xE0, mandatory, dash, dash)
    ] }

/-- std/objects_scsl.py:185-189 -/
def scsl_0016 : StdEntry :=
  { key := (0x00, 0x16), group := 0x00, cls := 0x16
    props := [
      (0x80, mandatory, optional, mandatory),
      (0xB0, optional, optional, dash),
      (0xB1, mandatory, dash, mandatory)
    ] }

/-- std/objects_scsl.py:192-196 -/
def scsl_0017 : StdEntry :=
  { key := (0x00, 0x17), group := 0x00, cls := 0x17
    props := [
      (0x80, mandatory, optional, mandatory),
      (0xB0, optional, optional, dash),
      (0xB1, mandatory, dash, mandatory)
    ] }

/-- std/objects_scsl.py:199-203 -/
def scsl_0018 : StdEntry :=
  { key := (0x00, 0x18), group := 0x00, cls := 0x18
    props := [
      (0x80, mandatory, optional, mandatory),
      (0xB0, optional, optional, dash),
      (0xB1, mandatory, dash, mandatory)
    ] }

/-- std/objects_scsl.py:206-211 -/
def scsl_0019 : StdEntry :=
  { key := (0x00, 0x19), group := 0x00, cls := 0x19
    props := [
      (0x80, mandatory, optional, mandatory),
      (0xB0, optional, optional, dash),
      (0xB1, mandatory, dash, mandatory),
      (0xBF, dash, optional, dash)
    ] }

/-- std/objects_scsl.py:214-218 -/
def scsl_001A : StdEntry :=
  { key := (0x00, 0x1A), group := 0x00, cls := 0x1A
    props := [
      (0x80, mandatory, optional, mandatory),
      (0xB0, optional, optional, dash),
      (0xB1, mandatory, dash, mandatory)
    ] }

/-- std/objects_scsl.py:221-224 -/
def scsl_001B : StdEntry :=
  { key := (0x00, 0x1B), group := 0x00, cls := 0x1B
    props := [
      (0x80, mandatory, optional, mandatory),
      (0xE0, mandatory, dash, dash)
    ] }

/-- std/objects_scsl.py:227-232 -/
def scsl_001C : StdEntry :=
  { key := (0x00, 0x1C), group := 0x00, cls := 0x1C
    props := [
      (0x80, mandatory, optional, mandatory),
      (0xB0, optional, optional, dash),
      (0xB1, optional, dash, mandatory),
      (0xE0, mandatory, dash, dash)
    ] }

/-- std/objects_scsl.py:235-240 -/
def scsl_001D : StdEntry :=
  { key := (0x00, 0x1D), group := 0x00, cls := 0x1D
    props := [
      (0x80, mandatory, optional, mandatory),
      (0xB0, optional, optional, dash),
      (0xB1, optional, dash, mandatory),
      (0xE0, mandatory, dash, dash)
    ] }

/-- std/objects_scsl.py:243-246 -/
def scsl_001E : StdEntry :=
  { key := (0x00, 0x1E), group := 0x00, cls := 0x1E
    props := [
      (0x80, mandatory, optional, mandatory),
      (0xE0, mandatory, dash, dash)
    ] }

/-- std/objects_scsl.py:249-253 -/
def scsl_001F : StdEntry :=
  { key := (0x00, 0x1F), group := 0x00, cls := 0x1F
    props := [
      (0x80, mandatory, optional, mandatory),
      (0xE0, mandatory, dash, dash),
      (0xE1, optional, dash, dash)
    ] }

/-- std/objects_scsl.py:256-261 -/
def scsl_0020 : StdEntry :=
  { key := (0x00, 0x20), group := 0x00, cls := 0x20
    props := [
      (0x80, mandatory, optional, mandatory),
      (0xB0, optional, optional, dash),
      (0xB1, optional, dash, dash),
      (0xE0, mandatory, dash, dash)
    ] }

/-- std/objects_scsl.py:264-269 -/
def scsl_0021 : StdEntry :=
  { key := (0x00, 0x21), group := 0x00, cls := 0x21
    props := [
      (0x80, mandatory, optional, mandatory),
      (0xB0, optional, optional, dash),
      (0xB1, mandatory, dash, mandatory),
      (0xBF, dash, optional, dash)
    ] }

/-- std/objects_scsl.py:272-280 -/
def scsl_0022 : StdEntry :=
  { key := (0x00, 0x22), group := 0x00, cls := 0x22
    props := [
      (0x80, mandatory, optional, mandatory),
      (0xE0, mandatory, dash, dash),
      (0xE1, optional, dash, dash),
      (0xE2, optional, dash, dash),
      (0xE3, optional, dash, dash),
      (0xE4, optional, dash, dash),
      (0xE5, optional, dash, dash)
    ] }

/-- std/objects_scsl.py:283-288 -/
def scsl_0023 : StdEntry :=
  { key := (0x00, 0x23), group := 0x00, cls := 0x23
    props := [
      (0x80, mandatory, optional, mandatory),
      (0xE0, mandatory, dash, dash),
      (0xE1, optional, dash, dash),
      (0xE2, mandatory, dash, dash)
    ] }

/-- std/objects_scsl.py:291-295 -/
def scsl_0025 : StdEntry :=
  { key := (0x00, 0x25), group := 0x00, cls := 0x25
    props := [
      (0x80, mandatory, optional, mandatory),
      (0xE0, optional, dash, dash),
      (0xE2, mandatory, dash, dash)
    ] }

/-- std/objects_scsl.py:298-305 -/
def scsl_0026 : StdEntry :=
  { key := (0x00, 0x26), group := 0x00, cls := 0x26
    props := [
      (0x80, mandatory, optional, mandatory),
      (0xB0, optional, optional, dash),
      (0xB1, mandatory, dash, mandatory),
      (0xB2, optional, optional, dash),
      (0xBC, optional, optional, dash),
      (0xBD, optional, optional, dash)
    ] }

/-- std/objects_scsl.py:308-313 -/
def scsl_0027 : StdEntry :=
  { key := (0x00, 0x27), group := 0x00, cls := 0x27
    props := [
      (0x80, mandatory, optional, mandatory),
      (0xB0, optional, optional, dash),
      (0xBE, optional, optional, dash),
      (0xE0, mandatory, dash, mandatory)
    ] }

/-- std/objects_scsl.py:316-320 -/
def scsl_0028 : StdEntry :=
  { key := (0x00, 0x28), group := 0x00, cls := 0x28
    props := [
      (0x80, mandatory, optional, mandatory),
      (0xB0, optional, optional, dash),
      (0xB1, mandatory, dash, mandatory)
    ] }

/-- std/objects_scsl.py:323-328 -/
def scsl_0029 : StdEntry :=
  { key := (0x00, 0x29), group := 0x00, cls := 0x29
    props := [
      (0x80, mandatory, optional, mandatory),
      (0xE0, mandatory, dash, dash),
      (0xB0, optional, optional, dash),
      (0xB1, mandatory, dash, mandatory)
    ] }

/-- std/objects_scsl.py:331-337 -/
def scsl_002A : StdEntry :=
  { key := (0x00, 0x2A), group := 0x00, cls := 0x2A
    props := [
      (0x80, mandatory, optional, mandatory),
      (0xE0, mandatory, dash, dash),
      (0xE1, optional, dash, dash),
      (0xE2, mandatory, dash, dash),
      (0xE3, optional, dash, dash)
    ] }

/-- std/objects_scsl.py:340-346 -/
def scsl_002B : StdEntry :=
  { key := (0x00, 0x2B), group := 0x00, cls := 0x2B
    props := [
      (0x80, mandatory, optional, mandatory),
      (0xE0, mandatory, dash, dash),
      (0xE1, optional, dash, dash),
      (0xE2, mandatory, dash, dash),
      (0xE3, optional, dash, dash)
    ] }

/-- std/objects_scsl.py:349-353 -/
def scsl_002C : StdEntry :=
  { key := (0x00, 0x2C), group := 0x00, cls := 0x2C
    props := [
      (0x80, mandatory, optional, mandatory),
      (0xB0, optional, optional, dash),
      (0xB1, mandatory, dash, mandatory)
    ] }

/-- std/objects_scsl.py:356-401 -/
def scsl_0130 : StdEntry :=
  { key := (0x01, 0x30), group := 0x01, cls := 0x30
    props := [
      (0x80, mandatory, mandatory, mandatory),
      (0xB0, mandatory, mandatory, mandatory),
      (0xB1, optional, optional, dash),
      (0xB2, optional, optional, dash),
      (0xB3, mandatory, mandatory, dash),
      (0xB4, optional, optional, dash),
      (0xB5, optional, optional, dash),
      (0xB6, optional, optional, dash),
      (0xB7, optional, optional, dash),
      (0xB8, optional, dash, dash),
      (0xB9, optional, dash, dash),
      (0xBA, optional, dash, dash),
      (0xBB, optional, dash, dash),
      (0xBC, optional, dash, dash),
      (0xBD, optional, dash, dash),
      (0xBE, optional, dash, dash),
      (0xBF, optional, optional, dash),
      (0xA0, optional, optional, dash),
      (0xA1, optional, optional, dash),
      (0xA3, optional, optional, dash),
      (0xA4, optional, optional, dash),
      (0xA5, optional, optional, dash),
      (0xAA, optional, dash, dash),
      (0xAB, optional, dash, dash),
      (0xC0, optional, optional, dash),
      (0xC1, optional, optional, dash),
      (0xC2, optional, optional, dash),
      (0xC4, optional, optional, dash),
      (0xC6, optional, dash, dash),
      (0xC7, optional, optional, dash),
      (0xC8, optional, dash, dash),
      (0xC9, optional, optional, dash),
      (0xCA, optional, dash, dash),
      (0xCB, optional, optional, dash),
      (0xCC, optional, optional, dash),
      (0xCD, optional, dash, dash),
      (0xCE, dash, optional, dash),
      (0xCF, optional, optional, dash),
      (0x90, optional, optional, dash),
      (0x91, optional, optional, dash),
      (0x92, optional, optional, dash),
      (0x94, optional, optional, dash),
      (0x95, optional, optional, dash),
      (0x96, optional, optional, dash)
    ] }

/-- std/objects_scsl.py:404-408 -/
def scsl_0133 : StdEntry :=
  { key := (0x01, 0x33), group := 0x01, cls := 0x33
    props := [
      (0x80, mandatory, mandatory, mandatory),
      (0xBF, optional, optional, dash),
      (0xA0, optional, optional, dash)
    ] }

/-- std/objects_scsl.py:411-420 -/
def scsl_0134 : StdEntry :=
  { key := (0x01, 0x34), group := 0x01, cls := 0x34
    props := [
      (0x80, mandatory, mandatory, mandatory),
      (0xB4, optional, optional, dash),
      (0xBF, optional, optional, dash),
      (0xBA, optional, dash, dash),
      (0xA0, optional, optional, dash),
      (0xE0, optional, optional, dash),
      (0xC0, optional, dash, dash),
      (0xC1, optional, dash, dash)
    ] }

/-- std/objects_scsl.py:423-430 -/
def scsl_0135 : StdEntry :=
  { key := (0x01, 0x35), group := 0x01, cls := 0x35
    props := [
      (0x80, mandatory, mandatory, mandatory),
      (0xE1, optional, dash, dash),
      (0xA0, optional, optional, dash),
      (0xC1, optional, dash, dash),
      (0xC2, optional, optional, dash),
      (0xC0, optional, dash, dash)
    ] }

/-- std/objects_scsl.py:433-444 -/
def scsl_0139 : StdEntry :=
  { key := (0x01, 0x39), group := 0x01, cls := 0x39
    props := [
      (0x80, mandatory, mandatory, mandatory),
      (0xC0, mandatory, mandatory, dash),
      (0xC1, mandatory, mandatory, dash),
      (0xB4, optional, dash, dash),
      (0x94, optional, optional, dash),
      (0x96, optional, optional, dash),
      (0xC2, optional, optional, dash),
      (0xC3, optional, dash, dash),
      (0xC4, optional, optional, dash),
      (0xC5, optional, dash, dash)
    ] }

/-- std/objects_scsl.py:447-460 -/
def scsl_0142 : StdEntry :=
  { key := (0x01, 0x42), group := 0x01, cls := 0x42
    props := [
      (0x80, mandatory, optional, mandatory),
      (0xB1, optional, optional, dash),
      (0xB3, mandatory, mandatory, dash),
      (0xBB, optional, dash, dash),
      (0xBC, optional, dash, dash),
      (0xA0, optional, optional, dash),
      (0x90, optional, optional, dash),
      (0x91, optional, optional, dash),
      (0x92, optional, optional, dash),
      (0x94, optional, optional, dash),
      (0x95, optional, optional, dash),
      (0x96, optional, optional, dash)
    ] }

/-- std/objects_scsl.py:463-479 -/
def scsl_0143 : StdEntry :=
  { key := (0x01, 0x43), group := 0x01, cls := 0x43
    props := [
      (0x80, mandatory, mandatory, mandatory),
      (0xB3, mandatory, mandatory, dash),
      (0xBB, optional, dash, dash),
      (0xB1, optional, optional, dash),
      (0x90, optional, optional, dash),
      (0x91, optional, optional, dash),
      (0x92, optional, optional, dash),
      (0x94, optional, optional, dash),
      (0x95, optional, optional, dash),
      (0x96, optional, optional, dash),
      (0xC0, optional, optional, dash),
      (0xC1, optional, optional, dash),
      (0xC2, optional, optional, dash),
      (0xC3, optional, dash, dash),
      (0xC4, optional, dash, dash)
    ] }

/-- std/objects_scsl.py:482-522 -/
def scsl_0145 : StdEntry :=
  { key := (0x01, 0x45), group := 0x01, cls := 0x45
    props := [
      (0x80, mandatory, mandatory, mandatory),
      (0xB0, mandatory, mandatory, mandatory),
      (0xB3, mandatory, mandatory, mandatory),
      (0xB4, optional, optional, mandatory),
      (0xB5, optional, optional, dash),
      (0xB6, optional, optional, dash),
      (0xB7, optional, optional, dash),
      (0xB8, optional, dash, dash),
      (0xB9, optional, dash, dash),
      (0xBA, optional, dash, dash),
      (0xBB, optional, dash, dash),
      (0xBF, optional, optional, dash),
      (0xA0, optional, optional, dash),
      (0xA4, optional, optional, dash),
      (0xA5, optional, optional, dash),
      (0xAA, optional, dash, dash),
      (0xAC, optional, dash, dash),
      (0xAE, optional, dash, mandatory),
      (0xC0, optional, optional, dash),
      (0xC1, optional, optional, dash),
      (0xC2, optional, optional, dash),
      (0xCD, optional, optional, dash),
      (0xCE, optional, optional, dash),
      (0xCF, optional, optional, mandatory),
      (0xDB, optional, dash, dash),
      (0xDC, optional, dash, dash),
      (0xE3, mandatory, mandatory, mandatory),
      (0xE4, optional, optional, mandatory),
      (0xE5, optional, optional, dash),
      (0xE6, optional, optional, dash),
      (0xE7, optional, optional, dash),
      (0xEA, optional, dash, dash),
      (0xEB, optional, dash, dash),
      (0x90, optional, optional, dash),
      (0x91, optional, optional, dash),
      (0x92, optional, optional, dash),
      (0x94, optional, optional, dash),
      (0x95, optional, optional, dash),
      (0x96, optional, optional, dash)
    ] }

/-- std/objects_scsl.py:525-537 -/
def scsl_0146 : StdEntry :=
  { key := (0x01, 0x46), group := 0x01, cls := 0x46
    props := [
      (0x80, mandatory, optional, mandatory),
      (0xB0, optional, optional, mandatory),
      (0xB8, optional, dash, dash),
      (0xB9, optional, dash, dash),
      (0xBE, optional, dash, dash),
      (0xAA, optional, dash, dash),
      (0xD0, optional, dash, dash),
      (0xD1, mandatory, dash, dash),
      (0xD2, optional, dash, dash),
      (0xDB, optional, dash, dash),
      (0xEE, optional, dash, dash)
    ] }

/-- std/objects_scsl.py:540-546 -/
def scsl_0260 : StdEntry :=
  { key := (0x02, 0x60), group := 0x02, cls := 0x60
    props := [
      (0x80, mandatory, optional, mandatory),
      (0xE0, mandatory, mandatory, mandatory),
      (0xE1, mandatory, mandatory, dash),
      (0xE2, optional, optional, dash),
      (0xE3, optional, optional, dash)
    ] }

/-- std/objects_scsl.py:549-558 -/
def scsl_0261 : StdEntry :=
  { key := (0x02, 0x61), group := 0x02, cls := 0x61
    props := [
      (0x80, mandatory, optional, mandatory),
      (0xE0, mandatory, mandatory, mandatory),
      (0xE1, optional, optional, dash),
      (0xE2, optional, optional, dash),
      (0xE3, optional, optional, dash),
      (0xE4, optional, optional, dash),
      (0xE5, optional, optional, dash),
      (0xE7, mandatory, mandatory, mandatory)
    ] }

/-- std/objects_scsl.py:561-570 -/
def scsl_0263 : StdEntry :=
  { key := (0x02, 0x63), group := 0x02, cls := 0x63
    props := [
      (0x80, mandatory, optional, mandatory),
      (0xE0, mandatory, mandatory, mandatory),
      (0xE1, optional, optional, dash),
      (0xE2, optional, optional, dash),
      (0xE3, optional, optional, dash),
      (0xE4, optional, optional, dash),
      (0xE5, mandatory, mandatory, mandatory),
      (0xE7, optional, optional, mandatory)
    ] }

/-- std/objects_scsl.py:573-581 -/
def scsl_0267 : StdEntry :=
  { key := (0x02, 0x67), group := 0x02, cls := 0x67
    props := [
      (0x80, mandatory, optional, mandatory),
      (0xE0, mandatory, mandatory, dash),
      (0xE1, optional, optional, dash),
      (0xE2, optional, optional, dash),
      (0xE3, optional, optional, dash),
      (0xE4, optional, optional, dash),
      (0xE5, optional, optional, dash)
    ] }

/-- std/objects_scsl.py:584-611 -/
def scsl_026B : StdEntry :=
  { key := (0x02, 0x6B), group := 0x02, cls := 0x6B
    props := [
      (0x80, mandatory, optional, mandatory),
      (0xB0, mandatory, mandatory, dash),
      (0xB1, optional, optional, dash),
      (0xB2, optional, dash, dash),
      (0xB3, mandatory, mandatory, dash),
      (0xC0, optional, optional, dash),
      (0xC1, optional, dash, dash),
      (0xC2, optional, dash, mandatory),
      (0xD1, optional, optional, dash),
      (0xD3, optional, optional, dash),
      (0xE0, optional, optional, dash),
      (0xE1, optional, dash, dash),
      (0xE2, optional, dash, dash),
      (0xE3, mandatory, mandatory, dash),
      (0xE5, optional, optional, dash),
      (0xE6, optional, optional, dash),
      (0xE7, optional, optional, dash),
      (0xE8, optional, optional, dash),
      (0xEE, optional, optional, dash),
      (0xD4, optional, optional, dash),
      (0xD5, optional, dash, dash),
      (0x90, optional, optional, dash),
      (0x91, optional, optional, dash),
      (0xDB, optional, dash, dash),
      (0xDC, optional, dash, dash),
      (0xDD, optional, dash, dash)
    ] }

/-- std/objects_scsl.py:614-629 -/
def scsl_026E : StdEntry :=
  { key := (0x02, 0x6E), group := 0x02, cls := 0x6E
    props := [
      (0x80, mandatory, optional, mandatory),
      (0xE0, optional, optional, dash),
      (0xE1, mandatory, mandatory, dash),
      (0xE2, optional, optional, dash),
      (0xE3, optional, optional, dash),
      (0xE4, optional, optional, dash),
      (0xE5, optional, optional, dash),
      (0xE6, optional, optional, dash),
      (0xE7, optional, dash, dash),
      (0xE8, optional, optional, dash),
      (0xE9, optional, optional, dash),
      (0xEA, optional, optional, dash),
      (0xEB, optional, dash, dash),
      (0xEC, optional, dash, dash)
    ] }

/-- std/objects_scsl.py:632-641 -/
def scsl_026F : StdEntry :=
  { key := (0x02, 0x6F), group := 0x02, cls := 0x6F
    props := [
      (0x80, mandatory, optional, mandatory),
      (0xE0, mandatory, mandatory, mandatory),
      (0xE1, optional, optional, dash),
      (0xE2, optional, dash, dash),
      (0xE3, optional, dash, dash),
      (0xE4, optional, dash, dash),
      (0xE5, optional, dash, mandatory),
      (0xE6, optional, optional, dash)
    ] }

/-- std/objects_scsl.py:644-668 -/
def scsl_0272 : StdEntry :=
  { key := (0x02, 0x72), group := 0x02, cls := 0x72
    props := [
      (0x80, mandatory, optional, mandatory),
      (0xD0, mandatory, dash, dash),
      (0xD1, optional, optional, dash),
      (0xD2, optional, optional, dash),
      (0xDA, optional, optional, dash),
      (0xDB, optional, dash, dash),
      (0xE1, optional, optional, dash),
      (0xE2, mandatory, dash, dash),
      (0xE3, mandatory, mandatory, dash),
      (0xE4, optional, optional, dash),
      (0xE5, optional, optional, dash),
      (0xE6, optional, optional, dash),
      (0xE7, optional, optional, dash),
      (0xE8, optional, optional, dash),
      (0xEE, optional, optional, dash),
      (0xE9, optional, optional, dash),
      (0xEA, optional, dash, dash),
      (0xEB, optional, dash, dash),
      (0xEC, optional, optional, dash),
      (0xED, optional, optional, dash),
      (0x90, optional, optional, dash),
      (0x91, optional, optional, dash),
      (0x92, optional, optional, dash)
    ] }

/-- std/objects_scsl.py:671-691 -/
def scsl_0273 : StdEntry :=
  { key := (0x02, 0x73), group := 0x02, cls := 0x73
    props := [
      (0x80, mandatory, optional, mandatory),
      (0xB0, mandatory, mandatory, dash),
      (0xB1, optional, optional, dash),
      (0xB2, mandatory, mandatory, dash),
      (0xB3, optional, optional, dash),
      (0xB4, mandatory, mandatory, dash),
      (0xB5, optional, optional, dash),
      (0xBA, optional, dash, dash),
      (0xBB, optional, dash, dash),
      (0xC2, optional, optional, dash),
      (0xCF, optional, optional, dash),
      (0xE0, optional, dash, dash),
      (0x90, optional, optional, dash),
      (0xE1, optional, optional, dash),
      (0x91, optional, optional, dash),
      (0x92, optional, optional, dash),
      (0x94, optional, optional, dash),
      (0x95, optional, optional, dash),
      (0x96, optional, optional, dash)
    ] }

/-- std/objects_scsl.py:694-707 -/
def scsl_0279 : StdEntry :=
  { key := (0x02, 0x79), group := 0x02, cls := 0x79
    props := [
      (0x80, mandatory, optional, mandatory),
      (0xD0, optional, dash, dash),
      (0xE0, mandatory, dash, dash),
      (0xE1, mandatory, dash, dash),
      (0xE2, dash, optional, dash),
      (0xE3, optional, dash, dash),
      (0xE4, dash, optional, dash),
      (0xE5, optional, optional, dash),
      (0xE6, optional, optional, dash),
      (0xE7, optional, optional, dash),
      (0xE8, optional, optional, dash),
      (0xE9, optional, optional, dash)
    ] }

/-- std/objects_scsl.py:710-727 -/
def scsl_027A : StdEntry :=
  { key := (0x02, 0x7A), group := 0x02, cls := 0x7A
    props := [
      (0x80, mandatory, optional, mandatory),
      (0xE0, optional, optional, dash),
      (0xE1, mandatory, mandatory, dash),
      (0xE2, mandatory, mandatory, dash),
      (0xE3, optional, dash, dash),
      (0xE4, optional, dash, dash),
      (0xE5, optional, optional, dash),
      (0xE6, optional, optional, dash),
      (0xE7, optional, optional, dash),
      (0xE8, optional, optional, dash),
      (0x90, optional, optional, dash),
      (0x91, optional, optional, dash),
      (0x92, optional, optional, dash),
      (0x94, optional, optional, dash),
      (0x95, optional, optional, dash),
      (0x96, optional, optional, dash)
    ] }

/-- std/objects_scsl.py:730-747 -/
def scsl_027B : StdEntry :=
  { key := (0x02, 0x7B), group := 0x02, cls := 0x7B
    props := [
      (0x80, mandatory, mandatory, mandatory),
      (0xE0, mandatory, mandatory, dash),
      (0xE1, mandatory, mandatory, dash),
      (0xE2, optional, dash, dash),
      (0xE3, optional, dash, dash),
      (0xE4, optional, optional, dash),
      (0xE5, optional, optional, dash),
      (0xE6, optional, optional, dash),
      (0xE7, optional, optional, dash),
      (0xE8, optional, optional, dash),
      (0x90, optional, optional, dash),
      (0x91, optional, optional, dash),
      (0x92, optional, optional, dash),
      (0x94, optional, optional, dash),
      (0x95, optional, optional, dash),
      (0x96, optional, optional, dash)
    ] }

/-- std/objects_scsl.py:750-769 -/
def scsl_027C : StdEntry :=
  { key := (0x02, 0x7C), group := 0x02, cls := 0x7C
    props := [
      (0x80, mandatory, optional, mandatory),
      (0xC1, optional, dash, dash),
      (0xC2, optional, dash, dash),
      (0xC3, optional, dash, dash),
      (0xC4, mandatory, dash, dash),
      (0xC5, mandatory, dash, dash),
      (0xC6, dash, optional, dash),
      (0xC7, optional, dash, dash),
      (0xC8, optional, dash, dash),
      (0xC9, dash, optional, dash),
      (0xCA, dash, optional, dash),
      (0xCB, optional, dash, dash),
      (0xCC, optional, dash, dash),
      (0xCD, optional, dash, dash),
      (0xCE, dash, optional, dash),
      (0xD0, optional, dash, dash),
      (0xE1, optional, dash, dash),
      (0xE2, optional, dash, dash)
    ] }

/-- std/objects_scsl.py:772-811 -/
def scsl_027D : StdEntry :=
  { key := (0x02, 0x7D), group := 0x02, cls := 0x7D
    props := [
      (0x80, mandatory, optional, mandatory),
      (0xC8, optional, dash, dash),
      (0xC9, optional, dash, dash),
      (0xCA, optional, dash, dash),
      (0xCB, optional, dash, dash),
      (0xCF, empty, empty, empty),
      (0xD0, optional, dash, dash),
      (0xD1, optional, dash, dash),
      (0xD2, optional, dash, dash),
      (0xD3, optional, dash, dash),
      (0xD4, optional, dash, dash),
      (0xD5, optional, dash, dash),
      (0xD6, optional, dash, dash),
      (0xD7, dash, optional, dash),
      (0xD8, optional, dash, dash),
      (0xD9, dash, optional, dash),
      (0xDA, mandatory, mandatory, mandatory),
      (0xDB, optional, dash, dash),
      (0xDC, optional, dash, dash),
      (0xDD, optional, dash, dash),
      (0xDE, optional, dash, dash),
      (0xDF, optional, dash, dash),
      (0xE0, optional, optional, dash),
      (0xE1, optional, optional, dash),
      (0xE2, mandatory, dash, dash),
      (0xE3, mandatory, dash, dash),
      (0xE4, mandatory, dash, dash),
      (0xE5, optional, dash, dash),
      (0xE6, mandatory, dash, dash),
      (0xE7, optional, optional, dash),
      (0xE8, optional, optional, dash),
      (0xE9, optional, optional, dash),
      (0xEA, optional, optional, dash),
      (0xEB, optional, optional, dash),
      (0xEC, optional, optional, dash),
      (0xED, optional, optional, dash),
      (0xEE, optional, optional, dash),
      (0xEF, optional, dash, dash)
    ] }

/-- std/objects_scsl.py:814-852 -/
def scsl_027E : StdEntry :=
  { key := (0x02, 0x7E), group := 0x02, cls := 0x7E
    props := [
      (0x80, mandatory, optional, mandatory),
      (0xC0, mandatory, dash, dash),
      (0xC1, mandatory, dash, dash),
      (0xC2, mandatory, dash, dash),
      (0xC3, mandatory, dash, dash),
      (0xC4, mandatory, dash, dash),
      (0xC5, mandatory, dash, dash),
      (0xC6, mandatory, dash, dash),
      (0xC7, mandatory, dash, mandatory),
      (0xC8, optional, dash, dash),
      (0xC9, optional, dash, dash),
      (0xCA, optional, dash, dash),
      (0xCB, optional, dash, dash),
      (0xD0, mandatory, dash, dash),
      (0xD1, mandatory, dash, dash),
      (0xD2, optional, dash, dash),
      (0xD3, optional, dash, dash),
      (0xD4, optional, dash, dash),
      (0xD5, optional, dash, dash),
      (0xD6, optional, dash, dash),
      (0xD7, optional, optional, dash),
      (0xD8, optional, dash, dash),
      (0xD9, optional, optional, dash),
      (0xDA, mandatory, mandatory, mandatory),
      (0xDB, optional, dash, dash),
      (0xE2, mandatory, dash, dash),
      (0xE3, mandatory, dash, dash),
      (0xE4, mandatory, dash, dash),
      (0xE5, optional, dash, dash),
      (0xE7, optional, optional, dash),
      (0xE8, optional, optional, dash),
      (0xE9, optional, optional, dash),
      (0xEA, optional, optional, dash),
      (0xEB, optional, optional, dash),
      (0xEC, optional, optional, dash),
      (0xED, optional, optional, dash),
      (0xEE, optional, optional, dash)
    ] }

/-- std/objects_scsl.py:855-874 -/
def scsl_027F : StdEntry :=
  { key := (0x02, 0x7F), group := 0x02, cls := 0x7F
    props := [
      (0x80, mandatory, optional, mandatory),
      (0xC1, optional, dash, dash),
      (0xC2, optional, dash, dash),
      (0xC3, optional, dash, dash),
      (0xC4, mandatory, dash, dash),
      (0xC5, mandatory, dash, dash),
      (0xC6, dash, optional, dash),
      (0xC7, optional, dash, dash),
      (0xC8, optional, dash, dash),
      (0xC9, dash, optional, dash),
      (0xCA, dash, optional, dash),
      (0xCB, optional, dash, dash),
      (0xCC, optional, dash, dash),
      (0xCD, optional, dash, dash),
      (0xCE, dash, optional, dash),
      (0xD0, optional, dash, dash),
      (0xE1, optional, dash, dash),
      (0xE2, optional, dash, dash)
    ] }

/-- std/objects_scsl.py:877-883 -/
def scsl_0280 : StdEntry :=
  { key := (0x02, 0x80), group := 0x02, cls := 0x80
    props := [
      (0x80, mandatory, optional, mandatory),
      (0xE0, mandatory, dash, dash),
      (0xE2, mandatory, dash, dash),
      (0xE3, optional, dash, dash),
      (0xE4, optional, dash, dash)
    ] }

/-- std/objects_scsl.py:886-897 -/
def scsl_0281 : StdEntry :=
  { key := (0x02, 0x81), group := 0x02, cls := 0x81
    props := [
      (0x80, mandatory, optional, mandatory),
      (0xD0, optional, optional, dash),
      (0xD1, optional, optional, dash),
      (0xE0, mandatory, dash, dash),
      (0xE1, mandatory, dash, dash),
      (0xE2, optional, dash, dash),
      (0xE3, optional, dash, mandatory),
      (0xE4, optional, dash, dash),
      (0xE5, optional, optional, dash),
      (0xE6, optional, optional, dash)
    ] }

/-- std/objects_scsl.py:900-904 -/
def scsl_0282 : StdEntry :=
  { key := (0x02, 0x82), group := 0x02, cls := 0x82
    props := [
      (0x80, mandatory, optional, mandatory),
      (0xE0, mandatory, dash, dash),
      (0xE2, optional, dash, dash)
    ] }

/-- std/objects_scsl.py:907-933 -/
def scsl_0283 : StdEntry :=
  { key := (0x02, 0x83), group := 0x02, cls := 0x83
    props := [
      (0x80, mandatory, optional, mandatory),
      (0xE0, mandatory, dash, dash),
      (0xE1, mandatory, dash, dash),
      (0xE2, optional, dash, mandatory),
      (0xE3, optional, dash, dash),
      (0xE4, optional, dash, dash),
      (0xE5, optional, dash, mandatory),
      (0xE6, optional, dash, dash),
      (0xE7, optional, dash, dash),
      (0xE8, optional, dash, dash),
      (0xE9, optional, dash, mandatory),
      (0xEA, optional, optional, dash),
      (0xEB, optional, optional, dash),
      (0xEC, optional, optional, dash),
      (0xED, optional, dash, dash),
      (0xEE, optional, dash, dash),
      (0xEF, optional, dash, dash),
      (0xD0, optional, dash, dash),
      (0xD1, optional, dash, dash),
      (0xD2, optional, dash, dash),
      (0xD3, optional, dash, dash),
      (0xD4, optional, dash, dash),
      (0xD5, optional, dash, dash),
      (0xD6, optional, dash, dash),
      (0xD7, optional, optional, dash)
    ] }

/-- std/objects_scsl.py:936-994 -/
def scsl_0287 : StdEntry :=
  { key := (0x02, 0x87), group := 0x02, cls := 0x87
    props := [
      (0x80, mandatory, optional, mandatory),
      (0xB0, optional, dash, dash),
      (0xB1, optional, dash, dash),
      (0xB2, optional, optional, dash),
      (0xB3, optional, dash, dash),
      (0xB4, optional, optional, dash),
      (0xB5, optional, dash, dash),
      (0xB6, optional, optional, dash),
      (0xB7, optional, dash, dash),
      (0xB8, optional, dash, dash),
      (0xB9, optional, optional, dash),
      (0xBA, optional, dash, dash),
      (0xBB, optional, optional, dash),
      (0xBC, optional, dash, dash),
      (0xBD, optional, optional, dash),
      (0xBE, optional, dash, dash),
      (0xC0, mandatory, dash, dash),
      (0xC1, mandatory, dash, dash),
      (0xC2, mandatory, dash, dash),
      (0xC3, optional, dash, dash),
      (0xC4, optional, dash, dash),
      (0xC5, optional, optional, dash),
      (0xC6, optional, dash, dash),
      (0xC7, optional, dash, dash),
      (0xC8, optional, dash, dash),
      (0xD0, optional, dash, dash),
      (0xD1, optional, dash, dash),
      (0xD2, optional, dash, dash),
      (0xD3, optional, dash, dash),
      (0xD4, optional, dash, dash),
      (0xD5, optional, dash, dash),
      (0xD6, optional, dash, dash),
      (0xD7, optional, dash, dash),
      (0xD8, optional, dash, dash),
      (0xD9, optional, dash, dash),
      (0xDA, optional, dash, dash),
      (0xDB, optional, dash, dash),
      (0xDC, optional, dash, dash),
      (0xDD, optional, dash, dash),
      (0xDE, optional, dash, dash),
      (0xDF, optional, dash, dash),
      (0xE0, optional, dash, dash),
      (0xE1, optional, dash, dash),
      (0xE2, optional, dash, dash),
      (0xE3, optional, dash, dash),
      (0xE4, optional, dash, dash),
      (0xE5, optional, dash, dash),
      (0xE6, optional, dash, dash),
      (0xE7, optional, dash, dash),
      (0xE8, optional, dash, dash),
      (0xE9, optional, dash, dash),
      (0xEA, optional, dash, dash),
      (0xEB, optional, dash, dash),
      (0xEC, optional, dash, dash),
      (0xED, optional, dash, dash),
      (0xEE, optional, dash, dash),
      (0xEF, optional, dash, dash)
    ] }

/-- std/objects_scsl.py:997-1018 -/
def scsl_0288 : StdEntry :=
  { key := (0x02, 0x88), group := 0x02, cls := 0x88
    props := [
      (0x80, mandatory, optional, mandatory),
      (0xD0, optional, optional, dash),
      (0xD1, optional, optional, dash),
      (0xD2, optional, dash, dash),
      (0xD3, optional, dash, dash),
      (0xD4, optional, dash, dash),
      (0xD5, optional, dash, dash),
      (0xD6, optional, optional, dash),
      (0xD7, mandatory, dash, dash),
      (0xE0, mandatory, dash, dash),
      (0xE1, mandatory, dash, dash),
      (0xE2, optional, dash, dash),
      (0xE3, optional, dash, dash),
      (0xE4, optional, dash, dash),
      (0xE5, optional, optional, dash),
      (0xE7, optional, dash, dash),
      (0xE8, optional, dash, dash),
      (0xE9, optional, dash, dash),
      (0xEA, mandatory, dash, dash),
      (0xEB, optional, dash, dash)
    ] }

/-- std/objects_scsl.py:1021-1040 -/
def scsl_0289 : StdEntry :=
  { key := (0x02, 0x89), group := 0x02, cls := 0x89
    props := [
      (0x80, mandatory, optional, mandatory),
      (0xE0, optional, optional, dash),
      (0xE1, optional, optional, dash),
      (0xE2, mandatory, dash, dash),
      (0xE3, optional, dash, dash),
      (0xE4, optional, dash, dash),
      (0xE5, optional, optional, dash),
      (0xE6, optional, dash, dash),
      (0xE7, optional, dash, dash),
      (0xE8, optional, dash, dash),
      (0xE9, optional, dash, dash),
      (0xEA, optional, dash, dash),
      (0xEB, optional, dash, dash),
      (0xEC, optional, dash, dash),
      (0xED, optional, optional, dash),
      (0xEE, optional, optional, dash),
      (0xD0, mandatory, dash, dash),
      (0xD1, dash, dash, dash)
    ] }

/-- std/objects_scsl.py:1043-1066 -/
def scsl_0290 : StdEntry :=
  { key := (0x02, 0x90), group := 0x02, cls := 0x90
    props := [
      (0x80, mandatory, mandatory, mandatory),
      (0xB0, optional, optional, dash),
      (0xB1, optional, optional, dash),
      (0xB2, optional, optional, dash),
      (0xB3, optional, optional, dash),
      (0xB4, optional, dash, dash),
      (0xB5, optional, dash, dash),
      (0xB6, mandatory, mandatory, dash),
      (0xB7, optional, optional, dash),
      (0xB8, optional, optional, dash),
      (0xB9, optional, optional, dash),
      (0xBA, optional, optional, dash),
      (0xBB, optional, optional, dash),
      (0xBC, optional, optional, dash),
      (0xBD, optional, optional, dash),
      (0xBE, optional, optional, dash),
      (0xBF, optional, optional, dash),
      (0xC0, optional, optional, dash),
      (0x90, optional, optional, dash),
      (0x91, optional, optional, dash),
      (0x94, optional, optional, dash),
      (0x95, optional, optional, dash)
    ] }

/-- std/objects_scsl.py:1069-1073 -/
def scsl_02A0 : StdEntry :=
  { key := (0x02, 0xA0), group := 0x02, cls := 0xA0
    props := [
      (0x80, mandatory, optional, mandatory),
      (0xB1, optional, optional, dash),
      (0xE0, optional, optional, dash)
    ] }

/-- std/objects_scsl.py:1076-1085 -/
def scsl_03B2 : StdEntry :=
  { key := (0x03, 0xB2), group := 0x03, cls := 0xB2
    props := [
      (0x80, mandatory, optional, mandatory),
      (0xB0, optional, dash, dash),
      (0xB1, optional, dash, mandatory),
      (0xB2, optional, optional, dash),
      (0xE0, optional, optional, dash),
      (0xE1, optional, optional, dash),
      (0xE2, optional, dash, mandatory),
      (0xE3, optional, dash, dash)
    ] }

/-- std/objects_scsl.py:1088-1124 -/
def scsl_03B7 : StdEntry :=
  { key := (0x03, 0xB7), group := 0x03, cls := 0xB7
    props := [
      (0x80, mandatory, optional, mandatory),
      (0xB0, mandatory, dash, dash),
      (0xB1, optional, dash, mandatory),
      (0xB2, optional, dash, dash),
      (0xB3, optional, dash, dash),
      (0xB4, optional, dash, dash),
      (0xB5, optional, dash, dash),
      (0xB6, optional, dash, dash),
      (0xE0, optional, dash, dash),
      (0xE2, optional, optional, dash),
      (0xE3, optional, optional, dash),
      (0xE4, optional, optional, dash),
      (0xE5, optional, optional, dash),
      (0xE6, optional, optional, dash),
      (0xE9, optional, optional, dash),
      (0xEA, optional, optional, dash),
      (0xEB, optional, optional, dash),
      (0xEC, optional, optional, dash),
      (0xED, optional, optional, dash),
      (0xD1, optional, dash, dash),
      (0xD2, optional, dash, dash),
      (0xD3, optional, dash, dash),
      (0xD4, optional, dash, dash),
      (0xD5, optional, dash, dash),
      (0xD8, optional, dash, dash),
      (0xDA, optional, dash, dash),
      (0xDC, optional, dash, dash),
      (0xA0, optional, optional, dash),
      (0xA1, optional, optional, dash),
      (0xA4, optional, optional, dash),
      (0xA5, optional, dash, dash),
      (0xA6, optional, dash, dash),
      (0xA8, optional, optional, dash),
      (0xA9, optional, optional, dash),
      (0xAD, optional, optional, dash)
    ] }

/-- std/objects_scsl.py:1127-1149 -/
def scsl_03B8 : StdEntry :=
  { key := (0x03, 0xB8), group := 0x03, cls := 0xB8
    props := [
      (0x80, mandatory, optional, mandatory),
      (0xB0, optional, dash, dash),
      (0xB1, optional, dash, dash),
      (0xB2, optional, optional, dash),
      (0xE0, optional, optional, dash),
      (0xE1, optional, optional, dash),
      (0xE2, optional, optional, dash),
      (0xD0, optional, optional, dash),
      (0xD1, optional, optional, dash),
      (0xD5, optional, optional, dash),
      (0xD6, optional, optional, dash),
      (0xE3, optional, optional, dash),
      (0xE4, optional, optional, dash),
      (0xE5, optional, optional, dash),
      (0xE6, optional, optional, dash),
      (0xE7, optional, optional, dash),
      (0xE8, optional, optional, dash),
      (0xE9, optional, optional, dash),
      (0xEA, dash, optional, dash),
      (0xEB, optional, optional, dash),
      (0xEC, optional, optional, dash)
    ] }

/-- std/objects_scsl.py:1152-1163 -/
def scsl_03B9 : StdEntry :=
  { key := (0x03, 0xB9), group := 0x03, cls := 0xB9
    props := [
      (0x80, mandatory, optional, mandatory),
      (0xB1, mandatory, dash, dash),
      (0xB2, optional, optional, dash),
      (0xB3, dash, mandatory, dash),
      (0xE7, optional, optional, dash),
      (0xE3, optional, optional, dash),
      (0xE0, optional, optional, dash),
      (0x96, optional, optional, dash),
      (0xA1, optional, optional, dash),
      (0xA2, optional, optional, dash)
    ] }

/-- std/objects_scsl.py:1166-1177 -/
def scsl_03BB : StdEntry :=
  { key := (0x03, 0xBB), group := 0x03, cls := 0xBB
    props := [
      (0x80, mandatory, optional, mandatory),
      (0xB0, optional, dash, dash),
      (0xB1, mandatory, dash, dash),
      (0xB2, mandatory, mandatory, dash),
      (0xE1, optional, optional, dash),
      (0xE5, optional, dash, dash),
      (0xE6, optional, dash, dash),
      (0x90, optional, optional, dash),
      (0x91, optional, optional, dash),
      (0x92, optional, optional, dash)
    ] }

/-- std/objects_scsl.py:1180-1189 -/
def scsl_03C5 : StdEntry :=
  { key := (0x03, 0xC5), group := 0x03, cls := 0xC5
    props := [
      (0x80, mandatory, optional, mandatory),
      (0xB0, optional, dash, dash),
      (0xB2, optional, optional, dash),
      (0xE1, optional, dash, dash),
      (0xE6, optional, dash, dash),
      (0x90, optional, optional, dash),
      (0x91, optional, optional, dash),
      (0x92, optional, optional, dash)
    ] }

/-- std/objects_scsl.py:1192-1201 -/
def scsl_03C6 : StdEntry :=
  { key := (0x03, 0xC6), group := 0x03, cls := 0xC6
    props := [
      (0x80, mandatory, optional, mandatory),
      (0xB0, optional, dash, dash),
      (0xB2, optional, optional, dash),
      (0xE1, optional, dash, dash),
      (0xE6, optional, dash, dash),
      (0x90, optional, optional, dash),
      (0x91, optional, optional, dash),
      (0x92, optional, optional, dash)
    ] }

/-- std/objects_scsl.py:1204-1238 -/
def scsl_03D3 : StdEntry :=
  { key := (0x03, 0xD3), group := 0x03, cls := 0xD3
    props := [
      (0x80, mandatory, optional, mandatory),
      (0xB0, optional, dash, dash),
      (0xB2, optional, optional, dash),
      (0xD0, optional, optional, dash),
      (0xD1, optional, optional, dash),
      (0xD2, optional, optional, dash),
      (0xD3, optional, dash, dash),
      (0xD4, optional, dash, dash),
      (0xD5, optional, dash, dash),
      (0xD6, optional, optional, dash),
      (0xD7, optional, optional, dash),
      (0xD8, optional, optional, dash),
      (0xDB, optional, dash, dash),
      (0xDC, optional, dash, dash),
      (0xDF, optional, dash, dash),
      (0xE1, optional, optional, dash),
      (0xE2, optional, dash, dash),
      (0xE3, optional, optional, dash),
      (0xE4, optional, optional, dash),
      (0xE5, optional, optional, dash),
      (0xE6, optional, optional, dash),
      (0xE7, optional, optional, dash),
      (0xE8, optional, optional, dash),
      (0xE9, optional, optional, dash),
      (0xEA, optional, optional, dash),
      (0xEB, optional, optional, dash),
      (0xEC, optional, optional, dash),
      (0xED, optional, dash, dash),
      (0xEE, optional, optional, dash),
      (0xEF, optional, dash, dash),
      (0x90, optional, optional, dash),
      (0x91, optional, optional, dash),
      (0x92, optional, optional, dash)
    ] }

/-- std/objects_scsl.py:1241-1245 -/
def scsl_0401 : StdEntry :=
  { key := (0x04, 0x01), group := 0x04, cls := 0x01
    props := [
      (0x80, mandatory, optional, mandatory),
      (0xE0, mandatory, dash, dash),
      (0xE1, optional, dash, dash)
    ] }

/-- std/objects_scsl.py:1248-1251 -/
def scsl_05FD : StdEntry :=
  { key := (0x05, 0xFD), group := 0x05, cls := 0xFD
    props := [
      (0x80, mandatory, mandatory, mandatory),
      (0xE0, optional, optional, dash)
    ] }

/-- std/objects_scsl.py:1254-1261 -/
def scsl_0601 : StdEntry :=
  { key := (0x06, 0x01), group := 0x06, cls := 0x01
    props := [
      (0x80, mandatory, mandatory, mandatory),
      (0xB0, optional, optional, dash),
      (0xB1, mandatory, dash, mandatory),
      (0xB2, mandatory, dash, dash),
      (0xB3, optional, mandatory, dash),
      (0xB4, mandatory, dash, dash)
    ] }

/-- std/objects_scsl.py:1264-1271 -/
def scsl_0602 : StdEntry :=
  { key := (0x06, 0x02), group := 0x06, cls := 0x02
    props := [
      (0x80, mandatory, mandatory, mandatory),
      (0xB0, optional, optional, dash),
      (0xB1, mandatory, dash, mandatory),
      (0xB2, mandatory, dash, dash),
      (0xB3, optional, mandatory, dash),
      (0xB4, mandatory, dash, dash)
    ] }

/-- std/objects_mra.py:30-60 -/
def mra_0000 : StdEntry :=
  { key := (0x00, 0x00), group := 0x00, cls := 0x00
    props := [
      (0x80, required, optional, required),
      (0x81, required, required, required),
      (0x81, required, required, required),
      (0x82, required, notApplicable, optional),
      (0x83, optional, optional, optional),
      (0x83, optional, notApplicable, optional),
      (0x84, optional, notApplicable, optional),
      (0x85, optional, notApplicable, optional),
      (0x86, optional, notApplicable, optional),
      (0x87, optional, optional, optional),
      (0x88, required, notApplicable, required),
      (0x89, optional, notApplicable, optional),
      (0x8A, required, notApplicable, optional),
      (0x8B, optional, notApplicable, optional),
      (0x8C, optional, notApplicable, optional),
      (0x8D, optional, notApplicable, optional),
      (0x8E, optional, notApplicable, optional),
      (0x8F, optional, optional, optional),
      (0x93, optional, optional, optional),
      (0x93, optional, optional, required),
      (0x93, optional, optional, optional),
      (0x93, optional, optional, optional),
      (0x97, optional, optional, optional),
      (0x98, optional, optional, optional),
      (0x99, optional, optional, optional),
      (0x9A, optional, notApplicable, optional),
      (0x9D, required, notApplicable, optional),
      (0x9E, required, notApplicable, optional),
      (0x9F, required, notApplicable, optional)
    ] }

/-- std/objects_mra.py:63-83 -/
def mra_0EF0 : StdEntry :=
  { key := (0x0E, 0xF0), group := 0x0E, cls := 0xF0
    props := [
      (0x80, required, notApplicable, required),
      (0x82, required, notApplicable, optional),
      (0x83, required, notApplicable, optional),
      (0x88, optional, notApplicable, optional),
      (0x89, optional, notApplicable, optional),
      (0x8A, required, notApplicable, optional),
      (0x8B, optional, notApplicable, optional),
      (0x8C, optional, notApplicable, optional),
      (0x8D, optional, notApplicable, optional),
      (0x8E, optional, notApplicable, optional),
      (0x9D, required, notApplicable, optional),
      (0x9E, required, notApplicable, optional),
      (0x9F, required, notApplicable, optional),
      (0xBF, optional, optional, optional),
      (0xD3, required, notApplicable, optional),
      (0xD4, required, notApplicable, optional),
      (0xD5, optional, notApplicable, required),
      (0xD6, required, notApplicable, optional),
      (0xD7, required, notApplicable, optional)
    ] }

/-- std/objects_mra.py:86-97 -/
def mra_02A6 : StdEntry :=
  { key := (0x02, 0xA6), group := 0x02, cls := 0xA6
    props := [
      (0xB0, optional, optional, required),
      (0xB2, optional, notApplicable, required),
      (0xB3, optional, notApplicable, required),
      (0xB6, optional, optional, optional),
      (0xB7, optional, optional, optional),
      (0xB8, required, required, required),
      (0xB9, optional, optional, optional),
      (0xC3, optional, notApplicable, required),
      (0xE1, optional, notApplicable, optional),
      (0xE2, optional, notApplicable, optional)
    ] }

/-- std/objects_mra.py:100-102 -/
def mra_05FD : StdEntry :=
  { key := (0x05, 0xFD), group := 0x05, cls := 0xFD
    props := [
      (0xE0, optional, optional, optional)
    ] }

/-- std/objects_mra.py:105-134 -/
def mra_0272 : StdEntry :=
  { key := (0x02, 0x72), group := 0x02, cls := 0x72
    props := [
      (0x90, optional, optional, optional),
      (0x91, optional, optional, optional),
      (0x92, optional, optional, optional),
      (0xD0, required, notApplicable, optional),
      (0xD1, optional, optional, optional),
      (0xD2, optional, optional, optional),
      (0xD4, optional, optional, optional),
      (0xD5, optional, notApplicable, optional),
      (0xD6, optional, optional, optional),
      (0xD7, optional, optional, optional),
      (0xDA, optional, optional, optional),
      (0xDB, optional, notApplicable, optional),
      (0xE1, optional, optional, optional),
      (0xE2, required, notApplicable, optional),
      (0xE3, requiredO, requiredO, optional),
      (0xE4, optional, optional, optional),
      (0xE5, optional, optional, optional),
      (0xE6, optional, optional, optional),
      (0xE7, optional, optional, optional),
      (0xE8, optional, optional, optional),
      (0xE9, optional, optional, optional),
      (0xE9, optional, notApplicable, optional),
      (0xEA, optional, notApplicable, optional),
      (0xEB, optional, notApplicable, optional),
      (0xEC, optional, optional, optional),
      (0xED, optional, optional, optional),
      (0xEE, optional, optional, optional),
      (0xEF, optional, notApplicable, required)
    ] }

/-- std/objects_mra.py:137-161 -/
def mra_03CE : StdEntry :=
  { key := (0x03, 0xCE), group := 0x03, cls := 0xCE
    props := [
      (0xB0, required, required, required),
      (0xB0, required, required, required),
      (0xBD, optional, notApplicable, optional),
      (0xCA, optional, optional, optional),
      (0xCA, required, optional, optional),
      (0xD0, required, notApplicable, optional),
      (0xD1, required, notApplicable, optional),
      (0xD2, required, notApplicable, optional),
      (0xD3, required, notApplicable, optional),
      (0xD4, required, notApplicable, optional),
      (0xE0, required, optional, required),
      (0xE1, optional, optional, required),
      (0xE2, optional, optional, optional),
      (0xE3, required, notApplicable, optional),
      (0xE4, optional, notApplicable, optional),
      (0xE5, optional, notApplicable, optional),
      (0xE6, optional, notApplicable, optional),
      (0xE7, required, notApplicable, optional),
      (0xEB, optional, notApplicable, optional),
      (0xEC, optional, notApplicable, optional),
      (0xED, optional, optional, optional),
      (0xEE, optional, optional, optional),
      (0xEF, required, required, optional)
    ] }

/-- std/objects_mra.py:164-167 -/
def mra_00D0 : StdEntry :=
  { key := (0x00, 0xD0), group := 0x00, cls := 0xD0
    props := [
      (0xE0, requiredC, notApplicable, optional),
      (0xE1, requiredC, notApplicable, optional)
    ] }

/-- std/objects_mra.py:170-177 -/
def mra_0602 : StdEntry :=
  { key := (0x06, 0x02), group := 0x06, cls := 0x02
    props := [
      (0x80, required, requiredO, required),
      (0xB0, optional, optional, optional),
      (0xB1, requiredO, notApplicable, required),
      (0xB2, requiredO, notApplicable, optional),
      (0xB3, optional, required, optional),
      (0xB4, requiredO, notApplicable, optional)
    ] }

/-- std/objects_mra.py:180-239 -/
def mra_027E : StdEntry :=
  { key := (0x02, 0x7E), group := 0x02, cls := 0x7E
    props := [
      (0xC0, required, notApplicable, optional),
      (0xC1, requiredC, notApplicable, optional),
      (0xC1, optional, notApplicable, optional),
      (0xC2, required, notApplicable, optional),
      (0xC3, requiredC, notApplicable, optional),
      (0xC3, optional, notApplicable, optional),
      (0xC4, required, notApplicable, optional),
      (0xC5, required, notApplicable, optional),
      (0xC6, required, notApplicable, optional),
      (0xC7, required, notApplicable, required),
      (0xC7, required, notApplicable, required),
      (0xC7, required, notApplicable, required),
      (0xC8, required, notApplicable, optional),
      (0xC9, required, notApplicable, optional),
      (0xCA, required, notApplicable, optional),
      (0xCB, required, notApplicable, optional),
      (0xCC, required, notApplicable, optional),
      (0xCD, notApplicable, required, notApplicable),
      (0xCE, required, notApplicable, optional),
      (0xCF, required, notApplicable, optional),
      (0xD0, required, notApplicable, optional),
      (0xD1, requiredC, notApplicable, optional),
      (0xD1, optional, notApplicable, optional),
      (0xD2, optional, notApplicable, optional),
      (0xD3, optional, notApplicable, optional),
      (0xD4, optional, notApplicable, optional),
      (0xD5, optional, notApplicable, optional),
      (0xD6, optional, notApplicable, optional),
      (0xD7, notApplicable, optional, notApplicable),
      (0xD8, optional, notApplicable, optional),
      (0xD9, notApplicable, optional, notApplicable),
      (0xDA, required, required, required),
      (0xDA, required, required, required),
      (0xDA, required, required, required),
      (0xDA, required, required, required),
      (0xDB, optional, notApplicable, optional),
      (0xDC, required, optional, required),
      (0xDC, required, optional, required),
      (0xDD, required, optional, required),
      (0xDD, required, optional, required),
      (0xDE, optional, optional, optional),
      (0xDF, optional, optional, optional),
      (0xE0, optional, optional, optional),
      (0xE1, optional, notApplicable, required),
      (0xE2, required, notApplicable, optional),
      (0xE3, requiredC, notApplicable, optional),
      (0xE3, optional, notApplicable, optional),
      (0xE4, required, notApplicable, optional),
      (0xE5, optional, notApplicable, required),
      (0xE6, required, notApplicable, optional),
      (0xE7, optional, optional, optional),
      (0xE9, optional, optional, optional),
      (0xEA, optional, optional, optional),
      (0xEB, optional, optional, optional),
      (0xEC, optional, optional, optional),
      (0xED, optional, optional, optional),
      (0xEE, optional, optional, optional),
      (0xEF, optional, notApplicable, optional)
    ] }

/-- std/objects_mra.py:242-251 -/
def mra_0157 : StdEntry :=
  { key := (0x01, 0x57), group := 0x01, cls := 0x57
    props := [
      (0xAB, optional, notApplicable, optional),
      (0xB8, optional, notApplicable, optional),
      (0xBE, optional, notApplicable, optional),
      (0xCA, required, notApplicable, optional),
      (0xDB, required, notApplicable, optional),
      (0xDD, required, notApplicable, optional),
      (0xDE, required, required, optional),
      (0xDF, optional, notApplicable, optional)
    ] }

/-- std/objects_mra.py:254-256 -/
def mra_0012 : StdEntry :=
  { key := (0x00, 0x12), group := 0x00, cls := 0x12
    props := [
      (0xE0, required, notApplicable, optional)
    ] }

/-- std/objects_mra.py:259-262 -/
def mra_0291 : StdEntry :=
  { key := (0x02, 0x91), group := 0x02, cls := 0x91
    props := [
      (0x80, required, required, required),
      (0xB0, optional, optional, optional)
    ] }

/-- std/objects_mra.py:265-322 -/
def mra_0287 : StdEntry :=
  { key := (0x02, 0x87), group := 0x02, cls := 0x87
    props := [
      (0xB0, optional, notApplicable, optional),
      (0xB1, optional, notApplicable, optional),
      (0xB2, optional, optional, optional),
      (0xB3, optional, notApplicable, optional),
      (0xB4, optional, optional, optional),
      (0xB5, optional, notApplicable, optional),
      (0xB6, optional, optional, optional),
      (0xB7, optional, notApplicable, optional),
      (0xB8, optional, notApplicable, optional),
      (0xB9, optional, optional, optional),
      (0xBA, optional, notApplicable, optional),
      (0xBB, optional, optional, optional),
      (0xBC, optional, notApplicable, optional),
      (0xBD, optional, optional, optional),
      (0xBE, optional, notApplicable, optional),
      (0xC0, required, notApplicable, optional),
      (0xC1, required, notApplicable, optional),
      (0xC2, required, notApplicable, optional),
      (0xC3, optional, notApplicable, optional),
      (0xC4, optional, notApplicable, optional),
      (0xC5, optional, optional, optional),
      (0xC6, optional, notApplicable, optional),
      (0xC7, optional, notApplicable, optional),
      (0xC8, optional, notApplicable, optional),
      (0xD0, optional, notApplicable, optional),
      (0xD1, optional, notApplicable, optional),
      (0xD2, optional, notApplicable, optional),
      (0xD3, optional, notApplicable, optional),
      (0xD4, optional, notApplicable, optional),
      (0xD5, optional, notApplicable, optional),
      (0xD6, optional, notApplicable, optional),
      (0xD7, optional, notApplicable, optional),
      (0xD8, optional, notApplicable, optional),
      (0xD9, optional, notApplicable, optional),
      (0xDA, optional, notApplicable, optional),
      (0xDB, optional, notApplicable, optional),
      (0xDC, optional, notApplicable, optional),
      (0xDD, optional, notApplicable, optional),
      (0xDE, optional, notApplicable, optional),
      (0xDF, optional, notApplicable, optional),
      (0xE0, optional, notApplicable, optional),
      (0xE1, optional, notApplicable, optional),
      (0xE2, optional, notApplicable, optional),
      (0xE3, optional, notApplicable, optional),
      (0xE4, optional, notApplicable, optional),
      (0xE5, optional, notApplicable, optional),
      (0xE6, optional, notApplicable, optional),
      (0xE7, optional, notApplicable, optional),
      (0xE8, optional, notApplicable, optional),
      (0xE9, optional, notApplicable, optional),
      (0xEA, optional, notApplicable, optional),
      (0xEB, optional, notApplicable, optional),
      (0xEC, optional, notApplicable, optional),
      (0xED, optional, notApplicable, optional),
      (0xEE, optional, notApplicable, optional),
      (0xEF, optional, notApplicable, optional)
    ] }

/-- std/objects_mra.py:325-377 -/
def mra_026B : StdEntry :=
  { key := (0x02, 0x6B), group := 0x02, cls := 0x6B
    props := [
      (0x90, optional, optional, optional),
      (0x91, optional, optional, optional),
      (0xB0, required, required, optional),
      (0xB0, required, required, required),
      (0xB1, optional, optional, optional),
      (0xB2, optional, notApplicable, optional),
      (0xB2, required, notApplicable, required),
      (0xB3, optional, optional, optional),
      (0xB4, optional, optional, optional),
      (0xB5, optional, optional, optional),
      (0xB6, optional, optional, optional),
      (0xC0, optional, optional, optional),
      (0xC0, required, required, optional),
      (0xC1, optional, notApplicable, optional),
      (0xC2, optional, notApplicable, required),
      (0xC3, required, notApplicable, required),
      (0xC4, optional, optional, optional),
      (0xC7, required, required, optional),
      (0xC8, required, notApplicable, optional),
      (0xC9, required, notApplicable, optional),
      (0xCA, required, required, optional),
      (0xCB, required, notApplicable, optional),
      (0xCC, required, notApplicable, optional),
      (0xCD, required, required, optional),
      (0xCE, required, notApplicable, optional),
      (0xCF, required, notApplicable, optional),
      (0xD1, optional, optional, optional),
      (0xD3, optional, optional, optional),
      (0xD4, optional, optional, optional),
      (0xD5, optional, notApplicable, optional),
      (0xD6, optional, optional, optional),
      (0xD7, optional, optional, optional),
      (0xD8, optional, notApplicable, optional),
      (0xD9, optional, optional, optional),
      (0xDB, optional, notApplicable, optional),
      (0xDC, optional, notApplicable, optional),
      (0xDD, optional, notApplicable, optional),
      (0xE0, optional, optional, optional),
      (0xE1, optional, notApplicable, optional),
      (0xE2, optional, notApplicable, optional),
      (0xE3, requiredO, requiredO, optional),
      (0xE4, optional, optional, optional),
      (0xE5, optional, optional, optional),
      (0xE5, optional, optional, optional),
      (0xE6, optional, optional, optional),
      (0xE6, optional, optional, optional),
      (0xE7, optional, optional, optional),
      (0xE8, optional, optional, optional),
      (0xE9, optional, notApplicable, optional),
      (0xEA, optional, notApplicable, required),
      (0xEE, optional, optional, optional)
    ] }

/-- std/objects_mra.py:380-405 -/
def mra_0290 : StdEntry :=
  { key := (0x02, 0x90), group := 0x02, cls := 0x90
    props := [
      (0x80, required, required, required),
      (0x90, optional, optional, optional),
      (0x91, optional, optional, optional),
      (0x94, optional, optional, optional),
      (0x95, optional, optional, optional),
      (0xB0, optional, optional, optional),
      (0xB1, optional, optional, optional),
      (0xB1, optional, optional, optional),
      (0xB1, optional, optional, optional),
      (0xB2, optional, optional, optional),
      (0xB3, optional, optional, optional),
      (0xB4, optional, notApplicable, optional),
      (0xB5, optional, notApplicable, optional),
      (0xB6, required, required, optional),
      (0xB7, optional, optional, optional),
      (0xB8, optional, optional, optional),
      (0xB9, optional, optional, optional),
      (0xBA, optional, optional, optional),
      (0xBB, optional, optional, optional),
      (0xBC, optional, optional, optional),
      (0xBD, optional, optional, optional),
      (0xBE, optional, optional, optional),
      (0xBF, optional, notApplicable, optional),
      (0xC0, optional, optional, optional)
    ] }

/-- std/objects_mra.py:408-476 -/
def mra_027D : StdEntry :=
  { key := (0x02, 0x7D), group := 0x02, cls := 0x7D
    props := [
      (0x83, optional, notApplicable, optional),
      (0x97, required, optional, optional),
      (0x98, required, optional, optional),
      (0xA0, required, notApplicable, optional),
      (0xA1, required, notApplicable, optional),
      (0xA2, required, notApplicable, optional),
      (0xA3, required, notApplicable, optional),
      (0xA4, required, notApplicable, optional),
      (0xA5, required, notApplicable, optional),
      (0xA6, optional, optional, optional),
      (0xA7, optional, optional, optional),
      (0xA8, required, notApplicable, optional),
      (0xA9, required, notApplicable, optional),
      (0xAA, required, required, required),
      (0xAB, required, required, required),
      (0xC1, required, optional, required),
      (0xC2, required, optional, required),
      (0xC7, optional, notApplicable, optional),
      (0xC8, optional, notApplicable, optional),
      (0xC8, required, notApplicable, optional),
      (0xC9, optional, notApplicable, optional),
      (0xC9, required, notApplicable, optional),
      (0xCA, optional, notApplicable, optional),
      (0xCB, optional, notApplicable, optional),
      (0xCC, optional, optional, optional),
      (0xCD, optional, optional, optional),
      (0xCE, optional, optional, optional),
      (0xCF, required, notApplicable, required),
      (0xCF, required, notApplicable, required),
      (0xD0, optional, notApplicable, optional),
      (0xD1, optional, notApplicable, optional),
      (0xD2, optional, notApplicable, optional),
      (0xD3, optional, notApplicable, optional),
      (0xD4, optional, notApplicable, optional),
      (0xD5, optional, notApplicable, optional),
      (0xD6, optional, notApplicable, optional),
      (0xD7, notApplicable, optional, notApplicable),
      (0xD8, optional, notApplicable, optional),
      (0xD9, notApplicable, optional, notApplicable),
      (0xDA, required, required, required),
      (0xDA, required, required, required),
      (0xDA, required, required, required),
      (0xDA, required, required, required),
      (0xDB, optional, notApplicable, optional),
      (0xDB, required, notApplicable, optional),
      (0xDC, optional, notApplicable, optional),
      (0xDD, optional, notApplicable, optional),
      (0xDE, optional, notApplicable, optional),
      (0xDF, optional, notApplicable, optional),
      (0xE0, optional, optional, optional),
      (0xE0, optional, optional, optional),
      (0xE1, optional, optional, optional),
      (0xE1, optional, optional, optional),
      (0xE2, requiredC, notApplicable, optional),
      (0xE3, requiredC, notApplicable, optional),
      (0xE4, requiredC, notApplicable, optional),
      (0xE5, optional, notApplicable, optional),
      (0xE6, required, notApplicable, optional),
      (0xE7, optional, optional, optional),
      (0xE8, optional, optional, optional),
      (0xE9, optional, optional, optional),
      (0xEA, optional, optional, optional),
      (0xEB, optional, optional, optional),
      (0xEC, optional, optional, optional),
      (0xED, optional, optional, optional),
      (0xEE, optional, optional, optional),
      (0xEF, optional, notApplicable, optional)
    ] }

/-- std/objects_mra.py:479-488 -/
def mra_0156 : StdEntry :=
  { key := (0x01, 0x56), group := 0x01, cls := 0x56
    props := [
      (0x80, required, required, required),
      (0xAC, required, notApplicable, optional),
      (0xAE, required, notApplicable, optional),
      (0xB0, required, required, required),
      (0xB3, required, required, required),
      (0xBB, optional, notApplicable, optional),
      (0xCA, required, notApplicable, optional),
      (0xDB, optional, notApplicable, optional)
    ] }

/-- std/objects_mra.py:491-501 -/
def mra_03BB : StdEntry :=
  { key := (0x03, 0xBB), group := 0x03, cls := 0xBB
    props := [
      (0x90, optional, optional, optional),
      (0x91, optional, optional, optional),
      (0x92, optional, optional, optional),
      (0xB0, optional, notApplicable, optional),
      (0xB1, required, notApplicable, optional),
      (0xB2, requiredO, requiredO, optional),
      (0xE1, optional, optional, optional),
      (0xE5, optional, notApplicable, optional),
      (0xE6, optional, notApplicable, optional)
    ] }

/-- std/objects_mra.py:504-527 -/
def mra_028A : StdEntry :=
  { key := (0x02, 0x8A), group := 0x02, cls := 0x8A
    props := [
      (0xC1, required, notApplicable, optional),
      (0xC2, optional, notApplicable, optional),
      (0xC3, required, notApplicable, optional),
      (0xC4, required, notApplicable, optional),
      (0xC5, required, notApplicable, optional),
      (0xC6, required, notApplicable, optional),
      (0xC7, optional, notApplicable, optional),
      (0xCA, optional, notApplicable, optional),
      (0xCB, optional, notApplicable, optional),
      (0xCC, optional, notApplicable, optional),
      (0xCD, optional, notApplicable, optional),
      (0xCE, optional, notApplicable, optional),
      (0xD3, required, notApplicable, optional),
      (0xD4, required, notApplicable, optional),
      (0xE0, required, notApplicable, optional),
      (0xE1, required, required, optional),
      (0xE2, required, notApplicable, optional),
      (0xE3, required, notApplicable, optional),
      (0xE4, optional, notApplicable, optional),
      (0xE5, required, notApplicable, optional),
      (0xE6, required, notApplicable, optional),
      (0xE7, required, notApplicable, optional)
    ] }

/-- std/objects_mra.py:530-540 -/
def mra_03B9 : StdEntry :=
  { key := (0x03, 0xB9), group := 0x03, cls := 0xB9
    props := [
      (0x96, optional, optional, optional),
      (0xA1, optional, optional, optional),
      (0xA2, optional, optional, optional),
      (0xB1, required, notApplicable, optional),
      (0xB2, optional, optional, optional),
      (0xB3, notApplicable, requiredO, optional),
      (0xE0, optional, optional, optional),
      (0xE3, optional, optional, optional),
      (0xE7, optional, optional, optional)
    ] }

/-- std/objects_mra.py:543-547 -/
def mra_001D : StdEntry :=
  { key := (0x00, 0x1D), group := 0x00, cls := 0x1D
    props := [
      (0xB0, optional, optional, optional),
      (0xB1, optional, notApplicable, required),
      (0xE0, required, notApplicable, optional)
    ] }

/-- std/objects_mra.py:550-574 -/
def mra_0273 : StdEntry :=
  { key := (0x02, 0x73), group := 0x02, cls := 0x73
    props := [
      (0x90, optional, optional, optional),
      (0x91, optional, optional, optional),
      (0x92, optional, optional, optional),
      (0x94, optional, optional, optional),
      (0x95, optional, optional, optional),
      (0x96, optional, optional, optional),
      (0xB0, required, required, optional),
      (0xB0, required, required, optional),
      (0xB1, optional, optional, optional),
      (0xB2, required, required, optional),
      (0xB2, optional, optional, optional),
      (0xB3, optional, optional, optional),
      (0xB4, required, required, optional),
      (0xB5, optional, optional, optional),
      (0xB6, optional, optional, optional),
      (0xB7, optional, optional, optional),
      (0xBA, optional, notApplicable, optional),
      (0xBB, optional, notApplicable, optional),
      (0xC2, optional, optional, optional),
      (0xCF, optional, optional, optional),
      (0xE0, optional, notApplicable, optional),
      (0xE1, optional, optional, optional),
      (0xE1, optional, optional, optional)
    ] }

/-- std/objects_mra.py:577-585 -/
def mra_03D4 : StdEntry :=
  { key := (0x03, 0xD4), group := 0x03, cls := 0xD4
    props := [
      (0xAA, optional, notApplicable, optional),
      (0xB0, required, required, required),
      (0xB0, required, required, required),
      (0xBE, optional, notApplicable, optional),
      (0xCA, optional, optional, optional),
      (0xCA, required, optional, optional),
      (0xE2, optional, optional, optional)
    ] }

/-- std/objects_mra.py:588-615 -/
def mra_027C : StdEntry :=
  { key := (0x02, 0x7C), group := 0x02, cls := 0x7C
    props := [
      (0xC1, optional, notApplicable, optional),
      (0xC2, optional, notApplicable, optional),
      (0xC2, required, notApplicable, optional),
      (0xC3, optional, notApplicable, optional),
      (0xC4, required, notApplicable, optional),
      (0xC5, required, notApplicable, optional),
      (0xC6, notApplicable, optional, notApplicable),
      (0xC6, notApplicable, optional, notApplicable),
      (0xC7, optional, notApplicable, optional),
      (0xC8, optional, notApplicable, optional),
      (0xC9, notApplicable, optional, notApplicable),
      (0xCA, notApplicable, optional, optional),
      (0xCA, optional, optional, optional),
      (0xCB, optional, notApplicable, optional),
      (0xCB, required, notApplicable, required),
      (0xCC, optional, notApplicable, optional),
      (0xCD, optional, notApplicable, optional),
      (0xCD, optional, notApplicable, optional),
      (0xCE, notApplicable, optional, notApplicable),
      (0xCE, notApplicable, optional, notApplicable),
      (0xD0, optional, notApplicable, optional),
      (0xD0, required, notApplicable, optional),
      (0xD1, required, required, optional),
      (0xD2, required, required, optional),
      (0xE1, optional, notApplicable, optional),
      (0xE2, optional, notApplicable, optional)
    ] }

/-- std/objects_mra.py:618-629 -/
def mra_0281 : StdEntry :=
  { key := (0x02, 0x81), group := 0x02, cls := 0x81
    props := [
      (0xD0, optional, optional, optional),
      (0xD1, optional, optional, optional),
      (0xE0, required, notApplicable, optional),
      (0xE1, required, notApplicable, optional),
      (0xE2, optional, notApplicable, optional),
      (0xE3, optional, notApplicable, required),
      (0xE4, optional, notApplicable, optional),
      (0xE5, optional, optional, optional),
      (0xE6, optional, optional, optional),
      (0xE7, optional, notApplicable, optional)
    ] }

/-- std/objects_mra.py:632-682 -/
def mra_0130 : StdEntry :=
  { key := (0x01, 0x30), group := 0x01, cls := 0x30
    props := [
      (0x80, required, required, required),
      (0x8F, required, required, required),
      (0x90, optional, optional, optional),
      (0x91, optional, optional, optional),
      (0x92, optional, optional, optional),
      (0x94, optional, optional, optional),
      (0x95, optional, optional, optional),
      (0x96, optional, optional, optional),
      (0xA0, optional, optional, optional),
      (0xA0, required, required, required),
      (0xA1, optional, optional, optional),
      (0xA3, optional, optional, optional),
      (0xA4, optional, optional, optional),
      (0xA5, optional, optional, optional),
      (0xAA, optional, notApplicable, optional),
      (0xAB, optional, notApplicable, optional),
      (0xB0, required, required, required),
      (0xB1, optional, optional, optional),
      (0xB2, optional, optional, optional),
      (0xB3, required, required, optional),
      (0xB4, optional, optional, optional),
      (0xB5, optional, optional, optional),
      (0xB6, optional, optional, optional),
      (0xB7, optional, optional, optional),
      (0xB8, optional, notApplicable, optional),
      (0xB9, optional, notApplicable, optional),
      (0xBA, optional, notApplicable, optional),
      (0xBB, optional, notApplicable, optional),
      (0xBB, required, notApplicable, optional),
      (0xBC, optional, notApplicable, optional),
      (0xBD, optional, notApplicable, optional),
      (0xBE, optional, notApplicable, optional),
      (0xBF, optional, optional, optional),
      (0xC0, optional, optional, optional),
      (0xC1, optional, optional, optional),
      (0xC2, optional, optional, optional),
      (0xC4, optional, optional, optional),
      (0xC6, optional, notApplicable, optional),
      (0xC7, optional, optional, optional),
      (0xC8, optional, notApplicable, optional),
      (0xC9, optional, optional, optional),
      (0xCA, optional, notApplicable, optional),
      (0xCB, optional, optional, optional),
      (0xCC, optional, optional, optional),
      (0xCD, optional, notApplicable, optional),
      (0xCE, notApplicable, optional, notApplicable),
      (0xCE, optional, optional, optional),
      (0xCF, optional, optional, optional),
      (0xD0, notApplicable, optional, notApplicable)
    ] }

/-- std/objects_mra.py:685-693 -/
def mra_0022 : StdEntry :=
  { key := (0x00, 0x22), group := 0x00, cls := 0x22
    props := [
      (0xE0, required, notApplicable, optional),
      (0xE1, optional, notApplicable, optional),
      (0xE2, optional, notApplicable, optional),
      (0xE3, optional, notApplicable, optional),
      (0xE4, optional, notApplicable, optional),
      (0xE4, optional, notApplicable, optional),
      (0xE5, optional, notApplicable, optional)
    ] }

/-- std/objects_mra.py:696-729 -/
def mra_03D3 : StdEntry :=
  { key := (0x03, 0xD3), group := 0x03, cls := 0xD3
    props := [
      (0x90, optional, optional, optional),
      (0x91, optional, optional, optional),
      (0x92, optional, optional, optional),
      (0xB0, optional, notApplicable, optional),
      (0xB2, optional, optional, optional),
      (0xD0, optional, optional, optional),
      (0xD1, optional, optional, optional),
      (0xD2, optional, optional, optional),
      (0xD3, optional, notApplicable, optional),
      (0xD4, optional, notApplicable, optional),
      (0xD5, optional, notApplicable, optional),
      (0xD6, optional, optional, optional),
      (0xD7, optional, optional, optional),
      (0xD8, optional, optional, optional),
      (0xDB, optional, notApplicable, optional),
      (0xDC, optional, notApplicable, optional),
      (0xDF, optional, notApplicable, optional),
      (0xE1, optional, optional, optional),
      (0xE2, optional, notApplicable, optional),
      (0xE3, optional, optional, optional),
      (0xE4, optional, optional, optional),
      (0xE5, optional, optional, optional),
      (0xE6, optional, optional, optional),
      (0xE7, optional, optional, optional),
      (0xE8, optional, optional, optional),
      (0xE9, optional, optional, optional),
      (0xEA, optional, optional, optional),
      (0xEB, optional, optional, optional),
      (0xEC, optional, optional, optional),
      (0xED, optional, notApplicable, optional),
      (0xEE, optional, optional, optional),
      (0xEF, optional, notApplicable, optional)
    ] }

/-- std/objects_mra.py:732-749 -/
def mra_0263 : StdEntry :=
  { key := (0x02, 0x63), group := 0x02, cls := 0x63
    props := [
      (0x89, optional, notApplicable, required),
      (0x90, optional, optional, required),
      (0xD0, optional, optional, optional),
      (0xD1, optional, optional, optional),
      (0xD2, optional, optional, optional),
      (0xE0, required, required, required),
      (0xE1, optional, optional, optional),
      (0xE2, optional, optional, optional),
      (0xE3, optional, optional, optional),
      (0xE5, optional, optional, optional),
      (0xE8, optional, notApplicable, required),
      (0xE9, optional, optional, required),
      (0xEA, optional, notApplicable, required),
      (0xED, optional, optional, optional),
      (0xEE, optional, optional, optional),
      (0xEF, optional, optional, optional)
    ] }

/-- std/objects_mra.py:752-754 -/
def mra_001B : StdEntry :=
  { key := (0x00, 0x1B), group := 0x00, cls := 0x1B
    props := [
      (0xE0, required, notApplicable, optional)
    ] }

/-- std/objects_mra.py:757-761 -/
def mra_0023 : StdEntry :=
  { key := (0x00, 0x23), group := 0x00, cls := 0x23
    props := [
      (0xE0, requiredC, notApplicable, optional),
      (0xE1, optional, notApplicable, optional),
      (0xE2, requiredC, notApplicable, optional)
    ] }

/-- std/objects_mra.py:764-786 -/
def mra_02A1 : StdEntry :=
  { key := (0x02, 0xA1), group := 0x02, cls := 0xA1
    props := [
      (0xC5, required, notApplicable, optional),
      (0xC7, required, notApplicable, required),
      (0xC7, required, notApplicable, required),
      (0xC8, optional, notApplicable, optional),
      (0xCA, optional, notApplicable, optional),
      (0xCC, required, notApplicable, optional),
      (0xCD, notApplicable, required, optional),
      (0xCE, required, notApplicable, optional),
      (0xCF, required, notApplicable, optional),
      (0xD0, required, notApplicable, optional),
      (0xD2, optional, notApplicable, optional),
      (0xD3, optional, notApplicable, optional),
      (0xD8, optional, notApplicable, optional),
      (0xD9, notApplicable, optional, notApplicable),
      (0xDA, required, required, required),
      (0xE2, required, notApplicable, optional),
      (0xE4, required, notApplicable, optional),
      (0xE6, required, notApplicable, optional),
      (0xE7, optional, optional, optional),
      (0xEB, optional, optional, optional),
      (0xED, optional, optional, optional)
    ] }

/-- std/objects_mra.py:789-793 -/
def mra_0280 : StdEntry :=
  { key := (0x02, 0x80), group := 0x02, cls := 0x80
    props := [
      (0xE0, required, notApplicable, optional),
      (0xE2, required, notApplicable, optional),
      (0xE3, optional, notApplicable, optional)
    ] }

/-- std/objects_mra.py:796-799 -/
def mra_0003 : StdEntry :=
  { key := (0x00, 0x03), group := 0x00, cls := 0x03
    props := [
      (0xB1, required, notApplicable, required),
      (0xBF, notApplicable, optional, notApplicable)
    ] }

/-- std/objects_mra.py:802-833 -/
def mra_0279 : StdEntry :=
  { key := (0x02, 0x79), group := 0x02, cls := 0x79
    props := [
      (0x83, required, notApplicable, optional),
      (0x97, requiredC, optional, optional),
      (0x98, requiredC, optional, optional),
      (0xA0, requiredC, requiredC, optional),
      (0xA1, requiredC, requiredC, optional),
      (0xA2, requiredC, optional, optional),
      (0xB0, requiredC, notApplicable, optional),
      (0xB1, requiredC, notApplicable, required),
      (0xB2, requiredC, notApplicable, optional),
      (0xB3, optional, notApplicable, optional),
      (0xB4, requiredC, notApplicable, optional),
      (0xC0, optional, notApplicable, optional),
      (0xC1, required, required, optional),
      (0xC2, required, notApplicable, optional),
      (0xC3, requiredC, notApplicable, optional),
      (0xC4, requiredC, notApplicable, optional),
      (0xD0, optional, notApplicable, optional),
      (0xD0, required, notApplicable, optional),
      (0xD1, required, notApplicable, optional),
      (0xE0, required, notApplicable, optional),
      (0xE1, required, notApplicable, optional),
      (0xE2, notApplicable, optional, notApplicable),
      (0xE3, optional, notApplicable, optional),
      (0xE4, notApplicable, optional, notApplicable),
      (0xE5, optional, optional, optional),
      (0xE6, optional, optional, optional),
      (0xE7, optional, optional, optional),
      (0xE8, optional, optional, optional),
      (0xE8, required, optional, optional),
      (0xE9, optional, optional, optional)
    ] }

/-- std/objects_mra.py:836-857 -/
def mra_027B : StdEntry :=
  { key := (0x02, 0x7B), group := 0x02, cls := 0x7B
    props := [
      (0x80, required, required, required),
      (0x90, optional, optional, optional),
      (0x91, optional, optional, optional),
      (0x92, optional, optional, optional),
      (0x94, optional, optional, optional),
      (0x95, optional, optional, optional),
      (0x96, optional, optional, optional),
      (0xD1, optional, notApplicable, required),
      (0xE0, requiredC, requiredC, optional),
      (0xE1, requiredC, requiredC, optional),
      (0xE2, optional, notApplicable, optional),
      (0xE3, optional, notApplicable, optional),
      (0xE3, optional, notApplicable, optional),
      (0xE4, optional, optional, optional),
      (0xE5, optional, optional, optional),
      (0xE6, optional, optional, optional),
      (0xE7, optional, optional, optional),
      (0xE8, optional, optional, optional),
      (0xE9, optional, notApplicable, optional),
      (0xEA, optional, notApplicable, optional)
    ] }

/-- std/objects_mra.py:860-863 -/
def mra_0016 : StdEntry :=
  { key := (0x00, 0x16), group := 0x00, cls := 0x16
    props := [
      (0xB0, optional, optional, optional),
      (0xB1, required, notApplicable, required)
    ] }

/-- std/objects_mra.py:866-886 -/
def mra_027A : StdEntry :=
  { key := (0x02, 0x7A), group := 0x02, cls := 0x7A
    props := [
      (0x90, optional, optional, optional),
      (0x91, optional, optional, optional),
      (0x92, optional, optional, optional),
      (0x94, optional, optional, optional),
      (0x95, optional, optional, optional),
      (0x96, optional, optional, optional),
      (0xD1, optional, optional, required),
      (0xD2, optional, optional, required),
      (0xE0, optional, optional, optional),
      (0xE1, requiredC, requiredC, optional),
      (0xE2, requiredC, requiredC, optional),
      (0xE3, optional, notApplicable, optional),
      (0xE4, optional, notApplicable, optional),
      (0xE5, optional, optional, optional),
      (0xE6, optional, optional, optional),
      (0xE7, optional, optional, optional),
      (0xE8, optional, optional, optional),
      (0xE9, optional, notApplicable, optional),
      (0xEA, optional, notApplicable, optional)
    ] }

/-- std/objects_mra.py:889-905 -/
def mra_028D : StdEntry :=
  { key := (0x02, 0x8D), group := 0x02, cls := 0x8D
    props := [
      (0xD3, optional, notApplicable, optional),
      (0xD4, required, notApplicable, optional),
      (0xD7, required, notApplicable, optional),
      (0xD8, optional, notApplicable, optional),
      (0xD9, optional, notApplicable, optional),
      (0xE0, required, required, optional),
      (0xE1, required, notApplicable, optional),
      (0xE2, required, notApplicable, optional),
      (0xE3, required, notApplicable, optional),
      (0xE4, required, notApplicable, optional),
      (0xE7, required, notApplicable, optional),
      (0xE8, required, notApplicable, optional),
      (0xE9, optional, notApplicable, optional),
      (0xEA, required, notApplicable, optional),
      (0xEB, required, notApplicable, optional)
    ] }

/-- std/objects_mra.py:908-912 -/
def mra_02A3 : StdEntry :=
  { key := (0x02, 0xA3), group := 0x02, cls := 0xA3
    props := [
      (0xB0, optional, optional, optional),
      (0xC0, required, required, optional),
      (0xC1, required, notApplicable, optional)
    ] }

/-- std/objects_mra.py:915-919 -/
def mra_0133 : StdEntry :=
  { key := (0x01, 0x33), group := 0x01, cls := 0x33
    props := [
      (0x80, required, required, required),
      (0xA0, optional, optional, optional),
      (0xBF, optional, optional, optional)
    ] }

/-- std/objects_mra.py:922-944 -/
def mra_028E : StdEntry :=
  { key := (0x02, 0x8E), group := 0x02, cls := 0x8E
    props := [
      (0x98, requiredC, optional, optional),
      (0xD0, required, notApplicable, optional),
      (0xD1, required, notApplicable, optional),
      (0xD2, required, notApplicable, optional),
      (0xD3, required, notApplicable, optional),
      (0xD4, required, notApplicable, optional),
      (0xD5, requiredC, required, optional),
      (0xD6, optional, notApplicable, optional),
      (0xDA, requiredC, optional, optional),
      (0xDB, required, notApplicable, optional),
      (0xE0, requiredC, notApplicable, optional),
      (0xE1, requiredC, notApplicable, optional),
      (0xE2, requiredC, notApplicable, optional),
      (0xE3, requiredC, notApplicable, optional),
      (0xE4, optional, notApplicable, optional),
      (0xE5, optional, notApplicable, optional),
      (0xE6, requiredC, notApplicable, optional),
      (0xE7, requiredC, notApplicable, optional),
      (0xE8, optional, notApplicable, optional),
      (0xE9, optional, notApplicable, optional),
      (0xEA, optional, notApplicable, optional)
    ] }

/-- std/objects_mra.py:947-956 -/
def mra_026F : StdEntry :=
  { key := (0x02, 0x6F), group := 0x02, cls := 0x6F
    props := [
      (0xE0, required, required, required),
      (0xE1, optional, optional, optional),
      (0xE2, optional, notApplicable, optional),
      (0xE3, optional, notApplicable, optional),
      (0xE4, optional, notApplicable, optional),
      (0xE5, optional, notApplicable, required),
      (0xE6, optional, optional, optional),
      (0xE7, optional, optional, required)
    ] }

/-- std/objects_mra.py:959-962 -/
def mra_0282 : StdEntry :=
  { key := (0x02, 0x82), group := 0x02, cls := 0x82
    props := [
      (0xE0, required, notApplicable, optional),
      (0xE2, optional, notApplicable, optional)
    ] }

/-- std/objects_mra.py:965-988 -/
def mra_0134 : StdEntry :=
  { key := (0x01, 0x34), group := 0x01, cls := 0x34
    props := [
      (0x80, required, required, required),
      (0xA0, optional, optional, optional),
      (0xB0, optional, optional, optional),
      (0xB1, optional, optional, optional),
      (0xB2, optional, optional, required),
      (0xB3, optional, optional, optional),
      (0xB4, optional, optional, optional),
      (0xB9, optional, notApplicable, optional),
      (0xBA, optional, notApplicable, optional),
      (0xBE, optional, notApplicable, optional),
      (0xBF, optional, optional, optional),
      (0xC0, optional, notApplicable, optional),
      (0xC1, optional, notApplicable, optional),
      (0xC2, optional, notApplicable, optional),
      (0xCA, optional, notApplicable, optional),
      (0xD0, optional, notApplicable, optional),
      (0xD1, optional, notApplicable, optional),
      (0xD2, optional, notApplicable, optional),
      (0xD3, optional, notApplicable, optional),
      (0xD4, optional, notApplicable, optional),
      (0xD5, optional, notApplicable, optional),
      (0xE0, optional, optional, optional)
    ] }

/-- std/objects_mra.py:991-1014 -/
def mra_05FF : StdEntry :=
  { key := (0x05, 0xFF), group := 0x05, cls := 0xFF
    props := [
      (0xC0, optional, notApplicable, optional),
      (0xC1, optional, notApplicable, optional),
      (0xC2, optional, optional, optional),
      (0xC3, optional, notApplicable, optional),
      (0xC4, optional, notApplicable, optional),
      (0xC5, optional, notApplicable, optional),
      (0xC6, optional, notApplicable, optional),
      (0xC7, optional, notApplicable, optional),
      (0xC7, optional, notApplicable, optional),
      (0xC8, optional, notApplicable, optional),
      (0xC8, optional, notApplicable, optional),
      (0xC9, optional, notApplicable, optional),
      (0xC9, optional, notApplicable, optional),
      (0xCA, optional, notApplicable, optional),
      (0xCA, optional, notApplicable, optional),
      (0xCB, optional, notApplicable, optional),
      (0xCB, optional, notApplicable, optional),
      (0xCC, optional, notApplicable, optional),
      (0xCD, optional, notApplicable, optional),
      (0xCE, optional, notApplicable, optional),
      (0xCF, optional, notApplicable, optional),
      (0xE0, optional, notApplicable, optional)
    ] }

/-- std/objects_mra.py:1017-1027 -/
def mra_02A4 : StdEntry :=
  { key := (0x02, 0xA4), group := 0x02, cls := 0xA4
    props := [
      (0xB0, optional, optional, optional),
      (0xC0, required, required, optional),
      (0xC1, required, notApplicable, optional),
      (0xC2, required, notApplicable, optional),
      (0xC3, required, notApplicable, optional),
      (0xC4, required, notApplicable, optional),
      (0xC5, required, required, optional),
      (0xC6, optional, optional, optional),
      (0xC7, optional, optional, optional)
    ] }

/-- std/objects_mra.py:1030-1032 -/
def mra_0011 : StdEntry :=
  { key := (0x00, 0x11), group := 0x00, cls := 0x11
    props := [
      (0xE0, required, notApplicable, optional)
    ] }

/-- std/objects_mra.py:1035-1038 -/
def mra_0007 : StdEntry :=
  { key := (0x00, 0x07), group := 0x00, cls := 0x07
    props := [
      (0xB0, optional, optional, optional),
      (0xB1, required, notApplicable, required)
    ] }

/-- std/objects_mra.py:1041-1076 -/
def mra_03B7 : StdEntry :=
  { key := (0x03, 0xB7), group := 0x03, cls := 0xB7
    props := [
      (0xA0, optional, optional, optional),
      (0xA1, optional, optional, optional),
      (0xA4, optional, optional, optional),
      (0xA5, optional, notApplicable, optional),
      (0xA6, optional, notApplicable, optional),
      (0xA8, optional, optional, optional),
      (0xA9, optional, optional, optional),
      (0xAD, optional, optional, optional),
      (0xB0, requiredO, notApplicable, optional),
      (0xB1, optional, notApplicable, required),
      (0xB2, optional, notApplicable, optional),
      (0xB3, optional, notApplicable, optional),
      (0xB4, optional, notApplicable, optional),
      (0xB5, optional, notApplicable, optional),
      (0xB6, optional, notApplicable, optional),
      (0xD1, optional, notApplicable, optional),
      (0xD2, optional, notApplicable, optional),
      (0xD3, optional, notApplicable, optional),
      (0xD4, optional, notApplicable, optional),
      (0xD5, optional, notApplicable, optional),
      (0xD8, optional, notApplicable, optional),
      (0xDA, optional, notApplicable, optional),
      (0xDC, optional, notApplicable, optional),
      (0xE0, optional, notApplicable, optional),
      (0xE2, optional, optional, optional),
      (0xE3, optional, optional, optional),
      (0xE4, optional, optional, optional),
      (0xE5, optional, optional, optional),
      (0xE6, optional, optional, optional),
      (0xE9, optional, optional, optional),
      (0xEA, optional, optional, optional),
      (0xEB, optional, optional, optional),
      (0xEC, optional, optional, optional),
      (0xED, optional, optional, optional)
    ] }

/-- std/objects_mra.py:1079-1086 -/
def mra_0135 : StdEntry :=
  { key := (0x01, 0x35), group := 0x01, cls := 0x35
    props := [
      (0x80, required, required, required),
      (0xA0, optional, optional, optional),
      (0xC0, optional, notApplicable, optional),
      (0xC1, optional, notApplicable, optional),
      (0xC2, optional, optional, optional),
      (0xE1, optional, notApplicable, optional)
    ] }

/-- std/objects_mra.py:1089-1104 -/
def mra_0288 : StdEntry :=
  { key := (0x02, 0x88), group := 0x02, cls := 0x88
    props := [
      (0xD3, optional, notApplicable, optional),
      (0xD7, required, notApplicable, optional),
      (0xE0, required, notApplicable, optional),
      (0xE1, required, notApplicable, optional),
      (0xE2, required, notApplicable, optional),
      (0xE3, requiredC, notApplicable, optional),
      (0xE4, requiredC, notApplicable, optional),
      (0xE5, required, required, optional),
      (0xE7, required, notApplicable, optional),
      (0xE8, required, notApplicable, optional),
      (0xEA, required, notApplicable, optional),
      (0xEB, requiredC, notApplicable, optional),
      (0xEC, optional, notApplicable, optional),
      (0xED, optional, optional, optional)
    ] }

/-- The entries of std/objects_scsl.py in file order. -/
@[irreducible] def scsl : List StdEntry := [
  scsl_0001, scsl_0002, scsl_0003, scsl_0004, scsl_0005, scsl_0006,
  scsl_0007, scsl_0008, scsl_0009, scsl_000A, scsl_000B, scsl_000C,
  scsl_000D, scsl_000E, scsl_000F, scsl_0010, scsl_0011, scsl_0012,
  scsl_0013, scsl_0014, scsl_0015, scsl_0016, scsl_0017, scsl_0018,
  scsl_0019, scsl_001A, scsl_001B, scsl_001C, scsl_001D, scsl_001E,
  scsl_001F, scsl_0020, scsl_0021, scsl_0022, scsl_0023, scsl_0025,
  scsl_0026, scsl_0027, scsl_0028, scsl_0029, scsl_002A, scsl_002B,
  scsl_002C, scsl_0130, scsl_0133, scsl_0134, scsl_0135, scsl_0139,
  scsl_0142, scsl_0143, scsl_0145, scsl_0146, scsl_0260, scsl_0261,
  scsl_0263, scsl_0267, scsl_026B, scsl_026E, scsl_026F, scsl_0272,
  scsl_0273, scsl_0279, scsl_027A, scsl_027B, scsl_027C, scsl_027D,
  scsl_027E, scsl_027F, scsl_0280, scsl_0281, scsl_0282, scsl_0283,
  scsl_0287, scsl_0288, scsl_0289, scsl_0290, scsl_02A0, scsl_03B2,
  scsl_03B7, scsl_03B8, scsl_03B9, scsl_03BB, scsl_03C5, scsl_03C6,
  scsl_03D3, scsl_0401, scsl_05FD, scsl_0601, scsl_0602
]

/-- The entries of std/objects_mra.py in file order. -/
@[irreducible] def mra : List StdEntry := [
  mra_0000, mra_0EF0, mra_02A6, mra_05FD, mra_0272, mra_03CE,
  mra_00D0, mra_0602, mra_027E, mra_0157, mra_0012, mra_0291,
  mra_0287, mra_026B, mra_0290, mra_027D, mra_0156, mra_03BB,
  mra_028A, mra_03B9, mra_001D, mra_0273, mra_03D4, mra_027C,
  mra_0281, mra_0130, mra_0022, mra_03D3, mra_0263, mra_001B,
  mra_0023, mra_02A1, mra_0280, mra_0003, mra_0279, mra_027B,
  mra_0016, mra_027A, mra_028D, mra_02A3, mra_0133, mra_028E,
  mra_026F, mra_0282, mra_0134, mra_05FF, mra_02A4, mra_0011,
  mra_0007, mra_03B7, mra_0135, mra_0288
]

/-- std/manufacturers.py: (key, code, name) in file order. -/
@[irreducible] def manufacturers : List (Int × Int × String) := [
  (0x00002F, 0x00002F, "AIPHONE CO., LTD."),
  (0x00011A, 0x00011A, "ACCESS CO.,LTD."),
  (0x00002C, 0x00002C, "AFT CO.,LTD"),
  (0x000068, 0x000068, "AISIN CORPORATION"),
  (0x000079, 0x000079, "Anritsu Engineering Co.,Ltd,"),
  (0x00007F, 0x00007F, "ANRITSU CUSTOMER SUPPORT CO., LTD."),
  (0x000110, 0x000110, "ASUKA SOLUTION COMPANY LIMITED"),
  (0x000096, 0x000096, "Azbil Corporation"),
  (0x0000FD, 0x0000FD, "Bellnix Co.,LTD"),
  (0x00006F, 0x00006F, "BUFFALO INC."),
  (0x0000B6, 0x0000B6, "Bunka Shutter Co., Ltd"),
  (0x0000D2, 0x0000D2, "CHOFUKOSAN.Co.Ltd"),
  (0x000088, 0x000088, "CHOFU SEISAKUSHO CO.,LTD."),
  (0x0000D5, 0x0000D5, "Choshu Industry Co., Ltd."),
  (0x0000A3, 0x0000A3, "Chubu Electric Power Grid Co.,Inc."),
  (0x0000FB, 0x0000FB, "CICO CORPORATION"),
  (0x0000F8, 0x0000F8, "CIMX INITIATIVE INC."),
  (0x000123, 0x000123, "Contec Co., Ltd."),
  (0x000130, 0x000130, "COOLDESIGN Corporation"),
  (0x000067, 0x000067, "CORONA CORPORATION"),
  (0x00009C, 0x00009C, "Diamond Electric Mfg.Co.,Ltd."),
  (0x000080, 0x000080, "DIAMOND&ZEBRA ELECTRIC MFG.CO.,LTD."),
  (0x000119, 0x000119, "DAIHEN Corporation"),
  (0x000008, 0x000008, "DAIKIN INDUSTRIES,LTD."),
  (0x000015, 0x000015, "Daikin Systems&Solutions Laboratory Ltd."),
  (0x00004F, 0x00004F, "Daiwa House Industry co.,Ltd"),
  (0x000103, 0x000103, "Data Technology Inc."),
  (0x0000E3, 0x0000E3, "DDL Co.,Ltd"),
  (0x0000AD, 0x0000AD, "Delta Electronics (Japan), Inc."),
  (0x0000BE, 0x0000BE, "DENKEN Co.,Ltd."),
  (0x0000F4, 0x0000F4, "DENSO AIRCOOL CORPORATION"),
  (0x00003C, 0x00003C, "DENSO Corporation"),
  (0x000109, 0x000109, "DENSO Co.,LTD."),
  (0x00012B, 0x00012B, "DENSO WAVE INCORPORATED"),
  (0x000113, 0x000113, "EBARA JITSUGYO POWER CO., LTD."),
  (0x000057, 0x000057, "ELIIYPower Co.,ltd"),
  (0x00012E, 0x00012E, "Eneres Co.,Ltd."),
  (0x000041, 0x000041, "ENEGATE CO.,LTD."),
  (0x00010A, 0x00010A, "ENERGY GAP CORPORATION"),
  (0x0000F3, 0x0000F3, "Energy Gateway, Inc"),
  (0x0000F2, 0x0000F2, "Energy Solutions Inc."),
  (0x000072, 0x000072, "Eneres Co.,Ltd."),
  (0x0000DD, 0x0000DD, "EneStone Corporation"),
  (0x000132, 0x000132, "EX4Energy, Inc."),
  (0x000055, 0x000055, "FAMILYNET JAPAN CORPORATION"),
  (0x0000F6, 0x0000F6, "Field Logic Inc."),
  (0x00012F, 0x00012F, "FORMOSA BIO AND ENERGY CORP JAPAN"),
  (0x0000CB, 0x0000CB, "Fuji Electric Co.,Ltd"),
  (0x0000FC, 0x0000FC, "FUJI INDUSTRIAL CO.,Ltd."),
  (0x000051, 0x000051, "Fuji IT Co.,Ltd."),
  (0x00008A, 0x00008A, "FUJITSU GENERAL LIMITED"),
  (0x00004E, 0x00004E, "FUJITSU LIMITED"),
  (0x000090, 0x000090, "Fujitsu Component Limited"),
  (0x0000DE, 0x0000DE, "FUJIFILM Business Innovation Japan Corp"),
  (0x000097, 0x000097, "Future Technology Laboratories, Inc."),
  (0x00009B, 0x00009B, "GASTAR Co.,Ltd"),
  (0x00008F, 0x00008F, "Glamo Inc."),
  (0x000129, 0x000129, "GoodWe Japan K.K"),
  (0x00009F, 0x00009F, "GS Yuasa International Ltd"),
  (0x000122, 0x000122, "Hanwha Q CELLS Japan CO.,LTD."),
  (0x000001, 0x000001, "Hitachi, Ltd."),
  (0x000022, 0x000022, "Hitachi Global Life Solutions, Inc."),
  (0x000040, 0x000040, "Hitachi High-Tech Solutions Corporation"),
  (0x000044, 0x000044, "Hitachi Industrial Equipment Systems Co.,Ltd."),
  (0x0000CC, 0x0000CC, "Hitachi-Johnson Controls Air Conditioning,Inc."),
  (0x0000E5, 0x0000E5, "Hitachi Power Solutions Co.,Ltd."),
  (0x0000E6, 0x0000E6, "Hokkaido Electrical Safety Services Foundation"),
  (0x0000B8, 0x0000B8, "Hokkaido Electric Power Co.,Inc."),
  (0x0000BB, 0x0000BB, "Hokuriku Electric Power Transmission & Distribution Company"),
  (0x0000A1, 0x0000A1, "Honda R&D Co., Ltd."),
  (0x000115, 0x000115, "HUAWEI TECHNOLOGIES JAPAN K.K."),
  (0x0000AC, 0x0000AC, "IDEC COROPRATION"),
  (0x00004D, 0x00004D, "INABA DENKI SANGYO CO.,LTD."),
  (0x000056, 0x000056, "iND Co.,Ltd"),
  (0x0000ED, 0x0000ED, "INFINI Co. LTD"),
  (0x000124, 0x000124, "INTEC Inc."),
  (0x0000B1, 0x0000B1, "Internet Initiative Japan Inc."),
  (0x000087, 0x000087, "I-O DATA DEVICE,INC."),
  (0x00006B, 0x00006B, "ISB Corporation"),
  (0x00010F, 0x00010F, "Iwatani Corporation"),
  (0x000081, 0x000081, "IWATSU ELECTRIC CO., LTD."),
  (0x0000C3, 0x0000C3, "Japan Electric Meters Inspection Corporation"),
  (0x0000F7, 0x0000F7, "JCity,Inc."),
  (0x0000CA, 0x0000CA, "JSP CO.,LTD."),
  (0x0000D7, 0x0000D7, "Kaga Electronics co.,ltd."),
  (0x000077, 0x000077, "Kanagawa Institute of Technology"),
  (0x000063, 0x000063, "Kawamura Electric Inc."),
  (0x0000F0, 0x0000F0, "KANEKA CORPORATION"),
  (0x00010B, 0x00010B, "KITANIHON ELECTRIC CABLE CO.,LTD."),
  (0x0000E8, 0x0000E8, "KOIZUMI LIGHTING TECHNOLOGY CORP."),
  (0x00003B, 0x00003B, "KYOCERA Corporation"),
  (0x00008C, 0x00008C, "Kyuden Technosystems Corporation"),
  (0x0000BF, 0x0000BF, "KYUSHU ELECTRIC POWER TRANSMISSION AND DISTRIBUTION CO.,INC."),
  (0x0000F1, 0x0000F1, "Laplace Systems Co., Ltd."),
  (0x000125, 0x000125, "LiveSmart KK"),
  (0x000025, 0x000025, "LIXIL Corporation"),
  (0x0000E0, 0x0000E0, "Looop Inc"),
  (0x00010C, 0x00010C, "MAX CO., LTD."),
  (0x000078, 0x000078, "Maxell, Ltd."),
  (0x000058, 0x000058, "Mediotec Corporation"),
  (0x000120, 0x000120, "Meisei electric co.,ltd."),
  (0x000083, 0x000083, "Melco Techno Yokohama Corporation"),
  (0x000006, 0x000006, "Mitsubishi Electric Corp."),
  (0x000034, 0x000034, "MITSUBISHI ELECTRIC ENGINEERING COMPANY LIMITED"),
  (0x000105, 0x000105, "Mitsubishi Electric Lighting Corporation"),
  (0x00012A, 0x00012A, "Monochrome Inc."),
  (0x00011D, 0x00011D, "mui Lab, Inc."),
  (0x0000D4, 0x0000D4, "Murata Manufacturing Co.,Ltd."),
  (0x0000B0, 0x0000B0, "NALTEC, Inc."),
  (0x000106, 0x000106, "Nature Inc."),
  (0x000009, 0x000009, "NEC Corp."),
  (0x000118, 0x000118, "NEC Magnus Communications, Ltd"),
  (0x000073, 0x000073, "NEC Platforms, Ltd."),
  (0x000091, 0x000091, "NEC Platforms, Ltd."),
  (0x0000E2, 0x0000E2, "NextDrive Inc."),
  (0x000104, 0x000104, "Next Energy & Resources Co., Ltd."),
  (0x0000B2, 0x0000B2, "NF Blossom Technologies, Inc."),
  (0x0000A5, 0x0000A5, "Nichibei Co., Ltd."),
  (0x00006C, 0x00006C, "NICHICON CORPORATION"),
  (0x0000EB, 0x0000EB, "NICHICON (KAMEOKA) CORPORATION"),
  (0x000102, 0x000102, "NICHICON (KUSATSU) CORPORATION"),
  (0x000112, 0x000112, "NICHIEI INTEC CO., LTD"),
  (0x000071, 0x000071, "NIHON SANGYO CO.,LTD."),
  (0x0000DC, 0x0000DC, "NIHON TECHNO CO.,LTD."),
  (0x00008D, 0x00008D, "NIPPON TELEGRAPH AND TELEPHONE CORPORATION"),
  (0x000047, 0x000047, "NIPPON TELEGRAPH AND TELEPHONE EAST CORPORATION"),
  (0x000086, 0x000086, "NIPPON TELEGRAPH AND TELEPHONE WEST CORPORATION"),
  (0x000036, 0x000036, "NISSIN SYSTEMS CO., LTD."),
  (0x0000B7, 0x0000B7, "Nitto Kogyo Corporation"),
  (0x000054, 0x000054, "NORITZ CORP."),
  (0x00007C, 0x00007C, "NSW Inc."),
  (0x0000A0, 0x0000A0, "NTT Advanced Technology Corporation"),
  (0x000023, 0x000023, "NTT COMWARE CORPORATION"),
  (0x000061, 0x000061, "NTT DATA INTELLILINK CORPORATION"),
  (0x0000E9, 0x0000E9, "NTT Smile Energy Inc."),
  (0x0000F5, 0x0000F5, "ODELIC CO., LTD."),
  (0x000012, 0x000012, "Oi Electric Co., Ltd"),
  (0x00006A, 0x00006A, "OKAYA & CO., LTD."),
  (0x000114, 0x000114, "OkayaKiden Co.,Ltd."),
  (0x000048, 0x000048, "Oki Electric Industry Co., Ltd."),
  (0x000064, 0x000064, "OMRON SOCIAL SOLUTIONS CO.,LTD."),
  (0x00012C, 0x00012C, "Onamba Co., Ltd."),
  (0x0000D8, 0x0000D8, "OSAKI DATATECH CO.,LTD."),
  (0x000052, 0x000052, "OSAKI ELECTRIC CO.,LTD."),
  (0x000127, 0x000127, "Paloma Co.,Ltd."),
  (0x00000B, 0x00000B, "Panasonic Holdings Corporation"),
  (0x0000DA, 0x0000DA, "Panasonic Commercial Equipment Systems Co.,Ltd."),
  (0x0000FE, 0x0000FE, "Panasonic Ecology Systems Co.,Ltd."),
  (0x0000FA, 0x0000FA, "Plat'Home Co."),
  (0x000082, 0x000082, "PURPOSE CO.,LTD."),
  (0x000059, 0x000059, "Rinnai Corporation"),
  (0x000128, 0x000128, "SAIKOH ENGINEERING Co.,Ltd."),
  (0x00011E, 0x00011E, "SAKAIGAWA CO., LTD"),
  (0x00011C, 0x00011C, "SANDEN RETAIL SYSTEMS CORPORATION"),
  (0x00010E, 0x00010E, "SANIX INCORPORATED"),
  (0x0000BA, 0x0000BA, "SankyoTateyama, Inc."),
  (0x0000C5, 0x0000C5, "SANWA SHUTTER CORPORATION"),
  (0x000093, 0x000093, "SATORI ELECTRIC CO.,LTD."),
  (0x000107, 0x000107, "SEIKO ELECTRIC CO.,LTD."),
  (0x00003A, 0x00003A, "SEKISUI HOUSE, LTD."),
  (0x000005, 0x000005, "Sharp Corp"),
  (0x000131, 0x000131, "Shenzhen Eternalplanet Energy Pingshan Ltd."),
  (0x0000AE, 0x0000AE, "SHIKOKU ELECTRIC POWER CO.,INC."),
  (0x00002E, 0x00002E, "SHIKOKU INSTRUMENTATION CO.,LTD"),
  (0x0000CE, 0x0000CE, "SHINDENGEN ELECTRIC MANUFACTURING CO.LTD."),
  (0x00010D, 0x00010D, "Shizen Energy Inc."),
  (0x0000A8, 0x0000A8, "Smart Power System. Co,. Ltd."),
  (0x0000DF, 0x0000DF, "SMA Japan K.K."),
  (0x000100, 0x000100, "Smart Solar Corporation"),
  (0x00007E, 0x00007E, "SMK Corporation"),
  (0x0000E1, 0x0000E1, "SoftBank Corp."),
  (0x00011B, 0x00011B, "SolaX Power Network Technology (Zhe jiang) Co. , Ltd."),
  (0x000060, 0x000060, "Sony Computer Science Laboratories, Inc."),
  (0x00006E, 0x00006E, "Soundvision co.,ltd."),
  (0x000108, 0x000108, "SOUSEI Technology Inc."),
  (0x000116, 0x000116, "Sungrow Power Supply Co., Ltd."),
  (0x000101, 0x000101, "Sunpot Co., Ltd"),
  (0x0000DB, 0x0000DB, "Suntech Power Japan Corporation"),
  (0x00003D, 0x00003D, "SUMITOMO ELECTRIC INDUSTRIES, LTD."),
  (0x00003E, 0x00003E, "SUMITOMO ELECTRIC NETWORKS, INC."),
  (0x000085, 0x000085, "TAKAOKA TOKO CO.,LTD"),
  (0x0000AF, 0x0000AF, "Takara Standard Co.,Ltd"),
  (0x0000E4, 0x0000E4, "technoeye Inc."),
  (0x0000FF, 0x0000FF, "TEPCO Energy Partner, Inc."),
  (0x0000EE, 0x0000EE, "TESSERA TECHNOLOGY INC."),
  (0x0000B5, 0x0000B5, "The Chugoku Electric Power Co., Ltd"),
  (0x00009A, 0x00009A, "The Kansai Electric Power Co., Inc."),
  (0x0000CD, 0x0000CD, "TOCLAS CORPORATION"),
  (0x000126, 0x000126, "Togami Electric Mfg.co.,Ltd."),
  (0x0000F9, 0x0000F9, "TOHO ELECTRONICS INC."),
  (0x0000C2, 0x0000C2, "Tohoku Electric Meter Industry Co.,Inc"),
  (0x0000BC, 0x0000BC, "TohokuElectric Power Network Company,Incorporated"),
  (0x000099, 0x000099, "Tokyo Electric Power Company Holdings, Inc."),
  (0x0000B3, 0x0000B3, "TOPPERS Project, Inc."),
  (0x000111, 0x000111, "Topre Corporation"),
  (0x000017, 0x000017, "TOSHIBA CARRIER CORPORATION"),
  (0x000016, 0x000016, "Toshiba Corp."),
  (0x000043, 0x000043, "TOSHIBA DEVELOPMENT & ENGINEERING CORPORATION"),
  (0x0000EC, 0x0000EC, "Toshiba Energy Systems & Solutions Corporation"),
  (0x0000D9, 0x0000D9, "Toshiba IT & Control Systems Corporation"),
  (0x000069, 0x000069, "Toshiba Lifestyle Products & Services Corporation"),
  (0x00001B, 0x00001B, "TOSHIBA LIGHTING & TECHNOLOGY CORPORATION"),
  (0x000035, 0x000035, "Toshiba Toko Meter Systems Co.,Ltd."),
  (0x000050, 0x000050, "TOTO LTD."),
  (0x0000EF, 0x0000EF, "TOYOTA INDUSTRIES CORPORATION"),
  (0x000121, 0x000121, "TOYOTA MOTOR CORPORATION"),
  (0x00011F, 0x00011F, "TOYOTA TSUSHO CORPORATION"),
  (0x00005C, 0x00005C, "Tranceboot Co.,Ltd."),
  (0x000076, 0x000076, "TSP CO.,Ltd"),
  (0x0000D0, 0x0000D0, "TSUBAKIMOTO CHAIN CO."),
  (0x0000C1, 0x0000C1, "Tsuken Electric Ind Co., Ltd."),
  (0x000053, 0x000053, "Ubiquitous AI Corporation"),
  (0x000117, 0x000117, "WWB Corporation"),
  (0x000095, 0x000095, "Yamato Denki Co.,Ltd."),
  (0x00009E, 0x00009E, "YASKAWA ELECTRIC CORPORATION"),
  (0x00007A, 0x00007A, "ZUKEN ELMIC,INC."),
  (0x0000B4, 0x0000B4, "4R Energy Corporation"),
  (0xFFFFFF, 0xFFFFFF, "Experimental"),
  (0xFFFFFE, 0xFFFFFE, "Undefined")
]

end Uecho.StdData
