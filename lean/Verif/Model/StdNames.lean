/- GENERATED by tools/gen_names.py from uecho/std/objects_mra.py and objects_scsl.py: the names of classes, and
names, types and sizes of properties. -/
import Verif.Model.NamesRaw

namespace Uecho.StdNames

/-- std/objects_scsl.py:31-36 -/
def scsl_0001 : NameEntry :=
  { key := (0x00, 0x01), name := "Gas leak sensor"
    props := [
      (0x80, "Operation status", "unsigned char", 1),
      (0xB0, "Detection threshold level", "unsigned char", 1),
      (0xB1, "Gas leak occurrence status", "unsigned char", 1),
      (0xBF, "Gas leak occurrence status resetting", "unsigned char", 1)
    ] }

/-- std/objects_scsl.py:39-44 -/
def scsl_0002 : NameEntry :=
  { key := (0x00, 0x02), name := "Crime prevention sensor"
    props := [
      (0x80, "Operation status", "unsigned char", 1),
      (0xB0, "Detection threshold level", "unsigned char", 1),
      (0xB1, "Invasion occurrence status", "unsigned char", 1),
      (0xBF, "Invasion occurrence status resetting", "unsigned char", 1)
    ] }

/-- std/objects_scsl.py:47-51 -/
def scsl_0003 : NameEntry :=
  { key := (0x00, 0x03), name := "Emergency button"
    props := [
      (0x80, "Operation status", "unsigned char", 1),
      (0xB1, "Emergency occurrence status", "unsigned char", 1),
      (0xBF, "Emergency occurrence status resetting", "unsigned char", 1)
    ] }

/-- std/objects_scsl.py:54-59 -/
def scsl_0004 : NameEntry :=
  { key := (0x00, 0x04), name := "First-aid sensor"
    props := [
      (0x80, "Operation status", "unsigned char", 1),
      (0xB0, "Detection threshold level", "unsigned char", 1),
      (0xB1, "First-aid occurrence status", "unsigned char", 1),
      (0xBF, "First-aid occurrence status resetting", "unsigned char", 1)
    ] }

/-- std/objects_scsl.py:62-67 -/
def scsl_0005 : NameEntry :=
  { key := (0x00, 0x05), name := "Earthquake sensor"
    props := [
      (0x80, "Operation status", "unsigned char", 1),
      (0xB0, "Detection threshold level", "unsigned char", 1),
      (0xB1, "Earthquake occurrence status", "unsigned char", 1),
      (0xBF, "Earthquake occurrence status resetting", "unsigned char", 1)
    ] }

/-- std/objects_scsl.py:70-75 -/
def scsl_0006 : NameEntry :=
  { key := (0x00, 0x06), name := "Electric leak sensor"
    props := [
      (0x80, "Operation status", "unsigned char", 1),
      (0xB0, "Detection threshold level", "unsigned char", 1),
      (0xB1, "Electric leak occurrence status", "unsigned char", 1),
      (0xBF, "Electric leak occurrence status resetting", "unsigned char", 1)
    ] }

/-- std/objects_scsl.py:78-82 -/
def scsl_0007 : NameEntry :=
  { key := (0x00, 0x07), name := "Human detection sensor"
    props := [
      (0x80, "Operation status", "unsigned char", 1),
      (0xB0, "Detection threshold level", "unsigned char", 1),
      (0xB1, "Human detection status", "unsigned char", 1)
    ] }

/-- std/objects_scsl.py:85-90 -/
def scsl_0008 : NameEntry :=
  { key := (0x00, 0x08), name := "Visitor sensor"
    props := [
      (0x80, "Operation status", "unsigned char", 1),
      (0xB0, "Detection threshold level", "unsigned char", 1),
      (0xB1, "Visitor detection status", "unsigned char", 1),
      (0xBE, "Visitor detection holding time", "unsigned short", 2)
    ] }

/-- std/objects_scsl.py:93-98 -/
def scsl_0009 : NameEntry :=
  { key := (0x00, 0x09), name := "Call sensor"
    props := [
      (0x80, "Operation status", "unsigned char", 1),
      (0xB0, "Detection threshold level", "unsigned char", 1),
      (0xB1, "Call status", "unsigned char", 1),
      (0xBE, "Call holding time", "unsigned short", 2)
    ] }

/-- std/objects_scsl.py:101-105 -/
def scsl_000A : NameEntry :=
  { key := (0x00, 0x0A), name := "Condensation sensor"
    props := [
      (0x80, "Operation status", "unsigned char", 1),
      (0xB0, "Detection threshold level", "unsigned char", 1),
      (0xB1, "Condensation detection status", "unsigned char", 1)
    ] }

/-- std/objects_scsl.py:108-112 -/
def scsl_000B : NameEntry :=
  { key := (0x00, 0x0B), name := "Air pollution sensor"
    props := [
      (0x80, "Operation status", "unsigned char", 1),
      (0xB0, "Detection threshold level", "unsigned char", 1),
      (0xB1, "Air pollution detection status", "unsigned char", 1)
    ] }

/-- std/objects_scsl.py:115-118 -/
def scsl_000C : NameEntry :=
  { key := (0x00, 0x0C), name := "Oxygen sensor"
    props := [
      (0x80, "Operation status", "unsigned short", 1),
      (0xE0, "Measured value of oxygen concentration", "unsigned short", 2)
    ] }

/-- std/objects_scsl.py:121-125 -/
def scsl_000D : NameEntry :=
  { key := (0x00, 0x0D), name := "Illuminance sensor"
    props := [
      (0x80, "Operation status", "unsigned short", 1),
      (0xE0, "Measured illuminance value 1", "unsigned short", 2),
      (0xE1, "Measured illuminance value 2", "unsigned short", 2)
    ] }

/-- std/objects_scsl.py:128-133 -/
def scsl_000E : NameEntry :=
  { key := (0x00, 0x0E), name := "Sound sensor"
    props := [
      (0x80, "Operation status", "unsigned char", 1),
      (0xB0, "Detection threshold level", "unsigned char", 1),
      (0xB1, "Sound detection status", "unsigned char", 1),
      (0xBE, "Sound detection holding time", "unsigned short", 2)
    ] }

/-- std/objects_scsl.py:136-140 -/
def scsl_000F : NameEntry :=
  { key := (0x00, 0x0F), name := "Mailing sensor"
    props := [
      (0x80, "Operation status", "unsigned char", 1),
      (0xB0, "Detection threshold level", "unsigned char", 1),
      (0xB1, "Mailing detection status", "unsigned char", 1)
    ] }

/-- std/objects_scsl.py:143-147 -/
def scsl_0010 : NameEntry :=
  { key := (0x00, 0x10), name := "Weight sensor"
    props := [
      (0x80, "Operation status", "unsigned char", 1),
      (0xB0, "Detection threshold level", "unsigned char", 1),
      (0xB1, "Weight detection status", "unsigned char", 1)
    ] }

/-- std/objects_scsl.py:150-153 -/
def scsl_0011 : NameEntry :=
  { key := (0x00, 0x11), name := "Temperature sensor"
    props := [
      (0x80, "Operation status", "unsigned char", 1),
      (0xE0, "Measured temperature value", "signed short", 2)
    ] }

/-- std/objects_scsl.py:156-159 -/
def scsl_0012 : NameEntry :=
  { key := (0x00, 0x12), name := "Humidity sensor"
    props := [
      (0x80, "Operation status", "unsigned char", 1),
      (0xE0, "Measured value of relative humidity", "unsigned char", 1)
    ] }

/-- std/objects_scsl.py:162-166 -/
def scsl_0013 : NameEntry :=
  { key := (0x00, 0x13), name := "Rain sensor"
    props := [
      (0x80, "Operation status", "unsigned char", 1),
      (0xB0, "Detection threshold level", "unsigned char", 1),
      (0xB1, "Rain detection status", "unsigned char", 1)
    ] }

/-- std/objects_scsl.py:169-174 -/
def scsl_0014 : NameEntry :=
  { key := (0x00, 0x14), name := "Water level sensor"
    props := [
      (0x80, "Operation status", "unsigned char", 1),
      (0xB0, "Water level over detection threshold level", "unsigned char", 1),
      (0xB1, "Water level over detection status", "unsigned char", 1),
      (0xE0, "Measured value of water level", "unsigned char", 1)
    ] }

/-- std/objects_scsl.py:177-182 -/
def scsl_0015 : NameEntry :=
  { key := (0x00, 0x15), name := "Bath water level sensor"
    props := [
      (0x80, "Operation status", "unsigned char", 1),
      (0xB0, "Bath water level over detection threshold level", "unsigned char", 1),
      (0xB1, "Bath water level over detection status", "unsigned char", 1),
      (0xE0, "Measured value of bath water level", "unsigned char", 1)
    ] }

/-- std/objects_scsl.py:185-189 -/
def scsl_0016 : NameEntry :=
  { key := (0x00, 0x16), name := "Bath heating status sensor"
    props := [
      (0x80, "Operation status", "unsigned char", 1),
      (0xB0, "Detection threshold level", "unsigned char", 1),
      (0xB1, "Bath heating detection status", "unsigned char", 1)
    ] }

/-- std/objects_scsl.py:192-196 -/
def scsl_0017 : NameEntry :=
  { key := (0x00, 0x17), name := "Water leak sensor"
    props := [
      (0x80, "Operation status", "unsigned char", 1),
      (0xB0, "Detection threshold level", "unsigned char", 1),
      (0xB1, "Water leak detection status", "unsigned char", 1)
    ] }

/-- std/objects_scsl.py:199-203 -/
def scsl_0018 : NameEntry :=
  { key := (0x00, 0x18), name := "Water overflow sensor"
    props := [
      (0x80, "Operation status", "unsigned char", 1),
      (0xB0, "Detection threshold level", "unsigned char", 1),
      (0xB1, "Water overflow detection status", "unsigned char", 1)
    ] }

/-- std/objects_scsl.py:206-211 -/
def scsl_0019 : NameEntry :=
  { key := (0x00, 0x19), name := "Fire sensor"
    props := [
      (0x80, "Operation status", "unsigned char", 1),
      (0xB0, "Detection threshold level", "unsigned char", 1),
      (0xB1, "Fire occurrence detection status", "unsigned char", 1),
      (0xBF, "Fire occurrence detection status resetting", "unsigned char", 1)
    ] }

/-- std/objects_scsl.py:214-218 -/
def scsl_001A : NameEntry :=
  { key := (0x00, 0x1A), name := "Cigarette smoke sensor"
    props := [
      (0x80, "Operation status", "unsigned char", 1),
      (0xB0, "Detection threshold level", "unsigned char", 1),
      (0xB1, "Smoke (cigarette) detection status", "unsigned char", 1)
    ] }

/-- std/objects_scsl.py:221-224 -/
def scsl_001B : NameEntry :=
  { key := (0x00, 0x1B), name := "CO2 sensor"
    props := [
      (0x80, "Operation status", "unsigned char", 1),
      (0xE0, "Measured value of CO2 concentration", "unsigned short", 2)
    ] }

/-- std/objects_scsl.py:227-232 -/
def scsl_001C : NameEntry :=
  { key := (0x00, 0x1C), name := "Gas sensor"
    props := [
      (0x80, "Operation status", "unsigned char", 1),
      (0xB0, "Detection threshold level", "unsigned char", 1),
      (0xB1, "Gas detection status", "unsigned char", 1),
      (0xE0, "Measured value of gas concentration", "unsigned short", 2)
    ] }

/-- std/objects_scsl.py:235-240 -/
def scsl_001D : NameEntry :=
  { key := (0x00, 0x1D), name := "VOC sensor"
    props := [
      (0x80, "Operation status", "unsigned char", 1),
      (0xB0, "Detection threshold level", "unsigned char", 1),
      (0xB1, "VOC detection status", "unsigned char", 1),
      (0xE0, "Measured value of VOC concentration", "unsigned short", 2)
    ] }

/-- std/objects_scsl.py:243-246 -/
def scsl_001E : NameEntry :=
  { key := (0x00, 0x1E), name := "Differential pressure sensor"
    props := [
      (0x80, "Operation status", "unsigned char", 1),
      (0xE0, "Measured value of differential pressure", "signed short", 2)
    ] }

/-- std/objects_scsl.py:249-253 -/
def scsl_001F : NameEntry :=
  { key := (0x00, 0x1F), name := "Air speed sensor"
    props := [
      (0x80, "Operation status", "unsigned char", 1),
      (0xE0, "Measured value of air speed", "unsigned short", 2),
      (0xE1, "Air flow direction", "unsigned short", 2)
    ] }

/-- std/objects_scsl.py:256-261 -/
def scsl_0020 : NameEntry :=
  { key := (0x00, 0x20), name := "Odor sensor"
    props := [
      (0x80, "Operation status", "unsigned char", 1),
      (0xB0, "Detection threshold level", "unsigned char", 1),
      (0xB1, "Odor detection status", "unsigned char", 1),
      (0xE0, "Measured odor value", "unsigned char", 1)
    ] }

/-- std/objects_scsl.py:264-269 -/
def scsl_0021 : NameEntry :=
  { key := (0x00, 0x21), name := "Flame sensor"
    props := [
      (0x80, "Operation status", "unsigned char", 1),
      (0xB0, "Detection threshold level", "unsigned char", 1),
      (0xB1, "Flame detection status", "unsigned char", 1),
      (0xBF, "Flame detection status resetting", "unsigned char", 1)
    ] }

/-- std/objects_scsl.py:272-280 -/
def scsl_0022 : NameEntry :=
  { key := (0x00, 0x22), name := "Electric energy sensor"
    props := [
      (0x80, "Operation status", "unsigned char", 1),
      (0xE0, "Integral electric energy", "unsigned long", 4),
      (0xE1, "Medium-capacity sensor instantaneous electric energy", "signed long", 4),
      (0xE2, "Small-capacity sensor instantaneous electric energy", "signed short", 2),
      (0xE3, "Large-capacity sensor instantaneous electric energy", "signed short", 2),
      (0xE4, "Integral electric energy measurement log", "unsigned long × 48", 192),
      (0xE5, "Effective voltage value", "unsigned short", 2)
    ] }

/-- std/objects_scsl.py:283-288 -/
def scsl_0023 : NameEntry :=
  { key := (0x00, 0x23), name := "Current value sensor"
    props := [
      (0x80, "Operation status", "unsigned char", 1),
      (0xE0, "Measured current value 1", "unsigned long", 4),
      (0xE1, "Rated voltage to be measured", "unsigned short", 2),
      (0xE2, "Measured current value 2", "unsigned long", 4)
    ] }

/-- std/objects_scsl.py:291-295 -/
def scsl_0025 : NameEntry :=
  { key := (0x00, 0x25), name := "Water flow rate sensor"
    props := [
      (0x80, "Operation status", "unsigned char", 1),
      (0xE0, "Integral flow rate", "unsigned long", 4),
      (0xE2, "Flow rate", "unsigned long", 4)
    ] }

/-- std/objects_scsl.py:298-305 -/
def scsl_0026 : NameEntry :=
  { key := (0x00, 0x26), name := "Micromotion sensor"
    props := [
      (0x80, "Operation status", "unsigned char", 1),
      (0xB0, "Detection threshold level", "unsigned char", 1),
      (0xB1, "Micromotion detection status", "unsigned char", 1),
      (0xB2, "Detection counter", "unsigned short", 2),
      (0xBC, "Sampling count", "unsigned short", 2),
      (0xBD, "Sampling cycle", "unsigned short", 2)
    ] }

/-- std/objects_scsl.py:308-313 -/
def scsl_0027 : NameEntry :=
  { key := (0x00, 0x27), name := "Passage sensor"
    props := [
      (0x80, "Operation status", "unsigned char", 1),
      (0xB0, "Detection threshold level", "unsigned char", 1),
      (0xBE, "Passage detection hold time", "unsigned char", 2),
      (0xE0, "Passage detection direction", "unsigned char", 1)
    ] }

/-- std/objects_scsl.py:316-320 -/
def scsl_0028 : NameEntry :=
  { key := (0x00, 0x28), name := "Bed presence sensor"
    props := [
      (0x80, "Operation status", "unsigned char", 1),
      (0xB0, "Detection threshold level", "unsigned char", 1),
      (0xB1, "Bed presence detection status", "unsigned char", 1)
    ] }

/-- std/objects_scsl.py:323-328 -/
def scsl_0029 : NameEntry :=
  { key := (0x00, 0x29), name := "Open/close sensor"
    props := [
      (0x80, "Operation status", "unsigned char", 1),
      (0xE0, "Degree-of-openi ng detection status 1", "unsigned char", 1),
      (0xB0, "Detection threshold level", "unsigned char", 1),
      (0xB1, "Degree-of-openi ng detection status 2", "unsigned char", 1)
    ] }

/-- std/objects_scsl.py:331-337 -/
def scsl_002A : NameEntry :=
  { key := (0x00, 0x2A), name := "Activity amount sensor"
    props := [
      (0x80, "Operation status", "unsigned char", 1),
      (0xE0, "Activity amount level 1", "unsigned char × max 128", 0),
      (0xE1, "Maximum number of human body ID's", "unsigned short", 2),
      (0xE2, "Activity amount level 2", "unsigned char", 1),
      (0xE3, "Human body existence information", "unsigned char × 16", 16)
    ] }

/-- std/objects_scsl.py:340-346 -/
def scsl_002B : NameEntry :=
  { key := (0x00, 0x2B), name := "Human body location sensor"
    props := [
      (0x80, "Operation status", "unsigned char", 1),
      (0xE0, "Human body detection location 1", "unsigned char × 3 x max 128", 0),
      (0xE1, "Maximum number of human body ID's", "unsigned short", 2),
      (0xE2, "Human body detection location 2", "unsigned char × 3", 3),
      (0xE3, "Human body existence information", "unsigned char × 16", 16)
    ] }

/-- std/objects_scsl.py:349-353 -/
def scsl_002C : NameEntry :=
  { key := (0x00, 0x2C), name := "Snow sensor"
    props := [
      (0x80, "Operation status", "unsigned char", 1),
      (0xB0, "Detection threshold level", "unsigned char", 1),
      (0xB1, "Snow detection status", "unsigned char", 1)
    ] }

/-- std/objects_scsl.py:356-401 -/
def scsl_0130 : NameEntry :=
  { key := (0x01, 0x30), name := "Home air conditioner"
    props := [
      (0x80, "Operation status", "unsigned char", 1),
      (0xB0, "Operation mode setting", "unsigned char", 1),
      (0xB1, "Automatic temperature control setting", "unsigned char", 1),
      (0xB2, "Normal/high- speed/silent operation setting", "unsigned char", 1),
      (0xB3, "Set temperature value", "unsigned char", 1),
      (0xB4, "Set value of relative humidity in dehumidifying mode", "unsigned char", 1),
      (0xB5, "Set temperature value in cooling mode", "unsigned char", 1),
      (0xB6, "Set temperature value in heating mode", "unsigned char", 1),
      (0xB7, "Set temperature value in dehumidifying mode", "unsigned char", 1),
      (0xB8, "Rated power consumption", "unsigned short × 4", 8),
      (0xB9, "Measured value of current consumption", "unsigned short", 2),
      (0xBA, "Measured value of room relative humidity", "unsigned char", 1),
      (0xBB, "Measured value of room temperature", "signed char", 1),
      (0xBC, "Set temperature value of user remote control", "unsigned char", 1),
      (0xBD, "Measured cooled air temperature", "signed char", 1),
      (0xBE, "Measured outdoor air temperature", "signed char", 1),
      (0xBF, "Relative temperature setting", "unsigned char", 1),
      (0xA0, "Air flow rate setting", "unsigned char", 1),
      (0xA1, "Automatic control of air flow direction setting", "unsigned char", 1),
      (0xA3, "Automatic swing of air flow setting", "unsigned char", 1),
      (0xA4, "Air flow direction (vertical) setting", "unsigned char", 1),
      (0xA5, "Air flow direction (horizontal) setting", "unsigned char", 1),
      (0xAA, "Special state", "unsigned char", 1),
      (0xAB, "Non-priority state", "unsigned char", 1),
      (0xC0, "Ventilation function setting", "unsigned char", 1),
      (0xC1, "Humidifier function setting", "unsigned char", 1),
      (0xC2, "Ventilation air flow rate setting", "unsigned char", 1),
      (0xC4, "Degree of humidification setting", "unsigned char", 1),
      (0xC6, "Mounted air cleaning method", "unsigned char", 1),
      (0xC7, "Air purifier function setting", "unsigned char ×8", 8),
      (0xC8, "Mounted air refresh method", "unsigned char", 1),
      (0xC9, "Air refresher function setting", "unsigned char × 8", 8),
      (0xCA, "Mounted self-cleaning method", "unsigned char", 1),
      (0xCB, "Self-cleaning function setting", "unsigned char × 8", 8),
      (0xCC, "Special function setting", "unsigned char", 1),
      (0xCD, "Operation status of components", "unsigned char", 1),
      (0xCE, "Thermostat setting override function", "unsigned char", 1),
      (0xCF, "Air purification mode setting", "unsigned char", 1),
      (0x90, "ON timer-based reservation setting", "unsigned char", 1),
      (0x91, "ON timer setting (time)", "unsigned char × 2", 2),
      (0x92, "ON timer setting (relative time)", "unsigned char × 2", 2),
      (0x94, "OFF timer-based reservation setting", "unsigned char", 1),
      (0x95, "OFF timer setting (time)", "unsigned char × 2", 2),
      (0x96, "OFF timer setting (relative time)", "unsigned char × 2", 2)
    ] }

/-- std/objects_scsl.py:404-408 -/
def scsl_0133 : NameEntry :=
  { key := (0x01, 0x33), name := "Ventilation fan"
    props := [
      (0x80, "Operation status", "unsigned char", 1),
      (0xBF, "Ventilation auto setting", "unsigned char", 1),
      (0xA0, "Set value of ventilation air flow rate", "unsigned char", 1)
    ] }

/-- std/objects_scsl.py:411-420 -/
def scsl_0134 : NameEntry :=
  { key := (0x01, 0x34), name := "Air conditioner ventilation fan"
    props := [
      (0x80, "Operation status", "unsigned char", 1),
      (0xB4, "Set value of room relative humidity", "unsigned char", 1),
      (0xBF, "Ventilation auto setting", "unsigned char", 1),
      (0xBA, "Measured value of room relative humidity", "unsigned char", 1),
      (0xA0, "Set value of ventilation air flow rate", "unsigned char", 1),
      (0xE0, "Heat exchanger operation setting", "unsigned char", 1),
      (0xC0, "Measured value of CO2 concentration", "unsigned short", 2),
      (0xC1, "Smoke (cigarette) detection status", "unsigned char", 1)
    ] }

/-- std/objects_scsl.py:423-430 -/
def scsl_0135 : NameEntry :=
  { key := (0x01, 0x35), name := "Air cleaner"
    props := [
      (0x80, "Operation status", "unsigned char", 1),
      (0xE1, "Filter change notice", "unsigned char", 1),
      (0xA0, "Air flow rate setting", "unsigned char", 1),
      (0xC1, "Smoke (cigarette) detection status", "unsigned char", 1),
      (0xC2, "Optical catalyst operation setting", "unsigned char", 1),
      (0xC0, "Air pollution detection status", "unsigned char", 1)
    ] }

/-- std/objects_scsl.py:433-444 -/
def scsl_0139 : NameEntry :=
  { key := (0x01, 0x39), name := "Humidifier"
    props := [
      (0x80, "Operation status", "unsigned char", 1),
      (0xC0, "Humidifying setting 1", "unsigned char", 1),
      (0xC1, "Humidifying setting 2", "unsigned char", 1),
      (0xB4, "Measured value of relative humidity", "unsigned char", 1),
      (0x94, "Reservation set of OFF timer", "unsigned char", 1),
      (0x96, "Relative time value set of OFF timer", "unsigned char ×2", 2),
      (0xC2, "Ion emission setting", "unsigned char", 1),
      (0xC3, "Implemented ion emission method", "unsigned char", 1),
      (0xC4, "Special operation mode setting", "unsigned short", 1),
      (0xC5, "Water amount level", "unsigned char", 1)
    ] }

/-- std/objects_scsl.py:447-460 -/
def scsl_0142 : NameEntry :=
  { key := (0x01, 0x42), name := "Electric heater"
    props := [
      (0x80, "Operation status", "unsigned char", 1),
      (0xB1, "Automatic temperature control setting", "unsigned char", 1),
      (0xB3, "Temperature setting", "unsigned char", 1),
      (0xBB, "Measured room temperature", "signed char", 1),
      (0xBC, "Remotely set temperature", "unsigned char", 1),
      (0xA0, "Air flow rate setting", "unsigned char", 1),
      (0x90, "ON timer-based reservation setting", "unsigned char", 1),
      (0x91, "ON timer setting (time)", "unsigned char × 2", 2),
      (0x92, "ON timer setting (relative time)", "unsigned char × 2", 2),
      (0x94, "OFF timer-based reservation setting", "unsigned char", 1),
      (0x95, "OFF timer setting (time)", "unsigned char × 2", 2),
      (0x96, "Set value of OFF timer relative time", "unsigned char × 2", 2)
    ] }

/-- std/objects_scsl.py:463-479 -/
def scsl_0143 : NameEntry :=
  { key := (0x01, 0x43), name := "Fan heater"
    props := [
      (0x80, "Operation status", "unsigned char", 1),
      (0xB3, "Temperature setting value", "unsigned char", 1),
      (0xBB, "Measured temperature", "signed char", 1),
      (0xB1, "Automatic temperature control setting", "unsigned char", 1),
      (0x90, "ON timer reservation setting", "unsigned char", 1),
      (0x91, "ON timer setting value (time)", "unsigned char × 2", 2),
      (0x92, "ON timer setting value (relative time)", "unsigned char × 2", 2),
      (0x94, "OFF timer reservation setting", "unsigned char", 1),
      (0x95, "OFF timer setting value (time)", "unsigned char × 2", 2),
      (0x96, "OFF timer value ( relative time)", "unsigned char × 2", 2),
      (0xC0, "Extentional operation setting", "unsigned char", 1),
      (0xC1, "Extentional operation timer time setting value", "unsigned char × 2", 2),
      (0xC2, "Ion emission setting", "unsigned char", 1),
      (0xC3, "Implemented ion emission method", "unsigned char", 1),
      (0xC4, "Oil amount level", "unsigned char", 1)
    ] }

/-- std/objects_scsl.py:482-522 -/
def scsl_0145 : NameEntry :=
  { key := (0x01, 0x45), name := "Package-type commercial air conditioner (indoor unit)"
    props := [
      (0x80, "Operation status", "unsigned char", 1),
      (0xB0, "Operation mode setting", "unsigned char", 1),
      (0xB3, "Temperature setting 1", "signed char", 1),
      (0xB4, "“Relative humidity setting for ‘dehumidifica- tion’ mode” 1", "unsigned char", 1),
      (0xB5, "“Temperature setting for ‘cooling’ mode” 1", "signed char", 1),
      (0xB6, "“Temperature setting for ‘heating’ mode” 1", "signed char", 1),
      (0xB7, "“Temperature setting for ‘dehumidifica- tion’ mode” 1", "signed char", 1),
      (0xB8, "Rated power consumption of indoor unit", "unsigned short × 4", 8),
      (0xB9, "Measured electric current consumption of indoor unit", "unsigned short", 2),
      (0xBA, "Measured indoor relative humidity 1", "unsigned char", 1),
      (0xBB, "Measured indoor temperature 1", "signed char", 1),
      (0xBF, "Relative temperature setting", "signed char", 1),
      (0xA0, "Air flow rate setting", "unsigned char", 1),
      (0xA4, "“Air flow direction (vertical)” setting", "unsigned char", 1),
      (0xA5, "“Air flow direction (horizontal)” setting", "unsigned char", 1),
      (0xAA, "“Special” state", "unsigned char", 1),
      (0xAC, "Thermostat state", "unsigned char", 1),
      (0xAE, "Current function (“automatic” operation mode)", "unsigned char", 1),
      (0xC0, "Ventilation mode setting", "unsigned char", 1),
      (0xC1, "Combined operation of indoor unit and total heat exchanger", "unsigned char", 1),
      (0xC2, "Ventilation air flow rate setting", "unsigned char", 1),
      (0xCD, "“Disabling of air conditioner” setting", "unsigned char", 1),
      (0xCE, "Thermostat setting override function", "unsigned char", 1),
      (0xCF, "Filter cleaning reminder lamp setting", "unsigned char", 1),
      (0xDB, "Measured power consumption of indoor unit", "unsigned short", 2),
      (0xDC, "Aperture of expansion valve", "unsigned char", 1),
      (0xE3, "Temperature setting 2", "unsigned short", 2),
      (0xE4, "“Relative humidity setting for ‘dehumidificatio n’ mode” 2", "unsigned short", 2),
      (0xE5, "“Temperature setting for ‘cooling’ mode” 2", "unsigned short", 2),
      (0xE6, "“Temperature setting for ‘heating’ mode” 2", "unsigned short", 2),
      (0xE7, "“Temperature setting for ‘dehumidificatio n’ mode” 2", "unsigned short", 2),
      (0xEA, "Measured indoor relative humidity 2", "unsigned short", 2),
      (0xEB, "Measured indoor temperature 2", "unsigned short", 2),
      (0x90, "“ON timer-based reservation” setting", "unsigned char", 1),
      (0x91, "ON timer setting (time)", "unsigned char×2", 2),
      (0x92, "ON timer setting (relative time)", "unsigned char×2", 2),
      (0x94, "“OFF timer-based reservation” setting", "unsigned char", 1),
      (0x95, "OFF timer setting (time)", "unsigned char×2", 2),
      (0x96, "OFF timer setting (relative time)", "unsigned char×2", 2)
    ] }

/-- std/objects_scsl.py:525-537 -/
def scsl_0146 : NameEntry :=
  { key := (0x01, 0x46), name := "Package-type commercial air conditioner (outdoor unit)"
    props := [
      (0x80, "Operation status", "unsigned char", 1),
      (0xB0, "Operation mode setting", "unsigned char", 1),
      (0xB8, "Rated power consumption of outdoor unit", "unsigned short × 3", 6),
      (0xB9, "Measured electric current consumption of outdoor unit", "unsigned short", 2),
      (0xBE, "Measured outdoor air temperature 1", "signed char", 1),
      (0xAA, "“Special” state", "unsigned char", 1),
      (0xD0, "Operation status of compressor", "unsigned char", 1),
      (0xD1, "Operation mode information", "unsigned char", 1),
      (0xD2, "Fan rotation speed", "unsigned char", 1),
      (0xDB, "Measured power consumption of outdoor unit", "unsigned short", 2),
      (0xEE, "Measured outdoor air temperature 2", "signed short", 2)
    ] }

/-- std/objects_scsl.py:540-546 -/
def scsl_0260 : NameEntry :=
  { key := (0x02, 0x60), name := "Electrically operated shade"
    props := [
      (0x80, "Operation status", "unsigned char", 1),
      (0xE0, "Open/close setting", "unsigned char", 1),
      (0xE1, "Degree-of-openi ng level", "unsigned char", 1),
      (0xE2, "Set value of shade angle", "unsigned char", 1),
      (0xE3, "Shade open/close speed", "unsigned char", 1)
    ] }

/-- std/objects_scsl.py:549-558 -/
def scsl_0261 : NameEntry :=
  { key := (0x02, 0x61), name := "Electrically operated shutter"
    props := [
      (0x80, "Operation status", "unsigned char", 1),
      (0xE0, "Open/close setting 1", "unsigned char", 1),
      (0xE1, "Extent of opening 1", "unsigned char", 1),
      (0xE2, "Blind angle setting", "unsigned char", 1),
      (0xE3, "Shutter speed", "unsigned char", 1),
      (0xE4, "Extent of opening 2", "unsigned char", 1),
      (0xE5, "Electric lock setting", "unsigned char", 1),
      (0xE7, "Open/close setting 2", "unsigned char", 1)
    ] }

/-- std/objects_scsl.py:561-570 -/
def scsl_0263 : NameEntry :=
  { key := (0x02, 0x63), name := "Electrically operated storm window"
    props := [
      (0x80, "Operation status", "unsigned char", 1),
      (0xE0, "Open/close setting 1", "unsigned char", 1),
      (0xE1, "Extent of opening 1", "unsigned char", 1),
      (0xE2, "Blind angle setting", "unsigned char", 1),
      (0xE3, "Shutter speed", "unsigned char", 1),
      (0xE4, "Extent of opening 2", "unsigned char", 1),
      (0xE5, "Electric lock setting", "unsigned char", 1),
      (0xE7, "Open/close setting 2", "unsigned char", 1)
    ] }

/-- std/objects_scsl.py:573-581 -/
def scsl_0267 : NameEntry :=
  { key := (0x02, 0x67), name := "Garden sprinkler"
    props := [
      (0x80, "Operation status", "unsigned char", 1),
      (0xE0, "Sprinkle valve open/close setting", "unsigned char", 1),
      (0xE1, "Sprinkle interval setting", "unsigned long", 1),
      (0xE2, "Number of sprinkles setting", "unsigned char", 1),
      (0xE3, "Sprinkle time setting 1", "unsigned char ×2", 2),
      (0xE4, "Sprinkle time setting 2", "unsigned char ×2", 2),
      (0xE5, "Sprinkle duration setting", "unsigned char", 1)
    ] }

/-- std/objects_scsl.py:584-611 -/
def scsl_026B : NameEntry :=
  { key := (0x02, 0x6B), name := "Electric water heater"
    props := [
      (0x80, "Operation status", "unsigned char", 1),
      (0xB0, "“Automatic water heating” setting", "unsigned char", 1),
      (0xB1, "“Automatic water temperature control” setting", "unsigned char", 1),
      (0xB2, "Water heater status", "unsigned char", 1),
      (0xB3, "Water heating temperature setting", "unsigned char", 1),
      (0xC0, "“Daytime reheating permission” setting", "unsigned char", 1),
      (0xC1, "Measured temperature of water in water heater", "unsigned char", 1),
      (0xC2, "Alarm status", "unsigned char × 2", 4),
      (0xD1, "“Temperature of supplied water” setting", "unsigned char", 1),
      (0xD3, "Bath water temperature setting", "unsigned char", 1),
      (0xE0, "Bath water volume setting", "unsigned char", 1),
      (0xE1, "Measured amount of water remaining in tank", "unsigned short", 2),
      (0xE2, "Tank capacity", "unsigned short", 2),
      (0xE3, "“Automatic bath water heating” mode setting", "unsigned char", 1),
      (0xE5, "“Addition of hot water” function setting", "unsigned char", 1),
      (0xE6, "“Slight bath water temperature lowering” function setting", "unsigned char", 1),
      (0xE7, "Bath water volume setting 1", "unsigned char", 1),
      (0xE8, "Bath water volume setting 2", "unsigned char", 1),
      (0xEE, "Bath water volume setting 3", "unsigned short", 2),
      (0xD4, "Bath water volume setting 4", "unsigned char", 1),
      (0xD5, "Bath water volume setting 4- Maximum settable level", "unsigned char", 1),
      (0x90, "ON timer reservation setting", "unsigned char", 1),
      (0x91, "ON timer setting", "unsigned char × 2", 2),
      (0xDB, "Rated power consumption of H/P unit in wintertime", "unsigned short", 2),
      (0xDC, "Rated power consumption of H/P unit in in-between seasons", "unsigned short", 2),
      (0xDD, "Rated power consumption of H/P unit in summertime", "unsigned short", 2)
    ] }

/-- std/objects_scsl.py:614-629 -/
def scsl_026E : NameEntry :=
  { key := (0x02, 0x6E), name := "Bidet-equipped toilet(with electrically warmed seat)"
    props := [
      (0x80, "Operation status", "unsigned char", 1),
      (0xE0, "Temperature level of toilet seat", "unsigned char", 1),
      (0xE1, "Heater setting of toilet seat", "unsigned char", 1),
      (0xE2, "Temporal halt setting of toilet seat", "unsigned char", 1),
      (0xE3, "Temporal halt start time of toilet seat", "unsigned char ×2", 2),
      (0xE4, "Temporal halt time duration of toilet seat", "unsigned char ×2", 2),
      (0xE5, "Temperature level setting of room heating", "unsigned char", 1),
      (0xE6, "Room heating setting", "unsigned char", 1),
      (0xE7, "Room heating status", "unsigned char", 1),
      (0xE8, "Start time of room heating", "unsigned char ×2", 2),
      (0xE9, "Duration time of room heating", "unsigned char ×2", 2),
      (0xEA, "Special operation mode setting", "unsigned char", 1),
      (0xEB, "Human detection status", "unsigned char", 1),
      (0xEC, "Seating detection status", "unsigned char", 1)
    ] }

/-- std/objects_scsl.py:632-641 -/
def scsl_026F : NameEntry :=
  { key := (0x02, 0x6F), name := "Electric key"
    props := [
      (0x80, "Operation status", "unsigned char", 1),
      (0xE0, "Lock setting 1", "unsigned char", 1),
      (0xE1, "Lock setting 2", "unsigned char", 1),
      (0xE2, "Lock status of door guard", "unsigned char", 1),
      (0xE3, "Door open/close status", "unsigned char", 1),
      (0xE4, "Occupant/ non-occupant status", "unsigned char", 1),
      (0xE5, "Alarm status", "unsigned char", 1),
      (0xE6, "Auto lock mode setting", "unsigned char", 1)
    ] }

/-- std/objects_scsl.py:644-668 -/
def scsl_0272 : NameEntry :=
  { key := (0x02, 0x72), name := "Hot water generator"
    props := [
      (0x80, "Operation status", "unsigned char", 1),
      (0xD0, "Hot water heating status", "unsigned char", 1),
      (0xD1, "Set value of hot water temperature", "unsigned char", 1),
      (0xD2, "Hot water Warmer setting", "unsigned char", 1),
      (0xDA, "“Duration of automatic operation” setting", "unsigned char× 2", 2),
      (0xDB, "Remaining automatic operation time", "unsigned char × 2", 2),
      (0xE1, "Set value of bath temperature", "unsigned char", 1),
      (0xE2, "Bath water heater status", "unsigned char", 1),
      (0xE3, "Bath auto mode setting", "unsigned char", 1),
      (0xE4, "Bath additional boil-up operation setting", "unsigned char", 1),
      (0xE5, "Bath hot water adding operation setting", "unsigned char", 1),
      (0xE6, "Bath water temperature lowering operation setting", "unsigned char", 1),
      (0xE7, "Bath hot water volume setting 1", "unsigned char", 1),
      (0xE8, "Bath hot water volume setting 2", "unsigned char", 1),
      (0xEE, "Bath hot water volume setting 3", "unsigned short", 2),
      (0xE9, "Bathroom priority setting", "unsigned char", 1),
      (0xEA, "Shower hot water supply status", "unsigned char", 1),
      (0xEB, "Kitchen hot water supply status", "unsigned char", 1),
      (0xEC, "Hot water warmer ON timer reservation setting", "unsigned char", 1),
      (0xED, "Set value of hot water warmer ON timer time", "unsigned char × 2", 2),
      (0x90, "ON timer reservation setting", "unsigned char", 1),
      (0x91, "Set value of ON timer time", "unsigned char × 2", 2),
      (0x92, "Set value of ON timer relative time", "unsigned char × 2", 2)
    ] }

/-- std/objects_scsl.py:671-691 -/
def scsl_0273 : NameEntry :=
  { key := (0x02, 0x73), name := "Bathroom dryer"
    props := [
      (0x80, "Operation status", "unsigned char", 1),
      (0xB0, "Operation setting", "unsigned char", 1),
      (0xB1, "Ventilation operation setting", "unsigned char", 1),
      (0xB2, "Bathroom pre-warmer operation setting", "unsigned char", 1),
      (0xB3, "Bathroom heater operation setting", "unsigned char", 1),
      (0xB4, "Bathroom dryer operation setting", "unsigned char", 1),
      (0xB5, "Cool air circulator operation setting", "unsigned char", 1),
      (0xBA, "Measured relative bathroom humidity", "unsigned char", 1),
      (0xBB, "Measured bathroom temperature", "signed char", 1),
      (0xC2, "Ventilation air flow rate setting", "unsigned char", 1),
      (0xCF, "Filter cleaning reminder sign setting", "unsigned char", 1),
      (0xE0, "Human body detection status", "unsigned char", 1),
      (0x90, "“ON timer-based reservation” setting 1", "unsigned char", 1),
      (0xE1, "“ON timer-based reservation” setting 2", "unsigned char", 1),
      (0x91, "ON timer setting (time)", "unsigned char ×2", 2),
      (0x92, "ON timer setting (relative time)", "unsigned char ×2", 2),
      (0x94, "“OFF timer-based reservation” setting", "unsigned char", 1),
      (0x95, "OFF timer setting (time)", "unsigned char ×2", 2),
      (0x96, "OFF timer setting (relative time)", "unsigned char ×2", 2)
    ] }

/-- std/objects_scsl.py:694-707 -/
def scsl_0279 : NameEntry :=
  { key := (0x02, 0x79), name := "Home solar power generation"
    props := [
      (0x80, "Operation status", "unsigned char", 1),
      (0xD0, "System-interconnected type", "unsigned char", 1),
      (0xE0, "Measured instantaneous amount of electricity generated", "unsigned short", 2),
      (0xE1, "Measured cumulative amount of electric energy generated", "unsigned long", 4),
      (0xE2, "Resetting cumulative amount of electric energy generated", "unsigned char", 1),
      (0xE3, "Measured cumulative amount of electric energy sold", "unsigned long", 4),
      (0xE4, "Resetting cumulative amount of electric energy sold", "unsigned char", 1),
      (0xE5, "Power generation output limit setting 1", "unsigned char", 1),
      (0xE6, "Power generation output limit setting 2", "unsigned short", 2),
      (0xE7, "Limit setting for the amount of electricity sold", "unsigned short", 2),
      (0xE8, "Rated power generation output (System-interconnected)", "unsigned short", 2),
      (0xE9, "Rated power generation output (Independent)", "unsigned short", 2)
    ] }

/-- std/objects_scsl.py:710-727 -/
def scsl_027A : NameEntry :=
  { key := (0x02, 0x7A), name := "Cold / hot water heat source equipment"
    props := [
      (0x80, "Operation status", "unsigned char", 1),
      (0xE0, "Operation mode setting", "unsigned char", 1),
      (0xE1, "Water temperature setting 1", "unsigned char", 1),
      (0xE2, "Water temperature setting 2", "unsigned char", 1),
      (0xE3, "Measured temperature of outward water (Exit water Temperature)", "unsigned char", 1),
      (0xE4, "Measured temperature of inward water (Entrance water temperature)", "unsigned char", 1),
      (0xE5, "Special operation setting", "unsigned char", 1),
      (0xE6, "Daily timer setting", "unsigned char", 1),
      (0xE7, "Daily timer setting 1", "unsigned char × 6", 6),
      (0xE8, "Daily timer setting 2", "unsigned char × 6", 6),
      (0x90, "ON timer reservation setting", "unsigned char", 1),
      (0x91, "ON timer setting", "unsigned char × 2", 2),
      (0x92, "Relative ON timer setting", "unsigned char × 2", 2),
      (0x94, "OFF timer reservation setting", "unsigned char", 1),
      (0x95, "Time set by OFF timer", "unsigned char ×2", 2),
      (0x96, "Relative OFF timer setting", "unsigned char ×2", 2)
    ] }

/-- std/objects_scsl.py:730-747 -/
def scsl_027B : NameEntry :=
  { key := (0x02, 0x7B), name := "Floor heater"
    props := [
      (0x80, "Operation status", "unsigned char", 1),
      (0xE0, "Temperature setting 1", "unsigned char", 1),
      (0xE1, "Temperature setting 2", "unsigned char", 1),
      (0xE2, "Measured room temperature", "signed char", 1),
      (0xE3, "Measured floor temperature", "signed char", 1),
      (0xE4, "Zone change setting", "unsigned char", 1),
      (0xE5, "Special operation setting", "unsigned char", 1),
      (0xE6, "Daily timer setting", "unsigned char", 1),
      (0xE7, "Daily timer setting 1", "unsigned char × 6", 6),
      (0xE8, "Daily timer setting 2", "unsigned char × 6", 6),
      (0x90, "ON timer reservation setting", "unsigned char", 1),
      (0x91, "Time set by ON timer", "unsigned char × 2", 2),
      (0x92, "Relative ON timer setting", "unsigned char × 2", 2),
      (0x94, "OFF timer reservation setting", "unsigned char", 1),
      (0x95, "Time set by OFF timer", "unsigned char ×2", 2),
      (0x96, "Relative OFF timer setting", "unsigned char ×2", 2)
    ] }

/-- std/objects_scsl.py:750-769 -/
def scsl_027C : NameEntry :=
  { key := (0x02, 0x7C), name := "Fuel cell"
    props := [
      (0x80, "Operation status", "unsigned char", 1),
      (0xC1, "Measured temperature of water in water heater", "unsigned char", 1),
      (0xC2, "Rated power generation output", "unsigned short", 2),
      (0xC3, "Heating value of hot water storage tank", "unsigned short", 2),
      (0xC4, "Measured instantaneous power generation output", "unsigned short", 2),
      (0xC5, "Measured cumulative power generation output", "unsigned long", 4),
      (0xC6, "Cumulative power generation output reset setting", "unsigned char", 1),
      (0xC7, "Measured instantaneous gas consumption", "unsigned short", 2),
      (0xC8, "Measured cumulative gas consumption", "unsigned long", 4),
      (0xC9, "Cumulative gas consumption reset setting", "unsigned char", 1),
      (0xCA, "Power generation setting", "unsigned char", 1),
      (0xCB, "Power generation status", "unsigned char", 1),
      (0xCC, "Measured in-house instantaneous power consumption", "unsigned short", 2),
      (0xCD, "Measured in-house cumulative power consumption", "unsigned long", 4),
      (0xCE, "In-house cumulative power consumption reset", "unsigned char", 1),
      (0xD0, "System interconnected type", "unsigned char", 1),
      (0xE1, "Measured remaining hot water amount", "unsigned short", 2),
      (0xE2, "Tank capacity", "unsigned short", 2)
    ] }

/-- std/objects_scsl.py:772-811 -/
def scsl_027D : NameEntry :=
  { key := (0x02, 0x7D), name := "Storage battery"
    props := [
      (0x80, "Operation status", "unsigned char", 1),
      (0xC8, "Minimum/maxim um charge electric energy", "unsigned long ×2", 8),
      (0xC9, "Minimum/maxim um discharge electric energy", "unsigned long ×2", 8),
      (0xCA, "Minimum/maxim um charge current", "unsigned short ×2", 4),
      (0xCB, "Minimum/maxim um discharge current", "unsigned short ×2", 4),
      (0xCF, "Working operation status", "", 0),
      (0xD0, "Rated electric energy", "unsigned long", 4),
      (0xD1, "Rated capacity", "unsigned short", 2),
      (0xD2, "Rated voltage", "unsigned short", 2),
      (0xD3, "Measured instantaneous charge/discharge electric energy", "signed long", 4),
      (0xD4, "Measured instantaneous charge/discharge current", "signed short", 2),
      (0xD5, "Measured instantaneous charge/discharge voltage", "signed short", 2),
      (0xD6, "Measured cumulative discharge electric energy", "unsigned long", 4),
      (0xD7, "“Measured cumulative discharge electric energy” reset setting", "unsigned char", 1),
      (0xD8, "Measured cumulative charge electric energy", "unsigned long", 4),
      (0xD9, "“Measured cumulative charge electric energy” reset setting", "unsigned char", 1),
      (0xDA, "Operation mode setting", "unsigned char", 1),
      (0xDB, "System-interconn ected type", "unsigned char", 1),
      (0xDC, "Minimum/maximum charging power (Independent)", "unsigned long ×2", 8),
      (0xDD, "Minimum/maximum discharging power (Independent)", "unsigned long ×2", 8),
      (0xDE, "Minimum/maxim um charging current (Independent)", "unsigned short ×2", 4),
      (0xDF, "Minimum/maxim um discharging current (Independent)", "unsigned short ×2", 4),
      (0xE0, "Charging/dischar ging amount setting 1", "signed long", 4),
      (0xE1, "Charging/dischar ging amount setting 2", "signed short", 2),
      (0xE2, "Remaining stored electricity 1", "unsigned long", 4),
      (0xE3, "Remaining stored electricity 2", "unsigned short", 2),
      (0xE4, "Remaining stored electricity 3", "unsigned char", 1),
      (0xE5, "Battery state of health", "unsigned char", 1),
      (0xE6, "Battery type", "unsigned char", 1),
      (0xE7, "Charging amount setting 1", "unsigned long", 4),
      (0xE8, "Discharging amount setting 1", "unsigned long", 4),
      (0xE9, "Charging amount setting 2", "unsigned short", 2),
      (0xEA, "Discharging amount setting 2", "unsigned short", 2),
      (0xEB, "Charge electric energy setting", "unsigned long", 4),
      (0xEC, "Discharge electric energy setting", "unsigned long", 4),
      (0xED, "Charge current setting", "unsigned short", 2),
      (0xEE, "Discharge current setting", "unsigned short", 2),
      (0xEF, "Rated voltage (Independent)", "unsigned short", 2)
    ] }

/-- std/objects_scsl.py:814-852 -/
def scsl_027E : NameEntry :=
  { key := (0x02, 0x7E), name := "Electric vehicle"
    props := [
      (0x80, "Operation status", "unsigned char", 1),
      (0xC0, "V2H stored electricity 1", "unsigned long", 4),
      (0xC1, "V2H stored electricity 2", "unsigned short", 2),
      (0xC2, "V2H remaining available capacity 1", "unsigned long", 4),
      (0xC3, "V2H remaining available capacity 2", "unsigned short", 2),
      (0xC4, "V2H remaining available capacity 3", "unsigned char", 1),
      (0xC5, "Rated charge capacity", "unsigned long", 4),
      (0xC6, "Rated discharge capacity", "unsigned long", 4),
      (0xC7, "Chargeable/discharge able status", "unsigned char", 1),
      (0xC8, "Minimum/maximum charge electric energy", "unsigned long ×2", 8),
      (0xC9, "Minimum/maximum discharge electric energy", "unsigned long ×2", 8),
      (0xCA, "Minimum/maximum charge current", "unsigned short ×2", 4),
      (0xCB, "Minimum/maximum discharge current", "unsigned short ×2", 4),
      (0xD0, "Used capacity 1", "unsigned long", 4),
      (0xD1, "Used capacity 2", "unsigned short", 2),
      (0xD2, "Rated voltage", "unsigned short", 2),
      (0xD3, "Measured instantaneous charge/discharge electric energy", "signed long", 4),
      (0xD4, "Measured instantaneous charge/discharge current", "signed short", 2),
      (0xD5, "Measured instantaneous charge/discharge voltage", "signed short", 2),
      (0xD6, "Measured cumulative discharge electric energy", "unsigned long", 4),
      (0xD7, "Cumulative discharge electric energy reset setting", "unsigned char", 1),
      (0xD8, "Measured cumulative charge electric energy", "unsigned long", 4),
      (0xD9, "Cumulative charge electric energy reset setting", "unsigned char", 1),
      (0xDA, "Operation mode setting", "unsigned char", 1),
      (0xDB, "System-interconnecte d type", "unsigned char", 1),
      (0xE2, "Remaining battery capacity1", "unsigned long", 4),
      (0xE3, "Remaining battery capacity2", "unsigned short", 2),
      (0xE4, "Remaining battery capacity3", "unsigned char", 1),
      (0xE5, "Deterioration status", "unsigned char", 1),
      (0xE7, "Charging amount setting 1", "unsigned long", 4),
      (0xE8, "Discharging amount setting 1", "unsigned long", 4),
      (0xE9, "Charging amount setting 2", "unsigned short", 2),
      (0xEA, "Discharging amount setting 2", "unsigned short", 2),
      (0xEB, "Charge electric energy setting", "unsigned long", 4),
      (0xEC, "Discharge electric energy setting", "unsigned long", 4),
      (0xED, "Charge current setting", "unsigned short", 2),
      (0xEE, "Discharge current setting", "unsigned short", 2)
    ] }

/-- std/objects_scsl.py:855-874 -/
def scsl_027F : NameEntry :=
  { key := (0x02, 0x7F), name := "Engine cogeneration"
    props := [
      (0x80, "Operation status", "unsigned char", 1),
      (0xC1, "Measured temperature of water in water heater", "unsigned char", 1),
      (0xC2, "Rated power generation output", "unsigned short", 2),
      (0xC3, "Heating value of hot water storage tank", "unsigned short", 2),
      (0xC4, "Measured instantaneous power generation output", "unsigned short", 2),
      (0xC5, "Measured cumulative power generation output", "unsigned long", 4),
      (0xC6, "Cumulative power generation output reset setting", "unsigned char", 1),
      (0xC7, "Measured instantaneous gas consumption", "unsigned short", 2),
      (0xC8, "Measured cumulative gas consumption", "unsigned long", 4),
      (0xC9, "Cumulative gas consumption reset setting", "unsigned char", 1),
      (0xCA, "Power generation setting ", "unsigned char", 1),
      (0xCB, "Power generation status", "unsigned char", 1),
      (0xCC, "Measured in-house instantaneous power consumption", "unsigned short", 2),
      (0xCD, "Measured in-house cumulative power consumption", "unsigned long", 4),
      (0xCE, "In-house cumulative power consumption reset", "unsigned char", 1),
      (0xD0, "System interconnected type", "unsigned char", 1),
      (0xE1, "Measured remaining hot water amount", "unsigned short", 2),
      (0xE2, "Tank capacity", "unsigned short", 2)
    ] }

/-- std/objects_scsl.py:877-883 -/
def scsl_0280 : NameEntry :=
  { key := (0x02, 0x80), name := "Electric energy meter"
    props := [
      (0x80, "Operation status", "unsigned char", 1),
      (0xE0, "Integral electric energy measurement value", "unsigned long", 4),
      (0xE2, "Integral electric energy unit", "unsigned char", 1),
      (0xE3, "Integral electric energy measurement log 1", "unsigned long × 48", 192),
      (0xE4, "Integral electric energy measurement log 2", "unsigned long ×48 ×45", 8640)
    ] }

/-- std/objects_scsl.py:886-897 -/
def scsl_0281 : NameEntry :=
  { key := (0x02, 0x81), name := "Water flow meter"
    props := [
      (0x80, "Operation status", "unsigned char", 1),
      (0xD0, "Flowing water classification", "unsigned char", 1),
      (0xD1, "Owner classification", "unsigned char", 1),
      (0xE0, "Measured cumulative amount of flowing water", "unsigned long", 4),
      (0xE1, "Unit for measured cumulative amounts of flowing water", "unsigned char", 1),
      (0xE2, "Historical data of measured cumulative amounts of flowing water", "unsigned long ×48", 192),
      (0xE3, "Detection of abnormal value in metering data", "unsigned char", 1),
      (0xE4, "Security data information", "unsigned long", 4),
      (0xE5, "ID number setting", "unsigned char", 6),
      (0xE6, "Verification expiration information", "unsigned char", 6)
    ] }

/-- std/objects_scsl.py:900-904 -/
def scsl_0282 : NameEntry :=
  { key := (0x02, 0x82), name := "Gas meter"
    props := [
      (0x80, "Operation status", "unsigned char", 1),
      (0xE0, "Integral gas consumption measurement value", "unsigned long", 4),
      (0xE2, "Integral gas consumption measurement log", "unsigned long × 48", 192)
    ] }

/-- std/objects_scsl.py:907-933 -/
def scsl_0283 : NameEntry :=
  { key := (0x02, 0x83), name := "LP gas meter"
    props := [
      (0x80, "Operation status", "unsigned char", 1),
      (0xE0, "Integral gas consumption of metering data 1", "unsigned long", 4),
      (0xE1, "Integral gas consumption of metering data 2", "unsigned long", 4),
      (0xE2, "Error detection statusof metering data", "unsigned char", 1),
      (0xE3, "Security data 1", "unsigned long", 4),
      (0xE4, "Security data 2", "unsigned long", 4),
      (0xE5, "Center valve shut-off status", "unsigned char", 1),
      (0xE6, "Center valve shut-off recovery permission setting status", "unsigned char", 1),
      (0xE7, "Emergency valve shut-off status", "unsigned char", 1),
      (0xE8, "Shut-off valve open/close status", "unsigned char", 1),
      (0xE9, "Residual volume control warning", "unsigned char", 1),
      (0xEA, "Set value of residual volume control warning level 1", "unsigned char × 3", 3),
      (0xEB, "Set value of residual volume control warning level 2", "unsigned char × 3", 3),
      (0xEC, "Set value of residual volume control warning level 3", "unsigned char ×3", 3),
      (0xED, "Slight leak timer value (gas flow rate continuation)", "unsigned char", 1),
      (0xEE, "Slight leak timer value (without pressure increase)", "unsigned char", 1),
      (0xEF, "Shut-off reason log", "unsigned char × 3", 3),
      (0xD0, "Maximum value of supply pressure data", "unsigned short", 2),
      (0xD1, "Minimum value of supply pressure data", "unsigned short", 2),
      (0xD2, "Current value of supply pressure data", "unsigned short", 2),
      (0xD3, "Maximum value of block pressure data", "unsigned short", 2),
      (0xD4, "Minimum value of block pressure data", "unsigned short", 2),
      (0xD5, "Current value of block pressure data", "unsigned short", 2),
      (0xD6, "Number of block pressure/supply pressure error days:time", "unsigned char × 4", 4),
      (0xD7, "Test call setting", "unsigned char", 1)
    ] }

/-- std/objects_scsl.py:936-994 -/
def scsl_0287 : NameEntry :=
  { key := (0x02, 0x87), name := "Distribution panel metering"
    props := [
      (0x80, "Operation status", "unsigned char", 1),
      (0xB0, "Master rated capacity", "unsigned char", 1),
      (0xB1, "Number of measurement channels (simplex)", "unsigned char", 1),
      (0xB2, "Channel range specification for cumulative amount of electric power consumption measurement (simplex)", "unsigned char × 2", 2),
      (0xB3, "Measured cumulative amount of electric power consumption list (simplex)", "unsigned char + unsigned char + (unsigned long (Max) × 60)", 0),
      (0xB4, "Channel range specification for instantaneous current measurement (simplex)", "unsigned char × 2", 2),
      (0xB5, "Measured instantaneous current list (simplex)", "unsigned char + unsigned char + (signed short × 2 (Max) × 60)", 0),
      (0xB6, "Channel range specification for instantaneous power consumption measurement (simplex)", "unsigned char × 2", 2),
      (0xB7, "Measured instantaneous power consumption list (simplex)", "unsigned char + unsigned char + (signed long (Max) × 60)", 0),
      (0xB8, "Number of measurement channels (duplex)", "unsigned char", 1),
      (0xB9, "Channel range specification for cumulative amount of electric power consumption measurement (duplex)", "unsigned char × 2", 2),
      (0xBA, "Measured cumulative amount of electric power consumption list (duplex)", "unsigned char + unsigned char + (unsigned long + unsigned long (Max) × 30)", 0),
      (0xBB, "Channel range specification for instantaneous current measurement (duplex)", "unsigned char × 2", 2),
      (0xBC, "Measured instantaneous current list (duplex)", "unsigned char + unsigned char + (signed short × 2 (Max) × 60)", 0),
      (0xBD, "Channel range specification for instantaneous power consumption measurement (duplex)", "unsigned char × 2", 2),
      (0xBE, "Measured instantaneous power consumption list (duplex)", "unsigned char + unsigned char + (signed long (Max) × 60)", 0),
      (0xC0, "Measured cumulative amount of electric energy (normal direction)", "unsigned long", 4),
      (0xC1, "Measured cumulative amount of electric energy (reverse direction)", "unsigned long", 4),
      (0xC2, "Unit for cumulative amounts of electric energy", "unsigned char", 1),
      (0xC3, "Historical data of measured cumulative amounts of electric energy (normal direction)", "unsigned short +unsign ed long ×48", 194),
      (0xC4, "Historical data of measured cumulative amounts of electric energy (reverse direction)", "unsigned short +unsign ed long ×48", 194),
      (0xC5, "Day for which the historical data of measured cumulative amounts of electric energy is to be retrieved", "unsigned char", 1),
      (0xC6, "Measured instantaneo us amount of electric energy", "signed long", 4),
      (0xC7, "Measured instantaneous currents", "signed short ×2", 4),
      (0xC8, "Measured instantaneous voltages", "unsigned short ×2", 4),
      (0xD0, "Measurement channel 1", "unsigned long + signed short ×2", 8),
      (0xD1, "Measurement channel 2", "unsigned long + signed short ×2", 8),
      (0xD2, "Measurement channel 3", "unsigned long + signed short ×2", 8),
      (0xD3, "Measurement channel 4", "unsigned long + signed short ×2", 8),
      (0xD4, "Measurement channel 5", "unsigned long + signed short ×2", 8),
      (0xD5, "Measurement channel 6", "unsigned long + signed short ×2", 8),
      (0xD6, "Measurement channel 7", "unsigned long + signed short ×2", 8),
      (0xD7, "Measurement channel 8", "unsigned long + signed short ×2", 8),
      (0xD8, "Measurement channel 9", "unsigned long + signed short ×2", 8),
      (0xD9, "Measurement channel 10", "unsigned long + signed short ×2", 8),
      (0xDA, "Measurement channel 11", "unsigned long + signed short ×2", 8),
      (0xDB, "Measurement channel 12", "unsigned long + signed short ×2", 8),
      (0xDC, "Measurement channel 13", "unsigned long + signed short ×2", 8),
      (0xDD, "Measurement channel 14", "unsigned long + signed short ×2", 8),
      (0xDE, "Measurement channel 15", "unsigned long + signed short ×2", 8),
      (0xDF, "Measurement channel 16", "unsigned long + signed short ×2", 8),
      (0xE0, "Measurement channel 17", "unsigned long + signed short ×2", 8),
      (0xE1, "Measurement channel 18", "unsigned long + signed short ×2", 8),
      (0xE2, "Measurement channel 19", "unsigned long + signed short ×2", 8),
      (0xE3, "Measurement channel 20", "unsigned long + signed short ×2", 8),
      (0xE4, "Measurement channel 21", "unsigned long + signed short ×2", 8),
      (0xE5, "Measurement channel 22", "unsigned long + signed short ×2", 8),
      (0xE6, "Measurement channel 23", "unsigned long + signed short ×2", 8),
      (0xE7, "Measurement channel 24", "unsigned long + signed short ×2", 8),
      (0xE8, "Measurement channel 25", "unsigned long + signed short ×2", 8),
      (0xE9, "Measurement channel 26", "unsigned long + signed short ×2", 8),
      (0xEA, "Measurement channel 27", "unsigned long + signed short ×2", 8),
      (0xEB, "Measurement channel 28", "unsigned long + signed short ×2", 8),
      (0xEC, "Measurement channel 29", "unsigned long + signed short ×2", 8),
      (0xED, "Measurement channel 30", "unsigned long + signed short ×2", 8),
      (0xEE, "Measurement channel 31", "unsigned long + signed short ×2", 8),
      (0xEF, "Measurement channel 32", "unsigned long + signed short ×2", 8)
    ] }

/-- std/objects_scsl.py:997-1018 -/
def scsl_0288 : NameEntry :=
  { key := (0x02, 0x88), name := "Smart electric energy meter"
    props := [
      (0x80, "Operation status", "unsigned char", 1),
      (0xD0, "Electric energy meter classification", "unsigned char", 1),
      (0xD1, "Owner classification", "unsigned char", 1),
      (0xD2, "Phases and wires setting status", "unsigned char", 1),
      (0xD3, "Composite transformation ratio", "unsigned long", 4),
      (0xD4, "Multiplying factor for composite transformation ratio", "unsigned char", 1),
      (0xD5, "Meter type certification number", "unsigned char × 10", 10),
      (0xD6, "Year and month of inspection expiry", "unsigned char × 6", 6),
      (0xD7, "Number of effective digits for cumulative amounts of electric energy", "unsigned char", 1),
      (0xE0, "Measured cumulative amount of electric energy (normal direction)", "unsigned long", 4),
      (0xE1, "Unit for cumulative amounts of electric energy (normal and reverse directions)", "unsigned char", 1),
      (0xE2, "Historical data of measured cumulative amounts of electric energy (normal direction)", "unsigned short + unsigned long ×48", 194),
      (0xE3, "Measured cumulative amounts of electric energy (reverse direction)", "unsigned long", 4),
      (0xE4, "Historical data of measured cumulative amounts of electric energy (reverse direction)", "unsigned short +unsigned long ×48", 194),
      (0xE5, "Day for which the historical data of measured cumulative amounts of electric energy is to be retrieved", "unsigned char", 1),
      (0xE7, "Measured instantaneous electric energy", "signed long", 4),
      (0xE8, "Measured instantaneous currents", "signed short ×2", 4),
      (0xE9, "Measured instantaneous voltages", "unsigned short ×2", 4),
      (0xEA, "Cumulative amounts of electric energy measured at fixed time (normal direction)", "unsigned char ×4 + unsigned char×3 + unsigned long ", 11),
      (0xEB, "Cumulative amounts of electric energy measured at fixed time (reverse direction)", "unsigned char ×4 + unsigned char ×3 + unsigned long", 11)
    ] }

/-- std/objects_scsl.py:1021-1040 -/
def scsl_0289 : NameEntry :=
  { key := (0x02, 0x89), name := "Smart gas meter"
    props := [
      (0x80, "Operation status", "unsigned char", 1),
      (0xE0, "Gas meter classification setting", "unsigned char", 1),
      (0xE1, "Owner classification setting", "unsigned char", 1),
      (0xE2, "Measured cumulative gas consumption", "unsigned long", 4),
      (0xE3, "Unit for measured cumulative gas consumption", "unsigned char", 1),
      (0xE4, "Historical data of measured cumulative gas consumption", "unsigned short +unsigne d long ×48", 194),
      (0xE5, "Day setting for which the historical data of measured cumulative gas consumption is to be retrieved", "unsigned char", 1),
      (0xE6, "Detection of abnormal value in metering data", "unsigned char", 1),
      (0xE7, "Security data information", "unsigned char ×10", 10),
      (0xE8, "Valve closure by the Center", "unsigned char", 1),
      (0xE9, "Permission from the Center to reopen the valve closed by the Center", "unsigned char", 1),
      (0xEA, "Emergency closure of shutoff valve", "unsigned char", 1),
      (0xEB, "Shutoff valve status", "unsigned char", 1),
      (0xEC, "Historical data of shutoff reasons", "unsigned char ×3", 3),
      (0xED, "ID number setting", "unsigned char", 6),
      (0xEE, "Verification expiration setting", "unsigned char", 6),
      (0xD0, "Measured cumulative gas consumption information with date and time", "unsigne d char×4+ unsigne d char×3+ unsigne d long", 11),
      (0xD1, "Historical information of cumulative gas consumption", "unsigne d char×4+ unsigne d char×3+ unsigne d long×24 +unsign ed long+un signed short", 109)
    ] }

/-- std/objects_scsl.py:1043-1066 -/
def scsl_0290 : NameEntry :=
  { key := (0x02, 0x90), name := "General lighting class"
    props := [
      (0x80, "Operation status", "unsigned char", 1),
      (0xB0, "Illuminance level", "unsigned char", 1),
      (0xB1, "Light color setting", "unsigned char", 1),
      (0xB2, "Illuminance level step setting", "unsigned char", 1),
      (0xB3, "Light color step setting", "unsigned char", 1),
      (0xB4, "Maximum specifiable values", "unsigned char ×2", 2),
      (0xB5, "Maximum value of settable level for night lighting", "unsigned char ×2", 2),
      (0xB6, "Lighting mode setting", "unsigned char", 1),
      (0xB7, "Illuminance level setting for main lighting", "unsigned char", 1),
      (0xB8, "Illuminance level step setting for main lighting", "unsigned char", 1),
      (0xB9, "Illuminance level setting for night lighting", "unsigned char", 1),
      (0xBA, "Illuminance level step setting for night lighting", "unsigned char", 1),
      (0xBB, "Light color setting for main lighting", "unsigned char", 1),
      (0xBC, "Light color level step setting for main lighting", "unsigned char", 1),
      (0xBD, "Light color setting for night lighting", "unsigned char", 1),
      (0xBE, "Light color level step setting for night lighting", "unsigned char", 1),
      (0xBF, "Lighting mode status in auto mode", "unsigned char", 1),
      (0xC0, "RGB setting for color lighting", "unsigned char×3", 3),
      (0x90, "ON timer reservation setting", "unsigned char", 1),
      (0x91, "ON timer setting", "unsigned char ×2", 2),
      (0x94, "OFF timer reservation setting", "unsigned char", 1),
      (0x95, "OFF timer setting", "unsigned char ×2", 2)
    ] }

/-- std/objects_scsl.py:1069-1073 -/
def scsl_02A0 : NameEntry :=
  { key := (0x02, 0xA0), name := "Buzzer"
    props := [
      (0x80, "Operation status", "unsigned char", 1),
      (0xB1, "Sound generation setting", "unsigned char", 1),
      (0xE0, "Buzzer sound type", "unsigned char", 1)
    ] }

/-- std/objects_scsl.py:1076-1085 -/
def scsl_03B2 : NameEntry :=
  { key := (0x03, 0xB2), name := "Electric hot water pot(electric thermos)"
    props := [
      (0x80, "Operation status", "unsigned char", 1),
      (0xB0, "Cover open/close status", "unsigned char", 1),
      (0xB1, "No-water warning", "unsigned char", 1),
      (0xB2, "Boil-up setting", "unsigned char", 1),
      (0xE0, "Boil-up/warmer mode setting", "unsigned char", 1),
      (0xE1, "Set value of warmer temperature", "unsigned char", 1),
      (0xE2, "Hot water discharge status", "unsigned char", 1),
      (0xE3, "Lock status", "unsigned char", 1)
    ] }

/-- std/objects_scsl.py:1088-1124 -/
def scsl_03B7 : NameEntry :=
  { key := (0x03, 0xB7), name := "Refrigerator"
    props := [
      (0x80, "Operation status", "unsigned char", 1),
      (0xB0, "Door open/close status", "unsigned char", 1),
      (0xB1, "Door open warning", "unsigned char", 1),
      (0xB2, "Refrigerator compartment door status", "unsigned char", 1),
      (0xB3, "Freezer compartment door status", "unsigned char", 1),
      (0xB4, "Ice compartment door status", "unsigned char", 1),
      (0xB5, "Vegetable compartment door status", "unsigned char", 1),
      (0xB6, "Multi-refrigera- ting mode compartment door", "unsigned char", 1),
      (0xE0, "Maximum allowable temperature setting level", "unsigned char × 8", 8),
      (0xE2, "Refrigerator compartment temperature setting", "signed char", 1),
      (0xE3, "Freezer compartment temperature setting", "signed char", 1),
      (0xE4, "Ice temperature setting", "signed char", 1),
      (0xE5, "Vegetable compartment temperature setting", "signed char", 1),
      (0xE6, "Multi-refrigera- ting mode compartment temperature setting", "signed char", 1),
      (0xE9, "Refrigerator compartment temperature level setting", "unsigned char", 1),
      (0xEA, "Freezer compartment temperature level setting", "unsigned char", 1),
      (0xEB, "ice compartment temperature level setting", "unsigned char", 1),
      (0xEC, "Vegetable compartment temperature level setting", "unsigned char", 1),
      (0xED, "Multi-refrigera- ting mode compartment temperature level setting", "unsigned char", 1),
      (0xD1, "Measured refrigerator compartment temperature", "signed char", 1),
      (0xD2, "Measured freezer compartment temperature", "signed char", 1),
      (0xD3, "Measured subzero-fresh compartment temperature", "signed char", 1),
      (0xD4, "Measured vegetable compartment temperature", "signed char", 1),
      (0xD5, "Measured multi-refrigeratin g mode compartment temperature", "signed char", 1),
      (0xD8, "Compressor rotation speed", "unsigned char", 2),
      (0xDA, "Measured electric current consumption", "unsigned char", 2),
      (0xDC, "Rated power consumption", "unsigned char", 2),
      (0xA0, "Quick freeze function setting", "unsigned char", 1),
      (0xA1, "Quick refrigeration function setting", "unsigned char", 1),
      (0xA4, "Icemaker setting", "unsigned char", 1),
      (0xA5, "Icemaker operation status", "unsigned char", 1),
      (0xA6, "Icemaker tank status", "unsigned char", 1),
      (0xA8, "Refrigerator compartment humidification function setting", "unsigned char", 1),
      (0xA9, "Vegetable compartment humidification function setting", "unsigned char", 1),
      (0xAD, "Deodorization function setting", "unsigned char", 1)
    ] }

/-- std/objects_scsl.py:1127-1149 -/
def scsl_03B8 : NameEntry :=
  { key := (0x03, 0xB8), name := "Combination microwave oven(Electronic oven)"
    props := [
      (0x80, "Operation status", "unsigned char", 1),
      (0xB0, "Door open/close status", "unsigned char", 1),
      (0xB1, "Heating status", "unsigned char", 1),
      (0xB2, "Heating setting", "unsigned char", 1),
      (0xE0, "Heating mode setting", "unsigned char", 1),
      (0xE1, "Automatic heating setting", "unsigned char", 1),
      (0xE2, "Automatic heating level setting", "unsigned cha", 1),
      (0xD0, "Automatic heating menu setting", "unsigned cha", 1),
      (0xD1, "Oven mode setting", "unsigned cha", 1),
      (0xD5, "Oven preheating setting", "unsigned char", 1),
      (0xD6, "Fermenting mode setting", "unsigned char", 1),
      (0xE3, "Chamber temperature setting", "signed short", 2),
      (0xE4, "Food temperature setting", "signed short", 2),
      (0xE5, "Heating time setting", "unsigned char ×3", 3),
      (0xE6, "Remaining heating time setting", "unsigned char ×3", 3),
      (0xE7, "Microwave heating power setting", "unsigned short", 2),
      (0xE8, "Prompt message setting", "unsigned char ×2 ×4", 8),
      (0xE9, "“Accessories to combination microwave oven” setting", "unsigned short", 2),
      (0xEA, "Display character string setting", "unsigned short ×20", 40),
      (0xEB, "Two-stage microwave heating setting (duration)", "unsigned char ×3 ×2", 6),
      (0xEC, "Two-stage microwave heating setting (heating power)", "unsigned short ×2", 4)
    ] }

/-- std/objects_scsl.py:1152-1163 -/
def scsl_03B9 : NameEntry :=
  { key := (0x03, 0xB9), name := "Cooking heater"
    props := [
      (0x80, "Operation status", "unsigned char", 1),
      (0xB1, "Heating status", "unsigned char × 4", 4),
      (0xB2, "Heating setting", "unsigned char", 1),
      (0xB3, "“All stop” setting", "unsigned char", 1),
      (0xE7, "Heating power setting", "unsigned char × 4", 8),
      (0xE3, "Heating temperature setting", "unsigned char × 3", 3),
      (0xE0, "“Heating modes of stoves” setting", "unsigned char × 3", 3),
      (0x96, "Relative time settings of OFF timers", "unsigned char × 3 × 4", 12),
      (0xA1, "Child lock setting", "unsigned char", 1),
      (0xA2, "Radiant heater lock setting", "unsigned char", 1)
    ] }

/-- std/objects_scsl.py:1166-1177 -/
def scsl_03BB : NameEntry :=
  { key := (0x03, 0xBB), name := "Rice cooker"
    props := [
      (0x80, "Operation status", "unsigned char", 1),
      (0xB0, "Cover open/close status", "unsigned char", 1),
      (0xB1, "Rice cooking status", "unsigned char", 1),
      (0xB2, "Rice cooking control setting", "unsigned char", 1),
      (0xE1, "Warmer setting", "unsigned char", 1),
      (0xE5, "Inner pot removal status", "unsigned char", 1),
      (0xE6, "Cover removal status", "unsigned char", 1),
      (0x90, "Rice cooking reservation setting", "unsigned char", 1),
      (0x91, "Set value of rice cooking reservation setting time", "unsigned char × 2", 2),
      (0x92, "Set value of rice cooking reservation setting relative time", "unsigned char × 2", 2)
    ] }

/-- std/objects_scsl.py:1180-1189 -/
def scsl_03C5 : NameEntry :=
  { key := (0x03, 0xC5), name := "Washing machine"
    props := [
      (0x80, "Operation status", "unsigned char", 1),
      (0xB0, "Door/cover open/close status", "unsigned char", 1),
      (0xB2, "Washing machine setting", "unsigned char", 1),
      (0xE1, "Current stage of washing cycle", "unsigned char", 1),
      (0xE6, "Time remaining to complete washing cycle", "unsigned char × 3", 3),
      (0x90, "ON timer reservation setting", "unsigned char", 1),
      (0x91, "ON timer setting", "unsigned char × 2", 2),
      (0x92, "Relative time-based ON timer setting", "unsigned char × 2", 2)
    ] }

/-- std/objects_scsl.py:1192-1201 -/
def scsl_03C6 : NameEntry :=
  { key := (0x03, 0xC6), name := "Clothes dryer"
    props := [
      (0x80, "Operation status", "unsigned char", 1),
      (0xB0, "Door/cover open/close status", "unsigned char", 1),
      (0xB2, "Drying setting", "unsigned char", 1),
      (0xE1, "Drying status", "unsigned char", 1),
      (0xE6, "Remaining drying time", "unsigned char ×3", 3),
      (0x90, "ON timer reservation setting", "unsigned char", 1),
      (0x91, "ON timer setting", "unsigned char ×2", 2),
      (0x92, "Relative time-based ON timer setting", "unsigned char ×2", 2)
    ] }

/-- std/objects_scsl.py:1204-1238 -/
def scsl_03D3 : NameEntry :=
  { key := (0x03, 0xD3), name := "Washer and dryer"
    props := [
      (0x80, "Operation status", "unsigned char", 1),
      (0xB0, "Door/cover open/close status", "unsigned char", 1),
      (0xB2, "Washer and dryer setting", "unsigned char", 1),
      (0xD0, "Washer and dryer cycle setting 1 (Note 1)", "unsigned char", 1),
      (0xD1, "Washer and dryer cycle setting 2 (Note 1)", "unsig ned char", 1),
      (0xD2, "Drying cycle setting (Note1)", "unsig ned char", 1),
      (0xD3, "Washer and dryer cycle option list 1", "unsig ned char ×12 ", 12),
      (0xD4, "Washer and dryer cycle option list 2", "unsig ned char ×4 ", 4),
      (0xD5, "Washer and dryer cycle option list 3", "unsig ned char ×4 ", 4),
      (0xD6, "Water flow rate setting", "unsig ned char", 1),
      (0xD7, "“Rotation speed for spin drying” setting", "unsig ned short", 2),
      (0xD8, "“Degree of drying” setting", "unsig ned char", 1),
      (0xDB, "Remaining washing time", "unsign ed char ×2", 2),
      (0xDC, "Remaining drying time", "unsign ed char ×2", 2),
      (0xDF, "Elapsed time on the ON timer", "unsign ed char ×2", 2),
      (0xE1, "Presoaking time setting", "unsign ed char ×2", 2),
      (0xE2, "Current stage of washer and dryer cycle", "unsigned char", 1),
      (0xE3, "Water volume setting 1", "unsigned char", 1),
      (0xE4, "Water volume setting 2", "unsigned char", 1),
      (0xE5, "Washing time setting", "unsigned char ×2", 2),
      (0xE6, "“Number of times of rinsing” setting", "unsigned char", 1),
      (0xE7, "Rinsing process setting", "unsigned char ×4", 4),
      (0xE8, "Spin drying time setting", "unsigned char", 1),
      (0xE9, "Drying time setting", "unsigned char ×2", 2),
      (0xEA, "Warm water setting", "unsigned char", 1),
      (0xEB, "Bathtub water recycle setting", "unsigned char", 1),
      (0xEC, "Wrinkling minimization setting", "unsigned char", 1),
      (0xED, "Time remaining to complete washer and dryer cycle", "unsigned char ×2", 2),
      (0xEE, "Door/cover lock    setting", "unsigned char", 1),
      (0xEF, "Washer and dryer cycle", "unsigned Char ×24", 24),
      (0x90, "ON timer reservation setting", "unsigned char", 1),
      (0x91, "ON timer setting", "unsigned char ×2", 2),
      (0x92, "Relative time-based ON timer setting", "unsigned char ×2", 2)
    ] }

/-- std/objects_scsl.py:1241-1245 -/
def scsl_0401 : NameEntry :=
  { key := (0x04, 0x01), name := "Weighing machine"
    props := [
      (0x80, "Operation status", "unsigned short", 1),
      (0xE0, "Measured value of body weight", "unsigned short", 2),
      (0xE1, "Measured value of body fat", "unsigned short", 2)
    ] }

/-- std/objects_scsl.py:1248-1251 -/
def scsl_05FD : NameEntry :=
  { key := (0x05, 0xFD), name := "Switch (supporting JEM-A / HA terminals)"
    props := [
      (0x80, "Operation status", "unsigned char", 1),
      (0xE0, "Connected device", "unsigned char", 12)
    ] }

/-- std/objects_scsl.py:1254-1261 -/
def scsl_0601 : NameEntry :=
  { key := (0x06, 0x01), name := "Display"
    props := [
      (0x80, "Operation status", "unsigned char", 1),
      (0xB0, "Display control setting", "unsigned char", 1),
      (0xB1, "Character string setting acceptance status", "unsigned char", 1),
      (0xB2, "Supported character codes", "unsigned char×2", 2),
      (0xB3, "Character string to present to the user", "unsigned char× Max 247", 0),
      (0xB4, "Length of character string accepted", "unsigned char", 2)
    ] }

/-- std/objects_scsl.py:1264-1271 -/
def scsl_0602 : NameEntry :=
  { key := (0x06, 0x02), name := "Television"
    props := [
      (0x80, "Operation status", "unsigned char", 1),
      (0xB0, "Display control setting", "unsigned char", 1),
      (0xB1, "Character string setting acceptance status", "unsigned char", 1),
      (0xB2, "Supported character codes", "unsigned char× 2", 2),
      (0xB3, "Character string to present to the user", "unsigned char× Max 247", 0),
      (0xB4, "Length of character string accepted", "unsigned char× 2", 2)
    ] }

/-- std/objects_mra.py:30-60 -/
def mra_0000 : NameEntry :=
  { key := (0x00, 0x00), name := "Super class"
    props := [
      (0x80, "Operation status", "state", 1),
      (0x81, "Installation location", "raw", 0),
      (0x81, "Installation location", "", 0),
      (0x82, "Standard version information", "raw", 0),
      (0x83, "Identification number", "raw", 0),
      (0x83, "Identification number", "raw", 0),
      (0x84, "Measured instantaneous power consumption", "number", 0),
      (0x85, "Measured cumulative electric energy consumption", "number", 0),
      (0x86, "Manufacturer's fault code", "raw", 0),
      (0x87, "Current limit setting", "number", 0),
      (0x88, "Fault status", "state", 1),
      (0x89, "Fault description", "raw", 0),
      (0x8A, "Manufacturer code", "raw", 0),
      (0x8B, "Business facility code", "raw", 0),
      (0x8C, "Product code", "raw", 0),
      (0x8D, "Production number", "raw", 0),
      (0x8E, "Production date", "date", 0),
      (0x8F, "Power-saving operation setting", "state", 1),
      (0x93, "Location information", "raw", 0),
      (0x93, "Location information", "raw", 0),
      (0x93, "Remote control setting", "state", 1),
      (0x93, "Remote control setting", "state", 1),
      (0x97, "Current time setting", "time", 2),
      (0x98, "Current date setting", "date", 0),
      (0x99, "Power limit setting", "number", 0),
      (0x9A, "Cumulative operating time", "object", 0),
      (0x9D, "Status change announcement property map", "raw", 0),
      (0x9E, "Set property map", "raw", 0),
      (0x9F, "Get property map", "raw", 0)
    ] }

/-- std/objects_mra.py:63-83 -/
def mra_0EF0 : NameEntry :=
  { key := (0x0E, 0xF0), name := "Node profile"
    props := [
      (0x80, "Operating status", "state", 1),
      (0x82, "Version information", "raw", 0),
      (0x83, "Identification number", "raw", 0),
      (0x88, "Fault status", "state", 1),
      (0x89, "Fault description", "number", 0),
      (0x8A, "Manufacturer code", "raw", 0),
      (0x8B, "Business facility code", "raw", 0),
      (0x8C, "Product code", "raw", 0),
      (0x8D, "Production number", "raw", 0),
      (0x8E, "Production date", "date", 0),
      (0x9D, "Status change announcement property map", "raw", 0),
      (0x9E, "Set property map", "raw", 0),
      (0x9F, "Get property map", "raw", 0),
      (0xBF, "Unique identifier data", "raw", 0),
      (0xD3, "Number of self-node instances", "raw", 0),
      (0xD4, "Number of self-node classes", "number", 0),
      (0xD5, "Instance list notification", "object", 0),
      (0xD6, "Self-node instance list S", "object", 0),
      (0xD7, "Self-node class list S", "object", 0)
    ] }

/-- std/objects_mra.py:86-97 -/
def mra_02A6 : NameEntry :=
  { key := (0x02, 0xA6), name := "Hybrid water heater"
    props := [
      (0xB0, "Automatic water heating setting", "state", 1),
      (0xB2, "Water heating status", "state", 1),
      (0xB3, "Heater status", "state", 1),
      (0xB6, "Hot water supply mode setting for auxiliary heat source machine", "state", 1),
      (0xB7, "Heater mode setting for auxiliary heat source machine.", "state", 1),
      (0xB8, "Linkage mode setting for solar power generation", "state", 1),
      (0xB9, "Solar power generations utilization time", "object", 0),
      (0xC3, "Hot water supply status", "state", 1),
      (0xE1, "Measured amount of hot water remaining in tank", "number", 0),
      (0xE2, "Tank capacity", "number", 0)
    ] }

/-- std/objects_mra.py:100-102 -/
def mra_05FD : NameEntry :=
  { key := (0x05, 0xFD), name := "Switch (supporting JEM-A/HA terminals)"
    props := [
      (0xE0, "Connected device", "raw", 0)
    ] }

/-- std/objects_mra.py:105-134 -/
def mra_0272 : NameEntry :=
  { key := (0x02, 0x72), name := "Instantaneous water heater"
    props := [
      (0x90, "ON timer reservation setting", "state", 1),
      (0x91, "ON timer setting", "time", 2),
      (0x92, "Set value of ON timer relative time", "time", 2),
      (0xD0, "Hot water heating status", "state", 1),
      (0xD1, "Set value of hot water temperature", "number", 0),
      (0xD2, "Hot water warmer setting", "state", 1),
      (0xD4, "Bath water volume setting 4", "number", 0),
      (0xD5, "Bath water volume setting 4 Maximum settable level", "number", 0),
      (0xD6, "Volume setting", "number", 0),
      (0xD7, "Mute setting", "state", 1),
      (0xDA, "Duration of Automatic operation setting", "", 0),
      (0xDB, "Remaining Automatic operation time", "", 0),
      (0xE1, "Set value of bath temperature", "number", 0),
      (0xE2, "Bath water heater status", "state", 1),
      (0xE3, "Bath Auto mode setting", "state", 1),
      (0xE4, "Bath additional boil-up operation setting", "state", 1),
      (0xE5, "Bath hot water adding operation setting", "state", 1),
      (0xE6, "Bath water temperature lowering operation setting", "state", 1),
      (0xE7, "Bath hot water volume setting 1", "number", 0),
      (0xE8, "Bath hot water volume setting 2", "level", 0),
      (0xE9, "Bathroom priority setting", "state", 1),
      (0xE9, "Bathroom priority setting", "state", 1),
      (0xEA, "Shower hot water supply status", "state", 1),
      (0xEB, "Kitchen hot water supply status", "state", 1),
      (0xEC, "Hot water warmer ON timer reservation setting", "state", 1),
      (0xED, "Set value of hot water warmer ON timer time", "time", 2),
      (0xEE, "Bath hot water volume setting 3", "number", 0),
      (0xEF, "Bath operation status monitor", "state", 1)
    ] }

/-- std/objects_mra.py:137-161 -/
def mra_03CE : NameEntry :=
  { key := (0x03, 0xCE), name := "Commercial showcase"
    props := [
      (0xB0, "Operation mode", "state", 1),
      (0xB0, "Operation mode setting", "state", 1),
      (0xBD, "Used to acquire measurements of discharge temperature.", "number", 0),
      (0xCA, "Group information", "raw", 0),
      (0xCA, "Group information", "", 0),
      (0xD0, "This property indicates the type of the showcase.", "state", 1),
      (0xD1, "This property indicates the type of the showcase door.", "state", 1),
      (0xD2, "This property indicates refrigerator type, such as built-in or separate.", "state", 1),
      (0xD3, "This property indicates the shape of the showcase.", "state", 1),
      (0xD4, "This property indicates the purpose of the showcase, either refrigeration or freezing.", "state", 1),
      (0xE0, "Indicates on/off status of lighting installed inside the showcase.", "state", 1),
      (0xE1, "Indicates ON/OFF status of lighting installed outside the showcase.", "state", 1),
      (0xE2, "Indicates on/off status of compressor when showcase and compressor are a single unit.", "state", 1),
      (0xE3, "Used to acquire internal temperature measurements inside the showcase.", "number", 0),
      (0xE4, "Indicates rated power consumption necessary when showcase is cooling.", "number", 0),
      (0xE5, "Indicates rated power consumption when heater is operating during showcase defrosting.", "number", 0),
      (0xE6, "Indicates rated power consumption when showcase is operating fan motor.", "number", 0),
      (0xE7, "Indicates on/off status of showcases with heater for hot function.", "state", 1),
      (0xEB, "Indicates type of lighting installed inside the showcase.", "state", 1),
      (0xEC, "Indicates type of lighting installed outside the showcase.", "state", 1),
      (0xED, "Indicates lighting level in % installed inside of the showcase.", "number", 0),
      (0xEE, "Indicates lighting level in % installed outside of the showcase.", "number", 0),
      (0xEF, "Set temperature setting of inside the case and acquire the current setting.", "number", 0)
    ] }

/-- std/objects_mra.py:164-167 -/
def mra_00D0 : NameEntry :=
  { key := (0x00, 0xD0), name := "Illuminance sensor"
    props := [
      (0xE0, "Measured illuminance value 1", "number", 0),
      (0xE1, "Measured illuminance value 2", "number", 0)
    ] }

/-- std/objects_mra.py:170-177 -/
def mra_0602 : NameEntry :=
  { key := (0x06, 0x02), name := "Television"
    props := [
      (0x80, "Operation status", "state", 1),
      (0xB0, "Display control setting", "state", 1),
      (0xB1, "Character string setting acceptance status", "state", 1),
      (0xB2, "Supported character codes", "bitmap", 2),
      (0xB3, "Character string to present to the user", "object", 0),
      (0xB4, "Length of character string accepted", "object", 0)
    ] }

/-- std/objects_mra.py:180-239 -/
def mra_027E : NameEntry :=
  { key := (0x02, 0x7E), name := "EV charger and discharger"
    props := [
      (0xC0, "Dischargeable capacity of vehicle mounted battery 1", "number", 0),
      (0xC1, "Dischargeable capacity of vehicle mounted battery 2", "number", 0),
      (0xC1, "Dischargeable capacity of vehicle mounted battery 2", "number", 0),
      (0xC2, "Remaining dischargeable capacity of vehicle mounted battery 1", "number", 0),
      (0xC3, "Remaining dischargeable capacity of vehicle mounted battery 2", "number", 0),
      (0xC3, "Remaining dischargeable capacity of vehicle mounted battery 2", "number", 0),
      (0xC4, "Remaining dischargeable capacity of vehicle mounted battery 3", "number", 0),
      (0xC5, "Rated charge capacity", "number", 0),
      (0xC6, "Rated discharge capacity", "number", 0),
      (0xC7, "Vehicle connection and chargeable/dischargeable status", "state", 1),
      (0xC7, "Vehicle connection and chargeable/dischargeable status", "state", 1),
      (0xC7, "Vehicle connection and chargeable/dischargeable status", "state", 1),
      (0xC8, "Minimum/maximum charging electric energy", "object", 0),
      (0xC9, "Minimum/maximum discharging electric energy", "object", 0),
      (0xCA, "Minimum/maximum charging current", "object", 0),
      (0xCB, "Minimum/maximum discharging current", "object", 0),
      (0xCC, "Charger/Discharger type", "state", 1),
      (0xCD, "Vehicle connection confirmation", "state", 1),
      (0xCE, "Chargeable capacity of vehicle mounted battery", "number", 0),
      (0xCF, "Remaining chargeable capacity of vehicle mounted battery", "number", 0),
      (0xD0, "Used capacity of vehicle mounted battery 1", "number", 0),
      (0xD1, "Used capacity of vehicle mounted battery 2", "number", 0),
      (0xD1, "Used capacity of vehicle mounted battery 2", "number", 0),
      (0xD2, "Rated voltage", "number", 0),
      (0xD3, "Measured instantaneous charging/discharging electric energy", "number", 0),
      (0xD4, "Measured instantaneous charging/discharging current", "number", 0),
      (0xD5, "Measured instantaneous charging/discharging voltage", "number", 0),
      (0xD6, "Measured cumulative amount of discharging electric energy", "number", 0),
      (0xD7, "Cumulative amount of discharging electric energy reset setting", "state", 1),
      (0xD8, "Measured cumulative amount of charging electric energy", "number", 0),
      (0xD9, "Cumulative amount of charging electric energy reset setting", "state", 1),
      (0xDA, "Operation mode setting", "state", 1),
      (0xDA, "Operation mode setting", "state", 1),
      (0xDA, "Operation mode setting", "state", 1),
      (0xDA, "Operation mode setting", "state", 1),
      (0xDB, "System interconnected type", "state", 1),
      (0xDC, "Charging method", "state", 1),
      (0xDC, "Charging method", "state", 1),
      (0xDD, "Discharging method", "state", 1),
      (0xDD, "Discharging method", "state", 1),
      (0xDE, "Purchasing electric power setting", "number", 0),
      (0xDF, "Re-interconnection permission setting", "state", 1),
      (0xE0, "Charging/Discharging electric power setting", "number", 0),
      (0xE1, "Working operation status", "state", 1),
      (0xE2, "Remaining stored electricity of vehicle mounted battery1", "number", 0),
      (0xE3, "Remaining stored electricity of vehicle mounted battery2", "number", 0),
      (0xE3, "Remaining stored electricity of vehicle mounted battery2", "number", 0),
      (0xE4, "Remaining stored electricity of vehicle mounted battery3", "number", 0),
      (0xE5, "Maintenance status", "state", 1),
      (0xE6, "Vehicle ID", "object", 0),
      (0xE7, "Charging amount setting 1", "number", 0),
      (0xE9, "Charging amount setting 2", "number", 0),
      (0xEA, "Discharging electric energy setting", "number", 0),
      (0xEB, "Charging electric energy setting", "number", 0),
      (0xEC, "Discharging electric energy setting", "number", 0),
      (0xED, "Charging current setting", "number", 0),
      (0xEE, "Discharging current setting", "number", 0),
      (0xEF, "Rated voltage (Independent)", "number", 0)
    ] }

/-- std/objects_mra.py:242-251 -/
def mra_0157 : NameEntry :=
  { key := (0x01, 0x57), name := "Package-type commercial air conditioner (outdoor unit)"
    props := [
      (0xAB, "Special state", "state", 1),
      (0xB8, "Rated power consumption of outdoor unit", "object", 0),
      (0xBE, "Measured outdoor unit temperature", "", 0),
      (0xCA, "Group information", "", 0),
      (0xDB, "Measured power consumption of outdoor unit", "number", 0),
      (0xDD, "Possible power savings for outdoor units", "number", 0),
      (0xDE, "Settings restricting power consumption of outdoor units", "", 0),
      (0xDF, "Minimum power consumption for restricted outdoor unit", "number", 0)
    ] }

/-- std/objects_mra.py:254-256 -/
def mra_0012 : NameEntry :=
  { key := (0x00, 0x12), name := "Humidity sensor"
    props := [
      (0xE0, "Measured value of relative humidity", "number", 0)
    ] }

/-- std/objects_mra.py:259-262 -/
def mra_0291 : NameEntry :=
  { key := (0x02, 0x91), name := "Mono functional lighting"
    props := [
      (0x80, "Operation status", "state", 1),
      (0xB0, "Light level Setting", "number", 0)
    ] }

/-- std/objects_mra.py:265-322 -/
def mra_0287 : NameEntry :=
  { key := (0x02, 0x87), name := "Power distribution board metering"
    props := [
      (0xB0, "Master rated capacity", "number", 0),
      (0xB1, "Number of measurement channels (simplex)", "", 0),
      (0xB2, "Channel range specification for cumulative amount of electric power consumption measurement (simplex)", "object", 0),
      (0xB3, "Measured cumulative amount of electric power consumption list (simplex)", "object", 0),
      (0xB4, "Channel range specification for instantaneous current measurement (simplex)", "object", 0),
      (0xB5, "Measured instantaneous current list (simplex)", "object", 0),
      (0xB6, "Channel range specification for instantaneous power consumption measurement (simplex)", "object", 0),
      (0xB7, "Measured instantaneous power consumption list (simplex)", "object", 0),
      (0xB8, "Number of measurement channels (duplex)", "", 0),
      (0xB9, "Channel range specification for cumulative amount of electric power consumption measurement (duplex)", "object", 0),
      (0xBA, "Measured cumulative amount of electric power consumption list (duplex)", "object", 0),
      (0xBB, "Channel range specification for instantaneous current measurement (duplex)", "object", 0),
      (0xBC, "Measured instantaneous current list (duplex)", "object", 0),
      (0xBD, "Channel range specification for instantaneous power consumption measurement (duplex)", "object", 0),
      (0xBE, "Measured instantaneous power consumption list (duplex)", "object", 0),
      (0xC0, "Measured cumulative amount of electric energy (normal direction)", "", 0),
      (0xC1, "Measured cumulative amount of electric energy (reverse direction)", "", 0),
      (0xC2, "Unit for cumulative amounts of electric energy", "numericValue", 1),
      (0xC3, "Historical data of measured cumulative amounts of electric energy (normal direction)", "object", 0),
      (0xC4, "Historical data of measured cumulative amounts of electric energy (reverse direction)", "object", 0),
      (0xC5, "Day for which the historical data of measured cumulative amounts of electric energy is to be retrieved", "", 0),
      (0xC6, "Measured instantaneous amount of electric energy", "", 0),
      (0xC7, "Measured instantaneous currents", "object", 0),
      (0xC8, "Measured instantaneous voltages", "object", 0),
      (0xD0, "Measurement channel 1", "object", 0),
      (0xD1, "Measurement channel 2", "object", 0),
      (0xD2, "Measurement channel 3", "object", 0),
      (0xD3, "Measurement channel 4", "object", 0),
      (0xD4, "Measurement channel 5", "object", 0),
      (0xD5, "Measurement channel 6", "object", 0),
      (0xD6, "Measurement channel 7", "object", 0),
      (0xD7, "Measurement channel 8", "object", 0),
      (0xD8, "Measurement channel 9", "object", 0),
      (0xD9, "Measurement channel 10", "object", 0),
      (0xDA, "Measurement channel 11", "object", 0),
      (0xDB, "Measurement channel 12", "object", 0),
      (0xDC, "Measurement channel 13", "object", 0),
      (0xDD, "Measurement channel 14", "object", 0),
      (0xDE, "Measurement channel 15", "object", 0),
      (0xDF, "Measurement channel 16", "object", 0),
      (0xE0, "Measurement channel 17", "object", 0),
      (0xE1, "Measurement channel 18", "object", 0),
      (0xE2, "Measurement channel 19", "object", 0),
      (0xE3, "Measurement channel 20", "object", 0),
      (0xE4, "Measurement channel 21", "object", 0),
      (0xE5, "Measurement channel 22", "object", 0),
      (0xE6, "Measurement channel 23", "object", 0),
      (0xE7, "Measurement channel 24", "object", 0),
      (0xE8, "Measurement channel 25", "object", 0),
      (0xE9, "Measurement channel 26", "object", 0),
      (0xEA, "Measurement channel 27", "object", 0),
      (0xEB, "Measurement channel 28", "object", 0),
      (0xEC, "Measurement channel 29", "object", 0),
      (0xED, "Measurement channel 30", "object", 0),
      (0xEE, "Measurement channel 31", "object", 0),
      (0xEF, "Measurement channel 32", "object", 0)
    ] }

/-- std/objects_mra.py:325-377 -/
def mra_026B : NameEntry :=
  { key := (0x02, 0x6B), name := "Electric water heater"
    props := [
      (0x90, "ON timer setting", "state", 1),
      (0x91, "ON timer setting", "time", 2),
      (0xB0, "Automatic water heating setting", "state", 1),
      (0xB0, "Automatic water heating setting", "state", 1),
      (0xB1, "Automatic water temperature control setting", "state", 1),
      (0xB2, "Water heater status", "state", 1),
      (0xB2, "Water heater status", "state", 1),
      (0xB3, "Water heating temperature setting", "", 0),
      (0xB4, "Manual water heating stop days setting", "", 0),
      (0xB5, "Relative time setting value for manual water heating OFF", "time", 2),
      (0xB6, "Tank operation mode setting", "state", 1),
      (0xC0, "Daytime reheating permission setting", "state", 1),
      (0xC0, "Daytime reheating permission setting", "state", 1),
      (0xC1, "Measured temperature of water in water heater", "number", 0),
      (0xC2, "Alarm status", "bitmap", 4),
      (0xC3, "Hot water supply status", "state", 1),
      (0xC4, "Relative time setting for keeping bath temperature", "time", 2),
      (0xC7, "Participation in energy shift", "state", 1),
      (0xC8, "Standard time to start heating", "number", 0),
      (0xC9, "Number of energy shifts", "number", 0),
      (0xCA, "Daytime heating shift time 1", "", 0),
      (0xCB, "Expected electric energy at daytime heating shift time 1", "object", 0),
      (0xCC, "Consumption of electric energy per hour 1", "object", 0),
      (0xCD, "Daytime heating shift time 2", "", 0),
      (0xCE, "Expected electric energy at daytime heating shift time 2", "object", 0),
      (0xCF, "Consumption of electric energy per hour 2", "object", 0),
      (0xD1, "Temperature of supplied water setting", "number", 0),
      (0xD3, "Bath water temperature setting", "number", 0),
      (0xD4, "Bath water volume setting4", "number", 0),
      (0xD5, "Bath water volume setting4 maximum settable level", "number", 0),
      (0xD6, "Volume setting", "number", 0),
      (0xD7, "Mute setting", "state", 1),
      (0xD8, "Remaining hot water volume", "number", 0),
      (0xD9, "Surplus electric energy power prediction value", "object", 0),
      (0xDB, "Rated power consumption of H/P unit in wintertime", "number", 0),
      (0xDC, "Rated power consumption of H/P unit in in-between seasons", "number", 0),
      (0xDD, "Rated power consumption of H/P unit in summertime", "number", 0),
      (0xE0, "Bath water volume setting", "number", 0),
      (0xE1, "Measured amount of water remaining in tank", "number", 0),
      (0xE2, "Tank capacity", "number", 0),
      (0xE3, "Automatic Bath Water Heating Mode Setting", "state", 1),
      (0xE4, "Manual bath reheating operation setting", "state", 1),
      (0xE5, "Addition of hot water function setting", "state", 1),
      (0xE5, "Manual bath hot water addition function setting", "state", 1),
      (0xE6, "Slight bath water temperature lowering function setting", "state", 1),
      (0xE6, "Manual lukewarm water temperature lowering function setting.", "state", 1),
      (0xE7, "Bath water volume setting 1", "number", 0),
      (0xE8, "Bath water volume setting 2", "level", 0),
      (0xE9, "Bathroom priority setting", "state", 1),
      (0xEA, "Bath Operation Status Monitor", "state", 1),
      (0xEE, "Bath water volume setting 3", "number", 0)
    ] }

/-- std/objects_mra.py:380-405 -/
def mra_0290 : NameEntry :=
  { key := (0x02, 0x90), name := "General lighting"
    props := [
      (0x80, "Operation status", "state", 1),
      (0x90, "ON timer reservation setting", "state", 1),
      (0x91, "ON timer setting", "time", 2),
      (0x94, "OFF timer reservation setting", "state", 1),
      (0x95, "Time set by OFF timer", "time", 2),
      (0xB0, "Light level", "number", 0),
      (0xB1, "Light color setting", "state", 1),
      (0xB1, "Light color setting", "state", 1),
      (0xB1, "Light color setting", "state", 1),
      (0xB2, "Light level step setting", "raw", 0),
      (0xB3, "Light color step setting", "raw", 0),
      (0xB4, "Maximum specifiable values", "object", 0),
      (0xB5, "Maximum value of settable level for night lighting", "object", 0),
      (0xB6, "Lighting mode setting", "state", 1),
      (0xB7, "Light level setting for main lighting", "number", 0),
      (0xB8, "Light level step setting for main lighting", "raw", 0),
      (0xB9, "Light level setting for night lighting", "number", 0),
      (0xBA, "Light level step setting for night lighting", "raw", 0),
      (0xBB, "Light color setting for main lighting", "state", 1),
      (0xBC, "Light color level step setting for main lighting", "raw", 0),
      (0xBD, "Light color setting for night lighting", "state", 1),
      (0xBE, "Light color level step setting for night lighting", "raw", 0),
      (0xBF, "Lighting mode status in auto mode", "state", 1),
      (0xC0, "RGB setting for color lighting", "object", 0)
    ] }

/-- std/objects_mra.py:408-476 -/
def mra_027D : NameEntry :=
  { key := (0x02, 0x7D), name := "Storage battery"
    props := [
      (0x83, "Identification number", "raw", 0),
      (0x97, "Current time setting", "time", 2),
      (0x98, "Current date setting", "date", 0),
      (0xA0, "AC effective capacity (charging)", "number", 0),
      (0xA1, "AC effective capacity (discharging)", "number", 0),
      (0xA2, "AC chargeable capacity", "number", 0),
      (0xA3, "AC dischargeable capacity", "number", 0),
      (0xA4, "AC chargeable electric energy", "number", 0),
      (0xA5, "AC dischargeable electric energy", "number", 0),
      (0xA6, "AC charge upper limit setting", "number", 0),
      (0xA7, "AC discharge lower limit setting", "number", 0),
      (0xA8, "AC measured cumulative charging electric energy", "number", 0),
      (0xA9, "AC measured cumulative discharging electric energy", "number", 0),
      (0xAA, "AC charge amount setting value", "", 0),
      (0xAB, "AC discharge amount setting value", "", 0),
      (0xC1, "Charging method", "state", 1),
      (0xC2, "Discharging method", "state", 1),
      (0xC7, "AC rated electric energy", "number", 0),
      (0xC8, "Minimum/maximum charging electric power", "object", 0),
      (0xC8, "Minimum/maximum charging electric power", "object", 0),
      (0xC9, "Minimum/maximum discharging electric power", "object", 0),
      (0xC9, "Minimum/maximum discharging electric power", "object", 0),
      (0xCA, "Minimum/maximum charging current", "object", 0),
      (0xCB, "Minimum/maximum discharging current", "object", 0),
      (0xCC, "Re-interconnection permission setting", "state", 1),
      (0xCD, "Operation permission setting", "state", 1),
      (0xCE, "Independent operation permission setting", "state", 1),
      (0xCF, "Working operation status", "state", 1),
      (0xCF, "Working operation status", "state", 1),
      (0xD0, "Rated electric energy", "number", 0),
      (0xD1, "Rated capacity", "number", 0),
      (0xD2, "Rated voltage", "number", 0),
      (0xD3, "Measured instantaneous charging/discharging electric energy", "number", 0),
      (0xD4, "Measured instantaneous charging/discharging current", "number", 0),
      (0xD5, "Measured instantaneous charging/discharging voltage", "number", 0),
      (0xD6, "Measured cumulative discharging electric energy", "number", 0),
      (0xD7, "Measured cumulative discharging electric energy reset setting", "state", 1),
      (0xD8, "Measured cumulative charging electric energy", "number", 0),
      (0xD9, "Measured cumulative charging electric energy reset setting", "state", 1),
      (0xDA, "Operation mode setting", "state", 1),
      (0xDA, "Operation mode setting", "state", 1),
      (0xDA, "Operation mode setting", "state", 1),
      (0xDA, "Operation mode setting", "state", 1),
      (0xDB, "System-interconnected type", "state", 1),
      (0xDB, "System-interconnected type", "state", 1),
      (0xDC, "Minimum/maximum charging power (Independent)", "object", 0),
      (0xDD, "Minimum/maximum discharging power (Independent)", "object", 0),
      (0xDE, "Minimum/maximum charging current (Independent)", "object", 0),
      (0xDF, "Minimum/maximum discharging current (Independent)", "object", 0),
      (0xE0, "Charging/discharging amount setting 1", "", 0),
      (0xE0, "Charging/discharging amount setting 1", "", 0),
      (0xE1, "Charging/discharging amount setting 2", "", 0),
      (0xE1, "Charging/discharging amount setting 2", "", 0),
      (0xE2, "Remaining stored electricity 1", "number", 0),
      (0xE3, "Remaining stored electricity 2", "number", 0),
      (0xE4, "Remaining stored electricity 3", "number", 0),
      (0xE5, "Battery state of health", "number", 0),
      (0xE6, "Battery type", "state", 1),
      (0xE7, "Charging amount setting 1", "number", 0),
      (0xE8, "Discharging amount setting 1", "number", 0),
      (0xE9, "Charging amount setting 2", "number", 0),
      (0xEA, "Discharging amount setting 2", "number", 0),
      (0xEB, "Charging electric energy setting", "number", 0),
      (0xEC, "Discharging electric energy setting", "number", 0),
      (0xED, "Charging current setting", "number", 0),
      (0xEE, "Discharging current setting", "number", 0),
      (0xEF, "Rated voltage (Independent)", "number", 0)
    ] }

/-- std/objects_mra.py:479-488 -/
def mra_0156 : NameEntry :=
  { key := (0x01, 0x56), name := "Package-type commercial air conditioner (indoor unit) (except those for facilities)"
    props := [
      (0x80, "Operation status", "state", 1),
      (0xAC, "Thermostat state", "state", 1),
      (0xAE, "Current function (automatic operation mode)", "state", 1),
      (0xB0, "Operation mode setting", "state", 1),
      (0xB3, "Temperature setting", "number", 0),
      (0xBB, "Measured indoor unit temperature", "", 0),
      (0xCA, "Group information", "", 0),
      (0xDB, "Power consumption range for indoor units", "state", 1)
    ] }

/-- std/objects_mra.py:491-501 -/
def mra_03BB : NameEntry :=
  { key := (0x03, 0xBB), name := "Rice cooker"
    props := [
      (0x90, "Rice cooking reservation setting", "state", 1),
      (0x91, "Rice cooking reservation time setting", "time", 2),
      (0x92, "Rice cooking reservation relative time setting", "time", 2),
      (0xB0, "Cover closure status", "state", 1),
      (0xB1, "Rice cooking status", "state", 1),
      (0xB2, "Rice cooking control setting", "state", 1),
      (0xE1, "Warmer setting", "state", 1),
      (0xE5, "Inner pot removal status", "state", 1),
      (0xE6, "Cover removal status", "state", 1)
    ] }

/-- std/objects_mra.py:504-527 -/
def mra_028A : NameEntry :=
  { key := (0x02, 0x8A), name := "High-voltage smart electric energy meter"
    props := [
      (0xC1, "Monthly maximum electric power demand", "", 0),
      (0xC2, "Cumulative maximum electric power demand", "number", 0),
      (0xC3, "Electric power demand at fixed time (30-minute average electric power)", "object", 0),
      (0xC4, "Number of effective digits of electric power demand", "number", 0),
      (0xC5, "Unit of electric power demand", "numericValue", 1),
      (0xC6, "Historical data of measured electric power demand", "object", 0),
      (0xC7, "Unit of cumulative maximum electric power demand", "numericValue", 1),
      (0xCA, "Measurement data of reactive electric power consumption (lag) for power factor measurement", "object", 0),
      (0xCB, "Measurement data of cumulative amount of reactive electric power consumption (lag) at fixed time for power factor measurement", "object", 0),
      (0xCC, "Number of effective digits for measurement data of cumulative amount of reactive electric power consumption (lag) for power factor measurement", "number", 0),
      (0xCD, "Unit of measurement data of cumulative amount of reactive electric power consumption (lag)", "numericValue", 1),
      (0xCE, "Historical data of measurement data of cumulative amount of reactive electric power consumption (lag) for power factor measurement", "object", 0),
      (0xD3, "Coefficient", "number", 0),
      (0xD4, "Multiplying factor for coefficient", "numericValue", 1),
      (0xE0, "Fixed date", "number", 0),
      (0xE1, "Day for which the historical data of measured cumulative amounts of electric energy is to be retrieved", "", 0),
      (0xE2, "Measured cumulative amounts of active electric energy", "object", 0),
      (0xE3, "Cumulative amounts of active electric energy at fixed time", "object", 0),
      (0xE4, "Measurement data of cumulative amounts of active electric energy for power factor measurement", "object", 0),
      (0xE5, "Number of effective digits for cumulative amount of active electric energy", "number", 0),
      (0xE6, "Unit of cumulative amounts of effective electric energy", "numericValue", 1),
      (0xE7, "Historical data of measured cumulative amount of active electric energy", "object", 0)
    ] }

/-- std/objects_mra.py:530-540 -/
def mra_03B9 : NameEntry :=
  { key := (0x03, 0xB9), name := "Cooking heater"
    props := [
      (0x96, "Relative time settings of off timers", "object", 0),
      (0xA1, "Child lock setting", "state", 1),
      (0xA2, "Radiant heater lock setting", "state", 1),
      (0xB1, "Heating status", "object", 0),
      (0xB2, "Heating setting", "object", 0),
      (0xB3, "All stop setting", "state", 1),
      (0xE0, "Heating modes of stoves", "object", 0),
      (0xE3, "Heating temperature setting", "object", 0),
      (0xE7, "Heating power setting", "object", 0)
    ] }

/-- std/objects_mra.py:543-547 -/
def mra_001D : NameEntry :=
  { key := (0x00, 0x1D), name := "VOC sensor"
    props := [
      (0xB0, "Detection threshold level", "level", 0),
      (0xB1, "VOC detection status", "state", 1),
      (0xE0, "Measured value of VOC concentration", "number", 0)
    ] }

/-- std/objects_mra.py:550-574 -/
def mra_0273 : NameEntry :=
  { key := (0x02, 0x73), name := "Bathroom heater dryer"
    props := [
      (0x90, "On timer reservation setting 1", "state", 1),
      (0x91, "On timer setting value", "time", 2),
      (0x92, "On relative timer setting value", "time", 2),
      (0x94, "Off timer reservation setting", "state", 1),
      (0x95, "OFF timer setting value", "time", 2),
      (0x96, "Off relative timer setting value", "time", 2),
      (0xB0, "Operation setting", "state", 1),
      (0xB0, "Operation setting", "state", 1),
      (0xB1, "Ventilation operation setting", "", 0),
      (0xB2, "Bathroom prewarming operation setting", "", 0),
      (0xB2, "Bathroom prewarming operation setting", "", 0),
      (0xB3, "Bathroom heating operation setting", "", 0),
      (0xB4, "Bathroom drying operation setting", "", 0),
      (0xB5, "Cool air circulation operation setting", "", 0),
      (0xB6, "Mist sauna operation setting", "", 0),
      (0xB7, "Water mist operation setting", "", 0),
      (0xBA, "Measured value of bathroom relative humidity", "number", 0),
      (0xBB, "Measured value of bathroom temperature", "number", 0),
      (0xC2, "Ventilation air flow rate setting", "", 0),
      (0xCF, "Filter cleaning reminder sign setting", "state", 1),
      (0xE0, "Human body detection status", "state", 1),
      (0xE1, "On timer reservation setting 2", "state", 1),
      (0xE1, "On timer reservation setting 2", "state", 1)
    ] }

/-- std/objects_mra.py:577-585 -/
def mra_03D4 : NameEntry :=
  { key := (0x03, 0xD4), name := "Commercial show case outdoor unit"
    props := [
      (0xAA, "Indicates that the showcase freezer is in an exceptional status.", "state", 1),
      (0xB0, "Operation mode setting", "state", 1),
      (0xB0, "Operation mode setting", "state", 1),
      (0xBE, "Used to acquire measurements of outdoor air temperature.", "number", 0),
      (0xCA, "Group information", "raw", 0),
      (0xCA, "Group information", "", 0),
      (0xE2, "Indicates compressor ON/OFF status.", "state", 1)
    ] }

/-- std/objects_mra.py:588-615 -/
def mra_027C : NameEntry :=
  { key := (0x02, 0x7C), name := "Fuel cell"
    props := [
      (0xC1, "Measured temperature of water in water heater", "number", 0),
      (0xC2, "Rated power generation output", "number", 0),
      (0xC2, "Rated power generation output", "number", 0),
      (0xC3, "Heating value of hot water storage tank", "number", 0),
      (0xC4, "Measured instantaneous power generation output", "number", 0),
      (0xC5, "Measured cumulative power generation output", "number", 0),
      (0xC6, "Cumulative power generation output reset setting", "state", 1),
      (0xC6, "Cumulative energy generation output reset setting", "state", 1),
      (0xC7, "Measured instantaneous gas consumption", "number", 0),
      (0xC8, "Measured cumulative gas consumption", "number", 0),
      (0xC9, "Cumulative gas consumption reset setting", "state", 1),
      (0xCA, "Power generation setting", "state", 1),
      (0xCA, "Power generation setting", "state", 1),
      (0xCB, "Power generation status", "state", 1),
      (0xCB, "Power generation status", "state", 1),
      (0xCC, "Measured in-house instantaneous power consumption", "number", 0),
      (0xCD, "Measured in-house cumulative power consumption", "number", 0),
      (0xCD, "Measured in-house cumulative energy consumption", "number", 0),
      (0xCE, "In-house cumulative power consumption reset", "state", 1),
      (0xCE, "In-house cumulative energy consumption reset", "state", 1),
      (0xD0, "System interconnected type", "state", 1),
      (0xD0, "System interconnected type", "state", 1),
      (0xD1, "Power generation request time setting", "", 0),
      (0xD2, "Designated power generation status", "state", 1),
      (0xE1, "Measured remaining hot water amount", "number", 0),
      (0xE2, "Tank capacity", "number", 0)
    ] }

/-- std/objects_mra.py:618-629 -/
def mra_0281 : NameEntry :=
  { key := (0x02, 0x81), name := "Water flowmeter"
    props := [
      (0xD0, "Water flowmeter classification", "state", 1),
      (0xD1, "Owner classification", "state", 1),
      (0xE0, "Measured cumulative amount of flowing water", "number", 0),
      (0xE1, "Unit for measured Cumulative amounts of flowing water", "numericValue", 1),
      (0xE2, "Historical data of measured cumulative amount of flowing water", "array", 0),
      (0xE3, "Detection of abnormal value in metering data", "state", 1),
      (0xE4, "Security data information", "number", 0),
      (0xE5, "ID number setting", "raw", 0),
      (0xE6, "Verification expiration information", "raw", 0),
      (0xE7, "Historical data 2 of measured cumulative amount of flowing water", "array", 0)
    ] }

/-- std/objects_mra.py:632-682 -/
def mra_0130 : NameEntry :=
  { key := (0x01, 0x30), name := "Home air conditioner"
    props := [
      (0x80, "Operation status", "state", 1),
      (0x8F, "Power-saving operation setting", "state", 1),
      (0x90, "ON timer-based reservation setting", "state", 1),
      (0x91, "ON timer setting (time)", "time", 2),
      (0x92, "ON timer setting (relative time)", "time", 2),
      (0x94, "OFF timer-based reservation setting", "state", 1),
      (0x95, "OFF timer setting (time)", "time", 2),
      (0x96, "OFF timer setting (relative time)", "time", 2),
      (0xA0, "Air flow rate setting", "", 0),
      (0xA0, "Air flow rate setting", "", 0),
      (0xA1, "Automatic control of air flow direction setting", "state", 1),
      (0xA3, "Automatic swing of air flow setting", "state", 1),
      (0xA4, "Air flow direction (vertical) setting", "state", 1),
      (0xA5, "Air flow direction (horizontal) setting", "state", 1),
      (0xAA, "Special state", "state", 1),
      (0xAB, "Non-priority state", "state", 1),
      (0xB0, "Operation mode setting", "state", 1),
      (0xB1, "Automatic temperature control setting", "state", 1),
      (0xB2, "Normal/highspeed/silent operation setting", "state", 1),
      (0xB3, "Set temperature value", "", 0),
      (0xB4, "Set value of relative humidity in dehumidifying mode", "number", 0),
      (0xB5, "Set temperature value in cooling mode", "", 0),
      (0xB6, "Set temperature value in heating mode", "", 0),
      (0xB7, "Set temperature value in dehumidifying mode", "", 0),
      (0xB8, "Rated power consumption", "object", 0),
      (0xB9, "Measured value of current consumption", "number", 0),
      (0xBA, "Measured value of room relative humidity", "", 0),
      (0xBB, "Measured value of room temperature", "", 0),
      (0xBB, "Measured value of room temperature", "", 0),
      (0xBC, "Set temperature value of user remote control", "number", 0),
      (0xBD, "Measured cooled air temperature", "", 0),
      (0xBE, "Measured outdoor air temperature", "", 0),
      (0xBF, "Relative temperature setting", "", 0),
      (0xC0, "Ventilation function setting", "state", 1),
      (0xC1, "Humidifier function setting", "state", 1),
      (0xC2, "Ventilation air flow rate setting", "", 0),
      (0xC4, "Degree of humidification setting", "", 0),
      (0xC6, "Mounted air cleaning method", "bitmap", 1),
      (0xC7, "Air purifier function setting", "bitmap", 8),
      (0xC8, "Mounted air refresh method", "bitmap", 1),
      (0xC9, "Air refresher function setting", "bitmap", 8),
      (0xCA, "Mounted self-cleaning method", "bitmap", 1),
      (0xCB, "Self-cleaning function setting", "bitmap", 8),
      (0xCC, "Special function setting", "state", 1),
      (0xCD, "Operation status of components", "bitmap", 1),
      (0xCE, "Thermostat setting override function", "state", 1),
      (0xCE, "Thermostat setting override function", "state", 1),
      (0xCF, "Air purification mode setting", "state", 1),
      (0xD0, "Buzzer", "state", 1)
    ] }

/-- std/objects_mra.py:685-693 -/
def mra_0022 : NameEntry :=
  { key := (0x00, 0x22), name := "Electric energy sensor"
    props := [
      (0xE0, "Cumulative amounts of electric energy", "number", 0),
      (0xE1, "Medium-capacity sensor instantaneous electric energy", "number", 0),
      (0xE2, "Small-capacity sensor instantaneous electric energy", "number", 0),
      (0xE3, "Large-capacity sensor instantaneous electric energy", "number", 0),
      (0xE4, "Cumulative amounts of electric energy measurement log", "array", 0),
      (0xE4, "Cumulative amounts of electric energy measurement log", "array", 0),
      (0xE5, "Effective voltage value", "number", 0)
    ] }

/-- std/objects_mra.py:696-729 -/
def mra_03D3 : NameEntry :=
  { key := (0x03, 0xD3), name := "Washer and dryer"
    props := [
      (0x90, "On timer reservation setting", "state", 1),
      (0x91, "On timer setting", "time", 2),
      (0x92, "Relative time-based on timer setting", "time", 2),
      (0xB0, "Door/cover open/close status", "state", 1),
      (0xB2, "Washer and dryer setting", "state", 1),
      (0xD0, "Washer and dryer cycle setting 1", "state", 1),
      (0xD1, "Washer and dryer cycle setting 2", "state", 1),
      (0xD2, "Drying cycle setting", "state", 1),
      (0xD3, "Washer and dryer cycle option list 1", "raw", 0),
      (0xD4, "Washer and dryer cycle option list 2", "raw", 0),
      (0xD5, "Washer and dryer cycle option list 3", "raw", 0),
      (0xD6, "Water flow rate setting", "", 0),
      (0xD7, "Rotation speed for spin drying setting", "", 0),
      (0xD8, "Degree of drying setting", "", 0),
      (0xDB, "Remaining washing time", "", 0),
      (0xDC, "Remaining drying time", "", 0),
      (0xDF, "Elapsed time on the ON timer", "time", 2),
      (0xE1, "Presoaking time setting", "", 0),
      (0xE2, "Current stage of washer and dryer cycle", "state", 1),
      (0xE3, "Water volume setting 1", "", 0),
      (0xE4, "Water volume setting 2", "", 0),
      (0xE5, "Washing time setting", "", 0),
      (0xE6, "Number of times of rinsing setting", "", 0),
      (0xE7, "Rinsing process setting", "raw", 0),
      (0xE8, "Spin drying time setting", "", 0),
      (0xE9, "Drying time setting", "", 0),
      (0xEA, "Warm water setting", "", 0),
      (0xEB, "Bathtub water recycle setting", "state", 1),
      (0xEC, "Wrinkling minimization setting", "state", 1),
      (0xED, "Time remaining to complete washer and dryer cycle", "", 0),
      (0xEE, "Door/cover lock setting", "state", 1),
      (0xEF, "Washer and dryer cycle", "raw", 0)
    ] }

/-- std/objects_mra.py:732-749 -/
def mra_0263 : NameEntry :=
  { key := (0x02, 0x63), name := "Electrically operated rain sliding door/shutter"
    props := [
      (0x89, "Fault description (Recoverable faults)", "state", 2),
      (0x90, "Timer operation setting", "state", 1),
      (0xD0, "Opening speed setting", "state", 1),
      (0xD1, "Closing speed setting", "state", 1),
      (0xD2, "Operation time", "number", 0),
      (0xE0, "Open/close operation setting", "state", 1),
      (0xE1, "Degree-of-opening setting", "number", 0),
      (0xE2, "Blind angle setting", "number", 0),
      (0xE3, "Opening/closing speed setting", "state", 1),
      (0xE5, "Electric lock setting", "state", 1),
      (0xE8, "Remote operation setting status", "state", 1),
      (0xE9, "Selective degree-of-opening setting", "state", 1),
      (0xEA, "Open/closed status", "state", 1),
      (0xED, "Slit degree-of-opening", "level", 0),
      (0xEE, "One-time opening speed setting", "state", 1),
      (0xEF, "One-time closing speed setting", "state", 1)
    ] }

/-- std/objects_mra.py:752-754 -/
def mra_001B : NameEntry :=
  { key := (0x00, 0x1B), name := "CO2 sensor"
    props := [
      (0xE0, "Measured value of CO2 concentration", "number", 0)
    ] }

/-- std/objects_mra.py:757-761 -/
def mra_0023 : NameEntry :=
  { key := (0x00, 0x23), name := "Current sensor"
    props := [
      (0xE0, "Measured current value 1", "number", 0),
      (0xE1, "Rated voltage to be measured", "number", 0),
      (0xE2, "Measured current value 2", "number", 0)
    ] }

/-- std/objects_mra.py:764-786 -/
def mra_02A1 : NameEntry :=
  { key := (0x02, 0xA1), name := "EV Charger"
    props := [
      (0xC5, "Rated charge capacity", "number", 0),
      (0xC7, "Vehicle connection and chargeable status", "state", 1),
      (0xC7, "Vehicle connection and chargeable status", "state", 1),
      (0xC8, "Minimum/maximum charging electric energy", "object", 0),
      (0xCA, "Minimum/maximum charging electric current", "object", 0),
      (0xCC, "Charger type", "state", 1),
      (0xCD, "Vehicle connection confirmation", "state", 1),
      (0xCE, "Chargeable capacity of vehicle mounted battery", "number", 0),
      (0xCF, "Remaining chargeable capacity of vehicle mounted battery", "number", 0),
      (0xD0, "Used capacity of vehicle mounted battery 1", "number", 0),
      (0xD2, "Rated voltage", "number", 0),
      (0xD3, "Measured instantaneous charging electric energy", "number", 0),
      (0xD8, "Measured cumulative amount of charging electric energy", "number", 0),
      (0xD9, "Cumulative amount of charging electric energy reset setting", "state", 1),
      (0xDA, "Operation mode setting", "state", 1),
      (0xE2, "Remaining stored electricity of vehicle mounted battery1", "number", 0),
      (0xE4, "Remaining stored electricity of vehicle mounted battery3", "number", 0),
      (0xE6, "Vehicle ID", "object", 0),
      (0xE7, "Charging amount setting", "number", 0),
      (0xEB, "Charging electric energy setting", "number", 0),
      (0xED, "Charging current setting", "number", 0)
    ] }

/-- std/objects_mra.py:789-793 -/
def mra_0280 : NameEntry :=
  { key := (0x02, 0x80), name := "Watt-hour meter"
    props := [
      (0xE0, "Cumulative amounts of electric energy measurement value", "number", 0),
      (0xE2, "Cumulative amounts of electric energy unit", "numericValue", 1),
      (0xE3, "Cumulative amounts of electric energy measurement log 1", "array", 0)
    ] }

/-- std/objects_mra.py:796-799 -/
def mra_0003 : NameEntry :=
  { key := (0x00, 0x03), name := "Emergency button"
    props := [
      (0xB1, "Emergency occurrence status", "state", 1),
      (0xBF, "Emergency occurrence status resetting", "state", 1)
    ] }

/-- std/objects_mra.py:802-833 -/
def mra_0279 : NameEntry :=
  { key := (0x02, 0x79), name := "Household solar power generation"
    props := [
      (0x83, "Identification number", "raw", 0),
      (0x97, "Current time setting", "time", 2),
      (0x98, "Current date setting", "date", 0),
      (0xA0, "Output power control setting 1", "number", 0),
      (0xA1, "Output power control setting 2", "number", 0),
      (0xA2, "Function to control purchase surplus electricity setting", "state", 1),
      (0xB0, "Output power controlling schedule", "object", 0),
      (0xB1, "Next access date and time", "", 0),
      (0xB2, "Function to control the type of surplus electricity purchase", "state", 1),
      (0xB3, "Output power change time setting value", "number", 0),
      (0xB4, "Upper limit clip setting value", "", 0),
      (0xC0, "Operation power factor setting value", "number", 0),
      (0xC1, "FIT contract type", "state", 1),
      (0xC2, "Self-consumption type", "state", 1),
      (0xC3, "Capacity approved by equipment", "", 0),
      (0xC4, "Conversion coefficient", "number", 0),
      (0xD0, "System-interconnected type", "state", 1),
      (0xD0, "System-interconnected type", "state", 1),
      (0xD1, "Output power restraint status", "state", 1),
      (0xE0, "Measured instantaneous amount of electricity generated", "number", 0),
      (0xE1, "Measured cumulative amount of electric energy generated", "number", 0),
      (0xE2, "Resetting cumulative amount of electric energy generated", "state", 1),
      (0xE3, "Measured cumulative amount of electric energy sold", "number", 0),
      (0xE4, "Resetting cumulative amount of electric energy sold", "state", 1),
      (0xE5, "Power generation output limit setting 1", "number", 0),
      (0xE6, "Power generation output limit setting 2", "number", 0),
      (0xE7, "Limit setting for the amount of electricity sold", "number", 0),
      (0xE8, "Rated power generation output (System-interconnected)", "number", 0),
      (0xE8, "Rated power generation output (System-interconnected)", "", 0),
      (0xE9, "Rated power generation output (Independent)", "number", 0)
    ] }

/-- std/objects_mra.py:836-857 -/
def mra_027B : NameEntry :=
  { key := (0x02, 0x7B), name := "Floor heater"
    props := [
      (0x80, "Operation status", "state", 1),
      (0x90, "ON timer reservation setting", "state", 1),
      (0x91, "Time set by ON timer", "time", 2),
      (0x92, "Relative ON timer setting", "time", 2),
      (0x94, "OFF timer reservation setting", "state", 1),
      (0x95, "Time set by OFF timer", "time", 2),
      (0x96, "Relative OFF timer setting", "time", 2),
      (0xD1, "Maximum temperature level", "number", 0),
      (0xE0, "Set temperature value", "", 0),
      (0xE1, "Set temperature level by 15 steps", "", 0),
      (0xE2, "Measured room temperature", "", 0),
      (0xE3, "Measured floor temperature", "", 0),
      (0xE3, "Measured floor temperature", "", 0),
      (0xE4, "Zone change setting", "bitmap", 1),
      (0xE5, "Special operation setting", "state", 1),
      (0xE6, "Daily timer setting", "state", 1),
      (0xE7, "Daily timer setting 1", "bitmap", 6),
      (0xE8, "Daily timer setting 2", "bitmap", 6),
      (0xE9, "Rated power consumption", "number", 0),
      (0xEA, "Power consumption measurement method", "state", 1)
    ] }

/-- std/objects_mra.py:860-863 -/
def mra_0016 : NameEntry :=
  { key := (0x00, 0x16), name := "Bath heating status sensor"
    props := [
      (0xB0, "Detection threshold level", "level", 0),
      (0xB1, "Bath heating detection status", "state", 1)
    ] }

/-- std/objects_mra.py:866-886 -/
def mra_027A : NameEntry :=
  { key := (0x02, 0x7A), name := "Cold or hot water heat source equipment"
    props := [
      (0x90, "ON timer reservation setting", "state", 1),
      (0x91, "ON timer setting", "time", 2),
      (0x92, "Relative ON timer setting", "time", 2),
      (0x94, "OFF timer reservation setting", "state", 1),
      (0x95, "Time set by OFF timer", "time", 2),
      (0x96, "Relative OFF timer setting", "time", 2),
      (0xD1, "Cold water temperature setting 2 Maximum allowable setting level", "number", 0),
      (0xD2, "Warm water temperature setting 2 Maximum allowable setting level", "number", 0),
      (0xE0, "Operation mode setting", "state", 1),
      (0xE1, "Water temperature setting 1", "", 0),
      (0xE2, "Water temperature setting 2", "", 0),
      (0xE3, "Measured temperature of outward water (Exit water Temperature)", "", 0),
      (0xE4, "Measured temperature of inward water (Entrance water Temperature)", "", 0),
      (0xE5, "Special operation setting", "state", 1),
      (0xE6, "Daily timer setting", "state", 1),
      (0xE7, "Daily timer setting 1", "raw", 0),
      (0xE8, "Daily timer setting 2", "raw", 0),
      (0xE9, "Rated power consumption", "object", 0),
      (0xEA, "Power consumption measurement method", "state", 1)
    ] }

/-- std/objects_mra.py:889-905 -/
def mra_028D : NameEntry :=
  { key := (0x02, 0x8D), name := "Smart electric energy meter for sub-metering"
    props := [
      (0xD3, "Electric energy coefficient", "number", 0),
      (0xD4, "Unit for cumulative amount of electric energy (normal and reverse directions)", "numericValue", 1),
      (0xD7, "Number of effective digits for cumulative amounts of electric energy", "number", 0),
      (0xD8, "Electric current coefficient", "number", 0),
      (0xD9, "Voltage coefficient", "number", 0),
      (0xE0, "Day for which the historical data of measured cumulative amounts of electric energy is to be retrieved", "", 0),
      (0xE1, "Measured cumulative amount of electric energy(normal direction)", "", 0),
      (0xE2, "Historical data of measured cumulative amounts of electric energy (normal direction)", "object", 0),
      (0xE3, "Measured cumulative amount of electric energy (reverse direction)", "", 0),
      (0xE4, "Historical data of measured cumulative amounts of electric energy (reverse direction)", "object", 0),
      (0xE7, "Measured instantaneous electric power", "", 0),
      (0xE8, "Measured instantaneous currents", "object", 0),
      (0xE9, "Measured instantaneous voltages", "object", 0),
      (0xEA, "Cumulative amounts of electric energy measured at fixed time(normal direction)", "object", 0),
      (0xEB, "Cumulative amounts of electric energy measured at fixed time(reverse direction)", "object", 0)
    ] }

/-- std/objects_mra.py:908-912 -/
def mra_02A3 : NameEntry :=
  { key := (0x02, 0xA3), name := "Lighting system"
    props := [
      (0xB0, "Light level setting", "number", 0),
      (0xC0, "Scene control setting", "", 0),
      (0xC1, "Number that can assign scene control setting", "number", 0)
    ] }

/-- std/objects_mra.py:915-919 -/
def mra_0133 : NameEntry :=
  { key := (0x01, 0x33), name := "Ventilation fan"
    props := [
      (0x80, "Operation status", "state", 1),
      (0xA0, "Set value of ventilation air flow rate", "", 0),
      (0xBF, "Ventilation Auto setting", "state", 1)
    ] }

/-- std/objects_mra.py:922-944 -/
def mra_028E : NameEntry :=
  { key := (0x02, 0x8E), name := "distributed generator's electric energy meter"
    props := [
      (0x98, "Current date setting", "date", 0),
      (0xD0, "Device type", "raw", 0),
      (0xD1, "Device ID", "raw", 0),
      (0xD2, "Tolerance class", "state", 1),
      (0xD3, "Number of days to retain historical data of measured cumulative amounts of electric energy", "", 0),
      (0xD4, "Unit for cumulative amounts of electric energy", "numericValue", 1),
      (0xD5, "Day on which the historical data of measured cumulative amounts of electric energy is to be retrieved", "", 0),
      (0xD6, "Identification number of device to be metered", "raw", 0),
      (0xDA, "Current hour, minute, and second setting", "time", 0),
      (0xDB, "Time synchronization status", "state", 1),
      (0xE0, "Measured cumulative amounts of electric energy (AC input)", "number", 0),
      (0xE1, "Historical data of measured cumulative amounts of electric energy (AC input)", "object", 0),
      (0xE2, "Measured cumulative amounts of electric energy (AC output)", "number", 0),
      (0xE3, "Historical data of measured cumulative amounts of electric energy (AC output)", "object", 0),
      (0xE4, "Measured cumulative amounts of electric energy (output during a power outage)", "", 0),
      (0xE5, "Historical data of measured cumulative amounts of electric energy (output during a power outage )", "object", 0),
      (0xE6, "Cumulative amounts of electric energy measured at fixed time (AC input)", "object", 0),
      (0xE7, "Cumulative amounts of electric energy measured at fixed time (AC output)", "object", 0),
      (0xE8, "Cumulative amounts of electric energy measured at fixed time (output during a power outage)", "object", 0),
      (0xE9, "Measured instantaneous electric power (AC input/output)", "", 0),
      (0xEA, "Measured instantaneous electric power (output during a power outage)", "", 0)
    ] }

/-- std/objects_mra.py:947-956 -/
def mra_026F : NameEntry :=
  { key := (0x02, 0x6F), name := "Electric lock"
    props := [
      (0xE0, "Lock setting1", "state", 1),
      (0xE1, "Lock setting 2", "state", 1),
      (0xE2, "Lock status of door guard", "state", 1),
      (0xE3, "Door open/close status", "state", 1),
      (0xE4, "Occupant/ non-occupant status", "state", 1),
      (0xE5, "Alarm status", "state", 1),
      (0xE6, "Auto lock mode setting", "state", 1),
      (0xE7, "Battery level", "state", 1)
    ] }

/-- std/objects_mra.py:959-962 -/
def mra_0282 : NameEntry :=
  { key := (0x02, 0x82), name := "Gas meter"
    props := [
      (0xE0, "Cumulative amount of gas consumption measurement value", "number", 0),
      (0xE2, "Cumulative amounts of gas consumption measurement log", "array", 0)
    ] }

/-- std/objects_mra.py:965-988 -/
def mra_0134 : NameEntry :=
  { key := (0x01, 0x34), name := "Air conditioner ventilation fan"
    props := [
      (0x80, "Operation status", "state", 1),
      (0xA0, "Set value of ventilation air flow rate", "", 0),
      (0xB0, "Ventilation mode automatic setting", "state", 1),
      (0xB1, "Ventilation method setting", "state", 1),
      (0xB2, "Ventilation mode setting", "state", 1),
      (0xB3, "Cooling / heating high-low setting", "level", 0),
      (0xB4, "Set value of room relative humidity", "number", 0),
      (0xB9, "Measured value of electric current consumption", "number", 0),
      (0xBA, "Measured value of room relative humidity", "", 0),
      (0xBE, "Measured value of outdoor air temperature", "", 0),
      (0xBF, "Ventilation auto setting", "state", 1),
      (0xC0, "Measured value of CO2 concentration", "number", 0),
      (0xC1, "Smoke (cigarette) detection status", "state", 1),
      (0xC2, "Pollution detection status", "state", 1),
      (0xCA, "Measured value of outdoor relative humidity", "", 0),
      (0xD0, "Measured value of return air temperature", "array", 0),
      (0xD1, "Measured value of return relative humidity", "array", 0),
      (0xD2, "Measured value of charging air temperature", "", 0),
      (0xD3, "Measured value of charging relative humidity", "", 0),
      (0xD4, "Measured value of discharging air temperature", "", 0),
      (0xD5, "Measured value of discharging air relative humidity", "", 0),
      (0xE0, "Heat exchanger operation setting", "state", 1)
    ] }

/-- std/objects_mra.py:991-1014 -/
def mra_05FF : NameEntry :=
  { key := (0x05, 0xFF), name := "Controller"
    props := [
      (0xC0, "Controller ID", "raw", 0),
      (0xC1, "Number of devices controlled", "number", 0),
      (0xC2, "Index", "number", 0),
      (0xC3, "Device ID", "raw", 0),
      (0xC4, "Device type", "raw", 0),
      (0xC5, "Name", "raw", 0),
      (0xC6, "Connection status", "state", 1),
      (0xC7, "Business code of the device to be controlled", "raw", 0),
      (0xC7, "Business code of the device to be controlled", "raw", 0),
      (0xC8, "Product code of the device to be controlled", "raw", 0),
      (0xC8, "Product code of the device to be controlled", "raw", 0),
      (0xC9, "Manufacture date of the device to be controlled", "date", 0),
      (0xC9, "Manufacture date of the device to be controlled", "date", 0),
      (0xCA, "Registered information renewal date of the device to be controlled", "date", 0),
      (0xCA, "Registered information renewal date of the device to be controlled", "date", 0),
      (0xCB, "Registered information renewal version information of the device to be controlled", "number", 0),
      (0xCB, "Registered information renewal version information of the device to be controlled", "number", 0),
      (0xCC, "Place to install device to be controlled", "raw", 0),
      (0xCD, "Fault status of device to be controlled", "state", 1),
      (0xCE, "Set property map for device to be controlled", "raw", 0),
      (0xCF, "Get property map for device to be controlled", "raw", 0),
      (0xE0, "Address of installation location", "raw", 0)
    ] }

/-- std/objects_mra.py:1017-1027 -/
def mra_02A4 : NameEntry :=
  { key := (0x02, 0xA4), name := "Extended lighting system"
    props := [
      (0xB0, "Light level setting", "number", 0),
      (0xC0, "Scene control setting", "", 0),
      (0xC1, "Number that can assign scene control setting.", "number", 0),
      (0xC2, "Power consumption rate list", "array", 0),
      (0xC3, "Power consumption when fully lighted", "number", 0),
      (0xC4, "Possible power savings", "number", 0),
      (0xC5, "Power consumption limit setting", "", 0),
      (0xC6, "Automatic operation controlling setting", "state", 1),
      (0xC7, "Fading control change time setting", "number", 0)
    ] }

/-- std/objects_mra.py:1030-1032 -/
def mra_0011 : NameEntry :=
  { key := (0x00, 0x11), name := "Temperature sensor"
    props := [
      (0xE0, "Measured temperature value", "number", 0)
    ] }

/-- std/objects_mra.py:1035-1038 -/
def mra_0007 : NameEntry :=
  { key := (0x00, 0x07), name := "Human detection sensor"
    props := [
      (0xB0, "Detection threshold level", "level", 0),
      (0xB1, "Human detection status", "state", 1)
    ] }

/-- std/objects_mra.py:1041-1076 -/
def mra_03B7 : NameEntry :=
  { key := (0x03, 0xB7), name := "Refrigerator"
    props := [
      (0xA0, "Quick freeze function setting", "state", 1),
      (0xA1, "Quick refrigeration function setting", "state", 1),
      (0xA4, "Icemaker setting", "state", 1),
      (0xA5, "Icemaker operation status", "state", 1),
      (0xA6, "Icemaker tank status", "state", 1),
      (0xA8, "Refrigerator compartment humidification function setting", "state", 1),
      (0xA9, "Vegetable compartment humidification function setting", "state", 1),
      (0xAD, "Deodorization function setting", "state", 1),
      (0xB0, "Door open/close status", "state", 1),
      (0xB1, "Door open warning", "state", 1),
      (0xB2, "Refrigerator compartment door status", "state", 1),
      (0xB3, "Freezer compartment door status", "state", 1),
      (0xB4, "Ice compartment door status", "state", 1),
      (0xB5, "Vegetable compartment door status", "state", 1),
      (0xB6, "Multi-refrigerating mode compartment door status", "state", 1),
      (0xD1, "Measured refrigerator compartment temperature", "number", 0),
      (0xD2, "Measured freezer compartment temperature", "number", 0),
      (0xD3, "Measured subzero-fresh compartment temperature", "number", 0),
      (0xD4, "Measured vegetable compartment temperature", "number", 0),
      (0xD5, "Measured multi-refrigerating mode compartment temperature", "number", 0),
      (0xD8, "Compressor rotation speed", "object", 0),
      (0xDA, "Measured electric current consumption", "number", 0),
      (0xDC, "Rated power consumption", "number", 0),
      (0xE0, "Maximum allowable temperature setting level", "object", 0),
      (0xE2, "Refrigerator compartment temperature setting", "number", 0),
      (0xE3, "Freezer compartment temperature setting", "number", 0),
      (0xE4, "Ice compartment temperature setting", "number", 0),
      (0xE5, "Vegetable compartment temperature setting", "number", 0),
      (0xE6, "Multi-refrigerating mode compartment temperature setting", "number", 0),
      (0xE9, "Refrigerator compartment temperature level setting", "number", 0),
      (0xEA, "Freezer compartment temperature level setting", "number", 0),
      (0xEB, "Ice compartment temperature level setting", "number", 0),
      (0xEC, "Vegetable compartment temperature level setting", "number", 0),
      (0xED, "Multi-refrigerating mode compartment temperature level setting", "number", 0)
    ] }

/-- std/objects_mra.py:1079-1086 -/
def mra_0135 : NameEntry :=
  { key := (0x01, 0x35), name := "Air cleaner"
    props := [
      (0x80, "Operation status", "state", 1),
      (0xA0, "Air flow rate setting", "", 0),
      (0xC0, "Air pollution detection status", "state", 1),
      (0xC1, "Smoke (cigarette) detection status", "state", 1),
      (0xC2, "Optical catalyst operation setting", "state", 1),
      (0xE1, "Filter change notice", "state", 1)
    ] }

/-- std/objects_mra.py:1089-1104 -/
def mra_0288 : NameEntry :=
  { key := (0x02, 0x88), name := "Low-voltage smart electric energy meter"
    props := [
      (0xD3, "Coefficient", "number", 0),
      (0xD7, "Number of effective digits for cumulative amounts of electric energy", "number", 0),
      (0xE0, "Measured cumulative amount of electric energy (normal direction)", "", 0),
      (0xE1, "Unit for cumulative amounts of electric energy (normal and reverse directions)", "numericValue", 1),
      (0xE2, "Historical data of measured cumulative amounts of electric energy 1 (normal direction)", "object", 0),
      (0xE3, "Measured cumulative amount of electric energy (reverse direction)", "", 0),
      (0xE4, "Historical data of measured cumulative amounts of electric energy 1 (reverse direction)", "object", 0),
      (0xE5, "Day for which the historical data of measured cumulative amounts of electric energy is to be retrieved 1", "", 0),
      (0xE7, "Measured instantaneous electric power", "", 0),
      (0xE8, "Measured instantaneous currents", "object", 0),
      (0xEA, "Cumulative amounts of electric energy measured at fixed time (normal direction)", "object", 0),
      (0xEB, "Cumulative amounts of electric energy measured at fixed time (reverse direction)", "object", 0),
      (0xEC, "Historical data of measured cumulative amounts of electric energy 2 (normal and reverse directions)", "object", 0),
      (0xED, "Day for which the historical data of measured cumulative amounts of electric energy is to be retrieved 2", "object", 0)
    ] }

/-- The entries of std/objects_scsl.py in file order. -/
@[irreducible] def scsl : List NameEntry := [
  scsl_0001, scsl_0002, scsl_0003, scsl_0004, scsl_0005, scsl_0006,
  scsl_0007, scsl_0008, scsl_0009, scsl_000A, scsl_000B, scsl_000C,
  scsl_000D, scsl_000E, scsl_000F, scsl_0010, scsl_0011, scsl_0012,
  scsl_0013, scsl_0014, scsl_0015, scsl_0016, scsl_0017, scsl_0018,
  scsl_0019, scsl_001A, scsl_001B, scsl_001C, scsl_001D, scsl_001E,
  scsl_001F, scsl_0020, scsl_0021, scsl_0022, scsl_0023, scsl_0025,
  scsl_0026, scsl_0027, scsl_0028, scsl_0029, scsl_002A, scsl_002B,
  scsl_002C, scsl_0130, scsl_0133, scsl_0134, scsl_0135, scsl_0139,
  scsl_0142, scsl_0143, scsl_0145, scsl_0146, scsl_0260, scsl_0261,
  scsl_0263, scsl_0267, scsl_026B, scsl_026E, scsl_026F, scsl_0272,
  scsl_0273, scsl_0279, scsl_027A, scsl_027B, scsl_027C, scsl_027D,
  scsl_027E, scsl_027F, scsl_0280, scsl_0281, scsl_0282, scsl_0283,
  scsl_0287, scsl_0288, scsl_0289, scsl_0290, scsl_02A0, scsl_03B2,
  scsl_03B7, scsl_03B8, scsl_03B9, scsl_03BB, scsl_03C5, scsl_03C6,
  scsl_03D3, scsl_0401, scsl_05FD, scsl_0601, scsl_0602
]

/-- The entries of std/objects_mra.py in file order. -/
@[irreducible] def mra : List NameEntry := [
  mra_0000, mra_0EF0, mra_02A6, mra_05FD, mra_0272, mra_03CE,
  mra_00D0, mra_0602, mra_027E, mra_0157, mra_0012, mra_0291,
  mra_0287, mra_026B, mra_0290, mra_027D, mra_0156, mra_03BB,
  mra_028A, mra_03B9, mra_001D, mra_0273, mra_03D4, mra_027C,
  mra_0281, mra_0130, mra_0022, mra_03D3, mra_0263, mra_001B,
  mra_0023, mra_02A1, mra_0280, mra_0003, mra_0279, mra_027B,
  mra_0016, mra_027A, mra_028D, mra_02A3, mra_0133, mra_028E,
  mra_026F, mra_0282, mra_0134, mra_05FF, mra_02A4, mra_0011,
  mra_0007, mra_03B7, mra_0135, mra_0288
]

end Uecho.StdNames
