/- Model of uecho/protocol/esv.py (re-exported by uecho/esv.py). An ESV is a Python int. -/
import Verif.Model.Py

namespace Uecho
namespace ESV

-- protocol/esv.py:20-36
def UNKNOWN : Int := 0x00
def WRITE_REQUEST : Int := 0x60
def WRITE_REQUEST_RESPONSE_REQUIRED : Int := 0x61
def READ_REQUEST : Int := 0x62
def NOTIFICATION_REQUEST : Int := 0x63
def WRITE_READ_REQUEST : Int := 0x6E
def WRITE_RESPONSE : Int := 0x71
def READ_RESPONSE : Int := 0x72
def NOTIFICATION : Int := 0x73
def NOTIFICATION_RESPONSE_REQUIRED : Int := 0x74
def NOTIFICATION_RESPONSE : Int := 0x7A
def WRITE_READ_RESPONSE : Int := 0x7E
def WRITE_REQUEST_ERROR : Int := 0x50
def WRITE_REQUEST_RESPONSE_REQUIRED_ERROR : Int := 0x51
def READ_REQUEST_ERROR : Int := 0x52
def NOTIFICATION_REQUEST_ERROR : Int := 0x53
def WRITE_READ_REQUEST_ERROR : Int := 0x5E

/-- protocol/esv.py:41-59 -/
def isRequest (e : Int) : Bool :=
  if e = WRITE_REQUEST then true
  else if e = WRITE_REQUEST_RESPONSE_REQUIRED then true
  else if e = READ_REQUEST then true
  else if e = NOTIFICATION_REQUEST then true
  else if e = WRITE_READ_REQUEST then true
  else if e = NOTIFICATION_RESPONSE_REQUIRED then true
  else false

/-- protocol/esv.py:61-62 -/
def isResponse (e : Int) : Bool := !(isRequest e)

/-- protocol/esv.py:64-76 -/
def isWriteRequest (e : Int) : Bool :=
  if e = WRITE_REQUEST then true
  else if e = WRITE_READ_REQUEST then true
  else if e = WRITE_REQUEST_RESPONSE_REQUIRED then true
  else false

/-- protocol/esv.py:78-88 -/
def isReadRequest (e : Int) : Bool :=
  if e = READ_REQUEST then true
  else if e = WRITE_READ_REQUEST then true
  else false

/-- protocol/esv.py:90-98 -/
def isNotificationRequest (e : Int) : Bool :=
  if e = NOTIFICATION_REQUEST then true else false

/-- protocol/esv.py:100-110 -/
def isWriteResponse (e : Int) : Bool :=
  if e = WRITE_RESPONSE then true
  else if e = WRITE_READ_RESPONSE then true
  else false

/-- protocol/esv.py:112-122 -/
def isReadResponse (e : Int) : Bool :=
  if e = READ_RESPONSE then true
  else if e = WRITE_READ_RESPONSE then true
  else false

/-- protocol/esv.py:124-134 -/
def isNotification (e : Int) : Bool :=
  if e = NOTIFICATION then true
  else if e = NOTIFICATION_RESPONSE_REQUIRED then true
  else false

/-- protocol/esv.py:136-143 -/
def isNotificationResponse (e : Int) : Bool :=
  if e = NOTIFICATION_RESPONSE then true else false

/-- protocol/esv.py:145-161 -/
def isResponseRequired (e : Int) : Bool :=
  if e = READ_REQUEST then true
  else if e = NOTIFICATION_REQUEST then true
  else if e = WRITE_READ_REQUEST then true
  else if e = WRITE_REQUEST_RESPONSE_REQUIRED then true
  else if e = NOTIFICATION_RESPONSE_REQUIRED then true
  else false

/-- protocol/esv.py:163-171 -/
def isWriteReadRequest (e : Int) : Bool :=
  if e = WRITE_READ_REQUEST then true else false

/-- protocol/esv.py:173-183 -/
def isWriteReadResponse (e : Int) : Bool :=
  if e = WRITE_READ_RESPONSE then true
  else if e = WRITE_READ_REQUEST_ERROR then true
  else false

end ESV
end Uecho
