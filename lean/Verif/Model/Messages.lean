/- Model of uecho/messages.py. -/
import Verif.Model.Node

namespace Uecho

/-- `SearchMessage()` (messages.py:21-31). `Property()` is a `uecho.Property`, accepted by
`add_property`. -/
def SearchMessage : Msg :=
  let m : Msg := {}
  let m := { m with esv := ESV.READ_REQUEST }
  let m := { m with seoj := NodeProfile.CODE }
  let m := { m with deoj := NodeProfile.CODE }
  let prop : PProp := {}
  let prop := { prop with code := NodeProfile.SELF_NODE_INSTANCE_LIST_S }
  let prop := { prop with data := [] }
  (m.addProperty (.prop prop)).1

/-- What the four request classes have in common (messages.py:34-67). -/
def requestMessage (esv deoj : Int) : Msg :=
  let m : Msg := {}
  let m := { m with esv := esv }
  let m := { m with seoj := NodeProfile.CODE }
  { m with deoj := deoj }

/-- messages.py:34-40 -/
def ReadRequest (deoj : Int) : Msg := requestMessage ESV.READ_REQUEST deoj
/-- messages.py:43-49 -/
def WriteRequest (deoj : Int) : Msg := requestMessage ESV.WRITE_REQUEST deoj
/-- messages.py:52-58 -/
def WriteResponseRequiredRequest (deoj : Int) : Msg := requestMessage ESV.WRITE_REQUEST_RESPONSE_REQUIRED deoj
/-- messages.py:61-67 -/
def WriteReadRequest (deoj : Int) : Msg := requestMessage ESV.WRITE_READ_REQUEST deoj

end Uecho
