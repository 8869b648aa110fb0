/-
What `uechosearch -v` and `uechobench` are expected to print, and what a run of them is.
-/
import Verif.Spec.Session
import Verif.Spec.Names
import Verif.Spec.Tools
import Verif.Model.Verbose

namespace Uecho.Spec
open Uecho.Tools

/-- Something that happens meanwhile: the machines stay able to answer and keep their data. -/
def Meanwhile (ord : List Int → List Int) (k : Side) (c : Ctl) (H : Machines) (c' : Ctl) (H' : Machines) : Prop :=
  (∀ ip obj, Serves ord k c H ip obj → Serves ord k c' H' ip obj) ∧ H'.store = H.store

/-- A run of a program: what it posts is delivered and answered; what it sends may be lost, or do something meanwhile; anything else may happen between its steps. The lines printed are
the last argument. -/
inductive Runs (ord : List Int → List Int) (k : Side) : Ctl → Machines → Prog → Ctl → Machines → List (List Char) → Prop where
  | done (c H) : Runs ord k c H .done c H []
  | print {c H l p c' H' out} (ht : Runs ord k c H p c' H' out) : Runs ord k c H (.print l p) c' H' (l :: out)
  | post {c H m r f c1 n1 res c' H' out} (h : Host) (hh : H r.node.ip = some h)
      (hx : Exchange ord (k.world h) k.addr h.addr (.remote r) c h.node m c1 n1 res)
      (ht : Runs ord k c1 (H.put r.node.ip n1) (f (some res)) c' H' out) : Runs ord k c H (.post m r f) c' H' out
  | propSend {c H r o code esv p c1 b c' H' out} (hs : c.propSend k.cnet (some (.remote r, o)) code esv [] = (c1, .ok b))
      (ht : Runs ord k c1 H p c' H' out) : Runs ord k c H (.propSend r o code esv p) c' H' out
  | propPost {c H r o code esv f m c1 n1 res c' H' out} (h : Host) (hh : H r.node.ip = some h)
      (hm : c.propPostBegin k.cnet (some (.remote r, o)) code esv [] = c.postBegin k.cnet m (.remote r))
      (hx : Exchange ord (k.world h) k.addr h.addr (.remote r) c h.node m c1 n1 res)
      (ht : Runs ord k c1 (H.put r.node.ip n1) (f (some res)) c' H' out) : Runs ord k c H (.propPost r o code esv f) c' H' out
  | meanwhile {c H p c1 H1 c' H' out} (hm : Meanwhile ord k c H c1 H1) (ht : Runs ord k c1 H1 p c' H' out) : Runs ord k c H p c' H' out

/-- The data a read returns: empty if it is refused. -/
def Store.data (s : Store) (ip : String) (k c : Int) : Bytes := match s ip k c with | some e => if e.readable then e.data else [] | none => []

/-- Group and class of an object code. -/
def groupOf (k : Int) : Int := k / 65536 % 256
def kindOf (k : Int) : Int := k / 256 % 256

/-- What the tables call an object. -/
def objectName (k : Int) : String := match classNames (groupOf k) (kindOf k) with | some e => e.name | none => "Super class"
def propertyName (k pc : Int) : String := match deviceLabel (groupOf k) (kindOf k) pc with | some l => l.name | none => ""

/-- The properties of an object that have to be readable according to the tables, numbered in the order of the tables. -/
def mandatoryReads (k : Int) : List (Int × Nat) :=
  (deviceCodes (groupOf k) (kindOf k)).zipIdx.filter fun x => match deviceProp (groupOf k) (kindOf k) x.1 with | some p => p.attrGet == 1 | none => false

/-- A name in brackets, if there is one. -/
def inBrackets (s : String) : List Char := if s = "" then [] else "(".toList ++ s.toList ++ ") ".toList

/-- A number in square brackets. -/
def number (i : Nat) : List Char := "[".toList ++ (toString i).toList ++ "] ".toList

/-- The name of the manufacturer with that code, otherwise the code. -/
def manufacturerText (d : Bytes) : List Char :=
  match StdData.manufacturers.find? fun m => m.1 == (beValue d : Int) with
  | some m => m.2.2.toList
  | none => canonicalHex d

def addressText (ip : String) : List Char := ip.toList ++ List.replicate (15 - ip.toList.length) ' ' ++ " ".toList

/-- An object: a line with its code and name, and a line for each property that has to be readable, with its code, its name and its data. -/
def objectBlock (s : Store) (ip : String) (j : Nat) (k : Int) : List (List Char) :=
  (number j ++ canonicalHex (byte3 k) ++ " ".toList ++ inBrackets (objectName k)) ::
    (mandatoryReads k).map fun x => number j ++ number x.2 ++ canonicalHex (byte1 x.1) ++ " ".toList ++ inBrackets (propertyName k x.1) ++
      canonicalHex (s.data ip k x.1) ++ " ".toList

def objectBlocks (s : Store) (ip : String) (ks : List Int) : List (List Char) := (ks.zipIdx.map fun x => objectBlock s ip x.2 x.1).flatten

/-- A node in the output of uechosearch: address and manufacturer, and the objects. -/
def searchBlock (s : Store) (x : String × List Int) : List (List Char) :=
  (addressText x.1 ++ "(".toList ++ manufacturerText (s.data x.1 0x0EF001 0x8A) ++ ")".toList) :: objectBlocks s x.1 x.2

/-- A node in the output of uechobench. -/
def benchBlock (s : Store) (x : String × List Int) : List (List Char) := addressText x.1 :: objectBlocks s x.1 x.2

/-- Blocks of lines with an empty line between. -/
def blocks (l : List (List (List Char))) : List (List Char) := List.flatten (l.intersperse [[]])

/-- The answer to the read of a property fits a datagram, and is not an instance list without data (C62). -/
def Store.Short (s : Store) (ip : String) (k c : Int) : Prop :=
  (s.data ip k c).length ≤ 255 ∧ (c = 0xD5 ∨ c = 0xD6 → isReadable (s ip k c) = true → s.data ip k c ≠ [])

/-- The found nodes of a controller can answer: their machines serve all of their objects, and no data is too long. -/
def Complete (ord : List Int → List Int) (k : Side) (c : Ctl) (H : Machines) : Prop :=
  ∀ r ∈ c.nodes, (Serves ord k c H r.node.ip 0x0EF001 ∧ H.store.Short r.node.ip 0x0EF001 0x8A) ∧
    ∀ o ∈ r.node.objectList, Serves ord k c H r.node.ip o.code ∧ ∀ x ∈ mandatoryReads o.code, H.store.Short r.node.ip o.code x.1

/-- A found node by its address and the codes of its objects. -/
def listing (r : Remote) : String × List Int := (r.node.ip, r.node.objectList.map Obj.code)

end Uecho.Spec
