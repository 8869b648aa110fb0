/- What is said about the shared objects of the standard database (C97). -/
import Verif.Spec.Std

namespace Uecho.Spec

/-- The class a code belongs to. -/
def clsOf (n : Int) : Int × Int := (n / 65536 % 256, n / 256 % 256)

/-- Somebody gets the standard object for code n and sets the data of its property pc. -/
structure Write where
  n : Int
  pc : Int
  data : Bytes

/-- The data last set for property pc of a class, if any. -/
def written : List Write → Int × Int → Int → Option Bytes
  | [], _, _ => none
  | w :: ws, k, pc => (written ws k pc).or (if clsOf w.n = k ∧ w.pc = pc then some w.data else none)

/-- The property of a class with the data that was set last. -/
def sharedLine (ws : List Write) (k : Int × Int) (pc : Int) : Option OProp :=
  ((stdClass k.1 k.2).bind (lineFor · pc)).map fun l => { propOf l with data := (written ws k pc).getD [] }

/-- What a device of the class has as property pc: that of the class, otherwise that of the super class, with data. -/
def sharedProp (ws : List Write) (k : Int × Int) (pc : Int) : Option OProp :=
  (sharedLine ws k pc).or (sharedLine ws (0, 0) pc)

end Uecho.Spec
