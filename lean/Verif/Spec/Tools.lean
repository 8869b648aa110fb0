/-
What the command line tools are expected to take and to print.
-/
import Verif.Spec.Hex
import Verif.Spec.Wire
import Verif.Model.Tools

namespace Uecho.Spec
open Uecho.Tools

/-- The argument is a tuple of hexadecimal strings, a code and possibly data, that says `p`. -/
def Says (x : Literal) (p : PProp) : Prop :=
  ∃ c b, IsHexText c.toList b ∧ p.code = beValue b ∧
    ((x = .tuple [.str c] ∧ p.data = []) ∨ ∃ d rest, x = .tuple (.str c :: .str d :: rest) ∧ IsHexText d.toList p.data)

/-- The decimal digits of a number read as hexadecimal ones: 80 is read as 0x80. -/
def digitsAsHex (n : Nat) : Nat := if n < 10 then n else 16 * digitsAsHex (n / 10) + n % 10

/-- The bytes of a property code or a service, and of an object code. -/
def byte1 (k : Int) : Bytes := [UInt8.ofNat k.toNat]
def byte3 (k : Int) : Bytes := [UInt8.ofNat (k.toNat / 65536), UInt8.ofNat (k.toNat / 256), UInt8.ofNat k.toNat]

/-- A response as text: address, object, service, and the code and data of each property, with a blank after each. -/
def responseText (ip : String) (seoj esv : Int) (ps : List PProp) : List Char :=
  ip.toList ++ " ".toList ++ canonicalHex (byte3 seoj) ++ " ".toList ++ canonicalHex (byte1 esv) ++ " ".toList ++
    (ps.map fun p => canonicalHex (byte1 p.code) ++ " ".toList ++ canonicalHex p.data ++ " ".toList).flatten

/-- A found node as text: the address, with blanks up to 15 characters and one more, and its objects, numbered. -/
def nodeText (ip : String) (codes : List Int) : List Char :=
  ip.toList ++ List.replicate (15 - ip.toList.length) ' ' ++ " ".toList ++
    (codes.zipIdx.map fun x => "[".toList ++ (toString x.2).toList ++ "] ".toList ++ canonicalHex (byte3 x.1) ++ " ".toList).flatten

end Uecho.Spec
