/-
Specification of the hexadecimal text format, independent of the model's decoder.
-/
import Verif.Model.Py

namespace Uecho.Spec

/-- `c` is a hexadecimal digit of value `v`: its position in the list of digits, in either case. -/
def IsHexDigit (c : Char) (v : Nat) : Prop :=
  "0123456789abcdef".toList[v]? = some c ∨ "0123456789ABCDEF".toList[v]? = some c

/-- Blank characters: horizontal tab, line feed, vertical tab, form feed, carriage return, space. -/
def IsBlank (c : Char) : Prop := c ∈ [Char.ofNat 9, Char.ofNat 10, Char.ofNat 11, Char.ofNat 12,
  Char.ofNat 13, Char.ofNat 32]

/-- `t` is hexadecimal text for the bytes `b`: for each byte, optional blanks and then its two
digits; optional blanks at the end. -/
def IsHexText : List Char → Bytes → Prop
  | t, [] => ∀ c ∈ t, IsBlank c
  | t, x :: b => ∃ blanks h l t', t = blanks ++ h :: l :: t' ∧ (∀ c ∈ blanks, IsBlank c) ∧
      IsHexDigit h (x.toNat / 16) ∧ IsHexDigit l (x.toNat % 16) ∧ IsHexText t' b

/-- The canonical text: two upper-case digits per byte. -/
def canonicalHex : Bytes → List Char
  | [] => []
  | x :: b => "0123456789ABCDEF".toList.getD (x.toNat / 16) '?' ::
      "0123456789ABCDEF".toList.getD (x.toNat % 16) '?' :: canonicalHex b

end Uecho.Spec
