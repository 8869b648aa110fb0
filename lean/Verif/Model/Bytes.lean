/- Model of uecho/util/bytes.py and uecho/util/hex.py. -/
import Verif.Model.Py

namespace Uecho

/-- The byte with value `v & 0xFF` (used where Python stores `x & 0xFF` into a bytearray). -/
def byteOf (v : Int) : UInt8 := UInt8.ofNat (pyAnd v 0xFF).toNat

/-- `Bytes.from_int` (util/bytes.py:23-29), for `bytes_size ≥ 0`. A zero-filled buffer is
allocated (l.25) and byte `(bytes_size - 1) - n` is stored for `n = 0, 1, …` (l.26-28). -/
def fromInt (val : Int) (size : Nat) : Bytes :=
  (List.range size).foldl
    (fun buf n => buf.set ((size - 1) - n) (byteOf (pyShr val (n * 8))))
    (List.replicate size 0)

/-- `Bytes.from_int` with an arbitrary Python int as size: `bytearray(n)` raises `ValueError`
for `n < 0` (util/bytes.py:25). -/
def fromIntPy (val : Int) (size : Int) : Except Exc Bytes :=
  if size < 0 then .error .valueError else .ok (fromInt val size.toNat)

/-- `Bytes.to_int` (util/bytes.py:31-38). `getD` never uses its default: `idx < bytes_size`. -/
def toInt (buf : Bytes) : Int :=
  (List.range buf.length).foldl
    (fun val n => val + pyShl ((buf.getD ((buf.length - 1) - n) 0).toNat : Int) (n * 8))
    0

/-- Value of a hexadecimal digit character, as `bytes.fromhex` understands it. -/
def hexDigit? (c : Char) : Option Nat :=
  if '0' ≤ c ∧ c ≤ '9' then some (c.toNat - 48)
  else if 'a' ≤ c ∧ c ≤ 'f' then some (c.toNat - 87)
  else if 'A' ≤ c ∧ c ≤ 'F' then some (c.toNat - 55)
  else none

/-- ASCII whitespace skipped by `bytes.fromhex` (CPython `Py_ISSPACE`): HT, LF, VT, FF, CR, SP. -/
def isHexSpace (c : Char) : Bool := c.toNat == 32 || (9 ≤ c.toNat && c.toNat ≤ 13)

/-- Python's built-in `bytes.fromhex` (3.7 or later), called from util/bytes.py:42 and
util/hex.py:24: whitespace is skipped before each two-digit group, anything else raises
`ValueError`. -/
def fromHex : List Char → Except Exc Bytes
  | [] => .ok []
  | c :: rest =>
    if isHexSpace c then fromHex rest
    else match hexDigit? c, rest with
      | some hi, d :: rest' =>
        match hexDigit? d with
        | some lo =>
          match fromHex rest' with
          | .ok bs => .ok (UInt8.ofNat (hi * 16 + lo) :: bs)
          | .error e => .error e
        | none => .error .valueError
      | _, _ => .error .valueError

/-- `Bytes.from_string` (util/bytes.py:40-42). -/
def bytesFromString (s : String) : Except Exc Bytes := fromHex s.toList

/-- Upper-case hexadecimal digit. -/
def hexChar (n : Nat) : Char := if n < 10 then Char.ofNat (48 + n) else Char.ofNat (55 + n)

/-- Python's `b.hex().upper()` (protocol/message.py:179). -/
def hexUpper (b : Bytes) : List Char :=
  b.flatMap fun x => [hexChar (x.toNat / 16), hexChar (x.toNat % 16)]

/-- `Hex.from_string` (util/hex.py:20-24). `none` is a value that is not a `str` (l.22-23). -/
def hexFromString (val : Option String) : Except Exc Int :=
  match val with
  | none => .ok 0
  | some s => (fromHex s.toList).map toInt

end Uecho
