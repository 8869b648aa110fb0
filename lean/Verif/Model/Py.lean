/-
Python values used by the model: exceptions, byte strings, dictionaries, bit operations.
Nothing in this file is specific to uecho-py.
-/
import Mathlib.Data.Int.Bitwise

namespace Uecho

/-- The exceptions the modelled code can raise.
`parserError` is `uecho.protocol.message.Message.ParserError` (message.py:35); the others are the
Python built-ins. Messages attached to exceptions are not modelled. -/
inductive Exc where
  | parserError
  | indexError
  | valueError
  | attributeError
  | typeError
  | runtimeError
  | osError
  | user (n : Nat)   -- an exception raised by user supplied code (handler, observer, listener)
deriving DecidableEq, Repr

/-- `bytes` / `bytearray` values. The model does not distinguish the two: the code only reads
them, and Python compares them by content. -/
abbrev Bytes := List UInt8

/-- Python `a & b` on unbounded two's complement integers. -/
def pyAnd (a b : Int) : Int := Int.land a b

/-- Python `a | b` on unbounded two's complement integers. -/
def pyOr (a b : Int) : Int := Int.lor a b

/-- Python `a >> n` (arithmetic shift) for a non-negative shift count. -/
def pyShr (a : Int) (n : Nat) : Int := a >>> n

/-- Python `a << n` for a non-negative shift count. -/
def pyShl (a : Int) (n : Nat) : Int := a * (2 ^ n : Nat)

/-- Python slice `b[i:j]` for `0 ≤ i`, `0 ≤ j`. -/
def pySlice (b : Bytes) (i j : Nat) : Bytes := (b.drop i).take (j - i)

/-- Python `dict`: association list in insertion order, at most one entry per key
(`Dict.set` keeps it so). -/
abbrev Dict (κ ν : Type) := List (κ × ν)

namespace Dict
variable {κ ν : Type} [DecidableEq κ]

/-- `d[k]`, `none` standing for `KeyError`. -/
def get? : Dict κ ν → κ → Option ν
  | [], _ => none
  | (k', v) :: d, k => if k' = k then some v else get? d k

/-- `d[k] = v`: replaces in place, or appends at the end. -/
def set : Dict κ ν → κ → ν → Dict κ ν
  | [], k, v => [(k, v)]
  | (k', v') :: d, k, v => if k' = k then (k', v) :: d else (k', v') :: set d k v

/-- `d.keys()` in iteration order. -/
def keys (d : Dict κ ν) : List κ := d.map Prod.fst

/-- `d.values()` in iteration order. -/
def values (d : Dict κ ν) : List ν := d.map Prod.snd

/-- Mutation, through a reference, of the value stored at `k` (no effect if absent). -/
def modify : Dict κ ν → κ → (ν → ν) → Dict κ ν
  | [], _, _ => []
  | (k', v) :: d, k, f => if k' = k then (k', f v) :: d else (k', v) :: modify d k f

/-- `d.update(e)`. -/
def update (d e : Dict κ ν) : Dict κ ν := e.foldl (fun d kv => set d kv.1 kv.2) d

end Dict
end Uecho
