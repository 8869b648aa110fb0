/- Properties C01, C02, C09 (integer / byte string / hexadecimal conversions). -/
import Verif.Lemmas.Hex
import Verif.Lemmas.Message

namespace Uecho
open Spec

/-- C01. `from_int(v, n)` is the `n` base-256 digits of `v` (two's complement), most significant
first: exactly `n` bytes, and reading them back gives `v mod 256^n`. A negative size raises. -/
theorem C01_from_int (v size : Int) :
    (0 ≤ size → ∃ b : Bytes, fromIntPy v size = .ok b ∧ b.length = size.toNat ∧
      (∀ i, i < size.toNat → ∃ x, b[i]? = some x ∧
        (x.toNat : Int) = v / 256 ^ (size.toNat - 1 - i) % 256) ∧
      toInt b = v % 256 ^ size.toNat ∧
      ((0 ≤ v ∧ v < 256 ^ size.toNat) → toInt b = v)) ∧
    (size < 0 → fromIntPy v size = .error .valueError) := by
  constructor
  · intro h
    refine ⟨fromInt v size.toNat, by simp [fromIntPy, Int.not_lt.mpr h], by simp, ?_, ?_, ?_⟩
    · intro i hi
      rw [fromInt_eq_beDigits, beDigits]
      refine ⟨_, by rw [List.getElem?_map, List.getElem?_range hi]; rfl, ?_⟩
      have h1 := Int.emod_nonneg (v / 256 ^ (size.toNat - 1 - i)) (by decide : (256 : Int) ≠ 0)
      have h2 := Int.emod_lt_of_pos (v / 256 ^ (size.toNat - 1 - i)) (by decide : (0 : Int) < 256)
      rw [UInt8.toNat_ofNat', Nat.mod_eq_of_lt (by omega)]
      omega
    · rw [toInt_fromInt]; norm_cast
    · rintro ⟨h0, h1⟩
      rw [toInt_fromInt, Int.emod_eq_of_lt h0 (by exact_mod_cast h1)]
  · intro h; simp [fromIntPy, h]

/-- non-trivial instances: a negative value, a value that does not fit -/
example : fromIntPy (-2) 3 = .ok [0xFF, 0xFF, 0xFE] := by decide +kernel
example : fromIntPy 0x12345 2 = .ok [0x23, 0x45] := by decide +kernel

/-- C02. `to_int` is the big-endian value, is below `256^len`, and `from_int` inverts it; so equal
values of equal lengths come from equal byte strings. -/
theorem C02_to_int (b : Bytes) :
    toInt b = (beValue b : Int) ∧ toInt b < 256 ^ b.length ∧
    fromIntPy (toInt b) (b.length : Int) = .ok b ∧
    (∀ c : Bytes, c.length = b.length → toInt c = toInt b → c = b) := by
  have h : ∀ c : Bytes, fromInt (toInt c) c.length = c := fromInt_toInt
  refine ⟨toInt_eq_beValue b, toInt_lt b, ?_, ?_⟩
  · simp [fromIntPy, h b]
  · intro c hl hv
    rw [← h c, hl, hv, h b]

example : toInt [0x01, 0x00, 0xFF] = 65791 := by decide
/-- the length hypothesis of the last clause is needed: leading zeros are not seen -/
example : toInt [0x00, 0x05] = toInt [0x05] ∧ ([0x00, 0x05] : Bytes) ≠ [0x05] := by decide

/-- C09. Hexadecimal text. Decoding succeeds exactly on hexadecimal text (either case, blanks before
byte groups), every failure is `ValueError`; `to_string` is the canonical upper-case text of
`to_bytes` (and fails when `to_bytes` does); parsing that text is parsing the bytes; `Hex.from_string`
is the big-endian value of the decoded bytes, 0 for a non-string. -/
theorem C09_hex :
    (∀ (s : String) (b : Bytes), bytesFromString s = .ok b ↔ IsHexText s.toList b) ∧
    (∀ (s : String) (e : Exc), bytesFromString s = .error e → e = .valueError) ∧
    (∀ (m : Msg) (b : Bytes), m.toBytes = .ok b → m.toStr = .ok (String.ofList (canonicalHex b))) ∧
    (∀ (m : Msg) (e : Exc), m.toBytes = .error e → m.toStr = .error e) ∧
    (∀ (m m0 : Msg) (b : Bytes) (s : String), m.toBytes = .ok b → m.toStr = .ok s →
      m0.parseHexString s = m0.parseBytes b) ∧
    (∀ (s : String) (b : Bytes), IsHexText s.toList b → hexFromString (some s) = .ok (beValue b : Int)) ∧
    hexFromString none = .ok 0 := by
  have hdec : ∀ (s : String) (b : Bytes), bytesFromString s = .ok b ↔ IsHexText s.toList b :=
    fun s b => ⟨(fromHex_sound s.toList).1 b, fromHex_complete b s.toList⟩
  have hstr : ∀ (m : Msg) (b : Bytes), m.toBytes = .ok b →
      m.toStr = .ok (String.ofList (canonicalHex b)) := by
    intro m b h
    unfold Msg.toStr
    rw [h, ok_bind, hexUpper_canonical]; rfl
  refine ⟨hdec, fun s e => (fromHex_sound s.toList).2 e, hstr, ?_, ?_, ?_, rfl⟩
  · intro m e h
    unfold Msg.toStr
    rw [h, err_bind]
  · intro m m0 b s hb hs
    rw [hstr m b hb] at hs
    injection hs with hs
    subst hs
    unfold Msg.parseHexString
    rw [(hdec _ b).mpr]
    simpa using canonicalHex_isHexText b
  · intro s b h
    unfold hexFromString
    have := (hdec s b).mpr h
    unfold bytesFromString at this
    simp [this, Except.map, toInt_eq_beValue]

example : bytesFromString " 0eF0\t01" = .ok [0x0E, 0xF0, 0x01] := by decide +kernel
example : bytesFromString "0 EF0" = .error .valueError := by decide +kernel

end Uecho
