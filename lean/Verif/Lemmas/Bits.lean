/- Bits of Python integers: `&`, `|`, `>>`, `<<` bit by bit. -/
import Verif.Lemmas.Bytes

namespace Uecho

/-- Bit `k` of a two's complement integer. -/
def bitAt (v : Int) (k : Nat) : Bool := decide (v / (2 ^ k : Nat) % 2 = 1)

theorem bitAt_eq_testBit (v : Int) (k : Nat) : bitAt v k = Int.testBit v k := by
  unfold bitAt
  cases v with
  | ofNat n =>
    show decide (((n : Nat) : Int) / (2 ^ k : Nat) % 2 = 1) = Nat.testBit n k
    rw [Nat.testBit_eq_decide_div_mod_eq]
    congr 1
    apply propext
    omega
  | negSucc n =>
    show decide (Int.negSucc n / (2 ^ k : Nat) % 2 = 1) = !(Nat.testBit n k)
    rw [Nat.testBit_eq_decide_div_mod_eq, Int.negSucc_ediv _ (by have := Nat.pow_pos (n := k) (show 0 < 2 by omega); omega)]
    have h2 : (n : Int) / ((2 ^ k : Nat) : Int) = ((n / 2 ^ k : Nat) : Int) := (Int.natCast_ediv _ _).symm
    rw [← decide_not]
    congr 1
    apply propext
    rw [show Int.ediv (n : Int) ((2 ^ k : Nat) : Int) = ((n / 2 ^ k : Nat) : Int) from h2]
    omega

theorem bitAt_or (a b : Int) (k : Nat) : bitAt (pyOr a b) k = (bitAt a k || bitAt b k) := by
  simp only [bitAt_eq_testBit]; exact Int.testBit_lor a b k

theorem bitAt_and (a b : Int) (k : Nat) : bitAt (pyAnd a b) k = (bitAt a k && bitAt b k) := by
  simp only [bitAt_eq_testBit]; exact Int.testBit_land a b k

theorem bitAt_shr (a : Int) (n k : Nat) : bitAt (pyShr a n) k = bitAt a (n + k) := by
  unfold bitAt
  have : ((2 ^ (n + k) : Nat) : Int) = ((2 ^ n : Nat) : Int) * ((2 ^ k : Nat) : Int) := by
    rw [Nat.pow_add]; push_cast; rfl
  rw [pyShr_eq, this, Int.ediv_ediv_of_nonneg (Int.natCast_nonneg _)]

theorem bitAt_shl (a : Int) (n k : Nat) : bitAt (pyShl a n) k = if k < n then false else bitAt a (k - n) := by
  unfold bitAt pyShl
  have hp : ∀ j : Nat, (0 : Int) < ((2 ^ j : Nat) : Int) := fun j => by
    have := Nat.pow_pos (n := j) (show 0 < 2 by omega); omega
  split
  · rename_i h
    obtain ⟨d, rfl⟩ : ∃ d, n = k + (d + 1) := ⟨n - k - 1, by omega⟩
    have : a * ((2 ^ (k + (d + 1)) : Nat) : Int) = (2 * (a * ((2 ^ d : Nat) : Int))) * ((2 ^ k : Nat) : Int) := by
      rw [Nat.pow_add, Nat.pow_succ]; push_cast; ring
    rw [this, Int.mul_ediv_cancel _ (by have := hp k; omega)]
    simp
  · rename_i h
    obtain ⟨d, rfl⟩ : ∃ d, k = n + d := ⟨k - n, by omega⟩
    rw [Nat.add_sub_cancel_left]
    have : ((2 ^ (n + d) : Nat) : Int) = ((2 ^ n : Nat) : Int) * ((2 ^ d : Nat) : Int) := by
      rw [Nat.pow_add]; push_cast; rfl
    rw [this, ← Int.ediv_ediv_of_nonneg (by have := hp n; omega), Int.mul_ediv_cancel _ (by have := hp n; omega)]

theorem bitAt_mask (n k : Nat) : bitAt ((2 ^ n - 1 : Nat) : Int) k = decide (k < n) := by
  rw [bitAt_eq_testBit]
  show Nat.testBit (2 ^ n - 1) k = _
  rw [Nat.testBit_two_pow_sub_one]

theorem bitAt_255 (k : Nat) : bitAt 0xFF k = decide (k < 8) := bitAt_mask 8 k

theorem bitAt_ext {a b : Int} (h : ∀ k, bitAt a k = bitAt b k) : a = b := by
  simp only [bitAt_eq_testBit] at h
  have big : ∀ m n : Nat, ∃ k, Nat.testBit m k = false ∧ Nat.testBit n k = false := by
    intro m n
    refine ⟨m + n, ?_, ?_⟩
    · exact Nat.testBit_lt_two_pow (lt_of_lt_of_le Nat.lt_two_pow_self (Nat.pow_le_pow_right (by omega) (by omega)))
    · exact Nat.testBit_lt_two_pow (lt_of_lt_of_le Nat.lt_two_pow_self (Nat.pow_le_pow_right (by omega) (by omega)))
  cases a with
  | ofNat m =>
    cases b with
    | ofNat n => congr 1; exact Nat.eq_of_testBit_eq h
    | negSucc n =>
      obtain ⟨k, h1, h2⟩ := big m n
      have := h k
      simp [Int.testBit, h1, h2] at this
  | negSucc m =>
    cases b with
    | ofNat n =>
      obtain ⟨k, h1, h2⟩ := big m n
      have := h k
      simp [Int.testBit, h1, h2] at this
    | negSucc n =>
      congr 1
      apply Nat.eq_of_testBit_eq
      intro k
      have := h k
      simpa [Int.testBit] using this

/-- `|` of a multiple of `2^n` and a value below `2^n` is the sum. -/
theorem pyOr_add (a b n : Nat) (hb : b < 2 ^ n) :
    pyOr ((a * 2 ^ n : Nat) : Int) (b : Int) = ((a * 2 ^ n + b : Nat) : Int) := by
  have : pyOr ((a * 2 ^ n : Nat) : Int) (b : Int) = (((a * 2 ^ n) ||| b : Nat) : Int) := rfl
  rw [this, Nat.mul_comm, Nat.two_pow_add_eq_or_of_lt hb]

theorem bitAt_emod (v : Int) (n k : Nat) : bitAt (v % (2 ^ n : Nat)) k = (bitAt v k && decide (k < n)) := by
  rw [← pyAnd_mask, bitAt_and, bitAt_mask]

end Uecho
