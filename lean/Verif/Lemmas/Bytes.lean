import Verif.Model.Bytes
import Verif.Spec.Wire
import Mathlib.Tactic.Ring
import Mathlib.Data.List.Induction

namespace Uecho

theorem pyAnd_mask (v : Int) (k : Nat) : pyAnd v ((2 ^ k - 1 : Nat) : Int) = v % (2 ^ k : Nat) := by
  unfold pyAnd
  cases v with
  | ofNat m =>
    show Int.land (Int.ofNat m) (Int.ofNat _) = _
    simp only [Int.land]
    have : (m &&& (2 ^ k - 1)) = m % 2 ^ k := Nat.and_two_pow_sub_one_eq_mod m k
    show ((m &&& (2 ^ k - 1) : Nat) : Int) = _
    rw [this]; simp
  | negSucc m =>
    show Int.land (Int.negSucc m) (Int.ofNat _) = _
    simp only [Int.land]
    have h : Nat.ldiff (2 ^ k - 1) m = 2 ^ k - 1 - m % 2 ^ k := by
      apply Nat.eq_of_testBit_eq
      intro i
      rw [Nat.testBit_ldiff]
      have hlt : m % 2 ^ k < 2 ^ k := Nat.mod_lt _ (Nat.two_pow_pos k)
      have e : 2 ^ k - 1 - m % 2 ^ k = 2 ^ k - (m % 2 ^ k + 1) := by omega
      rw [e, Nat.testBit_two_pow_sub_succ hlt, Nat.testBit_two_pow_sub_one, Nat.testBit_mod_two_pow]
      by_cases hi : i < k <;> simp [hi]
    rw [h]
    have hlt : m % 2 ^ k < 2 ^ k := Nat.mod_lt _ (Nat.two_pow_pos k)
    have hp : (0 : Int) < ((2 ^ k : Nat) : Int) := by exact_mod_cast Nat.two_pow_pos k
    rw [Int.negSucc_emod _ hp]
    generalize hM : 2 ^ k = M at *
    have : ((M - 1 - m % M : Nat) : Int) = (M : Int) - 1 - ((m % M : Nat) : Int) := by omega
    simp only [this, Int.natCast_mod]

theorem pyAnd_255 (v : Int) : pyAnd v 0xFF = v % 256 := pyAnd_mask v 8
theorem pyAnd_15 (v : Int) : pyAnd v 0x0F = v % 16 := pyAnd_mask v 4

theorem pyShr_eq (v : Int) (n : Nat) : pyShr v n = v / (2 ^ n : Nat) := by
  unfold pyShr; exact Int.shiftRight_eq_div_pow v n

theorem byteOf_toNat (v : Int) : ((byteOf v).toNat : Int) = v % 256 := by
  unfold byteOf
  rw [pyAnd_255]
  have h1 := Int.emod_nonneg v (by decide : (256 : Int) ≠ 0)
  have h2 := Int.emod_lt_of_pos v (by decide : (0 : Int) < 256)
  rw [UInt8.toNat_ofNat']
  have : (v % 256).toNat % 2 ^ 8 = (v % 256).toNat := by
    apply Nat.mod_eq_of_lt; omega
  omega

theorem byteOf_eq (v : Int) : byteOf v = UInt8.ofNat (v % 256).toNat := by
  unfold byteOf; rw [pyAnd_255]

theorem byteOf_natCast (b : UInt8) : byteOf (b.toNat : Int) = b := by
  apply UInt8.toNat_inj.mp
  have h := byteOf_toNat (b.toNat : Int)
  have := b.toNat_lt
  omega

/-- The loop invariant of `from_int`. -/
theorem fromInt_loop (val : Int) (size k : Nat) (hk : k ≤ size) :
    (List.range k).foldl
      (fun buf n => buf.set ((size - 1) - n) (byteOf (pyShr val (n * 8))))
      (List.replicate size 0)
    = List.replicate (size - k) 0 ++
      (List.range k).reverse.map (fun n => byteOf (pyShr val (n * 8))) := by
  induction k with
  | zero => simp
  | succ k ih =>
    rw [List.range_succ, List.foldl_append, ih (by omega)]
    simp only [List.foldl_cons, List.foldl_nil, List.reverse_append, List.reverse_cons,
      List.reverse_nil, List.nil_append, List.cons_append, List.map_cons]
    apply List.ext_getElem
    · simp; omega
    · intro i h1 h2
      simp only [List.getElem_set, List.getElem_append, List.length_replicate,
        List.getElem_replicate]
      by_cases hi : size - 1 - k = i
      · subst hi
        simp
        have : ¬ (size - 1 - k < size - (k + 1)) := by omega
        simp [this]
        have : size - 1 - k - (size - (k+1)) = 0 := by omega
        simp [this]
      · simp only [hi, if_false]
        by_cases h3 : i < size - (k+1)
        · have : i < size - k := by omega
          simp [h3, this]
        · have h4 : ¬ i < size - k := by omega
          simp only [h3, h4, dif_neg, not_false_eq_true]
          have : i - (size - (k + 1)) = (i - (size - k)) + 1 := by omega
          simp [this]

theorem fromInt_eq (val : Int) (size : Nat) :
    fromInt val size = (List.range size).reverse.map (fun n => byteOf (pyShr val (n * 8))) := by
  unfold fromInt
  rw [fromInt_loop val size size (Nat.le_refl _)]
  simp

@[simp] theorem fromInt_length (val : Int) (size : Nat) : (fromInt val size).length = size := by
  simp [fromInt_eq]

theorem pow256 (n : Nat) : (2 : Nat) ^ (n * 8) = 256 ^ n := by
  rw [Nat.mul_comm, Nat.pow_mul]

theorem fromInt_eq_beDigits (val : Int) (size : Nat) :
    fromInt val size = Spec.beDigits val size := by
  rw [fromInt_eq]
  unfold Spec.beDigits
  apply List.ext_getElem
  · simp
  · intro i h1 h2
    simp only [List.getElem_map, List.getElem_reverse, List.getElem_range, List.length_range]
    rw [byteOf_eq, pyShr_eq, pow256]
    congr 4

theorem fromInt_succ (val : Int) (size : Nat) :
    fromInt val (size + 1) = fromInt (val / 256) size ++ [byteOf val] := by
  rw [fromInt_eq, fromInt_eq, List.range_succ_eq_map]
  simp only [List.reverse_cons, List.map_append, List.map_cons, List.map_nil, ← List.map_reverse,
    List.map_map]
  congr 1
  · apply List.map_congr_left
    intro n _
    simp only [Function.comp]
    rw [pyShr_eq, pyShr_eq, pow256, pow256]
    congr 1
    rw [Nat.pow_succ']
    push_cast
    rw [Int.ediv_ediv_of_nonneg (by decide)]
  · simp [pyShr_eq]

theorem toInt_loop (buf : Bytes) (k : Nat) (hk : k ≤ buf.length) :
    (List.range k).foldl
      (fun val n => val + pyShl ((buf.getD ((buf.length - 1) - n) 0).toNat : Int) (n * 8)) (0 : Int)
    = (Spec.beValue (buf.drop (buf.length - k)) : Int) := by
  have hfold : ∀ (l : Bytes) (a : Nat),
      l.foldl (fun acc x => acc * 256 + x.toNat) a = a * 256 ^ l.length + Spec.beValue l := by
    intro l
    unfold Spec.beValue
    induction l with
    | nil => simp
    | cons x l ih =>
      intro a
      rw [List.foldl_cons, List.foldl_cons, ih, ih (0 * 256 + x.toNat)]
      simp [Nat.pow_succ]
      rw [Nat.add_mul, Nat.mul_assoc, Nat.mul_comm 256]
      omega
  induction k with
  | zero => simp [Spec.beValue]
  | succ k ih =>
    rw [List.range_succ, List.foldl_append, ih (by omega)]
    simp only [List.foldl_cons, List.foldl_nil]
    have hlt : buf.length - (k + 1) < buf.length := by omega
    rw [List.drop_eq_getElem_cons hlt]
    have e : buf.length - (k + 1) + 1 = buf.length - k := by omega
    rw [e]
    have e2 : buf.length - 1 - k = buf.length - (k + 1) := by omega
    rw [e2, List.getD_eq_getElem _ _ hlt]
    conv => rhs; unfold Spec.beValue; rw [List.foldl_cons, hfold]
    unfold pyShl
    rw [pow256]
    have : (buf.drop (buf.length - k)).length = k := by simp; omega
    rw [this]
    push_cast
    ring

theorem toInt_eq_beValue (buf : Bytes) : toInt buf = (Spec.beValue buf : Int) := by
  unfold toInt
  rw [toInt_loop buf buf.length (Nat.le_refl _)]
  simp

theorem beValue_concat (l : Bytes) (x : UInt8) :
    Spec.beValue (l ++ [x]) = Spec.beValue l * 256 + x.toNat := by
  unfold Spec.beValue; simp

theorem beValue_lt (l : Bytes) : Spec.beValue l < 256 ^ l.length := by
  induction l using List.reverseRecOn with
  | nil => simp [Spec.beValue]
  | append_singleton l x ih =>
    rw [beValue_concat, List.length_append, List.length_singleton, Nat.pow_succ]
    have := x.toNat_lt
    omega

theorem toInt_concat (l : Bytes) (x : UInt8) : toInt (l ++ [x]) = toInt l * 256 + (x.toNat : Int) := by
  simp [toInt_eq_beValue, beValue_concat]

@[simp] theorem toInt_nil : toInt [] = 0 := by simp [toInt_eq_beValue, Spec.beValue]

theorem toInt_nonneg (l : Bytes) : 0 ≤ toInt l := by rw [toInt_eq_beValue]; omega

theorem toInt_lt (l : Bytes) : toInt l < 256 ^ l.length := by
  rw [toInt_eq_beValue]; exact_mod_cast beValue_lt l

theorem emod_mul_256 (v M : Int) (hM : 0 < M) : v % (256 * M) = (v / 256 % M) * 256 + v % 256 := by
  have hq := Int.mul_ediv_add_emod (v / 256) M
  have h1 := Int.emod_nonneg (v / 256) (by omega : M ≠ 0)
  have h2 := Int.emod_lt_of_pos (v / 256) hM
  have hv := Int.mul_ediv_add_emod v 256
  have : v = (v / 256 % M) * 256 + v % 256 + 256 * M * (v / 256 / M) := by
    have : 256 * M * (v / 256 / M) = 256 * (M * (v / 256 / M)) := by ring
    omega
  conv => lhs; rw [this]
  rw [Int.add_mul_emod_self_left]
  apply Int.emod_eq_of_lt <;> omega

theorem toInt_fromInt (val : Int) (size : Nat) : toInt (fromInt val size) = val % (256 ^ size : Nat) := by
  induction size generalizing val with
  | zero => simp [fromInt]
  | succ n ih =>
    rw [fromInt_succ, toInt_concat, ih, byteOf_toNat, Nat.pow_succ']
    push_cast
    have := emod_mul_256 val (256 ^ n) (by exact_mod_cast Nat.pow_pos (by decide))
    omega

theorem fromInt_toInt (b : Bytes) : fromInt (toInt b) b.length = b := by
  induction b using List.reverseRecOn with
  | nil => simp [fromInt]
  | append_singleton l x ih =>
    rw [List.length_append, List.length_singleton, fromInt_succ, toInt_concat]
    have hx := x.toNat_lt
    have h1 : (toInt l * 256 + (x.toNat : Int)) / 256 = toInt l := by omega
    rw [h1, ih]
    congr 2
    rw [byteOf_eq]
    have h2 : (toInt l * 256 + (x.toNat : Int)) % 256 = x.toNat := by omega
    rw [h2]
    simp

end Uecho
