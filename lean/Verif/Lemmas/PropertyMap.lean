import Verif.Spec.PropertyMap
import Verif.Lemmas.Object
import Verif.Lemmas.Bits
import Verif.Lemmas.Message
import Mathlib.Data.List.Nodup
import Mathlib.Data.List.Perm.Subperm
import Mathlib.Data.List.Dedup

namespace Uecho
open Spec

/-! ### Decoding -/

/-- state of the decoder after finding the codes `S`: the first `cnt` of them, zeros behind -/
def fill (cnt : Nat) (S : List Int) : Nat × List Int :=
  (min S.length cnt, S.take cnt ++ List.replicate (cnt - S.length) 0)

theorem fill_step (cnt : Nat) (S : List Int) (c : Int) (h : ¬ cnt ≤ (fill cnt S).1) :
    OProp.setItem (fill cnt S).2 (fill cnt S).1 c = .ok (fill cnt (S ++ [c])).2 ∧
    (fill cnt (S ++ [c])).1 = (fill cnt S).1 + 1 := by
  have hS : S.length < cnt := by simp only [fill] at h; omega
  have hlen : (fill cnt S).2.length = cnt := by simp [fill]; omega
  constructor
  · unfold OProp.setItem
    rw [if_pos (by rw [hlen]; simp only [fill]; omega)]
    congr 1
    simp only [fill]
    rw [Nat.min_eq_left (by omega), List.take_of_length_le (by omega), List.take_of_length_le (by simp; omega),
      List.set_append_right _ _ (by omega)]
    obtain ⟨d, hd⟩ : ∃ d, cnt - S.length = d + 1 := ⟨cnt - S.length - 1, by omega⟩
    rw [hd, Nat.sub_self, List.replicate_succ, List.set_cons_zero, List.append_assoc, List.length_append]
    simp only [List.length_cons, List.length_nil, List.cons_append, List.nil_append]
    congr 3
    omega
  · simp only [fill, List.length_append, List.length_cons, List.length_nil]; omega

theorem fill_full (cnt : Nat) (S : List Int) (c : Int) (h : cnt ≤ (fill cnt S).1) :
    fill cnt (S ++ [c]) = fill cnt S := by
  have hS : cnt ≤ S.length := by simp only [fill] at h; omega
  simp only [fill, List.length_append, List.length_cons, List.length_nil]
  rw [List.take_append_of_le_length hS, show min (S.length + (0 + 1)) cnt = min S.length cnt by omega,
    show cnt - (S.length + (0 + 1)) = cnt - S.length by omega]

/-- the test of the decoder, for every byte and bit -/
theorem decodeTest : ∀ b : Fin 256, ∀ j : Fin 8,
    (pyAnd (b.val : Int) (pyAnd (pyShl 1 j.val) 0x0F) = 0) = ¬ (j.val < 4 ∧ b.val / 2 ^ j.val % 2 = 1) := by
  have : ∀ b : Fin 256, ∀ j : Fin 8,
    (pyAnd (b.val : Int) (pyAnd (pyShl 1 j.val) 0x0F) = 0) ↔ ¬ (j.val < 4 ∧ b.val / 2 ^ j.val % 2 = 1) := by
    decide +kernel
  intro b j; exact propext (this b j)

/-- the codes the decoder sees in byte `b` of row `i` -/
def rowCodes (b : UInt8) (i : Nat) (js : List Nat) : List Int :=
  (js.filter fun j => decide (j < 4 ∧ BitSet b j)).map fun (j : Nat) => 0x80 + 0x10 * (j : Int) + (i : Int)

theorem decodeBits_eq (b : UInt8) (cnt i : Nat) (js : List Nat) (hj : ∀ j ∈ js, j < 8) :
    ∀ S, OProp.decodeBits b cnt i js (fill cnt S) = .ok (fill cnt (S ++ rowCodes b i js)) := by
  induction js with
  | nil => intro S; simp [OProp.decodeBits, rowCodes]
  | cons j js ih =>
    intro S
    have ih := ih (fun x hx => hj x (List.mem_cons_of_mem _ hx))
    have ht := decodeTest ⟨b.toNat, b.toNat_lt⟩ ⟨j, hj j (List.mem_cons_self ..)⟩
    simp only [] at ht
    unfold OProp.decodeBits
    simp only [ht]
    by_cases hc : j < 4 ∧ b.toNat / 2 ^ j % 2 = 1
    · rw [if_neg (by simpa using hc)]
      have hr : rowCodes b i (j :: js) = (0x80 + 0x10 * (j : Int) + (i : Int)) :: rowCodes b i js := by
        unfold rowCodes BitSet
        rw [List.filter_cons_of_pos (by simpa using hc)]
        rfl
      have e : (0x10 * (j : Int) + OProp.CODE_MIN + (i : Int)) = 0x80 + 0x10 * (j : Int) + (i : Int) := by
        unfold OProp.CODE_MIN; omega
      by_cases hf : cnt ≤ (fill cnt S).1
      · rw [if_pos hf]
        have : ((fill cnt S).1, (fill cnt S).2) = fill cnt S := rfl
        rw [this, ← fill_full cnt S _ hf, ih, hr, List.append_assoc]
        rfl
      · rw [if_neg hf, e]
        obtain ⟨h1, h2⟩ := fill_step cnt S (0x80 + 0x10 * (j : Int) + (i : Int)) hf
        rw [h1]
        simp only []
        rw [← h2]
        have : ((fill cnt (S ++ [0x80 + 0x10 * (j : Int) + (i : Int)])).1,
          (fill cnt (S ++ [0x80 + 0x10 * (j : Int) + (i : Int)])).2) = fill cnt (S ++ [0x80 + 0x10 * (j : Int) + (i : Int)]) := rfl
        rw [this, ih, hr, List.append_assoc]
        rfl
    · rw [if_pos (by simpa using hc)]
      have hr : rowCodes b i (j :: js) = rowCodes b i js := by
        unfold rowCodes BitSet
        rw [List.filter_cons_of_neg (by simpa using hc)]
      rw [hr]
      exact ih S

/-- the codes the decoder sees in the 16 rows -/
def gridCodes (rows : Bytes) (is : List Nat) : List Int :=
  is.flatMap fun i => rowCodes (rows.getD i 0) i (List.range 8)

theorem decodeBytes_eq (c : UInt8) (rows : Bytes) (cnt : Nat) (is : List Nat) (hi : ∀ i ∈ is, i < rows.length) :
    ∀ S, OProp.decodeBytes (c :: rows) cnt is (fill cnt S) = .ok (fill cnt (S ++ gridCodes rows is)) := by
  induction is with
  | nil => intro S; simp [OProp.decodeBytes, gridCodes]
  | cons i is ih =>
    intro S
    have hi' := hi i (List.mem_cons_self ..)
    unfold OProp.decodeBytes
    rw [List.getElem?_cons_succ, List.getElem?_eq_getElem hi']
    simp only []
    rw [decodeBits_eq _ _ _ _ (fun j hj => by simpa using hj)]
    simp only []
    rw [ih (fun x hx => hi x (List.mem_cons_of_mem _ hx))]
    rw [List.append_assoc]
    congr 4
    show _ = rowCodes (rows.getD i 0) i (List.range 8)
    rw [List.getD_eq_getElem?_getD, List.getElem?_eq_getElem hi']
    rfl

theorem decodeFormat1_eq (c : UInt8) (rest : Bytes) (n k : Nat) (h : k + n ≤ rest.length) : ∀ acc : List Int,
    OProp.decodeFormat1 (c :: rest) (List.range' k n) acc =
      .ok (acc ++ (((rest.drop k).take n).map fun b => (b.toNat : Int))) := by
  induction n generalizing k with
  | zero => intro acc; simp [OProp.decodeFormat1]
  | succ n ih =>
    intro acc
    rw [List.range'_succ]
    unfold OProp.decodeFormat1
    have hk : k < rest.length := by omega
    rw [List.getElem?_cons_succ, List.getElem?_eq_getElem hk]
    simp only []
    rw [ih (k + 1) (by omega), List.drop_eq_getElem_cons hk, List.take_succ_cons, List.map_cons]
    simp

/-- The decoder on every input. -/
theorem propertyMapCodes_eq (data : Bytes) :
    OProp.propertyMapCodes data = .ok (match data with
      | [] => .none
      | c :: rest =>
        if c.toNat ≤ 15 then
          if rest.length = c.toNat then .codes (rest.map fun b => (b.toNat : Int)) else .false
        else if rest.length = 16 then .codes (fill c.toNat (gridCodes rest (List.range 16))).2 else .none) := by
  cases data with
  | nil => rfl
  | cons c rest =>
    unfold OProp.propertyMapCodes
    rw [if_neg (by simp)]
    simp only [List.getElem?_cons_zero]
    unfold OProp.isFormat1 OProp.FORMAT1_MAX_SIZE OProp.FORMAT2_MAP_SIZE
    by_cases h1 : c.toNat ≤ 15
    · simp only [h1, decide_true, if_true, List.length_cons]
      by_cases h2 : rest.length = c.toNat
      · rw [if_neg (by omega), if_pos h2, List.range_eq_range', decodeFormat1_eq _ _ _ _ (by omega)]
        simp only [List.drop_zero, List.nil_append]
        rw [List.take_of_length_le (by omega)]
      · rw [if_pos (by omega), if_neg h2]
    · simp only [h1, decide_false, if_false, List.length_cons, Bool.false_eq_true]
      by_cases h2 : rest.length = 16
      · rw [if_neg (by omega), if_pos h2]
        have hf : ((0 : Nat), List.replicate c.toNat (0 : Int)) = fill c.toNat [] := by simp [fill]
        rw [hf, decodeBytes_eq _ _ _ _ (fun i hi => by rw [h2]; simpa using hi)]
        simp
      · rw [if_pos (by omega), if_neg h2]

theorem mem_gridCodes (rows : Bytes) (c : Int) :
    c ∈ gridCodes rows (List.range 16) ↔
      ∃ i < 16, ∃ j < 4, BitSet (rows.getD i 0) j ∧ c = 0x80 + 0x10 * (j : Int) + (i : Int) := by
  unfold gridCodes rowCodes
  simp only [List.mem_flatMap, List.mem_range, List.mem_map, List.mem_filter, decide_eq_true_eq]
  constructor
  · rintro ⟨i, hi, j, ⟨hj, hj4, hb⟩, rfl⟩; exact ⟨i, hi, j, hj4, hb, rfl⟩
  · rintro ⟨i, hi, j, hj4, hb, rfl⟩; exact ⟨i, hi, j, ⟨by omega, hj4, hb⟩, rfl⟩

theorem nodup_gridCodes (rows : Bytes) : (gridCodes rows (List.range 16)).Nodup := by
  unfold gridCodes
  rw [List.nodup_flatMap]
  constructor
  · intro i _
    unfold rowCodes
    apply List.Nodup.map
    · intro a b h; simp only [] at h; omega
    · exact (List.nodup_range).filter _
  · have : (List.range 16).Pairwise (fun a b => a < 16 ∧ b < 16 ∧ a ≠ b) := by decide
    apply this.imp
    rintro a b ⟨ha, hb, hab⟩
    show List.Disjoint _ _
    intro x hx hy
    unfold rowCodes at hx hy
    simp only [List.mem_map, List.mem_filter] at hx hy
    obtain ⟨j, -, rfl⟩ := hx
    obtain ⟨j', -, h⟩ := hy
    omega

/-! ### Encoding -/

theorem extendBytes_ok (l : List Int) (h : ∀ c ∈ l, 0 ≤ c ∧ c < 256) : ∀ buf,
    SuperObj.extendBytes buf l = .ok (buf ++ l.map fun c => UInt8.ofNat c.toNat) := by
  induction l with
  | nil => intro buf; simp [SuperObj.extendBytes]
  | cons c l ih =>
    intro buf
    unfold SuperObj.extendBytes
    rw [appendByte_ok (h c (List.mem_cons_self ..))]
    simp only []
    rw [ih (fun x hx => h x (List.mem_cons_of_mem _ hx))]
    simp

theorem mapBytes_ok (n : Nat) (l : List Int) (hn : n < 256) (h : ∀ c ∈ l, 0 ≤ c ∧ c < 256) :
    SuperObj.mapBytes n l = .ok (UInt8.ofNat n :: l.map fun c => UInt8.ofNat c.toNat) := by
  unfold SuperObj.mapBytes
  rw [appendByte_ok (by omega)]
  simp only []
  rw [extendBytes_ok l h]
  simp

/-- index and bit of a code -/
def rowOf (c : Int) : Nat := ((c - 0x80) % 16).toNat
def bitOf (c : Int) : Nat := ((c - 0x80) % 256 / 16 % 16).toNat

theorem pyAnd_F0 (v : Int) : pyShr (pyAnd v 0xF0) 4 = v % 256 / 16 % 16 := by
  apply bitAt_ext
  intro k
  have e1 : v % 256 / 16 % 16 = pyAnd (pyShr (pyAnd v 0xFF) 4) 0x0F := by
    rw [pyAnd_15, pyShr_eq, pyAnd_255]; norm_num
  rw [e1]
  have h15 : bitAt 0x0F k = decide (k < 4) := bitAt_mask 4 k
  have hF0 : bitAt 0xF0 (4 + k) = decide (k < 4) := by
    have : (0xF0 : Int) = pyShl 0x0F 4 := rfl
    rw [this, bitAt_shl, if_neg (by omega), Nat.add_sub_cancel_left, h15]
  rw [bitAt_shr, bitAt_and, hF0, bitAt_and, bitAt_shr, bitAt_and, bitAt_255, h15]
  by_cases hk : k < 4
  · simp [hk]; omega
  · simp [hk]

/-- one step of the encoder -/
def encStep (l : List Int) (c : Int) : List Int :=
  l.set (rowOf c) (pyOr (l.getD (rowOf c) 0) (pyAnd (pyShl 1 (bitOf c)) 0x0F))

theorem format2Codes_eq (m : List Int) : SuperObj.format2Codes m = m.foldl encStep (List.replicate 16 0) := by
  unfold SuperObj.format2Codes
  congr 1
  funext l c
  unfold encStep rowOf bitOf OProp.CODE_MIN
  simp only [pyAnd_15, pyAnd_F0]
  rw [show (c - 128) % 256 / 16 % 16 % 16 = (c - 128) % 256 / 16 % 16 by omega]

theorem bitAt_one_shl (n k : Nat) : bitAt (pyShl 1 n) k = decide (k = n) := by
  rw [bitAt_shl]
  by_cases h : k < n
  · rw [if_pos h]; symm; apply decide_eq_false; omega
  · rw [if_neg h]
    unfold bitAt
    by_cases hk : k = n
    · subst hk; simp
    · rw [decide_eq_false hk]
      apply decide_eq_false
      obtain ⟨d, hd⟩ : ∃ d, k - n = d + 1 := ⟨k - n - 1, by omega⟩
      rw [hd]
      have : 2 ≤ 2 ^ (d + 1) := by rw [Nat.pow_succ]; have := Nat.pow_pos (n := d) (show 0 < 2 by omega); omega
      rw [Int.ediv_eq_zero_of_lt (by omega) (by omega)]; decide

theorem rowOf_lt (c : Int) : rowOf c < 16 := by unfold rowOf; omega

theorem encFold_length (m : List Int) : ∀ l : List Int, (m.foldl encStep l).length = l.length := by
  induction m with
  | nil => intro l; rfl
  | cons c m ih => intro l; rw [List.foldl_cons, ih]; simp [encStep]

theorem encFold_bit (m : List Int) (i k : Nat) (hi : i < 16) : ∀ l : List Int, l.length = 16 →
    bitAt ((m.foldl encStep l).getD i 0) k =
      (bitAt (l.getD i 0) k || decide (k < 4 ∧ ∃ c ∈ m, rowOf c = i ∧ bitOf c = k)) := by
  induction m with
  | nil => intro l _; simp
  | cons c m ih =>
    intro l hl
    rw [List.foldl_cons, ih _ (by simp [encStep, hl])]
    have hstep : bitAt ((encStep l c).getD i 0) k =
        (bitAt (l.getD i 0) k || decide (k < 4 ∧ rowOf c = i ∧ bitOf c = k)) := by
      unfold encStep
      by_cases hr : rowOf c = i
      · subst hr
        rw [List.getD_eq_getElem?_getD, List.getElem?_set_self (by omega), Option.getD_some, bitAt_or, bitAt_and,
          bitAt_one_shl, show bitAt 0x0F k = decide (k < 4) from bitAt_mask 4 k]
        congr 1
        simp only [true_and]
        by_cases h1 : k = bitOf c
        · subst h1; simp
        · simp [h1, Ne.symm h1]
      · rw [List.getD_eq_getElem?_getD, List.getElem?_set_ne hr, ← List.getD_eq_getElem?_getD]
        simp [hr]
    rw [hstep, Bool.or_assoc]
    congr 1
    rw [← Bool.decide_or]
    congr 1
    apply propext
    simp only [List.mem_cons, exists_eq_or_imp]
    tauto

theorem encFold_range (m : List Int) : ∀ l : List Int, (∀ x ∈ l, 0 ≤ x ∧ x < 16) →
    ∀ x ∈ m.foldl encStep l, 0 ≤ x ∧ x < 16 := by
  induction m with
  | nil => intro l h; exact h
  | cons c m ih =>
    intro l h
    rw [List.foldl_cons]
    apply ih
    intro x hx
    unfold encStep at hx
    rcases List.mem_or_eq_of_mem_set hx with hx | hx
    · exact h x hx
    · have h1 : 0 ≤ l.getD (rowOf c) 0 ∧ l.getD (rowOf c) 0 < 16 := by
        by_cases hr : rowOf c < l.length
        · rw [List.getD_eq_getElem?_getD, List.getElem?_eq_getElem hr]
          exact h _ (List.getElem_mem hr)
        · rw [List.getD_eq_getElem?_getD, List.getElem?_eq_none (by omega)]; decide
      have h2 : 0 ≤ pyAnd (pyShl 1 (bitOf c)) 0x0F ∧ pyAnd (pyShl 1 (bitOf c)) 0x0F < 16 := by
        rw [pyAnd_15]; omega
      rw [hx]
      obtain ⟨a, ha⟩ := Int.eq_ofNat_of_zero_le h1.1
      obtain ⟨b, hb⟩ := Int.eq_ofNat_of_zero_le h2.1
      rw [ha, hb]
      have e : pyOr (a : Int) (b : Int) = ((a ||| b : Nat) : Int) := rfl
      have := Nat.or_lt_two_pow (n := 4) (x := a) (y := b) (by omega) (by omega)
      rw [e]; omega

theorem bitSet_ofNat (v : Int) (k : Nat) (h : 0 ≤ v ∧ v < 256) :
    BitSet (UInt8.ofNat v.toNat) k ↔ bitAt v k = true := by
  unfold BitSet bitAt
  have : (UInt8.ofNat v.toNat).toNat = v.toNat := by
    have := toNat_ofNat_lt h
    omega
  rw [this, decide_eq_true_eq]
  obtain ⟨n, hn⟩ := Int.eq_ofNat_of_zero_le h.1
  subst hn
  rw [Int.toNat_natCast]
  omega

/-- The rows the encoder writes for codes 0x80–0xFF. -/
def encRows (m : List Int) : Bytes := (SuperObj.format2Codes m).map fun v => UInt8.ofNat v.toNat

theorem encRows_length (m : List Int) : (encRows m).length = 16 := by
  unfold encRows; rw [List.length_map, format2Codes_eq, encFold_length]; rfl

theorem encRows_bit (m : List Int) (hm : ∀ c ∈ m, 0x80 ≤ c ∧ c < 0x100) (i j : Nat) (hi : i < 16) :
    BitSet ((encRows m).getD i 0) j ↔ j < 4 ∧ (0x80 + 0x10 * (j : Int) + (i : Int)) ∈ m := by
  have hlen : (SuperObj.format2Codes m).length = 16 := by rw [format2Codes_eq, encFold_length]; rfl
  have hi' : i < (SuperObj.format2Codes m).length := by omega
  have hrange : ∀ x ∈ SuperObj.format2Codes m, 0 ≤ x ∧ x < 16 := by
    rw [format2Codes_eq]
    apply encFold_range
    intro x hx
    rw [List.mem_replicate] at hx
    omega
  have hb := encFold_bit m i j hi (List.replicate 16 0) (by simp)
  rw [← format2Codes_eq] at hb
  have hz : bitAt ((List.replicate 16 (0 : Int)).getD i 0) j = false := by
    rw [List.getD_eq_getElem?_getD, List.getElem?_replicate]
    simp [hi, bitAt]
  rw [hz, Bool.false_or] at hb
  unfold encRows
  rw [List.getD_eq_getElem?_getD, List.getElem?_map, List.getElem?_eq_getElem hi', Option.map_some, Option.getD_some]
  rw [List.getD_eq_getElem?_getD, List.getElem?_eq_getElem hi', Option.getD_some] at hb
  have hx := hrange _ (List.getElem_mem hi')
  rw [bitSet_ofNat _ _ (by omega), hb, decide_eq_true_eq]
  apply and_congr_right
  intro hj
  constructor
  · rintro ⟨c, hc, h1, h2⟩
    have := hm c hc
    unfold rowOf at h1; unfold bitOf at h2
    have : 0x80 + 0x10 * (j : Int) + (i : Int) = c := by omega
    rw [this]; exact hc
  · intro hc
    refine ⟨_, hc, ?_, ?_⟩
    · unfold rowOf; omega
    · unfold bitOf; omega

theorem format2_range (m : List Int) : ∀ x ∈ SuperObj.format2Codes m, 0 ≤ x ∧ x < 16 := by
  rw [format2Codes_eq]
  apply encFold_range
  intro x hx
  rw [List.mem_replicate] at hx
  omega

/-- the data `__set_property_map_property` stores -/
def mapData (m : List Int) : Bytes :=
  if m.length ≤ 15 then UInt8.ofNat m.length :: m.map fun c => UInt8.ofNat c.toNat
  else 16 :: encRows m

theorem setPropertyMap_ok (o : Obj) (code : Int) (m : List Int) (hp : (lookup o.props code).isSome = true)
    (hn : m.length < 256) (hm : ∀ c ∈ m, 0 ≤ c ∧ c < 256) :
    SuperObj.setPropertyMap o code m = (o.storeData code (mapData m), .ok true) := by
  have hg : o.getProperty code = lookup o.props code := getProperty_eq o code
  obtain ⟨p, hl⟩ := Option.isSome_iff_exists.mp hp
  unfold SuperObj.setPropertyMap
  have hh : o.hasProperty code = true := by unfold Obj.hasProperty; rw [hg, hl]
  rw [hh, if_neg (by simp), mapBytes_ok _ _ hn hm]
  simp only []
  have hset : ∀ d, o.setPropertyData code d = (o.storeData code d, true) := by
    intro d; unfold Obj.setPropertyData; rw [hg, hl]
  unfold OProp.isFormat1 OProp.FORMAT1_MAX_SIZE mapData
  by_cases h : m.length ≤ 15
  · simp only [h, decide_true, if_true, hset]
  · simp only [h, decide_false, if_false, Bool.false_eq_true]
    rw [mapBytes_ok _ _ (by decide) (fun x hx => by have := format2_range m x hx; omega)]
    simp only [hset]
    rfl

theorem lists_mapData_short (m : List Int) (hn : m.Nodup) (hm : ∀ c ∈ m, 0 ≤ c ∧ c < 256) (hl : m.length ≤ 15) :
    OProp.propertyMapCodes (mapData m) = .ok (.codes m) := by
  unfold mapData
  rw [if_pos hl, propertyMapCodes_eq]
  have hc : (UInt8.ofNat m.length).toNat = m.length := by
    have := toNat_ofNat_lt (v := (m.length : Int)) (by omega)
    rw [Int.toNat_natCast] at this
    omega
  simp only [hc, hl, if_true, List.length_map]
  congr 2
  rw [List.map_map]
  conv => rhs; rw [← List.map_id m]
  apply List.map_congr_left
  intro c hc
  exact toNat_ofNat_lt (hm c hc)

theorem decode_mapData_long (m : List Int) (hl : ¬ m.length ≤ 15) :
    OProp.propertyMapCodes (mapData m) = .ok (.codes (fill 16 (gridCodes (encRows m) (List.range 16))).2) := by
  unfold mapData
  rw [if_neg hl, propertyMapCodes_eq]
  simp [encRows_length]

theorem mem_grid_encRows (m : List Int) (hm : ∀ c ∈ m, 0x80 ≤ c ∧ c < 0x100) (c : Int) :
    c ∈ gridCodes (encRows m) (List.range 16) ↔ c ∈ m ∧ c < 0xC0 := by
  rw [mem_gridCodes]
  constructor
  · rintro ⟨i, hi, j, hj, hb, rfl⟩
    exact ⟨((encRows_bit m hm i j hi).mp hb).2, by omega⟩
  · rintro ⟨hc, hlt⟩
    have := hm c hc
    refine ⟨((c - 0x80) % 16).toNat, by omega, ((c - 0x80) / 16).toNat, by omega, ?_, by omega⟩
    rw [encRows_bit m hm _ _ (by omega)]
    refine ⟨by omega, ?_⟩
    have : 128 + 16 * (((c - 0x80) / 16).toNat : Int) + (((c - 0x80) % 16).toNat : Int) = c := by omega
    rw [this]; exact hc

end Uecho
