import Verif.Spec.Hex
import Verif.Lemmas.Bytes

namespace Uecho
open Spec

theorem hexDigit?_of_isHexDigit {c : Char} {v : Nat} (h : IsHexDigit c v) :
    hexDigit? c = some v ∧ isHexSpace c = false ∧ v < 16 := by
  unfold IsHexDigit at h
  have hv : v < 16 := by
    rcases h with h | h <;>
    · by_contra hc
      have : ∀ n, 16 ≤ n → "0123456789abcdef".toList[n]? = none ∧
          "0123456789ABCDEF".toList[n]? = none := by
        intro n hn
        constructor <;> exact List.getElem?_eq_none (by simpa using hn)
      obtain ⟨h1, h2⟩ := this v (by omega)
      simp_all
  have key : ∀ n < 16, ∀ c ∈ ("0123456789abcdef".toList[n]?).toList ++
      ("0123456789ABCDEF".toList[n]?).toList, hexDigit? c = some n ∧ isHexSpace c = false := by
    decide +kernel
  have := key v hv c (by
    rcases h with h | h
    · exact List.mem_append_left _ (by rw [h]; exact List.mem_singleton.mpr rfl)
    · exact List.mem_append_right _ (by rw [h]; exact List.mem_singleton.mpr rfl))
  exact ⟨this.1, this.2, hv⟩

theorem charLe (a b : Char) : a ≤ b ↔ a.toNat ≤ b.toNat := Iff.rfl

theorem hexDigit?_toNat {c : Char} {v : Nat} (h : hexDigit? c = some v) :
    v < 16 ∧ (c.toNat = 48 + v ∧ v < 10 ∨ c.toNat = 87 + v ∧ 10 ≤ v ∨ c.toNat = 55 + v ∧ 10 ≤ v) := by
  unfold hexDigit? at h
  simp only [charLe] at h
  have e0 : '0'.toNat = 48 := rfl
  have e9 : '9'.toNat = 57 := rfl
  have ea : 'a'.toNat = 97 := rfl
  have ef : 'f'.toNat = 102 := rfl
  have eA : 'A'.toNat = 65 := rfl
  have eF : 'F'.toNat = 70 := rfl
  rw [e0, e9, ea, ef, eA, eF] at h
  split at h
  · injection h; omega
  · split at h
    · injection h; omega
    · split at h
      · injection h; omega
      · cases h

theorem char_eq_of_toNat {a b : Char} (h : a.toNat = b.toNat) : a = b :=
  Char.ext (UInt32.toNat_inj.mp h)

theorem isHexDigit_of_hexDigit? {c : Char} {v : Nat} (h : hexDigit? c = some v) : IsHexDigit c v := by
  obtain ⟨hv, hc⟩ := hexDigit?_toNat h
  have key : ∀ n < 16,
      (n < 10 → ("0123456789abcdef".toList[n]?) = some (Char.ofNat (48 + n))) ∧
      (10 ≤ n → ("0123456789abcdef".toList[n]?) = some (Char.ofNat (87 + n)) ∧
        ("0123456789ABCDEF".toList[n]?) = some (Char.ofNat (55 + n))) ∧
      (Char.ofNat (48 + n)).toNat = 48 + n ∧ (Char.ofNat (87 + n)).toNat = 87 + n ∧
      (Char.ofNat (55 + n)).toNat = 55 + n := by decide +kernel
  obtain ⟨k1, k2, k3, k4, k5⟩ := key v hv
  rcases hc with ⟨hc, h10⟩ | ⟨hc, h10⟩ | ⟨hc, h10⟩
  · left; rw [k1 h10, char_eq_of_toNat (k3.trans hc.symm)]
  · left; rw [(k2 h10).1, char_eq_of_toNat (k4.trans hc.symm)]
  · right; rw [(k2 h10).2, char_eq_of_toNat (k5.trans hc.symm)]

theorem isHexSpace_iff (c : Char) : isHexSpace c = true ↔ IsBlank c := by
  constructor
  · intro h
    simp only [isHexSpace, Bool.or_eq_true, beq_iff_eq, Bool.and_eq_true, decide_eq_true_eq] at h
    have : c.toNat = 9 ∨ c.toNat = 10 ∨ c.toNat = 11 ∨ c.toNat = 12 ∨ c.toNat = 13 ∨ c.toNat = 32 := by
      omega
    unfold IsBlank
    simp only [List.mem_cons, List.not_mem_nil, or_false]
    rcases this with h | h | h | h | h | h
    · exact Or.inl (char_eq_of_toNat h)
    · exact Or.inr (Or.inl (char_eq_of_toNat h))
    · exact Or.inr (Or.inr (Or.inl (char_eq_of_toNat h)))
    · exact Or.inr (Or.inr (Or.inr (Or.inl (char_eq_of_toNat h))))
    · exact Or.inr (Or.inr (Or.inr (Or.inr (Or.inl (char_eq_of_toNat h)))))
    · exact Or.inr (Or.inr (Or.inr (Or.inr (Or.inr (char_eq_of_toNat h)))))
  · intro h
    have key : ∀ c ∈ [Char.ofNat 9, Char.ofNat 10, Char.ofNat 11, Char.ofNat 12,
      Char.ofNat 13, Char.ofNat 32], isHexSpace c = true := by decide +kernel
    exact key c h

theorem fromHex_space {c : Char} {t : List Char} (h : isHexSpace c = true) :
    fromHex (c :: t) = fromHex t := by
  conv => lhs; unfold fromHex
  rw [if_pos h]

theorem fromHex_pair {c d : Char} {hi lo : Nat} {t : List Char} (hs : isHexSpace c = false)
    (h1 : hexDigit? c = some hi) (h2 : hexDigit? d = some lo) :
    fromHex (c :: d :: t) = (match fromHex t with
      | .ok bs => .ok (UInt8.ofNat (hi * 16 + lo) :: bs)
      | .error e => .error e) := by
  conv => lhs; unfold fromHex
  simp only [hs, h1, h2, Bool.false_eq_true, if_false]
  cases fromHex t <;> rfl

theorem fromHex_blanks (w t : List Char) (h : ∀ c ∈ w, IsBlank c) : fromHex (w ++ t) = fromHex t := by
  induction w with
  | nil => rfl
  | cons c w ih =>
    rw [List.cons_append, fromHex_space ((isHexSpace_iff c).mpr (h c (by simp))),
      ih (fun c hc => h c (by simp [hc]))]

theorem fromHex_complete (b : Bytes) (t : List Char) (h : IsHexText t b) : fromHex t = .ok b := by
  induction b generalizing t with
  | nil =>
    have := fromHex_blanks t [] h
    simpa [fromHex] using this
  | cons x b ih =>
    obtain ⟨w, hi, lo, t', rfl, hw, hhi, hlo, ht⟩ := h
    obtain ⟨a1, a2, a3⟩ := hexDigit?_of_isHexDigit hhi
    obtain ⟨b1, b2, b3⟩ := hexDigit?_of_isHexDigit hlo
    rw [fromHex_blanks _ _ hw, fromHex_pair a2 a1 b1, ih t' ht]
    simp only []
    rw [show x.toNat / 16 * 16 + x.toNat % 16 = x.toNat by omega, UInt8.ofNat_toNat]

theorem fromHex_sound (t : List Char) :
    (∀ b, fromHex t = .ok b → IsHexText t b) ∧ (∀ e, fromHex t = .error e → e = .valueError) := by
  induction hn : t.length using Nat.strong_induction_on generalizing t with
  | _ n ih =>
  subst hn
  match t with
  | [] =>
    constructor
    · intro b h
      simp only [fromHex, Except.ok.injEq] at h
      subst h; intro c hc; simp at hc
    · intro e h; simp [fromHex] at h
  | c :: rest =>
    unfold fromHex
    by_cases hs : isHexSpace c
    · simp only [hs, if_true]
      obtain ⟨i1, i2⟩ := ih rest.length (by simp) rest rfl
      refine ⟨fun b h => ?_, i2⟩
      have hb := i1 b h
      have hc := (isHexSpace_iff c).mp hs
      cases b with
      | nil => intro d hd; rcases List.mem_cons.mp hd with rfl | hd; exacts [hc, hb d hd]
      | cons x b =>
        obtain ⟨w, hi, lo, t', rfl, hw, r⟩ := hb
        refine ⟨c :: w, hi, lo, t', rfl, ?_, r⟩
        intro d hd; rcases List.mem_cons.mp hd with rfl | hd; exacts [hc, hw d hd]
    · simp only [hs, Bool.false_eq_true, if_false]
      cases hd : hexDigit? c with
      | none => simp
      | some hi =>
        cases rest with
        | nil => simp
        | cons d rest' =>
          simp only []
          cases hd2 : hexDigit? d with
          | none => simp
          | some lo =>
            obtain ⟨i1, i2⟩ := ih rest'.length (by simp; omega) rest' rfl
            simp only []
            cases hr : fromHex rest' with
            | error e => simpa using i2 e hr
            | ok bs =>
              simp only [Except.ok.injEq, reduceCtorEq, false_implies, implies_true, and_true]
              rintro b rfl
              have h1 := hexDigit?_toNat hd
              have h2 := hexDigit?_toNat hd2
              have hx : (UInt8.ofNat (hi * 16 + lo)).toNat = hi * 16 + lo := by
                rw [UInt8.toNat_ofNat', Nat.mod_eq_of_lt (by omega)]
              refine ⟨[], c, d, rest', rfl, by simp, ?_, ?_, i1 bs hr⟩
              · rw [hx, show (hi * 16 + lo) / 16 = hi by omega]; exact isHexDigit_of_hexDigit? hd
              · rw [hx, show (hi * 16 + lo) % 16 = lo by omega]; exact isHexDigit_of_hexDigit? hd2

theorem hexUpper_canonical (b : Bytes) : hexUpper b = canonicalHex b := by
  have key : ∀ n < 16, hexChar n = "0123456789ABCDEF".toList.getD n '?' := by decide +kernel
  induction b with
  | nil => rfl
  | cons x b ih =>
    have := x.toNat_lt
    have hd : x.toNat / 16 < 16 := by omega
    have hm : x.toNat % 16 < 16 := by omega
    rw [canonicalHex, ← ih, ← key _ hd, ← key _ hm]
    simp [hexUpper]

theorem canonicalHex_isHexText (b : Bytes) : IsHexText (canonicalHex b) b := by
  induction b with
  | nil => intro c hc; simp [canonicalHex] at hc
  | cons x b ih =>
    have key : ∀ n < 16, IsHexDigit ("0123456789ABCDEF".toList.getD n '?') n := by
      have : ∀ n < 16, "0123456789ABCDEF".toList[n]? = some ("0123456789ABCDEF".toList.getD n '?') := by
        decide +kernel
      exact fun n hn => Or.inr (this n hn)
    have := x.toNat_lt
    exact ⟨[], _, _, _, rfl, by simp, key _ (by omega), key _ (by omega), ih⟩

theorem fromHex_hexUpper (b : Bytes) : fromHex (hexUpper b) = .ok b := by
  rw [hexUpper_canonical]; exact fromHex_complete _ _ (canonicalHex_isHexText b)

end Uecho
