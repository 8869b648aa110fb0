/- Lemmas about the command line tools. -/
import Verif.Spec.Tools
import Verif.Lemmas.Hex
import Verif.Lemmas.Bytes

namespace Uecho.Tools
open Uecho.Spec

/-- The last `w` hexadecimal digits. -/
def padHex : Nat → Nat → List Char
  | 0, _ => []
  | w + 1, n => padHex w (n / 16) ++ [(Nat.digitChar (n % 16)).toUpper]

theorem padHex_zero (w : Nat) : padHex w 0 = List.replicate w '0' := by
  induction w with
  | zero => rfl
  | succ w ih => rw [padHex, Nat.zero_div, ih, List.replicate_succ']; rfl

theorem leftpad_snoc (w : Nat) (l : List Char) (c : Char) : List.leftpad (w + 1) '0' (l ++ [c]) = List.leftpad w '0' l ++ [c] := by
  unfold List.leftpad
  simp

theorem leftpad_hexNat (w n : Nat) (h : n < 16 ^ (w + 1)) : List.leftpad (w + 1) '0' (hexNat n) = padHex (w + 1) n := by
  induction w generalizing n with
  | zero =>
    have : n < 16 := by simpa using h
    unfold hexNat
    rw [Nat.toDigits_of_lt_base this]
    show List.leftpad 1 '0' [_] = [] ++ [_]
    rw [Nat.mod_eq_of_lt this]
    simp [List.leftpad]
  | succ w ih =>
    by_cases hn : n < 16
    · unfold hexNat
      rw [Nat.toDigits_of_lt_base hn, padHex, Nat.div_eq_of_lt hn, padHex_zero, Nat.mod_eq_of_lt hn]
      simp [List.leftpad]
    · unfold hexNat
      rw [Nat.toDigits_of_base_le (by decide) (by omega), List.map_append, List.map_singleton, leftpad_snoc]
      have := ih (n / 16) (by rw [Nat.div_lt_iff_lt_mul (by decide)]; rwa [← Nat.pow_succ])
      unfold hexNat at this
      rw [this]
      rfl

theorem fmtX_eq (w : Nat) (k : Int) (h0 : 0 ≤ k) (h : k < 16 ^ (w + 1)) : fmtX (w + 1) k = padHex (w + 1) k.toNat := by
  obtain ⟨n, rfl⟩ := Int.eq_ofNat_of_zero_le h0
  unfold fmtX
  rw [if_neg (by omega), Int.natAbs_natCast, leftpad_hexNat w _ (by exact_mod_cast h), Int.toNat_natCast]

theorem upperDigit (d : Nat) (h : d < 16) : (Nat.digitChar d).toUpper = "0123456789ABCDEF".toList.getD d '?' := by
  have : ∀ d : Fin 16, (Nat.digitChar d).toUpper = "0123456789ABCDEF".toList.getD d '?' := by decide +kernel
  exact this ⟨d, h⟩

theorem fmtX_byte1 (k : Int) (h0 : 0 ≤ k) (h : k < 256) : fmtX 2 k = canonicalHex (byte1 k) := by
  rw [fmtX_eq 1 k h0 (by simpa using h)]
  have hk : k.toNat < 256 := by omega
  simp only [padHex, byte1, canonicalHex, List.nil_append, List.cons_append]
  rw [upperDigit _ (Nat.mod_lt _ (by decide)), upperDigit _ (Nat.mod_lt _ (by decide))]
  simp only [UInt8.toNat_ofNat', Nat.reducePow, Nat.mod_eq_of_lt hk]
  rw [Nat.mod_eq_of_lt (show k.toNat / 16 < 16 by omega)]

theorem fmtX_byte3 (k : Int) (h0 : 0 ≤ k) (h : k < 2 ^ 24) : fmtX 6 k = canonicalHex (byte3 k) := by
  rw [fmtX_eq 5 k h0 (by norm_num at h ⊢; exact h)]
  have hk : k.toNat < 2 ^ 24 := by omega
  simp only [padHex, byte3, canonicalHex, List.nil_append, List.cons_append]
  simp only [upperDigit _ (Nat.mod_lt _ (show 16 > 0 by decide)), UInt8.toNat_ofNat', Nat.reducePow]
  generalize k.toNat = n at hk
  have e1 : n / 65536 % 256 / 16 = n / 16 / 16 / 16 / 16 / 16 % 16 := by omega
  have e2 : n / 65536 % 256 % 16 = n / 16 / 16 / 16 / 16 % 16 := by omega
  have e3 : n / 256 % 256 / 16 = n / 16 / 16 / 16 % 16 := by omega
  have e4 : n / 256 % 256 % 16 = n / 16 / 16 % 16 := by omega
  have e5 : n % 256 / 16 = n / 16 % 16 := by omega
  have e6 : n % 256 % 16 = n % 16 := by omega
  rw [e1, e2, e3, e4, e5, e6]

theorem showProps_eq (ps : List PProp) (h : ∀ p ∈ ps, 0 ≤ p.code ∧ p.code < 256) :
    showProps ps = (ps.map fun p => canonicalHex (byte1 p.code) ++ " ".toList ++ canonicalHex p.data ++ " ".toList).flatten := by
  unfold showProps
  induction ps with
  | nil => rfl
  | cons p ps ih =>
    obtain ⟨h1, h2⟩ := h p List.mem_cons_self
    rw [List.flatMap_cons, ih (fun q hq => h q (List.mem_cons_of_mem _ hq)), List.map_cons, List.flatten_cons, fmtX_byte1 _ h1 h2, hexUpper_canonical]
    simp

theorem showResponse_eq (r : Msg) (a : Addr) (hf : r.fromAddr = some a) (h1 : 0 ≤ r.seoj ∧ r.seoj < 2 ^ 24) (h2 : 0 ≤ r.esv ∧ r.esv < 256)
    (h : ∀ p ∈ r.props, 0 ≤ p.code ∧ p.code < 256) : showResponse r = .ok (responseText a.1 r.seoj r.esv r.props) := by
  unfold showResponse responseText
  rw [hf, showProps_eq _ h, fmtX_byte3 _ h1.1 h1.2, fmtX_byte1 _ h2.1 h2.2]
  simp

theorem decInt_nat (j : Nat) : decInt j = (toString j).toList := by
  unfold decInt
  rw [if_neg (by omega), Nat.toString_eq_ofList_toDigits]
  simp

theorem showObjects_eq (ks : List Int) (h : ∀ k ∈ ks, 0 ≤ k ∧ k < 2 ^ 24) (j : Nat) :
    showObjects j ks = ((ks.zipIdx j).map fun x => "[".toList ++ (toString x.2).toList ++ "] ".toList ++ canonicalHex (byte3 x.1) ++ " ".toList).flatten := by
  induction ks generalizing j with
  | nil => rfl
  | cons k ks ih =>
    obtain ⟨h1, h2⟩ := h k List.mem_cons_self
    rw [showObjects, ih (fun q hq => h q (List.mem_cons_of_mem _ hq)), List.zipIdx_cons, List.map_cons, List.flatten_cons, fmtX_byte3 _ h1 h2, decInt_nat]
    simp

/-! ### Arguments -/

theorem hex_text {s : String} {b : Bytes} (h : IsHexText s.toList b) : hexFromString (some s) = .ok (beValue b : Int) ∧ bytesFromString s = .ok b := by
  have := fromHex_complete b s.toList h
  show (fromHex s.toList).map toInt = _ ∧ fromHex s.toList = _
  rw [this]
  exact ⟨congrArg Except.ok (toInt_eq_beValue b), rfl⟩

theorem not_hex {s : String} (h : ¬ ∃ b, IsHexText s.toList b) : hexFromString (some s) = .error .valueError ∧ bytesFromString s = .error .valueError := by
  show (fromHex s.toList).map toInt = _ ∧ fromHex s.toList = _
  rcases hf : fromHex s.toList with e | b
  · rw [(fromHex_sound _).2 e hf]
    exact ⟨rfl, rfl⟩
  · exact absurd ⟨b, (fromHex_sound _).1 b hf⟩ h

theorem says_property {x : Literal} {p : PProp} (h : Says x p) : property x = .ok p := by
  obtain ⟨c, b, h1, h2, h3⟩ := h
  obtain ⟨code, data⟩ := p
  simp only [] at h2 h3
  subst h2
  rcases h3 with ⟨rfl, rfl⟩ | ⟨d, rest, rfl, h4⟩
  · show (do return { code := ← hexFromString (some c) } : Except Exc PProp) = _
    rw [(hex_text h1).1]
    rfl
  · show (do let code ← hexFromString (some c); let data ← bytesFromString d; return { code := code, data := data } : Except Exc PProp) = _
    rw [(hex_text h1).1, (hex_text h4).2]
    rfl

theorem addProperties_says {lit : String → Except Exc Literal} {as : List String} {ps : List PProp}
    (h : List.Forall₂ (fun a p => ∃ x, lit a = .ok x ∧ Says x p) as ps) (m : Msg) :
    addProperties lit as m = .ok { m with props := m.props ++ ps } := by
  induction h generalizing m with
  | nil => simp [addProperties]
  | @cons a p as ps h _ ih =>
    obtain ⟨x, hx, hs⟩ := h
    rw [addProperties, hx]
    simp only [bind, Except.bind]
    rw [says_property hs]
    show addProperties lit as { m with props := m.props ++ [p] } = _
    rw [ih]
    simp

end Uecho.Tools

namespace Uecho.Tools
open Uecho.Spec

theorem property_says {l : List String} {p : PProp} (h : property (.tuple (l.map .str)) = .ok p) : Says (.tuple (l.map .str)) p := by
  match l with
  | [] => cases h
  | [c] =>
    by_cases hc : ∃ b, IsHexText c.toList b
    · obtain ⟨b, hb⟩ := hc
      have : property (.tuple ([c].map .str)) = .ok { code := beValue b } := by
        show (do return { code := ← hexFromString (some c) } : Except Exc PProp) = _
        rw [(hex_text hb).1]
        rfl
      rw [this] at h
      injection h with h
      subst h
      exact ⟨c, b, hb, rfl, .inl ⟨rfl, rfl⟩⟩
    · have : property (.tuple ([c].map .str)) = .error .valueError := by
        show (do return { code := ← hexFromString (some c) } : Except Exc PProp) = _
        rw [(not_hex hc).1]
        rfl
      rw [this] at h
      cases h
  | c :: d :: rest =>
    have hp : property (.tuple ((c :: d :: rest).map .str)) =
      (do let code ← hexFromString (some c); let data ← bytesFromString d; return { code := code, data := data } : Except Exc PProp) := rfl
    rw [hp] at h
    by_cases hc : ∃ b, IsHexText c.toList b
    · obtain ⟨b, hb⟩ := hc
      rw [(hex_text hb).1] at h
      by_cases hd : ∃ b, IsHexText d.toList b
      · obtain ⟨b', hb'⟩ := hd
        rw [(hex_text hb').2] at h
        injection h with h
        subst h
        exact ⟨c, b, hb, rfl, .inr ⟨d, rest.map .str, rfl, hb'⟩⟩
      · rw [(not_hex hd).2] at h
        cases h
    · rw [(not_hex hc).1] at h
      cases h

theorem addProperties_ok {lit : String → Except Exc Literal} (as : List String) (m r : Msg) (h : addProperties lit as m = .ok r) :
    ∃ ps, List.Forall₂ (fun a p => ∃ x, lit a = .ok x ∧ property x = .ok p) as ps ∧ r = { m with props := m.props ++ ps } := by
  induction as generalizing m with
  | nil =>
    injection h with h
    exact ⟨[], .nil, by rw [← h]; simp⟩
  | cons a as ih =>
    rw [addProperties] at h
    rcases hx : lit a with e | x
    · rw [hx] at h; cases h
    · rw [hx] at h
      simp only [bind, Except.bind] at h
      rcases hp : property x with e | p
      · rw [hp] at h; cases h
      · rw [hp] at h
        obtain ⟨ps, h1, h2⟩ := ih { m with props := m.props ++ [p] } h
        refine ⟨p :: ps, .cons ⟨x, hx, hp⟩ h1, ?_⟩
        rw [h2]
        simp

theorem message_eq (lit : String → Except Exc Literal) (ip obj esv x : String) (rest : List String) (b1 b2 : Bytes)
    (h1 : IsHexText obj.toList b1) (h2 : IsHexText esv.toList b2) :
    message lit (ip :: obj :: esv :: x :: rest) = (addProperties lit (x :: rest) { deoj := (beValue b1 : Int), esv := (beValue b2 : Int) }).map fun m => some (ip, m) := by
  show (do
    let deoj ← hexFromString (some obj)
    let esv ← hexFromString (some esv)
    let m ← addProperties lit (x :: rest) { deoj := deoj, esv := esv }
    return some (ip, m) : Except Exc (Option (String × Msg))) = _
  rw [(hex_text h1).1, (hex_text h2).1]
  simp only [bind, Except.bind]
  cases addProperties lit (x :: rest) { deoj := (beValue b1 : Int), esv := (beValue b2 : Int) } <;> rfl

/-! ### Numbers -/

/-- The value of decimal digits read as hexadecimal ones. -/
def digitsVal (t : List Char) : Nat := t.foldl (fun a c => 16 * a + (c.toNat - 48)) 0

theorem digitsVal_toDigits (n : Nat) : digitsVal (Nat.toDigits 10 n) = digitsAsHex n := by
  induction n using Nat.strong_induction_on with
  | _ n ih =>
    by_cases h : n < 10
    · rw [Nat.toDigits_of_lt_base h, digitsAsHex, if_pos h]
      simp [digitsVal, Nat.toNat_digitChar_of_lt_ten h]
    · rw [Nat.toDigits_of_base_le (by decide) (by omega), digitsAsHex, if_neg h, ← ih (n / 10) (by omega)]
      unfold digitsVal
      rw [List.foldl_append, List.foldl_cons, List.foldl_nil, Nat.toNat_digitChar_of_lt_ten (Nat.mod_lt _ (by decide))]
      omega

theorem digit_char {c : Char} (h : c.isDigit = true) : ∃ v, v < 10 ∧ c = "0123456789ABCDEF".toList.getD v '?' ∧ c.toNat - 48 = v := by
  have hc : c.isDigit = true ↔ 48 ≤ c.toNat ∧ c.toNat ≤ 57 := by
    unfold Char.isDigit
    rw [Bool.and_eq_true, decide_eq_true_eq, decide_eq_true_eq]
    exact Iff.rfl
  obtain ⟨h1, h2⟩ := hc.mp h
  refine ⟨c.toNat - 48, by omega, ?_, rfl⟩
  have : ∀ v : Fin 10, Char.ofNat (48 + v) = "0123456789ABCDEF".toList.getD v '?' := by decide +kernel
  have := this ⟨c.toNat - 48, by omega⟩
  simp only [show 48 + (c.toNat - 48) = c.toNat by omega, Char.ofNat_toNat] at this
  exact this

/-- Decimal digits, an even number of them, are the hexadecimal text of some bytes. -/
theorem digits_even (t : List Char) (k : Nat) (hk : t.length = 2 * k) (h : ∀ c ∈ t, c.isDigit = true) :
    ∃ b, canonicalHex b = t ∧ beValue b = digitsVal t := by
  suffices ∀ acc : Nat, ∃ b : Bytes, canonicalHex b = t ∧
      b.foldl (fun a x => a * 256 + x.toNat) acc = t.foldl (fun a c => 16 * a + (c.toNat - 48)) acc from by
    obtain ⟨b, h1, -⟩ := this 0
    obtain ⟨b', h1', h2'⟩ := this 0
    exact ⟨b', h1', h2'⟩
  induction k generalizing t with
  | zero =>
    intro acc
    have : t = [] := List.length_eq_zero_iff.mp (by omega)
    subst this
    exact ⟨[], rfl, rfl⟩
  | succ k ih =>
    match t, hk with
    | c :: d :: t, hk =>
      intro acc
      obtain ⟨v, v1, v2, v3⟩ := digit_char (h c (by simp))
      obtain ⟨u, u1, u2, u3⟩ := digit_char (h d (by simp))
      obtain ⟨b, h1, h2⟩ := ih t (by simp at hk; omega) (fun x hx => h x (by simp [hx])) (16 * (16 * acc + v) + u)
      have hx : (UInt8.ofNat (16 * v + u)).toNat = 16 * v + u := by
        rw [UInt8.toNat_ofNat']; omega
      refine ⟨UInt8.ofNat (16 * v + u) :: b, ?_, ?_⟩
      · rw [canonicalHex, h1, hx, show (16 * v + u) / 16 = v by omega, show (16 * v + u) % 16 = u by omega, ← v2, ← u2]
      · rw [List.foldl_cons, List.foldl_cons, List.foldl_cons, v3, u3, hx, ← h2]
        congr 1
        omega

theorem isDigit_not_blank {c : Char} (h : c.isDigit = true) : ¬ IsBlank c := by
  intro hb
  unfold IsBlank at hb
  simp only [List.mem_cons, List.not_mem_nil, or_false] at hb
  rcases hb with rfl | rfl | rfl | rfl | rfl | rfl <;> revert h <;> decide

theorem hexText_even (b : Bytes) (t : List Char) (hb : ∀ c ∈ t, ¬ IsBlank c) (h : IsHexText t b) : t.length = 2 * b.length := by
  induction b generalizing t with
  | nil =>
    cases t with
    | nil => rfl
    | cons c t => exact absurd (h c List.mem_cons_self) (hb c List.mem_cons_self)
  | cons x b ih =>
    obtain ⟨bl, hi, lo, t', rfl, h1, -, -, h2⟩ := h
    have : bl = [] := by
      cases bl with
      | nil => rfl
      | cons c bl => exact absurd (h1 c List.mem_cons_self) (hb c (by simp))
    subst this
    have := ih t' (fun c hc => hb c (by simp [hc])) h2
    simp
    omega

theorem decInt_digits (n : Nat) (c : Char) (h : c ∈ decInt n) : c.isDigit = true := by
  unfold decInt at h
  rw [if_neg (by omega)] at h
  exact Nat.isDigit_of_mem_toDigits (by decide) (by decide) h

/-- A number with an even number of digits is taken as its digits in hexadecimal. -/
theorem number_even (n : Nat) (h : (toString n).toList.length % 2 = 0) :
    ∃ b, canonicalHex b = (toString n).toList ∧ beValue b = digitsAsHex n ∧ IsHexText (Elem.int n).text.toList b := by
  obtain ⟨b, h1, h2⟩ := digits_even (toString n).toList ((toString n).toList.length / 2) (by omega)
    (fun c hc => decInt_digits n c (by rwa [decInt_nat]))
  refine ⟨b, h1, ?_, ?_⟩
  · rw [h2, ← digitsVal_toDigits, Nat.toString_eq_ofList_toDigits, String.toList_ofList]
  · show IsHexText (String.ofList (decInt n)).toList b
    rw [String.toList_ofList, decInt_nat, ← h1]
    exact canonicalHex_isHexText b

theorem number_odd (n : Nat) (h : (toString n).toList.length % 2 = 1) : ¬ ∃ b, IsHexText (Elem.int n).text.toList b := by
  rintro ⟨b, hb⟩
  rw [show (Elem.int n).text.toList = (toString n).toList by
    show (String.ofList (decInt n)).toList = _
    rw [String.toList_ofList, decInt_nat]] at hb
  have := hexText_even b _ (fun c hc => isDigit_not_blank (decInt_digits n c (by rwa [decInt_nat]))) hb
  omega

theorem number_negative (n : Int) (h : n < 0) : ¬ ∃ b, IsHexText (Elem.int n).text.toList b := by
  rintro ⟨b, hb⟩
  have h1 : (Elem.int n).text.toList = '-' :: Nat.toDigits 10 n.natAbs := by
    show (String.ofList (decInt n)).toList = _
    rw [String.toList_ofList]
    unfold decInt
    rw [if_pos h]
  rw [h1] at hb
  cases b with
  | nil => exact absurd (hb '-' List.mem_cons_self) (by unfold IsBlank; decide)
  | cons x b =>
    obtain ⟨bl, hi, lo, t', e, h1, h2, -⟩ := hb
    cases bl with
    | cons c bl =>
      injection e with e1 _
      subst e1
      exact absurd (h1 _ List.mem_cons_self) (by unfold IsBlank; decide)
    | nil =>
      injection e with e1 _
      subst e1
      have : ∀ v : Fin 16, ¬ IsHexDigit '-' v := by unfold IsHexDigit; decide +kernel
      exact this ⟨x.toNat / 16, by have := x.toNat_lt; omega⟩ h2

/-- What a tuple is taken as, given the bytes of its texts. -/
theorem property_pair (c d : Elem) (rest : List Elem) :
    property (.tuple (c :: d :: rest)) =
      (do let code ← hexFromString (some c.text); let data ← bytesFromString d.text; return { code := code, data := data } : Except Exc PProp) := rfl
theorem property_single (c : Elem) : property (.tuple [c]) = (do return { code := ← hexFromString (some c.text) } : Except Exc PProp) := rfl

end Uecho.Tools

namespace Uecho.Tools
open Uecho.Spec

/-! ### Reading the lines back -/

theorem blank_split (a a' r r' : List Char) (h : ' ' ∉ a) (h' : ' ' ∉ a') (e : a ++ ' ' :: r = a' ++ ' ' :: r') : a = a' ∧ r = r' := by
  induction a generalizing a' with
  | nil =>
    cases a' with
    | nil => injection e with _ e; exact ⟨rfl, e⟩
    | cons c a' =>
      injection e with e1 _
      exact absurd (by rw [← e1]; exact List.mem_cons_self) h'
  | cons c a ih =>
    cases a' with
    | nil =>
      injection e with e1 _
      exact absurd (by rw [e1]; exact List.mem_cons_self) h
    | cons c' a' =>
      injection e with e1 e2
      obtain ⟨h1, h2⟩ := ih a' (fun x => h (List.mem_cons_of_mem _ x)) (fun x => h' (List.mem_cons_of_mem _ x)) e2
      exact ⟨by rw [e1, h1], h2⟩

theorem canonicalHex_inj {a b : Bytes} (h : canonicalHex a = canonicalHex b) : a = b := by
  have h1 := fromHex_complete a _ (canonicalHex_isHexText a)
  have h2 := fromHex_complete b _ (canonicalHex_isHexText b)
  rw [h, h2] at h1
  injection h1 with h1
  exact h1.symm

theorem canonicalHex_blank (b : Bytes) : ' ' ∉ canonicalHex b := by
  have hd : ∀ v : Fin 16, ' ' ≠ "0123456789ABCDEF".toList.getD v '?' := by decide +kernel
  induction b with
  | nil => simp [canonicalHex]
  | cons x b ih =>
    rw [canonicalHex, List.mem_cons, List.mem_cons]
    have := x.toNat_lt
    rintro (h | h | h)
    · exact hd ⟨x.toNat / 16, by omega⟩ h
    · exact hd ⟨x.toNat % 16, by omega⟩ h
    · exact ih h

theorem byte1_inj {k l : Int} (hk : 0 ≤ k ∧ k < 256) (hl : 0 ≤ l ∧ l < 256) (h : byte1 k = byte1 l) : k = l := by
  unfold byte1 at h
  injection h with h _
  have := congrArg UInt8.toNat h
  rw [UInt8.toNat_ofNat', UInt8.toNat_ofNat'] at this
  omega

theorem byte3_inj {k l : Int} (hk : 0 ≤ k ∧ k < 2 ^ 24) (hl : 0 ≤ l ∧ l < 2 ^ 24) (h : byte3 k = byte3 l) : k = l := by
  unfold byte3 at h
  injection h with h1 h
  injection h with h2 h
  injection h with h3 _
  have a1 := congrArg UInt8.toNat h1
  have a2 := congrArg UInt8.toNat h2
  have a3 := congrArg UInt8.toNat h3
  rw [UInt8.toNat_ofNat', UInt8.toNat_ofNat'] at a1 a2 a3
  omega

theorem responseText_eq (ip : String) (seoj esv : Int) (ps : List PProp) :
    responseText ip seoj esv ps = ip.toList ++ ' ' :: (canonicalHex (byte3 seoj) ++ ' ' :: (canonicalHex (byte1 esv) ++ ' ' ::
      (ps.map fun p => canonicalHex (byte1 p.code) ++ " ".toList ++ canonicalHex p.data ++ " ".toList).flatten)) := by
  unfold responseText
  simp

theorem propsText_inj (ps qs : List PProp) (hp : ∀ p ∈ ps, 0 ≤ p.code ∧ p.code < 256) (hq : ∀ p ∈ qs, 0 ≤ p.code ∧ p.code < 256)
    (h : (ps.map fun p => canonicalHex (byte1 p.code) ++ " ".toList ++ canonicalHex p.data ++ " ".toList).flatten =
      (qs.map fun p => canonicalHex (byte1 p.code) ++ " ".toList ++ canonicalHex p.data ++ " ".toList).flatten) : ps = qs := by
  have hc : ∀ (p : PProp) (l : List PProp), (((p :: l).map fun p => canonicalHex (byte1 p.code) ++ " ".toList ++ canonicalHex p.data ++ " ".toList).flatten : List Char) =
      canonicalHex (byte1 p.code) ++ ' ' :: (canonicalHex p.data ++ ' ' :: (l.map fun p => canonicalHex (byte1 p.code) ++ " ".toList ++ canonicalHex p.data ++ " ".toList).flatten) := by
    intro p l; simp
  induction ps generalizing qs with
  | nil =>
    cases qs with
    | nil => rfl
    | cons q qs => rw [hc] at h; simp at h
  | cons p ps ih =>
    cases qs with
    | nil => rw [hc] at h; simp at h
    | cons q qs =>
      rw [hc, hc] at h
      obtain ⟨e1, h⟩ := blank_split _ _ _ _ (canonicalHex_blank _) (canonicalHex_blank _) h
      obtain ⟨e2, h⟩ := blank_split _ _ _ _ (canonicalHex_blank _) (canonicalHex_blank _) h
      have := ih qs (fun x hx => hp x (List.mem_cons_of_mem _ hx)) (fun x hx => hq x (List.mem_cons_of_mem _ hx)) h
      have e1 := byte1_inj (hp p List.mem_cons_self) (hq q List.mem_cons_self) (canonicalHex_inj e1)
      have e2 := canonicalHex_inj e2
      obtain ⟨pc, pd⟩ := p
      obtain ⟨qc, qd⟩ := q
      simp only [] at e1 e2
      rw [e1, e2, this]

theorem responseText_inj {ip ip' : String} {s s' e e' : Int} {ps ps' : List PProp} (hi : ' ' ∉ ip.toList) (hi' : ' ' ∉ ip'.toList)
    (hs : 0 ≤ s ∧ s < 2 ^ 24) (hs' : 0 ≤ s' ∧ s' < 2 ^ 24) (he : 0 ≤ e ∧ e < 256) (he' : 0 ≤ e' ∧ e' < 256)
    (hp : ∀ p ∈ ps, 0 ≤ p.code ∧ p.code < 256) (hp' : ∀ p ∈ ps', 0 ≤ p.code ∧ p.code < 256)
    (h : responseText ip s e ps = responseText ip' s' e' ps') : ip = ip' ∧ s = s' ∧ e = e' ∧ ps = ps' := by
  rw [responseText_eq, responseText_eq] at h
  obtain ⟨h1, h⟩ := blank_split _ _ _ _ hi hi' h
  obtain ⟨h2, h⟩ := blank_split _ _ _ _ (canonicalHex_blank _) (canonicalHex_blank _) h
  obtain ⟨h3, h⟩ := blank_split _ _ _ _ (canonicalHex_blank _) (canonicalHex_blank _) h
  exact ⟨String.toList_inj.mp h1, byte3_inj hs hs' (canonicalHex_inj h2), byte1_inj he he' (canonicalHex_inj h3), propsText_inj _ _ hp hp' h⟩

end Uecho.Tools
