/- C104–C108: the command line tools. -/
import Verif.Lemmas.Tools
import Verif.Props.EndToEnd
import Verif.Props.Search
import Verif.Props.Bytes

namespace Uecho
open Spec Tools

/-! ## C104: uechopost sends what its arguments say -/

/-- C104 (what holds): if the object, the service (not one with two lists of properties) and every property are given as hexadecimal
text and fit the wire, the program sends one datagram to the address given, with exactly that object, service and properties. Missing:
`C104_object_false`, `C104_sections_false`. -/
theorem C104_sends_partial {ord : List Int → List Int} (hord : ValidOrder ord) {c : Ctl} {ops : List CtlOp} (h : CtlReach ord c ops)
    (net : Net) (hs : NetWorks net) (hw : CanSend c.ln.mgr) (lit : String → Except Exc Literal) (ip obj esv x : String) (rest : List String)
    (b1 b2 : Bytes) (ps : List PProp) (h1 : IsHexText obj.toList b1) (h2 : IsHexText esv.toList b2)
    (hps : List.Forall₂ (fun a p => ∃ x, lit a = .ok x ∧ Says x p) (x :: rest) ps)
    (ho : beValue b1 < 2 ^ 24) (h2s : ¬ TwoSections (beValue b2)) (hm : FitsDatagram { esv := beValue b2, props := ps }) :
    ∃ m, message lit (ip :: obj :: esv :: x :: rest) = .ok (some (ip, m)) ∧
      (c.postBegin net m (.str ip)).2 = .ok true ∧
      ∃ i d t, (c.postBegin net m (.str ip)).1.ln.mgr.log = c.ln.mgr.log ++ [(⟨i, (ip, 3610), d⟩, (d.length : Int))] ∧ 1 ≤ t ∧ t ≤ 65535 ∧
        ∀ a, Decodes d a { tid := t, seoj := 0x0EF001, deoj := beValue b1, esv := beValue b2, props := ps, fromAddr := some a } := by
  have hmsg := message_eq lit ip obj esv x rest b1 b2 h1 h2
  rw [addProperties_says hps] at hmsg
  refine ⟨_, hmsg, ?_⟩
  have hm1 : Encodable ({ deoj := (beValue b1 : Int), esv := (beValue b2 : Int), props := [] ++ ps } : Msg) := by
    have := hm.1; unfold Encodable at this ⊢; exact this
  have hm2 : (encode ({ deoj := (beValue b1 : Int), esv := (beValue b2 : Int), props := [] ++ ps } : Msg)).length ≤ 1024 := by
    have := hm.2; rw [encode_length] at this ⊢; exact this
  obtain ⟨i, t, q, p1, p2, p3, p4, p5, p6, p7, p8, -, -⟩ := post_sent hord h net hs hw _ hm1
    (show (0 : Int) ≤ 0 ∧ (0 : Int) ≤ 65535 by decide) (.str ip) (ip, 3610) rfl
  refine ⟨p1, i, _, t, p2, p5, p6, ?_⟩
  intro a
  exact request_arrives _ t hm1 hm2 a ⟨p5, p6⟩ h2s (beValue b1) rfl ⟨by omega, by exact_mod_cast ho⟩

/-- The arguments `10.0.0.9 029101 62 "('80',)" "('81','AB')"`. -/
example : ∃ lit : String → Except Exc Literal, List.Forall₂ (fun a p => ∃ x, lit a = .ok x ∧ Says x p) ["('80',)", "('81','aB')"]
    [{ code := 0x80 }, { code := 0x81, data := [0xAB] }] ∧ IsHexText "029101".toList [2, 0x91, 1] := by
  refine ⟨fun s => if s = "('80',)" then .ok (.tuple [.str "80"]) else .ok (.tuple [.str "81", .str "aB"]), .cons ⟨_, rfl, ?_⟩ (.cons ⟨_, rfl, ?_⟩ .nil), ?_⟩
  · exact ⟨"80", [0x80], (C09_hex.1 "80" [0x80]).mp (by decide +kernel), rfl, .inl ⟨rfl, rfl⟩⟩
  · exact ⟨"81", [0x81], (C09_hex.1 "81" [0x81]).mp (by decide +kernel), rfl, .inr ⟨"aB", [], rfl, (C09_hex.1 "aB" [0xAB]).mp (by decide +kernel)⟩⟩
  · exact (C09_hex.1 "029101" [2, 0x91, 1]).mp (by decide +kernel)
example : FitsDatagram { esv := 0x62, props := [{ code := 0x80 }, { code := 0x81, data := [0xAB] }] } := by decide +kernel

/-- C104. If a message is made of arguments whose properties are tuples of strings, then all of them are hexadecimal text and the
message is what they say: nothing else is ever sent. -/
theorem C104_checked (lit : String → Except Exc Literal) (ip obj esv x : String) (rest : List String)
    (hl : ∀ a ∈ x :: rest, ∀ y, lit a = .ok y → ∃ l : List String, y = .tuple (l.map .str)) (ip' : String) (m : Msg)
    (h : message lit (ip :: obj :: esv :: x :: rest) = .ok (some (ip', m))) :
    ∃ b1 b2 ps, IsHexText obj.toList b1 ∧ IsHexText esv.toList b2 ∧ List.Forall₂ (fun a p => ∃ x, lit a = .ok x ∧ Says x p) (x :: rest) ps ∧
      ip' = ip ∧ m = { deoj := beValue b1, esv := beValue b2, props := ps } := by
  by_cases h1 : ∃ b, IsHexText obj.toList b
  · by_cases h2 : ∃ b, IsHexText esv.toList b
    · obtain ⟨b1, h1⟩ := h1
      obtain ⟨b2, h2⟩ := h2
      rw [message_eq lit ip obj esv x rest b1 b2 h1 h2] at h
      rcases hr : addProperties lit (x :: rest) { deoj := (beValue b1 : Int), esv := (beValue b2 : Int) } with e | r
      · rw [hr] at h; cases h
      · rw [hr] at h
        injection h with h
        injection h with h
        injection h with h h'
        obtain ⟨ps, k1, k2⟩ := addProperties_ok _ _ _ hr
        refine ⟨b1, b2, ps, h1, h2, ?_, h.symm, ?_⟩
        · clear hr k2 h h'
          generalize x :: rest = as at hl k1
          induction k1 with
          | nil => exact .nil
          | @cons a p as ps hap _ ih =>
            obtain ⟨y, y1, y2⟩ := hap
            obtain ⟨l, rfl⟩ := hl a List.mem_cons_self y y1
            exact .cons ⟨_, y1, property_says y2⟩ (ih (fun b hb => hl b (List.mem_cons_of_mem _ hb)))
        · rw [← h', k2]
          rfl
    · have : message lit (ip :: obj :: esv :: x :: rest) = (do
        let deoj ← hexFromString (some obj)
        let esv ← hexFromString (some esv)
        let m ← addProperties lit (x :: rest) { deoj := deoj, esv := esv }
        return some (ip, m) : Except Exc (Option (String × Msg))) := rfl
      rw [this, (not_hex h2).1] at h
      generalize hexFromString (some obj) = v at h
      cases v <;> cases h
  · have : message lit (ip :: obj :: esv :: x :: rest) = (do
      let deoj ← hexFromString (some obj)
      let esv ← hexFromString (some esv)
      let m ← addProperties lit (x :: rest) { deoj := deoj, esv := esv }
      return some (ip, m) : Except Exc (Option (String × Msg))) := rfl
    rw [this, (not_hex h1).1] at h
    cases h

/-- C104 is false of objects that are too long: all but the last three bytes are dropped, and the request goes to another object than
the one given. -/
theorem C104_object_false {ord : List Int → List Int} (hord : ValidOrder ord) {c : Ctl} {ops : List CtlOp} (h : CtlReach ord c ops)
    (net : Net) (hs : NetWorks net) (hw : CanSend c.ln.mgr) (lit : String → Except Exc Literal) (ip obj esv x : String) (rest : List String)
    (z : Bytes) (o1 o2 o3 : UInt8) (hz : beValue z ≠ 0) (b2 : Bytes) (ps : List PProp) (h1 : IsHexText obj.toList (z ++ [o1, o2, o3])) (h2 : IsHexText esv.toList b2)
    (hps : List.Forall₂ (fun a p => ∃ x, lit a = .ok x ∧ Says x p) (x :: rest) ps)
    (h2s : ¬ TwoSections (beValue b2)) (hm : FitsDatagram { esv := beValue b2, props := ps }) :
    ∃ m, message lit (ip :: obj :: esv :: x :: rest) = .ok (some (ip, m)) ∧
      (c.postBegin net m (.str ip)).2 = .ok true ∧
      ∃ i d t, (c.postBegin net m (.str ip)).1.ln.mgr.log = c.ln.mgr.log ++ [(⟨i, (ip, 3610), d⟩, (d.length : Int))] ∧
        (∀ a, Decodes d a { tid := t, seoj := 0x0EF001, deoj := beValue [o1, o2, o3], esv := beValue b2, props := ps, fromAddr := some a }) ∧
        beValue [o1, o2, o3] ≠ beValue (z ++ [o1, o2, o3]) := by
  have hmsg := message_eq lit ip obj esv x rest _ b2 h1 h2
  rw [addProperties_says hps] at hmsg
  refine ⟨_, hmsg, ?_⟩
  have hv : beValue (z ++ [o1, o2, o3]) = beValue z * 2 ^ 24 + beValue [o1, o2, o3] := by
    unfold beValue
    rw [List.foldl_append]
    simp only [List.foldl_cons, List.foldl_nil]
    ring
  have hlt : beValue [o1, o2, o3] < 2 ^ 24 := by
    have := beValue_lt [o1, o2, o3]
    simp only [List.length_cons, List.length_nil] at this
    omega
  generalize hk : beValue (z ++ [o1, o2, o3]) = k at hv hmsg ⊢
  have hm1 : Encodable ({ deoj := (k : Int), esv := (beValue b2 : Int), props := [] ++ ps } : Msg) := by
    have := hm.1; unfold Encodable at this ⊢; exact this
  have hm2 : (encode ({ deoj := (k : Int), esv := (beValue b2 : Int), props := [] ++ ps } : Msg)).length ≤ 1024 := by
    have := hm.2; rw [encode_length] at this ⊢; exact this
  obtain ⟨i, t, q, p1, p2, p3, p4, p5, p6, p7, p8, -, -⟩ := post_sent hord h net hs hw _ hm1
    (show (0 : Int) ≤ 0 ∧ (0 : Int) ≤ 65535 by decide) (.str ip) (ip, 3610) rfl
  refine ⟨p1, i, _, t, p2, ?_, by omega⟩
  intro a
  have := decodes_encode (stamped { deoj := (k : Int), esv := (beValue b2 : Int), props := [] ++ ps } t) hm1 (by
    rw [encode_length] at hm2 ⊢; exact hm2) a
  have e : onWire (stamped { deoj := (k : Int), esv := (beValue b2 : Int), props := [] ++ ps } t) =
      { tid := t, seoj := 0x0EF001, deoj := beValue [o1, o2, o3], esv := beValue b2, props := ps } := by
    unfold onWire stamped
    simp only [if_neg h2s, List.nil_append]
    rw [Int.emod_eq_of_lt (by omega) (by omega), show ((k : Int) % 2 ^ 24) = beValue [o1, o2, o3] by omega]
    rfl
  rw [e] at this
  exact this

example : IsHexText "01029101".toList ([1] ++ [2, 0x91, 1]) := (C09_hex.1 "01029101" _).mp (by decide +kernel)

/-- C104 is false of the services with two lists of properties: whatever properties are given, none is sent. -/
theorem C104_sections_false {ord : List Int → List Int} (hord : ValidOrder ord) {c : Ctl} {ops : List CtlOp} (h : CtlReach ord c ops)
    (net : Net) (hs : NetWorks net) (hw : CanSend c.ln.mgr) (lit : String → Except Exc Literal) (ip obj esv x : String) (rest : List String)
    (b1 b2 : Bytes) (ps : List PProp) (h1 : IsHexText obj.toList b1) (h2 : IsHexText esv.toList b2)
    (hps : List.Forall₂ (fun a p => ∃ x, lit a = .ok x ∧ Says x p) (x :: rest) ps)
    (ho : beValue b1 < 2 ^ 24) (h2s : TwoSections (beValue b2)) :
    ∃ m, message lit (ip :: obj :: esv :: x :: rest) = .ok (some (ip, m)) ∧
      (c.postBegin net m (.str ip)).2 = .ok true ∧
      ∃ i d t, (c.postBegin net m (.str ip)).1.ln.mgr.log = c.ln.mgr.log ++ [(⟨i, (ip, 3610), d⟩, (d.length : Int))] ∧
        (∀ a, Decodes d a { tid := t, seoj := 0x0EF001, deoj := beValue b1, esv := beValue b2, fromAddr := some a }) ∧ ps ≠ [] := by
  have hmsg := message_eq lit ip obj esv x rest b1 b2 h1 h2
  rw [addProperties_says hps] at hmsg
  refine ⟨_, hmsg, ?_⟩
  have hes : (0 : Int) ≤ beValue b2 ∧ (beValue b2 : Int) < 256 := by
    unfold TwoSections at h2s; omega
  have hm1 : Encodable ({ deoj := (beValue b1 : Int), esv := (beValue b2 : Int), props := [] ++ ps } : Msg) := by
    unfold Encodable; rw [if_pos h2s]
    exact ⟨hes, (show SectionOk [] by decide), (show SectionOk [] by decide)⟩
  obtain ⟨i, t, q, p1, p2, p3, p4, p5, p6, p7, p8, -, -⟩ := post_sent hord h net hs hw _ hm1
    (show (0 : Int) ≤ 0 ∧ (0 : Int) ≤ 65535 by decide) (.str ip) (ip, 3610) rfl
  refine ⟨p1, i, _, t, p2, ?_, by cases hps; simp⟩
  intro a
  have := decodes_encode (stamped { deoj := (beValue b1 : Int), esv := (beValue b2 : Int), props := [] ++ ps } t) hm1 (by
    rw [encode_length]
    unfold encBody stamped
    rw [if_pos h2s]
    simp [encSection, encItems]) a
  have e : onWire (stamped { deoj := (beValue b1 : Int), esv := (beValue b2 : Int), props := [] ++ ps } t) =
      { tid := t, seoj := 0x0EF001, deoj := beValue b1, esv := beValue b2 } := by
    unfold onWire stamped
    simp only [if_pos h2s]
    rw [Int.emod_eq_of_lt (by omega) (by omega), Int.emod_eq_of_lt (show (0 : Int) ≤ beValue b1 by omega) (by exact_mod_cast ho)]
    rfl
  rw [e] at this
  exact this

example : TwoSections (beValue [0x6E]) := by decide

/-! ## C105: numbers as arguments -/

/-- C105 (what holds): a code and data given as numbers with an even number of digits are taken as their digits in hexadecimal, as the
documentation writes them: `(80,30)` is the code 0x80 with the data 0x30. Missing: `C105_odd_false`. -/
theorem C105_numbers_partial (c d : Nat) (rest : List Elem) (hc : (toString c).toList.length % 2 = 0) (hd : (toString d).toList.length % 2 = 0) :
    property (.tuple [.int c]) = .ok { code := digitsAsHex c } ∧
    ∃ b, canonicalHex b = (toString d).toList ∧ property (.tuple (.int c :: .int d :: rest)) = .ok { code := digitsAsHex c, data := b } := by
  obtain ⟨bc, -, c2, c3⟩ := number_even c hc
  obtain ⟨bd, d1, -, d3⟩ := number_even d hd
  refine ⟨?_, bd, d1, ?_⟩
  · rw [property_single, (hex_text c3).1, c2]; rfl
  · rw [property_pair, (hex_text c3).1, (hex_text d3).2, c2]; rfl

example : digitsAsHex 80 = 0x80 ∧ (toString 80).toList.length % 2 = 0 ∧ canonicalHex [0x30] = (toString 30).toList := by
  refine ⟨?_, by decide +kernel, by decide +kernel⟩
  simp [digitsAsHex]

/-- C105 is false: a number with an odd number of digits (such as 0, or 128, which is 0x80 written as Python writes it), a negative one, and
a number that is not in a tuple make the program raise before anything is sent. -/
theorem C105_odd_false (lit : String → Except Exc Literal) (ip obj esv x : String) (rest : List String) (b1 b2 : Bytes)
    (h1 : IsHexText obj.toList b1) (h2 : IsHexText esv.toList b2) (c : Elem) (bc : Bytes) (hc : IsHexText c.text.toList bc) (n : Int) (more : List Elem)
    (hn : n < 0 ∨ ∃ k : Nat, n = k ∧ (toString k).toList.length % 2 = 1) :
    (lit x = .ok (.tuple [.int n]) → message lit (ip :: obj :: esv :: x :: rest) = .error .valueError) ∧
    (lit x = .ok (.tuple (c :: .int n :: more)) → message lit (ip :: obj :: esv :: x :: rest) = .error .valueError) ∧
    (∀ k, lit x = .ok (.int k) → message lit (ip :: obj :: esv :: x :: rest) = .error .typeError) := by
  have hnot : ¬ ∃ b, IsHexText (Elem.int n).text.toList b := by
    rcases hn with hn | ⟨k, rfl, hk⟩
    · exact number_negative n hn
    · exact number_odd k hk
  have key : ∀ y e, lit x = .ok y → property y = .error e → message lit (ip :: obj :: esv :: x :: rest) = .error e := by
    intro y e hy he
    rw [message_eq lit ip obj esv x rest b1 b2 h1 h2, addProperties, hy]
    simp only [bind, Except.bind]
    rw [he]
    rfl
  refine ⟨fun hx => key _ _ hx ?_, fun hx => key _ _ hx ?_, fun k hx => key _ _ hx rfl⟩
  · rw [property_single, (not_hex hnot).1]; rfl
  · rw [property_pair, (hex_text hc).1, (not_hex hnot).2]; rfl

/-- `(80,0)`: the data 0. -/
example : ∃ k : Nat, (0 : Int) = k ∧ (toString k).toList.length % 2 = 1 := ⟨0, rfl, by decide +kernel⟩
example : (toString 128).toList.length % 2 = 1 := by decide +kernel

/-! ## C106: the line printed shows the response -/

theorem decoded_ranges {d : Bytes} {a : Addr} {r : Msg} (h : Decodes d a r) :
    r.fromAddr = some a ∧ (0 ≤ r.seoj ∧ r.seoj < 2 ^ 24) ∧ (0 ≤ r.esv ∧ r.esv < 256) ∧ ∀ p ∈ r.props, 0 ≤ p.code ∧ p.code < 256 := by
  obtain ⟨w, t, hw, ho, -, rfl⟩ := h
  have hs : w.seoj = w.seoj % 2 ^ 24 := congrArg Msg.seoj ho
  have hp : w.props = if TwoSections w.esv then [] else w.props := congrArg Msg.props ho
  refine ⟨rfl, ⟨?_, ?_⟩, hw.1, ?_⟩
  · show 0 ≤ w.seoj; omega
  · show w.seoj < 2 ^ 24; omega
  · intro p hmem
    change p ∈ w.props at hmem
    have h2 := hw.2
    by_cases ht : TwoSections w.esv
    · rw [hp, if_pos ht] at hmem; cases hmem
    · rw [if_neg ht] at h2
      exact ⟨(h2.2 p hmem).1, (h2.2 p hmem).2.1⟩

/-- C106 (what holds): for a response that was received, the line printed is the address, the object, the service and the code and data of each of
the properties, and it determines them: two responses with one line agree in all of these. Missing: `C106_sections_false`. -/
theorem C106_line_partial (d d' : Bytes) (a a' : Addr) (r r' : Msg) (h : Decodes d a r) (h' : Decodes d' a' r') (hb : ' ' ∉ a.1.toList) (hb' : ' ' ∉ a'.1.toList) :
    showResponse r = .ok (responseText a.1 r.seoj r.esv r.props) ∧
    (showResponse r = showResponse r' → a.1 = a'.1 ∧ r.seoj = r'.seoj ∧ r.esv = r'.esv ∧ r.props = r'.props) := by
  obtain ⟨h1, h2, h3, h4⟩ := decoded_ranges h
  obtain ⟨h1', h2', h3', h4'⟩ := decoded_ranges h'
  have e := showResponse_eq r a h1 h2 h3 h4
  have e' := showResponse_eq r' a' h1' h2' h3' h4'
  refine ⟨e, fun heq => ?_⟩
  rw [e, e'] at heq
  injection heq with heq
  exact responseText_inj hb hb' h2 h2' h3 h3' h4 h4' heq

example : responseText "10.0.0.9" 0x029101 0x72 [{ code := 0x80, data := [0x30] }, { code := 0x9F }] = "10.0.0.9 029101 72 80 30 9F  ".toList := by decide +kernel
example : ∃ d, Decodes d ("10.0.0.9", 3610) { tid := 1, seoj := 0x029101, deoj := 0x0EF001, esv := 0x72, props := [{ code := 0x80, data := [0x30] }], fromAddr := some ("10.0.0.9", 3610) } :=
  ⟨_, decodes_encode { tid := 1, seoj := 0x029101, deoj := 0x0EF001, esv := 0x72, props := [{ code := 0x80, data := [0x30] }] } (by decide) (by decide +kernel) _⟩

/-- C106 is false of responses with two lists of properties: none of their properties is printed, so all of them with one address, object and
service have the same line. -/
theorem C106_sections_false (a : Addr) (t seoj deoj esv : Int) (ht : 0 ≤ t ∧ t < 2 ^ 16) (hs : 0 ≤ seoj ∧ seoj < 2 ^ 24) (hd : 0 ≤ deoj ∧ deoj < 2 ^ 24)
    (h2 : TwoSections esv) (l l' : List PProp) (hl : SectionOk l) (hl' : SectionOk l')
    (hlen : (encode { esv := esv, setProps := l, getProps := l' }).length ≤ 1024) :
    ∃ d r, Decodes d a r ∧ r.setProps = l ∧ r.getProps = l' ∧ showResponse r = .ok (responseText a.1 seoj esv []) := by
  have hes : (0 : Int) ≤ esv ∧ esv < 256 := by unfold TwoSections at h2; omega
  have hm : Encodable { tid := t, seoj := seoj, deoj := deoj, esv := esv, setProps := l, getProps := l' } := by
    unfold Encodable; rw [if_pos h2]; exact ⟨hes, hl, hl'⟩
  have hdec := decodes_encode { tid := t, seoj := seoj, deoj := deoj, esv := esv, setProps := l, getProps := l' } hm (by
    rw [encode_length] at hlen ⊢; exact hlen) a
  have hw : onWire { tid := t, seoj := seoj, deoj := deoj, esv := esv, setProps := l, getProps := l' } =
      { tid := t, seoj := seoj, deoj := deoj, esv := esv, setProps := l, getProps := l' } := by
    unfold onWire
    simp only [if_pos h2]
    rw [Int.emod_eq_of_lt ht.1 ht.2, Int.emod_eq_of_lt hs.1 hs.2, Int.emod_eq_of_lt hd.1 hd.2]
  rw [hw] at hdec
  refine ⟨_, _, hdec, rfl, rfl, ?_⟩
  obtain ⟨h1, h2', h3, h4⟩ := decoded_ranges hdec
  exact showResponse_eq _ a h1 h2' h3 h4

example : TwoSections 0x7E ∧ SectionOk [{ code := 0x80 }] ∧ SectionOk [{ code := 0x81, data := [1, 2] }] := by decide

/-! ## C107: uechopost reads a device -/

/-- A controller sends every message as the node profile. -/
theorem post_seoj {ord : List Int → List Int} (hord : ValidOrder ord) {c : Ctl} {ops : List CtlOp} (h : CtlReach ord c ops) (net : Net) (m : Msg) (s : Int) (dest : PyDest) :
    c.postBegin net { m with seoj := s } dest = c.postBegin net m dest := by
  have hc := (reach_ln hord h).2
  have : ∀ m, outgoing c.ln m = { m with seoj := 0x0EF001 } := by intro m; unfold outgoing; rw [if_pos hc]
  unfold Ctl.postBegin Ctl.sendMessage
  simp only [sendMessage_eq, this]

/-- C107. uechopost with service 62 and codes of readable properties of an object of a device that has been found, whose answer arrives: it
prints one line, which shows the device's address, the object, 72 and the current data of each property asked for. -/
theorem C107_reads {ord : List Int → List Int} (hord : ValidOrder ord) {c : Ctl} {n : LocalNode} (hc : Connected ord c n)
    (w : World) (hw : w.Works) (ca : Addr) (lit : String → Except Exc Literal) (ip obj esv x : String) (rest : List String) (bo : Bytes) (items : List PProp)
    (h1 : IsHexText obj.toList bo) (h2 : IsHexText esv.toList [0x62]) (hps : List.Forall₂ (fun a p => ∃ x, lit a = .ok x ∧ Says x p) (x :: rest) items)
    (o : Obj) (hcode : o.code = beValue bo) (ho24 : beValue bo < 2 ^ 24) (ho : n.getObject (.int o.code) = some o) (hwf : WellFormed o) (hh : o.handler = .self_) (hq : ∀ m, Quiet w.env o m)
    (hk : ∀ i ∈ items, ∃ p, lookup o.props i.code = some p ∧ CanRead p)
    (hm : FitsDatagram { esv := 0x62, props := items }) (hr : FitsDatagram { esv := 0x72, props := currentData o items })
    (hf : Found c ip) (hl : instanceListOf { props := currentData o items } ≠ .empty) :
    ∃ m c' n' r, message lit (ip :: obj :: esv :: x :: rest) = .ok (some (ip, m)) ∧ Exchange ord w ca (ip, 3610) (.str ip) c n m c' n' r ∧
      postOutput c' = .ok [responseText ip o.code 0x72 (currentData o items)] ∧ ∀ k, n'.getObject (.int k) = n.getObject (.int k) := by
  have hmsg := message_eq lit ip obj esv x rest bo [0x62] h1 h2
  rw [addProperties_says hps] at hmsg
  have hc24 : 0 ≤ o.code ∧ o.code < 2 ^ 24 := by rw [hcode]; exact ⟨by omega, by exact_mod_cast ho24⟩
  obtain ⟨c', n', t, e1, -, -, -, e2⟩ := C68_read hord hc w hw ca (ip, 3610) (.str ip) rfl o hc24 ho hwf hh hq items 0 (by decide) hk hm hr hf hl
  have hresp : c'.last.response = some { tid := t, seoj := o.code, deoj := 0x0EF001, esv := 0x72, props := currentData o items, fromAddr := some (ip, 3610) } := by
    obtain ⟨c1, d, -, -, e⟩ := e1; exact e
  refine ⟨_, c', n', { tid := t, seoj := o.code, deoj := 0x0EF001, esv := 0x72, props := currentData o items, fromAddr := some (ip, 3610) }, hmsg, ?_, ?_, e2⟩
  · have : ({ ReadRequest o.code with tid := 0, props := items } : Msg) =
        { ({ deoj := (beValue bo : Int), esv := (beValue [0x62] : Int), props := [] ++ items } : Msg) with seoj := 0x0EF001 } := by
      rw [hcode]; rfl
    rw [this] at e1
    obtain ⟨ops, hreach⟩ := hc.ctl
    obtain ⟨c1, d, ⟨i, j, q, a1, a2⟩, a3⟩ := e1
    rw [post_seoj hord hreach] at a1
    exact ⟨c1, d, ⟨i, j, q, a1, a2⟩, a3⟩
  · unfold postOutput
    rw [hresp]
    have hp := hr.1.2
    rw [if_neg (show ¬ TwoSections 0x72 by decide)] at hp
    have := showResponse_eq { tid := t, seoj := o.code, deoj := 0x0EF001, esv := 0x72, props := currentData o items, fromAddr := some (ip, 3610) } (ip, 3610) rfl hc24
      (by show (0 : Int) ≤ 0x72 ∧ (0x72 : Int) < 256; decide) (fun p hmem => ⟨(hp.2 p hmem).1, (hp.2 p hmem).2.1⟩)
    show (do return [← showResponse _] : Except Exc (List (List Char))) = _
    rw [this]
    rfl

/-- `uechopost 10.0.0.9 029101 62 "('80',)" "('81',)"` prints `10.0.0.9 029101 72 80 30 81 07 `. -/
example {ord : List Int → List Int} (hord : ValidOrder ord) : ∃ (lit : String → Except Exc Literal) (m : Msg) (c : Ctl) (n : LocalNode) (c' : Ctl) (n' : LocalNode) (r : Msg),
    message lit ["10.0.0.9", "029101", "62", "('80',)", "('81',)"] = .ok (some ("10.0.0.9", m)) ∧
    Exchange ord exWorld ("10.0.0.2", 3610) ("10.0.0.9", 3610) (.str "10.0.0.9") c n m c' n' r ∧
    postOutput c' = .ok ["10.0.0.9 029101 72 80 30 81 07 ".toList] := by
  obtain ⟨-, c, n, -, -, h1, h2, h3⟩ := ex_connected hord
  refine ⟨fun s => if s = "('80',)" then .ok (.tuple [.str "80"]) else .ok (.tuple [.str "81"]), ?_⟩
  obtain ⟨m, c', n', r, k1, k2, k3, -⟩ := C107_reads hord h1 exWorld exWorld_works ("10.0.0.2", 3610)
    (fun s => if s = "('80',)" then .ok (.tuple [.str "80"]) else .ok (.tuple [.str "81"])) "10.0.0.9" "029101" "62" "('80',)" ["('81',)"] [2, 0x91, 1]
    [{ code := 0x80 }, { code := 0x81 }] ((C09_hex.1 "029101" _).mp (by decide +kernel)) ((C09_hex.1 "62" _).mp (by decide +kernel))
    (.cons ⟨_, rfl, "80", [0x80], (C09_hex.1 "80" _).mp (by decide +kernel), rfl, .inl ⟨rfl, rfl⟩⟩
      (.cons ⟨_, rfl, "81", [0x81], (C09_hex.1 "81" _).mp (by decide +kernel), rfl, .inl ⟨rfl, rfl⟩⟩ .nil))
    exObj (by decide) (by decide) h3 (by decide) rfl (fun _ _ _ => rfl) (by decide) (by decide +kernel) (by decide +kernel) h2
    (by intro h; exact absurd h (by simp [instanceListOf, currentData]))
  refine ⟨m, c, n, c', n', r, k1, k2, ?_⟩
  rw [k3]
  decide +kernel

/-! ## C108: uechosearch lists the nodes of the network -/

theorem listedCodes_range (k : Nat) (b : Bytes) (x : Int) (h : x ∈ listedCodes k b) : 0 ≤ x ∧ x < 2 ^ 24 := by
  induction k generalizing b with
  | zero => cases h
  | succ k ih =>
    rw [listedCodes, List.mem_cons] at h
    rcases h with rfl | h
    · have h1 := beValue_lt (b.take 3)
      have h2 : 256 ^ (b.take 3).length ≤ 256 ^ 3 := Nat.pow_le_pow_right (by decide) (List.length_take_le 3 b)
      refine ⟨by omega, ?_⟩
      have : beValue (b.take 3) < 2 ^ 24 := lt_of_lt_of_le h1 h2
      exact_mod_cast this
    · exact ih _ h

theorem latest_range {ms : List Msg} {ip : String} {a : Addr} {l : List Int} (h : latest ms ip = some (a, l)) : ∀ k ∈ l, 0 ≤ k ∧ k < 2 ^ 24 := by
  unfold latest at h
  have hm := List.mem_of_getLast? h
  rw [List.mem_filter, List.mem_filterMap] at hm
  obtain ⟨⟨m, -, hm⟩, -⟩ := hm
  unfold announced at hm
  split at hm
  · revert hm
    cases m.fromAddr with
    | none => intro hm; cases hm
    | some b =>
      unfold instanceListOf
      cases m.props with
      | nil => intro hm; cases hm
      | cons p ps =>
        simp only []
        by_cases hp : p.code = 0xD5 ∨ p.code = 0xD6
        · rw [if_pos hp]
          cases p.data with
          | nil => intro hm; cases hm
          | cons x rest =>
            simp only []
            by_cases hx : rest.length < 3 * x.toNat
            · rw [if_pos hx]; intro hm; cases hm
            · rw [if_neg hx]
              intro hm
              simp only [Option.some.injEq, Prod.mk.injEq] at hm
              rw [← hm.2]
              exact fun k hk => listedCodes_range _ _ k hk
        · rw [if_neg hp]; intro hm; cases hm
  · cases hm

/-- C108. uechosearch prints one line for each address from which an instance list has been received, and no other: the address, and,
numbered, the node profile and the objects of the latest list. -/
theorem C108_lists {ord : List Int → List Int} (hord : ValidOrder ord) {c : Ctl} {ops : List CtlOp} (h : CtlReach ord c ops) :
    ∃ table : List (String × List Int), searchOutput c = table.map (fun x => nodeText x.1 x.2) ∧ (table.map Prod.fst).Nodup ∧
      ∀ ip ks, (ip, ks) ∈ table ↔ ∃ a l, latest (heard ops) ip = some (a, l) ∧ ks = addCodes [0x0EF001] l := by
  obtain ⟨h1, h2, h3⟩ := C59_nodes hord h
  have hex : ∀ r ∈ c.nodes, ∃ a l, latest (heard ops) (ipOf r) = some (a, l) ∧ r.node.objectList.map Obj.code = addCodes [0x0EF001] l := by
    intro r hr
    rcases hl : latest (heard ops) (ipOf r) with _ | ⟨a, l⟩
    · exact absurd rfl (h2 _ hl r hr)
    · obtain ⟨r', k1, k2, k3, -, k4⟩ := h3 _ a l hl
      have e : r' = r := List.inj_on_of_nodup_map h1 k1 hr (by
        show ipOf r' = ipOf r
        rw [← k3]; unfold ipOf; rw [k2])
      rw [← e]
      exact ⟨a, l, rfl, k4⟩
  refine ⟨c.nodes.map fun r => (ipOf r, r.node.objectList.map Obj.code), ?_, by rw [List.map_map]; exact h1, ?_⟩
  · unfold searchOutput
    rw [List.map_map]
    apply List.map_congr_left
    intro r hr
    obtain ⟨a, l, k1, k2⟩ := hex r hr
    show showNode r = nodeText (ipOf r) (r.node.objectList.map Obj.code)
    unfold showNode nodeText ljust
    rw [showObjects_eq _ (by
      intro k hk
      rw [k2, mem_addCodes] at hk
      rcases hk with hk | hk
      · rw [List.mem_singleton] at hk; subst hk; decide
      · exact latest_range k1 k hk)]
    rw [show r.node.ip = ipOf r by unfold Node.ip ipOf; cases r.node.address <;> rfl]
    simp
  · intro ip ks
    rw [List.mem_map]
    constructor
    · rintro ⟨r, hr, e⟩
      injection e with e1 e2
      obtain ⟨a, l, k1, k2⟩ := hex r hr
      exact ⟨a, l, by rw [← e1]; exact k1, by rw [← e2]; exact k2⟩
    · rintro ⟨a, l, k1, rfl⟩
      obtain ⟨r, hr, k2, k3, -, k4⟩ := h3 ip a l k1
      exact ⟨r, hr, by rw [k4, ← k3]; unfold ipOf; rw [k2]⟩

example : nodeText "192.168.1.5" [0x0EF001, 0x029101] = "192.168.1.5     [0] 0EF001 [1] 029101 ".toList := by decide +kernel

/-- C108, together with C88: after the search whatever devices' answers arrived, in any order, each of them has its line, with its address and
all of its objects. -/
theorem C108_search {ord : List Int → List Int} (hord : ValidOrder ord) {c : Ctl} {ops : List CtlOp} (h : CtlReach ord c ops)
    (cuser : Env) (hst : CodeStable cuser) {cenv : CEnv} (hcalm : Calm cenv) (cnet : Net) (hs : NetWorks cnet) (hw : CanSend c.ln.mgr) (ca : Addr)
    (hosts : List Host) (hr : ∀ x ∈ hosts, x.Ready ord) (hips : (hosts.map fun x => x.addr.1).Nodup) :
    ∃ (c1 : Ctl) (q : Bytes) (answer : Host → Bytes), c.search cnet = (c1, .ok true) ∧ (∀ x ∈ hosts, x.Answers q ca (answer x)) ∧
      ∀ order : List Host, (∀ x ∈ order, x ∈ hosts) →
        ∃ c', runLoop (Ctl.deliver ord cuser cenv cnet) c1 (order.map fun x => (answer x, x.addr)) = (c', true) ∧
          ∀ x ∈ order, nodeText x.addr.1 (0x0EF001 :: instancesOf (x.node.objs.map Obj.code)) ∈ searchOutput c' := by
  obtain ⟨c1, q, answer, s1, -, s2, s3⟩ := C88_search hord h cuser hst hcalm cnet hs hw ca hosts hr hips
  refine ⟨c1, q, answer, s1, s2, ?_⟩
  intro order hord'
  obtain ⟨c', ops', k1, k2, k3, -, -⟩ := s3 order hord'
  refine ⟨c', k1, ?_⟩
  intro x hx
  obtain ⟨r, r1, r2, -, r4⟩ := k3 x hx
  obtain ⟨table, t1, -, t3⟩ := C108_lists hord k2
  obtain ⟨g1, g2⟩ := C59_get_node hord k2 cenv x.addr.1 x.addr.2
  rcases hl : latest (heard ops') x.addr.1 with _ | ⟨a, l⟩
  · rw [g1 hl] at r1
    cases r1
  · obtain ⟨r', hr', e1, e2⟩ := g2 a l hl
    rw [e1] at r1
    injection r1 with r1
    injection r1 with r1
    subst r1
    obtain ⟨-, -, n3⟩ := C59_nodes hord k2
    obtain ⟨r'', m1, m2, m3, -, m4⟩ := n3 _ a l hl
    have e : r'' = r' := List.inj_on_of_nodup_map (C59_nodes hord k2).1 m1 hr' (by
      show ipOf r'' = ipOf r'
      unfold ipOf; rw [m2, e2])
    rw [e, r4] at m4
    rw [t1, List.mem_map]
    exact ⟨(x.addr.1, addCodes [0x0EF001] l), (t3 _ _).mpr ⟨a, l, hl, rfl⟩, by rw [m4]⟩

end Uecho
