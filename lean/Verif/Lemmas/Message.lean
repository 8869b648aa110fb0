import Verif.Lemmas.Bytes

namespace Uecho
open Spec

theorem isReadWriteMessage_iff (m : Msg) : m.isReadWriteMessage = true ↔ TwoSections m.esv := by
  unfold Msg.isReadWriteMessage ESV.isWriteReadRequest ESV.isWriteReadResponse TwoSections
    ESV.WRITE_READ_REQUEST ESV.WRITE_READ_RESPONSE ESV.WRITE_READ_REQUEST_ERROR
  split <;> split <;> simp_all

theorem ok_bind {α β : Type} (a : α) (f : α → Except Exc β) : (Except.ok a >>= f) = f a := rfl
theorem err_bind {α β : Type} (e : Exc) (f : α → Except Exc β) :
    ((Except.error e : Except Exc α) >>= f) = .error e := rfl

/-! ### Encoding -/

theorem appendByte_ok {buf : Bytes} {v : Int} (h : 0 ≤ v ∧ v < 256) :
    Msg.appendByte buf v = .ok (buf ++ [UInt8.ofNat v.toNat]) := by
  unfold Msg.appendByte; rw [if_pos h]

theorem appendByte_err {buf : Bytes} {v : Int} (h : ¬ (0 ≤ v ∧ v < 256)) :
    Msg.appendByte buf v = .error .valueError := by
  unfold Msg.appendByte; rw [if_neg h]

theorem appendPropList_ok (buf : Bytes) (ps : List PProp) (h : ∀ p ∈ ps, PropOk p) :
    Msg.appendPropList buf ps = .ok (buf ++ encItems ps) := by
  induction ps generalizing buf with
  | nil => simp [Msg.appendPropList, encItems]
  | cons p ps ih =>
    have hp := h p (by simp)
    unfold PropOk at hp
    have hrest : ∀ q ∈ ps, PropOk q := fun q hq => h q (by simp [hq])
    unfold Msg.appendPropList
    rw [appendByte_ok ⟨hp.1, hp.2.1⟩]
    rw [ok_bind]
    rw [appendByte_ok (by omega)]
    rw [ok_bind]
    rw [ih _ hrest]
    simp [encItems, encItem]

theorem appendPropList_err (buf : Bytes) (ps : List PProp) (h : ¬ ∀ p ∈ ps, PropOk p) :
    Msg.appendPropList buf ps = .error .valueError := by
  induction ps generalizing buf with
  | nil => simp at h
  | cons p ps ih =>
    unfold Msg.appendPropList
    by_cases h1 : 0 ≤ p.code ∧ p.code < 256
    · rw [appendByte_ok h1]
      rw [ok_bind]
      by_cases h2 : p.data.length < 256
      · rw [appendByte_ok (by omega)]
        rw [ok_bind]
        apply ih
        intro hc
        apply h
        intro q hq
        rcases List.mem_cons.mp hq with rfl | hq
        · exact ⟨h1.1, h1.2, h2⟩
        · exact hc q hq
      · rw [appendByte_err (by omega), err_bind]
    · rw [appendByte_err h1, err_bind]

theorem appendPropertyBytes_ok (buf : Bytes) (ps : List PProp) (h : SectionOk ps) :
    Msg.appendPropertyBytes buf ps = .ok (buf ++ encSection ps) := by
  unfold Msg.appendPropertyBytes
  have := h.1
  rw [appendByte_ok (by omega)]
  rw [ok_bind]
  rw [appendPropList_ok _ _ h.2]
  simp [encSection]

theorem appendPropertyBytes_err (buf : Bytes) (ps : List PProp) (h : ¬ SectionOk ps) :
    Msg.appendPropertyBytes buf ps = .error .valueError := by
  unfold Msg.appendPropertyBytes
  by_cases h1 : ps.length < 256
  · rw [appendByte_ok (by omega)]
    rw [ok_bind]
    exact appendPropList_err _ _ (fun hc => h ⟨h1, hc⟩)
  · rw [appendByte_err (by omega), err_bind]

theorem toBytes_ok (m : Msg) (h : Encodable m) : m.toBytes = .ok (encode m) := by
  obtain ⟨he, hs⟩ := h
  unfold Msg.toBytes
  simp only []
  rw [appendByte_ok he]
  rw [ok_bind]
  by_cases hrw : TwoSections m.esv
  · rw [if_pos ((isReadWriteMessage_iff m).mpr hrw)]
    rw [if_pos hrw] at hs
    rw [appendPropertyBytes_ok _ _ hs.1]
    rw [ok_bind]
    rw [appendPropertyBytes_ok _ _ hs.2]
    simp [encode, encHeader, encBody, hrw, fromInt_eq_beDigits, Msg.EHD1_ECHONET, Msg.EHD2_FORMAT1]
  · have : ¬ m.isReadWriteMessage = true := fun hc => hrw ((isReadWriteMessage_iff m).mp hc)
    rw [if_neg this]
    rw [if_neg hrw] at hs
    rw [appendPropertyBytes_ok _ _ hs]
    simp [encode, encHeader, encBody, hrw, fromInt_eq_beDigits, Msg.EHD1_ECHONET, Msg.EHD2_FORMAT1]

theorem toBytes_err (m : Msg) (h : ¬ Encodable m) : m.toBytes = .error .valueError := by
  unfold Msg.toBytes
  simp only []
  by_cases he : 0 ≤ m.esv ∧ m.esv < 256
  · rw [appendByte_ok he]
    rw [ok_bind]
    by_cases hrw : TwoSections m.esv
    · rw [if_pos ((isReadWriteMessage_iff m).mpr hrw)]
      by_cases h1 : SectionOk m.setProps
      · rw [appendPropertyBytes_ok _ _ h1]
        rw [ok_bind]
        apply appendPropertyBytes_err
        intro h2
        exact h ⟨he, by rw [if_pos hrw]; exact ⟨h1, h2⟩⟩
      · rw [appendPropertyBytes_err _ _ h1, err_bind]
    · have : ¬ m.isReadWriteMessage = true := fun hc => hrw ((isReadWriteMessage_iff m).mp hc)
      rw [if_neg this]
      apply appendPropertyBytes_err
      intro h2
      exact h ⟨he, by rw [if_neg hrw]; exact h2⟩
  · rw [appendByte_err he, err_bind]

theorem toBytes_ok_iff (m : Msg) (b : Bytes) : m.toBytes = .ok b ↔ Encodable m ∧ b = encode m := by
  by_cases h : Encodable m
  · rw [toBytes_ok m h]
    constructor
    · intro h'; injection h' with h'; exact ⟨h, h'.symm⟩
    · rintro ⟨_, rfl⟩; rfl
  · rw [toBytes_err m h]
    constructor
    · intro h'; cases h'
    · rintro ⟨h', _⟩; exact absurd h' h

/-! ### Decoding -/

theorem getElem?_of_drop {bs : Bytes} {off : Nat} {x : UInt8} {r : Bytes} (h : bs.drop off = x :: r) :
    bs[off]? = some x ∧ bs.drop (off + 1) = r ∧ off < bs.length := by
  have hlt : off < bs.length := by
    by_contra hc
    rw [List.drop_eq_nil_of_le (by omega)] at h
    cases h
  rw [List.drop_eq_getElem_cons hlt] at h
  injection h with h1 h2
  exact ⟨by rw [List.getElem?_eq_getElem hlt, h1], h2, hlt⟩

theorem drop_cons_of_getElem? {bs : Bytes} {off : Nat} {x : UInt8} (h : bs[off]? = some x) :
    bs.drop off = x :: bs.drop (off + 1) := by
  obtain ⟨hlt, hx⟩ := List.getElem?_eq_some_iff.mp h
  rw [List.drop_eq_getElem_cons hlt, hx]

theorem encItems_cons (p : PProp) (ps : List PProp) : encItems (p :: ps) = encItem p ++ encItems ps := by
  simp [encItems]

theorem encItem_length (p : PProp) : (encItem p).length = 2 + p.data.length := by
  simp [encItem]; omega

/-- Completeness of the property loop. -/
theorem parsePropsLoop_enc (bs : Bytes) (ps : List PProp) (hok : ∀ p ∈ ps, PropOk p)
    (off : Nat) (acc : List PProp) (r : Bytes) (h : bs.drop off = encItems ps ++ r) :
    Msg.parsePropsLoop bs ps.length off acc = .ok (off + (encItems ps).length, acc ++ ps) := by
  induction ps generalizing off acc with
  | nil => simp [Msg.parsePropsLoop, encItems]
  | cons p ps ih =>
    have hp := hok p (by simp)
    obtain ⟨hc0, hc1, hd⟩ := hp
    rw [encItems_cons, List.append_assoc] at h
    have h' : bs.drop off = UInt8.ofNat p.code.toNat ::
        (UInt8.ofNat p.data.length :: (p.data ++ (encItems ps ++ r))) := by
      rw [h]; simp [encItem]
    obtain ⟨g1, d1, l1⟩ := getElem?_of_drop h'
    obtain ⟨g2, d2, l2⟩ := getElem?_of_drop d1
    have hpdc : (UInt8.ofNat p.data.length).toNat = p.data.length := by
      rw [UInt8.toNat_ofNat']; exact Nat.mod_eq_of_lt (by omega)
    have hcode : ((UInt8.ofNat p.code.toNat).toNat : Int) = p.code := by
      rw [UInt8.toNat_ofNat', Nat.mod_eq_of_lt (by omega)]; omega
    have hlen : bs.length = off + 2 + p.data.length + (encItems ps ++ r).length := by
      have := congrArg List.length d2
      simp only [List.length_drop, List.length_append] at this ⊢
      omega
    rw [List.length_cons]
    unfold Msg.parsePropsLoop
    rw [if_neg (by omega), g1]
    simp only [g2, hpdc]
    rw [if_neg (by omega)]
    have d3 : bs.drop (off + 2 + p.data.length) = encItems ps ++ r := by
      rw [← List.drop_drop, show off + 2 = off + 1 + 1 from rfl, d2]; simp
    rw [ih (fun q hq => hok q (by simp [hq])) _ _ d3]
    have hslice : pySlice bs (off + 2) (off + 2 + p.data.length) = p.data := by
      unfold pySlice
      rw [show off + 2 = off + 1 + 1 from rfl, d2]; simp
    rw [hslice, hcode, encItems_cons, List.length_append, encItem_length]
    simp only [Except.ok.injEq, Prod.mk.injEq]
    refine ⟨by omega, by simp⟩

theorem parseProps_enc (bs : Bytes) (ps : List PProp) (hok : SectionOk ps)
    (off : Nat) (r : Bytes) (h : bs.drop off = encSection ps ++ r) :
    Msg.parseProps bs off = .ok (off + (encSection ps).length, ps) := by
  unfold Msg.parseProps
  rw [encSection, List.cons_append] at h
  obtain ⟨g, d, _⟩ := getElem?_of_drop h
  have hl : (UInt8.ofNat ps.length).toNat = ps.length := by
    rw [UInt8.toNat_ofNat']; exact Nat.mod_eq_of_lt (by have := hok.1; omega)
  simp only [g, hl]
  rw [parsePropsLoop_enc bs ps hok.2 _ _ r d]
  simp [encSection]; omega

/-- Soundness of the property loop. -/
theorem parsePropsLoop_sound (bs : Bytes) (n off : Nat) (acc : List PProp) (off' : Nat)
    (acc' : List PProp) (h : Msg.parsePropsLoop bs n off acc = .ok (off', acc')) :
    ∃ ps, acc' = acc ++ ps ∧ ps.length = n ∧ (∀ p ∈ ps, PropOk p) ∧
      bs.drop off = encItems ps ++ bs.drop off' ∧ off' = off + (encItems ps).length := by
  induction n generalizing off acc with
  | zero =>
    simp only [Msg.parsePropsLoop, Except.ok.injEq, Prod.mk.injEq] at h
    obtain ⟨rfl, rfl⟩ := h
    exact ⟨[], by simp [encItems]⟩
  | succ n ih =>
    unfold Msg.parsePropsLoop at h
    split at h
    · cases h
    rename_i hlen
    split at h
    · cases h
    rename_i code hcode
    split at h
    · cases h
    rename_i pdc hpdc
    split at h
    · cases h
    rename_i hlen2
    obtain ⟨ps, h1, h2, h3, h4, h5⟩ := ih _ _ h
    have dc := drop_cons_of_getElem? hcode
    have dp := drop_cons_of_getElem? hpdc
    have hdl : (pySlice bs (off + 2) (off + 2 + pdc.toNat)).length = pdc.toNat := by
      unfold pySlice; simp; omega
    refine ⟨{ code := (code.toNat : Int), data := pySlice bs (off + 2) (off + 2 + pdc.toNat) } :: ps,
      ?_, ?_, ?_, ?_, ?_⟩
    · rw [h1]; simp
    · simp [h2]
    · intro p hp
      rcases List.mem_cons.mp hp with rfl | hp
      · have := code.toNat_lt
        have := pdc.toNat_lt
        refine ⟨?_, ?_, ?_⟩ <;> simp only [hdl] <;> omega
      · exact h3 p hp
    · rw [dc, dp, encItems_cons, List.append_assoc, ← h4]
      simp only [encItem, hdl, Int.toNat_natCast, UInt8.ofNat_toNat, List.cons_append]
      congr 2
      unfold pySlice
      rw [show off + 2 + pdc.toNat - (off + 2) = pdc.toNat by omega]
      have := (List.take_append_drop pdc.toNat (bs.drop (off + 2))).symm
      rw [List.drop_drop] at this
      exact this
    · rw [h5, encItems_cons, List.length_append, encItem_length, hdl]; omega

theorem parseProps_sound (bs : Bytes) (off off' : Nat) (ps : List PProp)
    (h : Msg.parseProps bs off = .ok (off', ps)) :
    SectionOk ps ∧ bs.drop off = encSection ps ++ bs.drop off' ∧
      off' = off + (encSection ps).length := by
  unfold Msg.parseProps at h
  split at h
  · cases h
  rename_i opc hopc
  obtain ⟨qs, h1, h2, h3, h4, h5⟩ := parsePropsLoop_sound _ _ _ _ _ _ h
  simp only [List.nil_append] at h1
  subst h1
  have := opc.toNat_lt
  refine ⟨⟨by omega, h3⟩, ?_, ?_⟩
  · rw [drop_cons_of_getElem? hopc, h4, encSection, h2]; simp
  · rw [h5, encSection, List.length_cons]; omega

theorem parsePropsLoop_err (bs : Bytes) (n off : Nat) (acc : List PProp) (e : Exc)
    (h : Msg.parsePropsLoop bs n off acc = .error e) : e = .parserError ∨ e = .indexError := by
  induction n generalizing off acc with
  | zero => simp [Msg.parsePropsLoop] at h
  | succ n ih =>
    unfold Msg.parsePropsLoop at h
    split at h
    · cases h; simp
    split at h
    · cases h; simp
    split at h
    · cases h; simp
    split at h
    · cases h; simp
    exact ih _ _ h

theorem parseProps_err (bs : Bytes) (off : Nat) (e : Exc)
    (h : Msg.parseProps bs off = .error e) : e = .parserError ∨ e = .indexError := by
  unfold Msg.parseProps at h
  split at h
  · cases h; simp
  · exact parsePropsLoop_err _ _ _ _ _ h

/-! ### The whole message -/

/-- The message object after the header has been parsed from eleven leading bytes. -/
def Msg.withHeader (m : Msg) (b2 b3 b4 b5 b6 b7 b8 b9 b10 : UInt8) : Msg :=
  { m with tid := toInt [b2, b3], seoj := toInt [b4, b5, b6], deoj := toInt [b7, b8, b9],
           esv := (b10.toNat : Int) }

theorem parseBytes_cons (m : Msg) (b2 b3 b4 b5 b6 b7 b8 b9 b10 : UInt8) (r : Bytes) :
    m.parseBytes (0x10 :: 0x81 :: b2 :: b3 :: b4 :: b5 :: b6 :: b7 :: b8 :: b9 :: b10 :: r) =
      (let bs := 0x10 :: 0x81 :: b2 :: b3 :: b4 :: b5 :: b6 :: b7 :: b8 :: b9 :: b10 :: r
       let m := m.withHeader b2 b3 b4 b5 b6 b7 b8 b9 b10
       if TwoSections m.esv then
          match Msg.parseProps bs 11 with
          | .error x => (m, .error x)
          | .ok (off, ps) =>
            match Msg.parseProps bs off with
            | .error x => ({ m with setProps := ps }, .error x)
            | .ok (_, qs) => ({ m with setProps := ps, getProps := qs }, .ok true)
        else
          match Msg.parseProps bs 11 with
          | .error x => (m, .error x)
          | .ok (_, ps) => ({ m with props := ps }, .ok true)) := by
  have hcond : ∀ m : Msg, (m.isReadWriteMessage = true) = TwoSections m.esv :=
    fun m => propext (isReadWriteMessage_iff m)
  unfold Msg.parseBytes
  simp only [List.length_cons, Msg.FORMAT1_HEADER_SIZE, Msg.EHD1_ECHONET, Msg.EHD2_FORMAT1, hcond]
  rw [if_neg (by omega)]
  rfl

theorem length_three {l : Bytes} (h : l.length = 3) : ∃ a b c, l = [a, b, c] := by
  match l, h with
  | [a, b, c], _ => exact ⟨a, b, c, rfl⟩

theorem length_two {l : Bytes} (h : l.length = 2) : ∃ a b, l = [a, b] := by
  match l, h with
  | [a, b], _ => exact ⟨a, b, rfl⟩

theorem beDigits_length (v : Int) (n : Nat) : (beDigits v n).length = n := by simp [beDigits]

theorem toInt_beDigits (v : Int) (n : Nat) : toInt (beDigits v n) = v % (256 ^ n : Nat) := by
  rw [← fromInt_eq_beDigits, toInt_fromInt]

theorem beDigits_toInt (l : Bytes) : beDigits (toInt l) l.length = l := by
  rw [← fromInt_eq_beDigits, fromInt_toInt]

/-- What an existing message object becomes when it parses the encoding of `m`. -/
def Msg.absorb (m0 m : Msg) : Msg :=
  { m0 with
    tid := m.tid % 2 ^ 16, seoj := m.seoj % 2 ^ 24, deoj := m.deoj % 2 ^ 24, esv := m.esv
    props := if TwoSections m.esv then m0.props else m.props
    setProps := if TwoSections m.esv then m.setProps else m0.setProps
    getProps := if TwoSections m.esv then m.getProps else m0.getProps }

theorem toNat_ofNat_lt {v : Int} (h : 0 ≤ v ∧ v < 256) : ((UInt8.ofNat v.toNat).toNat : Int) = v := by
  rw [UInt8.toNat_ofNat', Nat.mod_eq_of_lt (by omega)]; omega

theorem parseBytes_encode (m0 m : Msg) (r : Bytes) (h : Encodable m) :
    m0.parseBytes (encode m ++ r) = (m0.absorb m, .ok true) := by
  obtain ⟨he, hs⟩ := h
  obtain ⟨b2, b3, h23⟩ := length_two (beDigits_length m.tid 2)
  obtain ⟨b4, b5, b6, h46⟩ := length_three (beDigits_length m.seoj 3)
  obtain ⟨b7, b8, b9, h79⟩ := length_three (beDigits_length m.deoj 3)
  have hbs : encode m ++ r = 0x10 :: 0x81 :: b2 :: b3 :: b4 :: b5 :: b6 :: b7 :: b8 :: b9 ::
      UInt8.ofNat m.esv.toNat :: (encBody m ++ r) := by
    simp [encode, encHeader, h23, h46, h79]
  have htid : toInt [b2, b3] = m.tid % 2 ^ 16 := by rw [← h23, toInt_beDigits]; rfl
  have hseoj : toInt [b4, b5, b6] = m.seoj % 2 ^ 24 := by rw [← h46, toInt_beDigits]; rfl
  have hdeoj : toInt [b7, b8, b9] = m.deoj % 2 ^ 24 := by rw [← h79, toInt_beDigits]; rfl
  rw [hbs, parseBytes_cons]
  simp only [Msg.withHeader, toNat_ofNat_lt he, htid, hseoj, hdeoj]
  by_cases hrw : TwoSections m.esv
  · rw [if_pos hrw] at hs
    simp only [if_pos hrw, encBody, List.append_assoc]
    rw [parseProps_enc _ m.setProps hs.1 11 (encSection m.getProps ++ r) rfl]
    simp only []
    rw [parseProps_enc _ m.getProps hs.2 _ r (by
      rw [← List.drop_drop]; simp)]
    simp [Msg.absorb, hrw]
  · rw [if_neg hrw] at hs
    simp only [if_neg hrw, encBody]
    rw [parseProps_enc _ m.props hs 11 r rfl]
    simp [Msg.absorb, hrw]

theorem eleven {bs : Bytes} (h : 11 ≤ bs.length) :
    ∃ b0 b1 b2 b3 b4 b5 b6 b7 b8 b9 b10 r,
      bs = b0 :: b1 :: b2 :: b3 :: b4 :: b5 :: b6 :: b7 :: b8 :: b9 :: b10 :: r := by
  match bs, h with
  | b0 :: b1 :: b2 :: b3 :: b4 :: b5 :: b6 :: b7 :: b8 :: b9 :: b10 :: r, _ =>
    exact ⟨b0, b1, b2, b3, b4, b5, b6, b7, b8, b9, b10, r, rfl⟩

/-- A header mismatch is a ParserError and leaves the object alone. -/
theorem parseBytes_bad_header (m : Msg) (bs : Bytes)
    (h : bs.length < 8 ∨ bs[0]? ≠ some 0x10 ∨ bs[1]? ≠ some 0x81) :
    m.parseBytes bs = (m, .error .parserError) := by
  unfold Msg.parseBytes
  by_cases hl : bs.length < Msg.FORMAT1_HEADER_SIZE
  · rw [if_pos hl]
  · rw [if_neg hl]
    have hl' : ¬ bs.length < 8 := hl
    match bs, hl' with
    | b0 :: b1 :: r, hl' =>
      simp only [List.getElem?_cons_zero, List.getElem?_cons_succ, Msg.EHD1_ECHONET,
        Msg.EHD2_FORMAT1] at h ⊢
      by_cases h0 : b0 = 0x10
      · by_cases h1 : b1 = 0x81
        · subst h0; subst h1
          simp at h
          simp at hl'
          omega
        · simp [h0, h1]
      · simp [h0]
    | [b0], hl' => simp at hl'
    | [], hl' => simp at hl'

/-- Between 8 and 10 bytes with a good header: IndexError when reading the ESV. -/
theorem parseBytes_short (m : Msg) (bs : Bytes) (hl : 8 ≤ bs.length ∧ bs.length ≤ 10)
    (h0 : bs[0]? = some 0x10) (h1 : bs[1]? = some 0x81) :
    (m.parseBytes bs).2 = .error .indexError := by
  unfold Msg.parseBytes
  rw [if_neg (by show ¬ _ < 8; omega)]
  simp only [h0, h1, Msg.EHD1_ECHONET, Msg.EHD2_FORMAT1]
  rw [List.getElem?_eq_none (by omega : bs.length ≤ 10)]
  simp

theorem parseBytes_sound (m0 : Msg) (bs : Bytes) (b : Bool) (h : (m0.parseBytes bs).2 = .ok b) :
    b = true ∧ ∃ m r, Encodable m ∧ m = onWire m ∧ bs = encode m ++ r ∧
      (m0.parseBytes bs).1 = m0.absorb m := by
  by_cases hbad : bs.length < 8 ∨ bs[0]? ≠ some 0x10 ∨ bs[1]? ≠ some 0x81
  · rw [parseBytes_bad_header m0 bs hbad] at h; cases h
  · have hl : 8 ≤ bs.length := by by_contra hc; exact hbad (Or.inl (by omega))
    have h0 : bs[0]? = some 0x10 := by by_contra hc; exact hbad (Or.inr (Or.inl hc))
    have h1 : bs[1]? = some 0x81 := by by_contra hc; exact hbad (Or.inr (Or.inr hc))
    by_cases hl2 : bs.length ≤ 10
    · rw [parseBytes_short m0 bs ⟨hl, hl2⟩ h0 h1] at h; cases h
    · obtain ⟨b0, b1, b2, b3, b4, b5, b6, b7, b8, b9, b10, r, rfl⟩ := eleven (by omega : 11 ≤ bs.length)
      simp only [List.getElem?_cons_zero, List.getElem?_cons_succ, Option.some.injEq] at h0 h1
      subst h0; subst h1
      rw [parseBytes_cons] at h ⊢
      have hb10 := b10.toNat_lt
      have ht := toInt_lt [b2, b3]
      have ht' := toInt_nonneg [b2, b3]
      have hse := toInt_lt [b4, b5, b6]
      have hse' := toInt_nonneg [b4, b5, b6]
      have hd := toInt_lt [b7, b8, b9]
      have hd' := toInt_nonneg [b7, b8, b9]
      simp only [List.length_cons, List.length_nil] at ht hse hd
      norm_num at ht hse hd
      have e1 : toInt [b2, b3] % 2 ^ 16 = toInt [b2, b3] := Int.emod_eq_of_lt ht' (by omega)
      have e2 : toInt [b4, b5, b6] % 2 ^ 24 = toInt [b4, b5, b6] := Int.emod_eq_of_lt hse' (by omega)
      have e3 : toInt [b7, b8, b9] % 2 ^ 24 = toInt [b7, b8, b9] := Int.emod_eq_of_lt hd' (by omega)
      have d1 : beDigits (toInt [b2, b3]) 2 = [b2, b3] := beDigits_toInt [b2, b3]
      have d2 : beDigits (toInt [b4, b5, b6]) 3 = [b4, b5, b6] := beDigits_toInt [b4, b5, b6]
      have d3 : beDigits (toInt [b7, b8, b9]) 3 = [b7, b8, b9] := beDigits_toInt [b7, b8, b9]
      by_cases hrw : TwoSections ((b10.toNat : Nat) : Int)
      · simp only [Msg.withHeader, hrw, if_true] at h ⊢
        split at h
        · cases h
        rename_i off ps hps
        split at h
        · cases h
        rename_i off2 qs hqs
        obtain ⟨s1, s2, s3⟩ := parseProps_sound _ _ _ _ hps
        obtain ⟨t1, t2, t3⟩ := parseProps_sound _ _ _ _ hqs
        injection h with h
        refine ⟨h.symm, { Msg.withHeader {} b2 b3 b4 b5 b6 b7 b8 b9 b10 with setProps := ps, getProps := qs },
          List.drop off2 (0x10 :: 0x81 :: b2 :: b3 :: b4 :: b5 :: b6 :: b7 :: b8 :: b9 :: b10 :: r), ?_, ?_, ?_, ?_⟩
        · refine ⟨⟨by simp [Msg.withHeader], by show (b10.toNat : Int) < 256; omega⟩, ?_⟩
          exact Eq.mpr (if_pos hrw) ⟨s1, t1⟩
        · simp only [onWire, Msg.withHeader, hrw, if_true, e1, e2, e3]
        · simp only [encode, encHeader, encBody, Msg.withHeader, hrw, if_true, d1, d2, d3]
          rw [t2] at s2
          simp only [List.drop_succ_cons, List.drop_zero] at s2
          simp only [List.cons_append, List.nil_append, List.append_assoc, Int.toNat_natCast, UInt8.ofNat_toNat, ← s2]
        · simp only [Msg.absorb, Msg.withHeader, hrw, if_true, e1, e2, e3]
      · simp only [Msg.withHeader, hrw, if_false] at h ⊢
        split at h
        · cases h
        rename_i off ps hps
        obtain ⟨s1, s2, s3⟩ := parseProps_sound _ _ _ _ hps
        injection h with h
        refine ⟨h.symm, { Msg.withHeader {} b2 b3 b4 b5 b6 b7 b8 b9 b10 with props := ps },
          List.drop off (0x10 :: 0x81 :: b2 :: b3 :: b4 :: b5 :: b6 :: b7 :: b8 :: b9 :: b10 :: r), ?_, ?_, ?_, ?_⟩
        · refine ⟨⟨by simp [Msg.withHeader], by show (b10.toNat : Int) < 256; omega⟩, ?_⟩
          exact Eq.mpr (if_neg hrw) s1
        · simp only [onWire, Msg.withHeader, hrw, if_false, e1, e2, e3]
        · simp only [encode, encHeader, encBody, Msg.withHeader, hrw, if_false, d1, d2, d3]
          simp only [List.drop_succ_cons, List.drop_zero] at s2
          simp only [List.cons_append, List.nil_append, List.append_assoc, Int.toNat_natCast, UInt8.ofNat_toNat, ← s2]
        · simp only [Msg.absorb, Msg.withHeader, hrw, if_false, e1, e2, e3]

theorem absorb_fresh (m : Msg) : Msg.absorb {} m = onWire m := by
  simp [Msg.absorb, onWire]

/-! ### Where `IndexError` comes from -/

theorem ofNat_inj_lt {a b : Nat} (hb : b < 256) {x : UInt8} (h : x = UInt8.ofNat b) (e : x.toNat = a) :
    a = b := by
  subst h; rw [UInt8.toNat_ofNat', Nat.mod_eq_of_lt hb] at e; exact e.symm

theorem parsePropsLoop_index (bs : Bytes) (n off : Nat) (acc : List PProp) :
    Msg.parsePropsLoop bs n off acc = .error .indexError ↔
      ∃ ps c, bs.drop off = encItems ps ++ [c] ∧ (∀ p ∈ ps, PropOk p) ∧ ps.length < n := by
  induction n generalizing off acc with
  | zero => simp [Msg.parsePropsLoop]
  | succ n ih =>
    unfold Msg.parsePropsLoop
    by_cases hlen : bs.length < off + 1
    · rw [if_pos hlen]
      have : bs.drop off = [] := List.drop_eq_nil_of_le (by omega)
      simp [this]
    · rw [if_neg hlen]
      have hget : bs[off]? = some bs[off] := List.getElem?_eq_getElem (by omega)
      rw [hget]
      have dc := drop_cons_of_getElem? hget
      simp only []
      cases hp : bs[off + 1]? with
      | none =>
        simp only [true_iff]
        refine ⟨[], bs[off], ?_, by simp, by simp⟩
        rw [dc, List.drop_eq_nil_of_le (List.getElem?_eq_none_iff.mp hp)]; simp [encItems]
      | some pdc =>
        have dp := drop_cons_of_getElem? hp
        simp only []
        have hpl := (List.getElem?_eq_some_iff.mp hp).1
        have split : ∀ (p : PProp) (ps : List PProp) (c : UInt8), PropOk p →
            bs.drop off = encItems (p :: ps) ++ [c] →
            p.data.length = pdc.toNat ∧ bs.drop (off + 2) = p.data ++ (encItems ps ++ [c]) ∧
              bs[off] = UInt8.ofNat p.code.toNat := by
          intro p ps c hok h
          rw [dc, dp, encItems_cons] at h
          simp only [encItem, List.cons_append, List.append_assoc, List.cons.injEq] at h
          exact ⟨(ofNat_inj_lt hok.2.2 h.2.1 rfl).symm, h.2.2, h.1⟩
        by_cases hlen2 : bs.length < off + 2 + pdc.toNat
        · rw [if_pos hlen2]
          simp only [Except.error.injEq, reduceCtorEq, false_iff]
          rintro ⟨ps, c, h, hok, -⟩
          cases ps with
          | nil => rw [dc, dp] at h; simp [encItems] at h
          | cons p ps =>
            obtain ⟨h1, h2, -⟩ := split p ps c (hok p (by simp)) h
            have := congrArg List.length h2
            simp only [List.length_drop, List.length_append, List.length_cons] at this
            omega
        · rw [if_neg hlen2, ih]
          constructor
          · rintro ⟨ps, c, h, hok, hl⟩
            refine ⟨{ code := (bs[off].toNat : Int), data := pySlice bs (off + 2) (off + 2 + pdc.toNat) } :: ps,
              c, ?_, ?_, by simpa using hl⟩
            · have hdl : (pySlice bs (off + 2) (off + 2 + pdc.toNat)).length = pdc.toNat := by
                unfold pySlice; simp; omega
              rw [dc, dp, encItems_cons, List.append_assoc, ← h]
              simp only [encItem, hdl, Int.toNat_natCast, UInt8.ofNat_toNat, List.cons_append]
              congr 2
              unfold pySlice
              rw [show off + 2 + pdc.toNat - (off + 2) = pdc.toNat by omega]
              have := (List.take_append_drop pdc.toNat (bs.drop (off + 2))).symm
              rw [List.drop_drop] at this
              exact this
            · intro p hp
              rcases List.mem_cons.mp hp with rfl | hp
              · have := bs[off].toNat_lt
                have := pdc.toNat_lt
                refine ⟨by simp, by show ((bs[off].toNat : Nat) : Int) < 256; omega, ?_⟩
                show (pySlice _ _ _).length < 256
                unfold pySlice; simp; omega
              · exact hok p hp
          · rintro ⟨ps, c, h, hok, hl⟩
            cases ps with
            | nil => rw [dc, dp] at h; simp [encItems] at h
            | cons p ps =>
              obtain ⟨h1, h2, -⟩ := split p ps c (hok p (by simp)) h
              refine ⟨ps, c, ?_, fun q hq => hok q (by simp [hq]), by simpa using hl⟩
              rw [← List.drop_drop, h2, ← h1, List.drop_left']
              rfl

theorem parseProps_index (bs : Bytes) (off : Nat) :
    Msg.parseProps bs off = .error .indexError ↔ SectionCut (bs.drop off) := by
  unfold Msg.parseProps SectionCut
  cases h : bs[off]? with
  | none =>
    have := List.drop_eq_nil_of_le (List.getElem?_eq_none_iff.mp h)
    simp [this]
  | some opc =>
    rw [drop_cons_of_getElem? h]
    simp only [parsePropsLoop_index, List.cons.injEq, reduceCtorEq, false_or]
    constructor
    · rintro ⟨ps, c, h1, h2, h3⟩; exact ⟨opc, ps, c, ⟨rfl, h1⟩, h2, h3⟩
    · rintro ⟨_, ps, c, ⟨rfl, h1⟩, h2, h3⟩; exact ⟨ps, c, h1, h2, h3⟩

/-- `IndexError` occurs exactly for the datagrams ending right before a field. -/
theorem parseBytes_index (m : Msg) (bs : Bytes) :
    (m.parseBytes bs).2 = .error .indexError ↔ EndsBeforeField bs := by
  by_cases hbad : bs.length < 8 ∨ bs[0]? ≠ some 0x10 ∨ bs[1]? ≠ some 0x81
  · rw [parseBytes_bad_header m bs hbad]
    simp only [Except.error.injEq, reduceCtorEq, false_iff]
    rintro ⟨t, rfl, h⟩
    have hl : 6 ≤ t.length := by
      rcases h with h | ⟨h, esv, r, h8, rfl, -⟩
      · exact h.1
      · simp; omega
    simp at hbad; omega
  · push Not at hbad
    obtain ⟨hl, h0, h1⟩ := hbad
    by_cases hl2 : bs.length ≤ 10
    · rw [parseBytes_short m bs ⟨hl, hl2⟩ h0 h1]
      simp only [true_iff]
      obtain ⟨b0, b1, t, rfl⟩ : ∃ b0 b1 t, bs = b0 :: b1 :: t := by
        match bs, hl with
        | b0 :: b1 :: t, _ => exact ⟨b0, b1, t, rfl⟩
      simp only [List.getElem?_cons_zero, List.getElem?_cons_succ, Option.some.injEq] at h0 h1
      subst h0; subst h1
      simp only [List.length_cons] at hl hl2
      exact ⟨t, rfl, Or.inl (by omega)⟩
    · obtain ⟨b0, b1, b2, b3, b4, b5, b6, b7, b8, b9, b10, r, rfl⟩ := eleven (by omega : 11 ≤ bs.length)
      simp only [List.getElem?_cons_zero, List.getElem?_cons_succ, Option.some.injEq] at h0 h1
      subst h0; subst h1
      have rhs : EndsBeforeField (0x10 :: 0x81 :: b2 :: b3 :: b4 :: b5 :: b6 :: b7 :: b8 :: b9 :: b10 :: r) ↔
          (SectionCut r ∨ (TwoSections (b10.toNat : Int) ∧ ∃ ps r', SectionOk ps ∧
            r = encSection ps ++ r' ∧ SectionCut r')) := by
        constructor
        · rintro ⟨t, h, h'⟩
          simp only [List.cons.injEq, true_and] at h
          subst h
          rcases h' with h' | ⟨h, esv, r', h8, he, h'⟩
          · simp only [List.length_cons] at h'; omega
          · match h, h8 with
            | [c2, c3, c4, c5, c6, c7, c8, c9], _ =>
              simp only [List.cons_append, List.nil_append, List.cons.injEq] at he
              obtain ⟨-, -, -, -, -, -, -, -, rfl, rfl⟩ := he
              exact h'
        · intro h
          exact ⟨_, rfl, Or.inr ⟨[b2, b3, b4, b5, b6, b7, b8, b9], b10, r, rfl, rfl, h⟩⟩
      rw [rhs, parseBytes_cons]
      have hi := parseProps_index (0x10 :: 0x81 :: b2 :: b3 :: b4 :: b5 :: b6 :: b7 :: b8 :: b9 :: b10 :: r) 11
      rw [show List.drop 11 (0x10 :: 0x81 :: b2 :: b3 :: b4 :: b5 :: b6 :: b7 :: b8 :: b9 :: b10 :: r) = r
        from rfl] at hi
      have huniq : ∀ ps off, Msg.parseProps (0x10 :: 0x81 :: b2 :: b3 :: b4 :: b5 :: b6 :: b7 :: b8 :: b9 ::
          b10 :: r) 11 = .ok (off, ps) → ¬ SectionCut r := by
        intro ps off h hc; rw [hi.mpr hc] at h; cases h
      by_cases hrw : TwoSections (b10.toNat : Int)
      · simp only [Msg.withHeader, hrw, if_true, true_and]
        split
        · rename_i x hx
          simp only []
          constructor
          · intro h; injection h with h; subst h; exact Or.inl (hi.mp hx)
          · rintro (h | ⟨ps, r', hok, rfl, -⟩)
            · rw [hi.mpr h] at hx; injection hx with hx; rw [hx]
            · rw [parseProps_enc _ ps hok 11 r' rfl] at hx; cases hx
        · rename_i off ps hx
          obtain ⟨s1, s2, s3⟩ := parseProps_sound _ _ _ _ hx
          have hi2 := parseProps_index (0x10 :: 0x81 :: b2 :: b3 :: b4 :: b5 :: b6 :: b7 :: b8 :: b9 :: b10 :: r) off
          have : (∃ ps r', SectionOk ps ∧ r = encSection ps ++ r' ∧ SectionCut r') ↔
              SectionCut (List.drop off (0x10 :: 0x81 :: b2 :: b3 :: b4 :: b5 :: b6 :: b7 :: b8 :: b9 :: b10 :: r)) := by
            constructor
            · rintro ⟨ps', r', hok, rfl, hc⟩
              rw [parseProps_enc _ ps' hok 11 r' rfl] at hx
              simp only [Except.ok.injEq, Prod.mk.injEq] at hx
              rw [← hx.1, ← List.drop_drop]
              simpa using hc
            · intro h; exact ⟨ps, _, s1, s2, h⟩
          rw [this, ← hi2]
          have hn := huniq ps off hx
          simp only [hn, false_or]
          cases hq : Msg.parseProps (0x10 :: 0x81 :: b2 :: b3 :: b4 :: b5 :: b6 :: b7 :: b8 :: b9 :: b10 :: r) off with
          | error x => simp
          | ok q => obtain ⟨o, q⟩ := q; simp
      · simp only [Msg.withHeader, hrw, if_false, false_and, or_false]
        rw [← hi]
        cases hq : Msg.parseProps (0x10 :: 0x81 :: b2 :: b3 :: b4 :: b5 :: b6 :: b7 :: b8 :: b9 :: b10 :: r) 11 with
        | error x => simp
        | ok q => obtain ⟨o, q⟩ := q; simp

theorem parseBytes_err (m : Msg) (bs : Bytes) (e : Exc) (h : (m.parseBytes bs).2 = .error e) :
    e = .parserError ∨ e = .indexError := by
  by_cases hbad : bs.length < 8 ∨ bs[0]? ≠ some 0x10 ∨ bs[1]? ≠ some 0x81
  · rw [parseBytes_bad_header m bs hbad] at h; injection h with h; exact Or.inl h.symm
  · push Not at hbad
    obtain ⟨hl, h0, h1⟩ := hbad
    by_cases hl2 : bs.length ≤ 10
    · rw [parseBytes_short m bs ⟨hl, hl2⟩ h0 h1] at h; injection h with h; exact Or.inr h.symm
    · obtain ⟨b0, b1, b2, b3, b4, b5, b6, b7, b8, b9, b10, r, rfl⟩ := eleven (by omega : 11 ≤ bs.length)
      simp only [List.getElem?_cons_zero, List.getElem?_cons_succ, Option.some.injEq] at h0 h1
      subst h0; subst h1
      rw [parseBytes_cons] at h
      simp only [] at h
      split at h
      · split at h
        · rename_i hx; injection h with h; subst h; exact parseProps_err _ _ _ hx
        · split at h
          · rename_i hx; injection h with h; subst h; exact parseProps_err _ _ _ hx
          · cases h
      · split at h
        · rename_i hx; injection h with h; subst h; exact parseProps_err _ _ _ hx
        · cases h

theorem beDigits_mod (v : Int) (n : Nat) : beDigits (v % (256 ^ n : Nat)) n = beDigits v n := by
  have h1 := toInt_beDigits v n
  have h2 := beDigits_toInt (beDigits v n)
  rw [beDigits_length, h1] at h2
  exact h2

theorem encode_onWire (m : Msg) : encode (onWire m) = encode m := by
  have e1 : beDigits (m.tid % 2 ^ 16) 2 = beDigits m.tid 2 := beDigits_mod m.tid 2
  have e2 : beDigits (m.seoj % 2 ^ 24) 3 = beDigits m.seoj 3 := beDigits_mod m.seoj 3
  have e3 : beDigits (m.deoj % 2 ^ 24) 3 = beDigits m.deoj 3 := beDigits_mod m.deoj 3
  unfold encode encHeader encBody onWire
  simp only [e1, e2, e3]
  by_cases h : TwoSections m.esv <;> simp [h]

theorem encodable_onWire (m : Msg) (h : Encodable m) : Encodable (onWire m) := by
  refine ⟨h.1, ?_⟩
  have h2 := h.2
  show (if TwoSections m.esv then _ else _)
  by_cases hrw : TwoSections m.esv
  · rw [if_pos hrw] at h2 ⊢
    simpa [onWire, hrw] using h2
  · rw [if_neg hrw] at h2 ⊢
    simpa [onWire, hrw] using h2

theorem encode_eq_iff (a b : Msg) (ha : Encodable a) (hb : Encodable b) :
    encode a = encode b ↔ onWire a = onWire b := by
  constructor
  · intro h
    have e1 := parseBytes_encode {} a [] ha
    have e2 := parseBytes_encode {} b [] hb
    rw [h, e2, absorb_fresh, absorb_fresh] at e1
    exact (congrArg Prod.fst e1).symm
  · intro h
    rw [← encode_onWire a, h, encode_onWire]

end Uecho
