/- Lemmas on devices as machines from datagrams to datagrams. -/
import Verif.Spec.Device
import Verif.Lemmas.Running
import Verif.Props.Node

namespace Uecho
open Spec

/-! ### The decoder -/

theorem readItems_enc (ps : List PProp) (h : ∀ p ∈ ps, PropOk p) (r : Bytes) : readItems ps.length (encItems ps ++ r) = some (ps, r) := by
  induction ps with
  | nil => rfl
  | cons p ps ih =>
    obtain ⟨h1, h2, h3⟩ := h p List.mem_cons_self
    have hl : (UInt8.ofNat p.data.length).toNat = p.data.length := by rw [UInt8.toNat_ofNat', Nat.mod_eq_of_lt h3]
    rw [encItems_cons, List.append_assoc, encItem, List.cons_append, List.cons_append, List.length_cons, readItems, hl, if_pos (by simp), List.drop_left, List.take_left,
      ih (fun q hq => h q (List.mem_cons_of_mem _ hq))]
    simp only [Option.map_some, Option.some.injEq, Prod.mk.injEq, List.cons.injEq, and_true]
    rw [toNat_ofNat_lt ⟨h1, h2⟩]

theorem readItems_sound (n : Nat) : ∀ (bs : Bytes) (ps : List PProp) (r : Bytes), readItems n bs = some (ps, r) →
    ps.length = n ∧ (∀ p ∈ ps, PropOk p) ∧ bs = encItems ps ++ r := by
  induction n with
  | zero =>
    intro bs ps r h
    simp only [readItems, Option.some.injEq, Prod.mk.injEq] at h
    obtain ⟨rfl, rfl⟩ := h
    exact ⟨rfl, by simp, rfl⟩
  | succ n ih =>
    intro bs ps r h
    match bs, h with
    | [], h => cases h
    | [_], h => cases h
    | epc :: pdc :: t, h =>
      rw [readItems] at h
      split at h
      · rename_i hl
        obtain ⟨⟨qs, u⟩, hq, e⟩ := Option.map_eq_some_iff.mp h
        simp only [Prod.mk.injEq] at e
        obtain ⟨rfl, rfl⟩ := e
        obtain ⟨h1, h2, h3⟩ := ih _ _ _ hq
        have hlen : (t.take pdc.toNat).length = pdc.toNat := by rw [List.length_take]; omega
        have hlt := pdc.toNat_lt
        have hlt' := epc.toNat_lt
        refine ⟨by simp [h1], ?_, ?_⟩
        · intro p hp
          rcases List.mem_cons.mp hp with rfl | hp
          · refine ⟨by simp, ?_, ?_⟩
            · simp only []; omega
            · simp only []; omega
          · exact h2 p hp
        · rw [encItems_cons, encItem, List.append_assoc, ← h3]
          simp only [List.cons_append, List.cons.injEq, List.append_assoc]
          refine ⟨by simp, by rw [hlen]; simp, by rw [List.take_append_drop]⟩
      · cases h

theorem readSection_enc (ps : List PProp) (h : SectionOk ps) (r : Bytes) : readSection (encSection ps ++ r) = some (ps, r) := by
  have hl : (UInt8.ofNat ps.length).toNat = ps.length := by rw [UInt8.toNat_ofNat', Nat.mod_eq_of_lt h.1]
  rw [encSection, List.cons_append, readSection, hl]
  exact readItems_enc ps h.2 r

theorem readSection_sound (bs : Bytes) (ps : List PProp) (r : Bytes) (h : readSection bs = some (ps, r)) : SectionOk ps ∧ bs = encSection ps ++ r := by
  match bs, h with
  | [], h => cases h
  | opc :: t, h =>
    obtain ⟨h1, h2, h3⟩ := readItems_sound _ _ _ _ h
    have := opc.toNat_lt
    refine ⟨⟨by omega, h2⟩, ?_⟩
    rw [encSection, List.cons_append, ← h3, h1]
    simp

theorem readMsg_enc (w : Msg) (h : Encodable w) (t : Bytes) : readMsg (encode w ++ t) = some (onWire w) := by
  obtain ⟨he, hs⟩ := h
  obtain ⟨b2, b3, h23⟩ := length_two (beDigits_length w.tid 2)
  obtain ⟨b4, b5, b6, h46⟩ := length_three (beDigits_length w.seoj 3)
  obtain ⟨b7, b8, b9, h79⟩ := length_three (beDigits_length w.deoj 3)
  have hbs : encode w ++ t = 0x10 :: 0x81 :: b2 :: b3 :: b4 :: b5 :: b6 :: b7 :: b8 :: b9 :: UInt8.ofNat w.esv.toNat :: (encBody w ++ t) := by
    simp [encode, encHeader, h23, h46, h79]
  have htid : (beValue [b2, b3] : Int) = w.tid % 2 ^ 16 := by rw [← toInt_eq_beValue, ← h23, toInt_beDigits]; rfl
  have hseoj : (beValue [b4, b5, b6] : Int) = w.seoj % 2 ^ 24 := by rw [← toInt_eq_beValue, ← h46, toInt_beDigits]; rfl
  have hdeoj : (beValue [b7, b8, b9] : Int) = w.deoj % 2 ^ 24 := by rw [← toInt_eq_beValue, ← h79, toInt_beDigits]; rfl
  rw [hbs, readMsg]
  simp only [htid, hseoj, hdeoj, toNat_ofNat_lt he]
  unfold encBody onWire
  by_cases h2 : TwoSections w.esv
  · rw [if_pos h2] at hs ⊢
    simp only [if_pos h2, List.append_assoc]
    rw [readSection_enc _ hs.1]
    simp only []
    rw [readSection_enc _ hs.2]
    rfl
  · rw [if_neg h2] at hs ⊢
    simp only [if_neg h2]
    rw [readSection_enc _ hs]
    rfl

theorem readMsg_sound (bs : Bytes) (m : Msg) (h : readMsg bs = some m) : Encodable m ∧ m = onWire m ∧ ∃ t, bs = encode m ++ t := by
  unfold readMsg at h
  split at h
  swap
  · cases h
  rename_i t1 t2 s1 s2 s3 d1 d2 d3 e r
  have v2 : ∀ a b : UInt8, (beValue [a, b] : Int) % 2 ^ 16 = beValue [a, b] ∧ beDigits (beValue [a, b] : Int) 2 = [a, b] := by
    intro a b
    have h1 := beValue_lt [a, b]
    refine ⟨Int.emod_eq_of_lt (by omega) (by simp only [List.length_cons, List.length_nil] at h1; omega), ?_⟩
    rw [← toInt_eq_beValue]
    exact beDigits_toInt [a, b]
  have v3 : ∀ a b c : UInt8, (beValue [a, b, c] : Int) % 2 ^ 24 = beValue [a, b, c] ∧ beDigits (beValue [a, b, c] : Int) 3 = [a, b, c] := by
    intro a b c
    have h1 := beValue_lt [a, b, c]
    refine ⟨Int.emod_eq_of_lt (by omega) (by simp only [List.length_cons, List.length_nil] at h1; omega), ?_⟩
    rw [← toInt_eq_beValue]
    exact beDigits_toInt [a, b, c]
  have hlt := e.toNat_lt
  have he : UInt8.ofNat (e.toNat : Int).toNat = e := by simp
  simp only [] at h
  by_cases h2 : TwoSections (e.toNat : Int)
  · rw [if_pos h2] at h
    cases h1 : readSection r with
    | none => rw [h1] at h; cases h
    | some q =>
      obtain ⟨q, u⟩ := q
      rw [h1] at h
      obtain ⟨⟨q', u'⟩, hq', rfl⟩ := Option.map_eq_some_iff.mp h
      obtain ⟨k1, k2⟩ := readSection_sound _ _ _ h1
      obtain ⟨k3, k4⟩ := readSection_sound _ _ _ hq'
      refine ⟨⟨⟨by simp, by simp only []; omega⟩, by simp only []; rw [if_pos h2]; exact ⟨k1, k3⟩⟩, ?_, u', ?_⟩
      · unfold onWire
        simp only [if_pos h2, (v2 _ _).1, (v3 _ _ _).1]
      · unfold encode encHeader encBody
        simp only [if_pos h2, (v2 _ _).2, (v3 _ _ _).2, he]
        simp only [] at k4
        rw [k2, k4]
        simp
  · rw [if_neg h2] at h
    obtain ⟨⟨q, u⟩, h1, rfl⟩ := Option.map_eq_some_iff.mp h
    obtain ⟨k1, k2⟩ := readSection_sound _ _ _ h1
    refine ⟨⟨⟨by simp, by simp only []; omega⟩, by simp only []; rw [if_neg h2]; exact k1⟩, ?_, u, ?_⟩
    · unfold onWire
      simp only [if_neg h2, (v2 _ _).1, (v3 _ _ _).1]
    · unfold encode encHeader encBody
      simp only [if_neg h2, (v2 _ _).2, (v3 _ _ _).2, he]
      rw [k2]
      simp

theorem decodes_of_read {d : Bytes} (a : Addr) {m : Msg} (h : readMsg (d.take 1024) = some m) : Decodes d a { m with fromAddr := some a } := by
  obtain ⟨h1, h2, t, h3⟩ := readMsg_sound _ _ h
  exact ⟨m, t, h1, h2, h3, rfl⟩

theorem not_decodes {d : Bytes} {a : Addr} (h : readMsg (d.take 1024) = none) : ¬ ∃ m, Decodes d a m := by
  rintro ⟨m, w, t, h1, h2, h3, -⟩
  rw [h3, readMsg_enc w h1] at h
  cases h

/-! ### Objects -/

theorem puts_props (is : List PProp) : ∀ (t : Thing) (c : Int), (t.puts is).props c =
    (t.props c).map fun e => if e.writable then { e with data := (lastFor is c).getD e.data } else e := by
  induction is with
  | nil =>
    intro t c
    show t.props c = _
    cases t.props c with
    | none => rfl
    | some e => simp [lastFor_nil]
  | cons i is ih =>
    intro t c
    show ((t.put i).puts is).props c = _
    rw [ih]
    have hl := lastFor_append [i] is c
    rw [List.singleton_append] at hl
    rw [hl]
    unfold Thing.put
    simp only []
    by_cases hc : c = i.code
    · subst hc
      have h1 : lastFor [i] i.code = some i.data := by simp [lastFor]
      rw [if_pos rfl, h1]
      cases t.props i.code with
      | none => rfl
      | some e =>
        by_cases hw : e.writable = true
        · cases lastFor is i.code <;> simp [hw]
        · simp [hw]
    · have h1 : lastFor [i] c = none := by
        unfold lastFor
        rw [List.filter_cons_of_neg (by simpa using fun h => hc h.symm)]
        rfl
      rw [if_neg hc, h1]
      simp

theorem puts_serves (is : List PProp) : ∀ t : Thing, (t.puts is).serves = t.serves := by
  induction is with
  | nil => intro t; rfl
  | cons i is ih => intro t; exact (ih (t.put i)).trans rfl

theorem puts_knows (is : List PProp) (t : Thing) (c : Int) : (t.puts is).knows c = t.knows c := by
  unfold Thing.knows; rw [puts_props]; simp

theorem puts_canGet (is : List PProp) (t : Thing) (c : Int) : (t.puts is).canGet c = t.canGet c := by
  unfold Thing.canGet; rw [puts_props]
  cases t.props c with
  | none => rfl
  | some e => simp only [Option.map_some, isReadable]; split <;> rfl

theorem thing_ext {s t : Thing} (h1 : s.serves = t.serves) (h2 : ∀ c, s.props c = t.props c) : s = t := by
  cases s; cases t; simp only [Thing.mk.injEq]; exact ⟨h1, funext h2⟩

theorem thingOf_canSet (o : Obj) (i : PProp) : (thingOf o).canSet i.code = ((lookup o.props i.code).isSome && (attrPolicy o).canWrite i.code i.data) := by
  unfold Thing.canSet thingOf attrPolicy isWritable
  cases h : lookup o.props i.code <;> simp [h]

theorem thingOf_canGet (o : Obj) (i : PProp) : (thingOf o).canGet i.code = (attrPolicy o).canRead i.code := by
  unfold Thing.canGet thingOf attrPolicy isReadable
  cases h : lookup o.props i.code <;> simp [h]

theorem thingOf_knows (o : Obj) (c : Int) : (thingOf o).knows c = (lookup o.props c).isSome := by
  unfold Thing.knows thingOf; simp

theorem thingOf_writes (o : Obj) (is : List PProp) : thingOf (afterWrites o (acceptedWrites o (attrPolicy o) is)) = (thingOf o).puts is := by
  refine thing_ext ?_ fun c => ?_
  · rw [puts_serves]
    unfold thingOf
    rw [handler_of_skeleton (skeleton_afterWrites _ _)]
  · rw [puts_props]
    unfold thingOf
    simp only []
    rw [lookup_afterWrites]
    cases hl : lookup o.props c with
    | none => rfl
    | some p =>
      have := lastFor_accepted o is c p hl
      simp only [Option.map_some, Option.some.injEq]
      rw [this]
      have k1 : ∀ d, CanRead { p with data := d } ↔ CanRead p := fun _ => Iff.rfl
      have k2 : ∀ d, CanWrite { p with data := d } ↔ CanWrite p := fun _ => Iff.rfl
      simp only [k1, k2]
      by_cases hw : CanWrite p
      · simp [hw]
      · simp [hw]

theorem writeResp_refused (o : Obj) (is : List PProp) : is.map (writeResp o (attrPolicy o)) = (thingOf o).refused is := by
  unfold Thing.refused
  apply List.map_congr_left
  intro i _
  unfold writeResp
  rw [thingOf_canSet, thingOf_knows]
  cases (lookup o.props i.code).isSome <;> simp

theorem readResp_values (o : Obj) (is : List PProp) : is.map (readResp o (attrPolicy o)) = (thingOf o).values is := by
  unfold Thing.values
  apply List.map_congr_left
  intro i _
  unfold readResp readValue Thing.value thingOf attrPolicy
  cases h : lookup o.props i.code <;> simp [h]

theorem filter_all {α : Type} (p : α → Bool) (l : List α) : (l.filter p).length = l.length ↔ l.all p = true := by
  rw [List.length_filter_eq_length_iff, List.all_eq_true]

theorem accepted_all (o : Obj) (is : List PProp) : (acceptedWrites o (attrPolicy o) is).length = is.length ↔ (thingOf o).canSetAll is = true := by
  unfold acceptedWrites Thing.canSetAll
  rw [filter_all]
  simp only [thingOf_canSet]

theorem acceptedReads_all (o : Obj) (is : List PProp) : (acceptedReads o (attrPolicy o) is).length = is.length ↔ (thingOf o).canGetAll is = true := by
  unfold acceptedReads Thing.canGetAll
  rw [filter_all]
  simp only [thingOf_canGet]
  have : ∀ i : PProp, ((lookup o.props i.code).isSome && (attrPolicy o).canRead i.code) = (attrPolicy o).canRead i.code := by
    intro i
    unfold attrPolicy
    cases h : lookup o.props i.code <;> simp [h]
  simp only [this]

theorem notify_all (is : List PProp) : (0 = is.length) ↔ is = [] := by
  cases is <;> simp

/-- What an object does, seen from outside. -/
theorem thing_handles (env : Env) (o : Obj) (hw : WellFormed o) (hh : o.handler = .self_ ∨ o.handler = .none) (m : Msg) (hq : Quiet env o m) (hs : OwnSections m) :
    let r := o.messageReceived env m
    let q := (thingOf o).actual m
    thingOf r.obj = q.1 ∧ (r.result = .ok q.2.1 ∧ q.2.2 = true ∨ (∃ e, r.result = .error e) ∧ q.2.1 = none ∧ q.2.2 = false) := by
  intro r q
  have hre : ∀ x : List PProp, { replyTo m with props := x } = ({ tid := m.tid, seoj := m.deoj, deoj := m.seoj, props := x } : Msg) := fun _ => rfl
  by_cases hreq : m.esv ∉ [0x60, 0x61, 0x62, 0x63, 0x6E, 0x74] ∨ o.handler = .none
  · have e : q = (thingOf o, none, true) := by
      show (thingOf o).actual m = _
      unfold Thing.actual
      rcases hreq with hreq | hreq
      · simp only [List.mem_cons, List.not_mem_nil, or_false, not_or] at hreq
        simp [hreq]
      · have : (thingOf o).serves = false := by simp [thingOf, hreq]
        simp [this]
    obtain ⟨h1, -, h3⟩ := C22_only_requests env o m hreq
    rw [e]
    exact ⟨by rw [h1], Or.inl ⟨(h3 hq).1, rfl⟩⟩
  rw [not_or, not_not] at hreq
  obtain ⟨hreq, hnone⟩ := hreq
  have hh : o.handler = .self_ := hh.resolve_right hnone
  have hf := follows_default env o hw hh
  have hserves : ¬ (thingOf o).serves = false := by simp [thingOf, hh]
  have hr : r = { obj := (o.handleRequest env m).1, notified := o.observers, result := (o.handleRequest env m).2 } := messageReceived_quiet env o m hq
  rw [hr]
  simp only []
  have hopc : m.esv ≠ 0x6E → m.opc + m.opcSet + m.opcGet = m.props.length := by
    intro h6
    unfold OwnSections at hs
    simp only [List.mem_cons, List.not_mem_nil, or_false] at hreq
    rw [if_neg (by omega)] at hs
    simp [Msg.opc, Msg.opcSet, Msg.opcGet, hs.1, hs.2]
  by_cases h60 : m.esv = 0x60
  · rw [handle_plain_write env _ o m hw.1 hf (Or.inl h60)]
    have e : q = _ := rfl
    simp only [q, Thing.actual, if_neg hserves, if_pos h60, thingOf_writes, true_and]
    left
    unfold Obj.respond
    simp only [if_pos (show m.esv = ESV.WRITE_REQUEST from h60), hopc (by omega), accepted_all, writeResp_refused, and_true]
    rfl
  by_cases h61 : m.esv = 0x61
  · rw [handle_plain_write env _ o m hw.1 hf (Or.inr h61)]
    simp only [q, Thing.actual, if_neg hserves, if_neg h60, if_pos h61, thingOf_writes, true_and]
    left
    unfold Obj.respond
    simp only [if_neg (show ¬ m.esv = ESV.WRITE_REQUEST from h60), if_pos (show m.esv = ESV.WRITE_REQUEST_RESPONSE_REQUIRED from h61), hopc (by omega), accepted_all, writeResp_refused, and_true]
    split <;> rfl
  by_cases h62 : m.esv = 0x62
  · rw [handle_read env _ o m hf h62]
    simp only [q, Thing.actual, if_neg hserves, if_neg h60, if_neg h61, if_pos h62, true_and]
    left
    unfold Obj.respond
    simp only [if_neg (show ¬ m.esv = ESV.WRITE_REQUEST from h60), if_neg (show ¬ m.esv = ESV.WRITE_REQUEST_RESPONSE_REQUIRED from h61), if_pos (show m.esv = ESV.READ_REQUEST from h62),
      hopc (by omega), acceptedReads_all, readResp_values, and_true]
    split <;> rfl
  by_cases h63 : m.esv = 0x63
  · rw [handle_neither env o m hnone (Or.inl h63)]
    simp only [q, Thing.actual, if_neg hserves, if_neg h60, if_neg h61, if_neg h62, if_pos h63, true_and]
    left
    unfold Obj.respond
    simp only [if_neg (show ¬ m.esv = ESV.WRITE_REQUEST from h60), if_neg (show ¬ m.esv = ESV.WRITE_REQUEST_RESPONSE_REQUIRED from h61), if_neg (show ¬ m.esv = ESV.READ_REQUEST from h62),
      if_neg (show ¬ m.esv = ESV.WRITE_READ_REQUEST by rw [h63]; decide), if_pos (show m.esv = ESV.NOTIFICATION_REQUEST from h63),
      hopc (by omega), notify_all, and_true]
    split <;> rfl
  by_cases h6E : m.esv = 0x6E
  · have hopc : m.opc + m.opcSet + m.opcGet = m.setProps.length + m.getProps.length := by
      unfold OwnSections at hs
      rw [if_pos (by omega)] at hs
      simp [Msg.opc, Msg.opcSet, Msg.opcGet, hs]
    by_cases hk : ∃ i ∈ m.getProps, lookup o.props i.code = none
    · rw [handle_write_read_unknown env o m hw hh h6E hk]
      have hk' : ¬ (m.getProps.all fun i => (thingOf o).knows i.code) = true := by
        obtain ⟨i, hi, hn⟩ := hk
        intro h
        have := List.all_eq_true.mp h i hi
        rw [thingOf_knows, hn] at this
        cases this
      simp only [q, Thing.actual, if_neg hserves, if_neg h60, if_neg h61, if_neg h62, if_neg h63, if_pos h6E, if_neg hk', thingOf_writes, true_and]
      exact Or.inr ⟨⟨_, rfl⟩, trivial⟩
    · have hk1 : ∀ i ∈ m.getProps, (lookup o.props i.code).isSome = true := by
        intro i hi
        by_contra hc
        exact hk ⟨i, hi, by simpa using hc⟩
      have hk' : (m.getProps.all fun i => (thingOf o).knows i.code) = true := by
        rw [List.all_eq_true]
        intro i hi
        rw [thingOf_knows]
        exact hk1 i hi
      rw [handle_write_read env _ o m hw.1 hf h6E hk1]
      have hpol : attrPolicy o = attrPolicy (afterWrites o (acceptedWrites o (attrPolicy o) m.setProps)) := (attrPolicy_of_skeleton (skeleton_afterWrites _ _)).symm
      have hget : m.getProps.map (readResp (afterWrites o (acceptedWrites o (attrPolicy o) m.setProps)) (attrPolicy o)) = ((thingOf o).puts m.setProps).values m.getProps := by
        rw [← thingOf_writes, ← readResp_values, ← hpol]
      have hcnt : ((acceptedWrites o (attrPolicy o) m.setProps).length + (acceptedReads (afterWrites o (acceptedWrites o (attrPolicy o) m.setProps)) (attrPolicy o) m.getProps).length =
          m.setProps.length + m.getProps.length) ↔ ((thingOf o).canSetAll m.setProps && (thingOf o).canGetAll m.getProps) = true := by
        have g1 : (thingOf o).canGetAll m.getProps = (thingOf (afterWrites o (acceptedWrites o (attrPolicy o) m.setProps))).canGetAll m.getProps := by
          rw [thingOf_writes]
          unfold Thing.canGetAll
          simp only [puts_canGet]
        rw [Bool.and_eq_true, g1, ← accepted_all, ← acceptedReads_all, ← hpol]
        have l1 : (acceptedWrites o (attrPolicy o) m.setProps).length ≤ m.setProps.length := List.length_filter_le _ _
        have l2 : (acceptedReads (afterWrites o (acceptedWrites o (attrPolicy o) m.setProps)) (attrPolicy o) m.getProps).length ≤ m.getProps.length := List.length_filter_le _ _
        omega
      simp only [q, Thing.actual, if_neg hserves, if_neg h60, if_neg h61, if_neg h62, if_neg h63, if_pos h6E, if_pos hk', thingOf_writes, true_and]
      left
      unfold Obj.respond
      simp only [if_neg (show ¬ m.esv = ESV.WRITE_REQUEST from h60), if_neg (show ¬ m.esv = ESV.WRITE_REQUEST_RESPONSE_REQUIRED from h61),
        if_neg (show ¬ m.esv = ESV.READ_REQUEST from h62), if_pos (show m.esv = ESV.WRITE_READ_REQUEST from h6E), hopc, hcnt, writeResp_refused, hget, and_true]
      split <;> rfl
  have h74 : m.esv = 0x74 := by
    simp only [List.mem_cons, List.not_mem_nil, or_false] at hreq
    omega
  rw [handle_neither env o m hnone (Or.inr h74)]
  simp only [q, Thing.actual, if_neg hserves, if_neg h60, if_neg h61, if_neg h62, if_neg h63, if_neg h6E, if_pos h74, true_and]
  left
  unfold Obj.respond
  simp only [if_neg (show ¬ m.esv = ESV.WRITE_REQUEST from h60), if_neg (show ¬ m.esv = ESV.WRITE_REQUEST_RESPONSE_REQUIRED from h61), if_neg (show ¬ m.esv = ESV.READ_REQUEST from h62),
    if_neg (show ¬ m.esv = ESV.WRITE_READ_REQUEST from h6E), if_neg (show ¬ m.esv = ESV.NOTIFICATION_REQUEST from h63), if_pos (show m.esv = ESV.NOTIFICATION_RESPONSE_REQUIRED from h74),
    hopc h6E, notify_all, and_true]
  by_cases hp : m.props = []
  · rw [if_pos hp, if_pos hp, hp]
    rfl
  · rw [if_neg hp, if_neg hp]

/-! ### Devices -/

theorem thing_receive (env : Env) (o : Obj) (h : Plain env o) (m : Msg) (hs : OwnSections m) :
    let r := o.messageReceived env m
    let q := (thingOf o).actual m
    thingOf r.obj = q.1 ∧ (r.result = .ok q.2.1 ∧ q.2.2 = true ∨ (∃ e, r.result = .error e) ∧ q.2.1 = none ∧ q.2.2 = false) :=
  thing_handles env o h.1 h.2.1 m (h.2.2.1 m) hs

theorem notification_only (t : Thing) (m r : Msg) (h : (t.actual m).2.1 = some r) : ESV.isNotification r.esv = decide (r.esv = 0x73) := by
  have key : ∀ e : Int, e ≠ 0x74 → ESV.isNotification e = decide (e = 0x73) := by
    intro e he
    unfold ESV.isNotification
    by_cases h1 : e = ESV.NOTIFICATION
    · rw [if_pos h1]; exact (decide_eq_true h1).symm
    · rw [if_neg h1, if_neg (show ¬ e = ESV.NOTIFICATION_RESPONSE_REQUIRED from he)]; exact (decide_eq_false h1).symm
  apply key
  unfold Thing.actual at h
  simp only [] at h
  intro he
  split at h
  · cases h
  · repeat' split at h
    all_goals (
      cases h
      try simp only [] at he
      try omega)

theorem answer_exact (net : Net) (n : LocalNode) (req res : Msg) (a : Addr) (ha : req.fromAddr = some a) (hm : Encodable res) (hw : CanSend n.mgr) (hs : NetWorks net)
    (hn : ESV.isNotification res.esv = decide (res.esv = 0x73)) :
    let n' := (n.answer net req (some res)).1
    let t := if res.tid = 0 then RefDevice.chosenTid n.mgr.tid else res.tid
    n'.mgr.tid = (if res.tid = 0 then RefDevice.chosenTid n.mgr.tid else n.mgr.tid) ∧ n'.mgr.servers = n.mgr.servers ∧ n'.controller = n.controller ∧
    (∀ c, n'.getObject c = n.getObject c) ∧
    n'.mgr.log = n.mgr.log ++ ((deviceOf n).sends { outgoing n res with tid := t } a).map fun s => (s, (s.bytes.length : Int)) := by
  intro n' t
  have hm' := (outgoing_encodable n res).mpr hm
  have htid : (outgoing n res).tid = res.tid := by unfold outgoing; split <;> rfl
  have hesv : (outgoing n res).esv = res.esv := by unfold outgoing; split <;> rfl
  have hassign : n.mgr.assignTid (outgoing n res) =
      ({ n.mgr with tid := if res.tid = 0 then RefDevice.chosenTid n.mgr.tid else n.mgr.tid }, { outgoing n res with tid := t }) := by
    unfold Manager.assignTid Manager.nextTid RefDevice.chosenTid
    rw [htid]
    show _ = (_, { outgoing n res with tid := if res.tid = 0 then RefDevice.chosenTid n.mgr.tid else res.tid })
    unfold RefDevice.chosenTid
    by_cases h0 : res.tid = 0
    · rw [if_pos h0, if_pos h0, if_pos h0]
      by_cases h1 : (65535 : Int) < n.mgr.tid + 1
      · simp only [if_pos h1]
      · simp only [if_neg h1]
    · rw [if_neg h0, if_neg h0, if_neg h0, ← htid]
  have hwk : working n.mgr.servers ≠ [] := hw
  have hpos : 0 < ((encode { outgoing n res with tid := t }).length : Int) := by
    simp [encode, encHeader]
    omega
  have hae := answer_eq net n req res
  have hn'e : n' = (n.answer net req (some res)).1 := rfl
  by_cases h73 : res.esv = 0x73
  · rw [hn, decide_eq_true h73, if_pos rfl] at hae
    rw [hae] at hn'e
    simp only [] at hn'e
    have : n.mgr.announce net (outgoing n res) = Manager.announceLoop net n.mgr.servers { n.mgr with tid := if res.tid = 0 then RefDevice.chosenTid n.mgr.tid else n.mgr.tid }
        { outgoing n res with tid := t } := by
      unfold Manager.announce
      rw [hassign]
    rw [this] at hn'e
    obtain ⟨u, -, -, he⟩ := Manager.announceLoop_eq net n.mgr.servers { n.mgr with tid := if res.tid = 0 then RefDevice.chosenTid n.mgr.tid else n.mgr.tid }
      { outgoing n res with tid := t } hm'
    rw [he] at hn'e
    rw [hn'e]
    refine ⟨rfl, rfl, rfl, fun _ => rfl, ?_⟩
    simp only []
    congr 1
    unfold RefDevice.sends
    rw [if_pos (by simp only []; rw [hesv]; exact h73)]
    have key : ∀ b ss k, (Manager.sendAll net false (MULTICAST_ADDRESS, SERVER_PORT) b ss k).1 = ss.map fun s => (⟨s.ifaddr, (MULTICAST_ADDRESS, SERVER_PORT), b⟩, (b.length : Int)) := by
      intro b ss
      induction ss with
      | nil => intro k; rfl
      | cons s ss ih =>
        intro k
        unfold Manager.sendAll
        rw [hs]
        simp only []
        rw [if_neg (by simp)]
        simp only [ih (k + 1), List.map_cons]
    rw [key]
    unfold deviceOf
    simp only [List.map_map]
    rfl
  · rw [hn, decide_eq_false h73, if_neg (by simp), ha] at hae
    rw [hae] at hn'e
    simp only [] at hn'e
    have : n.mgr.send net (outgoing n res) (some a) = Manager.sendLoop net (some a) n.mgr.servers { n.mgr with tid := if res.tid = 0 then RefDevice.chosenTid n.mgr.tid else n.mgr.tid }
        { outgoing n res with tid := t } := by
      unfold Manager.send
      rw [hassign]
    rw [this] at hn'e
    obtain ⟨u, -, -, -, he⟩ := Manager.sendLoop_eq net a n.mgr.servers { n.mgr with tid := if res.tid = 0 then RefDevice.chosenTid n.mgr.tid else n.mgr.tid }
      { outgoing n res with tid := t } hm'
    rw [he] at hn'e
    rw [hn'e]
    refine ⟨rfl, rfl, rfl, fun _ => rfl, ?_⟩
    simp only []
    congr 1
    unfold RefDevice.sends
    rw [if_neg (by simp only []; rw [hesv]; exact h73)]
    unfold deviceOf
    simp only []
    cases hc : working n.mgr.servers with
    | nil => exact absurd hc hwk
    | cons s ss =>
      unfold Manager.sendAll
      rw [hs]
      simp only []
      rw [if_pos ⟨trivial, hpos⟩]
      rfl

theorem device_ext {A B : RefDevice} (h1 : ∀ c, A.things c = B.things c) (h2 : A.ifs = B.ifs) (h3 : A.tid = B.tid) (h4 : A.ctl = B.ctl) : A = B := by
  cases A; cases B; simp only [RefDevice.mk.injEq]; exact ⟨funext h1, h2, h3, h4⟩

/-- What a node does with a datagram, seen from outside. -/
theorem device_datagram {ord : List Int → List Int} (hord : ValidOrder ord) {n : LocalNode} (hr : Reachable ord n) {env : Env} (hp : PlainNode env n)
    (net : Net) (hs : NetWorks net) (hw : CanSend n.mgr) (d : Bytes) (a : Addr) :
    let r := recvOne (LocalNode.deliver env net) n d a
    let q := (deviceOf n).actual d a
    deviceOf r.1 = q.1 ∧ r.2 = q.2.2 ∧ r.1.mgr.log = n.mgr.log ++ q.2.1.map fun s => (s, (s.bytes.length : Int)) := by
  intro r q
  have hqd : q = (deviceOf n).actual d a := rfl
  unfold RefDevice.actual at hqd
  cases hread : readMsg (d.take 1024) with
  | none =>
    rw [hread] at hqd
    simp only [] at hqd
    have e : r = (n, false) := recvOne_bad _ n d a (not_decodes hread)
    rw [e, hqd]
    exact ⟨rfl, rfl, by simp⟩
  | some w =>
    rw [hread] at hqd
    simp only [] at hqd
    have hd := decodes_of_read a hread
    have e : r = _ := recvOne_ok (LocalNode.deliver env net) n d a _ hd
    obtain ⟨hm, hrec, ha, hdr⟩ := received_decoded hd
    have hsec := decoded_sections hd
    generalize hmd : ({ w with fromAddr := some a } : Msg) = m at *
    have hwd : w.deoj = m.deoj := by rw [← hmd]
    have hact : ∀ t : Thing, t.actual w = t.actual m := by intro t; rw [← hmd]; rfl
    rw [hwd] at hqd
    simp only [hact] at hqd
    have hdel : LocalNode.deliver env net n m = ((n.messageReceived env net m).1, match (n.messageReceived env net m).2 with | .error e => some e | .ok _ => none) := by
      unfold LocalNode.deliver
      rcases n.messageReceived env net m with ⟨x, e | u⟩ <;> rfl
    cases ho : n.getObject (.int m.deoj) with
    | none =>
      have ht : (deviceOf n).things m.deoj = none := by
        show (n.getObject (.int m.deoj)).map thingOf = none
        rw [ho]; rfl
      rw [ht] at hqd
      simp only [] at hqd
      rw [e, hdel, C48_unknown env net n m hm hdr ho, hqd]
      exact ⟨rfl, rfl, by simp⟩
    | some o =>
      have ht : (deviceOf n).things m.deoj = some (thingOf o) := by
        show (n.getObject (.int m.deoj)).map thingOf = _
        rw [ho]; rfl
      rw [ht] at hqd
      simp only [] at hqd
      obtain ⟨hobj, -, -⟩ := C48_dispatch hord hr env net m hm hdr o ho
      rw [hrec] at hobj
      obtain ⟨t1, t2⟩ := thing_receive env o (hp _ _ ho) m hsec
      obtain ⟨-, -, -, q4⟩ := plain_receive env o (hp _ _ ho) m hm
      obtain ⟨s, hg, hso⟩ := Option.map_eq_some_iff.mp ho
      change Dict.get? n.node.objects m.deoj = some s at hg
      have heq := messageReceived_eq env net n m hm
      rw [Int.emod_eq_of_lt hdr.1 hdr.2, hg] at heq
      simp only [] at heq
      rw [hso, hrec] at heq
      generalize hP : n.putBack m.deoj s (o.messageReceived env m).obj = P at heq
      have hPm : P.mgr = n.mgr ∧ P.controller = n.controller := by rw [← hP]; cases s <;> exact ⟨rfl, rfl⟩
      have hthings : ∀ N : LocalNode, (∀ c, N.getObject (.int c) = (n.messageReceived env net m).1.getObject (.int c)) →
          ∀ c, (deviceOf N).things c = ((deviceOf n).setThing m.deoj ((thingOf o).actual m).1).things c := by
        intro N hN c
        show (N.getObject (.int c)).map thingOf = if c = m.deoj then _ else (n.getObject (.int c)).map thingOf
        rw [hN c, hobj c]
        by_cases hc : c = m.deoj
        · rw [if_pos hc, if_pos hc, ← t1]; rfl
        · rw [if_neg hc, if_neg hc]
      rw [e, hdel]
      simp only []
      rcases t2 with ⟨t2, t3⟩ | ⟨⟨ex, t2⟩, t3, t4⟩
      · rw [t2] at heq
        simp only [] at heq
        cases hres : ((thingOf o).actual m).2.1 with
        | none =>
          rw [hres] at heq hqd
          simp only [LocalNode.answer] at heq hqd
          rw [hqd]
          refine ⟨?_, ?_, ?_⟩
          · refine device_ext (hthings _ fun _ => rfl) ?_ ?_ ?_
            · show (working (n.messageReceived env net m).1.mgr.servers).map _ = (working n.mgr.servers).map _
              rw [heq]; simp only []; rw [hPm.1]
            · show (n.messageReceived env net m).1.mgr.tid = n.mgr.tid
              rw [heq]; simp only []; rw [hPm.1]
            · show (n.messageReceived env net m).1.controller = n.controller
              rw [heq]; exact hPm.2
          · rw [heq, t3]; rfl
          · rw [heq]; simp only []; rw [hPm.1]; simp
        | some res =>
          rw [hres] at heq hqd t2
          simp only [] at heq hqd
          have hxm := q4 res t2
          have hwP : CanSend P.mgr := by rw [hPm.1]; exact hw
          obtain ⟨k1, -⟩ := answer_ok net P m res a ha hxm hwP hs
          obtain ⟨a1, a2, a3, a4, a5⟩ := answer_exact net P m res a ha hxm hwP hs (notification_only _ _ _ hres)
          rw [← heq] at k1 a1 a2 a3 a4 a5
          have hout : outgoing P res = if n.controller = true then { res with seoj := 0x0EF001 } else res := by
            unfold outgoing; rw [hPm.2]
          have hPs : ∀ x, (deviceOf P).sends x a = ((deviceOf n).setThing m.deoj ((thingOf o).actual m).1).sends x a := by
            intro x
            show (if x.esv = 0x73 then ((working P.mgr.servers).map Server.ifaddr).map _ else (((working P.mgr.servers).map Server.ifaddr).take 1).map _) = _
            rw [hPm.1]
            rfl
          rw [hPm.1] at a1 a2 a5
          rw [hPm.2] at a3
          rw [hPs, hout] at a5
          have hctl : ((deviceOf n).setThing m.deoj ((thingOf o).actual m).1).ctl = n.controller := rfl
          have hdtid : ((deviceOf n).setThing m.deoj ((thingOf o).actual m).1).tid = n.mgr.tid := rfl
          rw [hctl] at hqd
          have htid' : (if n.controller = true then ({ res with seoj := 0x0EF001 } : Msg) else res).tid = res.tid := by split <;> rfl
          rw [htid'] at hqd
          have hifs : ((working (n.messageReceived env net m).1.mgr.servers).map Server.ifaddr) = (working n.mgr.servers).map Server.ifaddr := by rw [a2]
          by_cases h0 : res.tid = 0
          · simp only [if_pos h0] at hqd a1 a5
            rw [hqd]
            refine ⟨device_ext (hthings _ fun _ => rfl) hifs ?_ a3, ?_, ?_⟩
            · exact a1
            · simp only []; rw [k1, t3]; rfl
            · exact a5
          · simp only [if_neg h0] at hqd a1 a5
            rw [hqd]
            refine ⟨device_ext (hthings _ fun _ => rfl) hifs a1 a3, ?_, ?_⟩
            · simp only []; rw [k1, t3]; rfl
            · simp only []
              rw [a5]
              have hk : ({ (if n.controller = true then ({ res with seoj := 0x0EF001 } : Msg) else res) with tid := res.tid } : Msg) =
                  if n.controller = true then ({ res with seoj := 0x0EF001 } : Msg) else res := by split <;> rfl
              rw [hk]
      · rw [t2] at heq
        simp only [] at heq
        rw [t3] at hqd
        simp only [] at hqd
        rw [hqd]
        refine ⟨?_, ?_, ?_⟩
        · refine device_ext (hthings _ fun _ => rfl) ?_ ?_ ?_
          · show (working (n.messageReceived env net m).1.mgr.servers).map _ = (working n.mgr.servers).map _
            rw [heq]; simp only []; rw [hPm.1]
          · show (n.messageReceived env net m).1.mgr.tid = n.mgr.tid
            rw [heq]; simp only []; rw [hPm.1]
          · show (n.messageReceived env net m).1.controller = n.controller
            rw [heq]; exact hPm.2
        · rw [heq, t4]; rfl
        · rw [heq]; simp only []; rw [hPm.1]; simp

end Uecho
