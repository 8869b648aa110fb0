/- Properties C03–C08, C10, C11 (messages and their wire format). -/
import Verif.Lemmas.Message

namespace Uecho
open Spec

/-- C03. Encode, then decode into a fresh message: the parse succeeds and gives back the message as
it fits the wire (`onWire`: TID mod 2^16, EOJs mod 2^24, only the section(s) the ESV selects). -/
theorem C03_round_trip (m : Msg) (b : Bytes) (h : m.toBytes = .ok b) :
    Msg.parseBytes {} b = (onWire m, .ok true) := by
  obtain ⟨hok, rfl⟩ := (toBytes_ok_iff m b).mp h
  have := parseBytes_encode {} m [] hok
  rw [List.append_nil, absorb_fresh] at this
  exact this

/-- for a message whose TID and EOJs fit, and whose unused sections are empty, the round trip is
the identity (addresses, which are not on the wire, apart) -/
theorem C03_round_trip_identity (m : Msg) (b : Bytes) (h : m.toBytes = .ok b)
    (ht : 0 ≤ m.tid ∧ m.tid < 2 ^ 16) (hs : 0 ≤ m.seoj ∧ m.seoj < 2 ^ 24)
    (hd : 0 ≤ m.deoj ∧ m.deoj < 2 ^ 24)
    (h1 : TwoSections m.esv → m.props = [])
    (h2 : ¬ TwoSections m.esv → m.setProps = [] ∧ m.getProps = []) :
    Msg.parseBytes {} b = ({ m with fromAddr := none, toAddr := none }, .ok true) := by
  rw [C03_round_trip m b h, onWire, Int.emod_eq_of_lt ht.1 ht.2, Int.emod_eq_of_lt hs.1 hs.2,
    Int.emod_eq_of_lt hd.1 hd.2]
  by_cases hrw : TwoSections m.esv
  · simp only [hrw, if_true, h1 hrw]
  · simp only [hrw, if_false, (h2 hrw).1, (h2 hrw).2]

/-- a two-section message with a large TID -/
def exRW : Msg :=
  { tid := 0x12345, seoj := 0x0EF001, deoj := 0x029101, esv := 0x6E
    setProps := [{ code := 0x80, data := [0x30] }, { code := 0xB6, data := [] }]
    getProps := [{ code := 0x80 }] }
def exRWBytes : Bytes := [0x10, 0x81, 0x23, 0x45, 0x0E, 0xF0, 0x01, 0x02, 0x91, 0x01, 0x6E,
  0x02, 0x80, 0x01, 0x30, 0xB6, 0x00, 0x01, 0x80, 0x00]
example : exRW.toBytes = .ok exRWBytes := by decide
example : Msg.parseBytes {} exRWBytes = ({ exRW with tid := 0x2345 }, .ok true) := by decide

/-- C04. `to_bytes` returns the canonical encoding exactly when the message fits the format, and
otherwise raises `ValueError`. -/
theorem C04_to_bytes_total (m : Msg) :
    (Encodable m → m.toBytes = .ok (encode m)) ∧
    (¬ Encodable m → m.toBytes = .error .valueError) :=
  ⟨toBytes_ok m, toBytes_err m⟩

example : Encodable exRW := by decide
example : ¬ Encodable { esv := 0x62, props := [{ code := 256 }] } := by decide
example : ¬ Encodable { esv := 0x62, props := List.replicate 256 { code := 0x80 } } := by decide +kernel
/-- an oversized property in a section the ESV does not select does no harm -/
example : Encodable { esv := 0x6E, props := [{ code := 256 }] } := by decide

/-- C05. An accepted datagram is the canonical encoding of the parsed message followed by ignored
trailing bytes, and the parsed message is what `parse_bytes` left in the (fresh) object. -/
theorem C05_parser_sound (bs : Bytes) (r : Bool) (h : (Msg.parseBytes {} bs).2 = .ok r) :
    r = true ∧ ∃ trailing, (Msg.parseBytes {} bs).1.toBytes = .ok (encode (Msg.parseBytes {} bs).1) ∧
      bs = encode (Msg.parseBytes {} bs).1 ++ trailing := by
  obtain ⟨hr, m, t, hok, how, hbs, hst⟩ := parseBytes_sound {} bs r h
  rw [absorb_fresh, ← how] at hst
  rw [hst]
  exact ⟨hr, t, toBytes_ok m hok, hbs⟩

/-- every byte string starting with a canonical encoding is accepted (converse of soundness) -/
theorem C05_parser_complete (m : Msg) (trailing : Bytes) (h : Encodable m) :
    Msg.parseBytes {} (encode m ++ trailing) = (onWire m, .ok true) := by
  rw [parseBytes_encode {} m trailing h, absorb_fresh]

example : (Msg.parseBytes {} (exRWBytes ++ [0xAA, 0xBB])).2 = .ok true := by decide

/-- C06, as documented ("malformed input is reported through `ParserError`"): false. A datagram
that stops before its ESV escapes as `IndexError`. -/
theorem C06_only_parser_error_false :
    ¬ ∀ bs : Bytes, (Msg.parseBytes {} bs).2 = .ok true ∨ (Msg.parseBytes {} bs).2 = .error .parserError := by
  intro h
  have := h [0x10, 0x81, 0, 1, 0x0E, 0xF0, 1, 0x0E, 0xF0, 1]
  revert this; decide

/-- C06, what holds: the exact outcome of `parse_bytes` on every byte string and every prior state
of the object. Missing from the documented claim: the datagrams of `EndsBeforeField` raise
`IndexError` instead of `ParserError`. -/
theorem C06_outcomes_partial (m : Msg) (bs : Bytes) :
    ((m.parseBytes bs).2 = .ok true ↔ ∃ m' t, Encodable m' ∧ bs = encode m' ++ t) ∧
    ((m.parseBytes bs).2 = .error .indexError ↔ EndsBeforeField bs) ∧
    ((m.parseBytes bs).2 = .error .parserError ↔
      ¬ EndsBeforeField bs ∧ ¬ ∃ m' t, Encodable m' ∧ bs = encode m' ++ t) := by
  have h1 : (m.parseBytes bs).2 = .ok true ↔ ∃ m' t, Encodable m' ∧ bs = encode m' ++ t := by
    constructor
    · intro h
      obtain ⟨-, m', t, hok, -, hbs, -⟩ := parseBytes_sound m bs true h
      exact ⟨m', t, hok, hbs⟩
    · rintro ⟨m', t, hok, rfl⟩
      rw [parseBytes_encode m m' t hok]
  have h2 := parseBytes_index m bs
  refine ⟨h1, h2, ?_⟩
  rw [← h1, ← h2]
  rcases h : (m.parseBytes bs).2 with e | r
  · have : e = .parserError ∨ e = .indexError := parseBytes_err m bs e h
    rcases this with rfl | rfl <;> simp
  · have := (parseBytes_sound m bs r h).1
    subst this; simp

/-- the three outcomes all occur -/
example : EndsBeforeField [0x10, 0x81, 0, 1, 0x0E, 0xF0, 1, 0x0E, 0xF0, 1] :=
  ⟨_, rfl, Or.inl (by decide)⟩
example : EndsBeforeField [0x10, 0x81, 0, 1, 0x0E, 0xF0, 1, 0x0E, 0xF0, 1, 0x62, 2, 0x80, 0, 0xD6] :=
  ⟨_, rfl, Or.inr ⟨[0, 1, 0x0E, 0xF0, 1, 0x0E, 0xF0, 1], 0x62, _, rfl, rfl,
    Or.inl (Or.inr ⟨2, [{ code := 0x80 }], 0xD6, by decide, by decide, by decide⟩)⟩⟩
example : (Msg.parseBytes {} [0x10, 0x81, 0, 1, 0x0E, 0xF0, 1, 0x0E, 0xF0, 1, 0x62, 1, 0x80, 2, 0xD6]).2 =
    .error .parserError := by decide

/-- C07. No proper prefix of an encoded message is accepted. -/
theorem C07_no_prefix (m : Msg) (b : Bytes) (h : m.toBytes = .ok b) (n : Nat) (hn : n < b.length) (m0 : Msg) :
    (m0.parseBytes (b.take n)).2 = .error .parserError ∨ (m0.parseBytes (b.take n)).2 = .error .indexError := by
  obtain ⟨hok, rfl⟩ := (toBytes_ok_iff m b).mp h
  rcases hp : (m0.parseBytes ((encode m).take n)).2 with e | r
  · rcases parseBytes_err _ _ _ hp with rfl | rfl <;> simp
  · exfalso
    obtain ⟨-, m', t, hok', how, hbs, -⟩ := parseBytes_sound _ _ _ hp
    have e1 := parseBytes_encode {} m [] hok
    have e2 := parseBytes_encode {} m' (t ++ (encode m).drop n) hok'
    rw [← List.append_assoc, ← hbs, List.take_append_drop, absorb_fresh, ← how] at e2
    rw [List.append_nil, absorb_fresh, e2] at e1
    have e3 : onWire m = m' := (congrArg Prod.fst e1).symm
    have e4 : encode (onWire m) = encode m := encode_onWire m
    have := congrArg List.length hbs
    rw [List.length_take, List.length_append, ← e3, e4] at this
    omega

example : exRW.toBytes = .ok exRWBytes ∧ 17 < exRWBytes.length ∧
    (Msg.parseBytes {} (exRWBytes.take 17)).2 = .error .indexError := by decide

/-- C08, as stated ("a function of the bytes alone"): false for a reused `Message` object. -/
theorem C08_depends_on_bytes_false :
    ¬ ∀ (m1 m2 : Msg) (bs : Bytes), (m1.parseBytes bs).2 = .ok true →
      (m1.parseBytes bs).1.allProps = (m2.parseBytes bs).1.allProps := by
  intro h
  have := h {} { props := [{ code := 0x80 }] } exRWBytes (by decide)
  revert this; decide

/-- C08, what holds: acceptance, header, ESV and the section(s) selected by the ESV depend on the
bytes only; the other section lists keep their previous contents. So for a fresh object (or one
whose lists are empty) the whole result depends on the bytes only. -/
theorem C08_depends_on_bytes_partial (m1 m2 : Msg) (bs : Bytes) (h : (m1.parseBytes bs).2 = .ok true) :
    let a := (m1.parseBytes bs).1
    let b := (m2.parseBytes bs).1
    (m2.parseBytes bs).2 = .ok true ∧
    a.tid = b.tid ∧ a.seoj = b.seoj ∧ a.deoj = b.deoj ∧ a.esv = b.esv ∧
    (TwoSections a.esv → a.setProps = b.setProps ∧ a.getProps = b.getProps ∧ a.props = m1.props) ∧
    (¬ TwoSections a.esv → a.props = b.props ∧ a.setProps = m1.setProps ∧ a.getProps = m1.getProps) ∧
    a.fromAddr = m1.fromAddr ∧ a.toAddr = m1.toAddr := by
  obtain ⟨-, m', t, hok, how, hbs, -⟩ := parseBytes_sound m1 bs true h
  rw [hbs, parseBytes_encode m1 m' t hok, parseBytes_encode m2 m' t hok]
  simp only [Msg.absorb]
  refine ⟨trivial, trivial, trivial, trivial, trivial, ?_, ?_, trivial, trivial⟩
  · intro hrw; simp [hrw]
  · intro hrw; simp [hrw]

example : (Msg.parseBytes { props := [{ code := 0x80 }] } exRWBytes).1.props = [{ code := 0x80 }] := by decide

/-- C10. `==`: on encodable messages it is total and is equality of wire encodings, equivalently
equality of everything the wire carries; hence an equivalence relation. On a message that is not
encodable it raises `ValueError`. -/
theorem C10_eq (a b : Msg) :
    (Encodable a → Encodable b → ∃ r, a.pyEq b = .ok r ∧ (r = true ↔ encode a = encode b) ∧
      (r = true ↔ onWire a = onWire b)) ∧
    ((¬ Encodable a ∨ ¬ Encodable b) → a.pyEq b = .error .valueError) := by
  constructor
  · intro ha hb
    refine ⟨encode a == encode b, ?_, by simp, ?_⟩
    · unfold Msg.pyEq; rw [toBytes_ok a ha, toBytes_ok b hb]; rfl
    · rw [beq_iff_eq]
      exact encode_eq_iff a b ha hb
  · intro h
    unfold Msg.pyEq
    by_cases ha : Encodable a
    · have hb : ¬ Encodable b := h.resolve_left (not_not.mpr ha)
      rw [toBytes_ok a ha, toBytes_err b hb]; rfl
    · rw [toBytes_err a ha]; rfl

/-- `==` is reflexive, symmetric and transitive on encodable messages. -/
theorem C10_equivalence :
    (∀ a : Msg, Encodable a → a.pyEq a = .ok true) ∧
    (∀ a b : Msg, a.pyEq b = .ok true → b.pyEq a = .ok true) ∧
    (∀ a b c : Msg, a.pyEq b = .ok true → b.pyEq c = .ok true → a.pyEq c = .ok true) := by
  have key : ∀ a b : Msg, a.pyEq b = .ok true ↔ Encodable a ∧ Encodable b ∧ encode a = encode b := by
    intro a b
    by_cases ha : Encodable a
    · by_cases hb : Encodable b
      · obtain ⟨r, hr, h1, -⟩ := (C10_eq a b).1 ha hb
        rw [hr]
        constructor
        · intro h; injection h with h; exact ⟨ha, hb, h1.mp h⟩
        · rintro ⟨-, -, h⟩; rw [h1.mpr h]
      · rw [(C10_eq a b).2 (Or.inr hb)]; simp [hb]
    · rw [(C10_eq a b).2 (Or.inl ha)]; simp [ha]
  simp only [key]
  refine ⟨fun a h => ⟨h, h, trivial⟩, ?_, ?_⟩
  · rintro a b ⟨h1, h2, h3⟩; exact ⟨h2, h1, h3.symm⟩
  · rintro a b c ⟨h1, h2, h3⟩ ⟨h4, h5, h6⟩; exact ⟨h1, h5, h3.trans h6⟩

/-- C10. `Message(msg)` succeeds exactly on encodable messages, equals `msg`, keeps both addresses,
and holds what the wire holds. -/
theorem C10_copy (m : Msg) :
    (Encodable m → ∃ c, Msg.copyOf (some m) = .ok c ∧ c.pyEq m = .ok true ∧
      c.fromAddr = m.fromAddr ∧ c.toAddr = m.toAddr ∧
      c = { onWire m with fromAddr := m.fromAddr, toAddr := m.toAddr }) ∧
    (¬ Encodable m → Msg.copyOf (some m) = .error .valueError) := by
  constructor
  · intro h
    refine ⟨{ onWire m with fromAddr := m.fromAddr, toAddr := m.toAddr }, ?_, ?_, rfl, rfl, rfl⟩
    · unfold Msg.copyOf
      simp only [toBytes_ok m h, ok_bind, C03_round_trip m _ (toBytes_ok m h)]
    · have hok : Encodable { onWire m with fromAddr := m.fromAddr, toAddr := m.toAddr } := by
        have := encodable_onWire m h
        exact this
      obtain ⟨r, hr, h1, -⟩ := (C10_eq _ m).1 hok h
      rw [hr, h1.mpr]
      exact encode_onWire m
  · intro h
    unfold Msg.copyOf
    simp only [toBytes_err m h, err_bind]

example : Msg.copyOf (some { exRW with fromAddr := some ("192.168.1.2", 3610) }) =
    .ok { exRW with tid := 0x2345, fromAddr := some ("192.168.1.2", 3610) } := by decide
/-- two different objects, equal on the wire -/
example : exRW.pyEq { exRW with tid := 0x2345, props := [{ code := 1 }] } = .ok true := by decide

/-! ### C11: the builder API -/

/-- A call of the builder API. -/
inductive BuildCall where
  | prop (a : Msg.PropArg)
  | setProp (a : Msg.PropArg)
  | getProp (a : Msg.PropArg)

/-- running a call -/
def BuildCall.run (m : Msg) : BuildCall → Msg × Bool
  | .prop a => m.addProperty a
  | .setProp a => m.addSetProperty a
  | .getProp a => m.addGetProperty a

/-- running a sequence of calls, collecting the return values -/
def BuildCall.runAll (m : Msg) : List BuildCall → Msg × List Bool
  | [] => (m, [])
  | c :: cs =>
    let (m1, r) := c.run m
    let (m2, rs) := runAll m1 cs
    (m2, r :: rs)

/-- The property an argument denotes: a property, a code, or a code with data; nothing else. -/
def argProp : Msg.PropArg → Option PProp
  | .prop p => some p
  | .int c => some { code := c, data := [] }
  | .tuple2 c d => some { code := c, data := d }
  | .tupleN | .protoProp _ | .other => none

/-- C11. Over any sequence of builder calls: each call returns `True` exactly when its argument
denotes a property; the properties so denoted end up, in call order and nothing else, at the end of
the list the call addresses; all other fields are unchanged. -/
theorem C11_builder (m : Msg) (cs : List BuildCall) :
    (BuildCall.runAll m cs).2 = cs.map (fun c => match c with
      | .prop a | .setProp a | .getProp a => (argProp a).isSome) ∧
    (BuildCall.runAll m cs).1 =
      { m with
        props := m.props ++ cs.filterMap (fun c => match c with | .prop a => argProp a | _ => none)
        setProps := m.setProps ++ cs.filterMap (fun c => match c with | .setProp a => argProp a | _ => none)
        getProps := m.getProps ++ cs.filterMap (fun c => match c with | .getProp a => argProp a | _ => none) } := by
  induction cs generalizing m with
  | nil => simp [BuildCall.runAll]
  | cons c cs ih =>
    obtain ⟨i1, i2⟩ := ih (c.run m).1
    simp only [BuildCall.runAll, List.map_cons, i1, i2]
    cases c with
    | prop a => cases a <;> simp [BuildCall.run, Msg.addProperty, Msg.toProperty, argProp]
    | setProp a => cases a <;> simp [BuildCall.run, Msg.addSetProperty, Msg.toProperty, argProp]
    | getProp a => cases a <;> simp [BuildCall.run, Msg.addGetProperty, Msg.toProperty, argProp]

example : BuildCall.runAll {} [.prop (.int 0x80), .setProp (.tuple2 0x81 [1]), .prop .tupleN,
    .prop (.tuple2 0xB0 [2, 3])] =
    ({ props := [{ code := 0x80 }, { code := 0xB0, data := [2, 3] }],
       setProps := [{ code := 0x81, data := [1] }] }, [true, true, false, true]) := by decide

end Uecho
