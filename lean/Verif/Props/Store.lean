/- Properties C25 (attributes), C31 (property store), C32–C34 (object codes), C35 (built requests). -/
import Verif.Lemmas.Object
import Verif.Lemmas.Bits
import Verif.Lemmas.Message

namespace Uecho
open Spec

/-! ### C25 -/

/-- C25. Every attribute predicate, for all attribute values. -/
theorem C25_predicates (p : OProp) :
    (p.isReadEnabled = true ↔ p.attrGet = 1 ∨ p.attrGet = 2) ∧
    (p.isWriteEnabled = true ↔ p.attrSet = 1 ∨ p.attrSet = 2) ∧
    (p.isAnnounceEnabled = true ↔ p.attrAnno = 1 ∨ p.attrAnno = 2) ∧
    (p.isReadRequired = true ↔ p.attrGet = 1) ∧
    (p.isWriteRequired = true ↔ p.attrSet = 1) ∧
    (p.isAnnounceRequired = true ↔ p.attrAnno = 1) ∧
    (p.isMandatory = true ↔ p.attrGet = 1 ∨ p.attrSet = 1 ∨ p.attrAnno = 1) := by
  have e : ∀ v : Int, OProp.isAttributeEnabled v = true ↔ v = 1 ∨ v = 2 := by
    intro v; unfold OProp.isAttributeEnabled OProp.REQUIRED OProp.OPTIONAL
    by_cases h : v = 1 <;> by_cases h2 : v = 2 <;> simp [h, h2]
  have r : ∀ v : Int, OProp.isAttributeRequired v = true ↔ v = 1 := by
    intro v; unfold OProp.isAttributeRequired OProp.REQUIRED
    by_cases h : v = 1 <;> simp [h]
  refine ⟨e _, e _, e _, r _, r _, r _, ?_⟩
  unfold OProp.isMandatory OProp.REQUIRED
  by_cases h1 : p.attrGet = 1 <;> by_cases h2 : p.attrSet = 1 <;> by_cases h3 : p.attrAnno = 1 <;> simp [h1, h2, h3]

/-- The attribute a Python list index addresses. -/
def attrSlot (typ : Int) : Option (Fin 3) :=
  if typ = 0 ∨ typ = -3 then some 0 else if typ = 1 ∨ typ = -2 then some 1
  else if typ = 2 ∨ typ = -1 then some 2 else none

def attrsOf (p : OProp) : Fin 3 → Int
  | 0 => p.attrGet
  | 1 => p.attrSet
  | 2 => p.attrAnno

/-- C25. `set_attribute` changes the addressed attribute only, `get_attribute` reads it back; any
other index raises `IndexError` and changes nothing. -/
theorem C25_set_get (p : OProp) (typ v : Int) :
    match attrSlot typ with
    | some k => (p.setAttribute typ v).2 = .ok () ∧ p.getAttribute typ = .ok (attrsOf p k) ∧
        (p.setAttribute typ v).1.code = p.code ∧ (p.setAttribute typ v).1.data = p.data ∧
        ∀ j, attrsOf (p.setAttribute typ v).1 j = if j = k then v else attrsOf p j
    | none => p.setAttribute typ v = (p, .error .indexError) ∧ p.getAttribute typ = .error .indexError := by
  unfold attrSlot OProp.setAttribute OProp.getAttribute
  have cases7 : typ = 0 ∨ typ = 1 ∨ typ = 2 ∨ typ = -1 ∨ typ = -2 ∨ typ = -3 ∨ (typ < -3 ∨ 2 < typ) := by omega
  rcases cases7 with h | h | h | h | h | h | h
  · subst h
    refine ⟨rfl, rfl, rfl, rfl, ?_⟩
    intro j; match j with | 0 => rfl | 1 => rfl | 2 => rfl
  · subst h
    refine ⟨rfl, rfl, rfl, rfl, ?_⟩
    intro j; match j with | 0 => rfl | 1 => rfl | 2 => rfl
  · subst h
    refine ⟨rfl, rfl, rfl, rfl, ?_⟩
    intro j; match j with | 0 => rfl | 1 => rfl | 2 => rfl
  · subst h
    refine ⟨rfl, rfl, rfl, rfl, ?_⟩
    intro j; match j with | 0 => rfl | 1 => rfl | 2 => rfl
  · subst h
    refine ⟨rfl, rfl, rfl, rfl, ?_⟩
    intro j; match j with | 0 => rfl | 1 => rfl | 2 => rfl
  · subst h
    refine ⟨rfl, rfl, rfl, rfl, ?_⟩
    intro j; match j with | 0 => rfl | 1 => rfl | 2 => rfl
  · rw [if_neg (by omega), if_neg (by omega), if_neg (by omega)]
    simp only []
    have : ∀ i : Int, i = (if typ < 0 then typ + 3 else typ) → i ≠ 0 ∧ i ≠ 1 ∧ i ≠ 2 := by
      intro i hi; split at hi <;> omega
    obtain ⟨h0, h1, h2⟩ := this _ rfl
    rw [if_neg h0, if_neg h1, if_neg h2, if_neg h0, if_neg h1, if_neg h2]
    exact ⟨rfl, rfl⟩

/-- C25. With the names a program uses: `set_attribute(GET, v)` decides who may read, `SET` who may write, `ANNO` what may be announced, each without the others; `REQUIRED` and
`OPTIONAL` permit, `PROHIBITED` does not, and only `REQUIRED` requires. -/
theorem C25_named (p : OProp) (v : Int) (hv : v = OProp.PROHIBITED ∨ v = OProp.REQUIRED ∨ v = OProp.OPTIONAL) :
    ((p.setAttribute OProp.GET v).1.isReadEnabled = true ↔ v ≠ OProp.PROHIBITED) ∧ ((p.setAttribute OProp.GET v).1.isReadRequired = true ↔ v = OProp.REQUIRED) ∧
    (p.setAttribute OProp.GET v).1.isWriteEnabled = p.isWriteEnabled ∧ (p.setAttribute OProp.GET v).1.isAnnounceEnabled = p.isAnnounceEnabled ∧
    ((p.setAttribute OProp.SET v).1.isWriteEnabled = true ↔ v ≠ OProp.PROHIBITED) ∧ ((p.setAttribute OProp.SET v).1.isWriteRequired = true ↔ v = OProp.REQUIRED) ∧
    (p.setAttribute OProp.SET v).1.isReadEnabled = p.isReadEnabled ∧ (p.setAttribute OProp.SET v).1.isAnnounceEnabled = p.isAnnounceEnabled ∧
    ((p.setAttribute OProp.ANNO v).1.isAnnounceEnabled = true ↔ v ≠ OProp.PROHIBITED) ∧ ((p.setAttribute OProp.ANNO v).1.isAnnounceRequired = true ↔ v = OProp.REQUIRED) ∧
    (p.setAttribute OProp.ANNO v).1.isReadEnabled = p.isReadEnabled ∧ (p.setAttribute OProp.ANNO v).1.isWriteEnabled = p.isWriteEnabled := by
  rcases hv with rfl | rfl | rfl <;> refine ⟨?_, ?_, rfl, rfl, ?_, ?_, rfl, rfl, ?_, ?_, rfl, rfl⟩ <;>
    simp [OProp.setAttribute, OProp.GET, OProp.SET, OProp.ANNO, OProp.isReadEnabled, OProp.isReadRequired, OProp.isWriteEnabled, OProp.isWriteRequired,
      OProp.isAnnounceEnabled, OProp.isAnnounceRequired, OProp.isAttributeEnabled, OProp.isAttributeRequired, OProp.REQUIRED, OProp.OPTIONAL, OProp.PROHIBITED]

example : ({ code := 0x80, attrGet := 1 } : OProp).setAttribute (-2) 2 =
    ({ code := 0x80, attrGet := 1, attrSet := 2 }, .ok ()) := rfl

/-! ### C31 -/

/-- Calls that change the property store. -/
inductive StoreOp where
  | add (p : OProp)
  | setData (c : Int) (d : Bytes)
  | setStr (c : Int) (s : String)
  | setInt (c v : Int) (size : Nat)

/-- The calls on the object; the Boolean is the call's result. -/
def StoreOp.run (o : Obj) : StoreOp → Obj × Except Exc Bool
  | .add p => (o.addPropertyBase p, .ok true)                                 -- object.py:222-227
  | .setData c d => let (o, b) := o.setPropertyData c d; (o, .ok b)
  | .setStr c s => let (o, b) := o.setPropertyString c s; (o, .ok b)
  | .setInt c v n => o.setPropertyInteger c v n

def runStore (o : Obj) : List StoreOp → Obj × List (Except Exc Bool)
  | [] => (o, [])
  | op :: ops =>
    let (o, r) := op.run o
    let (o, rs) := runStore o ops
    (o, r :: rs)

/-- The specification: a finite map and the order in which codes were first stored. -/
structure AbsStore where
  map : Int → Option OProp
  order : List Int

def AbsStore.put (a : AbsStore) (c : Int) (p : OProp) : AbsStore where
  map c' := if c' = c then some p else a.map c'
  order := if (a.map c).isSome then a.order else a.order ++ [c]

/-- storing data under a known code -/
def AbsStore.write (a : AbsStore) (c : Int) (d : Bytes) : AbsStore × Bool :=
  match a.map c with
  | some p => (a.put c { p with data := d }, true)
  | none => (a, false)

def AbsStore.step (a : AbsStore) : StoreOp → AbsStore × Bool
  | .add p => (a.put p.code p, true)
  | .setData c d => a.write c d
  | .setStr c s => a.write c s.toUTF8.toList
  | .setInt c v n => a.write c (beDigits v n)

def AbsStore.run (a : AbsStore) : List StoreOp → AbsStore × List Bool
  | [] => (a, [])
  | op :: ops =>
    let (a, r) := a.step op
    let (a, rs) := a.run ops
    (a, r :: rs)

/-- The object shows exactly the abstract store. -/
def Shows (o : Obj) (a : AbsStore) : Prop :=
  (∀ c, o.getProperty c = a.map c) ∧ o.props.map Prod.fst = a.order

theorem shows_write (o : Obj) (a : AbsStore) (c : Int) (d : Bytes) (h : Shows o a) :
    Shows (o.setPropertyData c d).1 (a.write c d).1 ∧ (o.setPropertyData c d).2 = (a.write c d).2 := by
  unfold Obj.setPropertyData AbsStore.write
  rw [h.1 c]
  cases hc : a.map c with
  | none => exact ⟨h, rfl⟩
  | some p =>
    refine ⟨⟨?_, ?_⟩, rfl⟩
    · intro c'
      have hg : o.props.get? c' = a.map c' := h.1 c'
      have := Dict.get?_modify o.props c (fun p => { p with data := d }) c'
      show (o.storeData c d).props.get? c' = _
      unfold Obj.storeData
      rw [this, hg]
      simp only [AbsStore.put]
      by_cases hcc : c' = c
      · subst hcc; simp [hc]
      · simp [hcc, Ne.symm hcc]
    · have := Dict.keys_modify o.props c (fun p => { p with data := d })
      show (o.storeData c d).props.keys = _
      unfold Obj.storeData
      rw [this]
      simp only [AbsStore.put, hc, Option.isSome_some, if_true]
      exact h.2

/-- C31. Any sequence of calls on any object refines the map: same results, same contents, same
order; `set_property_integer` with a non-negative size never raises. -/
theorem C31_refines (ops : List StoreOp) : ∀ (o : Obj) (a : AbsStore), Shows o a →
    Shows (runStore o ops).1 (a.run ops).1 ∧ (runStore o ops).2 = (a.run ops).2.map Except.ok := by
  induction ops with
  | nil => intro o a h; exact ⟨h, rfl⟩
  | cons op ops ih =>
    intro o a h
    have step : Shows (op.run o).1 (a.step op).1 ∧ (op.run o).2 = .ok (a.step op).2 := by
      cases op with
      | add p =>
        refine ⟨⟨?_, ?_⟩, rfl⟩
        · intro c'
          have := Dict.get?_set o.props p.code p c'
          have hg : o.props.get? c' = a.map c' := h.1 c'
          show (o.addPropertyBase p).props.get? c' = _
          unfold Obj.addPropertyBase
          rw [this, hg]
          simp only [AbsStore.step, AbsStore.put]
          by_cases hc : c' = p.code
          · subst hc; simp
          · simp [hc, Ne.symm hc]
        · have := Dict.keys_set o.props p.code p
          have hg : o.props.get? p.code = a.map p.code := h.1 p.code
          have hk : o.props.keys = a.order := h.2
          have hm := Dict.get?_isSome_iff o.props p.code
          show (o.addPropertyBase p).props.keys = _
          unfold Obj.addPropertyBase
          rw [this, hk]
          simp only [AbsStore.step, AbsStore.put]
          rw [hg, hk] at hm
          by_cases hc : p.code ∈ a.order
          · simp [hc, hm.mpr hc]
          · have : (a.map p.code).isSome = false := by
              cases hx : (a.map p.code).isSome with
              | true => exact absurd (hm.mp hx) hc
              | false => rfl
            simp [hc, this]
      | setData c d =>
        obtain ⟨h1, h2⟩ := shows_write o a c d h
        refine ⟨h1, ?_⟩
        show Except.ok (o.setPropertyData c d).2 = Except.ok (a.write c d).2
        rw [h2]
      | setStr c s =>
        obtain ⟨h1, h2⟩ := shows_write o a c s.toUTF8.toList h
        refine ⟨h1, ?_⟩
        show Except.ok (o.setPropertyData c s.toUTF8.toList).2 = Except.ok (a.write c s.toUTF8.toList).2
        rw [h2]
      | setInt c v n =>
        have hb : fromIntPy v (n : Int) = .ok (beDigits v n) := by
          rw [fromIntPy, if_neg (by omega), Int.toNat_natCast, fromInt_eq_beDigits]
        obtain ⟨h1, h2⟩ := shows_write o a c (beDigits v n) h
        constructor
        · show Shows (o.setPropertyInteger c v n).1 _
          unfold Obj.setPropertyInteger; rw [hb]; exact h1
        · show (o.setPropertyInteger c v n).2 = _
          unfold Obj.setPropertyInteger; rw [hb]
          show Except.ok (o.setPropertyData c (beDigits v n)).2 = Except.ok (a.write c (beDigits v n)).2
          rw [h2]
    obtain ⟨i1, i2⟩ := ih _ _ step.1
    refine ⟨i1, ?_⟩
    show (op.run o).2 :: (runStore (op.run o).1 ops).2 = _
    rw [step.2, i2]; rfl

/-- C31. What the other readers see, and that no code is ever stored twice. -/
theorem C31_readers (ops : List StoreOp) (o : Obj) (a : AbsStore) (h : Shows o a) (hn : a.order.Nodup) :
    let o' := (runStore o ops).1
    let a' := (a.run ops).1
    (∀ c, o'.getPropertyData c = (a'.map c).map OProp.data) ∧
    (∀ c, o'.hasProperty c = (a'.map c).isSome) ∧
    a'.order.Nodup ∧ (∀ c, c ∈ a'.order ↔ (a'.map c).isSome = true) := by
  intro o' a'
  obtain ⟨h1, h2⟩ := (C31_refines ops o a h).1
  have hkeys : ∀ (ops : List StoreOp) (o : Obj), (o.props.map Prod.fst).Nodup →
      ((runStore o ops).1.props.map Prod.fst).Nodup := by
    intro ops
    induction ops with
    | nil => intro o h; exact h
    | cons op ops ih =>
      intro o h
      apply ih
      have hsd : ∀ c d, ((o.setPropertyData c d).1.props.map Prod.fst).Nodup := by
        intro c d
        unfold Obj.setPropertyData
        split
        · exact h
        · have := Dict.keys_modify o.props c (fun p => { p with data := d })
          show ((o.storeData c d).props.keys).Nodup
          unfold Obj.storeData; rw [this]; exact h
      cases op with
      | add p => exact Dict.nodup_keys_set o.props p.code p h
      | setData c d => exact hsd c d
      | setStr c s => exact hsd c _
      | setInt c v n =>
        show ((o.setPropertyInteger c v n).1.props.map Prod.fst).Nodup
        unfold Obj.setPropertyInteger
        split
        · exact h
        · exact hsd c _
  refine ⟨?_, ?_, ?_, ?_⟩
  · intro c
    have : o'.props.get? c = a'.map c := h1 c
    unfold Obj.getPropertyData
    rw [this]; cases a'.map c <;> rfl
  · intro c
    unfold Obj.hasProperty
    rw [show o'.getProperty c = a'.map c from h1 c]; cases a'.map c <;> rfl
  · rw [← show o'.props.map Prod.fst = a'.order from h2]
    exact hkeys ops o (by rw [h.2]; exact hn)
  · intro c
    rw [← show o'.props.map Prod.fst = a'.order from h2, ← show o'.getProperty c = a'.map c from h1 c]
    exact (Dict.get?_isSome_iff o'.props c).symm

/-- every fresh object shows the empty map -/
example (code : Int) : Shows { code := code } { map := fun _ => none, order := [] } := ⟨fun _ => rfl, rfl⟩
example : (runStore {} [.add { code := 0x80 }, .setData 0x81 [1], .setInt 0x80 258 2, .setStr 0x80 "A"]).2 =
    [.ok true, .ok false, .ok true, .ok true] := by decide +kernel

/-! ### C32, C34: codes -/

theorem groupCode_eq (code : Int) : groupCode code = code / 65536 % 256 := by
  unfold groupCode; rw [pyAnd_255, pyShr_eq]; norm_num
theorem classCode_eq (code : Int) : classCode code = code / 256 % 256 := by
  unfold classCode; rw [pyAnd_255, pyShr_eq]; norm_num
theorem instanceCode_eq (code : Int) : instanceCode code = code % 256 := by
  unfold instanceCode; rw [pyAnd_255]

/-- The code with the given bytes. -/
def codeOf (g c i : Nat) : Int := 65536 * g + 256 * c + i

theorem setCode_tuple3 (old : Int) (g c i : Nat) (hg : g < 256) (hc : c < 256) (hi : i < 256) :
    setCode old (.tuple [(g : Int), c, i]) = (codeOf g c i, true) := by
  unfold setCode setInstanceCode setClassCode setGroupCode
  simp only [pyAnd_255, Prod.mk.injEq, and_true]
  have e1 : ((g : Int) % 256) = g := by omega
  have e2 : ((c : Int) % 256) = c := by omega
  have e3 : ((i : Int) % 256) = i := by omega
  rw [e1, e2, e3]
  have s1 : pyOr 0 (pyShl (g : Int) 16) = ((g * 2 ^ 16 : Nat) : Int) := by
    have := pyOr_add 0 (g * 2 ^ 16) 24 (by omega)
    simp only [Nat.zero_mul, Nat.zero_add] at this
    rw [← this]; rfl
  have s2 : pyOr ((g * 2 ^ 16 : Nat) : Int) (pyShl (c : Int) 8) = ((g * 2 ^ 16 + c * 2 ^ 8 : Nat) : Int) := by
    have := pyOr_add g (c * 2 ^ 8) 16 (by omega)
    rw [← this]; rfl
  have s3 : pyOr ((g * 2 ^ 16 + c * 2 ^ 8 : Nat) : Int) (i : Int) = ((g * 2 ^ 16 + c * 2 ^ 8 + i : Nat) : Int) := by
    have := pyOr_add (g * 2 ^ 8 + c) i 8 (by omega)
    rw [show (g * 2 ^ 8 + c) * 2 ^ 8 = g * 2 ^ 16 + c * 2 ^ 8 by ring] at this
    exact this
  rw [s1, s2, s3]
  unfold codeOf
  push_cast
  ring

theorem setCode_tuple2 (old : Int) (g c : Nat) (hg : g < 256) (hc : c < 256) :
    setCode old (.tuple [(g : Int), c]) = (codeOf g c 0, true) := by
  have h := setCode_tuple3 old g c 0 hg hc (by omega)
  rw [← h]
  unfold setCode
  simp only [Prod.mk.injEq, and_true]
  unfold setInstanceCode
  have h0 : pyAnd ((0 : Nat) : Int) 0xFF = 0 := by rw [pyAnd_255]; rfl
  rw [h0]
  apply bitAt_ext
  intro k
  rw [bitAt_or]
  have : bitAt 0 k = false := by unfold bitAt; simp
  rw [this, Bool.or_false]

/-- C32. `set_code` of an int stores any int; of a byte triple or pair, the int with those bytes. -/
theorem C32_set_code (old n : Int) (g c i : Nat) (hg : g < 256) (hc : c < 256) (hi : i < 256) :
    setCode old (.int n) = (n, true) ∧
    setCode old (.tuple [(g : Int), c, i]) = setCode old (.int (codeOf g c i)) ∧
    setCode old (.tuple [(g : Int), c]) = setCode old (.int (codeOf g c 0)) :=
  ⟨rfl, setCode_tuple3 old g c i hg hc hi, setCode_tuple2 old g c hg hc⟩

/-- C32. The getters return the three bytes, and every int is determined modulo 2^24 by them. -/
theorem C32_components (g c i : Nat) (hg : g < 256) (hc : c < 256) (hi : i < 256) (n : Int) :
    groupCode (codeOf g c i) = g ∧ classCode (codeOf g c i) = c ∧ instanceCode (codeOf g c i) = i ∧
    (0 ≤ groupCode n ∧ groupCode n < 256 ∧ 0 ≤ classCode n ∧ classCode n < 256 ∧
      0 ≤ instanceCode n ∧ instanceCode n < 256) ∧
    65536 * groupCode n + 256 * classCode n + instanceCode n = n % 16777216 := by
  simp only [groupCode_eq, classCode_eq, instanceCode_eq, codeOf]
  omega

/-- C32. The membership tests compare exactly the named bytes. -/
theorem C32_is_code (n m g c i : Int) :
    (isCode n (.int m) = true ↔ n = m) ∧ (isCode n (.obj m) = true ↔ n = m) ∧
    (isGroup n g = true ↔ n / 65536 % 256 = g) ∧
    (isClass n g c = true ↔ n / 65536 % 256 = g ∧ n / 256 % 256 = c) ∧
    (isCode n (.tuple [g, c, i]) = true ↔ n / 65536 % 256 = g ∧ n / 256 % 256 = c ∧ n % 256 = i) ∧
    isCode n .none = false ∧ isCode n .other = false := by
  unfold isGroup isClass isCode
  simp only [groupCode_eq, classCode_eq, instanceCode_eq]
  refine ⟨?_, ?_, ?_, ?_, ?_, trivial, trivial⟩
  · by_cases h : n = m <;> simp [h]
  · by_cases h : n = m <;> simp [h]
  · by_cases h : n / 65536 % 256 = g <;> simp [h]
  · by_cases h : n / 65536 % 256 = g <;> by_cases h2 : n / 256 % 256 = c <;> simp [h, h2]
  · by_cases h : n / 65536 % 256 = g <;> by_cases h2 : n / 256 % 256 = c <;> by_cases h3 : n % 256 = i <;>
      simp [h, h2, h3]

/-- C32. Malformed codes are refused and change nothing. -/
theorem C32_refused (old : Int) (l : List Int) (hl : l.length ≠ 2) (hl' : l.length ≠ 3) :
    setCode old (.tuple l) = (old, false) ∧ setCode old .none = (old, false) ∧ setCode old .other = (old, false) := by
  refine ⟨?_, rfl, rfl⟩
  match l with
  | [] => rfl
  | [_] => rfl
  | [_, _] => simp at hl
  | [_, _, _] => simp at hl'
  | _ :: _ :: _ :: _ :: _ => rfl

example : setCode 5 (.tuple [0x02, 0x91, 0x01]) = (0x029101, true) := by decide +kernel

/-- C33 (first half), as documented: false. -/
theorem C33_set_code_object_false :
    ¬ ∀ old c : Int, setCode old (.obj c) = (c, true) := by
  intro h; have := h 0 0; simp [setCode] at this

/-- C33 (first half), what holds: the code is copied although `False` is returned. Missing: the
return value. -/
theorem C33_set_code_object_partial (old c : Int) :
    (setCode old (.obj c)).1 = (setCode old (.int c)).1 ∧ (setCode old (.obj c)).2 = false := ⟨rfl, rfl⟩

/-! C34 -/

theorem byte_bits {v : Int} {k : Nat} (h : k ≥ 8) : bitAt (v % 256) k = false := by
  have := bitAt_emod v 8 k
  norm_num at this
  rw [this]; simp; omega

/-- C34, as documented: false. -/
theorem C34_setters_false : ¬ ∀ code v : Int, groupCode (setGroupCode code v) = v % 256 := by
  intro h
  have := h 0x010000 2
  revert this; decide +kernel

/-- C34, what holds: a setter leaves the other two bytes alone and ORs the new byte into the old one;
so it assigns exactly when the old byte has no bit outside the new one (for instance when it was 0).
Missing: the other cases. -/
theorem C34_setters_partial (code v : Int) :
    (groupCode (setGroupCode code v) = pyOr (groupCode code) (v % 256) ∧
      classCode (setGroupCode code v) = classCode code ∧ instanceCode (setGroupCode code v) = instanceCode code) ∧
    (classCode (setClassCode code v) = pyOr (classCode code) (v % 256) ∧
      groupCode (setClassCode code v) = groupCode code ∧ instanceCode (setClassCode code v) = instanceCode code) ∧
    (instanceCode (setInstanceCode code v) = pyOr (instanceCode code) (v % 256) ∧
      groupCode (setInstanceCode code v) = groupCode code ∧ classCode (setInstanceCode code v) = classCode code) := by
  have m : ∀ k, bitAt (v % 256) k = (bitAt v k && decide (k < 8)) := fun k => bitAt_emod v 8 k
  refine ⟨⟨?_, ?_, ?_⟩, ⟨?_, ?_, ?_⟩, ⟨?_, ?_, ?_⟩⟩
  all_goals
    apply bitAt_ext
    intro k
    simp only [groupCode, classCode, instanceCode, setGroupCode, setClassCode, setInstanceCode, bitAt_and, bitAt_or,
      bitAt_shr, bitAt_shl, bitAt_255, m]
    by_cases hk : k < 8
    · have h1 : ¬ (16 + k < 16) := by omega
      have h2 : 8 + k < 16 := by omega
      have h3 : k < 16 := by omega
      have h4 : ¬ (8 + k < 8) := by omega
      have h5 : ¬ (16 + k < 8) := by omega
      have h6 : ¬ (16 + k - 8 < 8) := by omega
      simp [hk, h2, h3] <;> omega
    · simp [hk]

/-- C34, when a setter assigns. -/
theorem C34_setters_iff_partial (code v : Int) :
    (groupCode (setGroupCode code v) = v % 256 ↔ ∀ k < 8, groupCode code / (2 ^ k : Nat) % 2 = 1 → v / (2 ^ k : Nat) % 2 = 1) ∧
    (classCode (setClassCode code v) = v % 256 ↔ ∀ k < 8, classCode code / (2 ^ k : Nat) % 2 = 1 → v / (2 ^ k : Nat) % 2 = 1) ∧
    (instanceCode (setInstanceCode code v) = v % 256 ↔
      ∀ k < 8, instanceCode code / (2 ^ k : Nat) % 2 = 1 → v / (2 ^ k : Nat) % 2 = 1) := by
  obtain ⟨⟨h1, -⟩, ⟨h2, -⟩, ⟨h3, -⟩⟩ := C34_setters_partial code v
  have key : ∀ w : Int, 0 ≤ w → w < 256 →
      (pyOr w (v % 256) = v % 256 ↔ ∀ k < 8, w / (2 ^ k : Nat) % 2 = 1 → v / (2 ^ k : Nat) % 2 = 1) := by
    intro w hw0 hw
    have hw' : w = w % 256 := by omega
    have m : ∀ k, bitAt (v % 256) k = (bitAt v k && decide (k < 8)) := fun k => bitAt_emod v 8 k
    constructor
    · intro h k hk hb
      have := congrArg (fun x => bitAt x k) h
      simp only [bitAt_or, m, hk, decide_true, Bool.and_true] at this
      have hb' : bitAt w k = true := by unfold bitAt; exact decide_eq_true hb
      rw [hb', Bool.true_or] at this
      have := this.symm
      unfold bitAt at this
      exact of_decide_eq_true this
    · intro h
      apply bitAt_ext
      intro k
      rw [bitAt_or]
      by_cases hk : k < 8
      · cases hb : bitAt w k with
        | false => simp
        | true =>
          rw [m]
          have : bitAt v k = true := by
            unfold bitAt at hb ⊢
            exact decide_eq_true (h k hk (of_decide_eq_true hb))
          simp [this, hk]
      · have : bitAt w k = false := by rw [hw']; exact byte_bits (by omega)
        rw [this, Bool.false_or]
  rw [h1, h2, h3]
  obtain ⟨-, -, -, ⟨a1, a2, a3, a4, a5, a6⟩, -⟩ := C32_components 0 0 0 (by omega) (by omega) (by omega) code
  exact ⟨key _ a1 a2, key _ a3 a4, key _ a5 a6⟩

example : groupCode (setGroupCode 0x020000 3) = 3 := by decide +kernel

/-! ### C35 -/

/-- C35. `send_message`/`post_message` build a message exactly from lists of (int, bytes) pairs; it
carries the object's code as DEOJ, the ESV and the pairs, in order. -/
theorem C35_built_message (o : Obj) (esv : Int) (arg : Option (List Obj.PyItem)) :
    (∀ l : List (Int × Bytes), arg = some (l.map fun cd => .pair cd.1 cd.2) →
      o.createMessage esv arg = some { deoj := o.code, esv := esv, props := l.map fun cd => { code := cd.1, data := cd.2 } }) ∧
    ((¬ ∃ l : List (Int × Bytes), arg = some (l.map fun cd => .pair cd.1 cd.2)) → o.createMessage esv arg = none) := by
  have loop : ∀ (l : List (Int × Bytes)) (m : Msg), Obj.createLoop m (l.map fun cd => .pair cd.1 cd.2) =
      some { m with props := m.props ++ l.map fun cd => { code := cd.1, data := cd.2 } } := by
    intro l
    induction l with
    | nil => intro m; simp [Obj.createLoop]
    | cons cd l ih => intro m; simp [Obj.createLoop, ih]
  have bad : ∀ (items : List Obj.PyItem) (m : Msg),
      (¬ ∃ l : List (Int × Bytes), items = l.map fun cd => .pair cd.1 cd.2) → Obj.createLoop m items = none := by
    intro items
    induction items with
    | nil => intro m h; exact absurd ⟨[], rfl⟩ h
    | cons it items ih =>
      intro m h
      cases it with
      | bad => rfl
      | pair c d =>
        unfold Obj.createLoop
        apply ih
        rintro ⟨l, rfl⟩
        exact h ⟨(c, d) :: l, rfl⟩
  constructor
  · rintro l rfl
    simp [Obj.createMessage, loop]
  · intro h
    cases arg with
    | none => rfl
    | some items =>
      unfold Obj.createMessage
      exact bad items _ (fun ⟨l, hl⟩ => h ⟨l, by rw [hl]⟩)

/-- C35, as documented (the datagram carries the given properties): false. -/
theorem C35_datagram_false :
    ¬ ∀ (o : Obj) (esv : Int) (l : List (Int × Bytes)) (m : Msg) (b : Bytes),
      o.createMessage esv (some (l.map fun cd => .pair cd.1 cd.2)) = some m → m.toBytes = .ok b →
      ((Msg.parseBytes {} b).1.allProps = l.map fun cd => { code := cd.1, data := cd.2 }) := by
  intro h
  have := h { code := 0x029101 } 0x6E [(0x80, [0x30])]
    { deoj := 0x029101, esv := 0x6E, props := [{ code := 0x80, data := [0x30] }] }
    [0x10, 0x81, 0, 0, 0, 0, 0, 0x02, 0x91, 0x01, 0x6E, 0, 0] (by decide) (by decide)
  revert this; decide

/-- C35, what holds. Whatever TID and SEOJ are filled in when it is sent, the datagram decodes to a
message for this object with the given service; it carries exactly the given pairs unless the service
is a write-read one, in which case it carries nothing. Missing: the properties of write-read
requests. -/
theorem C35_datagram_partial (o : Obj) (esv tid seoj : Int) (l : List (Int × Bytes)) (m : Msg) (b : Bytes)
    (hm : o.createMessage esv (some (l.map fun cd => .pair cd.1 cd.2)) = some m)
    (hb : ({ m with tid := tid, seoj := seoj } : Msg).toBytes = .ok b) :
    let r := Msg.parseBytes {} b
    r.2 = .ok true ∧ r.1.deoj = o.code % 2 ^ 24 ∧ r.1.esv = esv ∧
    (¬ TwoSections esv → r.1.props = l.map (fun cd => { code := cd.1, data := cd.2 }) ∧
      r.1.setProps = [] ∧ r.1.getProps = []) ∧
    (TwoSections esv → r.1.allProps = []) := by
  rw [(C35_built_message o esv _).1 l rfl] at hm
  injection hm with hm
  subst hm
  obtain ⟨hok, rfl⟩ := (toBytes_ok_iff _ b).mp hb
  have := parseBytes_encode {} _ [] hok
  rw [List.append_nil, absorb_fresh] at this
  intro r
  have hr : r = _ := this
  rw [hr]
  refine ⟨rfl, rfl, rfl, ?_, ?_⟩
  · intro h; simp [onWire, h]
  · intro h; simp [onWire, h, Msg.allProps]

example : ({ code := 0x029101 } : Obj).createMessage 0x61 (some [.pair 0x80 [0x30], .bad]) = none := rfl
example : ({ deoj := 0x029101, esv := 0x61, tid := 1, seoj := 0x0EF001, props := [{ code := 0x80, data := [0x30] }] } : Msg).toBytes =
    .ok [0x10, 0x81, 0, 1, 0x0E, 0xF0, 1, 0x02, 0x91, 0x01, 0x61, 1, 0x80, 1, 0x30] := by decide

end Uecho
