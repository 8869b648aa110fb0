/-
Properties C33 (second half), C36–C41: the standard database and standard devices.
-/
import Verif.Lemmas.Std

namespace Uecho
open Spec

/-! C36, C38: looking classes up -/

/-- What a lookup result should be: nothing for a class in neither table, otherwise a faithful copy
of its entry. -/
def LooksUp (r : Option Obj) (g c : Int) : Prop :=
  match stdClass g c with
  | none => r = none
  | some e => ∃ o, r = some o ∧ Loaded g c e o

/-- C36. Whatever the form of the code, the result depends only on its group and class bytes: it is
that class as the tables give it, and `None` if they do not; the instance byte plays no part.
Malformed codes (`None`, tuples of other lengths, other values) give `None`. -/
theorem C36_get_object :
    (∀ n : Int, LooksUp (dbGetObject stdObjects (.int n)) (n / 65536 % 256) (n / 256 % 256)) ∧
    (∀ g c : Int, LooksUp (dbGetObject stdObjects (.tuple [g, c])) (g % 256) (c % 256)) ∧
    (∀ g c i : Int, dbGetObject stdObjects (.tuple [g, c, i]) = dbGetObject stdObjects (.tuple [g, c])) ∧
    (∀ n m : Int, n / 256 % 65536 = m / 256 % 65536 → dbGetObject stdObjects (.int n) = dbGetObject stdObjects (.int m)) ∧
    dbGetObject stdObjects .none = none ∧ dbGetObject stdObjects .other = none ∧
    ∀ l : List Int, l.length ≠ 2 → l.length ≠ 3 → dbGetObject stdObjects (.tuple l) = none := by
  have key : ∀ n : Int, LooksUp (Dict.get? stdObjects (groupCode n, classCode n)) (n / 65536 % 256) (n / 256 % 256) := by
    intro n
    rw [groupCode_eq, classCode_eq, get?_stdObjects]
    unfold LooksUp
    cases h : stdClass (n / 65536 % 256) (n / 256 % 256) with
    | none => rfl
    | some e => exact ⟨_, rfl, loaded_stdObject h⟩
  have two : ∀ g c : Int, groupCode (setClassCode (setGroupCode 0 g) c) = g % 256 ∧
      classCode (setClassCode (setGroupCode 0 g) c) = c % 256 := by
    intro g c
    rw [tuple2_code, groupCode_eq, classCode_eq]
    omega
  have three : ∀ g c i : Int, groupCode (setInstanceCode (setClassCode (setGroupCode 0 g) c) i) = g % 256 ∧
      classCode (setInstanceCode (setClassCode (setGroupCode 0 g) c) i) = c % 256 := by
    intro g c i
    rw [tuple3_code, groupCode_eq, classCode_eq]
    omega
  refine ⟨key, ?_, ?_, ?_, rfl, rfl, ?_⟩
  · intro g c
    have := key (setClassCode (setGroupCode 0 g) c)
    have e1 := (two g c).1
    have e2 := (two g c).2
    rw [groupCode_eq] at e1
    rw [classCode_eq] at e2
    rw [e1, e2] at this
    exact this
  · intro g c i
    show Dict.get? stdObjects _ = Dict.get? stdObjects _
    rw [(two g c).1, (two g c).2, (three g c i).1, (three g c i).2]
  · intro n m h
    show Dict.get? stdObjects _ = Dict.get? stdObjects _
    rw [groupCode_eq, classCode_eq, groupCode_eq, classCode_eq]
    have e1 : n / 65536 % 256 = m / 65536 % 256 := by omega
    have e2 : n / 256 % 256 = m / 256 % 256 := by omega
    rw [e1, e2]
  · intro l h2 h3
    match l with
    | [] => rfl
    | [a] => rfl
    | [a, b] => simp at h2
    | [a, b, c] => simp at h3
    | a :: b :: c :: d :: t => rfl

/-- C38. The tables have one entry per class; each entry is stored under its own group and class and
all its property codes are in 0x80–0xFF; each class of either table is in the database, as a faithful
copy of the MRA entry if there is one; after loading no code is repeated and each property carries
its key as code (`Loaded`). -/
theorem C38_tables :
    (StdData.mra.map StdEntry.key).Nodup ∧ (StdData.scsl.map StdEntry.key).Nodup ∧
    (∀ e, e ∈ StdData.mra ∨ e ∈ StdData.scsl → e.key = (e.group, e.cls) ∧ ∀ l ∈ e.props, 0x80 ≤ l.1 ∧ l.1 < 0x100) ∧
    (∀ e ∈ StdData.mra, ∃ o, Dict.get? stdObjects e.key = some o ∧ Loaded e.group e.cls e o) ∧
    (∀ e ∈ StdData.scsl, (∀ e' ∈ StdData.mra, e'.key ≠ e.key) →
      ∃ o, Dict.get? stdObjects e.key = some o ∧ Loaded e.group e.cls e o) ∧
    (∀ g c : Int, (Dict.get? stdObjects (g, c)).isSome = true →
      ∃ e, (e ∈ StdData.mra ∨ e ∈ StdData.scsl) ∧ e.key = (g, c)) := by
  have n1 : (StdData.mra.map StdEntry.key).Nodup := by decide +kernel
  have n2 : (StdData.scsl.map StdEntry.key).Nodup := by decide +kernel
  have found : ∀ (t : List StdEntry), (t.map StdEntry.key).Nodup → ∀ e ∈ t, entryIn t e.key.1 e.key.2 = some e := by
    intro t hn e he
    have hm : ((t.filter fun e' => decide (e'.key = (e.key.1, e.key.2))).getLast?).isSome = true := by
      rw [List.getLast?_isSome]
      intro h
      rw [List.filter_eq_nil_iff] at h
      exact h e he (by simp)
    obtain ⟨e', he'⟩ := Option.isSome_iff_exists.mp hm
    have h1 := entryIn_mem he'
    rw [show entryIn t e.key.1 e.key.2 = some e' from he']
    exact congrArg some (List.inj_on_of_nodup_map hn h1.1 he h1.2)
  refine ⟨n1, n2, ?_, ?_, ?_, ?_⟩
  · rintro e (h | h)
    · exact ⟨(mra_ok e h).1, (mra_ok e h).2.2.2⟩
    · exact ⟨(scsl_ok e h).1, (scsl_ok e h).2.2.2⟩
  · intro e he
    have h1 : stdClass e.key.1 e.key.2 = some e := by
      unfold stdClass; rw [found _ n1 e he]; rfl
    have h2 := (mra_ok e he).1
    refine ⟨stdObject e, ?_, ?_⟩
    · have := get?_stdObjects e.key.1 e.key.2
      rw [h1] at this; exact this
    · rw [h2] at h1; exact loaded_stdObject h1
  · intro e he hno
    have h0 : entryIn StdData.mra e.key.1 e.key.2 = none := by
      unfold entryIn
      have : (StdData.mra.filter fun e' => decide (e'.key = (e.key.1, e.key.2))) = [] := by
        rw [List.filter_eq_nil_iff]
        intro e' he' h
        exact hno e' he' (by simpa using h)
      rw [this]; rfl
    have h1 : stdClass e.key.1 e.key.2 = some e := by
      unfold stdClass; rw [h0, found _ n2 e he]; rfl
    have h2 := (scsl_ok e he).1
    refine ⟨stdObject e, ?_, ?_⟩
    · have := get?_stdObjects e.key.1 e.key.2
      rw [h1] at this; exact this
    · rw [h2] at h1; exact loaded_stdObject h1
  · intro g c h
    rw [get?_stdObjects] at h
    cases hs : stdClass g c with
    | none => rw [hs] at h; simp at h
    | some e => exact ⟨e, stdClass_mem hs⟩

/-- a class in the MRA table, one in the SCSL table only, one in neither -/
example : (stdClass 0x02 0x91).isSome = true ∧ (entryIn StdData.mra 0x02 0x91).isSome = true := by decide +kernel
example : ∃ e ∈ StdData.scsl, ∀ e' ∈ StdData.mra, e'.key ≠ e.key := by decide +kernel
example : stdClass 0x7F 0x01 = none := by decide +kernel

/-! C33 -/

/-- C33 (second half), as documented: false, for every object: the lookup gives `None`, although the
class of the object is in the tables. -/
theorem C33_get_object_false :
    (∀ c : Int, dbGetObject stdObjects (.obj c) = none) ∧
    ¬ ∀ c : Int, LooksUp (dbGetObject stdObjects (.obj c)) (c / 65536 % 256) (c / 256 % 256) := by
  refine ⟨fun c => rfl, fun h => ?_⟩
  have h := h 0x029101
  unfold LooksUp at h
  have : (stdClass (0x029101 / 65536 % 256) (0x029101 / 256 % 256)).isSome = true := by decide +kernel
  obtain ⟨e, he⟩ := Option.isSome_iff_exists.mp this
  rw [he] at h
  obtain ⟨o, ho, -⟩ := h
  exact absurd ho (by simp [dbGetObject, setCode])

/-- C33, consequence: `Device(obj)` raises nothing and has `obj`'s code, but no property at all. -/
theorem C33_device_of_object_false (ord : List Int → List Int) (c : Int) :
    StdObj.new ord stdObjects (.obj c) = ({ SuperObj.new with code := c }, .ok false) ∧
    ({ SuperObj.new with code := c } : Obj).props = [] := ⟨rfl, rfl⟩

/-- C33, consequence: a device or profile given an object as its code takes the code, says False, and keeps the properties of the class it had. -/
theorem C33_set_code_false (ord : List Int → List Int) (o : Obj) (c : Int) :
    StdObj.setCode ord stdObjects o (.obj c) = ({ o with code := c }, .ok false) ∧ ProfileObj.setCode ord stdObjects o (.obj c) = ({ o with code := c }, .ok false) := ⟨rfl, rfl⟩

/-! C37: manufacturers -/

/-- C37. Bytes and the integer they encode find the same manufacturer; every listed code is found
with its own code and name; anything else gives `None`; so a result always carries the code asked for. -/
theorem C37_manufacturers :
    (∀ b : Bytes, getManufacturer (.bytes b) = getManufacturer (.int (toInt b))) ∧
    (∀ k c name, (k, c, name) ∈ StdData.manufacturers → getManufacturer (.int k) = some (c, name) ∧ c = k ∧
      getManufacturerName (.int k) = some name) ∧
    (∀ k : Int, (∀ m ∈ StdData.manufacturers, m.1 ≠ k) →
      getManufacturer (.int k) = none ∧ getManufacturerName (.int k) = none) ∧
    (∀ k : Int, ∀ m, getManufacturer (.int k) = some m → m.1 = k ∧ (k, m) ∈ StdData.manufacturers) := by
  have nd : (StdData.manufacturers.map Prod.fst).Nodup := by decide +kernel
  have same : ∀ m ∈ StdData.manufacturers, m.2.1 = m.1 := by decide +kernel
  have eq : ∀ k, getManufacturer (.int k) =
      ((StdData.manufacturers.filter fun m => decide (m.1 = k)).getLast?).map Prod.snd := by
    intro k
    unfold getManufacturer stdManufacturers
    simp only []
    rw [get?_foldl_set]
    simp
  have hit : ∀ m ∈ StdData.manufacturers, getManufacturer (.int m.1) = some m.2 := by
    intro m hm
    rw [eq, getLast?_filter_nodup _ nd]
    exact Dict.get?_of_mem _ _ _ nd hm
  have miss : ∀ k : Int, (∀ m ∈ StdData.manufacturers, m.1 ≠ k) → getManufacturer (.int k) = none := by
    intro k h
    rw [eq]
    have : (StdData.manufacturers.filter fun m => decide (m.1 = k)) = [] := by
      rw [List.filter_eq_nil_iff]
      intro m hm; simpa using h m hm
    rw [this]; rfl
  refine ⟨fun b => rfl, ?_, ?_, ?_⟩
  · intro k c name h
    have h1 := hit _ h
    simp only [] at h1
    refine ⟨h1, same _ h, ?_⟩
    unfold getManufacturerName; rw [h1]
  · intro k h
    refine ⟨miss k h, ?_⟩
    unfold getManufacturerName; rw [miss k h]
  · intro k m h
    rw [eq] at h
    rw [Option.map_eq_some_iff] at h
    obtain ⟨m', hm', rfl⟩ := h
    have := List.mem_of_getLast? hm'
    rw [List.mem_filter] at this
    have hk : m'.1 = k := by simpa using this.2
    subst hk
    exact ⟨same _ this.1, this.1⟩

example : (0x000068, 0x000068, "AISIN CORPORATION") ∈ StdData.manufacturers := by decide +kernel
example : getManufacturer (.int (-1)) = none := by decide +kernel

/-! C39, C40: standard devices -/

theorem dev_shape {ord : List Int → List Int} (hord : ValidOrder ord) (n g c : Int) :
    let r1 := addAll ord { SuperObj.new with code := n } (classProps 0 0 ++ classProps g c)
    let r := SuperObj.updateMaps ord r1.1
    r1.2 = .ok () ∧ r.2 = .ok true ∧ r.1.code = n ∧ r.1.handler = .self_ ∧ r.1.observers = [] ∧ WellFormed r.1 ∧
    (∀ kp ∈ r.1.props, 0x80 ≤ kp.1 ∧ kp.1 < 0x100) ∧
    (∀ pc, (lookup r.1.props pc).map (fun p => { p with data := [] }) = deviceProp g c pc) ∧
    (∀ pc, pc ≠ 0x9D → pc ≠ 0x9E → pc ≠ 0x9F → lookup r.1.props pc = deviceProp g c pc) ∧
    WellFormed r1.1 ∧ (∀ c ∈ r1.1.props.map Prod.fst, 0x80 ≤ c ∧ c < 0x100) ∧ HasMaps r1.1 ∧ skeleton r.1 = skeleton r1.1 := by
  intro r1 r
  have hr : ∀ p ∈ classProps 0 0 ++ classProps g c, 0x80 ≤ p.code ∧ p.code < 0x100 := by
    intro p hp
    rw [List.mem_append] at hp
    rcases hp with h | h
    · exact classProps_range _ _ p h
    · exact classProps_range _ _ p h
  have hw0 : WellFormed ({ SuperObj.new with code := n } : Obj) := ⟨List.nodup_nil, fun kp h => absurd h List.not_mem_nil⟩
  have hk0 : ∀ c ∈ ({ SuperObj.new with code := n } : Obj).props.map Prod.fst, 0x80 ≤ c ∧ c < 0x100 :=
    fun c h => absurd h List.not_mem_nil
  have hl0 : ∀ pc, lookup ({ SuperObj.new with code := n } : Obj).props pc = none := fun pc => rfl
  obtain ⟨a1, a2, a3, a4, a5, -⟩ := addAll_shape hord _ _ hw0 hk0 hr
  obtain ⟨b1, b2, -, b3⟩ := addAll_exact hord _ _ hw0 hk0 hr
  have a5' : ∀ pc, (lookup r1.1.props pc).map (fun p => { p with data := [] }) = deviceProp g c pc := by
    intro pc
    have := a5 pc
    rw [lastProp_device, hl0, Option.or_none] at this
    rw [this]
    unfold deviceProp
    rw [Option.map_map]; rfl
  have isS : ∀ pc, (lookup r1.1.props pc).isSome = (deviceProp g c pc).isSome := by
    intro pc; rw [← a5']; simp
  have hm : HasMaps r1.1 := by
    obtain ⟨m1, m2, m3⟩ := device_maps g c
    exact ⟨by rw [isS]; exact m1, by rw [isS]; exact m2, by rw [isS]; exact m3⟩
  have hall := updateMaps_all hord r1.1 a2 (byteCodes_of_keys a2.1 a3) hm
  have hsk : skeleton r.1 = skeleton r1.1 := by
    show skeleton (SuperObj.updateMaps ord r1.1).1 = _
    rw [hall]; exact skeleton_afterWrites _ _
  refine ⟨a1, by show (SuperObj.updateMaps ord r1.1).2 = _; rw [hall], (congrArg Obj.code hsk).trans b1,
    (congrArg Obj.handler hsk).trans a4, (congrArg Obj.observers hsk).trans b2, wf_of_skeleton hsk a2, ?_, ?_, ?_, a2, a3, hm, hsk⟩
  · intro kp hkp
    apply a3
    rw [← keys_of_skeleton hsk]
    exact List.mem_map_of_mem hkp
  · intro pc
    rw [known_of_skeleton hsk, a5']
  · intro pc h1 h2 h3
    show lookup (SuperObj.updateMaps ord r1.1).1.props pc = _
    rw [hall, lookup_afterWrites]
    have : lastFor [{ code := 0x9D, data := kindData ord r1.1 .anno }, { code := 0x9F, data := kindData ord r1.1 .get },
        { code := 0x9E, data := kindData ord r1.1 .set }] pc = none := by
      unfold lastFor
      simp [Ne.symm h1, Ne.symm h2, Ne.symm h3]
    rw [this]
    have h := b3 pc h1 h2 h3
    rw [lastProp_device, hl0, Option.or_none] at h
    simp only [Option.getD_none]
    rw [show lookup r1.1.props pc = _ from h]
    cases deviceProp g c pc <;> rfl

/-- The device is built in that way, for every code `set_code` accepts. -/
theorem dev_eq {ord : List Int → List Int} (hord : ValidOrder ord) (code : PyCode) (n : Int) (h : setCode 0 code = (n, true)) :
    StdObj.new ord stdObjects code = SuperObj.updateMaps ord (addAll ord { SuperObj.new with code := n }
      (classProps 0 0 ++ classProps (n / 65536 % 256) (n / 256 % 256))).1 := by
  unfold StdObj.new StdObj.setCode
  have h' : setCode SuperObj.new.code code = (n, true) := h
  rw [h']
  simp only []
  have e0 : dbGetObject stdObjects StdObj.SUPER_CODE = Dict.get? stdObjects (0, 0) := by
    show Dict.get? stdObjects (groupCode 0, classCode 0) = _
    rw [groupCode_eq, classCode_eq]; rfl
  have e1 : dbGetObject stdObjects code = Dict.get? stdObjects (n / 65536 % 256, n / 256 % 256) := by
    unfold dbGetObject
    rw [h]
    simp only []
    rw [groupCode_eq, classCode_eq]
  rw [e0, e1, setObjectProperties_eq]
  have hs := (dev_shape hord n (n / 65536 % 256) (n / 256 % 256)).1
  simp only [addAll_append] at hs ⊢
  rcases ha : addAll ord { SuperObj.new with code := n } (classProps 0 0) with ⟨o1, e | u⟩
  · rw [ha] at hs; simp at hs
  · rw [ha] at hs
    simp only [] at hs ⊢
    rw [setObjectProperties_eq]
    rcases hb : addAll ord o1 (classProps (n / 65536 % 256) (n / 256 % 256)) with ⟨o2, e | u⟩
    · rw [hb] at hs; simp at hs
    · rfl

/-- C39. For every integer or tuple code, `Device(code)` is constructed without an exception; it has
the code; its properties are exactly those of its class and of the super class, those of the class
taking precedence, with the access rules of the tables; outside the three maps their data is empty. -/
theorem C39_device_properties (ord : List Int → List Int) (hord : ValidOrder ord) (code : PyCode) (n : Int)
    (h : setCode 0 code = (n, true)) :
    ∃ o, StdObj.new ord stdObjects code = (o, .ok true) ∧ o.code = n ∧ o.handler = .self_ ∧ WellFormed o ∧
      (∀ pc, (lookup o.props pc).map (fun p => { p with data := [] }) =
        deviceProp (n / 65536 % 256) (n / 256 % 256) pc) ∧
      (∀ pc, pc ≠ 0x9D → pc ≠ 0x9E → pc ≠ 0x9F → lookup o.props pc = deviceProp (n / 65536 % 256) (n / 256 % 256) pc) := by
  obtain ⟨-, h2, h3, h4, -, h5, -, h6, h7, -⟩ := dev_shape hord n (n / 65536 % 256) (n / 256 % 256)
  rw [dev_eq hord code n h]
  exact ⟨_, Prod.ext rfl h2, h3, h4, h5, h6, h7⟩

example : setCode 0 (.int 0x029101) = (0x029101, true) := rfl
example : (deviceProp 0x02 0x91 0x80, deviceProp 0x02 0x91 0xB0, deviceProp 0x7F 0x01 0x9F, deviceProp 0x02 0x91 0xEE) =
    (some { code := 0x80, attrGet := 1, attrSet := 1, attrAnno := 1 },
     some { code := 0xB0, attrGet := 2, attrSet := 2, attrAnno := 2 },
     some { code := 0x9F, attrGet := 1, attrSet := 0, attrAnno := 2 }, none) := by decide +kernel

/-- the codes 0x80–0xFF of the readable properties of a device -/
def readable (e : Option StdEntry) : List Int :=
  ((List.range 128).map fun n : Nat => (0x80 : Int) + n).filter fun pc =>
    match ((e.bind (lineFor · pc)).or ((stdClass 0 0).bind (lineFor · pc))) with
    | some l => decide (ruleOf l.2.1 ≠ 0)
    | none => false

theorem readable_mra : ∀ e ∈ StdData.mra, 17 ≤ (readable (some e)).length := by decide +kernel
theorem readable_scsl : ∀ e ∈ StdData.scsl, 17 ≤ (readable (some e)).length := by decide +kernel
theorem readable_none : 17 ≤ (readable none).length := by decide +kernel

theorem readable_count (g c : Int) : 17 ≤ (readable (stdClass g c)).length := by
  cases h : stdClass g c with
  | none => exact readable_none
  | some e =>
    obtain ⟨h1 | h1, -⟩ := stdClass_mem h
    · exact readable_mra e h1
    · exact readable_scsl e h1

theorem readable_nodup (e : Option StdEntry) : (readable e).Nodup := by
  unfold readable
  apply List.Nodup.filter
  apply List.Nodup.map (fun a b h => by simpa using h)
  exact List.nodup_range

theorem ruleOf_read (r : RawAttr) (h : ruleOf r ≠ 0) : ruleOf r = 1 ∨ ruleOf r = 2 := by
  cases r <;> simp [ruleOf] at h ⊢

/-- Every standard device has at least 17 readable properties. -/
theorem device_readable {o : Obj} {g c : Int} (hw : WellFormed o)
    (h : ∀ pc, (lookup o.props pc).map (fun p => { p with data := [] }) = deviceProp g c pc) :
    17 ≤ countOf o MapKind.get.lists := by
  have hsub : readable (stdClass g c) ⊆ listOf .get o := by
    intro pc hpc
    rw [mem_listOf .get o hw]
    unfold readable at hpc
    rw [List.mem_filter] at hpc
    have h1 := hpc.2
    have h2 := h pc
    unfold deviceProp at h2
    cases hl : (((stdClass g c).bind (lineFor · pc)).or ((stdClass 0 0).bind (lineFor · pc))) with
    | none => rw [hl] at h1; simp at h1
    | some l =>
      rw [hl] at h1 h2
      simp only [decide_eq_true_eq] at h1
      cases hp : lookup o.props pc with
      | none => rw [hp] at h2; simp at h2
      | some p =>
        rw [hp] at h2
        simp only [Option.map_some, Option.some.injEq] at h2
        have ha := congrArg OProp.attrGet h2
        simp only [propOf] at ha
        refine ⟨p, hp, ?_⟩
        show p.attrGet = 1 ∨ p.attrGet = 2
        rw [ha]; exact ruleOf_read _ h1
  have h1 := (List.subperm_of_subset (readable_nodup _) hsub).length_le
  rw [listOf_length] at h1
  have := readable_count g c
  omega

/-- C40, as documented: false for every object code. The decoded Get map of a freshly constructed
standard device is never the set of its readable properties. -/
theorem C40_get_map_false (ord : List Int → List Int) (hord : ValidOrder ord) (code : PyCode) (n : Int)
    (h : setCode 0 code = (n, true)) :
    ∃ o p, StdObj.new ord stdObjects code = (o, .ok true) ∧ lookup o.props 0x9F = some p ∧
      ¬ Lists p.data (Having o CanRead) := by
  obtain ⟨-, h2, h3, -, -, h5, -, h6, -, w1, k1, m1, sk⟩ := dev_shape hord n (n / 65536 % 256) (n / 256 % 256)
  rw [dev_eq hord code n h]
  have hcnt := device_readable h5 h6
  rw [countOf_of_skeleton sk w1] at hcnt
  obtain ⟨p, hp, hiff, -⟩ := C28_long_maps_partial ord hord _ w1 (byteCodes_of_keys w1.1 k1) m1
    (fun kp hkp => (k1 kp.1 (List.mem_map_of_mem hkp)).1) .get (by omega)
  refine ⟨_, p, Prod.ext rfl h2, hp, ?_⟩
  intro hl
  have hl' : Lists p.data (Having (addAll ord { SuperObj.new with code := n }
      (classProps 0 0 ++ classProps (n / 65536 % 256) (n / 256 % 256))).1 MapKind.get.lists) := by
    obtain ⟨l, a, b, d⟩ := hl
    refine ⟨l, a, b, fun x => ?_⟩
    rw [d]; exact having_of_skeleton sk .get x
  have := (hiff.mp hl').1
  omega

/-- C40, what holds: the Get map of a standard device decodes to 16 entries, each 0 or a readable
property; the other two maps, and their decodings, are right whenever they have at most 15 entries.
Missing: the Get map lists every readable property. -/
theorem C40_get_map_partial (ord : List Int → List Int) (hord : ValidOrder ord) (code : PyCode) (n : Int)
    (h : setCode 0 code = (n, true)) :
    ∃ o, StdObj.new ord stdObjects code = (o, .ok true) ∧
      (∃ p l, lookup o.props 0x9F = some p ∧ OProp.propertyMapCodes p.data = .ok (.codes l) ∧ l.length = 16 ∧
        ∀ c ∈ l, c = 0 ∨ Having o CanRead c) ∧
      ∀ k : MapKind, countOf o k.lists ≤ 15 → ∃ p, lookup o.props k.code = some p ∧ Lists p.data (Having o k.lists) := by
  obtain ⟨-, h2, h3, -, -, h5, -, h6, -, w1, k1, m1, sk⟩ := dev_shape hord n (n / 65536 % 256) (n / 256 % 256)
  rw [dev_eq hord code n h]
  refine ⟨_, Prod.ext rfl h2, ?_, ?_⟩
  · have hcnt := device_readable h5 h6
    rw [countOf_of_skeleton sk w1] at hcnt
    obtain ⟨p, hp, -, l, a, b, d⟩ := C28_long_maps_partial ord hord _ w1 (byteCodes_of_keys w1.1 k1) m1
      (fun kp hkp => (k1 kp.1 (List.mem_map_of_mem hkp)).1) .get (by omega)
    refine ⟨p, l, hp, a, b, ?_⟩
    intro x hx
    rcases d x hx with d | d
    · exact Or.inl d
    · exact Or.inr ((having_of_skeleton sk .get x).mpr d.1)
  · intro k hk
    rw [countOf_of_skeleton sk w1] at hk
    obtain ⟨-, -, -, hh⟩ := C27_short_maps ord hord _ w1 (byteCodes_of_keys w1.1 k1) m1
    obtain ⟨p, hp1, l, a, b, d⟩ := hh k hk
    exact ⟨p, hp1, l, a, b, fun x => by rw [d]; exact (having_of_skeleton sk k x).symm⟩

/-! C41: access rules -/

/-- `s` is the lower-case word `w` up to the case of ASCII letters. -/
def CaseVariant (s w : String) : Prop :=
  List.Forall₂ (fun c d : Char => c = d ∨ ('A' ≤ c ∧ c ≤ 'Z' ∧ c.toNat + 32 = d.toNat)) s.toList w.toList

theorem lower_char (c d : Char) (hd : ¬ ('A' ≤ d ∧ d ≤ 'Z')) :
    (if 'A' ≤ c ∧ c ≤ 'Z' then Char.ofNat (c.toNat + 32) else c) = d ↔
      (c = d ∨ ('A' ≤ c ∧ c ≤ 'Z' ∧ c.toNat + 32 = d.toNat)) := by
  by_cases hc : 'A' ≤ c ∧ c ≤ 'Z'
  · rw [if_pos hc]
    have h1 : c.toNat ≤ 90 := by
      have := hc.2
      rw [Char.le_def] at this
      exact this
    have hn : (Char.ofNat (c.toNat + 32)).toNat = c.toNat + 32 := by
      unfold Char.ofNat
      have hv : (c.toNat + 32).isValidChar := Or.inl (by omega)
      rw [dif_pos hv]
      rfl
    constructor
    · intro h; right; exact ⟨hc.1, hc.2, by rw [← h, hn]⟩
    · rintro (h | ⟨-, -, h⟩)
      · rw [h] at hc; exact absurd hc hd
      · apply Char.ext
        apply UInt32.toNat.inj
        exact hn.trans h
  · rw [if_neg hc]
    constructor
    · intro h; exact Or.inl h
    · rintro (h | h)
      · exact h
      · exact absurd ⟨h.1, h.2.1⟩ hc

theorem lower_list (w : List Char) (hw : ∀ d ∈ w, ¬ ('A' ≤ d ∧ d ≤ 'Z')) : ∀ s : List Char,
    s.map (fun c => if 'A' ≤ c ∧ c ≤ 'Z' then Char.ofNat (c.toNat + 32) else c) = w ↔
      List.Forall₂ (fun c d : Char => c = d ∨ ('A' ≤ c ∧ c ≤ 'Z' ∧ c.toNat + 32 = d.toNat)) s w := by
  induction w with
  | nil => intro s; cases s <;> simp
  | cons d w ih =>
    intro s
    cases s with
    | nil => simp
    | cons c s =>
      rw [List.map_cons, List.cons.injEq, List.forall₂_cons, lower_char c d (hw d (List.mem_cons_self ..)),
        ih (fun x hx => hw x (List.mem_cons_of_mem _ hx)) s]

theorem pyLower_eq (s w : String) (hw : ∀ d ∈ w.toList, ¬ ('A' ≤ d ∧ d ≤ 'Z')) :
    pyLower s = w.toList ↔ CaseVariant s w := lower_list w.toList hw s.toList

/-- C41, what holds: for all strings, a property of the tables is readable, writable, announced
exactly when the rule is `mandatory`, `required` or (not for announcements) `optional`, in any letter
case; no other text, `notApplicable` and `-` included, enables anything. Missing: the conditional
rules `required_c` and `required_o`. -/
theorem C41_rules_partial (code : Int) (g s a : String) :
    let p := readerProperty code (.str g) (.str s) (.str a)
    (CanRead p ↔ CaseVariant g "mandatory" ∨ CaseVariant g "required" ∨ CaseVariant g "optional") ∧
    (CanWrite p ↔ CaseVariant s "mandatory" ∨ CaseVariant s "required" ∨ CaseVariant s "optional") ∧
    (MustAnnounce p ↔ CaseVariant a "mandatory" ∨ CaseVariant a "required") ∧ p.code = code ∧ p.data = [] := by
  have w1 : ∀ d ∈ "mandatory".toList, ¬ ('A' ≤ d ∧ d ≤ 'Z') := by decide
  have w2 : ∀ d ∈ "required".toList, ¬ ('A' ≤ d ∧ d ≤ 'Z') := by decide
  have w3 : ∀ d ∈ "optional".toList, ¬ ('A' ≤ d ∧ d ≤ 'Z') := by decide
  have en : ∀ t : String, (toAttribute (.str t) = 1 ∨ toAttribute (.str t) = 2 ↔
      CaseVariant t "mandatory" ∨ CaseVariant t "required" ∨ CaseVariant t "optional") ∧
      (toAttribute (.str t) = 1 ↔ CaseVariant t "mandatory" ∨ CaseVariant t "required") := by
    intro t
    rw [← pyLower_eq t _ w1, ← pyLower_eq t _ w2, ← pyLower_eq t _ w3]
    unfold toAttribute
    simp only []
    generalize pyLower t = lt, "mandatory".toList = x1, "required".toList = x2, "optional".toList = x3
    by_cases h1 : lt = x1 ∨ lt = x2
    · rw [if_pos h1]
      constructor
      · exact ⟨fun _ => by rcases h1 with h | h <;> simp [h], fun _ => Or.inl rfl⟩
      · exact ⟨fun _ => h1, fun _ => rfl⟩
    · rw [if_neg h1]
      rw [not_or] at h1
      by_cases h2 : lt = x3
      · rw [if_pos h2]
        constructor
        · exact ⟨fun _ => Or.inr (Or.inr h2), fun _ => Or.inr rfl⟩
        · simp [OProp.OPTIONAL, h1]
      · rw [if_neg h2]
        constructor <;> simp [OProp.PROHIBITED, h1, h2]
  exact ⟨(en g).1, (en s).1, (en a).2, rfl, rfl⟩

/-- C41, as documented: false. Of the entries with conditional rules (there are some), none is enabled. -/
theorem C41_conditional_rules_false :
    (∀ l : Int × RawAttr × RawAttr × RawAttr, l.2.1 = .requiredC ∨ l.2.1 = .requiredO → ¬ CanRead (stdProperty l)) ∧
    (∀ l : Int × RawAttr × RawAttr × RawAttr, l.2.2.1 = .requiredC ∨ l.2.2.1 = .requiredO → ¬ CanWrite (stdProperty l)) ∧
    (∃ e ∈ StdData.mra, ∃ l ∈ e.props, l.2.1 = .requiredC) ∧
    ∃ e ∈ StdData.mra, ∃ l ∈ e.props, l.2.2.1 = .requiredC := by
  refine ⟨?_, ?_, by decide +kernel, by decide +kernel⟩
  · rintro l (h | h) <;> (unfold CanRead; rw [stdProperty_eq]; simp [propOf, h, ruleOf])
  · rintro l (h | h) <;> (unfold CanWrite; rw [stdProperty_eq]; simp [propOf, h, ruleOf])

example : CaseVariant "Mandatory" "mandatory" ∧ ¬ CaseVariant "required_c" "required" := by
  have e : "required".toList = "required".toList := rfl
  constructor
  · rw [← pyLower_eq _ _ (by decide)]; decide +kernel
  · rw [← pyLower_eq _ _ (by decide)]; decide +kernel

end Uecho
