/- C112, C113: the names of objects and properties, and `set_code` of an object that has a code. -/
import Verif.Lemmas.Names

namespace Uecho
open Spec

/-- C112 (what holds): whatever code a device is made with, its properties are those of the tables in the order of the tables, each has the name, the type and
the size its class gives it, or else the super class, and if the tables have the class, the device has its name. Missing: `C112_unknown_false`,
`C112_user_false`. -/
theorem C112_names_partial {ord : List Int → List Int} (hord : ValidOrder ord) (code : PyCode) (n : Int) (h : setCode 0 code = (n, true)) :
    (∀ e, classNames (n / 65536 % 256) (n / 256 % 256) = some e → (StdObj.label code).name = e.name) ∧
    (StdObj.new ord stdObjects code).1.props.map Prod.fst = deviceCodes (n / 65536 % 256) (n / 256 % 256) ∧
    Dict.keys (StdObj.label code).props = deviceCodes (n / 65536 % 256) (n / 256 % 256) ∧
    (∀ pc, Dict.get? (StdObj.label code).props pc = (deviceLabel (n / 65536 % 256) (n / 256 % 256) pc).map some) ∧
    ∀ pc ∈ deviceCodes (n / 65536 % 256) (n / 256 % 256), ∃ l, deviceLabel (n / 65536 % 256) (n / 256 % 256) pc = some l ∧
      Dict.get? (StdObj.label code).props pc = some (some l) ∧ propName (some l) = .ok l.name ∧ propSize (some l) = .ok l.size := by
  have e0 : dbGetLabel StdObj.SUPER_CODE = (classNames 0 0).map Label.ofEntry := dbGetLabel_eq (.int 0) 0 rfl
  have e1 := dbGetLabel_eq code n h
  have hl : StdObj.label code = (({} : Label).setObjectProperties ((classNames 0 0).map Label.ofEntry)).setObjectProperties
      ((classNames (n / 65536 % 256) (n / 256 % 256)).map Label.ofEntry) := by
    unfold StdObj.label StdObj.setLabel
    rw [h, e0, e1]
  obtain ⟨-, a2, a3⟩ := copied {} 0 0
  obtain ⟨b1, b2, b3⟩ := copied (({} : Label).setObjectProperties ((classNames 0 0).map Label.ofEntry)) (n / 65536 % 256) (n / 256 % 256)
  rw [← hl] at b1 b2 b3
  have hget : ∀ pc, Dict.get? (StdObj.label code).props pc = (deviceLabel (n / 65536 % 256) (n / 256 % 256) pc).map some := by
    intro pc
    rw [b3, a3]
    unfold deviceLabel
    rw [show Dict.get? ({} : Label).props pc = none from rfl, Option.or_none]
    cases (classNames (n / 65536 % 256) (n / 256 % 256)).bind (nameLine · pc) <;> rfl
  have hkeys : Dict.keys (StdObj.label code).props = deviceCodes (n / 65536 % 256) (n / 256 % 256) := by rw [b2, a2]; rfl
  refine ⟨?_, device_keys hord code n h, hkeys, hget, ?_⟩
  · intro e he
    rw [b1, he]
  · intro pc hpc
    rw [← hkeys] at hpc
    have := (Dict.get?_isSome_iff _ _).mpr hpc
    rw [hget] at this
    obtain ⟨l, hlb⟩ := Option.isSome_iff_exists.mp (by simpa using this)
    exact ⟨l, hlb, by rw [hget, hlb]; rfl, rfl, rfl⟩

/-- C112 is false: an object of a class that is not in the tables is called "Super class". -/
theorem C112_unknown_false (code : PyCode) (n : Int) (h : setCode 0 code = (n, true)) (hu : classNames (n / 65536 % 256) (n / 256 % 256) = none) :
    (StdObj.label code).name = "Super class" := by
  have e0 : dbGetLabel StdObj.SUPER_CODE = (classNames 0 0).map Label.ofEntry := dbGetLabel_eq (.int 0) 0 rfl
  have hl : StdObj.label code = ({} : Label).setObjectProperties ((classNames 0 0).map Label.ofEntry) := by
    unfold StdObj.label StdObj.setLabel
    rw [h, e0, dbGetLabel_eq code n h, hu]
    rfl
  rw [hl, (copied {} 0 0).1]
  decide +kernel

/-- C112 is false: a property made by the user has no name and no size; asking for them raises `AttributeError`. -/
theorem C112_user_false (l : Label) (pc : Int) : ∃ p, Dict.get? (l.addProperty pc none).props pc = some p ∧ propName p = .error .attributeError ∧ propSize p = .error .attributeError :=
  ⟨none, by unfold Label.addProperty; rw [Dict.get?_set, if_pos rfl], rfl, rfl⟩

/-- A home air conditioner: names of the object, of a property of its class and of a property of the super class. -/
example : setCode 0 (.int 0x013001) = (0x013001, true) ∧ (classNames 0x01 0x30).map NameEntry.name = some "Home air conditioner" ∧
    (deviceLabel 0x01 0x30 0xB0).map PropLabel.name = some "Operation mode setting" ∧ (deviceLabel 0x01 0x30 0x8A).map PropLabel.name = some "Manufacturer code" ∧
    0x8A ∈ deviceCodes 0x01 0x30 := by decide +kernel
example : setCode 0 (.int 0x00FF01) = (0x00FF01, true) ∧ classNames (0x00FF01 / 65536 % 256) (0x00FF01 / 256 % 256) = none := by decide +kernel

/-- A profile is labelled as a standard object with its code. -/
theorem C112_profile (code : PyCode) (n : Int) (h : setCode 0 code = (n, true)) : ProfileObj.label code = StdObj.label code := by
  unfold ProfileObj.label StdObj.label StdObj.setLabel
  rw [h]

/-- A copy is labelled as the original. -/
theorem C112_copy (l : Label) (hn : (Dict.keys l.props).Nodup) : l.copy = l := by
  unfold Label.copy
  have : ∀ (ps : Dict Int (Option PropLabel)) (x : Label), (Dict.keys x.props ++ Dict.keys ps).Nodup →
      ps.foldl (fun (x : Label) kp => x.addProperty kp.1 kp.2) x = { x with props := x.props ++ ps } := by
    intro ps
    induction ps with
    | nil => intro x _; simp
    | cons kp ps ih =>
      intro x hx
      have hnm : kp.1 ∉ Dict.keys x.props := by
        intro hm
        rw [List.nodup_append] at hx
        exact hx.2.2 kp.1 hm kp.1 (by simp [Dict.keys]) rfl
      have hs : x.addProperty kp.1 kp.2 = { x with props := x.props ++ [kp] } := by
        unfold Label.addProperty
        rw [Dict.set_of_not_mem _ _ _ hnm]
      show ps.foldl (fun (x : Label) kp => x.addProperty kp.1 kp.2) (x.addProperty kp.1 kp.2) = _
      rw [hs, ih]
      · simp
      · simpa [Dict.keys] using hx
  rw [this l.props { name := l.name } (by simpa [Dict.keys] using hn)]
  rfl

/-! C113 -/

/-- C113 (what holds): after `set_code` the properties the tables have for the new code are as those of a new object with that code (outside the three maps); the others are as they
were before. Missing: `C113_rest_false`. -/
theorem C113_new_code_partial {ord : List Int → List Int} (hord : ValidOrder ord) (o : Obj) (hw : WellFormed o) (hk : ∀ c ∈ o.props.map Prod.fst, 0x80 ≤ c ∧ c < 0x100)
    (code : PyCode) (n : Int) (h : setCode o.code code = (n, true)) (h0 : setCode 0 code = (n, true)) :
    ∃ o', StdObj.setCode ord stdObjects o code = (o', .ok true) ∧ o'.code = n ∧ WellFormed o' ∧ o'.handler = o.handler ∧ o'.observers = o.observers ∧
      ∀ pc, pc ≠ 0x9D → pc ≠ 0x9E → pc ≠ 0x9F → lookup o'.props pc = (lookup (StdObj.new ord stdObjects code).1.props pc).or (lookup o.props pc) := by
  have hr : ∀ p ∈ classProps 0 0 ++ classProps (n / 65536 % 256) (n / 256 % 256), 0x80 ≤ p.code ∧ p.code < 0x100 := by
    intro p hp
    rw [List.mem_append] at hp
    rcases hp with h | h
    · exact classProps_range _ _ p h
    · exact classProps_range _ _ p h
  have hwn : WellFormed ({ o with code := n } : Obj) := hw
  obtain ⟨a1, a2, a3, a4, a5, -⟩ := addAll_shape hord _ ({ o with code := n } : Obj) hwn hk hr
  obtain ⟨b1, b2, -, b3⟩ := addAll_exact hord _ ({ o with code := n } : Obj) hwn hk hr
  have e0 : dbGetObject stdObjects StdObj.SUPER_CODE = Dict.get? stdObjects (0, 0) := by
    show Dict.get? stdObjects (groupCode 0, classCode 0) = _
    rw [groupCode_eq, classCode_eq]; rfl
  have e1 : dbGetObject stdObjects code = Dict.get? stdObjects (n / 65536 % 256, n / 256 % 256) := by
    unfold dbGetObject
    rw [h0]
    simp only []
    rw [groupCode_eq, classCode_eq]
  have heq : StdObj.setCode ord stdObjects o code =
      SuperObj.updateMaps ord (addAll ord { o with code := n } (classProps 0 0 ++ classProps (n / 65536 % 256) (n / 256 % 256))).1 := by
    unfold StdObj.setCode
    rw [h]
    simp only []
    rw [e0, e1, setObjectProperties_eq]
    have hs := a1
    simp only [addAll_append] at hs ⊢
    rcases ha : addAll ord { o with code := n } (classProps 0 0) with ⟨o1, e | u⟩
    · rw [ha] at hs; simp at hs
    · rw [ha] at hs
      simp only [] at hs ⊢
      rw [setObjectProperties_eq]
      rcases hb : addAll ord o1 (classProps (n / 65536 % 256) (n / 256 % 256)) with ⟨o2, e | u⟩
      · rw [hb] at hs; simp at hs
      · rfl
  generalize hr1 : (addAll ord { o with code := n } (classProps 0 0 ++ classProps (n / 65536 % 256) (n / 256 % 256))).1 = r1 at heq a2 a3 a4 a5 b1 b2 b3
  have isS : ∀ pc, (deviceProp (n / 65536 % 256) (n / 256 % 256) pc).isSome = true → (lookup r1.props pc).isSome = true := by
    intro pc hp
    have := congrArg Option.isSome (a5 pc)
    rw [lastProp_device] at this
    obtain ⟨q, hq⟩ := Option.isSome_iff_exists.mp hp
    rw [hq] at this
    simpa using this
  have hm : HasMaps r1 := by
    obtain ⟨m1, m2, m3⟩ := device_maps (n / 65536 % 256) (n / 256 % 256)
    exact ⟨isS _ m1, isS _ m2, isS _ m3⟩
  have hall := updateMaps_all hord r1 a2 (byteCodes_of_keys a2.1 a3) hm
  rw [heq, hall]
  refine ⟨_, rfl, b1, wf_afterWrites _ _ a2, a4, b2, ?_⟩
  intro pc h1 h2 h3
  rw [lookup_afterWrites]
  have : lastFor [{ code := 0x9D, data := kindData ord r1 .anno }, { code := 0x9F, data := kindData ord r1 .get },
      { code := 0x9E, data := kindData ord r1 .set }] pc = none := by
    unfold lastFor
    simp [Ne.symm h1, Ne.symm h2, Ne.symm h3]
  rw [this]
  obtain ⟨od, c1, -, -, -, -, c2⟩ := C39_device_properties ord hord code n h0
  rw [c1]
  simp only []
  rw [c2 pc h1 h2 h3, ← lastProp_device, ← b3 pc h1 h2 h3]
  cases lookup r1.props pc <;> rfl

/-- C113 is false: what the class of the old code has and the class of the new one does not have stays: a property of the old class is still there, with the
access rules and the data it had. -/
theorem C113_rest_false {ord : List Int → List Int} (hord : ValidOrder ord) (old new : Int) (pc : Int) (p : OProp) (hm : pc ≠ 0x9D ∧ pc ≠ 0x9E ∧ pc ≠ 0x9F)
    (ho : deviceProp (old / 65536 % 256) (old / 256 % 256) pc = some p) (hn : deviceProp (new / 65536 % 256) (new / 256 % 256) pc = none) :
    ∃ o o', StdObj.new ord stdObjects (.int old) = (o, .ok true) ∧ StdObj.setCode ord stdObjects o (.int new) = (o', .ok true) ∧ o'.code = new ∧
      lookup o'.props pc = some p ∧ lookup (StdObj.new ord stdObjects (.int new)).1.props pc = none := by
  obtain ⟨o, h1, h2, -, h4, h5, h6⟩ := C39_device_properties ord hord (.int old) old rfl
  obtain ⟨on, k1, -, -, -, -, k6⟩ := C39_device_properties ord hord (.int new) new rfl
  have hk : ∀ c ∈ o.props.map Prod.fst, 0x80 ≤ c ∧ c < 0x100 := by
    obtain ⟨-, -, -, -, -, -, d, -⟩ := dev_shape hord old (old / 65536 % 256) (old / 256 % 256)
    have he := dev_eq hord (.int old) old rfl
    rw [h1] at he
    rw [← he] at d
    intro c hc
    obtain ⟨kp, hkp, rfl⟩ := List.mem_map.mp hc
    exact d kp hkp
  obtain ⟨o', j1, j2, -, -, -, j3⟩ := C113_new_code_partial hord o h4 hk (.int new) new rfl rfl
  refine ⟨o, o', h1, j1, j2, ?_, ?_⟩
  · rw [j3 pc hm.1 hm.2.1 hm.2.2, k1, k6 pc hm.1 hm.2.1 hm.2.2, hn, h6 pc hm.1 hm.2.1 hm.2.2, ho]
    rfl
  · rw [k1, k6 pc hm.1 hm.2.1 hm.2.2, hn]

/-- An air conditioner that becomes a light keeps its temperature setting. -/
example : (deviceProp 0x01 0x30 0xB3).isSome = true ∧ deviceProp 0x02 0x91 0xB3 = none := by decide +kernel

end Uecho
