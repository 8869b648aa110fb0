/- C97: devices and the objects of the standard database. -/
import Verif.Lemmas.Shared
import Verif.Props.Observers

namespace Uecho.Shared
open Spec

/-- C97 (what devices get): whatever data has been set before in objects got from the database, and as long as their nodes can be
copied, `Device(code)` works for every integer and tuple code; outside the maps its properties are those of its class and the
super class, but with the data that was set last in the objects of the database. So devices are as the tables say (C39) only if
nobody has changed those. Missing: `C97_data_false`, `C97_raises_false`. -/
theorem C97_copied_partial (ord : List Int → List Int) (hord : ValidOrder ord) (own : Int × Int → Owner) (ws : List Write) (code : PyCode) (n : Int)
    (h : setCode 0 code = (n, true)) (h0 : (own (0, 0)).deepcopy = .ok ()) (h1 : (own (clsOf n)).deepcopy = .ok ()) :
    ∃ o, device ord own (afterAll stdObjects ws) code = (o, .ok true) ∧ o.code = n ∧
      (∀ pc, pc ≠ 0x9D → pc ≠ 0x9E → pc ≠ 0x9F → lookup o.props pc = sharedProp ws (clsOf n) pc) ∧
      (∀ pc, (lookup o.props pc).map (fun p => { p with data := [] }) = deviceProp (clsOf n).1 (clsOf n).2 pc) := by
  have hlp : ∀ pc, lastProp (tableProps ws (0, 0) ++ tableProps ws (clsOf n)) pc = sharedProp ws (clsOf n) pc := by
    intro pc
    rw [lastProp_append, lastProp_tableProps, lastProp_tableProps]
    rfl
  have hdp : ∀ pc, (sharedProp ws (clsOf n) pc).map (fun p => { p with data := [] }) = deviceProp (clsOf n).1 (clsOf n).2 pc := by
    intro pc
    unfold sharedProp sharedLine deviceProp
    cases (stdClass (clsOf n).1 (clsOf n).2).bind (lineFor · pc) <;> cases (stdClass 0 0).bind (lineFor · pc) <;> rfl
  have hs := build_shape hord n (tableProps ws (0, 0) ++ tableProps ws (clsOf n))
    (by
      intro p hp
      rcases List.mem_append.mp hp with hp | hp
      · exact tableProps_range _ _ p hp
      · exact tableProps_range _ _ p hp)
    (by
      intro pc hpc
      rw [hlp]
      have := congrArg Option.isSome (hdp pc)
      rw [Option.isSome_map] at this
      rw [this]
      obtain ⟨m1, m2, m3⟩ := device_maps (clsOf n).1 (clsOf n).2
      rcases hpc with rfl | rfl | rfl
      · exact m1
      · exact m2
      · exact m3)
  obtain ⟨s1, s2, s3, s4, s5⟩ := hs
  have hdev : device ord own (afterAll stdObjects ws) code =
      SuperObj.updateMaps ord (addAll ord { SuperObj.new with code := n } (tableProps ws (0, 0) ++ tableProps ws (clsOf n))).1 := by
    unfold device
    rw [show setCode SuperObj.new.code code = (n, true) from h]
    simp only [key_eq]
    rw [setObjectProperties_eq _ h0]
    simp only [addAll_append] at s1 ⊢
    rcases ha : addAll ord { SuperObj.new with code := n } (tableProps ws (0, 0)) with ⟨o1, e | u⟩
    · rw [ha] at s1; simp at s1
    · rw [ha] at s1
      simp only [] at s1 ⊢
      rw [setObjectProperties_eq _ h1]
      rcases hb : addAll ord o1 (tableProps ws (clsOf n)) with ⟨o2, e | u⟩
      · rw [hb] at s1; simp at s1
      · rfl
  refine ⟨_, hdev.trans (Prod.ext rfl s2), s3, fun pc p1 p2 p3 => (s5 pc p1 p2 p3).trans (hlp pc), fun pc => ?_⟩
  rw [s4, hlp, hdp]

/-- Two writes, to the class of home air conditioners and to the super class. -/
example : sharedProp [⟨0x0130FF, 0xB0, [0x41]⟩, ⟨0, 0x8C, [0x58]⟩] (0x01, 0x30) 0xB0 = some { code := 0xB0, attrGet := 1, attrSet := 1, attrAnno := 1, data := [0x41] } ∧
    (sharedProp [⟨0x0130FF, 0xB0, [0x41]⟩, ⟨0, 0x8C, [0x58]⟩] (0x02, 0x90) 0x8C).map OProp.data = some [0x58] := by decide +kernel

/-- C97 is false: data set in an object that `get_object` returned for a code is the data of the property in every device of the class
that is made afterwards, by whomever and with whatever instance number. -/
theorem C97_data_false (ord : List Int → List Int) (hord : ValidOrder ord) (k n : Int) (pc : Int) (data : Bytes)
    (hk : clsOf n = clsOf k) (hp : ((stdClass (clsOf k).1 (clsOf k).2).bind (lineFor · pc)).isSome = true) (hpc : pc ≠ 0x9D ∧ pc ≠ 0x9E ∧ pc ≠ 0x9F) :
    (∃ o, device ord (fun _ => .nobody) stdObjects (.int n) = (o, .ok true) ∧ (lookup o.props pc).map OProp.data = some []) ∧
    (setData stdObjects (.int k) pc data).2 = .ok true ∧
    ∃ o, device ord (fun _ => .nobody) (setData stdObjects (.int k) pc data).1 (.int n) = (o, .ok true) ∧ (lookup o.props pc).map OProp.data = some data := by
  obtain ⟨l, hl⟩ := Option.isSome_iff_exists.mp hp
  refine ⟨?_, ?_, ?_⟩
  · obtain ⟨o, h1, -, h2, -⟩ := C97_copied_partial ord hord (fun _ => .nobody) [] (.int n) n rfl rfl rfl
    refine ⟨o, h1, ?_⟩
    rw [h2 pc hpc.1 hpc.2.1 hpc.2.2, hk]
    unfold sharedProp sharedLine
    rw [hl]
    rfl
  · unfold setData
    simp only [setCode, key_eq]
    have hg := get?_std [] (clsOf k)
    cases he : stdClass (clsOf k).1 (clsOf k).2 with
    | none => rw [he] at hl; cases hl
    | some e =>
      rw [he] at hg hl
      have hg : Dict.get? stdObjects (clsOf k) = some (stdObject e) := by
        rw [show stdObjects = afterAll stdObjects [] from rfl, hg]
        exact congrArg some (afterWrites_nil _)
      rw [hg]
      simp only []
      rw [setPropertyData_eq _ _ _ (std_wf hg), (loaded_stdObject he).props]
      have hl : lineFor e pc = some l := hl
      rw [hl]
      rfl
  · obtain ⟨o, h1, -, h2, -⟩ := C97_copied_partial ord hord (fun _ => .nobody) [⟨k, pc, data⟩] (.int n) n rfl rfl rfl
    refine ⟨o, h1, ?_⟩
    rw [h2 pc hpc.1 hpc.2.1 hpc.2.2, hk]
    unfold sharedProp sharedLine
    rw [hl]
    simp [written]

example : clsOf 0x013001 = clsOf 0x0130FF ∧ ((stdClass (clsOf 0x0130FF).1 (clsOf 0x0130FF).2).bind (lineFor · 0xB0)).isSome = true := by decide +kernel

/-- C97 is false: if the object that `get_object` returned has been added to a controller, or to a node that is running, every later
`Device` of its class raises `TypeError`; if it was that of the super class, every `Device` does. -/
theorem C97_raises_false (ord : List Int → List Int) (hord : ValidOrder ord) (own : Int × Int → Owner) (ws : List Write) (code : PyCode) (n : Int) (h : setCode 0 code = (n, true))
    (node : LocalNode) (hn : node.controller = true ∨ node.mgr.servers ≠ [])
    (ho : own (0, 0) = .local_ node ∨ ((own (0, 0)).deepcopy = .ok () ∧ own (clsOf n) = .local_ node ∧ (stdClass (clsOf n).1 (clsOf n).2).isSome = true)) :
    (device ord own (afterAll stdObjects ws) code).2 = .error .typeError := by
  have hd : (Owner.local_ node).deepcopy = .error .typeError := by
    unfold Owner.deepcopy
    simp only []
    rw [if_pos]
    rcases hn with hn | hn
    · simp [hn]
    · rcases hs : node.mgr.servers with _ | ⟨s, ss⟩
      · exact absurd hs hn
      · simp
  have hne : ∀ k, (stdClass k.1 k.2).isSome = true → tableProps ws k ≠ [] := by
    intro k hk e
    have hx : ∀ e ∈ StdData.mra ++ StdData.scsl, e.props ≠ [] := by decide +kernel
    obtain ⟨en, hen⟩ := Option.isSome_iff_exists.mp hk
    have hmem := stdClass_mem hen
    have hp : en.props ≠ [] := hx en (by simpa [or_comm] using hmem.1)
    rcases hps : en.props with _ | ⟨l, ls⟩
    · exact hp hps
    · have hlast : lastProp (tableProps ws k) l.1 = sharedLine ws k l.1 := lastProp_tableProps ws k l.1
      rw [e] at hlast
      have : (lineFor en l.1).isSome = true := by
        unfold lineFor
        rw [hps, List.filter_cons_of_pos (by simp), List.getLast?_cons]
        rfl
      unfold sharedLine at hlast
      rw [hen] at hlast
      obtain ⟨l', hl'⟩ := Option.isSome_iff_exists.mp this
      rw [show (some en).bind (lineFor · l.1) = lineFor en l.1 from rfl, hl'] at hlast
      cases hlast
  have hset : ∀ k, own k = .local_ node → (stdClass k.1 k.2).isSome = true → ∀ o, (setObjectProperties ord own (afterAll stdObjects ws) o k).2 = .error .typeError := by
    intro k hk hs o
    unfold setObjectProperties
    rw [get?_std]
    have := hne k hs
    unfold tableProps at this
    cases hc : stdClass k.1 k.2 with
    | none => rw [hc] at hs; cases hs
    | some e =>
      rw [hc] at this
      simp only [Option.map_some]
      rw [hk]
      exact addCopies_error hd ord _ this o
  unfold device
  rw [show setCode SuperObj.new.code code = (n, true) from h]
  simp only [key_eq]
  rcases ho with ho | ⟨h0, ho, hs⟩
  · have := hset (0, 0) ho (by decide +kernel) { SuperObj.new with code := n }
    rcases hr : setObjectProperties ord own (afterAll stdObjects ws) { SuperObj.new with code := n } (0, 0) with ⟨o, e | u⟩
    · rw [hr] at this
      injection this with this
      rw [this]
    · rw [hr] at this; cases this
  · rcases hr : setObjectProperties ord own (afterAll stdObjects ws) { SuperObj.new with code := n } (0, 0) with ⟨o, e | u⟩
    · rw [setObjectProperties_eq _ h0] at hr
      have hw0 : WellFormed ({ SuperObj.new with code := n } : Obj) := ⟨List.nodup_nil, fun kp h => absurd h List.not_mem_nil⟩
      have := (addAll_shape hord _ _ hw0 (fun c h => absurd h List.not_mem_nil) (tableProps_range ws (0, 0))).1
      rw [hr] at this
      cases this
    · have := hset (clsOf n) ho hs o
      simp only []
      rcases hr' : setObjectProperties ord own (afterAll stdObjects ws) o (clsOf n) with ⟨o', e | u⟩
      · rw [hr'] at this
        injection this with this
        rw [this]
      · rw [hr'] at this; cases this

/-- A node that runs on one interface. -/
example (n n1 : LocalNode) (h : n.start oneIf none = (n1, .ok true)) : n1.mgr.servers ≠ [] := (start_observers h).1

end Uecho.Shared
