/- C129: the profile of a transmission-only node (`NodeProfileReadOnly`). -/
import Verif.Props.Shape
import Verif.Props.Std
import Verif.Lemmas.Identity

namespace Uecho
open Spec

/-! ### Its construction -/

/-- The standard's codes for a node profile other than the maps. -/
def profileCodes : List Int := [0x80, 0x82, 0x83, 0x8A, 0xBF, 0xD3, 0xD4, 0xD5, 0xD6, 0xD7]

theorem profileCodes_maps : ∀ c ∈ profileCodes, c ≠ 0x9D ∧ c ≠ 0x9E ∧ c ≠ 0x9F := by decide

theorem profileCodes_class : ∀ c ∈ profileCodes, ∃ p, lastProp (classProps 0x0E 0xF0) c = some p ∧ p.data = [] := by
  have h : ∀ c ∈ profileCodes, ((stdClass 0x0E 0xF0).bind (lineFor · c)).isSome = true := by decide +kernel
  intro c hc
  obtain ⟨l, hl⟩ := Option.isSome_iff_exists.mp (h c hc)
  refine ⟨propOf l, ?_, rfl⟩
  rw [lastProp_classProps, hl]
  rfl

/-- A new transmission-only profile. -/
theorem readOnly_new {ord : List Int → List Int} (hord : ValidOrder ord) (rnd : NodeProfile.Random) :
    ∃ o o1, NodeProfile.newReadOnly ord rnd = (o, .ok ()) ∧ o.code = 0x0EF002 ∧ o.handler = .readOnly ∧ o.observers = [] ∧ WellFormed o ∧
      (∀ pc, (lookup o.props pc).map (fun p => { p with data := [] }) = deviceProp 0x0E 0xF0 pc) ∧
      (∀ c ∈ profileCodes, o.getPropertyData c = some []) ∧
      WellFormed o1 ∧ (∀ c ∈ o1.props.map Prod.fst, 0x80 ≤ c ∧ c < 0x100) ∧ HasMaps o1 ∧ (SuperObj.updateMaps ord o1).1 = o ∧ skeleton o = skeleton o1 := by
  obtain ⟨q, h1, hg, hob⟩ := nodeProfile_new hord rnd
  obtain ⟨S, hS⟩ : ∃ S : Obj, S = { q with handler := .readOnly, code := 0x0EF002 } := ⟨_, rfl⟩
  have hw : WellFormed S := by rw [hS]; exact hg.wf
  have hk : ∀ c ∈ S.props.map Prod.fst, 0x80 ≤ c ∧ c < 0x100 := by rw [hS]; exact hg.range
  have hp : ∀ pc, (lookup S.props pc).map (fun p => { p with data := [] }) = deviceProp 0x0E 0xF0 pc := by rw [hS]; exact hg.props
  obtain ⟨a1, a2, a3, a4, a5, -⟩ := addAll_shape hord (classProps 0x0E 0xF0) S hw hk (classProps_range _ _)
  obtain ⟨b1, b2, -, b4⟩ := addAll_exact hord (classProps 0x0E 0xF0) S hw hk (classProps_range _ _)
  have hsc : dbGetObject stdObjects (.int NodeProfile.READ_ONLY_CODE) = Dict.get? stdObjects (0x0E, 0xF0) := by
    show Dict.get? stdObjects (groupCode 0x0EF002, classCode 0x0EF002) = _
    rw [groupCode_eq, classCode_eq]; rfl
  have hset : ProfileObj.setCode ord stdObjects { q with handler := .readOnly } (.int NodeProfile.READ_ONLY_CODE) =
      SuperObj.updateMaps ord (addAll ord S (classProps 0x0E 0xF0)).1 := by
    unfold ProfileObj.setCode
    have : setCode ({ q with handler := .readOnly } : Obj).code (.int NodeProfile.READ_ONLY_CODE) = (0x0EF002, true) := rfl
    rw [this]
    simp only []
    rw [hsc, setObjectProperties_eq, ← hS]
    rcases hb : addAll ord S (classProps 0x0E 0xF0) with ⟨o2, e | u⟩
    · rw [hb] at a1; cases a1
    · rfl
  have hprops : ∀ pc, (lookup (addAll ord S (classProps 0x0E 0xF0)).1.props pc).map (fun p => ({ p with data := [] } : OProp)) = deviceProp 0x0E 0xF0 pc := by
    intro pc
    rw [a5 pc]
    cases hl : lastProp (classProps 0x0E 0xF0) pc with
    | none => exact hp pc
    | some p =>
      rw [lastProp_classProps] at hl
      cases hb : (stdClass 0x0E 0xF0).bind (lineFor · pc) with
      | none => rw [hb] at hl; cases hl
      | some l =>
        rw [hb] at hl
        simp only [Option.map_some, Option.some.injEq] at hl
        subst hl
        unfold deviceProp
        rw [hb]
        rfl
  have hdata : ∀ c ∈ profileCodes, ∃ p, lookup (addAll ord S (classProps 0x0E 0xF0)).1.props c = some p ∧ p.data = [] := by
    intro c hc
    obtain ⟨p, e1, e2⟩ := profileCodes_class c hc
    have hne := profileCodes_maps c hc
    exact ⟨p, by rw [b4 c hne.1 hne.2.1 hne.2.2, e1]; rfl, e2⟩
  generalize (addAll ord S (classProps 0x0E 0xF0)).1 = o1 at *
  have hbc := byteCodes_of_keys a2.1 a3
  have hm : HasMaps o1 := by
    have : ∀ c, (lookup o1.props c).isSome = (deviceProp 0x0E 0xF0 c).isSome := fun c => by rw [← hprops c]; simp
    exact ⟨by rw [this]; exact profile_known.1, by rw [this]; exact profile_known.2.1, by rw [this]; exact profile_known.2.2.1⟩
  have hall := updateMaps_all hord o1 a2 hbc hm
  obtain ⟨o, ho⟩ : ∃ o, o = (SuperObj.updateMaps ord o1).1 := ⟨_, rfl⟩
  have hsk : skeleton o = skeleton o1 := by rw [ho, hall]; exact skeleton_afterWrites _ _
  refine ⟨o, o1, ?_, ?_, ?_, ?_, ?_, ?_, ?_, a2, a3, hm, ho.symm, hsk⟩
  · unfold NodeProfile.newReadOnly
    rw [h1]
    simp only []
    rw [hset, hall]
    rw [hall] at ho
    rw [ho]
  · rw [show o.code = o1.code from (congrArg Obj.code hsk : (skeleton o).code = (skeleton o1).code), b1, hS]
  · rw [show o.handler = o1.handler from (congrArg Obj.handler hsk : (skeleton o).handler = (skeleton o1).handler), a4, hS]
  · rw [show o.observers = o1.observers from (congrArg Obj.observers hsk : (skeleton o).observers = (skeleton o1).observers), b2, hS]; exact hob
  · exact wf_of_skeleton hsk a2
  · intro pc; rw [← hprops pc]; exact known_of_skeleton hsk pc
  · intro c hc
    obtain ⟨p, e1, e2⟩ := hdata c hc
    rw [ho, hall, getPropertyData_afterWrites, e1]
    rw [lastFor_absent]
    · simp [e2]
    · have hne := profileCodes_maps c hc
      simp only [List.mem_cons, List.not_mem_nil, or_false]
      rintro i (rfl | rfl | rfl) <;> (simp only []; omega)

/-! ### What it says of the node -/

/-- C129, that it describes the node: false of every transmission-only profile. Setting the code again after the profile has been filled in replaces the properties by new ones:
the operating status, the version, the identification number, the unique identifier, the numbers and lists of instances and classes are all empty. -/
theorem C129_empty_false {ord : List Int → List Int} (hord : ValidOrder ord) (rnd : NodeProfile.Random) :
    ∃ o, NodeProfile.newReadOnly ord rnd = (o, .ok ()) ∧ o.code = 0x0EF002 ∧
      ∀ c ∈ [0x80, 0x82, 0x83, 0xBF, 0xD3, 0xD4, 0xD5, 0xD6, 0xD7], o.getPropertyData c = some [] := by
  obtain ⟨o, -, h1, h2, -, -, -, -, h6, -⟩ := readOnly_new hord rnd
  refine ⟨o, h1, h2, fun c hc => h6 c ?_⟩
  revert c
  decide

/-- The codes of a node profile that the tables let be written. -/
theorem profile_writable : ∀ k : Fin 128, ∀ p, deviceProp 0x0E 0xF0 (0x80 + (k : Nat)) = some p → CanWrite p →
    ((0x80 + (k : Nat) : Nat) : Int) ∈ ([0x81, 0x87, 0x8F, 0x93, 0x97, 0x98, 0x99, 0xBF] : List Int) := by
  have h : ∀ k : Fin 128, (match deviceProp 0x0E 0xF0 (0x80 + (k : Nat)) with
    | none => true
    | some p => !decide (CanWrite p) || decide (((0x80 + (k : Nat) : Nat) : Int) ∈ ([0x81, 0x87, 0x8F, 0x93, 0x97, 0x98, 0x99, 0xBF] : List Int))) = true := by decide +kernel
  intro k p hp hc
  have := h k
  rw [hp] at this
  simp only [decide_eq_true hc, Bool.not_true, Bool.false_or] at this
  exact decide_eq_true_eq.mp this

/-- C129, that its Set property map names no property: false. It names those that the tables let be written, the unique identifier 0xBF for one. -/
theorem C129_map_false {ord : List Int → List Int} (hord : ValidOrder ord) (rnd : NodeProfile.Random) :
    ∃ o p l, NodeProfile.newReadOnly ord rnd = (o, .ok ()) ∧ lookup o.props 0x9E = some p ∧ OProp.propertyMapCodes p.data = .ok (.codes l) ∧ 0xBF ∈ l := by
  obtain ⟨o, o1, h1, -, -, -, hw, hp, -, w1, k1, hm, hu, hsk⟩ := readOnly_new hord rnd
  obtain ⟨-, -, -, h⟩ := C27_short_maps ord hord o1 w1 (byteCodes_of_keys w1.1 k1) hm
  have hcnt : countOf o1 MapKind.set.lists ≤ 15 := by
    rw [← countOf_of_skeleton hsk w1, ← listOf_length .set]
    have hnd : (listOf .set o).Nodup := nodup_listOf .set o hw
    have hsub : listOf .set o ⊆ ([0x81, 0x87, 0x8F, 0x93, 0x97, 0x98, 0x99, 0xBF] : List Int) := by
      intro c hc
      obtain ⟨q, hq, hcw⟩ := (mem_listOf .set o hw c).mp hc
      have hd := hp c
      rw [hq] at hd
      simp only [Option.map_some] at hd
      have hrange : 0x80 ≤ c ∧ c < 0x100 := by
        apply k1
        rw [← keys_of_skeleton hsk]
        exact List.mem_map_of_mem ((mem_props_iff o hw c q).mpr hq)
      have := profile_writable ⟨(c - 0x80).toNat, by omega⟩ { q with data := [] } (by
        rw [show (0x80 : Int) + ((⟨(c - 0x80).toNat, by omega⟩ : Fin 128) : Nat) = c by simp only []; omega]
        exact hd.symm) hcw
      rwa [show ((0x80 + ((⟨(c - 0x80).toNat, by omega⟩ : Fin 128) : Nat) : Nat) : Int) = c by simp only []; omega] at this
    have := (List.subperm_of_subset hnd hsub).length_le
    simp only [List.length_cons, List.length_nil] at this
    omega
  obtain ⟨p, hp1, l, hl1, -, hl3⟩ := h .set hcnt
  rw [hu] at hp1
  refine ⟨o, p, l, h1, hp1, hl1, ?_⟩
  rw [hl3]
  rw [← having_of_skeleton hsk]
  have hbf : ∃ q, deviceProp 0x0E 0xF0 0xBF = some q ∧ CanWrite q := by decide +kernel
  obtain ⟨q, hq, hcw⟩ := hbf
  have hd := hp 0xBF
  rw [hq] at hd
  cases hx : lookup o.props 0xBF with
  | none => rw [hx] at hd; cases hd
  | some x =>
    rw [hx] at hd
    simp only [Option.map_some, Option.some.injEq] at hd
    refine ⟨x, hx, ?_⟩
    have : x.attrSet = q.attrSet := (congrArg OProp.attrSet hd : ({ x with data := [] } : OProp).attrSet = q.attrSet)
    show CanWrite x
    unfold CanWrite at hcw ⊢
    rw [this]; exact hcw

/-! ### What peers can do to it -/

/-- Nothing is accepted for writing. -/
theorem readOnly_respects (env : Env) (o : Obj) (hh : o.handler = .readOnly) : Respects env (fun x => x = o) where
  read x p h := by subst h; unfold Obj.callRead; rw [hh]
  write x p d h := by subst h; unfold Obj.callWrite; rw [hh]
  store x c p d h _ hk := by
    subst h
    unfold Obj.callWrite at hk
    rw [hh] at hk
    cases hk

/-- C129, what holds: no message changes anything of a transmission-only profile, or of any object with its handler, -/
theorem C129_unchanged_partial (env : Env) (o : Obj) (m : Msg) (hh : o.handler = .readOnly) : (o.messageReceived env m).obj = o :=
  messageReceived_respects (readOnly_respects env o hh) o m rfl

/-- and so it is in a node, whatever datagrams arrive; -/
theorem C129_node_partial {ord : List Int → List Int} (hord : ValidOrder ord) {n : LocalNode} (hr : Reachable ord n) (ps : List Parcel) (hp : ∀ p ∈ ps, CodeStable p.env)
    (c : Int) (o : Obj) (ho : n.getObject (.int c) = some o) (hh : o.handler = .readOnly) :
    (bombarded n ps).getObject (.int c) = some o := by
  obtain ⟨o', h1, h2⟩ := C125_invariant hord hr ps hp (fun x => x = o) (fun p _ => readOnly_respects p.env o hh) c o ho rfl
  rw [h1, h2]

/-- The policy of the handler: read what the attributes let be read, write nothing. -/
def readOnlyPolicy (o : Obj) : Policy := { attrPolicy o with canWrite := fun _ _ => false }

theorem follows_readOnly (env : Env) (o : Obj) (hw : WellFormed o) (hh : o.handler = .readOnly) : Spec.Follows env o (readOnlyPolicy o) := by
  have hf := (follows_default env { o with handler := .self_ } hw rfl).2
  refine ⟨by rw [hh]; simp, ?_⟩
  intro o' hs c p hp
  have hh' : o'.handler = .readOnly := (congrArg Obj.handler hs).trans hh
  have hs' : skeleton { o' with handler := .self_ } = skeleton { o with handler := .self_ } := by
    have := congrArg (fun x : Obj => { x with handler := .self_ }) hs
    exact this
  have := (hf _ hs' c p hp).1
  constructor
  · unfold Obj.callRead at this ⊢
    rw [hh']
    simp only [] at this ⊢
    have := (Prod.mk.inj this).2
    exact Prod.ext rfl this
  · intro d
    unfold Obj.callWrite
    rw [hh']
    rfl

/-- every request to write something is refused, and the answer repeats it; -/
theorem C129_refused_partial (env : Env) (o : Obj) (m : Msg) (hw : WellFormed o) (hh : o.handler = .readOnly) (hq : Quiet env o m) (hs : OwnSections m)
    (he : m.esv = 0x60 ∨ m.esv = 0x61) (hne : m.props ≠ []) :
    (o.messageReceived env m).result = .ok (some { replyTo m with
      esv := 0x50, props := m.props.map fun i => { code := i.code, data := if (lookup o.props i.code).isSome = true then i.data else [] } }) := by
  obtain ⟨-, h2, -, h4⟩ := C17_write_esv_partial env (readOnlyPolicy o) o m hw.1 (follows_readOnly env o hw hh) hq hs
  have hna : ¬ ∀ i ∈ m.props, (lookup o.props i.code).isSome = true ∧ (readOnlyPolicy o).canWrite i.code i.data = true := by
    intro h
    obtain ⟨i, hi⟩ := List.exists_mem_of_ne_nil _ hne
    exact Bool.noConfusion (h i hi).2
  have hd : ∀ i : PProp, (if (lookup o.props i.code).isSome = true ∧ (readOnlyPolicy o).canWrite i.code i.data = false then i.data else []) =
      if (lookup o.props i.code).isSome = true then i.data else [] := by
    intro i
    have : (readOnlyPolicy o).canWrite i.code i.data = false := rfl
    simp only [this, and_true]
  rcases he with he | he
  · rw [h2 he hna]; simp only [hd]
  · rw [h4 he hna]; simp only [hd]

/-- reads are answered as by any other object. -/
theorem C129_read_partial (env : Env) (o : Obj) (m : Msg) (hw : WellFormed o) (hh : o.handler = .readOnly) (hq : Quiet env o m) (he : m.esv = 0x62) (hs : OwnSections m) :
    ∃ r, (o.messageReceived env m).result = .ok (some r) ∧
      r.props = m.props.map (fun i =>
        { code := i.code
          data := match lookup o.props i.code with
            | some p => if CanRead p then p.data else []
            | none => [] }) ∧
      (r.esv = 0x72 ∨ r.esv = 0x52) ∧ (r.esv = 0x72 ↔ ∀ i ∈ m.props, ∃ p, lookup o.props i.code = some p ∧ CanRead p) := by
  obtain ⟨-, -, r, h2, h3, h4, h5⟩ := C15_read_policy env _ o m (follows_readOnly env o hw hh) hq he hs
  refine ⟨r, h2, ?_, h4, ?_⟩
  · rw [h3]
    apply List.map_congr_left
    intro i _
    show (⟨i.code, readValue o (attrPolicy o) i.code⟩ : PProp) = _
    congr 1
    unfold readValue attrPolicy
    cases hl : lookup o.props i.code with
    | none => rfl
    | some p => simp [hl]
  · rw [h5]
    apply forall_congr'; intro i
    apply imp_congr_right; intro _
    show (lookup o.props i.code).isSome = true ∧ (attrPolicy o).canRead i.code = true ↔ _
    unfold attrPolicy
    cases hl : lookup o.props i.code with
    | none => simp
    | some p => simp [hl]

/-! ### Examples -/

/-- The hypotheses of `C129_refused_partial` and `C129_read_partial` with the real thing: a write of 0xBF, which the tables let be written, and of an unknown property is refused;
a read of the version is answered with no data. -/
example (rnd : NodeProfile.Random) : ∃ o, NodeProfile.newReadOnly List.dedup rnd = (o, .ok ()) ∧
    (o.messageReceived exEnv { tid := 7, seoj := 0x05FF01, deoj := 0x0EF002, esv := 0x61, props := [{ code := 0xBF, data := [1, 2] }] }).result =
      .ok (some { tid := 7, seoj := 0x0EF002, deoj := 0x05FF01, esv := 0x50, props := [{ code := 0xBF, data := [1, 2] }] }) ∧
    ∃ r, (o.messageReceived exEnv { tid := 8, seoj := 0x05FF01, deoj := 0x0EF002, esv := 0x62, props := [{ code := 0x82 }] }).result = .ok (some r) ∧
      r.esv = 0x72 ∧ r.props = [{ code := 0x82, data := [] }] := by
  obtain ⟨o, -, h1, h2, h3, h4, hw, hp, hd, -⟩ := readOnly_new (ord := List.dedup) (fun l => ⟨l.nodup_dedup, fun _ => List.mem_dedup⟩) rnd
  have hq : ∀ m, Quiet exEnv o m := by intro m n hn; rw [h4] at hn; cases hn
  refine ⟨o, h1, ?_, ?_⟩
  · rw [C129_refused_partial exEnv o _ hw h3 (hq _) (by decide) (Or.inr rfl) (by decide)]
    have : (lookup o.props 0xBF).isSome = true := by
      have := congrArg Option.isSome (hp 0xBF)
      rw [Option.isSome_map] at this
      rw [this]
      decide +kernel
    simp only [List.map_cons, List.map_nil, this, if_true]
    rfl
  · have hv : ∃ p, lookup o.props 0x82 = some p ∧ CanRead p ∧ p.data = [] := by
      have h82 : ∃ q, deviceProp 0x0E 0xF0 0x82 = some q ∧ CanRead q := by
        cases hq : deviceProp 0x0E 0xF0 0x82 with
        | none => exact absurd hq (by decide +kernel)
        | some q =>
          refine ⟨q, rfl, ?_⟩
          have : ∀ q ∈ deviceProp 0x0E 0xF0 0x82, CanRead q := by decide +kernel
          exact this q hq
      obtain ⟨q, e1, e2⟩ := h82
      have hx := hp 0x82
      rw [e1] at hx
      have hdx := hd 0x82 (by decide)
      rw [getPropertyData_eq] at hdx
      cases hl : lookup o.props 0x82 with
      | none => rw [hl] at hx; cases hx
      | some p =>
        rw [hl] at hx hdx
        simp only [Option.map_some, Option.some.injEq] at hx hdx
        refine ⟨p, rfl, ?_, hdx⟩
        have : p.attrGet = q.attrGet := (congrArg OProp.attrGet hx : ({ p with data := [] } : OProp).attrGet = q.attrGet)
        unfold CanRead at e2 ⊢
        rw [this]; exact e2
    obtain ⟨p, e1, e2, e3⟩ := hv
    obtain ⟨r, r1, r2, -, r4⟩ := C129_read_partial exEnv o { tid := 8, seoj := 0x05FF01, deoj := 0x0EF002, esv := 0x62, props := [{ code := 0x82 }] } hw h3 (hq _) rfl (by decide)
    refine ⟨r, r1, r4.mpr ?_, ?_⟩
    · intro i hi
      rw [List.mem_singleton] at hi
      subst hi
      exact ⟨p, e1, e2⟩
    · rw [r2]
      simp only [List.map_cons, List.map_nil, e1, e2, if_true, e3]

/-- `C129_node_partial`: such a profile in a node, and any datagrams. -/
example {ord : List Int → List Int} (hord : ValidOrder ord) (rnd : NodeProfile.Random) (ds : List (Bytes × Addr)) : ∃ n o, Reachable ord n ∧ NodeProfile.newReadOnly ord rnd = (o, .ok ()) ∧
    n.getObject (.int 0x0EF002) = some o ∧ (bombarded n (ds.map fun d => ⟨switchEnv, okNet, d.1, d.2⟩)).getObject (.int 0x0EF002) = some o := by
  obtain ⟨o, -, h1, h2, h3, -⟩ := readOnly_new hord rnd
  obtain ⟨n, hr, -, ho, -⟩ := dev_device hord o
  rw [h2] at ho
  refine ⟨n, o, hr, h1, ho, C129_node_partial hord hr _ ?_ _ _ ho h3⟩
  intro p hp
  obtain ⟨d, -, rfl⟩ := List.mem_map.mp hp
  exact switchEnv_stable

end Uecho
