/- C154: using a network does not break it. -/
import Verif.Lemmas.Polite
import Verif.Props.Closed

namespace Uecho
open Spec

theorem orderly_node {ord : List Int → List Int} (hord : ValidOrder ord) {env : Env} {n : LocalNode} (hr : Reachable ord n) (hp : PlainNode env n) (hown : OwnProfile n) : Orderly (deviceOf n) := by
  refine ⟨plain_short hp, fun e he => ?_⟩
  have hi := reachable_inv hord hr
  rw [← nodeEntry_eq] at he
  obtain ⟨ob, h1, h2⟩ := Option.bind_eq_some_iff.mp he
  obtain ⟨p, h3, rfl⟩ := Option.map_eq_some_iff.mp h2
  have hob : ob = n.profile := by
    have h1 : (Dict.get? n.node.objects 0x0EF001).map n.deref = some ob := h1
    rw [hown] at h1
    injection h1 with h1
    exact h1.symm
  rw [hob] at h3
  refine ⟨?_, ?_⟩
  · show decide (CanWrite p) = false
    exact decide_eq_false (lists_not_writable hi.prof 0xD6 (.inr (.inr (.inr (.inl rfl)))) p h3)
  · obtain ⟨-, b, hb, -, hd⟩ := C43_any_number_partial hord hr
    rw [getPropertyData_eq, h3] at hd
    injection hd with hd
    refine ⟨b, _, hd, ?_⟩
    rw [codeBytes_length]
    omega

/-- Nothing was sent but searches. -/
def OnlySearches (N : RealNet) : Prop :=
  ∀ ip s, ((∃ r, N.devices ip = some r ∧ s ∈ sentBy r) ∨ (∃ r, N.controllers ip = some r ∧ s ∈ sentByCtl r)) → s.dest.1 = "224.0.23.0" ∧ ∃ m, readMsg (s.bytes.take 1024) = some m ∧ Searches m

/-- C154, for programs that are polite: devices speak when spoken to; controllers search, and send requests to read or write at most three properties, other than instance lists, to nodes they know.
In a closed network of nodes with their own profiles, in which nothing was sent before but searches and nobody has the multicast address, no thread ever ends, whatever happens in whatever
order, and everything sent can be read by whoever it reaches. -/
theorem C154_polite_partial {ord : List Int → List Int} (hord : ValidOrder ord) (env : Env) (hc : CodeStable env) (cenv : CEnv) (hcalm : Calm cenv) (net : Net) (hs : NetWorks net)
    (N : RealNet) (h : Built ord env N) (hpd : ∀ ip r, N.devices ip = some r → OwnProfile r.st) (hpc : ∀ ip r, N.controllers ip = some r → OwnProfile r.st.ln)
    (hal : RefNet.Awake (homeOf N)) (hno : N.devices "224.0.23.0" = none ∧ N.controllers "224.0.23.0" = none) (hsent : OnlySearches N)
    (es : List Incident) (hf : ∀ e ∈ es, e.Fair) (hmay : N.May (nodeUse env net) (ctlUse ord env cenv net) sentBy sentByCtl es) (hp : RefNet.Politely (freshData ord) (homeOf N) es) :
    let q := N.run (nodeUse env net) (ctlUse ord env cenv net) es
    RefNet.Awake (homeOf q.1) ∧
    ∀ ip s, ((∃ r, q.1.devices ip = some r ∧ s ∈ sentBy r) ∨ (∃ r, q.1.controllers ip = some r ∧ s ∈ sentByCtl r)) → ∃ m, readMsg (s.bytes.take 1024) = some m := by
  intro q
  obtain ⟨k1, -, k3⟩ := C150_network hord env hc cenv hcalm net hs N h es hf
  have h0 : AllWell (homeOf N) := by
    refine ⟨fun ip R hR => ?_, fun ip R hR => ?_, ?_⟩
    · obtain ⟨r, hr, rfl⟩ := home_devices hR
      refine ⟨hal.1 ip _ hR, orderly_node hord (h.dev ip r hr).1 (h.dev ip r hr).2.1 (hpd ip r hr), fun s hs' => ?_⟩
      obtain ⟨j1, m, j2, j3⟩ := hsent ip s (.inl ⟨r, hr, hs'⟩)
      exact ⟨m, j2, .inl (.inl ⟨j3, j1⟩)⟩
    · obtain ⟨r, hr, rfl⟩ := home_controllers hR
      obtain ⟨⟨ops, c1⟩, c2, -⟩ := h.ctl ip r hr
      obtain ⟨c3, c4⟩ := reach_ln hord c1
      refine ⟨hal.2 ip _ hR, orderly_node hord c3 c2 (hpc ip r hr), c4, fun s hs' => ?_⟩
      obtain ⟨j1, m, j2, j3⟩ := hsent ip s (.inr ⟨r, hr, hs'⟩)
      exact ⟨m, j2, .inl (.inl ⟨j3, j1⟩)⟩
    · constructor
      · show (N.devices everyone).map runOf = none
        rw [show N.devices everyone = none from hno.1]; rfl
      · show (N.controllers everyone).map ctlRunOf = none
        rw [show N.controllers everyone = none from hno.2]; rfl
  have hend := well_run (freshData ord) es (homeOf N) h0 hf hp (k3.mp hmay)
  rw [← k1] at hend
  refine ⟨⟨fun ip R hR => (hend.dev ip R hR).1, fun ip R hR => (hend.ctl ip R hR).1⟩, ?_⟩
  rintro ip s (⟨r, hr, hs'⟩ | ⟨r, hr, hs'⟩)
  · obtain ⟨m, hm, -⟩ := (hend.dev ip (runOf r) (by show (q.1.devices ip).map runOf = _; rw [hr]; rfl)).2.2 s hs'
    exact ⟨m, hm⟩
  · obtain ⟨m, hm, -⟩ := (hend.ctl ip (ctlRunOf r) (by show (q.1.controllers ip).map ctlRunOf = _; rw [hr]; rfl)).2.2.2 s hs'
    exact ⟨m, hm⟩

/-! ### Networks that break -/

/-- The light announces that it was switched off; the announcement arrives at the controller, which has not found it. -/
def exNews : List Incident := [
  .device "10.0.0.9" (.announce { seoj := 0x029101, deoj := 0x0EF001, esv := 0x73, props := [{ code := 0x80, data := [0x30] }] }),
  .controller "10.0.0.2" (.device (.arrive ⟨0, [0x10, 0x81, 0, 1, 2, 0x91, 1, 0x0E, 0xF0, 1, 0x73, 1, 0x80, 1, 0x30], ("10.0.0.9", 3610)⟩))]

/-- The controller asks a light it has not found for its state. -/
def exStranger : List Incident := [
  .controller "10.0.0.2" (.post { deoj := 0x029101, esv := 0x62, props := [{ code := 0x80 }] } (.str "10.0.0.9")),
  .device "10.0.0.9" (.arrive ⟨0, [0x10, 0x81, 0, 2, 0x0E, 0xF0, 1, 2, 0x91, 1, 0x62, 1, 0x80, 0], ("10.0.0.2", 3610)⟩),
  .controller "10.0.0.2" (.device (.arrive ⟨0, [0x10, 0x81, 0, 2, 2, 0x91, 1, 0x0E, 0xF0, 1, 0x72, 1, 0x80, 1, 0x30], ("10.0.0.9", 3610)⟩))]

/-- The controller writes one property of the light and reads another, which it does not have. -/
def exCurious : List Incident := [
  .controller "10.0.0.2" (.sendTo { deoj := 0x029101, esv := 0x6E, setProps := [{ code := 0x80, data := [0x31] }], getProps := [{ code := 0xB6 }] } (.str "10.0.0.9")),
  .device "10.0.0.9" (.arrive ⟨0, [0x10, 0x81, 0, 2, 0x0E, 0xF0, 1, 2, 0x91, 1, 0x6E, 1, 0x80, 1, 0x31, 1, 0xB6, 0], ("10.0.0.2", 3610)⟩)]

theorem exHome_ctl (ip : String) (es : List Incident) (hf : ∀ e ∈ es, e.Fair)
    (hall : (mayB (freshData List.dedup) (homeOf exHome) es &&
      decide ((((homeOf exHome).run RefRun.use (RefCtlRun.use (freshData List.dedup)) es).1.controllers ip).map (fun R => R.alive 0) = some false)) = true) :
    exHome.May (nodeUse exEnv okNet) (ctlUse List.dedup exEnv calmEnv okNet) sentBy sentByCtl es ∧
      ((exHome.run (nodeUse exEnv okNet) (ctlUse List.dedup exEnv calmEnv okNet) es).1.controllers ip).map (fun r => r.alive 0) = some false := by
  have hord : ValidOrder List.dedup := fun l => ⟨l.nodup_dedup, fun _ => List.mem_dedup⟩
  obtain ⟨h1, -, h3⟩ := C150_network hord exEnv exEnv_stable calmEnv calmEnv_calm okNet (fun _ _ _ _ => rfl) exHome exHome_built es hf
  rw [Bool.and_eq_true, decide_eq_true_eq] at hall
  refine ⟨h3.mpr (mayB_spec _ _ _ hall.1), ?_⟩
  have h2 := hall.2
  rw [← h1] at h2
  generalize (exHome.run (nodeUse exEnv okNet) (ctlUse List.dedup exEnv calmEnv okNet) es).1 = M at h2
  have h2 : ((M.controllers ip).map ctlRunOf).map (fun R => R.alive 0) = some false := h2
  rw [Option.map_map] at h2
  exact h2

theorem exHome_dev (ip : String) (es : List Incident) (hf : ∀ e ∈ es, e.Fair)
    (hall : (mayB (freshData List.dedup) (homeOf exHome) es &&
      decide ((((homeOf exHome).run RefRun.use (RefCtlRun.use (freshData List.dedup)) es).1.devices ip).map (fun R => R.alive 0) = some false)) = true) :
    exHome.May (nodeUse exEnv okNet) (ctlUse List.dedup exEnv calmEnv okNet) sentBy sentByCtl es ∧
      ((exHome.run (nodeUse exEnv okNet) (ctlUse List.dedup exEnv calmEnv okNet) es).1.devices ip).map (fun r => r.alive 0) = some false := by
  have hord : ValidOrder List.dedup := fun l => ⟨l.nodup_dedup, fun _ => List.mem_dedup⟩
  obtain ⟨h1, -, h3⟩ := C150_network hord exEnv exEnv_stable calmEnv calmEnv_calm okNet (fun _ _ _ _ => rfl) exHome exHome_built es hf
  rw [Bool.and_eq_true, decide_eq_true_eq] at hall
  refine ⟨h3.mpr (mayB_spec _ _ _ hall.1), ?_⟩
  have h2 := hall.2
  rw [← h1] at h2
  generalize (exHome.run (nodeUse exEnv okNet) (ctlUse List.dedup exEnv calmEnv okNet) es).1 = M at h2
  have h2 : ((M.devices ip).map runOf).map (fun R => R.alive 0) = some false := h2
  rw [Option.map_map] at h2
  exact h2

/-- C154 is false: in a closed network of one light and one controller, in which only what was sent arrives, an announcement of the light ends a thread of a controller that has not found it; so does
the answer to a question to a light not found; and a request that writes one property and reads another, unknown one ends a thread of the light. -/
theorem C154_use_false :
    (exHome.May (nodeUse exEnv okNet) (ctlUse List.dedup exEnv calmEnv okNet) sentBy sentByCtl exNews ∧
      ((exHome.run (nodeUse exEnv okNet) (ctlUse List.dedup exEnv calmEnv okNet) exNews).1.controllers "10.0.0.2").map (fun r => r.alive 0) = some false) ∧
    (exHome.May (nodeUse exEnv okNet) (ctlUse List.dedup exEnv calmEnv okNet) sentBy sentByCtl exStranger ∧
      ((exHome.run (nodeUse exEnv okNet) (ctlUse List.dedup exEnv calmEnv okNet) exStranger).1.controllers "10.0.0.2").map (fun r => r.alive 0) = some false) ∧
    exHome.May (nodeUse exEnv okNet) (ctlUse List.dedup exEnv calmEnv okNet) sentBy sentByCtl exCurious ∧
      ((exHome.run (nodeUse exEnv okNet) (ctlUse List.dedup exEnv calmEnv okNet) exCurious).1.devices "10.0.0.9").map (fun r => r.alive 0) = some false := by
  refine ⟨exHome_ctl _ _ ?_ (by decide +kernel), exHome_ctl _ _ ?_ (by decide +kernel), exHome_dev _ _ ?_ (by decide +kernel)⟩
  · intro e he
    simp only [exNews, List.mem_cons, List.not_mem_nil, or_false] at he
    rcases he with rfl | rfl <;> trivial
  · intro e he
    simp only [exStranger, List.mem_cons, List.not_mem_nil, or_false] at he
    rcases he with rfl | rfl | rfl <;> trivial
  · intro e he
    simp only [exCurious, List.mem_cons, List.not_mem_nil, or_false] at he
    rcases he with rfl | rfl <;> trivial

/-- The hypotheses of `C154_polite_partial`: the afternoon of C150, with a search, a discovery, a question and an answer. -/
example : Built List.dedup exEnv exHome ∧ (∀ ip r, exHome.devices ip = some r → OwnProfile r.st) ∧ (∀ ip r, exHome.controllers ip = some r → OwnProfile r.st.ln) ∧
    (exHome.devices "224.0.23.0").isNone = true ∧ (exHome.controllers "224.0.23.0").isNone = true ∧ OnlySearches exHome ∧ RefNet.Politely (freshData List.dedup) (homeOf exHome) exAfternoon := by
  refine ⟨exHome_built, ?_, ?_, by decide +kernel, by decide +kernel, ?_, ?_⟩
  · intro ip r h1
    have h1 : (if ip = "10.0.0.9" then some (⟨exRunning, fun _ => true⟩ : Running LocalNode) else none) = some r := h1
    split at h1
    · injection h1 with h1; rw [← h1]; exact exRunning_own.1
    · cases h1
  · intro ip r h1
    have h1 : (if ip = "10.0.0.2" then some (⟨exSeeing, fun _ => true⟩ : Running Ctl) else none) = some r := h1
    split at h1
    · injection h1 with h1
      rw [← h1]
      show OwnProfile exSeeing.ln
      have h : ((Dict.get? exSeeing.ln.node.objects 0x0EF001).map fun | .profile => true | _ => false) = some true := by decide +kernel
      unfold OwnProfile
      obtain ⟨s, h1, h2⟩ := Option.map_eq_some_iff.mp h
      rw [h1]
      cases s with
      | profile => rfl
      | user o => cases h2
    · cases h1
  · have key : (((sentBy ⟨exRunning, fun _ => true⟩) ++ sentByCtl ⟨exSeeing, fun _ => true⟩).all fun s => decide (s.dest.1 = "224.0.23.0") &&
        (readMsg (s.bytes.take 1024)).any fun m => decide (m = { theSearch with tid := m.tid })) = true := by
      decide +kernel
    intro ip s hs
    have hmem : s ∈ (sentBy ⟨exRunning, fun _ => true⟩) ++ sentByCtl ⟨exSeeing, fun _ => true⟩ := by
      rcases hs with ⟨r, h1, h2⟩ | ⟨r, h1, h2⟩
      · have h1 : (if ip = "10.0.0.9" then some (⟨exRunning, fun _ => true⟩ : Running LocalNode) else none) = some r := h1
        split at h1
        · injection h1 with h1; rw [← h1] at h2; exact List.mem_append_left _ h2
        · cases h1
      · have h1 : (if ip = "10.0.0.2" then some (⟨exSeeing, fun _ => true⟩ : Running Ctl) else none) = some r := h1
        split at h1
        · injection h1 with h1; rw [← h1] at h2; exact List.mem_append_right _ h2
        · cases h1
    have := List.all_eq_true.mp key s hmem
    rw [Bool.and_eq_true, decide_eq_true_eq] at this
    refine ⟨this.1, ?_⟩
    cases hr : readMsg (s.bytes.take 1024) with
    | none => rw [hr] at this; cases this.2
    | some m =>
      rw [hr] at this
      have h2 : decide (m = { theSearch with tid := m.tid }) = true := this.2
      have h3 : m = { theSearch with tid := m.tid } := of_decide_eq_true h2
      exact ⟨m, rfl, h3⟩
  · have hk : ((((homeOf exHome).run RefRun.use (RefCtlRun.use (freshData List.dedup)) (exAfternoon.take 3)).1.controllers "10.0.0.2").map fun R => (R.ctl.node "10.0.0.9").isSome) = some true := by
      decide +kernel
    refine ⟨trivial, trivial, trivial, ?_, trivial, trivial⟩
    intro a ha
    injection ha with ha
    subst ha
    refine ⟨⟨.inr (.inr rfl), by decide⟩, by decide, by decide, fun R hR => ?_⟩
    have hR : ((homeOf exHome).run RefRun.use (RefCtlRun.use (freshData List.dedup)) (exAfternoon.take 3)).1.controllers "10.0.0.2" = some R := hR
    rw [hR] at hk
    have hk : some ((R.ctl.node "10.0.0.9").isSome) = some true := hk
    injection hk with hk
    intro e
    have e : R.ctl.node "10.0.0.9" = none := e
    rw [e] at hk
    cases hk

end Uecho
