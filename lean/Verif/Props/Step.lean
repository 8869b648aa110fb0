/- C161, C162: an answer to a read is a snapshot; a refusal has a reason. -/
import Verif.Lemmas.Step
import Verif.Props.Done

namespace Uecho
open Spec

/-- `n` is the node at an address, and `n'` is it one moment later. -/
def RealTurns (N N' : RealNet) (ip : String) (n n' : LocalNode) : Prop :=
  (∃ q q', N.devices ip = some q ∧ N'.devices ip = some q' ∧ q.st = n ∧ q'.st = n') ∨ ∃ q q', N.controllers ip = some q ∧ N'.controllers ip = some q' ∧ q.st.ln = n ∧ q'.st.ln = n'

/-- What a node serves from one moment to the next is what one of its objects does. -/
theorem realServes_of {N N' : RealNet} {ip : String} {w r : Msg} (h : RefNet.Serves (homeOf N) (homeOf N') ip w r) :
    ∃ (n n' : LocalNode) (t : Thing) (r0 : Msg) (so k : Int), RealTurns N N' ip n n' ∧ nodeEntry n w.deoj = t.props ∧ nodeEntry n' w.deoj = (t.actual w).1.props ∧ (t.actual w).2.1 = some r0 ∧ r = onWire { r0 with seoj := so, tid := k } ∧
      (k = w.tid ∨ w.tid = 0) ∧ (n.controller = false → so = w.deoj) := by
  have key : ∀ n n' : LocalNode, OneStep (deviceOf n) (deviceOf n') w r → ∃ (t : Thing) (r0 : Msg) (so k : Int), nodeEntry n w.deoj = t.props ∧ nodeEntry n' w.deoj = (t.actual w).1.props ∧ (t.actual w).2.1 = some r0 ∧
      r = onWire { r0 with seoj := so, tid := k } ∧ (k = w.tid ∨ w.tid = 0) ∧ (n.controller = false → so = w.deoj) := by
    rintro n n' ⟨t, r0, so, k, h1, h2, h3⟩
    refine ⟨t, r0, so, k, ?_, ?_, h3⟩
    · funext c
      rw [nodeEntry_eq]
      unfold RefDevice.entry
      rw [h1]; rfl
    · funext c
      rw [nodeEntry_eq]
      unfold RefDevice.entry
      rw [h2]; rfl
  rcases h with ⟨R, R', k1, k2, k3⟩ | ⟨R, R', k1, k2, k3⟩
  · obtain ⟨q, hq, rfl⟩ := home_devices k1
    obtain ⟨q', hq', rfl⟩ := home_devices k2
    obtain ⟨t, r0, so, k, j⟩ := key q.st q'.st k3
    exact ⟨q.st, q'.st, t, r0, so, k, .inl ⟨q, q', hq, hq', rfl, rfl⟩, j⟩
  · obtain ⟨q, hq, rfl⟩ := home_controllers k1
    obtain ⟨q', hq', rfl⟩ := home_controllers k2
    obtain ⟨t, r0, so, k, j⟩ := key q.st.ln q'.st.ln k3
    exact ⟨q.st.ln, q'.st.ln, t, r0, so, k, .inr ⟨q, q', hq, hq', rfl, rfl⟩, j⟩

/-- C161, in general. Answers are steps: in a closed network in which no program makes up answers, if none with number `t` to the controller at `ip`, or to everyone, is under way, then an answer with
this number that the controller ends up with, whether the request was done or refused, is one to a request the node at `ip` sent to the node it came from; and from one moment to the next the object
asked did, by itself and at once, what it does with this request. What is missing are
nodes whose receiving threads handle messages at the same time (`Props/Atomic`). -/
theorem C161_step_partial {ord : List Int → List Int} (hord : ValidOrder ord) (env : Env) (hc : CodeStable env) (cenv : CEnv) (hcalm : Calm cenv) (net : Net) (hs : NetWorks net)
    (N : RealNet) (h : Built ord env N) (hno : N.devices "224.0.23.0" = none ∧ N.controllers "224.0.23.0" = none) (ip : String) (t : Int)
    (hquiet : ∀ dst m, dst = ip ∨ dst = "224.0.23.0" → N.Said sentBy sentByCtl dst m → Replies m → m.tid ≠ t) (hnew : ∀ r m, N.controllers ip = some r → r.st.last.response = some m → Replies m → m.tid ≠ t)
    (es : List Incident) (hf : ∀ e ∈ es, e.Fair) (hmay : N.May (nodeUse env net) (ctlUse ord env cenv net) sentBy sentByCtl es) (hh : ∀ e ∈ es, ∀ dst m, e.says = some (dst, m) → ¬ Replies m) :
    ∀ r m, (N.run (nodeUse env net) (ctlUse ord env cenv net) es).1.controllers ip = some r → r.st.last.response = some m → Replies m → m.tid = t →
      ∃ a m0 k b w, k < es.length ∧ m = { m0 with fromAddr := some a } ∧ (N.run (nodeUse env net) (ctlUse ord env cenv net) (es.take k)).1.Carried sentBy sentByCtl ip a.1 b ∧ readMsg (b.take 1024) = some w ∧
        RefNet.Serves (homeOf (N.run (nodeUse env net) (ctlUse ord env cenv net) (es.take k)).1) (homeOf (N.run (nodeUse env net) (ctlUse ord env cenv net) (es.take (k + 1))).1) a.1 w m0 := by
  intro r m hr hm hcf htid
  obtain ⟨k1, -, k3⟩ := C150_network hord env hc cenv hcalm net hs N h es hf
  let K : String → String → Msg → Msg → Prop := fun src dst w r => ∃ k b, k < es.length ∧ (N.run (nodeUse env net) (ctlUse ord env cenv net) (es.take k)).1.Carried sentBy sentByCtl dst src b ∧
    readMsg (b.take 1024) = some w ∧ RefNet.Serves (homeOf (N.run (nodeUse env net) (ctlUse ord env cenv net) (es.take k)).1) (homeOf (N.run (nodeUse env net) (ctlUse ord env cenv net) (es.take (k + 1))).1) src w r
  let Sel : String → Int → Prop := fun dst t' => (dst = ip ∨ dst = everyone) ∧ t' = t
  have hat : ∀ k, homeOf (N.run (nodeUse env net) (ctlUse ord env cenv net) (es.take k)).1 = ((homeOf N).run RefRun.use (RefCtlRun.use (freshData ord)) (es.take k)).1 := fun k =>
    (C150_network hord env hc cenv hcalm net hs N h (es.take k) fun e he => hf e (List.mem_of_mem_take he)).1
  have hn : ∀ k, k < es.length → Stepped K ((homeOf N).run RefRun.use (RefCtlRun.use (freshData ord)) (es.take k)).1 ((homeOf N).run RefRun.use (RefCtlRun.use (freshData ord)) (es.take (k + 1))).1 := by
    intro k hk src dst b w r hcar hw hdone
    rw [← hat k, ← home_carried] at hcar
    rw [← hat k, ← hat (k + 1)] at hdone
    exact ⟨k, b, hk, hcar, hw, hdone⟩
  have hsent : ∀ ip' s, ((∃ r, N.devices ip' = some r ∧ s ∈ sentBy r) ∨ ∃ r, N.controllers ip' = some r ∧ s ∈ sentByCtl r) → StepSent K Sel ip' s := by
    intro ip' s hs' m hm hsel hcf
    exact absurd hsel.2 (hquiet s.dest.1 m hsel.1 ⟨ip', s, hs', rfl, hm⟩ hcf)
  have h0 : AllStep K Sel (homeOf N) := by
    refine ⟨fun ip' R hR => ?_, fun ip' R hR => ?_⟩
    · obtain ⟨r, hr, rfl⟩ := home_devices hR
      exact ⟨plain_short (h.dev ip' r hr).2.1, fun s hs' => hsent ip' s (.inl ⟨r, hr, hs'⟩)⟩
    · obtain ⟨r', hr', rfl⟩ := home_controllers hR
      refine ⟨plain_short (h.ctl ip' r' hr').2.1, ?_, fun s hs' => hsent ip' s (.inr ⟨r', hr', hs'⟩)⟩
      intro m' hm' hsel hcf'
      have hip : ip' = ip ∨ ip' = everyone := hsel.1
      rcases hip with hip | hip
      · rw [hip] at hr'
        exact absurd hsel.2 (hnew r' m' hr' hm' hcf')
      · rw [hip] at hr'
        have hr' : N.controllers "224.0.23.0" = some r' := hr'
        rw [hno.2] at hr'; cases hr'
  have hend := step_run (K := K) (Sel := Sel) (fun dst t' hsel => ⟨.inr rfl, hsel.2⟩) es (homeOf N) h0 hn hf hh (k3.mp hmay)
  rw [← k1] at hend
  obtain ⟨a, m0, dst, w, rfl, hdst, k, b, hlt, j1, j2, j3⟩ :=
    (hend.ctl ip (ctlRunOf r) (by show ((N.run (nodeUse env net) (ctlUse ord env cenv net) es).1.controllers ip).map ctlRunOf = _; rw [hr]; rfl)).2.1 m hm ⟨.inl rfl, htid⟩ hcf
  have hdst : dst = ip := by
    rcases hdst with e | e
    · exact e
    · rw [e] at j1
      obtain ⟨s, hs', -⟩ := j1
      obtain ⟨q1, q2⟩ := home_nobody (nodeUse env net) (ctlUse ord env cenv net) "224.0.23.0" (es.take k) N hno.1 hno.2
      rcases hs' with ⟨r, hr, -⟩ | ⟨r, hr, -⟩
      · have hr : (N.run (nodeUse env net) (ctlUse ord env cenv net) (es.take k)).1.devices "224.0.23.0" = some r := hr
        rw [q1] at hr; cases hr
      · have hr : (N.run (nodeUse env net) (ctlUse ord env cenv net) (es.take k)).1.controllers "224.0.23.0" = some r := hr
        rw [q2] at hr; cases hr
  rw [hdst] at j1
  exact ⟨a, m0, k, b, w, hlt, rfl, j1, j2, j3⟩

/-- C161. An answer to a read is a snapshot: under the same conditions, if the controller ends up with the values of properties it asked for with number `t`, then there is one moment, after the request
was sent, at which all the properties asked for were there and readable and had, all together, the values the answer gives. Answers never mix values of different moments, however many others write
meanwhile. The read itself changed nothing. What is missing are
nodes whose receiving threads handle messages at the same time (`Props/Atomic`). -/
theorem C161_snapshot_partial {ord : List Int → List Int} (hord : ValidOrder ord) (env : Env) (hc : CodeStable env) (cenv : CEnv) (hcalm : Calm cenv) (net : Net) (hs : NetWorks net)
    (N : RealNet) (h : Built ord env N) (hno : N.devices "224.0.23.0" = none ∧ N.controllers "224.0.23.0" = none) (ip : String) (t : Int)
    (hquiet : ∀ dst m, dst = ip ∨ dst = "224.0.23.0" → N.Said sentBy sentByCtl dst m → Replies m → m.tid ≠ t) (hnew : ∀ r m, N.controllers ip = some r → r.st.last.response = some m → Replies m → m.tid ≠ t)
    (es : List Incident) (hf : ∀ e ∈ es, e.Fair) (hmay : N.May (nodeUse env net) (ctlUse ord env cenv net) sentBy sentByCtl es) (hh : ∀ e ∈ es, ∀ dst m, e.says = some (dst, m) → ¬ Replies m) :
    ∀ r m, (N.run (nodeUse env net) (ctlUse ord env cenv net) es).1.controllers ip = some r → r.st.last.response = some m → m.esv = 0x72 → m.tid = t →
      ∃ a k b w n n', k < es.length ∧ m.fromAddr = some a ∧ (N.run (nodeUse env net) (ctlUse ord env cenv net) (es.take k)).1.Carried sentBy sentByCtl ip a.1 b ∧ readMsg (b.take 1024) = some w ∧ (m.tid = w.tid ∨ w.tid = 0) ∧ m.deoj = w.seoj ∧
        RealTurns (N.run (nodeUse env net) (ctlUse ord env cenv net) (es.take k)).1 (N.run (nodeUse env net) (ctlUse ord env cenv net) (es.take (k + 1))).1 a.1 n n' ∧
        Snapshot (nodeEntry n w.deoj) w m ∧ nodeEntry n' w.deoj = nodeEntry n w.deoj ∧ (n.controller = false → m.seoj = w.deoj) := by
  intro r m hr hm hesv htid
  obtain ⟨a, m0, k, b, w, hlt, rfl, j1, j2, j3⟩ := C161_step_partial hord env hc cenv hcalm net hs N h hno ip t hquiet hnew es hf hmay hh r m hr hm (by unfold Replies; rw [hesv]; decide) htid
  obtain ⟨n, n', th, r0, so, k', q1, q2, q3, q4, q5, q6, q7⟩ := realServes_of j3
  have hwire := (readMsg_sound _ _ j2).2.1
  have hesv : m0.esv = 0x72 := hesv
  have hr0 : r0.esv = 0x72 := by rw [q5] at hesv; exact hesv
  have hsnap := thing_snapshot q4 hr0
  have hsame : (th.actual w).1.props = th.props := by
    rw [actual_read th hsnap.2.1]
  refine ⟨a, k, b, w, n, n', hlt, rfl, j1, j2, ?_, ?_, q1, ?_, by rw [q2, q3, hsame], ?_⟩
  · show m0.tid = _ ∨ _
    rw [q5]
    rcases q6 with e | e
    · rw [e]; exact .inl (congrArg Msg.tid hwire).symm
    · exact .inr e
  · show m0.deoj = _
    rw [q5]
    show r0.deoj % 2 ^ 24 = _
    rw [(reply_head q4).2.2]; exact (congrArg Msg.seoj hwire).symm
  · show Snapshot _ w m0
    rw [q2, q5]; exact snapshot_wire hsnap
  · intro hn
    show m0.seoj = _
    rw [q5]
    show so % 2 ^ 24 = _
    rw [q7 hn]; exact (congrArg Msg.deoj hwire).symm

/-- C162. A refusal has a reason: under the same conditions, if the controller ends up with the refusal of a request it sent with number `t`, then at one moment after the request was sent some
property asked for was not there, or not to be written or read as asked. From this moment to the next all properties of the request that may be written were, and the values given for those that may
be read were theirs: a refusal does not mean that nothing was done. What is missing are
nodes whose receiving threads handle messages at the same time (`Props/Atomic`). -/
theorem C162_refused_partial {ord : List Int → List Int} (hord : ValidOrder ord) (env : Env) (hc : CodeStable env) (cenv : CEnv) (hcalm : Calm cenv) (net : Net) (hs : NetWorks net)
    (N : RealNet) (h : Built ord env N) (hno : N.devices "224.0.23.0" = none ∧ N.controllers "224.0.23.0" = none) (ip : String) (t : Int)
    (hquiet : ∀ dst m, dst = ip ∨ dst = "224.0.23.0" → N.Said sentBy sentByCtl dst m → Replies m → m.tid ≠ t) (hnew : ∀ r m, N.controllers ip = some r → r.st.last.response = some m → Replies m → m.tid ≠ t)
    (es : List Incident) (hf : ∀ e ∈ es, e.Fair) (hmay : N.May (nodeUse env net) (ctlUse ord env cenv net) sentBy sentByCtl es) (hh : ∀ e ∈ es, ∀ dst m, e.says = some (dst, m) → ¬ Replies m) :
    ∀ r m, (N.run (nodeUse env net) (ctlUse ord env cenv net) es).1.controllers ip = some r → r.st.last.response = some m → m.esv = 0x50 ∨ m.esv = 0x52 ∨ m.esv = 0x5E → m.tid = t →
      ∃ a k b w n n', k < es.length ∧ m.fromAddr = some a ∧ (N.run (nodeUse env net) (ctlUse ord env cenv net) (es.take k)).1.Carried sentBy sentByCtl ip a.1 b ∧ readMsg (b.take 1024) = some w ∧ (m.tid = w.tid ∨ w.tid = 0) ∧ m.deoj = w.seoj ∧
        RealTurns (N.run (nodeUse env net) (ctlUse ord env cenv net) (es.take k)).1 (N.run (nodeUse env net) (ctlUse ord env cenv net) (es.take (k + 1))).1 a.1 n n' ∧
        Justified (nodeEntry n w.deoj) (nodeEntry n' w.deoj) w m ∧ (n.controller = false → m.seoj = w.deoj) := by
  intro r m hr hm hesv htid
  obtain ⟨a, m0, k, b, w, hlt, rfl, j1, j2, j3⟩ := C161_step_partial hord env hc cenv hcalm net hs N h hno ip t hquiet hnew es hf hmay hh r m hr hm
    (by unfold Replies; rcases hesv with e | e | e <;> rw [e] <;> decide) htid
  obtain ⟨n, n', th, r0, so, k', q1, q2, q3, q4, q5, q6, q7⟩ := realServes_of j3
  have hwire := (readMsg_sound _ _ j2).2.1
  have hesv : m0.esv = 0x50 ∨ m0.esv = 0x52 ∨ m0.esv = 0x5E := hesv
  have hr0 : r0.esv = 0x50 ∨ r0.esv = 0x52 ∨ r0.esv = 0x5E := by rw [q5] at hesv; exact hesv
  refine ⟨a, k, b, w, n, n', hlt, rfl, j1, j2, ?_, ?_, q1, ?_, ?_⟩
  · show m0.tid = _ ∨ _
    rw [q5]
    rcases q6 with e | e
    · rw [e]; exact .inl (congrArg Msg.tid hwire).symm
    · exact .inr e
  · show m0.deoj = _
    rw [q5]
    show r0.deoj % 2 ^ 24 = _
    rw [(reply_head q4).2.2]; exact (congrArg Msg.seoj hwire).symm
  · show Justified _ _ w m0
    rw [q2, q3, q5]; exact justified_wire (thing_refuses q4 hr0)
  · intro hn
    show m0.seoj = _
    rw [q5]
    show so % 2 ^ 24 = _
    rw [q7 hn]; exact (congrArg Msg.deoj hwire).symm

/-! ### The light is asked, and told off -/

/-- The controller searches, finds the light, and asks for its state and where it is; it is told both. -/
def exAsksBoth : List Incident := [
  .controller "10.0.0.2" .search,
  .device "10.0.0.9" (.arrive ⟨0, [0x10, 0x81, 0, 2, 0x0E, 0xF0, 1, 0x0E, 0xF0, 1, 0x62, 1, 0xD6, 0], ("10.0.0.2", 3610)⟩),
  .controller "10.0.0.2" (.device (.arrive ⟨0, [0x10, 0x81, 0, 2, 0x0E, 0xF0, 1, 0x0E, 0xF0, 1, 0x72, 1, 0xD6, 4, 1, 2, 0x91, 1], ("10.0.0.9", 3610)⟩)),
  .controller "10.0.0.2" (.post { deoj := 0x029101, esv := 0x62, props := [{ code := 0x80 }, { code := 0x81 }] } (.str "10.0.0.9")),
  .device "10.0.0.9" (.arrive ⟨0, [0x10, 0x81, 0, 3, 0x0E, 0xF0, 1, 2, 0x91, 1, 0x62, 2, 0x80, 0, 0x81, 0], ("10.0.0.2", 3610)⟩),
  .controller "10.0.0.2" (.device (.arrive ⟨0, [0x10, 0x81, 0, 3, 2, 0x91, 1, 0x0E, 0xF0, 1, 0x72, 2, 0x80, 1, 0x30, 0x81, 1, 7], ("10.0.0.9", 3610)⟩))]

/-- The controller writes the state of the light and where it is, which may not be written; it is refused, but the light is on. -/
def exOversteps : List Incident := [
  .controller "10.0.0.2" (.post { deoj := 0x029101, esv := 0x61, props := [{ code := 0x80, data := [0x31] }, { code := 0x81, data := [1] }] } (.str "10.0.0.9")),
  .device "10.0.0.9" (.arrive ⟨0, [0x10, 0x81, 0, 2, 0x0E, 0xF0, 1, 2, 0x91, 1, 0x61, 2, 0x80, 1, 0x31, 0x81, 1, 1], ("10.0.0.2", 3610)⟩),
  .controller "10.0.0.2" (.device (.arrive ⟨0, [0x10, 0x81, 0, 2, 2, 0x91, 1, 0x0E, 0xF0, 1, 0x50, 2, 0x80, 0, 0x81, 1, 1], ("10.0.0.9", 3610)⟩))]

/-- In the example network no answers are under way. -/
theorem exHome_noReplies (t : Int) : (∀ dst m, dst = "10.0.0.2" ∨ dst = "224.0.23.0" → exHome.Said sentBy sentByCtl dst m → Replies m → m.tid ≠ t) ∧
    ∀ r m, exHome.controllers "10.0.0.2" = some r → r.st.last.response = some m → Replies m → m.tid ≠ t := by
  refine ⟨?_, ?_⟩
  · rintro dst m - ⟨ip, s, hs, -, hm⟩ ht
    obtain ⟨-, m', hm', hsearch⟩ := exHome_searches ip s hs
    rw [hm] at hm'
    injection hm' with hm'
    subst hm'
    unfold Replies at ht
    rw [(search_is hsearch).1] at ht
    exact absurd ht (by decide)
  · intro r m h1 h2
    rw [(exHome_started.2 _ r h1).2.2] at h2
    cases h2

set_option synthInstance.maxSize 1000 in
theorem exAsksBoth_ends : (mayB (freshData List.dedup) (homeOf exHome) exAsksBoth &&
    decide ((((homeOf exHome).run RefRun.use (RefCtlRun.use (freshData List.dedup)) exAsksBoth).1.controllers "10.0.0.2").map
      (fun R => R.ctl.answer.map fun m => (m.tid, m.esv, m.props.map fun i => (i.code, i.data))) = some (some (3, 0x72, [(0x80, [0x30]), (0x81, [7])])))) = true := by
  decide +kernel

/-- The hypotheses of `C161_step_partial` and `C161_snapshot_partial`: the light is asked for two properties, with number 3, and the values arrive. -/
example : Built List.dedup exEnv exHome ∧ ((exHome.devices "224.0.23.0").isNone && (exHome.controllers "224.0.23.0").isNone) = true ∧
    (∀ dst m, dst = "10.0.0.2" ∨ dst = "224.0.23.0" → exHome.Said sentBy sentByCtl dst m → Replies m → m.tid ≠ 3) ∧
    (∀ r m, exHome.controllers "10.0.0.2" = some r → r.st.last.response = some m → Replies m → m.tid ≠ 3) ∧
    (∀ e ∈ exAsksBoth, e.Fair) ∧ exHome.May (nodeUse exEnv okNet) (ctlUse List.dedup exEnv calmEnv okNet) sentBy sentByCtl exAsksBoth ∧
    (∀ e ∈ exAsksBoth, ∀ dst m, e.says = some (dst, m) → ¬ Replies m) ∧
    ((exHome.run (nodeUse exEnv okNet) (ctlUse List.dedup exEnv calmEnv okNet) exAsksBoth).1.controllers "10.0.0.2").map
      (fun r => r.st.last.response.map fun m => (m.tid, m.esv, m.props.map fun i => (i.code, i.data))) = some (some (3, 0x72, [(0x80, [0x30]), (0x81, [7])])) := by
  have hord : ValidOrder List.dedup := fun l => ⟨l.nodup_dedup, fun _ => List.mem_dedup⟩
  have hf : ∀ e ∈ exAsksBoth, e.Fair := by
    intro e he
    simp only [exAsksBoth, List.mem_cons, List.not_mem_nil, or_false] at he
    rcases he with rfl | rfl | rfl | rfl | rfl | rfl <;> trivial
  obtain ⟨k1, -, k3⟩ := C150_network hord exEnv exEnv_stable calmEnv calmEnv_calm okNet (fun _ _ _ _ => rfl) exHome exHome_built exAsksBoth hf
  have hall := exAsksBoth_ends
  simp only [Bool.and_eq_true, decide_eq_true_eq] at hall
  refine ⟨exHome_built, by decide +kernel, (exHome_noReplies _).1, (exHome_noReplies _).2, hf, k3.mpr (mayB_spec _ _ _ hall.1), ?_, ?_⟩
  · intro e he dst m hm
    simp only [exAsksBoth, List.mem_cons, List.not_mem_nil, or_false] at he
    rcases he with rfl | rfl | rfl | rfl | rfl | rfl
    · injection hm with hm
      injection hm with _ hm
      rw [← hm]
      exact fun h => absurd (show (0x62 : Int) ∈ [(0x50 : Int), 0x51, 0x52, 0x53, 0x5E, 0x71, 0x72, 0x7A, 0x7E] from h) (by decide)
    · cases hm
    · cases hm
    · injection hm with hm
      injection hm with _ hm
      rw [← hm]
      exact fun h => absurd (show (0x62 : Int) ∈ [(0x50 : Int), 0x51, 0x52, 0x53, 0x5E, 0x71, 0x72, 0x7A, 0x7E] from h) (by decide)
    · cases hm
    · cases hm
  · have h2 := hall.2
    rw [← k1] at h2
    generalize (exHome.run (nodeUse exEnv okNet) (ctlUse List.dedup exEnv calmEnv okNet) exAsksBoth).1 = M at h2
    have h2 : ((M.controllers "10.0.0.2").map ctlRunOf).map (fun R => R.ctl.answer.map fun m => (m.tid, m.esv, m.props.map fun i => (i.code, i.data))) = _ := h2
    rw [Option.map_map] at h2
    exact h2

set_option synthInstance.maxSize 1000 in
theorem exOversteps_ends : (mayB (freshData List.dedup) (homeOf exHome) exOversteps &&
    decide ((((homeOf exHome).run RefRun.use (RefCtlRun.use (freshData List.dedup)) exOversteps).1.controllers "10.0.0.2").map
      (fun R => R.ctl.answer.map fun m => (m.tid, m.esv, m.props.map fun i => (i.code, i.data))) = some (some (2, 0x50, [(0x80, []), (0x81, [1])])))) = true := by
  decide +kernel

/-- The hypotheses of `C162_refused_partial`: one of two writes with number 2 is not possible, and the refusal arrives. -/
example : Built List.dedup exEnv exHome ∧ ((exHome.devices "224.0.23.0").isNone && (exHome.controllers "224.0.23.0").isNone) = true ∧
    (∀ dst m, dst = "10.0.0.2" ∨ dst = "224.0.23.0" → exHome.Said sentBy sentByCtl dst m → Replies m → m.tid ≠ 2) ∧
    (∀ r m, exHome.controllers "10.0.0.2" = some r → r.st.last.response = some m → Replies m → m.tid ≠ 2) ∧
    (∀ e ∈ exOversteps, e.Fair) ∧ exHome.May (nodeUse exEnv okNet) (ctlUse List.dedup exEnv calmEnv okNet) sentBy sentByCtl exOversteps ∧
    (∀ e ∈ exOversteps, ∀ dst m, e.says = some (dst, m) → ¬ Replies m) ∧
    ((exHome.run (nodeUse exEnv okNet) (ctlUse List.dedup exEnv calmEnv okNet) exOversteps).1.controllers "10.0.0.2").map
      (fun r => r.st.last.response.map fun m => (m.tid, m.esv, m.props.map fun i => (i.code, i.data))) = some (some (2, 0x50, [(0x80, []), (0x81, [1])])) := by
  have hord : ValidOrder List.dedup := fun l => ⟨l.nodup_dedup, fun _ => List.mem_dedup⟩
  have hf : ∀ e ∈ exOversteps, e.Fair := by
    intro e he
    simp only [exOversteps, List.mem_cons, List.not_mem_nil, or_false] at he
    rcases he with rfl | rfl | rfl <;> trivial
  obtain ⟨k1, -, k3⟩ := C150_network hord exEnv exEnv_stable calmEnv calmEnv_calm okNet (fun _ _ _ _ => rfl) exHome exHome_built exOversteps hf
  have hall := exOversteps_ends
  simp only [Bool.and_eq_true, decide_eq_true_eq] at hall
  refine ⟨exHome_built, by decide +kernel, (exHome_noReplies _).1, (exHome_noReplies _).2, hf, k3.mpr (mayB_spec _ _ _ hall.1), ?_, ?_⟩
  · intro e he dst m hm
    simp only [exOversteps, List.mem_cons, List.not_mem_nil, or_false] at he
    rcases he with rfl | rfl | rfl
    · injection hm with hm
      injection hm with _ hm
      rw [← hm]
      exact fun h => absurd (show (0x61 : Int) ∈ [(0x50 : Int), 0x51, 0x52, 0x53, 0x5E, 0x71, 0x72, 0x7A, 0x7E] from h) (by decide)
    · cases hm
    · cases hm
  · have h2 := hall.2
    rw [← k1] at h2
    generalize (exHome.run (nodeUse exEnv okNet) (ctlUse List.dedup exEnv calmEnv okNet) exOversteps).1 = M at h2
    have h2 : ((M.controllers "10.0.0.2").map ctlRunOf).map (fun R => R.ctl.answer.map fun m => (m.tid, m.esv, m.props.map fun i => (i.code, i.data))) = _ := h2
    rw [Option.map_map] at h2
    exact h2

/-- Although it refused, the light is on. -/
example : decide ((((homeOf exHome).run RefRun.use (RefCtlRun.use (freshData List.dedup)) exOversteps).1.devices "10.0.0.9").map
    (fun R => (R.dev.entry 0x029101 0x80).map Entry.data) = some (some [0x31])) = true := by
  decide +kernel

end Uecho
