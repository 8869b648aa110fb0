/- C163: requests take effect in the order in which they are made. -/
import Verif.Lemmas.Turn
import Verif.Props.Step
import Verif.Props.Settled
import Verif.Props.Kept

namespace Uecho
open Spec

/-- What is under way at one moment is under way later. -/
theorem take_carried (fresh : Int → Int → Option Bytes) (N : RefNet) (es : List Incident) {k k' : Nat} (hk : k ≤ k') {ip dst : String} {b : Bytes}
    (h : (N.run RefRun.use (RefCtlRun.use fresh) (es.take k)).1.Carried RefRun.sent RefCtlRun.sent ip dst b) :
    (N.run RefRun.use (RefCtlRun.use fresh) (es.take k')).1.Carried RefRun.sent RefCtlRun.sent ip dst b := by
  have e : es.take k' = es.take k ++ (es.drop k).take (k' - k) := by
    rw [← List.take_add]
    congr 1; omega
  rw [e, home_run_append]
  exact run_carried fresh _ _ h

/-- C163. Requests take effect in order: in a closed network in which no program makes up answers, a controller was given the answer to its request of number `t` before another, or the same, sent one
of number `t'`, to whatever node, which was answered later. Then the first took effect, at once, at a moment before the second was sent, and the second, at once, at a moment after it. With `C161_step_partial`:
what is observed is as if all requests that are answered were served one at a time, each between the moment it was sent and the moment its answer arrived. What is missing are
nodes whose receiving threads handle messages at the same time (`Props/Atomic`). -/
theorem C163_order_partial {ord : List Int → List Int} (hord : ValidOrder ord) (env : Env) (hc : CodeStable env) (cenv : CEnv) (hcalm : Calm cenv) (net : Net) (hs : NetWorks net)
    (N : RealNet) (h : Built ord env N) (hno : N.devices "224.0.23.0" = none ∧ N.controllers "224.0.23.0" = none) (ip ip' : String) (t t' : Int)
    (hquiet : ∀ dst m, dst = ip ∨ dst = "224.0.23.0" → N.Said sentBy sentByCtl dst m → Replies m → m.tid ≠ t) (hnew : ∀ r m, N.controllers ip = some r → r.st.last.response = some m → Replies m → m.tid ≠ t)
    (hquiet' : ∀ dst m, dst = ip' ∨ dst = "224.0.23.0" → N.Said sentBy sentByCtl dst m → Replies m → m.tid ≠ t') (hnew' : ∀ r m, N.controllers ip' = some r → r.st.last.response = some m → Replies m → m.tid ≠ t')
    (es es' : List Incident) (hf : ∀ e ∈ es ++ es', e.Fair) (hmay : N.May (nodeUse env net) (ctlUse ord env cenv net) sentBy sentByCtl (es ++ es'))
    (hh : ∀ e ∈ es ++ es', ∀ dst m, e.says = some (dst, m) → ¬ Replies m)
    (hlater : ∀ dst b w, (N.run (nodeUse env net) (ctlUse ord env cenv net) es).1.Carried sentBy sentByCtl ip' dst b → readMsg (b.take 1024) = some w → w.tid ≠ t' ∧ w.tid ≠ 0) :
    ∀ r m r' m', (N.run (nodeUse env net) (ctlUse ord env cenv net) es).1.controllers ip = some r → r.st.last.response = some m → Replies m → m.tid = t →
      (N.run (nodeUse env net) (ctlUse ord env cenv net) (es ++ es')).1.controllers ip' = some r' → r'.st.last.response = some m' → Replies m' → m'.tid = t' →
      ∃ a m0 k w a' m0' k' w', m = { m0 with fromAddr := some a } ∧ m' = { m0' with fromAddr := some a' } ∧ k < es.length ∧ es.length ≤ k' ∧ k' < (es ++ es').length ∧
        (w.tid = t ∨ w.tid = 0) ∧ (w'.tid = t' ∨ w'.tid = 0) ∧
        (∃ b, (N.run (nodeUse env net) (ctlUse ord env cenv net) ((es ++ es').take k)).1.Carried sentBy sentByCtl ip a.1 b ∧ readMsg (b.take 1024) = some w) ∧
        RefNet.Serves (homeOf (N.run (nodeUse env net) (ctlUse ord env cenv net) ((es ++ es').take k)).1) (homeOf (N.run (nodeUse env net) (ctlUse ord env cenv net) ((es ++ es').take (k + 1))).1) a.1 w m0 ∧
        (∃ b, (N.run (nodeUse env net) (ctlUse ord env cenv net) ((es ++ es').take k')).1.Carried sentBy sentByCtl ip' a'.1 b ∧ readMsg (b.take 1024) = some w') ∧
        RefNet.Serves (homeOf (N.run (nodeUse env net) (ctlUse ord env cenv net) ((es ++ es').take k')).1) (homeOf (N.run (nodeUse env net) (ctlUse ord env cenv net) ((es ++ es').take (k' + 1))).1) a'.1 w' m0' := by
  intro r m r' m' hr hm hrep htid hr' hm' hrep' htid'
  have hf1 : ∀ e ∈ es, e.Fair := fun e he => hf e (List.mem_append_left _ he)
  obtain ⟨hmay1, -⟩ := may_append _ _ _ _ es es' N hmay
  obtain ⟨a, m0, k, b, w, hlt, e1, j1, j2, j3⟩ := C161_step_partial hord env hc cenv hcalm net hs N h hno ip t hquiet hnew es hf1 hmay1 (fun e he => hh e (List.mem_append_left _ he)) r m hr hm hrep htid
  obtain ⟨a', m0', k', b', w', hlt', e1', j1', j2', j3'⟩ := C161_step_partial hord env hc cenv hcalm net hs N h hno ip' t' hquiet' hnew' (es ++ es') hf hmay hh r' m' hr' hm' hrep' htid'
  have num : ∀ {P P' : RealNet} {x : String} {w0 r0 : Msg} {b0 : Bytes}, RefNet.Serves (homeOf P) (homeOf P') x w0 r0 → readMsg (b0.take 1024) = some w0 → w0.tid = r0.tid ∨ w0.tid = 0 := by
    intro P P' x w0 r0 b0 h1 h2
    obtain ⟨n, n', th, r1, so, l, -, -, -, -, q5, q6, -⟩ := realServes_of h1
    have hwire := (readMsg_sound _ _ h2).2.1
    rcases q6 with e | e
    · left
      rw [q5, e]
      exact (show w0.tid = (onWire w0).tid from congrArg Msg.tid hwire)
    · exact .inr e
  have hle : es.length ≤ k' := by
    by_contra hcon
    have hcon : k' ≤ es.length := by omega
    have htk : (es ++ es').take es.length = es := List.take_left
    have hat : ∀ k, homeOf (N.run (nodeUse env net) (ctlUse ord env cenv net) ((es ++ es').take k)).1 = ((homeOf N).run RefRun.use (RefCtlRun.use (freshData ord)) ((es ++ es').take k)).1 := fun k =>
      (C150_network hord env hc cenv hcalm net hs N h ((es ++ es').take k) fun e he => hf e (List.mem_of_mem_take he)).1
    have j1'' := j1'
    rw [home_carried, hat] at j1''
    have hend := take_carried (freshData ord) (homeOf N) (es ++ es') hcon j1''
    rw [← hat, ← home_carried, htk] at hend
    obtain ⟨n1, n2⟩ := hlater a'.1 b' w' hend j2'
    have htid' : m0'.tid = t' := by rw [e1'] at htid'; exact htid'
    rcases num j3' j2' with e | e
    · exact n1 (e.trans htid')
    · exact n2 e
  refine ⟨a, m0, k, w, a', m0', k', w', e1, e1', hlt, hle, hlt', ?_, ?_, ?_, ?_, ⟨b', j1', j2'⟩, j3'⟩
  · have htid : m0.tid = t := by rw [e1] at htid; exact htid
    rw [← htid]; exact num j3 j2
  · have htid' : m0'.tid = t' := by rw [e1'] at htid'; exact htid'
    rw [← htid']; exact num j3' j2'
  · rw [List.take_append_of_le_length (Nat.le_of_lt hlt)]; exact ⟨b, j1, j2⟩
  · rw [List.take_append_of_le_length (Nat.le_of_lt hlt), List.take_append_of_le_length hlt]; exact j3

/-! ### First on, then asked -/

set_option synthInstance.maxSize 1000 in
theorem exSeesIt_turns : (decide ((((homeOf exHome).run RefRun.use (RefCtlRun.use (freshData List.dedup)) exLitUp).1.controllers "10.0.0.2").map
      (fun R => (R.ctl.answer.map fun m => (m.tid, m.esv), R.sent.all fun s => (readMsg (s.bytes.take 1024)).all fun w => !decide (w.tid = 4) && !decide (w.tid = 0))) = some (some (2, 0x71), true)) &&
    decide ((((homeOf exHome).run RefRun.use (RefCtlRun.use (freshData List.dedup)) (exLitUp ++ exSeesIt)).1.controllers "10.0.0.2").map
      (fun R => R.ctl.answer.map fun m => (m.tid, m.esv)) = some (some (4, 0x72)))) = true := by
  decide +kernel

theorem exSeesIt_asks : ∀ e ∈ exLitUp ++ exSeesIt, ∀ dst m, e.says = some (dst, m) → ¬ Replies m := by
  intro e he dst m hm
  simp only [exLitUp, exSeesIt, List.cons_append, List.nil_append, List.mem_cons, List.not_mem_nil, or_false] at he
  rcases he with rfl | rfl | rfl | rfl | rfl | rfl | rfl | rfl | rfl
  · injection hm with hm
    injection hm with _ hm
    rw [← hm]
    exact fun h => absurd (show (0x61 : Int) ∈ [(0x50 : Int), 0x51, 0x52, 0x53, 0x5E, 0x71, 0x72, 0x7A, 0x7E] from h) (by decide)
  · cases hm
  · cases hm
  · injection hm with hm
    injection hm with _ hm
    rw [← hm]
    exact fun h => absurd (show (0x62 : Int) ∈ [(0x50 : Int), 0x51, 0x52, 0x53, 0x5E, 0x71, 0x72, 0x7A, 0x7E] from h) (by decide)
  · cases hm
  · cases hm
  · injection hm with hm
    injection hm with _ hm
    rw [← hm]
    exact fun h => absurd (show (0x62 : Int) ∈ [(0x50 : Int), 0x51, 0x52, 0x53, 0x5E, 0x71, 0x72, 0x7A, 0x7E] from h) (by decide)
  · cases hm
  · cases hm

/-- The hypotheses of `C163_order_partial`, with `exHome_noReplies`: the light is switched on with number 2, and then asked for its state with number 4. -/
example : Built List.dedup exEnv exHome ∧ ((exHome.devices "224.0.23.0").isNone && (exHome.controllers "224.0.23.0").isNone) = true ∧ (∀ e ∈ exLitUp ++ exSeesIt, e.Fair) ∧
    exHome.May (nodeUse exEnv okNet) (ctlUse List.dedup exEnv calmEnv okNet) sentBy sentByCtl (exLitUp ++ exSeesIt) ∧
    (∀ e ∈ exLitUp ++ exSeesIt, ∀ dst m, e.says = some (dst, m) → ¬ Replies m) ∧
    (∀ dst b w, (exHome.run (nodeUse exEnv okNet) (ctlUse List.dedup exEnv calmEnv okNet) exLitUp).1.Carried sentBy sentByCtl "10.0.0.2" dst b → readMsg (b.take 1024) = some w → w.tid ≠ 4 ∧ w.tid ≠ 0) ∧
    ((exHome.run (nodeUse exEnv okNet) (ctlUse List.dedup exEnv calmEnv okNet) exLitUp).1.controllers "10.0.0.2").map
      (fun r => r.st.last.response.map fun m => (m.tid, m.esv)) = some (some (2, 0x71)) ∧
    ((exHome.run (nodeUse exEnv okNet) (ctlUse List.dedup exEnv calmEnv okNet) (exLitUp ++ exSeesIt)).1.controllers "10.0.0.2").map
      (fun r => r.st.last.response.map fun m => (m.tid, m.esv)) = some (some (4, 0x72)) := by
  have hord : ValidOrder List.dedup := fun l => ⟨l.nodup_dedup, fun _ => List.mem_dedup⟩
  obtain ⟨k1, -, k3⟩ := C150_network hord exEnv exEnv_stable calmEnv calmEnv_calm okNet (fun _ _ _ _ => rfl) exHome exHome_built (exLitUp ++ exSeesIt) exSeesIt_fair
  have k2 := (C150_network hord exEnv exEnv_stable calmEnv calmEnv_calm okNet (fun _ _ _ _ => rfl) exHome exHome_built exLitUp exLitUp_fair).1
  have hends := exSeesIt_ends
  have hall := exSeesIt_turns
  simp only [Bool.and_eq_true, decide_eq_true_eq] at hall hends
  refine ⟨exHome_built, by decide +kernel, exSeesIt_fair, k3.mpr (mayB_spec _ _ _ hends.1.1.1), exSeesIt_asks, ?_, ?_, ?_⟩
  · rintro dst b w ⟨s, hs, rfl, -⟩ hw
    have h2 := hall.1
    rw [← k2] at h2
    have n1 : (exHome.run (nodeUse exEnv okNet) (ctlUse List.dedup exEnv calmEnv okNet) exLitUp).1.devices "10.0.0.2" = none := home_no_device _ _ _ _ _ rfl
    generalize (exHome.run (nodeUse exEnv okNet) (ctlUse List.dedup exEnv calmEnv okNet) exLitUp).1 = M at h2 hs n1
    rcases hs with ⟨r, hr, -⟩ | ⟨r, hr, hs⟩
    · rw [n1] at hr; cases hr
    · have h2 : ((M.controllers "10.0.0.2").map ctlRunOf).map _ = _ := h2
      rw [hr] at h2
      injection h2 with h2
      have := List.all_eq_true.mp (congrArg Prod.snd h2) s hs
      rw [hw] at this
      have this : (!decide (w.tid = 4) && !decide (w.tid = 0)) = true := this
      simpa using this
  · have h2 := hall.1
    rw [← k2] at h2
    generalize (exHome.run (nodeUse exEnv okNet) (ctlUse List.dedup exEnv calmEnv okNet) exLitUp).1 = M at h2
    obtain ⟨R, j1, j2⟩ := Option.map_eq_some_iff.mp h2
    obtain ⟨r, j3, rfl⟩ := home_controllers j1
    rw [j3]
    exact congrArg some (congrArg Prod.fst j2)
  · have h2 := hall.2
    rw [← k1] at h2
    generalize (exHome.run (nodeUse exEnv okNet) (ctlUse List.dedup exEnv calmEnv okNet) (exLitUp ++ exSeesIt)).1 = M at h2
    have h2 : ((M.controllers "10.0.0.2").map ctlRunOf).map (fun R => R.ctl.answer.map fun m => (m.tid, m.esv)) = _ := h2
    rw [Option.map_map] at h2
    exact h2

end Uecho
