/- C159: a write that is confirmed was done. -/
import Verif.Lemmas.Done
import Verif.Props.Once

namespace Uecho
open Spec

/-- The node at an address has done, and confirmed with `r`, what `w` asked for: these are its properties. If it is no controller the confirmation is from the object asked. -/
def RealHasDone (N : RealNet) (ip : String) (w r : Msg) : Prop :=
  ∃ n : LocalNode, ((∃ q, N.devices ip = some q ∧ q.st = n) ∨ ∃ q, N.controllers ip = some q ∧ q.st.ln = n) ∧ Did (nodeEntry n w.deoj) w r ∧ (n.controller = false → r.seoj = w.deoj)

theorem realHasDone_of {N : RealNet} {ip : String} {w r : Msg} (h : (homeOf N).HasDone ip w r) : RealHasDone N ip w r := by
  obtain ⟨D, h1, h2, h3⟩ := h
  have key : ∀ n : LocalNode, deviceOf n = D → Did (nodeEntry n w.deoj) w r ∧ (n.controller = false → r.seoj = w.deoj) := by
    intro n hn
    have : nodeEntry n w.deoj = D.entry w.deoj := by funext c; rw [nodeEntry_eq, hn]
    rw [this]
    refine ⟨h2, fun h => h3 ?_⟩
    rw [← hn]; exact h
  rcases h1 with ⟨R, k1, k2⟩ | ⟨R, k1, k2⟩
  · obtain ⟨q, hq, rfl⟩ := home_devices k1
    exact ⟨q.st, .inl ⟨q, hq, rfl⟩, key q.st k2⟩
  · obtain ⟨q, hq, rfl⟩ := home_controllers k1
    exact ⟨q.st.ln, .inr ⟨q, hq, rfl⟩, key q.st.ln k2⟩

/-- C159. What is confirmed was done: in a closed network in which no program makes up confirmations, if none with number `t` to the controller at `ip`, or to everyone, is under way, then a confirmation
with this number that the controller ends up with is one of a request the node at `ip` sent to the node it came from, with this number or with none, and at one moment since all properties of the
object asked had the values the request gives, and those it reads had the values the confirmation gives. It does not matter who else reads, writes or searches meanwhile, and what is lost, repeated or
delayed. What is missing are
nodes whose receiving threads handle messages at the same time (`Props/Atomic`). -/
theorem C159_done_partial {ord : List Int → List Int} (hord : ValidOrder ord) (env : Env) (hc : CodeStable env) (cenv : CEnv) (hcalm : Calm cenv) (net : Net) (hs : NetWorks net)
    (N : RealNet) (h : Built ord env N) (hno : N.devices "224.0.23.0" = none ∧ N.controllers "224.0.23.0" = none) (ip : String) (t : Int)
    (hquiet : ∀ dst m, dst = ip ∨ dst = "224.0.23.0" → N.Said sentBy sentByCtl dst m → Confirms m → m.tid ≠ t) (hnew : ∀ r m, N.controllers ip = some r → r.st.last.response = some m → Confirms m → m.tid ≠ t)
    (es : List Incident) (hf : ∀ e ∈ es, e.Fair) (hmay : N.May (nodeUse env net) (ctlUse ord env cenv net) sentBy sentByCtl es) (hh : ∀ e ∈ es, ∀ dst m, e.says = some (dst, m) → ¬ Confirms m) :
    ∀ r m, (N.run (nodeUse env net) (ctlUse ord env cenv net) es).1.controllers ip = some r → r.st.last.response = some m → Confirms m → m.tid = t →
      ∃ a k b w, k < es.length ∧ m.fromAddr = some a ∧ (N.run (nodeUse env net) (ctlUse ord env cenv net) (es.take k)).1.Carried sentBy sentByCtl ip a.1 b ∧ readMsg (b.take 1024) = some w ∧
        RealHasDone (N.run (nodeUse env net) (ctlUse ord env cenv net) (es.take (k + 1))).1 a.1 w m := by
  intro r m hr hm hcf htid
  obtain ⟨k1, -, k3⟩ := C150_network hord env hc cenv hcalm net hs N h es hf
  let K : String → String → Msg → Msg → Prop := fun src dst w r => ∃ k b, k < es.length ∧ (N.run (nodeUse env net) (ctlUse ord env cenv net) (es.take k)).1.Carried sentBy sentByCtl dst src b ∧
    readMsg (b.take 1024) = some w ∧ RealHasDone (N.run (nodeUse env net) (ctlUse ord env cenv net) (es.take (k + 1))).1 src w r
  let Sel : String → Int → Prop := fun dst t' => (dst = ip ∨ dst = everyone) ∧ t' = t
  have hat : ∀ k, homeOf (N.run (nodeUse env net) (ctlUse ord env cenv net) (es.take k)).1 = ((homeOf N).run RefRun.use (RefCtlRun.use (freshData ord)) (es.take k)).1 := fun k =>
    (C150_network hord env hc cenv hcalm net hs N h (es.take k) fun e he => hf e (List.mem_of_mem_take he)).1
  have hn : ∀ k, k < es.length → Recorded K ((homeOf N).run RefRun.use (RefCtlRun.use (freshData ord)) (es.take k)).1 ((homeOf N).run RefRun.use (RefCtlRun.use (freshData ord)) (es.take (k + 1))).1 := by
    intro k hk src dst b w r hcar hw hdone
    rw [← hat k, ← home_carried] at hcar
    rw [← hat (k + 1)] at hdone
    exact ⟨k, b, hk, hcar, hw, realHasDone_of hdone⟩
  have hsent : ∀ ip' s, ((∃ r, N.devices ip' = some r ∧ s ∈ sentBy r) ∨ ∃ r, N.controllers ip' = some r ∧ s ∈ sentByCtl r) → DoneSent K Sel ip' s := by
    intro ip' s hs' m hm hsel hcf
    exact absurd hsel.2 (hquiet s.dest.1 m hsel.1 ⟨ip', s, hs', rfl, hm⟩ hcf)
  have h0 : AllDone K Sel (homeOf N) := by
    refine ⟨fun ip' R hR => ?_, fun ip' R hR => ?_⟩
    · obtain ⟨r, hr, rfl⟩ := home_devices hR
      exact ⟨plain_short (h.dev ip' r hr).2.1, fun s hs' => hsent ip' s (.inl ⟨r, hr, hs'⟩)⟩
    · obtain ⟨r', hr', rfl⟩ := home_controllers hR
      refine ⟨plain_short (h.ctl ip' r' hr').2.1, ?_, fun s hs' => hsent ip' s (.inr ⟨r', hr', hs'⟩)⟩
      intro m' hm' hsel hcf'
      have hip : ip' = ip ∨ ip' = everyone := hsel.1
      rcases hip with hip | hip
      · rw [hip] at hr'
        exact absurd hsel.2 (hnew r' m' hr' hm' hcf')
      · rw [hip] at hr'
        have hr' : N.controllers "224.0.23.0" = some r' := hr'
        rw [hno.2] at hr'; cases hr'
  have hend := done_run (K := K) (Sel := Sel) (fun dst t' hsel => ⟨.inr rfl, hsel.2⟩) es (homeOf N) h0 hn hf hh (k3.mp hmay)
  rw [← k1] at hend
  obtain ⟨a, m0, dst, w, rfl, hdst, k, b, hlt, j1, j2, j3⟩ :=
    (hend.ctl ip (ctlRunOf r) (by show ((N.run (nodeUse env net) (ctlUse ord env cenv net) es).1.controllers ip).map ctlRunOf = _; rw [hr]; rfl)).2.1 m hm ⟨.inl rfl, htid⟩ hcf
  have hdst : dst = ip := by
    rcases hdst with e | e
    · exact e
    · rw [e] at j1
      obtain ⟨s, hs', -⟩ := j1
      obtain ⟨q1, q2⟩ := home_nobody (nodeUse env net) (ctlUse ord env cenv net) "224.0.23.0" (es.take k) N hno.1 hno.2
      rcases hs' with ⟨r, hr, -⟩ | ⟨r, hr, -⟩
      · have hr : (N.run (nodeUse env net) (ctlUse ord env cenv net) (es.take k)).1.devices "224.0.23.0" = some r := hr
        rw [q1] at hr; cases hr
      · have hr : (N.run (nodeUse env net) (ctlUse ord env cenv net) (es.take k)).1.controllers "224.0.23.0" = some r := hr
        rw [q2] at hr; cases hr
  rw [hdst] at j1
  refine ⟨a, k, b, w, hlt, rfl, j1, j2, ?_⟩
  obtain ⟨n, q1, q2, q3⟩ := j3
  exact ⟨n, q1, ⟨q2.number, q2.to_, q2.does⟩, q3⟩

/-- C159, for a request whose number is its own: if `q` is the only message with number `t`, or with none, that the node at `ip` ever sends, then the controller that ends up with a confirmation of number
`t` can rely on `q` having been done. What is missing are
nodes whose receiving threads handle messages at the same time (`Props/Atomic`). -/
theorem C159_request_partial {ord : List Int → List Int} (hord : ValidOrder ord) (env : Env) (hc : CodeStable env) (cenv : CEnv) (hcalm : Calm cenv) (net : Net) (hs : NetWorks net)
    (N : RealNet) (h : Built ord env N) (hno : N.devices "224.0.23.0" = none ∧ N.controllers "224.0.23.0" = none) (ip : String) (t : Int)
    (hquiet : ∀ dst m, dst = ip ∨ dst = "224.0.23.0" → N.Said sentBy sentByCtl dst m → Confirms m → m.tid ≠ t) (hnew : ∀ r m, N.controllers ip = some r → r.st.last.response = some m → Confirms m → m.tid ≠ t)
    (es : List Incident) (hf : ∀ e ∈ es, e.Fair) (hmay : N.May (nodeUse env net) (ctlUse ord env cenv net) sentBy sentByCtl es) (hh : ∀ e ∈ es, ∀ dst m, e.says = some (dst, m) → ¬ Confirms m)
    (q : Msg) (honly : ∀ k dst b w, (N.run (nodeUse env net) (ctlUse ord env cenv net) (es.take k)).1.Carried sentBy sentByCtl ip dst b → readMsg (b.take 1024) = some w → w.tid = t ∨ w.tid = 0 → w = q) :
    ∀ r m, (N.run (nodeUse env net) (ctlUse ord env cenv net) es).1.controllers ip = some r → r.st.last.response = some m → Confirms m → m.tid = t →
      ∃ a k, m.fromAddr = some a ∧ RealHasDone (N.run (nodeUse env net) (ctlUse ord env cenv net) (es.take k)).1 a.1 q m := by
  intro r m hr hm hcf htid
  obtain ⟨a, k, b, w, -, j1, j2, j3, j4⟩ := C159_done_partial hord env hc cenv hcalm net hs N h hno ip t hquiet hnew es hf hmay hh r m hr hm hcf htid
  have hw : w = q := by
    refine honly k a.1 b w j2 j3 ?_
    obtain ⟨n, -, q2, -⟩ := j4
    rw [← htid]
    rcases q2.number with e | e
    · exact .inl e.symm
    · exact .inr e
  rw [hw] at j4
  exact ⟨a, k + 1, j1, j4⟩

/-! ### The light is switched on -/

/-- The controller writes the state of the light and asks for a confirmation; the light is switched on, and says so. -/
def exLitUp : List Incident := [
  .controller "10.0.0.2" (.post { deoj := 0x029101, esv := 0x61, props := [{ code := 0x80, data := [0x31] }] } (.str "10.0.0.9")),
  .device "10.0.0.9" (.arrive ⟨0, [0x10, 0x81, 0, 2, 0x0E, 0xF0, 1, 2, 0x91, 1, 0x61, 1, 0x80, 1, 0x31], ("10.0.0.2", 3610)⟩),
  .controller "10.0.0.2" (.device (.arrive ⟨0, [0x10, 0x81, 0, 2, 2, 0x91, 1, 0x0E, 0xF0, 1, 0x71, 1, 0x80, 0], ("10.0.0.9", 3610)⟩))]

theorem exLitUp_fair : ∀ e ∈ exLitUp, e.Fair := by
  intro e he
  simp only [exLitUp, List.mem_cons, List.not_mem_nil, or_false] at he
  rcases he with rfl | rfl | rfl <;> trivial

set_option synthInstance.maxSize 1000 in
theorem exLitUp_ends : (mayB (freshData List.dedup) (homeOf exHome) exLitUp &&
    decide ((((homeOf exHome).run RefRun.use (RefCtlRun.use (freshData List.dedup)) exLitUp).1.controllers "10.0.0.2").map
      (fun R => R.ctl.answer.map fun m => (m.tid, m.seoj, m.esv, m.props.map PProp.code)) = some (some (2, 0x029101, 0x71, [0x80]))) &&
    (List.range 4).all fun k => decide ((((homeOf exHome).run RefRun.use (RefCtlRun.use (freshData List.dedup)) (exLitUp.take k)).1.controllers "10.0.0.2").map
      (fun R => R.sent.all fun s => (readMsg (s.bytes.take 1024)).all fun w => !decide (w.tid = 2 ∨ w.tid = 0) ||
        decide (w = { tid := 2, seoj := 0x0EF001, deoj := 0x029101, esv := 0x61, props := [{ code := 0x80, data := [0x31] }] })) = some true) &&
      (((homeOf exHome).run RefRun.use (RefCtlRun.use (freshData List.dedup)) (exLitUp.take k)).1.devices "10.0.0.2").isNone) = true := by
  decide +kernel

theorem exLitUp_only : ∀ k dst b w, (exHome.run (nodeUse exEnv okNet) (ctlUse List.dedup exEnv calmEnv okNet) (exLitUp.take k)).1.Carried sentBy sentByCtl "10.0.0.2" dst b → readMsg (b.take 1024) = some w →
    w.tid = 2 ∨ w.tid = 0 → w = { tid := 2, seoj := 0x0EF001, deoj := 0x029101, esv := 0x61, props := [{ code := 0x80, data := [0x31] }] } := by
  have hord : ValidOrder List.dedup := fun l => ⟨l.nodup_dedup, fun _ => List.mem_dedup⟩
  have hall := exLitUp_ends
  simp only [Bool.and_eq_true, decide_eq_true_eq] at hall
  intro k dst b w hcar hw hnum
  obtain ⟨k', hk', hlt⟩ : ∃ k', exLitUp.take k = exLitUp.take k' ∧ k' < 4 := by
    by_cases h : k < 4
    · exact ⟨k, rfl, h⟩
    · refine ⟨3, ?_, by decide⟩
      rw [List.take_of_length_le (show exLitUp.length ≤ k from by show 3 ≤ k; omega)]
      rfl
  rw [hk', home_carried] at hcar
  have h1 := (C150_network hord exEnv exEnv_stable calmEnv calmEnv_calm okNet (fun _ _ _ _ => rfl) exHome exHome_built (exLitUp.take k') fun e he => exLitUp_fair e (List.mem_of_mem_take he)).1
  rw [h1] at hcar
  have hq := List.all_eq_true.mp hall.2 k' (List.mem_range.mpr hlt)
  rw [Bool.and_eq_true, decide_eq_true_eq] at hq
  generalize ((homeOf exHome).run RefRun.use (RefCtlRun.use (freshData List.dedup)) (exLitUp.take k')) = Q at hcar hq
  obtain ⟨s, j1, rfl, -⟩ := hcar
  rcases j1 with ⟨R, j1, -⟩ | ⟨R, j1, j2⟩
  · rw [j1] at hq; cases hq.2
  · have hq1 := hq.1
    rw [j1] at hq1
    injection hq1 with hq1
    have := List.all_eq_true.mp hq1 s j2
    rw [hw] at this
    have this : (!decide (w.tid = 2 ∨ w.tid = 0) || decide (w = { tid := 2, seoj := 0x0EF001, deoj := 0x029101, esv := 0x61, props := [{ code := 0x80, data := [0x31] }] })) = true := this
    rw [decide_eq_true hnum] at this
    exact of_decide_eq_true this

/-- The hypotheses of `C159_done_partial` and `C159_request_partial`: the light is switched on, with number 2, and the confirmation arrives. -/
theorem exLitUp_meets : Built List.dedup exEnv exHome ∧ ((exHome.devices "224.0.23.0").isNone && (exHome.controllers "224.0.23.0").isNone) = true ∧
    (∀ dst m, dst = "10.0.0.2" ∨ dst = "224.0.23.0" → exHome.Said sentBy sentByCtl dst m → Confirms m → m.tid ≠ 2) ∧
    (∀ r m, exHome.controllers "10.0.0.2" = some r → r.st.last.response = some m → Confirms m → m.tid ≠ 2) ∧
    (∀ e ∈ exLitUp, e.Fair) ∧ exHome.May (nodeUse exEnv okNet) (ctlUse List.dedup exEnv calmEnv okNet) sentBy sentByCtl exLitUp ∧
    (∀ e ∈ exLitUp, ∀ dst m, e.says = some (dst, m) → ¬ Confirms m) ∧
    (∀ k dst b w, (exHome.run (nodeUse exEnv okNet) (ctlUse List.dedup exEnv calmEnv okNet) (exLitUp.take k)).1.Carried sentBy sentByCtl "10.0.0.2" dst b → readMsg (b.take 1024) = some w →
      w.tid = 2 ∨ w.tid = 0 → w = { tid := 2, seoj := 0x0EF001, deoj := 0x029101, esv := 0x61, props := [{ code := 0x80, data := [0x31] }] }) ∧
    ((exHome.run (nodeUse exEnv okNet) (ctlUse List.dedup exEnv calmEnv okNet) exLitUp).1.controllers "10.0.0.2").map
      (fun r => r.st.last.response.map fun m => (m.tid, m.seoj, m.esv, m.props.map PProp.code)) = some (some (2, 0x029101, 0x71, [0x80])) := by
  have hord : ValidOrder List.dedup := fun l => ⟨l.nodup_dedup, fun _ => List.mem_dedup⟩
  obtain ⟨k1, -, k3⟩ := C150_network hord exEnv exEnv_stable calmEnv calmEnv_calm okNet (fun _ _ _ _ => rfl) exHome exHome_built exLitUp exLitUp_fair
  have hall := exLitUp_ends
  simp only [Bool.and_eq_true, decide_eq_true_eq] at hall
  refine ⟨exHome_built, by decide +kernel, ?_, ?_, exLitUp_fair, k3.mpr (mayB_spec _ _ _ hall.1.1), ?_, ?_, ?_⟩
  · rintro dst m - ⟨ip, s, hs, -, hm⟩ ht
    obtain ⟨-, m', hm', hsearch⟩ := exHome_searches ip s hs
    rw [hm] at hm'
    injection hm' with hm'
    subst hm'
    unfold Confirms at ht
    rw [(search_is hsearch).1] at ht
    exact absurd ht (by decide)
  · intro r m h1 h2
    rw [(exHome_started.2 _ r h1).2.2] at h2
    cases h2
  · intro e he dst m hm
    simp only [exLitUp, List.mem_cons, List.not_mem_nil, or_false] at he
    rcases he with rfl | rfl | rfl
    · injection hm with hm
      injection hm with _ hm
      rw [← hm]
      exact fun h => absurd (show (0x61 : Int) = 0x71 ∨ (0x61 : Int) = 0x7E from h) (by decide)
    · cases hm
    · cases hm
  · exact exLitUp_only
  · have h2 := hall.1.2
    rw [← k1] at h2
    generalize (exHome.run (nodeUse exEnv okNet) (ctlUse List.dedup exEnv calmEnv okNet) exLitUp).1 = M at h2
    have h2 : ((M.controllers "10.0.0.2").map ctlRunOf).map (fun R => R.ctl.answer.map fun m => (m.tid, m.seoj, m.esv, m.props.map PProp.code)) = _ := h2
    rw [Option.map_map] at h2
    exact h2

end Uecho
