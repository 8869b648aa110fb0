/- C150, C151: devices and controllers in use, and whole networks of them, as machines. -/
import Verif.Lemmas.Whole
import Verif.Props.Picture

namespace Uecho
open Spec

/-- Nodes and controllers as programs get them. -/
structure Built (ord : List Int → List Int) (env : Env) (N : RealNet) : Prop where
  dev : ∀ ip r, N.devices ip = some r → Reachable ord r.st ∧ PlainNode env r.st ∧ CanSend r.st.mgr
  ctl : ∀ ip r, N.controllers ip = some r → (∃ ops, CtlReach ord r.st ops) ∧ PlainNode env r.st.ln ∧ CanSend r.st.ln.mgr

theorem built_fit {ord : List Int → List Int} (hord : ValidOrder ord) {env : Env} {N : RealNet} (h : Built ord env N) : NetFit ord env N := by
  refine ⟨fun ip r hr => ?_, fun ip r hr => ?_⟩
  · obtain ⟨h1, h2, h3⟩ := h.dev ip r hr
    exact ⟨h1, h2, h3⟩
  · obtain ⟨⟨ops, h1⟩, h2, h3⟩ := h.ctl ip r hr
    exact ⟨(reach_knows hord h1).1, (reach_ln hord h1).1, h2, h3⟩

theorem home_carried (N : RealNet) (ip dst : String) (b : Bytes) :
    N.Carried sentBy sentByCtl ip dst b ↔ (homeOf N).Carried RefRun.sent RefCtlRun.sent ip dst b := by
  unfold Home.Carried
  have h1 : ∀ s, (∃ r, N.devices ip = some r ∧ s ∈ sentBy r) ↔ ∃ r, (homeOf N).devices ip = some r ∧ s ∈ r.sent := by
    intro s
    show _ ↔ ∃ r, (N.devices ip).map runOf = some r ∧ s ∈ r.sent
    cases N.devices ip with
    | none => simp
    | some r => simp only [Option.some.injEq, exists_eq_left', Option.map_some]; rfl
  have h2 : ∀ s, (∃ r, N.controllers ip = some r ∧ s ∈ sentByCtl r) ↔ ∃ r, (homeOf N).controllers ip = some r ∧ s ∈ r.sent := by
    intro s
    show _ ↔ ∃ r, (N.controllers ip).map ctlRunOf = some r ∧ s ∈ r.sent
    cases N.controllers ip with
    | none => simp
    | some r => simp only [Option.some.injEq, exists_eq_left', Option.map_some]; rfl
  simp only [h1, h2]

theorem home_real (N : RealNet) (e : Incident) : N.Real sentBy sentByCtl e ↔ (homeOf N).Real RefRun.sent RefCtlRun.sent e := by
  rcases e with ⟨ip, u⟩ | ⟨ip, u⟩
  · cases u <;> first | exact home_carried N _ _ _ | exact Iff.rfl
  · cases u with
    | device u => cases u <;> first | exact home_carried N _ _ _ | exact Iff.rfl
    | _ => exact Iff.rfl

theorem home_run {ord : List Int → List Int} (hord : ValidOrder ord) {env : Env} (hc : CodeStable env) {cenv : CEnv} (hcalm : Calm cenv) (net : Net) (hs : NetWorks net) (es : List Incident) :
    ∀ N : RealNet, NetFit ord env N → (∀ e ∈ es, e.Fair) →
      homeOf (N.run (nodeUse env net) (ctlUse ord env cenv net) es).1 = ((homeOf N).run RefRun.use (RefCtlRun.use (freshData ord)) es).1 ∧
      (N.run (nodeUse env net) (ctlUse ord env cenv net) es).2 = ((homeOf N).run RefRun.use (RefCtlRun.use (freshData ord)) es).2 ∧
      (N.May (nodeUse env net) (ctlUse ord env cenv net) sentBy sentByCtl es ↔ (homeOf N).May RefRun.use (RefCtlRun.use (freshData ord)) RefRun.sent RefCtlRun.sent es) := by
  induction es with
  | nil => intro N _ _; exact ⟨rfl, rfl, Iff.rfl⟩
  | cons e es ih =>
    intro N h hf
    obtain ⟨k1, k2, k3⟩ := home_step hord hc hcalm net hs N h e (hf e (List.mem_cons_self ..))
    obtain ⟨i1, i2, i3⟩ := ih _ k1 fun x hx => hf x (List.mem_cons_of_mem _ hx)
    rw [k2] at i1 i2 i3
    refine ⟨i1, ?_, ?_⟩
    · show _ :: _ = _ :: _
      rw [i2, k3]
    · show (_ ∧ _) ↔ (_ ∧ _)
      rw [home_real, i3]

/-- C150. A whole network: whatever happens at its devices and controllers, calls of their programs and datagrams that arrive, in whatever order: what every call gives, the data every device
holds, what every controller knows and has told its listeners, which threads are there and every datagram ever sent are those of the network of reference machines. If only datagrams
that were sent arrive, the same things can happen in both. -/
theorem C150_network {ord : List Int → List Int} (hord : ValidOrder ord) (env : Env) (hc : CodeStable env) (cenv : CEnv) (hcalm : Calm cenv) (net : Net) (hs : NetWorks net)
    (N : RealNet) (h : Built ord env N) (es : List Incident) (hf : ∀ e ∈ es, e.Fair) :
    let q := N.run (nodeUse env net) (ctlUse ord env cenv net) es
    let Q := (homeOf N).run RefRun.use (RefCtlRun.use (freshData ord)) es
    homeOf q.1 = Q.1 ∧ q.2 = Q.2 ∧
    (N.May (nodeUse env net) (ctlUse ord env cenv net) sentBy sentByCtl es ↔ (homeOf N).May RefRun.use (RefCtlRun.use (freshData ord)) RefRun.sent RefCtlRun.sent es) :=
  home_run hord hc hcalm net hs es N (built_fit hord h) hf

/-- C150. One device, or one controller, that is used and written to: the same. -/
theorem C150_device {ord : List Int → List Int} (hord : ValidOrder ord) (env : Env) (hc : CodeStable env) (net : Net) (hs : NetWorks net)
    (us : List Use) (hf : ∀ u ∈ us, u.Fair) : ∀ (r : Running LocalNode), Reachable ord r.st → PlainNode env r.st → CanSend r.st.mgr →
    runOf (us.foldl (fun r u => (nodeUse env net r u).1) r) = us.foldl (fun R u => (R.use u).1) (runOf r) := by
  induction us with
  | nil => intro r _ _ _; rfl
  | cons u us ih =>
    intro r h1 h2 h3
    obtain ⟨k1, k2, -⟩ := node_use hord hc net hs r ⟨h1, h2, h3⟩ u (hf u (List.mem_cons_self ..))
    rw [List.foldl_cons, List.foldl_cons, ← k2]
    exact ih (fun x hx => hf x (List.mem_cons_of_mem _ hx)) _ k1.reach k1.plain k1.can

/-- C150. So nothing else about a network matters: two networks with the same machines give the same results and are still the same, whatever happens, though their nodes have another history, and other
observers, listeners and operating systems. -/
theorem C150_same {ord : List Int → List Int} (hord : ValidOrder ord) (env env' : Env) (hc : CodeStable env) (hc' : CodeStable env') (cenv cenv' : CEnv) (hcalm : Calm cenv) (hcalm' : Calm cenv')
    (net net' : Net) (hs : NetWorks net) (hs' : NetWorks net') (N N' : RealNet) (h : Built ord env N) (h' : Built ord env' N') (hsame : homeOf N = homeOf N') (es : List Incident) (hf : ∀ e ∈ es, e.Fair) :
    let q := N.run (nodeUse env net) (ctlUse ord env cenv net) es
    let q' := N'.run (nodeUse env' net') (ctlUse ord env' cenv' net') es
    homeOf q.1 = homeOf q'.1 ∧ q.2 = q'.2 ∧
    (N.May (nodeUse env net) (ctlUse ord env cenv net) sentBy sentByCtl es ↔ N'.May (nodeUse env' net') (ctlUse ord env' cenv' net') sentBy sentByCtl es) := by
  obtain ⟨a1, a2, a3⟩ := C150_network hord env hc cenv hcalm net hs N h es hf
  obtain ⟨b1, b2, b3⟩ := C150_network hord env' hc' cenv' hcalm' net' hs' N' h' es hf
  exact ⟨by rw [a1, b1, hsame], by rw [a2, b2, hsame], by rw [a3, b3, hsame]⟩

/-! ### The standard -/

theorem careless_run {A B : RefCtlRun} : A.careless = B.careless ↔ A.ctl.careless = B.ctl.careless ∧ A.alive = B.alive ∧ A.sent = B.sent := by
  cases A; cases B
  simp only [RefCtlRun.careless, RefCtlRun.mk.injEq]

theorem careless_device {A B : RefCtlRun} (h : A.careless = B.careless) (q : RefDevice × List Sent × Given) : ((A.onDevice q).1).careless = ((B.onDevice q).1).careless := by
  obtain ⟨h0, h8, h9⟩ := careless_run.mp h
  obtain ⟨h1, h2, h3, h4, h5, h6, h7⟩ := (careless_iff _ _).mp h0
  refine careless_run.mpr ⟨(careless_iff _ _).mpr ⟨rfl, h2, h3, h4, h5, h6, h7⟩, h8, ?_⟩
  show A.sent ++ _ = B.sent ++ _
  rw [h9]

/-- Calls do not tell controllers apart whose listeners were told the same but for additions and updates. -/
theorem careless_use (fresh : Int → Int → Option Bytes) {A B : RefCtlRun} (h : A.careless = B.careless) (u : CtlUse) (hu : ∀ x, u ≠ .device (.arrive x)) :
    ((A.use fresh u).1).careless = ((B.use fresh u).1).careless ∧ (A.use fresh u).2 = (B.use fresh u).2 := by
  obtain ⟨h0, h8, h9⟩ := careless_run.mp h
  obtain ⟨h1, h2, h3, h4, h5, h6, h7⟩ := (careless_iff _ _).mp h0
  cases u with
  | device u =>
    cases u with
    | arrive x => exact absurd rfl (hu x)
    | announce m =>
      simp only [RefCtlRun.use]
      rw [h1]
      exact ⟨careless_device h _, rfl⟩
    | send m a =>
      simp only [RefCtlRun.use]
      rw [h1]
      exact ⟨careless_device h _, rfl⟩
    | store o c d =>
      refine ⟨careless_run.mpr ⟨(careless_iff _ _).mpr ⟨?_, h2, h3, h4, h5, h6, h7⟩, h8, h9⟩, rfl⟩
      show A.ctl.dev.store o c d = B.ctl.dev.store o c d
      rw [h1]
  | sendTo m d =>
    simp only [RefCtlRun.use]
    rw [h1]
    exact ⟨careless_device h _, rfl⟩
  | post m d =>
    simp only [RefCtlRun.use]
    rw [h1]
    refine ⟨careless_run.mpr ⟨(careless_iff _ _).mpr ⟨rfl, h2, h3, rfl, rfl, h6, h7⟩, h8, ?_⟩, rfl⟩
    show A.sent ++ _ = B.sent ++ _
    rw [h9]
  | search =>
    simp only [RefCtlRun.use]
    rw [h1]
    exact ⟨careless_device h _, rfl⟩
  | listen l =>
    refine ⟨careless_run.mpr ⟨(careless_iff _ _).mpr ⟨h1, h2, h3, h4, h5, ?_, h7⟩, h8, h9⟩, rfl⟩
    show A.ctl.listeners ++ [l] = B.ctl.listeners ++ [l]
    rw [h6]
  | unlisten l =>
    simp only [RefCtlRun.use]
    rw [h6]
    split
    · exact ⟨careless_run.mpr ⟨(careless_iff _ _).mpr ⟨h1, h2, h3, h4, h5, rfl, h7⟩, h8, h9⟩, rfl⟩
    · exact ⟨h, rfl⟩

theorem careless_net {A B : RefNet} : RefNet.careless A = RefNet.careless B ↔
    (∀ ip, A.devices ip = B.devices ip) ∧ ∀ ip, (A.controllers ip).map RefCtlRun.careless = (B.controllers ip).map RefCtlRun.careless := by
  cases A; cases B
  simp only [RefNet.careless, Home.mk.injEq]
  constructor
  · rintro ⟨h1, h2⟩
    exact ⟨fun ip => congrFun h1 ip, fun ip => congrFun h2 ip⟩
  · rintro ⟨h1, h2⟩
    exact ⟨funext h1, funext h2⟩

theorem careless_carried {A B : RefNet} (h : RefNet.careless A = RefNet.careless B) (ip dst : String) (b : Bytes) :
    A.Carried RefRun.sent RefCtlRun.sent ip dst b ↔ B.Carried RefRun.sent RefCtlRun.sent ip dst b := by
  obtain ⟨h1, h2⟩ := careless_net.mp h
  have h2 := h2 ip
  unfold Home.Carried
  rw [h1 ip]
  have : ∀ s, (∃ r, A.controllers ip = some r ∧ s ∈ r.sent) ↔ ∃ r, B.controllers ip = some r ∧ s ∈ r.sent := by
    intro s
    cases ha : A.controllers ip with
    | none =>
      cases hb : B.controllers ip with
      | none => rfl
      | some b => rw [ha, hb] at h2; cases h2
    | some a =>
      cases hb : B.controllers ip with
      | none => rw [ha, hb] at h2; cases h2
      | some b =>
        rw [ha, hb] at h2
        injection h2 with h2
        simp only [Option.some.injEq, exists_eq_left', (careless_run.mp h2).2.2]
  simp only [this]

theorem careless_real {A B : RefNet} (h : RefNet.careless A = RefNet.careless B) (e : Incident) :
    A.Real RefRun.sent RefCtlRun.sent e ↔ B.Real RefRun.sent RefCtlRun.sent e := by
  rcases e with ⟨ip, u⟩ | ⟨ip, u⟩
  · cases u <;> first | exact careless_carried h _ _ _ | exact Iff.rfl
  · cases u with
    | device u => cases u <;> first | exact careless_carried h _ _ _ | exact Iff.rfl
    | _ => exact Iff.rfl

theorem standard_device_use (R : RefRun) (hal : ∀ i, R.alive i = true) (u : Use) (hd : ∀ x, u = .arrive x → ¬ R.dev.Differs x.bytes) :
    R.use u = R.standardUse u ∧ (R.standardUse u).1.alive = R.alive := by
  cases u with
  | arrive x =>
    have h := device_standard R.dev x.bytes x.src (hd x rfl)
    refine ⟨?_, rfl⟩
    show (R.arrive x, _) = _
    unfold RefRun.arrive RefRun.standardUse
    rw [if_pos (hal _), h]
    simp only [Prod.mk.injEq, and_true, RefRun.mk.injEq, true_and]
    funext i
    split
    · exact (hal i).symm
    · rfl
  | announce m => exact ⟨rfl, rfl⟩
  | send m a => exact ⟨rfl, rfl⟩
  | store o c d => exact ⟨rfl, rfl⟩

theorem use_alive (fresh : Int → Int → Option Bytes) (R : RefCtlRun) (u : CtlUse) : (R.intendedUse fresh u).1.alive = R.alive := by
  cases u with
  | device u => cases u <;> rfl
  | unlisten l =>
    show (R.use fresh (.unlisten l)).1.alive = _
    simp only [RefCtlRun.use]
    split <;> rfl
  | _ => rfl

theorem intended_ctl_use (fresh : Int → Int → Option Bytes) {A B : RefCtlRun} (h : A.careless = B.careless) (hal : ∀ i, B.alive i = true) (u : CtlUse)
    (hd : ∀ x, u = .device (.arrive x) → ¬ B.ctl.Differs fresh x.bytes x.src) :
    ((A.use fresh u).1).careless = ((B.intendedUse fresh u).1).careless ∧ (A.use fresh u).2 = (B.intendedUse fresh u).2 := by
  by_cases hu : ∃ x, u = .device (.arrive x)
  · obtain ⟨x, rfl⟩ := hu
    obtain ⟨h0, h8, h9⟩ := careless_run.mp h
    obtain ⟨k1, k2⟩ := controller_intended fresh h0 x.bytes x.src (hd x rfl)
    refine ⟨?_, rfl⟩
    show ((A.arrive fresh x)).careless = _
    unfold RefCtlRun.arrive RefCtlRun.intendedUse
    rw [h8, if_pos (hal _)]
    refine careless_run.mpr ⟨k1, ?_, ?_⟩
    · simp only [k2]
      funext i
      split
      · exact (hal i).symm
      · rfl
    · simp only [k2, h9]
  · have := careless_use fresh h u fun x hx => hu ⟨x, hx⟩
    have e : B.intendedUse fresh u = B.use fresh u := by
      cases u with
      | device u => cases u with
        | arrive x => exact absurd ⟨x, rfl⟩ hu
        | _ => rfl
      | _ => rfl
    rw [e]
    exact this

theorem standard_step (fresh : Int → Int → Option Bytes) {A B : RefNet} (h : RefNet.careless A = RefNet.careless B) (hal : RefNet.Awake B) (e : Incident) (ho : RefNet.Ordinary fresh B e) :
    let p := A.step RefRun.use (RefCtlRun.use fresh) e
    let q := B.step RefRun.standardUse (RefCtlRun.intendedUse fresh) e
    RefNet.careless p.1 = RefNet.careless q.1 ∧ p.2 = q.2 ∧ RefNet.Awake q.1 := by
  obtain ⟨h1, h2⟩ := careless_net.mp h
  cases e with
  | device ip u =>
    cases hb : B.devices ip with
    | none =>
      simp only [Home.step, h1 ip, hb]
      exact ⟨h, trivial, hal⟩
    | some R =>
      have hd : ∀ x, u = .arrive x → ¬ R.dev.Differs x.bytes := by
        intro x hx
        subst hx
        exact ho R hb
      obtain ⟨k1, k2⟩ := standard_device_use R (hal.1 ip R hb) u hd
      simp only [Home.step, h1 ip, hb, k1]
      refine ⟨careless_net.mpr ⟨fun ip' => ?_, h2⟩, trivial, fun ip' R' h' => ?_, hal.2⟩
      · simp only [h1 ip']
      · simp only [] at h'
        split at h'
        · injection h' with h'; rw [← h', k2]; exact hal.1 ip R hb
        · exact hal.1 ip' R' h'
  | controller ip u =>
    have h2' := h2 ip
    cases hb : B.controllers ip with
    | none =>
      cases ha : A.controllers ip with
      | some a => rw [ha, hb] at h2'; cases h2'
      | none =>
        simp only [Home.step, ha, hb]
        exact ⟨h, trivial, hal⟩
    | some R =>
      cases ha : A.controllers ip with
      | none => rw [ha, hb] at h2'; cases h2'
      | some R0 =>
        rw [ha, hb] at h2'
        injection h2' with h2'
        have hd : ∀ x, u = .device (.arrive x) → ¬ R.ctl.Differs fresh x.bytes x.src := by
          intro x hx
          subst hx
          exact ho R hb
        obtain ⟨k1, k2⟩ := intended_ctl_use fresh h2' (hal.2 ip R hb) u hd
        simp only [Home.step, ha, hb]
        refine ⟨careless_net.mpr ⟨h1, fun ip' => ?_⟩, k2, hal.1, fun ip' R' h' => ?_⟩
        · simp only []
          split
          · simp only [Option.map_some, k1]
          · exact h2 ip'
        · simp only [] at h'
          split at h'
          · injection h' with h'; rw [← h', use_alive]; exact hal.2 ip R hb
          · exact hal.2 ip' R' h'

/-- C151 (the part that holds). A whole network works as a network of devices that follow the standard and of controllers that do what may be expected, as long as none of the datagrams
listed in `Differs` arrives: the same results of calls, the same data, the same knowledge, the same datagrams; listeners are told of updates as additions. If only datagrams that were sent
arrive, the same things can happen. -/
theorem C151_standard_partial {ord : List Int → List Int} (hord : ValidOrder ord) (env : Env) (hc : CodeStable env) (cenv : CEnv) (hcalm : Calm cenv) (net : Net) (hs : NetWorks net)
    (N : RealNet) (h : Built ord env N) (hal : RefNet.Awake (homeOf N)) (es : List Incident) (hf : ∀ e ∈ es, e.Fair) (hu : RefNet.Usual (freshData ord) (homeOf N) es) :
    let q := N.run (nodeUse env net) (ctlUse ord env cenv net) es
    let S := (homeOf N).run RefRun.standardUse (RefCtlRun.intendedUse (freshData ord)) es
    RefNet.careless (homeOf q.1) = RefNet.careless S.1 ∧ q.2 = S.2 ∧ RefNet.Awake (homeOf q.1) ∧
    (N.May (nodeUse env net) (ctlUse ord env cenv net) sentBy sentByCtl es ↔
      (homeOf N).May RefRun.standardUse (RefCtlRun.intendedUse (freshData ord)) RefRun.sent RefCtlRun.sent es) := by
  intro q S
  have awake : ∀ A B : RefNet, RefNet.careless A = RefNet.careless B → RefNet.Awake B → RefNet.Awake A := by
    intro A B hAB hB
    obtain ⟨h1, h2⟩ := careless_net.mp hAB
    refine ⟨fun ip R hR => hB.1 ip R (by rw [← h1 ip]; exact hR), fun ip R hR => ?_⟩
    have := h2 ip
    rw [hR] at this
    obtain ⟨R', hR', he⟩ := Option.map_eq_some_iff.mp this.symm
    rw [← (careless_run.mp he).2.1]
    exact hB.2 ip R' hR'
  have key : ∀ (es : List Incident) (A B : RefNet), RefNet.careless A = RefNet.careless B → RefNet.Awake B → RefNet.Usual (freshData ord) B es →
      RefNet.careless (A.run RefRun.use (RefCtlRun.use (freshData ord)) es).1 = RefNet.careless (B.run RefRun.standardUse (RefCtlRun.intendedUse (freshData ord)) es).1 ∧
      (A.run RefRun.use (RefCtlRun.use (freshData ord)) es).2 = (B.run RefRun.standardUse (RefCtlRun.intendedUse (freshData ord)) es).2 ∧
      RefNet.Awake (B.run RefRun.standardUse (RefCtlRun.intendedUse (freshData ord)) es).1 ∧
      (A.May RefRun.use (RefCtlRun.use (freshData ord)) RefRun.sent RefCtlRun.sent es ↔ B.May RefRun.standardUse (RefCtlRun.intendedUse (freshData ord)) RefRun.sent RefCtlRun.sent es) := by
    intro es
    induction es with
    | nil => intro A B hAB hB _; exact ⟨hAB, rfl, hB, Iff.rfl⟩
    | cons e es ih =>
      intro A B hAB hB hU
      obtain ⟨k1, k2, k3⟩ := standard_step (freshData ord) hAB hB e hU.1
      obtain ⟨i1, i2, i3, i4⟩ := ih _ _ k1 k3 hU.2
      refine ⟨i1, ?_, i3, ?_⟩
      · show _ :: _ = _ :: _
        rw [i2, k2]
      · show (_ ∧ _) ↔ (_ ∧ _)
        rw [careless_real hAB, i4]
  obtain ⟨a1, a2, a3⟩ := C150_network hord env hc cenv hcalm net hs N h es hf
  obtain ⟨b1, b2, b3, b4⟩ := key es (homeOf N) (homeOf N) rfl hal hu
  refine ⟨by rw [a1]; exact b1, by rw [a2]; exact b2, ?_, by rw [a3]; exact b4⟩
  rw [a1]
  exact awake _ _ b1 b3

/-! ### A network -/

/-- A light at 10.0.0.9, a controller at 10.0.0.2. -/
def exHome : RealNet :=
  { devices := fun ip => if ip = "10.0.0.9" then some ⟨exRunning, fun _ => true⟩ else none
    controllers := fun ip => if ip = "10.0.0.2" then some ⟨exSeeing, fun _ => true⟩ else none }

theorem exHome_built : Built List.dedup exEnv exHome := by
  refine ⟨fun ip r h => ?_, fun ip r h => ?_⟩
  · have h : (if ip = "10.0.0.9" then some (⟨exRunning, fun _ => true⟩ : Running LocalNode) else none) = some r := h
    split at h
    · injection h with h
      rw [← h]
      exact ⟨exRunning_reach, exRunning_plain, exRunning_own.2⟩
    · cases h
  · have h : (if ip = "10.0.0.2" then some (⟨exSeeing, fun _ => true⟩ : Running Ctl) else none) = some r := h
    split at h
    · injection h with h
      rw [← h]
      exact ⟨⟨_, exSeeing_reach⟩, exSeeing_ok.1, exSeeing_ok.2.1⟩
    · cases h

/-- The controller searches; the light answers; the controller asks the light for its state; it answers. -/
def exAfternoon : List Incident := [
  .controller "10.0.0.2" .search,
  .device "10.0.0.9" (.arrive ⟨0, [0x10, 0x81, 0, 2, 0x0E, 0xF0, 1, 0x0E, 0xF0, 1, 0x62, 1, 0xD6, 0], ("10.0.0.2", 3610)⟩),
  .controller "10.0.0.2" (.device (.arrive ⟨0, [0x10, 0x81, 0, 2, 0x0E, 0xF0, 1, 0x0E, 0xF0, 1, 0x72, 1, 0xD6, 4, 1, 2, 0x91, 1], ("10.0.0.9", 3610)⟩)),
  .controller "10.0.0.2" (.post { deoj := 0x029101, esv := 0x62, props := [{ code := 0x80 }] } (.str "10.0.0.9")),
  .device "10.0.0.9" (.arrive ⟨0, [0x10, 0x81, 0, 3, 0x0E, 0xF0, 1, 2, 0x91, 1, 0x62, 1, 0x80, 0], ("10.0.0.2", 3610)⟩)]

/-- What one would like to decide of a network. -/
def carriedB (N : RefNet) (ip dst : String) (b : Bytes) : Bool :=
  ((N.devices ip).any fun r => r.sent.any fun s => decide (s.bytes = b) && (decide (s.dest.1 = dst) || decide (s.dest.1 = "224.0.23.0"))) ||
  ((N.controllers ip).any fun r => r.sent.any fun s => decide (s.bytes = b) && (decide (s.dest.1 = dst) || decide (s.dest.1 = "224.0.23.0")))

theorem carriedB_spec {N : RefNet} {ip dst : String} {b : Bytes} (h : carriedB N ip dst b = true) : N.Carried RefRun.sent RefCtlRun.sent ip dst b := by
  unfold carriedB at h
  rw [Bool.or_eq_true] at h
  rcases h with h | h
  · cases hd : N.devices ip with
    | none => rw [hd] at h; cases h
    | some r =>
      rw [hd] at h
      obtain ⟨s, hs, h⟩ := List.any_eq_true.mp (show r.sent.any _ = true from h)
      simp only [Bool.and_eq_true, Bool.or_eq_true, decide_eq_true_eq] at h
      exact ⟨s, .inl ⟨r, hd, hs⟩, h⟩
  · cases hd : N.controllers ip with
    | none => rw [hd] at h; cases h
    | some r =>
      rw [hd] at h
      obtain ⟨s, hs, h⟩ := List.any_eq_true.mp (show r.sent.any _ = true from h)
      simp only [Bool.and_eq_true, Bool.or_eq_true, decide_eq_true_eq] at h
      exact ⟨s, .inr ⟨r, hd, hs⟩, h⟩

def realB (N : RefNet) : Incident → Bool
  | .device ip (.arrive x) => carriedB N x.src.1 ip x.bytes
  | .controller ip (.device (.arrive x)) => carriedB N x.src.1 ip x.bytes
  | _ => true

def mayB (fresh : Int → Int → Option Bytes) (N : RefNet) : List Incident → Bool
  | [] => true
  | e :: es => realB N e && mayB fresh (N.step RefRun.use (RefCtlRun.use fresh) e).1 es

theorem mayB_spec (fresh : Int → Int → Option Bytes) (es : List Incident) : ∀ N : RefNet, mayB fresh N es = true → N.May RefRun.use (RefCtlRun.use fresh) RefRun.sent RefCtlRun.sent es := by
  induction es with
  | nil => intro N _; trivial
  | cons e es ih =>
    intro N h
    unfold mayB at h
    rw [Bool.and_eq_true] at h
    refine ⟨?_, ih _ h.2⟩
    have h := h.1
    rcases e with ⟨ip, u⟩ | ⟨ip, u⟩
    · cases u with
      | arrive x => exact carriedB_spec h
      | _ => trivial
    · cases u with
      | device u =>
        cases u with
        | arrive x => exact carriedB_spec h
        | _ => trivial
      | _ => trivial

/-- This may happen in this network, and afterwards the controller knows the light. -/
example : Built List.dedup exEnv exHome ∧ (∀ e ∈ exAfternoon, e.Fair) ∧
    exHome.May (nodeUse exEnv okNet) (ctlUse List.dedup exEnv calmEnv okNet) sentBy sentByCtl exAfternoon ∧
    (exHome.run (nodeUse exEnv okNet) (ctlUse List.dedup exEnv calmEnv okNet) exAfternoon).2 = [.value true, .nothing, .nothing, .value true, .nothing] ∧
    ((homeOf (exHome.run (nodeUse exEnv okNet) (ctlUse List.dedup exEnv calmEnv okNet) exAfternoon).1).controllers "10.0.0.2").map (fun R => R.ctl.known) = some ["10.0.0.9"] := by
  have hord : ValidOrder List.dedup := fun l => ⟨l.nodup_dedup, fun _ => List.mem_dedup⟩
  have hf : ∀ e ∈ exAfternoon, e.Fair := by
    intro e he
    simp only [exAfternoon, List.mem_cons, List.not_mem_nil, or_false] at he
    rcases he with rfl | rfl | rfl | rfl | rfl <;> trivial
  obtain ⟨h1, h2, h3⟩ := C150_network hord exEnv exEnv_stable calmEnv calmEnv_calm okNet (fun _ _ _ _ => rfl) exHome exHome_built exAfternoon hf
  have hall : (mayB (freshData List.dedup) (homeOf exHome) exAfternoon &&
      decide (((homeOf exHome).run RefRun.use (RefCtlRun.use (freshData List.dedup)) exAfternoon).2 = [.value true, .nothing, .nothing, .value true, .nothing]) &&
      decide ((((homeOf exHome).run RefRun.use (RefCtlRun.use (freshData List.dedup)) exAfternoon).1.controllers "10.0.0.2").map (fun R => R.ctl.known) = some ["10.0.0.9"])) = true := by
    decide +kernel
  simp only [Bool.and_eq_true, decide_eq_true_eq] at hall
  refine ⟨exHome_built, hf, h3.mpr (mayB_spec _ _ _ hall.1.1), ?_, ?_⟩
  · rw [h2]; exact hall.1.2
  · rw [h1]; exact hall.2

/-- The controller asks the light to announce its state. -/
def exOddDay : List Incident := [
  .controller "10.0.0.2" (.sendTo { deoj := 0x029101, esv := 0x63, props := [{ code := 0x80 }] } (.str "10.0.0.9")),
  .device "10.0.0.9" (.arrive ⟨0, [0x10, 0x81, 0, 2, 0x0E, 0xF0, 1, 2, 0x91, 1, 0x63, 1, 0x80, 0], ("10.0.0.2", 3610)⟩)]

/-- C151 is false: what may happen in a network of this library is not always what the standard says. Asked to announce its state, which can be read, the light refuses; by the standard it
announces it to everyone. -/
theorem C151_standard_false :
    exHome.May (nodeUse exEnv okNet) (ctlUse List.dedup exEnv calmEnv okNet) sentBy sentByCtl exOddDay ∧
    let q := exHome.run (nodeUse exEnv okNet) (ctlUse List.dedup exEnv calmEnv okNet) exOddDay
    let S := (homeOf exHome).run RefRun.standardUse (RefCtlRun.intendedUse (freshData List.dedup)) exOddDay
    ((homeOf q.1).devices "10.0.0.9").map (fun R => R.sent.map fun s => (s.dest.1, s.bytes.getD 10 0)) = some [("10.0.0.2", 0x53)] ∧
    (S.1.devices "10.0.0.9").map (fun R => R.sent.map fun s => (s.dest.1, s.bytes.getD 10 0)) = some [("224.0.23.0", 0x73)] := by
  have hord : ValidOrder List.dedup := fun l => ⟨l.nodup_dedup, fun _ => List.mem_dedup⟩
  have hf : ∀ e ∈ exOddDay, e.Fair := by
    intro e he
    simp only [exOddDay, List.mem_cons, List.not_mem_nil, or_false] at he
    rcases he with rfl | rfl <;> trivial
  obtain ⟨h1, -, h3⟩ := C150_network hord exEnv exEnv_stable calmEnv calmEnv_calm okNet (fun _ _ _ _ => rfl) exHome exHome_built exOddDay hf
  have hall : (mayB (freshData List.dedup) (homeOf exHome) exOddDay &&
      decide ((((homeOf exHome).run RefRun.use (RefCtlRun.use (freshData List.dedup)) exOddDay).1.devices "10.0.0.9").map (fun R => R.sent.map fun s => (s.dest.1, s.bytes.getD 10 0)) =
        some [("10.0.0.2", 0x53)]) &&
      decide ((((homeOf exHome).run RefRun.standardUse (RefCtlRun.intendedUse (freshData List.dedup)) exOddDay).1.devices "10.0.0.9").map
        (fun R => R.sent.map fun s => (s.dest.1, s.bytes.getD 10 0)) = some [("224.0.23.0", 0x73)])) = true := by
    decide +kernel
  simp only [Bool.and_eq_true, decide_eq_true_eq] at hall
  refine ⟨h3.mpr (mayB_spec _ _ _ hall.1.1), ?_, hall.2⟩
  rw [h1]
  exact hall.1.2

/-- The hypotheses of `C151_standard_partial`: the controller searches and the light answers. -/
example : Built List.dedup exEnv exHome ∧ RefNet.Awake (homeOf exHome) ∧ (∀ e ∈ exAfternoon.take 2, e.Fair) ∧ RefNet.Usual (freshData List.dedup) (homeOf exHome) (exAfternoon.take 2) := by
  refine ⟨exHome_built, ⟨fun ip R h => ?_, fun ip R h => ?_⟩, ?_, trivial, fun R hR => ?_, trivial⟩
  · obtain ⟨r, hr, rfl⟩ := Option.map_eq_some_iff.mp h
    have hr : (if ip = "10.0.0.9" then some (⟨exRunning, fun _ => true⟩ : Running LocalNode) else none) = some r := hr
    split at hr
    · injection hr with hr; rw [← hr]; intro i; rfl
    · cases hr
  · obtain ⟨r, hr, rfl⟩ := Option.map_eq_some_iff.mp h
    have hr : (if ip = "10.0.0.2" then some (⟨exSeeing, fun _ => true⟩ : Running Ctl) else none) = some r := hr
    split at hr
    · injection hr with hr; rw [← hr]; intro i; rfl
    · cases hr
  · intro e he
    simp only [exAfternoon, List.take_succ_cons, List.take_zero, List.mem_cons, List.not_mem_nil, or_false] at he
    rcases he with rfl | rfl <;> trivial
  · have h0 : (homeOf exHome).devices "10.0.0.9" = some R := hR
    have h0 : some (runOf ⟨exRunning, fun _ => true⟩) = some R := h0
    injection h0 with h0
    rw [← h0]
    exact not_differs (deviceOf exRunning) { tid := 2, seoj := 0x0EF001, deoj := 0x0EF001, esv := 0x62, props := [{ code := 0xD6 }] } (by decide) (by decide) (by decide)
      (by decide +kernel) (by decide) (by decide) (by decide +kernel)

end Uecho
