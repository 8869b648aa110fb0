/- C157, C158: where nothing is lost, what is asked is answered, and a search finds everyone. -/
import Verif.Lemmas.Settled
import Verif.Props.Once

namespace Uecho
open Spec

/-- A network of nodes that are ready: built with the calls of the library, with their own profiles, all threads there, at proper addresses; nothing was sent so far but searches. -/
structure Homely (ord : List Int → List Int) (env : Env) (N : RealNet) : Prop where
  built : Built ord env N
  own : (∀ ip r, N.devices ip = some r → OwnProfile r.st) ∧ ∀ ip r, N.controllers ip = some r → OwnProfile r.st.ln
  awake : RefNet.Awake (homeOf N)
  nobody : N.devices "224.0.23.0" = none ∧ N.controllers "224.0.23.0" = none
  sent : OnlySearches N

theorem homely_well {ord : List Int → List Int} (hord : ValidOrder ord) {env : Env} {N : RealNet} (h : Homely ord env N) : AllWell (homeOf N) := by
  refine ⟨fun ip R hR => ?_, fun ip R hR => ?_, ?_⟩
  · obtain ⟨r, hr, rfl⟩ := home_devices hR
    refine ⟨h.awake.1 ip _ hR, orderly_node hord (h.built.dev ip r hr).1 (h.built.dev ip r hr).2.1 (h.own.1 ip r hr), fun s hs' => ?_⟩
    obtain ⟨j1, m, j2, j3⟩ := h.sent ip s (.inl ⟨r, hr, hs'⟩)
    exact ⟨m, j2, .inl (.inl ⟨j3, j1⟩)⟩
  · obtain ⟨r, hr, rfl⟩ := home_controllers hR
    obtain ⟨⟨ops, c1⟩, c2, -⟩ := h.built.ctl ip r hr
    obtain ⟨c3, c4⟩ := reach_ln hord c1
    refine ⟨h.awake.2 ip _ hR, orderly_node hord c3 c2 (h.own.2 ip r hr), c4, fun s hs' => ?_⟩
    obtain ⟨j1, m, j2, j3⟩ := h.sent ip s (.inr ⟨r, hr, hs'⟩)
    exact ⟨m, j2, .inl (.inl ⟨j3, j1⟩)⟩
  · constructor
    · show (N.devices everyone).map runOf = none
      rw [show N.devices everyone = none from h.nobody.1]; rfl
    · show (N.controllers everyone).map ctlRunOf = none
      rw [show N.controllers everyone = none from h.nobody.2]; rfl

/-! ### Real networks and reference networks -/

theorem home_emits {ord : List Int → List Int} (hord : ValidOrder ord) {env : Env} (hc : CodeStable env) {cenv : CEnv} (hcalm : Calm cenv) (net : Net) (hs : NetWorks net) {N : RealNet}
    (h : NetFit ord env N) {e : Incident} (hf : e.Fair) (ip dst : String) (b : Bytes) :
    (homeOf N).Emits RefRun.use (RefCtlRun.use (freshData ord)) RefRun.sent RefCtlRun.sent e ip dst b ↔
    N.Emits (nodeUse env net) (ctlUse ord env cenv net) sentBy sentByCtl e ip dst b := by
  obtain ⟨-, k2, -⟩ := home_step hord hc hcalm net hs N h e hf
  unfold Home.Emits
  rw [← k2]
  constructor
  · rintro ⟨s, h1, h2⟩
    refine ⟨s, ?_, h2⟩
    rcases h1 with ⟨R, R', j1, j2, j3⟩ | ⟨R, R', j1, j2, j3⟩
    · obtain ⟨r, hr, rfl⟩ := home_devices j1
      obtain ⟨r', hr', rfl⟩ := home_devices j2
      exact .inl ⟨r, r', hr, hr', j3⟩
    · obtain ⟨r, hr, rfl⟩ := home_controllers j1
      obtain ⟨r', hr', rfl⟩ := home_controllers j2
      exact .inr ⟨r, r', hr, hr', j3⟩
  · rintro ⟨s, h1, h2⟩
    refine ⟨s, ?_, h2⟩
    have hd : ∀ (N : RealNet) r, N.devices ip = some r → (homeOf N).devices ip = some (runOf r) := by
      intro N r hr; show (N.devices ip).map runOf = _; rw [hr]; rfl
    have hk : ∀ (N : RealNet) r, N.controllers ip = some r → (homeOf N).controllers ip = some (ctlRunOf r) := by
      intro N r hr; show (N.controllers ip).map ctlRunOf = _; rw [hr]; rfl
    rcases h1 with ⟨r, r', j1, j2, j3⟩ | ⟨r, r', j1, j2, j3⟩
    · exact .inl ⟨_, _, hd _ _ j1, hd _ _ j2, j3⟩
    · exact .inr ⟨_, _, hk _ _ j1, hk _ _ j2, j3⟩

theorem home_lossless {ord : List Int → List Int} (hord : ValidOrder ord) {env : Env} (hc : CodeStable env) {cenv : CEnv} (hcalm : Calm cenv) (net : Net) (hs : NetWorks net) (es : List Incident) :
    ∀ N : RealNet, NetFit ord env N → (∀ e ∈ es, e.Fair) →
      (N.Lossless (nodeUse env net) (ctlUse ord env cenv net) sentBy sentByCtl es ↔ (homeOf N).Lossless RefRun.use (RefCtlRun.use (freshData ord)) RefRun.sent RefCtlRun.sent es) := by
  induction es with
  | nil => intro N _ _; exact Iff.rfl
  | cons e es ih =>
    intro N h hf
    have hfe := hf e (List.mem_cons_self ..)
    obtain ⟨k1, k2, -⟩ := home_step hord hc hcalm net hs N h e hfe
    have := ih _ k1 (fun x hx => hf x (List.mem_cons_of_mem _ hx))
    rw [k2] at this
    have hd : ∀ dst, (homeOf N).devices dst ≠ none ↔ N.devices dst ≠ none := by
      intro dst; show (N.devices dst).map runOf ≠ none ↔ _; rw [ne_eq, Option.map_eq_none_iff]
    have hk : ∀ dst, (homeOf N).controllers dst ≠ none ↔ N.controllers dst ≠ none := by
      intro dst; show (N.controllers dst).map ctlRunOf ≠ none ↔ _; rw [ne_eq, Option.map_eq_none_iff]
    unfold Home.Lossless
    rw [this]
    simp only [home_emits hord hc hcalm net hs h hfe, hd, hk]

theorem fit_run {ord : List Int → List Int} (hord : ValidOrder ord) {env : Env} (hc : CodeStable env) {cenv : CEnv} (hcalm : Calm cenv) (net : Net) (hs : NetWorks net) (es : List Incident) :
    ∀ N : RealNet, NetFit ord env N → (∀ e ∈ es, e.Fair) → NetFit ord env (N.run (nodeUse env net) (ctlUse ord env cenv net) es).1 := by
  induction es with
  | nil => intro N h _; exact h
  | cons e es ih =>
    intro N h hf
    exact ih _ (home_step hord hc hcalm net hs N h e (hf e (List.mem_cons_self ..))).1 fun x hx => hf x (List.mem_cons_of_mem _ hx)

theorem home_run_append {δ κ : Type} (onD : δ → Use → δ × Given) (onC : κ → CtlUse → κ × Given) (as bs : List Incident) : ∀ N : Home δ κ,
    (N.run onD onC (as ++ bs)).1 = ((N.run onD onC as).1.run onD onC bs).1 := by
  induction as with
  | nil => intro N; rfl
  | cons a as ih => intro N; exact ih _

theorem may_append {δ κ : Type} (onD : δ → Use → δ × Given) (onC : κ → CtlUse → κ × Given) (sentD : δ → List Sent) (sentC : κ → List Sent) (as bs : List Incident) : ∀ N : Home δ κ,
    N.May onD onC sentD sentC (as ++ bs) → N.May onD onC sentD sentC as ∧ (N.run onD onC as).1.May onD onC sentD sentC bs := by
  induction as with
  | nil => intro N h; exact ⟨trivial, h⟩
  | cons a as ih => intro N h; exact ⟨⟨h.1, (ih _ h.2).1⟩, (ih _ h.2).2⟩

theorem politely_append (fresh : Int → Int → Option Bytes) (as bs : List Incident) : ∀ N : RefNet, RefNet.Politely fresh N (as ++ bs) →
    RefNet.Politely fresh N as ∧ RefNet.Politely fresh (N.run RefRun.use (RefCtlRun.use fresh) as).1 bs := by
  induction as with
  | nil => intro N h; exact ⟨trivial, h⟩
  | cons a as ih => intro N h; exact ⟨⟨h.1, (ih _ h.2).1⟩, (ih _ h.2).2⟩

theorem attends_run (fresh : Int → Int → Option Bytes) {o : Int} {cs : List Int} {dst : String} (es : List Incident) : ∀ (N : RefNet) (D : RefRun), N.devices dst = some D → Attends o cs D.dev →
    ∃ D', (N.run RefRun.use (RefCtlRun.use fresh) es).1.devices dst = some D' ∧ Attends o cs D'.dev := by
  induction es with
  | nil => intro N D hD h; exact ⟨D, hD, h⟩
  | cons e es ih =>
    intro N D hD h
    rcases step_dev fresh hD e with k | ⟨u, -, k⟩
    · exact ih _ D k h
    · exact ih _ _ k (attends_use h u)

theorem ctl_can_send (fresh : Int → Int → Option Bytes) {ip : String} (es : List Incident) : ∀ (N : RefNet) (R : RefCtlRun), N.controllers ip = some R → R.ctl.dev.ifs ≠ [] →
    ∃ R', (N.run RefRun.use (RefCtlRun.use fresh) es).1.controllers ip = some R' ∧ R'.ctl.dev.ifs ≠ [] := by
  induction es with
  | nil => intro N D hD h; exact ⟨D, hD, h⟩
  | cons e es ih =>
    intro N R hR h
    rcases step_ctl fresh hR e with k | ⟨u, -, k⟩
    · exact ih _ R k h
    · refine ih _ _ k ?_
      cases u with
      | device u =>
        cases u with
        | arrive x =>
          show (R.arrive fresh x).ctl.dev.ifs ≠ []
          unfold RefCtlRun.arrive
          split
          · have hifs : ∀ D : RefDevice, D.ifs ≠ [] → (D.actual x.bytes x.src).1.ifs ≠ [] := by
              intro D hD
              rcases actual_cases D x.bytes x.src with ⟨e, -⟩ | ⟨m, t, k, -, -, e, -⟩ <;> rw [e] <;> exact hD
            rcases ctl_cases fresh R.ctl x.bytes x.src with e | ⟨-, e | ⟨m, -, e⟩⟩
            · simp only [e]; exact hifs _ h
            · simp only [e]; exact h
            · simp only [e, actualReport_dev, actualList_dev]; exact h
          · exact h
        | announce m => show (R.ctl.dev.announce m).1.ifs ≠ []; rw [announce_counts]; exact h
        | send m a => show (R.ctl.dev.send m a).1.ifs ≠ []; rw [send_counts]; exact h
        | store o c b => show (R.ctl.dev.store o c b).ifs ≠ []; unfold RefDevice.store; split <;> exact h
      | sendTo m d => show (R.ctl.dev.send m (whereTo d)).1.ifs ≠ []; rw [send_counts]; exact h
      | post m d => show (R.ctl.dev.send m (whereTo d)).1.ifs ≠ []; rw [send_counts]; exact h
      | search => show (R.ctl.dev.announce theSearch).1.ifs ≠ []; rw [announce_counts]; exact h
      | listen l => exact h
      | unlisten l =>
        simp only [RefCtlRun.use]
        split <;> exact h

theorem ifs_of_can {n : LocalNode} (h : CanSend n.mgr) : (deviceOf n).ifs ≠ [] := by
  show (working n.mgr.servers).map Server.ifaddr ≠ []
  intro e
  exact h (List.map_eq_nil_iff.mp e)

/-- C157, for programs that are polite. Where nothing is lost, what is asked is answered: in a closed network of polite programs a controller sends a request to read or to write with confirmation to
an object in service of a device, and waits. Whatever happens before, and whatever else happens meanwhile, if everything that is sent from now on arrives some time, and the controller asks nothing else,
it ends up with a response, with the number of the request. -/
theorem C157_answered_partial {ord : List Int → List Int} (hord : ValidOrder ord) (env : Env) (hc : CodeStable env) (cenv : CEnv) (hcalm : Calm cenv) (net : Net) (hs : NetWorks net)
    (N : RealNet) (h : Homely ord env N) (es₀ es : List Incident) (ip dst : String) (m : Msg) (d : PyDest) (port : Int)
    (hf : ∀ e ∈ es₀ ++ .controller ip (.post m d) :: es, e.Fair)
    (hmay : N.May (nodeUse env net) (ctlUse ord env cenv net) sentBy sentByCtl (es₀ ++ .controller ip (.post m d) :: es))
    (hp : RefNet.Politely (freshData ord) (homeOf N) (es₀ ++ .controller ip (.post m d) :: es))
    (hl : (N.run (nodeUse env net) (ctlUse ord env cenv net) es₀).1.Lossless (nodeUse env net) (ctlUse ord env cenv net) sentBy sentByCtl (.controller ip (.post m d) :: es))
    (hlast : ∀ e ∈ es, ¬ e.asksAt ip) (hm : Encodable m) (hesv : m.esv = 0x61 ∨ m.esv = 0x62) (htid : 0 ≤ m.tid ∧ m.tid ≤ 65535) (hd : whereTo d = some (dst, port))
    (c : Running Ctl) (hctl : N.controllers ip = some c) (r : Running LocalNode) (hdev : N.devices dst = some r)
    (o : Obj) (hobj : r.st.getObject (.int (m.deoj % 2 ^ 24)) = some o) (hserve : o.handler ≠ .none) :
    ∃ c' req res, (N.run (nodeUse env net) (ctlUse ord env cenv net) (es₀ ++ .controller ip (.post m d) :: es)).1.controllers ip = some c' ∧
      c'.st.last.request = some req ∧ c'.st.last.response = some res ∧ res.tid = req.tid := by
  have hwell := homely_well hord h
  have hf0 : ∀ e ∈ es₀, e.Fair := fun e he => hf e (List.mem_append_left _ he)
  have hf1 : ∀ e ∈ Incident.controller ip (.post m d) :: es, e.Fair := fun e he => hf e (List.mem_append_right _ he)
  have hfit0 := built_fit hord h.built
  obtain ⟨k1, -, k3⟩ := C150_network hord env hc cenv hcalm net hs N h.built _ hf
  obtain ⟨g1, -, -⟩ := C150_network hord env hc cenv hcalm net hs N h.built es₀ hf0
  have hfit := fit_run hord hc hcalm net hs es₀ N hfit0 hf0
  have hl := (home_lossless hord hc hcalm net hs _ _ hfit hf1).mp hl
  obtain ⟨m0, m1⟩ := may_append _ _ _ _ _ _ _ (k3.mp hmay)
  obtain ⟨p0, p1⟩ := politely_append _ _ _ _ hp
  have hwell0 := well_run (freshData ord) es₀ (homeOf N) hwell hf0 p0 m0
  -- the controller and the device at that time
  obtain ⟨D0, hD0, hat0⟩ := attends_run (o := m.deoj % 2 ^ 24) (cs := []) (dst := dst) (freshData ord) es₀ (homeOf N) (runOf r) (by show (N.devices dst).map runOf = _; rw [hdev]; rfl)
    ⟨ifs_of_can (h.built.dev dst r hdev).2.2, thingOf o, by show (r.st.getObject (.int (m.deoj % 2 ^ 24))).map thingOf = _; rw [hobj]; rfl, decide_eq_true hserve, by intro c hc; cases hc⟩
  obtain ⟨R0, hR0, hifs⟩ := ctl_can_send (freshData ord) (ip := ip) es₀ (homeOf N) (ctlRunOf c) (by show (N.controllers ip).map ctlRunOf = _; rw [hctl]; rfl)
    (ifs_of_can (h.built.ctl ip c hctl).2.2)
  have htid0 : 0 ≤ R0.ctl.dev.tid := by
    rw [← g1] at hR0
    obtain ⟨c0, hc0, rfl⟩ := home_controllers hR0
    exact (reachable_tid hord (hfit.ctl ip c0 hc0).fit.reach).1
  rw [home_run_append RefRun.use (RefCtlRun.use (freshData ord)) es₀] at k1
  generalize ((homeOf N).run RefRun.use (RefCtlRun.use (freshData ord)) es₀).1 = N0 at *
  rw [g1] at hl
  -- the request
  have hR1 : (N0.step RefRun.use (RefCtlRun.use (freshData ord)) (.controller ip (.post m d))).1.controllers ip = some (R0.use (freshData ord) (.post m d)).1 := by
    simp only [Home.step, hR0, if_true]
  have hsent : (R0.use (freshData ord) (.post m d)).1.sent = R0.sent ++ (R0.ctl.dev.ifs.take 1).map fun i => ⟨i, (dst, port), encode (R0.ctl.dev.stamped m)⟩ := by
    show R0.sent ++ (R0.ctl.dev.send m (whereTo d)).2.1 = _
    rw [hd]
    unfold RefDevice.send
    simp only [if_pos hm]
  obtain ⟨i, is, hi⟩ := List.exists_cons_of_ne_nil hifs
  have hmem : (⟨i, (dst, port), encode (R0.ctl.dev.stamped m)⟩ : Sent) ∈ (R0.ctl.dev.ifs.take 1).map fun i => (⟨i, (dst, port), encode (R0.ctl.dev.stamped m)⟩ : Sent) := by
    rw [hi]; exact List.mem_cons_self ..
  have hem : N0.Emits RefRun.use (RefCtlRun.use (freshData ord)) RefRun.sent RefCtlRun.sent (.controller ip (.post m d)) ip dst (encode (R0.ctl.dev.stamped m)) := by
    refine ⟨⟨i, (dst, port), encode (R0.ctl.dev.stamped m)⟩, .inr ⟨R0, _, hR0, hR1, ?_⟩, rfl, .inl rfl⟩
    rw [hsent, List.drop_left]
    exact hmem
  obtain ⟨x, x1, x2, x3⟩ := (hl.1 ip dst _ hem).1 (by rw [hD0]; simp)
  have hwell1 := well_step (freshData ord) hwell0 (hf1 _ (List.mem_cons_self ..)) p1.1 m1.1
  obtain ⟨w, hw, -⟩ := (hwell1.ctl ip _ hR1).2.2.2 _ (by rw [hsent]; exact List.mem_append_right _ hmem)
  have hww := read_written (w := R0.ctl.dev.stamped m) hm hw
  have ht : 0 < (R0.ctl.dev.stamped m).tid ∧ (R0.ctl.dev.stamped m).tid ≤ 65535 := by
    show 0 < (if m.tid = 0 then RefDevice.chosenTid R0.ctl.dev.tid else m.tid) ∧ (if m.tid = 0 then RefDevice.chosenTid R0.ctl.dev.tid else m.tid) ≤ 65535
    unfold RefDevice.chosenTid
    split
    · split <;> omega
    · omega
  have hwt : w.tid = (R0.ctl.dev.stamped m).tid := by
    rw [hww]
    show (R0.ctl.dev.stamped m).tid % 65536 = _
    omega
  obtain ⟨D1, hD1, hat1⟩ := attends_run (freshData ord) [.controller ip (.post m d)] N0 D0 hD0 hat0
  obtain ⟨y, a, y1, -, y3, y4, y5, -⟩ := lossless_request (freshData ord) ip dst (m.deoj % 2 ^ 24) [] w (by rw [hww]; exact hesv) (by rw [hww]; rfl) (by rw [hwt]; omega) x x3 (by rw [x2]; exact hw) es
    _ _ D1 hwell1 (fun e he => hf1 e (List.mem_cons_of_mem _ he)) p1.2 m1.2 hl.2 hR1 hD1 hat1 x1
  have hawait : Awaits w.tid (R0.use (freshData ord) (.post m d)).1.ctl := by
    rw [hwt]
    exact ⟨rfl, fun m h => by cases h⟩
  obtain ⟨R', z1, z2, -, z4⟩ := lossless_answer (freshData ord) ip w.tid es _ _ hwell1 (fun e he => hf1 e (List.mem_cons_of_mem _ he)) p1.2 m1.2 hR1 hawait hlast
  have hans := z4 y a y1 y3 y4 y5
  have z1 : (N0.run RefRun.use (RefCtlRun.use (freshData ord)) (.controller ip (.post m d) :: es)).1.controllers ip = some R' := z1
  rw [← k1] at z1
  obtain ⟨c', hc', rfl⟩ := home_controllers z1
  cases hres : c'.st.last.response with
  | none => exact absurd hres hans
  | some res =>
    have hz2 := z2.1
    have hz2 : c'.st.last.request.map Msg.tid = some w.tid := hz2
    obtain ⟨req, hreq, hrt⟩ := Option.map_eq_some_iff.mp hz2
    refine ⟨c', req, res, hc', hreq, hres, ?_⟩
    rw [hrt]
    exact z2.2 res hres

/-- What the profile of a node holds as its instance list. -/
theorem profile_list_held {ord : List Int → List Int} (hord : ValidOrder ord) {env : Env} {n : LocalNode} (hr : Reachable ord n) (hp : PlainNode env n) (hown : OwnProfile n) (hcan : CanSend n.mgr) :
    Attends 0x0EF001 [0xD6] (deviceOf n) ∧ ∃ e, (deviceOf n).entry 0x0EF001 0xD6 = some e ∧ codesIn e.data = (instancesOf (n.objs.map Obj.code)).map (· % 2 ^ 24) := by
  have hi := reachable_inv hord hr
  have hget : n.getObject (.int 0x0EF001) = some n.profile := by
    show (Dict.get? n.node.objects 0x0EF001).map n.deref = _
    rw [hown]; rfl
  obtain ⟨-, b, hb, -, hd⟩ := C43_any_number_partial hord hr
  rw [getPropertyData_eq] at hd
  cases hl : lookup n.profile.props 0xD6 with
  | none => rw [hl] at hd; cases hd
  | some p =>
    rw [hl] at hd
    injection hd with hd
    have hd : p.data = b :: codeBytes (instancesOf (n.objs.map Obj.code)) := hd
    have hread : CanRead p := by
      have h1 := hi.prof.props 0xD6
      rw [hl] at h1
      have h2 : (deviceProp 0x0E 0xF0 0xD6).map OProp.attrGet = some 1 := by decide +kernel
      rw [← h1] at h2
      simp only [Option.map_some, Option.some.injEq] at h2
      exact .inl h2
    refine ⟨⟨ifs_of_can hcan, thingOf n.profile, by show (n.getObject (.int 0x0EF001)).map thingOf = _; rw [hget]; rfl, decide_eq_true (by rw [hi.prof.handler]; decide), ?_⟩, ?_⟩
    · intro c hc
      rw [List.mem_singleton.mp hc]
      show isReadable ((lookup n.profile.props 0xD6).map _) = true
      rw [hl]
      exact decide_eq_true hread
    · refine ⟨{ readable := decide (CanRead p), writable := decide (CanWrite p), data := p.data }, ?_, ?_⟩
      · rw [← nodeEntry_eq]
        unfold nodeEntry
        rw [hget]
        show (lookup n.profile.props 0xD6).map _ = _
        rw [hl]; rfl
      · show codesIn p.data = _
        have hlen := (hp 0x0EF001 n.profile hget).2.2.2 0xD6 p hl
        rw [hd, List.length_cons, codeBytes_length] at hlen
        rw [hd]
        show listedCodes b.toNat _ = _
        rw [hb, Nat.mod_eq_of_lt (by omega)]
        have := listedCodes_codeBytes (instancesOf (n.objs.map Obj.code)) []
        rwa [List.append_nil] at this

/-- C158, for programs that are polite. Where nothing is lost, a search finds everyone: in a closed network of polite programs that was just started, a controller searches, some time. Whatever
happened before, and whatever happens afterwards, once everything that is sent has arrived, and ever after, the controller knows every device, and the objects it lists for it are the node profile and
those the device has, in the same order. -/
theorem C158_found_partial {ord : List Int → List Int} (hord : ValidOrder ord) (env : Env) (hc : CodeStable env) (cenv : CEnv) (hcalm : Calm cenv) (net : Net) (hs : NetWorks net)
    (N : RealNet) (h : Homely ord env N) (hstart : JustStarted N) (es₀ es : List Incident) (ip dst : String)
    (hf : ∀ e ∈ es₀ ++ .controller ip .search :: es, e.Fair)
    (hmay : N.May (nodeUse env net) (ctlUse ord env cenv net) sentBy sentByCtl (es₀ ++ .controller ip .search :: es))
    (hp : RefNet.Politely (freshData ord) (homeOf N) (es₀ ++ .controller ip .search :: es))
    (hl : (N.run (nodeUse env net) (ctlUse ord env cenv net) es₀).1.Lossless (nodeUse env net) (ctlUse ord env cenv net) sentBy sentByCtl (.controller ip .search :: es))
    (c : Running Ctl) (hctl : N.controllers ip = some c) (r : Running LocalNode) (hdev : N.devices dst = some r) (halone : DeviceOnly N dst) :
    ∃ c' n, (N.run (nodeUse env net) (ctlUse ord env cenv net) (es₀ ++ .controller ip .search :: es)).1.controllers ip = some c' ∧ Dict.get? c'.st.found dst = some n ∧
      Dict.keys n.node.objects = addCodes [0x0EF001] ((instancesOf (r.st.objs.map Obj.code)).map (· % 2 ^ 24)) := by
  have hwell := homely_well hord h
  have hf0 : ∀ e ∈ es₀, e.Fair := fun e he => hf e (List.mem_append_left _ he)
  have hf1 : ∀ e ∈ Incident.controller ip .search :: es, e.Fair := fun e he => hf e (List.mem_append_right _ he)
  have hfit0 := built_fit hord h.built
  obtain ⟨k1, -, k3⟩ := C150_network hord env hc cenv hcalm net hs N h.built _ hf
  obtain ⟨g1, -, -⟩ := C150_network hord env hc cenv hcalm net hs N h.built es₀ hf0
  have hfit := fit_run hord hc hcalm net hs es₀ N hfit0 hf0
  have hl := (home_lossless hord hc hcalm net hs _ _ hfit hf1).mp hl
  obtain ⟨b1, b2, b3⟩ := h.built.dev dst r hdev
  obtain ⟨hat, e0, he0, hcodes⟩ := profile_list_held hord b1 b2 (h.own.1 dst r hdev) b3
  have hlists : ListsTrue dst e0.data (homeOf N) := by
    refine ⟨by show (N.controllers dst).map ctlRunOf = none; rw [halone.1]; rfl, fun R hR => ?_, fun ip' R n hR hn => ?_⟩
    · obtain ⟨r', hr', rfl⟩ := home_devices hR
      rw [hdev] at hr'
      injection hr' with hr'
      subst hr'
      refine ⟨⟨e0, he0, rfl⟩, halone.2 r hdev, fun s hs' m hm h72 => ?_⟩
      obtain ⟨-, m', j2, j3⟩ := h.sent dst s (.inl ⟨r, hdev, hs'⟩)
      rw [hm] at j2
      injection j2 with j2
      subst j2
      rw [(search_is j3).1] at h72
      omega
    · obtain ⟨c', hc', rfl⟩ := home_controllers hR
      have hn : (Dict.get? c'.st.found dst).map nodeOf = some n := hn
      rw [(hstart.2 ip' c' hc').1] at hn
      cases hn
  have hend := lists_run (freshData ord) _ _ hlists hwell hf hp (k3.mp hmay)
  obtain ⟨m0, m1⟩ := may_append _ _ _ _ _ _ _ (k3.mp hmay)
  obtain ⟨p0, p1⟩ := politely_append _ _ _ _ hp
  have hwell0 := well_run (freshData ord) es₀ (homeOf N) hwell hf0 p0 m0
  obtain ⟨D0, hD0, hat0⟩ := attends_run (dst := dst) (freshData ord) es₀ (homeOf N) (runOf r) (by show (N.devices dst).map runOf = _; rw [hdev]; rfl) hat
  obtain ⟨R0, hR0, hifs⟩ := ctl_can_send (freshData ord) (ip := ip) es₀ (homeOf N) (ctlRunOf c) (by show (N.controllers ip).map ctlRunOf = _; rw [hctl]; rfl)
    (ifs_of_can (h.built.ctl ip c hctl).2.2)
  have htid0 : 0 ≤ R0.ctl.dev.tid := by
    rw [← g1] at hR0
    obtain ⟨c0, hc0, rfl⟩ := home_controllers hR0
    exact (reachable_tid hord (hfit.ctl ip c0 hc0).fit.reach).1
  rw [← k1] at hend
  rw [home_run_append RefRun.use (RefCtlRun.use (freshData ord)) es₀] at k1
  generalize ((homeOf N).run RefRun.use (RefCtlRun.use (freshData ord)) es₀).1 = N0 at *
  rw [g1] at hl
  have hne : dst ≠ ip := by rintro rfl; rw [halone.1] at hctl; cases hctl
  -- the request
  have hR1 : (N0.step RefRun.use (RefCtlRun.use (freshData ord)) (.controller ip .search)).1.controllers ip = some (R0.use (freshData ord) .search).1 := by
    simp only [Home.step, hR0, if_true]
  have henc : Encodable theSearch := by decide
  have hsent : (R0.use (freshData ord) .search).1.sent = R0.sent ++ R0.ctl.dev.ifs.map fun i => ⟨i, ("224.0.23.0", 3610), encode (R0.ctl.dev.stamped theSearch)⟩ := by
    show R0.sent ++ (R0.ctl.dev.announce theSearch).2.1 = _
    unfold RefDevice.announce
    rw [if_pos henc]
  obtain ⟨i, is, hi⟩ := List.exists_cons_of_ne_nil hifs
  have hmem : (⟨i, ("224.0.23.0", 3610), encode (R0.ctl.dev.stamped theSearch)⟩ : Sent) ∈
      R0.ctl.dev.ifs.map fun i => (⟨i, ("224.0.23.0", 3610), encode (R0.ctl.dev.stamped theSearch)⟩ : Sent) := by
    rw [hi]; exact List.mem_cons_self ..
  have hem : N0.Emits RefRun.use (RefCtlRun.use (freshData ord)) RefRun.sent RefCtlRun.sent (.controller ip .search) ip dst (encode (R0.ctl.dev.stamped theSearch)) := by
    refine ⟨⟨i, ("224.0.23.0", 3610), encode (R0.ctl.dev.stamped theSearch)⟩, .inr ⟨R0, _, hR0, hR1, ?_⟩, rfl, .inr ⟨rfl, hne⟩⟩
    rw [hsent, List.drop_left]
    exact hmem
  obtain ⟨x, x1, x2, x3⟩ := (hl.1 ip dst _ hem).1 (by rw [hD0]; simp)
  have hwell1 := well_step (freshData ord) hwell0 (hf1 _ (List.mem_cons_self ..)) p1.1 m1.1
  obtain ⟨w, hw, -⟩ := (hwell1.ctl ip _ hR1).2.2.2 _ (by rw [hsent]; exact List.mem_append_right _ hmem)
  have hww := read_written (w := R0.ctl.dev.stamped theSearch) henc hw
  have hwt : w.tid ≠ 0 := by
    rw [hww]
    show RefDevice.chosenTid R0.ctl.dev.tid % 65536 ≠ 0
    unfold RefDevice.chosenTid
    split <;> omega
  have hwp : w.props = [{ code := 0xD6 }] := by rw [hww]; rfl
  have hwe : w.esv = 0x62 := by rw [hww]; rfl
  obtain ⟨D1, hD1, hat1⟩ := attends_run (freshData ord) [.controller ip .search] N0 D0 hD0 hat0
  obtain ⟨y, a, y1, y2, y3, -, -, y6⟩ := lossless_request (freshData ord) ip dst 0x0EF001 [0xD6] w (.inr hwe) (by rw [hww]; rfl) hwt x x3 (by rw [x2]; exact hw) es
    _ _ D1 hwell1 (fun e he => hf1 e (List.mem_cons_of_mem _ he)) p1.2 m1.2 hl.2 hR1 hD1 hat1 x1
  have ha72 := y6 hwe (by
    intro i hi
    rw [hwp] at hi
    rw [List.mem_singleton.mp hi]
    exact List.mem_singleton.mpr rfl)
  obtain ⟨R', z1, -, z3⟩ := lossless_list (freshData ord) ip es _ _ hwell1 (fun e he => hf1 e (List.mem_cons_of_mem _ he)) p1.2 m1.2 hR1
  have hk := z3 y a y1 y3 ha72
  rw [y2] at hk
  have z1 : (N0.run RefRun.use (RefCtlRun.use (freshData ord)) (.controller ip .search :: es)).1.controllers ip = some R' := z1
  rw [← k1] at z1
  have hobjs := hend.ctl ip R'
  obtain ⟨c', hc', rfl⟩ := home_controllers z1
  have hk : (Dict.get? c'.st.found dst).map nodeOf ≠ none := hk
  cases hg : Dict.get? c'.st.found dst with
  | none => rw [hg] at hk; exact absurd rfl hk
  | some n =>
    refine ⟨c', n, hc', hg, ?_⟩
    rw [← hcodes]
    exact hobjs (nodeOf n) z1 (by show (Dict.get? c'.st.found dst).map nodeOf = _; rw [hg]; rfl)

/-! ### Networks that break -/

/-- What is sent where it happens. -/
def emitted (fresh : Int → Int → Option Bytes) (N : RefNet) (e : Incident) : List Sent :=
  (match N.devices e.at_, (N.step RefRun.use (RefCtlRun.use fresh) e).1.devices e.at_ with
    | some r, some r' => r'.sent.drop r.sent.length
    | _, _ => []) ++
  (match N.controllers e.at_, (N.step RefRun.use (RefCtlRun.use fresh) e).1.controllers e.at_ with
    | some r, some r' => r'.sent.drop r.sent.length
    | _, _ => [])

theorem emits_at {fresh : Int → Int → Option Bytes} {N : RefNet} {e : Incident} {ip dst : String} {b : Bytes} (h : N.Emits RefRun.use (RefCtlRun.use fresh) RefRun.sent RefCtlRun.sent e ip dst b) :
    ip = e.at_ ∧ ∃ s ∈ emitted fresh N e, s.bytes = b ∧ (s.dest.1 = dst ∨ (s.dest.1 = "224.0.23.0" ∧ dst ≠ e.at_)) := by
  obtain ⟨s, h1, h2, h3⟩ := h
  have hip : ip = e.at_ := by
    rcases h1 with ⟨r, r', k1, k2, k3⟩ | ⟨r, r', k1, k2, k3⟩
    · rcases step_dev fresh k1 e with j | ⟨u, rfl, -⟩
      · rw [j] at k2
        injection k2 with k2
        rw [k2, List.drop_length] at k3
        cases k3
      · rfl
    · rcases step_ctl fresh k1 e with j | ⟨u, rfl, -⟩
      · rw [j] at k2
        injection k2 with k2
        rw [k2, List.drop_length] at k3
        cases k3
      · rfl
  refine ⟨hip, s, ?_, h2, by rw [← hip]; exact h3⟩
  rw [hip] at h1
  unfold emitted
  rcases h1 with ⟨r, r', k1, k2, k3⟩ | ⟨r, r', k1, k2, k3⟩
  · apply List.mem_append_left
    rw [k1, k2]
    exact k3
  · apply List.mem_append_right
    rw [k1, k2]
    exact k3

def reachesD (dst ip : String) (b : Bytes) : Incident → Bool
  | .device d (.arrive x) => decide (d = dst) && decide (x.bytes = b) && decide (x.src.1 = ip)
  | _ => false

def reachesC (dst ip : String) (b : Bytes) : Incident → Bool
  | .controller d (.device (.arrive x)) => decide (d = dst) && decide (x.bytes = b) && decide (x.src.1 = ip)
  | _ => false

theorem reachesD_spec {dst ip : String} {b : Bytes} {es : List Incident} (h : es.any (reachesD dst ip b) = true) : ∃ x, Incident.device dst (.arrive x) ∈ es ∧ x.bytes = b ∧ x.src.1 = ip := by
  obtain ⟨e, he, h⟩ := List.any_eq_true.mp h
  unfold reachesD at h
  split at h
  · simp only [Bool.and_eq_true, decide_eq_true_eq] at h
    obtain ⟨⟨rfl, h2⟩, h3⟩ := h
    exact ⟨_, he, h2, h3⟩
  · cases h

theorem reachesC_spec {dst ip : String} {b : Bytes} {es : List Incident} (h : es.any (reachesC dst ip b) = true) :
    ∃ x, Incident.controller dst (.device (.arrive x)) ∈ es ∧ x.bytes = b ∧ x.src.1 = ip := by
  obtain ⟨e, he, h⟩ := List.any_eq_true.mp h
  unfold reachesC at h
  split at h
  · simp only [Bool.and_eq_true, decide_eq_true_eq] at h
    obtain ⟨⟨rfl, h2⟩, h3⟩ := h
    exact ⟨_, he, h2, h3⟩
  · cases h

def goesTo (s : Sent) (ip dst : String) : Bool := decide (s.dest.1 = dst) || (decide (s.dest.1 = "224.0.23.0") && decide (dst ≠ ip))

/-- Nothing is lost, in a network with devices and controllers at these addresses. -/
def losslessB (fresh : Int → Int → Option Bytes) (ds cs : List String) (N : RefNet) : List Incident → Bool
  | [] => true
  | e :: es =>
    ((emitted fresh N e).all fun s => (ds.all fun dst => !goesTo s e.at_ dst || es.any (reachesD dst e.at_ s.bytes)) && cs.all fun dst => !goesTo s e.at_ dst || es.any (reachesC dst e.at_ s.bytes)) &&
    losslessB fresh ds cs (N.step RefRun.use (RefCtlRun.use fresh) e).1 es

theorem losslessB_spec (fresh : Int → Int → Option Bytes) (ds cs : List String) (es : List Incident) : ∀ N : RefNet, (∀ ip, N.devices ip ≠ none → ip ∈ ds) → (∀ ip, N.controllers ip ≠ none → ip ∈ cs) →
    losslessB fresh ds cs N es = true → N.Lossless RefRun.use (RefCtlRun.use fresh) RefRun.sent RefCtlRun.sent es := by
  induction es with
  | nil => intro N _ _ _; trivial
  | cons e es ih =>
    intro N hd hk h
    unfold losslessB at h
    rw [Bool.and_eq_true] at h
    refine ⟨fun ip dst b hem => ?_, ih _ ?_ ?_ h.2⟩
    · obtain ⟨rfl, s, hs, rfl, hto⟩ := emits_at hem
      have h1 := List.all_eq_true.mp h.1 s hs
      rw [Bool.and_eq_true] at h1
      have hgo : goesTo s e.at_ dst = true := by
        unfold goesTo
        rcases hto with k | ⟨k1, k2⟩
        · rw [decide_eq_true k]; rfl
        · rw [decide_eq_true k1, decide_eq_true k2, Bool.or_eq_true]; exact .inr rfl
      refine ⟨fun hn => ?_, fun hn => ?_⟩
      · have := List.all_eq_true.mp h1.1 dst (hd dst hn)
        rw [hgo] at this
        exact reachesD_spec this
      · have := List.all_eq_true.mp h1.2 dst (hk dst hn)
        rw [hgo] at this
        exact reachesC_spec this
    · intro ip hn
      cases hN : N.devices ip with
      | some r => exact hd ip (by rw [hN]; simp)
      | none =>
        exfalso
        apply hn
        cases e with
        | device ip' u =>
          cases hN' : N.devices ip' with
          | none => simp only [Home.step, hN']; exact hN
          | some r =>
            simp only [Home.step, hN']
            rw [if_neg (by rintro rfl; rw [hN] at hN'; cases hN')]
            exact hN
        | controller ip' u => cases hN' : N.controllers ip' <;> simp only [Home.step, hN'] <;> exact hN
    · intro ip hn
      cases hN : N.controllers ip with
      | some r => exact hk ip (by rw [hN]; simp)
      | none =>
        exfalso
        apply hn
        cases e with
        | controller ip' u =>
          cases hN' : N.controllers ip' with
          | none => simp only [Home.step, hN']; exact hN
          | some r =>
            simp only [Home.step, hN']
            rw [if_neg (by rintro rfl; rw [hN] at hN'; cases hN')]
            exact hN
        | device ip' u => cases hN' : N.devices ip' <;> simp only [Home.step, hN'] <;> exact hN

theorem exHome_where : (∀ ip, (homeOf exHome).devices ip ≠ none → ip ∈ ["10.0.0.9"]) ∧ ∀ ip, (homeOf exHome).controllers ip ≠ none → ip ∈ ["10.0.0.2"] := by
  constructor
  · intro ip h
    have h : (if ip = "10.0.0.9" then some (⟨exRunning, fun _ => true⟩ : Running LocalNode) else none).map runOf ≠ none := h
    split at h
    · rename_i e; rw [e]; exact List.mem_singleton.mpr rfl
    · exact absurd rfl h
  · intro ip h
    have h : (if ip = "10.0.0.2" then some (⟨exSeeing, fun _ => true⟩ : Running Ctl) else none).map ctlRunOf ≠ none := h
    split at h
    · rename_i e; rw [e]; exact List.mem_singleton.mpr rfl
    · exact absurd rfl h

/-- The controller searches, and the answer of the light arrives, after an announcement of the light. -/
def exTooLate : List Incident := exNews ++ [
  .controller "10.0.0.2" .search,
  .device "10.0.0.9" (.arrive ⟨0, [0x10, 0x81, 0, 2, 0x0E, 0xF0, 1, 0x0E, 0xF0, 1, 0x62, 1, 0xD6, 0], ("10.0.0.2", 3610)⟩),
  .controller "10.0.0.2" (.device (.arrive ⟨0, [0x10, 0x81, 0, 2, 0x0E, 0xF0, 1, 0x0E, 0xF0, 1, 0x72, 1, 0xD6, 4, 1, 2, 0x91, 1], ("10.0.0.9", 3610)⟩))]

theorem exHome_lossless (es : List Incident) (hf : ∀ e ∈ es, e.Fair) (α : Type) [DecidableEq α] (f : RefController → α) (v : α)
    (hall : (mayB (freshData List.dedup) (homeOf exHome) es && losslessB (freshData List.dedup) ["10.0.0.9"] ["10.0.0.2"] (homeOf exHome) es &&
      decide ((((homeOf exHome).run RefRun.use (RefCtlRun.use (freshData List.dedup)) es).1.controllers "10.0.0.2").map (fun R => f R.ctl) = some v)) = true) :
    exHome.May (nodeUse exEnv okNet) (ctlUse List.dedup exEnv calmEnv okNet) sentBy sentByCtl es ∧
    exHome.Lossless (nodeUse exEnv okNet) (ctlUse List.dedup exEnv calmEnv okNet) sentBy sentByCtl es ∧
      ((exHome.run (nodeUse exEnv okNet) (ctlUse List.dedup exEnv calmEnv okNet) es).1.controllers "10.0.0.2").map (fun r => f (controllerOf r.st)) = some v := by
  have hord : ValidOrder List.dedup := fun l => ⟨l.nodup_dedup, fun _ => List.mem_dedup⟩
  obtain ⟨h1, -, h3⟩ := C150_network hord exEnv exEnv_stable calmEnv calmEnv_calm okNet (fun _ _ _ _ => rfl) exHome exHome_built es hf
  rw [Bool.and_eq_true, Bool.and_eq_true, decide_eq_true_eq] at hall
  refine ⟨h3.mpr (mayB_spec _ _ _ hall.1.1), ?_, ?_⟩
  · exact (home_lossless hord exEnv_stable calmEnv_calm okNet (fun _ _ _ _ => rfl) es exHome (built_fit hord exHome_built) hf).mpr (losslessB_spec _ _ _ _ _ exHome_where.1 exHome_where.2 hall.1.2)
  · have h2 := hall.2
    rw [← h1] at h2
    generalize (exHome.run (nodeUse exEnv okNet) (ctlUse List.dedup exEnv calmEnv okNet) es).1 = M at h2
    have h2 : ((M.controllers "10.0.0.2").map ctlRunOf).map (fun R => f R.ctl) = some v := h2
    rw [Option.map_map] at h2
    exact h2

/-- C157 is false: in a network that loses nothing a controller reads a property of a light it has not found; the light answers, the answer arrives, and the controller does not take it. -/
theorem C157_unheard_false :
    exHome.May (nodeUse exEnv okNet) (ctlUse List.dedup exEnv calmEnv okNet) sentBy sentByCtl exStranger ∧
    exHome.Lossless (nodeUse exEnv okNet) (ctlUse List.dedup exEnv calmEnv okNet) sentBy sentByCtl exStranger ∧
    ((exHome.run (nodeUse exEnv okNet) (ctlUse List.dedup exEnv calmEnv okNet) exStranger).1.controllers "10.0.0.2").map
      (fun r => ((controllerOf r.st).asked, (controllerOf r.st).answer)) = some (some 2, none) := by
  refine exHome_lossless exStranger ?_ _ (fun C => (C.asked, C.answer)) (some 2, none) (by decide +kernel)
  intro e he
  simp only [exStranger, List.mem_cons, List.not_mem_nil, or_false] at he
  rcases he with rfl | rfl | rfl <;> trivial

/-- C158 is false: in a network that loses nothing a controller that heard an announcement before it searches finds nobody, although the answer of the light arrives. -/
theorem C158_not_found_false :
    exHome.May (nodeUse exEnv okNet) (ctlUse List.dedup exEnv calmEnv okNet) sentBy sentByCtl exTooLate ∧
    exHome.Lossless (nodeUse exEnv okNet) (ctlUse List.dedup exEnv calmEnv okNet) sentBy sentByCtl exTooLate ∧
    ((exHome.run (nodeUse exEnv okNet) (ctlUse List.dedup exEnv calmEnv okNet) exTooLate).1.controllers "10.0.0.2").map (fun r => (controllerOf r.st).known) = some [] := by
  refine exHome_lossless exTooLate ?_ _ RefController.known [] (by decide +kernel)
  intro e he
  simp only [exTooLate, exNews, List.cons_append, List.nil_append, List.mem_cons, List.not_mem_nil, or_false] at he
  rcases he with rfl | rfl | rfl | rfl | rfl <;> trivial

theorem exHome_homely : Homely List.dedup exEnv exHome := by
  refine ⟨exHome_built, ⟨?_, ?_⟩, ⟨?_, ?_⟩, ?_, exHome_searches⟩
  · intro ip r h1
    have h1 : (if ip = "10.0.0.9" then some (⟨exRunning, fun _ => true⟩ : Running LocalNode) else none) = some r := h1
    split at h1
    · injection h1 with h1; rw [← h1]; exact exRunning_own.1
    · cases h1
  · intro ip r h1
    obtain ⟨-, rfl⟩ := exHome_alone h1
    show OwnProfile exSeeing.ln
    have h : ((Dict.get? exSeeing.ln.node.objects 0x0EF001).map fun | .profile => true | _ => false) = some true := by decide +kernel
    unfold OwnProfile
    obtain ⟨s, h1, h2⟩ := Option.map_eq_some_iff.mp h
    rw [h1]
    cases s with
    | profile => rfl
    | user o => cases h2
  · intro ip R hR i
    obtain ⟨r, hr, rfl⟩ := home_devices hR
    have hr : (if ip = "10.0.0.9" then some (⟨exRunning, fun _ => true⟩ : Running LocalNode) else none) = some r := hr
    split at hr
    · injection hr with hr; rw [← hr]; rfl
    · cases hr
  · intro ip R hR i
    obtain ⟨r, hr, rfl⟩ := home_controllers hR
    obtain ⟨-, rfl⟩ := exHome_alone hr
    rfl
  · constructor
    · show (if "224.0.23.0" = "10.0.0.9" then some (⟨exRunning, fun _ => true⟩ : Running LocalNode) else none) = none
      rw [if_neg (by decide)]
    · show (if "224.0.23.0" = "10.0.0.2" then some (⟨exSeeing, fun _ => true⟩ : Running Ctl) else none) = none
      rw [if_neg (by decide)]

/-- The afternoon, and the answer arrives. -/
def exNightfall : List Incident := exAfternoon ++
  [.controller "10.0.0.2" (.device (.arrive ⟨0, [0x10, 0x81, 0, 3, 2, 0x91, 1, 0x0E, 0xF0, 1, 0x72, 1, 0x80, 1, 0x30], ("10.0.0.9", 3610)⟩))]

/-- The hypotheses of C157 and C158: a search, a discovery, a question and its answer, with nothing lost. -/
example : Homely List.dedup exEnv exHome ∧ JustStarted exHome ∧ DeviceOnly exHome "10.0.0.9" ∧ (∀ e ∈ exNightfall, e.Fair) ∧ RefNet.Politely (freshData List.dedup) (homeOf exHome) exNightfall ∧
    exNightfall = .controller "10.0.0.2" .search :: exNightfall.drop 1 ∧
    exNightfall = exNightfall.take 3 ++ .controller "10.0.0.2" (.post { deoj := 0x029101, esv := 0x62, props := [{ code := 0x80 }] } (.str "10.0.0.9")) :: exNightfall.drop 4 ∧
    (∀ e ∈ exNightfall.drop 4, ¬ e.asksAt "10.0.0.2") ∧
    exHome.May (nodeUse exEnv okNet) (ctlUse List.dedup exEnv calmEnv okNet) sentBy sentByCtl exNightfall ∧
    exHome.Lossless (nodeUse exEnv okNet) (ctlUse List.dedup exEnv calmEnv okNet) sentBy sentByCtl exNightfall ∧
    ((exHome.run (nodeUse exEnv okNet) (ctlUse List.dedup exEnv calmEnv okNet) exNightfall).1.controllers "10.0.0.2").map
      (fun r => ((controllerOf r.st).asked, (controllerOf r.st).answer.map Msg.tid, (controllerOf r.st).known)) = some (some 3, some 3, ["10.0.0.9"]) := by
  have hfair : ∀ e ∈ exNightfall, e.Fair := by
    intro e he
    simp only [exNightfall, exAfternoon, List.cons_append, List.nil_append, List.mem_cons, List.not_mem_nil, or_false] at he
    rcases he with rfl | rfl | rfl | rfl | rfl | rfl <;> trivial
  refine ⟨exHome_homely, exHome_started, ⟨?_, ?_⟩, hfair, ?_, rfl, rfl, ?_, exHome_lossless exNightfall hfair _ (fun C => (C.asked, C.answer.map Msg.tid, C.known)) _ (by decide +kernel)⟩
  · show (if "10.0.0.9" = "10.0.0.2" then some (⟨exSeeing, fun _ => true⟩ : Running Ctl) else none) = none
    rw [if_neg (by decide)]
  · intro r hr
    have hr : (if "10.0.0.9" = "10.0.0.9" then some (⟨exRunning, fun _ => true⟩ : Running LocalNode) else none) = some r := hr
    rw [if_pos rfl] at hr
    injection hr with hr
    rw [← hr]
    show exRunning.controller = false
    decide +kernel
  · have hk : ((((homeOf exHome).run RefRun.use (RefCtlRun.use (freshData List.dedup)) (exNightfall.take 3)).1.controllers "10.0.0.2").map fun R => (R.ctl.node "10.0.0.9").isSome) = some true := by
      decide +kernel
    refine ⟨trivial, trivial, trivial, ?_, trivial, trivial, trivial⟩
    intro a ha
    injection ha with ha
    subst ha
    refine ⟨⟨.inr (.inr rfl), by decide⟩, by decide, by decide, fun R hR => ?_⟩
    have hR : ((homeOf exHome).run RefRun.use (RefCtlRun.use (freshData List.dedup)) (exNightfall.take 3)).1.controllers "10.0.0.2" = some R := hR
    rw [hR] at hk
    have hk : some ((R.ctl.node "10.0.0.9").isSome) = some true := hk
    injection hk with hk
    intro e
    have e : R.ctl.node "10.0.0.9" = none := e
    rw [e] at hk
    cases hk
  · intro e he
    simp only [exNightfall, exAfternoon, List.cons_append, List.nil_append, List.drop_succ_cons, List.drop_zero, List.mem_cons, List.not_mem_nil, or_false] at he
    rcases he with rfl | rfl <;> exact id

end Uecho
