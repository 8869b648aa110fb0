/- Lemmas on devices and controllers that are used as well as written to, and on networks of them. -/
import Verif.Spec.Whole
import Verif.Lemmas.Picture
import Verif.Lemmas.Several
import Verif.Lemmas.Storm
import Verif.Lemmas.Light

namespace Uecho
open Spec

/-- What a node has to be like for its machine to say what it does. -/
structure Fit (ord : List Int → List Int) (env : Env) (n : LocalNode) : Prop where
  reach : Reachable ord n
  plain : PlainNode env n
  can : CanSend n.mgr

theorem assign_exact (n : LocalNode) (m : Msg) :
    n.mgr.assignTid (outgoing n m) = ({ n.mgr with tid := if m.tid = 0 then RefDevice.chosenTid n.mgr.tid else n.mgr.tid }, (deviceOf n).stamped m) := by
  have htid : (outgoing n m).tid = m.tid := by unfold outgoing; split <;> rfl
  have hst : (deviceOf n).stamped m = { outgoing n m with tid := if m.tid = 0 then RefDevice.chosenTid n.mgr.tid else m.tid } := by
    unfold RefDevice.stamped outgoing
    show ({ m with seoj := if n.controller = true then _ else _, tid := _ } : Msg) = _
    by_cases hn : n.controller = true
    · simp only [if_pos hn]; rfl
    · simp only [if_neg hn]; rfl
  rw [hst]
  unfold Manager.assignTid Manager.nextTid RefDevice.chosenTid
  rw [htid]
  by_cases h0 : m.tid = 0
  · simp only [if_pos h0]
    by_cases h1 : (65535 : Int) < n.mgr.tid + 1
    · simp only [if_pos h1]
    · simp only [if_neg h1]
  · simp only [if_neg h0]
    rw [← htid]

theorem stamped_encodable (D : RefDevice) (m : Msg) : Encodable (D.stamped m) ↔ Encodable m := Iff.rfl

theorem sendAll_every (net : Net) (hs : NetWorks net) (a : Addr) (b : Bytes) (ss : List Server) : ∀ k,
    (Manager.sendAll net false a b ss k).1 = ss.map (fun s => (⟨s.ifaddr, a, b⟩, (b.length : Int))) ∧ (Manager.sendAll net false a b ss k).2.2 = .ok false := by
  induction ss with
  | nil => intro k; exact ⟨rfl, rfl⟩
  | cons s ss ih =>
    intro k
    unfold Manager.sendAll
    rw [hs]
    simp only []
    rw [if_neg (by simp)]
    exact ⟨by simp only [(ih (k + 1)).1, List.map_cons], (ih (k + 1)).2⟩

theorem announce_exact (net : Net) (hs : NetWorks net) (n : LocalNode) (hw : CanSend n.mgr) (m : Msg) :
    let r := n.announceMessage net m
    let q := (deviceOf n).announce m
    deviceOf r.1 = q.1 ∧ given r.2.2 = q.2.2 ∧ r.1.mgr.log = n.mgr.log ++ q.2.1.map fun s => (s, (s.bytes.length : Int)) := by
  intro r q
  have hr : r = _ := announceMessage_eq net n m
  have hm : n.mgr.announce net (outgoing n m) = Manager.announceLoop net n.mgr.servers { n.mgr with tid := if m.tid = 0 then RefDevice.chosenTid n.mgr.tid else n.mgr.tid }
      ((deviceOf n).stamped m) := by
    unfold Manager.announce
    rw [assign_exact]
  have hq : q = (deviceOf n).announce m := rfl
  unfold RefDevice.announce at hq
  by_cases he : Encodable m
  · rw [if_pos he] at hq
    obtain ⟨u, -, -, h⟩ := Manager.announceLoop_eq net n.mgr.servers { n.mgr with tid := if m.tid = 0 then RefDevice.chosenTid n.mgr.tid else n.mgr.tid }
      ((deviceOf n).stamped m) he
    rw [hm, h] at hr
    rw [hr, hq]
    obtain ⟨k1, k2⟩ := sendAll_every net hs (MULTICAST_ADDRESS, SERVER_PORT) (encode ((deviceOf n).stamped m)) (working n.mgr.servers) n.mgr.calls
    refine ⟨rfl, ?_, ?_⟩
    · show given (Manager.mapTrue (Manager.sendAll _ _ _ _ _ n.mgr.calls).2.2) = _
      rw [k2]; rfl
    · show n.mgr.log ++ (Manager.sendAll _ _ _ _ _ n.mgr.calls).1 = _
      rw [k1]
      show _ = n.mgr.log ++ (((working n.mgr.servers).map Server.ifaddr).map _).map _
      rw [List.map_map, List.map_map]
      rfl
  · rw [if_neg he] at hq
    have h := (Manager.announceLoop_bad net n.mgr.servers { n.mgr with tid := if m.tid = 0 then RefDevice.chosenTid n.mgr.tid else n.mgr.tid }
      ((deviceOf n).stamped m) he).2 hw
    rw [hm, h] at hr
    rw [hr, hq]
    exact ⟨rfl, rfl, by simp⟩

theorem send_exact (net : Net) (hs : NetWorks net) (n : LocalNode) (hw : CanSend n.mgr) (m : Msg) (a : Option Addr) :
    let r := n.sendMessage net m a
    let q := (deviceOf n).send m a
    deviceOf r.1 = q.1 ∧ given r.2.2 = q.2.2 ∧ r.1.mgr.log = n.mgr.log ++ (q.2.1.map fun s => (s, (s.bytes.length : Int))) ∧ r.2.1.tid = ((deviceOf n).stamped m).tid := by
  intro r q
  have hr : r = _ := sendMessage_eq net n m a
  have hm : n.mgr.send net (outgoing n m) a = Manager.sendLoop net a n.mgr.servers { n.mgr with tid := if m.tid = 0 then RefDevice.chosenTid n.mgr.tid else n.mgr.tid }
      ((deviceOf n).stamped m) := by
    unfold Manager.send
    rw [assign_exact]
  have hq : q = (deviceOf n).send m a := rfl
  cases a with
  | none =>
    rw [hm, Manager.sendLoop_none] at hr
    rw [hr, hq]
    exact ⟨rfl, rfl, by simp [RefDevice.send], rfl⟩
  | some a =>
    unfold RefDevice.send at hq
    by_cases he : Encodable m
    · simp only [if_pos he] at hq
      obtain ⟨u, -, -, -, h⟩ := Manager.sendLoop_eq net a n.mgr.servers { n.mgr with tid := if m.tid = 0 then RefDevice.chosenTid n.mgr.tid else n.mgr.tid }
        ((deviceOf n).stamped m) he
      rw [hm, h] at hr
      rw [hr, hq]
      have hpos : 0 < ((encode ((deviceOf n).stamped m)).length : Int) := by
        simp [encode, encHeader]
        omega
      cases hc : working n.mgr.servers with
      | nil => exact absurd hc hw
      | cons s ss =>
        have hd : (deviceOf n).ifs.take 1 = [s.ifaddr] := by
          show ((working n.mgr.servers).map Server.ifaddr).take 1 = _
          rw [hc]; rfl
        have hall : Manager.sendAll net true a (encode ((deviceOf n).stamped m)) (s :: ss) n.mgr.calls =
            ([(⟨s.ifaddr, a, encode ((deviceOf n).stamped m)⟩, ((encode ((deviceOf n).stamped m)).length : Int))], n.mgr.calls + 1, .ok true) := by
          unfold Manager.sendAll
          rw [hs]
          exact if_pos ⟨rfl, hpos⟩
        rw [hd]
        rw [hall]
        exact ⟨rfl, rfl, rfl, rfl⟩
    · simp only [if_neg he] at hq
      have h := (Manager.sendLoop_bad net a n.mgr.servers { n.mgr with tid := if m.tid = 0 then RefDevice.chosenTid n.mgr.tid else n.mgr.tid }
        ((deviceOf n).stamped m) he).2 hw
      rw [hm, h] at hr
      rw [hr, hq]
      exact ⟨rfl, rfl, by simp, rfl⟩

theorem Fit.op {ord : List Int → List Int} {n : LocalNode} (h : Reachable ord n) (op : NodeOp) (ha : op.Allowed) : Reachable ord (op.run ord n) := by
  obtain ⟨rnd, ctl, ops, h1, rfl⟩ := h
  refine ⟨rnd, ctl, ops ++ [op], ?_, by simp [runOps, List.foldl_append]⟩
  intro x hx
  rcases List.mem_append.mp hx with hx | hx
  · exact h1 x hx
  · rw [List.mem_singleton.mp hx]; exact ha

theorem Fit.announce {ord : List Int → List Int} {env : Env} {n : LocalNode} (h : Fit ord env n) (net : Net) (m : Msg) : Fit ord env (n.announceMessage net m).1 := by
  refine ⟨Fit.op h.reach (.announce net m) trivial, h.plain, ?_⟩
  unfold CanSend
  rw [announceMessage_eq]
  show working (n.mgr.announce net (outgoing n m)).1.servers ≠ []
  rw [(send_servers net n.mgr (outgoing n m) none).2]
  exact h.can

theorem Fit.send {ord : List Int → List Int} {env : Env} {n : LocalNode} (h : Fit ord env n) (net : Net) (m : Msg) (a : Option Addr) : Fit ord env (n.sendMessage net m a).1 := by
  refine ⟨Fit.op h.reach (.send net m a) trivial, h.plain, ?_⟩
  unfold CanSend
  rw [sendMessage_eq]
  show working (n.mgr.send net (outgoing n m) a).1.servers ≠ []
  rw [(send_servers net n.mgr (outgoing n m) a).1]
  exact h.can

theorem store_object {env : Env} {o : Obj} (h : Plain env o) (code : Int) (data : Bytes) (hd : data.length ≤ 255) :
    Plain env (o.setPropertyData code data).1 ∧
    thingOf (o.setPropertyData code data).1 =
      { thingOf o with props := fun c => if c = code then ((thingOf o).props c).map fun e => { e with data := data } else (thingOf o).props c } := by
  obtain ⟨h1, h2, h3, h4⟩ := h
  have hh : (o.setPropertyData code data).1.handler = o.handler := by unfold Obj.setPropertyData; split <;> rfl
  have ho : (o.setPropertyData code data).1.observers = o.observers := by unfold Obj.setPropertyData; split <;> rfl
  refine ⟨⟨?_, ?_, ?_, ?_⟩, ?_⟩
  · unfold Obj.setPropertyData
    split
    · exact h1
    · exact wf_storeData o code data h1
  · rw [hh]; exact h2
  · intro m x hx
    rw [ho] at hx
    exact h3 m x hx
  · intro c p hp
    rw [set_lookup] at hp
    obtain ⟨p0, hp0, rfl⟩ := Option.map_eq_some_iff.mp hp
    split
    · exact hd
    · exact h4 c p0 hp0
  · unfold thingOf
    simp only [Thing.mk.injEq]
    refine ⟨by rw [hh], ?_⟩
    funext c
    rw [set_lookup]
    by_cases hc : c = code
    · simp only [if_pos hc, Option.map_map]
      rfl
    · simp only [if_neg hc, Option.map_id']

theorem store_exact {ord : List Int → List Int} (hord : ValidOrder ord) {env : Env} {n : LocalNode} (h : Fit ord env n) (obj code : Int) (data : Bytes) (ho : obj ≠ 0x0EF001)
    (hd : data.length ≤ 255) :
    let n' := n.update obj fun o => (o.setPropertyData code data).1
    Fit ord env n' ∧ deviceOf n' = (deviceOf n).store obj code data ∧ n'.mgr = n.mgr := by
  intro n'
  have hget : ∀ k, n'.getObject (.int k) = _ := fun k => update_get n obj (fun o => (o.setPropertyData code data).1) k fun s hs => user_slot hord h.reach ho hs
  have hmgr : n'.mgr = n.mgr := by
    show (LocalNode.update n obj _).mgr = _
    unfold LocalNode.update
    split <;> rfl
  have hctl : n'.controller = n.controller := by
    show (LocalNode.update n obj _).controller = _
    unfold LocalNode.update
    split <;> rfl
  refine ⟨⟨Fit.op h.reach (.update obj _) fun o => set_code_same o code data, ?_, by rw [hmgr]; exact h.can⟩, ?_, hmgr⟩
  · intro k o hk
    rw [hget] at hk
    split at hk
    · obtain ⟨o0, h0, rfl⟩ := Option.map_eq_some_iff.mp hk
      exact (store_object (h.plain _ _ h0) code data hd).1
    · exact h.plain k o hk
  · unfold RefDevice.store
    cases hx : n.getObject (.int obj) with
    | none =>
      have : (deviceOf n).things obj = none := by show (n.getObject (.int obj)).map thingOf = none; rw [hx]; rfl
      rw [this]
      refine device_ext (fun c => ?_) ?_ ?_ hctl
      · show (n'.getObject (.int c)).map thingOf = (n.getObject (.int c)).map thingOf
        rw [hget]
        split
        · rename_i e; rw [e, hx]; rfl
        · rfl
      · show (working n'.mgr.servers).map _ = _
        rw [hmgr]; rfl
      · show n'.mgr.tid = _
        rw [hmgr]; rfl
    | some o =>
      have : (deviceOf n).things obj = some (thingOf o) := by show (n.getObject (.int obj)).map thingOf = _; rw [hx]; rfl
      rw [this]
      refine device_ext (fun c => ?_) ?_ ?_ hctl
      · show (n'.getObject (.int c)).map thingOf = if c = obj then some _ else (n.getObject (.int c)).map thingOf
        rw [hget]
        split
        · rw [hx]
          show some (thingOf (o.setPropertyData code data).1) = _
          rw [(store_object (h.plain _ _ hx) code data hd).2]
        · rfl
      · show (working n'.mgr.servers).map _ = _
        rw [hmgr]; rfl
      · show n'.mgr.tid = _
        rw [hmgr]; rfl

theorem map_sent (old : List (Sent × Int)) (new : List Sent) :
    (old ++ new.map fun s => (s, (s.bytes.length : Int))).map Prod.fst = old.map Prod.fst ++ new := by
  rw [List.map_append, List.map_map]
  congr 1
  conv_rhs => rw [← List.map_id new]
  rfl

/-- Whatever happens to a node: its machine does the same, and it stays fit. -/
theorem node_use {ord : List Int → List Int} (hord : ValidOrder ord) {env : Env} (hc : CodeStable env) (net : Net) (hs : NetWorks net) (r : Running LocalNode) (h : Fit ord env r.st)
    (u : Use) (hu : u.Fair) :
    Fit ord env (nodeUse env net r u).1.st ∧ runOf (nodeUse env net r u).1 = ((runOf r).use u).1 ∧ (nodeUse env net r u).2 = ((runOf r).use u).2 := by
  cases u with
  | arrive x =>
    show Fit ord env (r.arrive _ x).st ∧ runOf (r.arrive _ x) = (runOf r).arrive x ∧ _
    by_cases ha : r.alive x.thread = true
    · obtain ⟨k1, k2, k3⟩ := device_datagram hord h.reach h.plain net hs h.can x.bytes x.src
      obtain ⟨-, j2, j3, j4, -⟩ := plain_datagram hord h.reach hc h.plain net hs h.can x.bytes x.src
      have e : r.arrive (LocalNode.deliver env net) x = ⟨(recvOne (LocalNode.deliver env net) r.st x.bytes x.src).1,
          fun i => if i = x.thread then (recvOne (LocalNode.deliver env net) r.st x.bytes x.src).2 else r.alive i⟩ := by
        unfold Running.arrive
        rw [if_pos ha]
      rw [e]
      refine ⟨⟨j2, j3, j4⟩, ?_, rfl⟩
      unfold RefRun.arrive
      rw [if_pos (show (runOf r).alive x.thread = true from ha)]
      show (⟨deviceOf _, _, List.map Prod.fst _⟩ : RefRun) = ⟨_, fun i => if i = x.thread then ((deviceOf r.st).actual x.bytes x.src).2.2 else r.alive i, _⟩
      rw [k1, k2, k3, map_sent]
      rfl
    · have e : r.arrive (LocalNode.deliver env net) x = r := by unfold Running.arrive; rw [if_neg ha]
      rw [e]
      refine ⟨h, ?_, rfl⟩
      unfold RefRun.arrive
      rw [if_neg (show ¬ (runOf r).alive x.thread = true from ha)]
  | announce m =>
    obtain ⟨k1, k2, k3⟩ := announce_exact net hs r.st h.can m
    refine ⟨h.announce net m, ?_, k2⟩
    show (⟨deviceOf (r.st.announceMessage net m).1, r.alive, List.map Prod.fst (r.st.announceMessage net m).1.mgr.log⟩ : RefRun) = _
    rw [k1, k3, map_sent]
    rfl
  | send m a =>
    obtain ⟨k1, k2, k3, -⟩ := send_exact net hs r.st h.can m a
    refine ⟨h.send net m a, ?_, k2⟩
    show (⟨deviceOf (r.st.sendMessage net m a).1, r.alive, List.map Prod.fst (r.st.sendMessage net m a).1.mgr.log⟩ : RefRun) = _
    rw [k1, k3, map_sent]
    rfl
  | store obj code data =>
    obtain ⟨k1, k2, k3⟩ := store_exact hord h obj code data hu.1 hu.2
    refine ⟨k1, ?_, rfl⟩
    show (⟨deviceOf (r.st.update obj fun o => (o.setPropertyData code data).1), r.alive, List.map Prod.fst (r.st.update obj fun o => (o.setPropertyData code data).1).mgr.log⟩ : RefRun) = _
    rw [k2, k3]
    rfl

/-- What a controller has to be like. -/
structure CtlFit (ord : List Int → List Int) (env : Env) (c : Ctl) : Prop where
  found : FoundInv c
  fit : Fit ord env c.ln

theorem withLn (c : Ctl) (n : LocalNode) : controllerOf { c with ln := n } = { controllerOf c with dev := deviceOf n } := rfl

theorem whereTo_eq (d : PyDest) : Ctl.toAddr d = whereTo d := by
  cases d with
  | remote r =>
    show some (r.node.ip, r.node.port) = _
    unfold Node.ip Node.port whereTo
    cases h : r.node.address with
    | none => simp [h]
    | some a => simp [h]; rfl
  | str s => rfl
  | pair a => rfl
  | other => rfl

theorem erase_without (l : Nat) (ls : List Nat) : ls.erase l = without l ls := by
  induction ls with
  | nil => rfl
  | cons x xs ih =>
    rw [List.erase_cons]
    unfold without
    by_cases h : x = l
    · simp [h]
    · simp [h, ih]

theorem ctl_use {ord : List Int → List Int} (hord : ValidOrder ord) {env : Env} (hc : CodeStable env) {cenv : CEnv} (hcalm : Calm cenv) (net : Net) (hs : NetWorks net)
    (r : Running Ctl) (h : CtlFit ord env r.st) (u : CtlUse) (hu : u.Fair) :
    CtlFit ord env (ctlUse ord env cenv net r u).1.st ∧ ctlRunOf (ctlUse ord env cenv net r u).1 = ((ctlRunOf r).use (freshData ord) u).1 ∧
      (ctlUse ord env cenv net r u).2 = ((ctlRunOf r).use (freshData ord) u).2 := by
  have hfound : ∀ n l p, FoundInv { r.st with ln := n, last := l, listeners := p } := fun _ _ _ => ⟨h.found.keys, h.found.nodes⟩
  have key : ∀ (n : LocalNode) (q : RefDevice × List Sent × Given), deviceOf n = q.1 → n.mgr.log = r.st.ln.mgr.log ++ (q.2.1.map fun s => (s, (s.bytes.length : Int))) →
      ctlRunOf { r with st := { r.st with ln := n } } = ((ctlRunOf r).onDevice q).1 := by
    intro n q h1 h2
    show (⟨controllerOf _, _, List.map Prod.fst _⟩ : RefCtlRun) = _
    rw [withLn, h1, h2, map_sent]
    rfl
  have hsend : ∀ m a, CtlFit ord env { r.st with ln := (r.st.ln.sendMessage net m a).1 } ∧
      ctlRunOf { r with st := { r.st with ln := (r.st.ln.sendMessage net m a).1 } } = ((ctlRunOf r).onDevice ((ctlRunOf r).ctl.dev.send m a)).1 ∧
      given (r.st.ln.sendMessage net m a).2.2 = ((ctlRunOf r).ctl.dev.send m a).2.2 := by
    intro m a
    obtain ⟨k1, k2, k3, -⟩ := send_exact net hs r.st.ln h.fit.can m a
    exact ⟨⟨hfound _ _ _, h.fit.send net m a⟩, key _ _ k1 k3, k2⟩
  have hann : ∀ m, CtlFit ord env { r.st with ln := (r.st.ln.announceMessage net m).1 } ∧
      ctlRunOf { r with st := { r.st with ln := (r.st.ln.announceMessage net m).1 } } = ((ctlRunOf r).onDevice ((ctlRunOf r).ctl.dev.announce m)).1 ∧
      given (r.st.ln.announceMessage net m).2.2 = ((ctlRunOf r).ctl.dev.announce m).2.2 := by
    intro m
    obtain ⟨k1, k2, k3⟩ := announce_exact net hs r.st.ln h.fit.can m
    exact ⟨⟨hfound _ _ _, h.fit.announce net m⟩, key _ _ k1 k3, k2⟩
  cases u with
  | device u =>
    cases u with
    | arrive x =>
      show CtlFit ord env (r.arrive _ x).st ∧ ctlRunOf (r.arrive _ x) = (ctlRunOf r).arrive _ x ∧ _
      by_cases ha : r.alive x.thread = true
      · obtain ⟨k1, k2, k3⟩ := controller_datagram hord h.found h.fit.reach h.fit.plain hcalm net hs h.fit.can x.bytes x.src
        obtain ⟨j1, j2, j3, j4⟩ := controller_stays hord h.found h.fit.reach hc h.fit.plain hcalm net hs h.fit.can x.bytes x.src
        have e : r.arrive (Ctl.deliver ord env cenv net) x = ⟨(recvOne (Ctl.deliver ord env cenv net) r.st x.bytes x.src).1,
            fun i => if i = x.thread then (recvOne (Ctl.deliver ord env cenv net) r.st x.bytes x.src).2 else r.alive i⟩ := by
          unfold Running.arrive
          rw [if_pos ha]
        rw [e]
        refine ⟨⟨j1, j2, j3, j4⟩, ?_, rfl⟩
        unfold RefCtlRun.arrive
        rw [if_pos (show (ctlRunOf r).alive x.thread = true from ha)]
        show (⟨controllerOf _, _, List.map Prod.fst _⟩ : RefCtlRun) =
          ⟨_, fun i => if i = x.thread then ((controllerOf r.st).actual (freshData ord) x.bytes x.src).2.2 else r.alive i, _⟩
        rw [k1, k2, k3, map_sent]
        rfl
      · have e : r.arrive (Ctl.deliver ord env cenv net) x = r := by unfold Running.arrive; rw [if_neg ha]
        rw [e]
        refine ⟨h, ?_, rfl⟩
        unfold RefCtlRun.arrive
        rw [if_neg (show ¬ (ctlRunOf r).alive x.thread = true from ha)]
    | announce m => exact hann m
    | send m a => exact hsend m a
    | store obj code data =>
      obtain ⟨k1, k2, k3⟩ := store_exact hord h.fit obj code data hu.1 hu.2
      refine ⟨⟨hfound _ _ _, k1⟩, ?_, rfl⟩
      show (⟨{ controllerOf r.st with dev := deviceOf (r.st.ln.update obj fun o => (o.setPropertyData code data).1) }, r.alive,
        List.map Prod.fst (r.st.ln.update obj fun o => (o.setPropertyData code data).1).mgr.log⟩ : RefCtlRun) = _
      rw [k2, k3]
      rfl
  | sendTo m d =>
    have := hsend m (whereTo d)
    rw [← whereTo_eq] at this
    show _ ∧ _ = ((ctlRunOf r).onDevice ((ctlRunOf r).ctl.dev.send m (whereTo d))).1 ∧ _ = ((ctlRunOf r).ctl.dev.send m (whereTo d)).2.2
    rw [← whereTo_eq]
    exact this
  | post m d =>
    obtain ⟨k1, k2, k3⟩ := hsend m (whereTo d)
    obtain ⟨-, -, -, k4⟩ := send_exact net hs r.st.ln h.fit.can m (whereTo d)
    have e : r.st.postBegin net m d = ({ r.st with ln := (r.st.ln.sendMessage net m (whereTo d)).1, last := { request := some (r.st.ln.sendMessage net m (whereTo d)).2.1 } },
        (r.st.ln.sendMessage net m (whereTo d)).2.2) := by
      rw [← whereTo_eq]; rfl
    show CtlFit ord env (r.st.postBegin net m d).1 ∧ ctlRunOf { r with st := (r.st.postBegin net m d).1 } = _ ∧ given (r.st.postBegin net m d).2 = _
    rw [e]
    refine ⟨⟨hfound _ _ _, k1.fit⟩, ?_, k3⟩
    show (⟨{ controllerOf { r.st with ln := (r.st.ln.sendMessage net m (whereTo d)).1 } with asked := some (r.st.ln.sendMessage net m (whereTo d)).2.1.tid, answer := none }, _, _⟩ : RefCtlRun) = _
    rw [k4]
    show ({ ctlRunOf { r with st := { r.st with ln := (r.st.ln.sendMessage net m (whereTo d)).1 } } with
      ctl := { (ctlRunOf { r with st := { r.st with ln := (r.st.ln.sendMessage net m (whereTo d)).1 } }).ctl with asked := _, answer := none } } : RefCtlRun) = _
    rw [k2]
    rfl
  | search => exact hann SearchMessage
  | listen l => exact ⟨⟨hfound _ _ _, h.fit⟩, rfl, rfl⟩
  | unlisten l =>
    show CtlFit ord env (r.st.removeListener l).1 ∧ ctlRunOf { r with st := (r.st.removeListener l).1 } = _ ∧ _ = ((ctlRunOf r).use (freshData ord) (.unlisten l)).2
    unfold RefCtlRun.use ctlUse Ctl.removeListener
    by_cases hl : l ∈ r.st.listeners
    · have hl' : l ∈ (ctlRunOf r).ctl.listeners := hl
      simp only [if_pos hl, if_pos hl']
      refine ⟨⟨hfound _ _ _, h.fit⟩, ?_, trivial⟩
      rw [erase_without]
      rfl
    · have hl' : l ∉ (ctlRunOf r).ctl.listeners := hl
      simp only [if_neg hl, if_neg hl']
      exact ⟨h, trivial, trivial⟩

/-! ### Networks -/

/-- All nodes and controllers are as they have to be. -/
structure NetFit (ord : List Int → List Int) (env : Env) (N : RealNet) : Prop where
  dev : ∀ ip r, N.devices ip = some r → Fit ord env r.st
  ctl : ∀ ip r, N.controllers ip = some r → CtlFit ord env r.st

theorem home_step {ord : List Int → List Int} (hord : ValidOrder ord) {env : Env} (hc : CodeStable env) {cenv : CEnv} (hcalm : Calm cenv) (net : Net) (hs : NetWorks net)
    (N : RealNet) (h : NetFit ord env N) (e : Incident) (he : e.Fair) :
    let q := N.step (nodeUse env net) (ctlUse ord env cenv net) e
    NetFit ord env q.1 ∧ homeOf q.1 = ((homeOf N).step RefRun.use (RefCtlRun.use (freshData ord)) e).1 ∧
      q.2 = ((homeOf N).step RefRun.use (RefCtlRun.use (freshData ord)) e).2 := by
  cases e with
  | device ip u =>
    cases hd : N.devices ip with
    | none =>
      have : (homeOf N).devices ip = none := by show (N.devices ip).map runOf = none; rw [hd]; rfl
      simp only [Home.step, hd, this]
      exact ⟨h, trivial, trivial⟩
    | some r =>
      have : (homeOf N).devices ip = some (runOf r) := by show (N.devices ip).map runOf = _; rw [hd]; rfl
      simp only [Home.step, hd, this]
      obtain ⟨k1, k2, k3⟩ := node_use hord hc net hs r (h.dev ip r hd) u he
      refine ⟨⟨fun ip' r' h' => ?_, h.ctl⟩, ?_, k3⟩
      · simp only [] at h'
        split at h'
        · injection h' with h'; rw [← h']; exact k1
        · exact h.dev ip' r' h'
      · unfold homeOf
        simp only [Home.mk.injEq, and_true]
        funext ip'
        split
        · rw [← k2]; rfl
        · rfl
  | controller ip u =>
    cases hd : N.controllers ip with
    | none =>
      have : (homeOf N).controllers ip = none := by show (N.controllers ip).map ctlRunOf = none; rw [hd]; rfl
      simp only [Home.step, hd, this]
      exact ⟨h, trivial, trivial⟩
    | some r =>
      have : (homeOf N).controllers ip = some (ctlRunOf r) := by show (N.controllers ip).map ctlRunOf = _; rw [hd]; rfl
      simp only [Home.step, hd, this]
      obtain ⟨k1, k2, k3⟩ := ctl_use hord hc hcalm net hs r (h.ctl ip r hd) u he
      refine ⟨⟨h.dev, fun ip' r' h' => ?_⟩, ?_, k3⟩
      · simp only [] at h'
        split at h'
        · injection h' with h'; rw [← h']; exact k1
        · exact h.ctl ip' r' h'
      · unfold homeOf
        simp only [Home.mk.injEq, true_and]
        funext ip'
        split
        · rw [← k2]; rfl
        · rfl

end Uecho
