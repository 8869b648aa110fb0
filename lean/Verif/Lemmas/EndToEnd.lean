/- A controller and a device, connected by datagrams. -/
import Verif.Spec.EndToEnd
import Verif.Props.Controller

namespace Uecho
open Spec

theorem encode_length (m : Msg) : (encode m).length = 11 + (encBody m).length := by
  unfold encode encHeader beDigits
  simp
  omega

/-- A message to be sent by the controller, after it has been given its TID. -/
def stamped (m : Msg) (t : Int) : Msg := { m with tid := t, seoj := 0x0EF001 }

/-- `post_message` of a message that fits, on a machine that can send: one datagram with the message. -/
theorem post_sent {ord : List Int → List Int} (hord : ValidOrder ord) {c : Ctl} {ops : List CtlOp} (h : CtlReach ord c ops)
    (net : Net) (hs : NetWorks net) (hw : CanSend c.ln.mgr) (m : Msg) (hm : Encodable m) (ht : 0 ≤ m.tid ∧ m.tid ≤ 65535)
    (dest : PyDest) (a : Addr) (hd : Ctl.toAddr dest = some a) :
    ∃ i t q, (c.postBegin net m dest).2 = .ok true ∧
      (c.postBegin net m dest).1.ln.mgr.log = c.ln.mgr.log ++ [(⟨i, a, encode (stamped m t)⟩, ((encode (stamped m t)).length : Int))] ∧
      (c.postBegin net m dest).1.last = { request := some q } ∧ q.tid = t ∧ 1 ≤ t ∧ t ≤ 65535 ∧ (m.tid ≠ 0 → t = m.tid) ∧
      (c.postBegin net m dest).1.found = c.found ∧ (c.postBegin net m dest).1.listeners = c.listeners ∧
      (c.postBegin net m dest).1.ln.mgr.servers = c.ln.mgr.servers := by
  obtain ⟨hln, hctl⟩ := reach_ln hord h
  have hout : outgoing c.ln m = { m with seoj := 0x0EF001 } := by unfold outgoing; rw [if_pos hctl]
  have hm' : Encodable (outgoing c.ln m) := (outgoing_encodable c.ln m).mpr hm
  obtain ⟨⟨s, -, h1⟩, h2, -, -⟩ := C54_works net c.ln.mgr (outgoing c.ln m) a hm' hw hs
  obtain ⟨-, -, -, -, -, -, -, hsv, t, ad, h3⟩ := C54_send net c.ln.mgr (outgoing c.ln m) a hm'
  have htid : (outgoing c.ln m).tid = m.tid := by rw [hout]
  have hr : 1 ≤ t ∧ t ≤ 65535 ∧ (m.tid ≠ 0 → t = m.tid) := by
    have hrange := reachable_tid hord hln
    by_cases hz : m.tid = 0
    · have ht := op_tid c.ln.mgr (.send net (outgoing c.ln m) (some a)) hrange
      simp only [MgrOp.message] at ht
      rw [if_pos (htid.trans hz), h3] at ht
      have ht2 := ht.2
      simp only [] at ht2
      exact ⟨by omega, by omega, fun x => absurd hz x⟩
    · have := (C51_kept c.ln.mgr net (outgoing c.ln m) (some a) (by rw [htid]; exact hz)).2.1
      rw [h3, htid] at this
      have : t = m.tid := this
      exact ⟨by omega, by omega, fun _ => this⟩
  have heq : c.postBegin net m dest = ({ c with ln := { c.ln with mgr := (c.ln.mgr.send net (outgoing c.ln m) (some a)).1 },
                                                last := { request := some (c.ln.mgr.send net (outgoing c.ln m) (some a)).2.1 } },
      (c.ln.mgr.send net (outgoing c.ln m) (some a)).2.2) := by
    unfold Ctl.postBegin Ctl.sendMessage
    simp only []
    rw [hd, sendMessage_eq]
  rw [heq]
  refine ⟨s.ifaddr, t, _, h2, ?_, rfl, ?_, hr.1, hr.2.1, hr.2.2, rfl, rfl, hsv⟩
  · simp only []
    rw [h1, h3, hout]
    rfl
  · rw [h3]

/-- What a datagram means is as the codec leaves it. -/
theorem received_decoded {d : Bytes} {a : Addr} {m : Msg} (h : Decodes d a m) :
    Encodable m ∧ received m = m ∧ m.fromAddr = some a ∧ 0 ≤ m.deoj ∧ m.deoj < 2 ^ 24 := by
  obtain ⟨w, t, hw, how, -, rfl⟩ := h
  refine ⟨hw, ?_, rfl, ?_⟩
  · have : received { w with fromAddr := some a } = { onWire w with fromAddr := some a, toAddr := w.toAddr } := rfl
    rw [this, ← how]
  · have : w.deoj = w.deoj % 2 ^ 24 := by
      have := congrArg Msg.deoj how
      exact this
    show 0 ≤ w.deoj ∧ w.deoj < 2 ^ 24
    omega

/-- The request at the device. -/
theorem request_arrives (m : Msg) (t : Int) (hm : Encodable m) (hl : (encode m).length ≤ 1024) (a : Addr) (ht : 1 ≤ t ∧ t ≤ 65535)
    (h2 : ¬ TwoSections m.esv) (code : Int) (hc : m.deoj = code) (hcr : 0 ≤ code ∧ code < 2 ^ 24) :
    Decodes (encode (stamped m t)) a { tid := t, seoj := 0x0EF001, deoj := code, esv := m.esv, props := m.props, fromAddr := some a } := by
  have e : onWire (stamped m t) = { tid := t, seoj := 0x0EF001, deoj := code, esv := m.esv, props := m.props } := by
    unfold onWire stamped
    simp only [if_neg h2, hc]
    rw [Int.emod_eq_of_lt (by omega) (by omega), Int.emod_eq_of_lt hcr.1 hcr.2]
    rfl
  have := decodes_encode (stamped m t) hm (by
    rw [encode_length] at hl ⊢
    exact hl) a
  rw [e] at this
  exact this

/-- The device handles a datagram and answers it. -/
theorem device_answers {ord : List Int → List Int} (hord : ValidOrder ord) {n : LocalNode} (hr : Reachable ord n) (hc : n.controller = false)
    (hw : CanSend n.mgr) (env : Env) (net : Net) (hs : NetWorks net) (d : Bytes) (a : Addr) (req : Msg) (hd : Decodes d a req)
    (o : Obj) (ho : n.getObject (.int req.deoj) = some o) (res : Msg)
    (hres : (o.messageReceived env req).result = .ok (some res)) (hfit : Encodable res) (hn : ESV.isNotification res.esv = false) (ht : res.tid ≠ 0) :
    ∃ j n1, recvOne (LocalNode.deliver env net) n d a = (n1, true) ∧
      n1.mgr.log = n.mgr.log ++ [(⟨j, a, encode res⟩, ((encode res).length : Int))] ∧
      (∀ c, n1.getObject (.int c) = if c = req.deoj then some (o.messageReceived env req).obj else n.getObject (.int c)) ∧
      n1 = (n.messageReceived env net req).1 ∧ CanSend n1.mgr := by
  obtain ⟨hm, hrec, ha, hdr⟩ := received_decoded hd
  obtain ⟨hobj, -, -⟩ := C48_dispatch hord hr env net req hm hdr o ho
  rw [hrec] at hobj
  obtain ⟨s, hg, hso⟩ := Option.map_eq_some_iff.mp ho
  change Dict.get? n.node.objects req.deoj = some s at hg
  have heq := messageReceived_eq env net n req hm
  rw [Int.emod_eq_of_lt hdr.1 hdr.2, hg] at heq
  simp only [] at heq
  rw [hso, hrec, hres] at heq
  simp only [] at heq
  have hmgr : (n.putBack req.deoj s (o.messageReceived env req).obj).mgr = n.mgr ∧
      (n.putBack req.deoj s (o.messageReceived env req).obj).controller = n.controller := by cases s <;> exact ⟨rfl, rfl⟩
  obtain ⟨i, t, k1, k2, k3, k4⟩ := answer_sent net (n.putBack req.deoj s (o.messageReceived env req).obj) req res a hn ha hfit (by rw [hmgr.1]; exact hw) hs
  have hout : outgoing (n.putBack req.deoj s (o.messageReceived env req).obj) res = res := by unfold outgoing; rw [hmgr.2, hc]; rfl
  rw [hout, k3 ht, hmgr.1] at k2
  refine ⟨i, (n.messageReceived env net req).1, ?_, ?_, hobj, rfl, ?_⟩
  · rw [recvOne_ok _ n d a req hd]
    have hdel : LocalNode.deliver env net n req = ((n.messageReceived env net req).1, none) := by
      unfold LocalNode.deliver
      rw [heq]
      generalize (n.putBack req.deoj s (o.messageReceived env req).obj).answer net req (some res) = q at k1
      rcases q with ⟨q1, q2⟩
      simp only [] at k1
      rw [k1]
    rw [hdel]
    rfl
  · rw [heq, k2]
  · rw [heq]
    unfold CanSend
    rw [k4, hmgr.1]
    exact hw

/-- The answer at the controller. -/
theorem answer_arrives (res : Msg) (hm : Encodable res) (hl : (encode res).length ≤ 1024) (a : Addr) (ht : 1 ≤ res.tid ∧ res.tid ≤ 65535)
    (h2 : ¬ TwoSections res.esv) (hs : 0 ≤ res.seoj ∧ res.seoj < 2 ^ 24) (hd : res.deoj = 0x0EF001) :
    Decodes (encode res) a { tid := res.tid, seoj := res.seoj, deoj := 0x0EF001, esv := res.esv, props := res.props, fromAddr := some a } := by
  have e : onWire res = { tid := res.tid, seoj := res.seoj, deoj := 0x0EF001, esv := res.esv, props := res.props } := by
    unfold onWire
    simp only [if_neg h2, hd]
    rw [Int.emod_eq_of_lt (by omega) (by omega), Int.emod_eq_of_lt hs.1 hs.2]
    rfl
  have := decodes_encode res hm hl a
  rw [e] at this
  exact this

/-- A response to what is posted. -/
theorem receiveResponse_stores (c : Ctl) (q m : Msg) (hl : c.last = { request := some q }) (ht : q.tid = m.tid) :
    (c.receiveResponse m).last = { request := some q, response := some m } := by
  unfold Ctl.receiveResponse
  rw [hl]
  simp [Post.isWaiting, Msg.isResponseMessage, ht]

theorem write_known (env : Env) (o : Obj) (m : Msg) (hw : WellFormed o) (hh : o.handler = .self_) (hq : Quiet env o m)
    (he : m.esv = 0x61) (hs : OwnSections m) (hk : ∀ i ∈ m.props, ∃ p, lookup o.props i.code = some p ∧ CanWrite p) :
    (o.messageReceived env m).obj = afterWrites o m.props ∧ (o.messageReceived env m).result = .ok (some
      { tid := m.tid, seoj := m.deoj, deoj := m.seoj, esv := 0x71
        props := m.props.map (fun i => { code := i.code, data := [] }) }) := by
  rw [messageReceived_quiet env o m hq, handle_plain_write env (attrPolicy o) o m hw.1 (follows_default env o hw hh) (Or.inr he)]
  have hall : acceptedWrites o (attrPolicy o) m.props = m.props := by
    unfold acceptedWrites
    apply List.filter_eq_self.mpr
    intro i hi
    obtain ⟨p, hp, hc⟩ := hk i hi
    simp [attrPolicy, hp, hc]
  have h2 : m.props.map (writeResp o (attrPolicy o)) = m.props.map (fun i => { code := i.code, data := [] }) := by
    apply List.map_congr_left
    intro i hi
    obtain ⟨p, hp, hc⟩ := hk i hi
    simp [writeResp, attrPolicy, hp, hc]
  have h3 : m.setProps = [] ∧ m.getProps = [] := by
    have := hs
    unfold OwnSections at this
    rw [he, if_neg (by decide)] at this
    exact this
  rw [hall, h2]
  refine ⟨rfl, ?_⟩
  unfold Obj.respond Msg.opc Msg.opcSet Msg.opcGet
  rw [he, h3.1, h3.2]
  simp [ESV.WRITE_REQUEST, ESV.WRITE_REQUEST_RESPONSE_REQUIRED, ESV.WRITE_RESPONSE, replyTo]


theorem reachable_receive {ord : List Int → List Int} {n : LocalNode} (h : Reachable ord n) {env : Env} (hs : CodeStable env) (net : Net) (m : Msg) :
    Reachable ord (n.messageReceived env net m).1 := by
  obtain ⟨rnd, ctl, ops, ha, rfl⟩ := h
  refine ⟨rnd, ctl, ops ++ [.receive env net m], ?_, ?_⟩
  · intro op hop
    rcases List.mem_append.mp hop with h | h
    · exact ha op h
    · rw [List.mem_singleton.mp h]; exact hs
  · unfold runOps
    rw [List.foldl_append]
    rfl

theorem ctl_snoc {ord : List Int → List Int} {c : Ctl} {ops : List CtlOp} (h : CtlReach ord c ops) (op : CtlOp) (ha : op.Allowed) :
    CtlReach ord (op.run ord c) (ops ++ [op]) := by
  obtain ⟨rnd, h1, rfl⟩ := h
  refine ⟨rnd, ?_, ?_⟩
  · intro o ho
    rcases List.mem_append.mp ho with h | h
    · exact h1 o h
    · rw [List.mem_singleton.mp h]; exact ha
  · unfold runCtl
    rw [List.foldl_append]
    rfl

theorem receive_controller {ord : List Int → List Int} (hord : ValidOrder ord) {n : LocalNode} (h : Reachable ord n) {env : Env} (hs : CodeStable env)
    (net : Net) (m : Msg) : (n.messageReceived env net m).1.controller = n.controller :=
  (run_inv hord n (.receive env net m) (reachable_inv hord h) hs).2.2

/-- The first half of an exchange, given what the object makes of the request. -/
theorem asked {ord : List Int → List Int} (hord : ValidOrder ord) {c : Ctl} {n : LocalNode} (hc : Connected ord c n)
    (w : World) (hw : w.Works) (ca da : Addr) (dest : PyDest) (hd : Ctl.toAddr dest = some da) (m : Msg) (hm : FitsDatagram m)
    (ht : 0 ≤ m.tid ∧ m.tid ≤ 65535) (h2 : ¬ TwoSections m.esv) (hcode : 0 ≤ m.deoj ∧ m.deoj < 2 ^ 24)
    (o : Obj) (ho : n.getObject (.int m.deoj) = some o) (o' : Obj) (esv : Int) (he : 0x70 ≤ esv ∧ esv ≤ 0x72 ∨ 0x50 ≤ esv ∧ esv ≤ 0x52) (props : List PProp)
    (hans : ∀ t, let req : Msg := { tid := t, seoj := 0x0EF001, deoj := m.deoj, esv := m.esv, props := m.props, fromAddr := some ca }
      (o.messageReceived w.env req).obj = o' ∧
      (o.messageReceived w.env req).result = .ok (some { tid := t, seoj := m.deoj, deoj := 0x0EF001, esv := esv, props := props }))
    (hfit : FitsDatagram { esv := esv, props := props }) :
    ∃ c1 n' d t q, Asked w ca da dest c n m c1 n' d ∧ (m.tid ≠ 0 → t = m.tid) ∧
      Decodes d da { tid := t, seoj := m.deoj, deoj := 0x0EF001, esv := esv, props := props, fromAddr := some da } ∧
      c1.last = { request := some q } ∧ q.tid = t ∧ c1.found = c.found ∧ c1.ln.mgr.servers = c.ln.mgr.servers ∧
      (∃ ops, CtlReach ord c1 ops) ∧ Connected ord c1 n' ∧ ∀ k, n'.getObject (.int k) = if k = m.deoj then some o' else n.getObject (.int k) := by
  obtain ⟨ops, hreach⟩ := hc.ctl
  obtain ⟨i, t, q, p1, p2, p3, p4, p5, p6, p7, p8, p9, p10⟩ := post_sent hord hreach w.cnet hw.cnet hc.ctlSends m hm.1 ht dest da hd
  have hreq := request_arrives m t hm.1 hm.2 ca ⟨p5, p6⟩ h2 m.deoj rfl hcode
  obtain ⟨ha1, ha2⟩ := hans t
  set req : Msg := { tid := t, seoj := 0x0EF001, deoj := m.deoj, esv := m.esv, props := m.props, fromAddr := some ca } with hreqdef
  set res : Msg := { tid := t, seoj := m.deoj, deoj := 0x0EF001, esv := esv, props := props } with hresdef
  have h2' : ¬ TwoSections esv := by unfold TwoSections; omega
  have hres : Encodable res := by
    have := hfit.1
    unfold Encodable at this ⊢
    exact this
  have hres' : (encode res).length ≤ 1024 := by
    have := hfit.2
    rw [encode_length] at this ⊢
    exact this
  have hn : ESV.isNotification esv = false := by
    unfold ESV.isNotification
    simp only [ESV.NOTIFICATION, ESV.NOTIFICATION_RESPONSE, ESV.NOTIFICATION_RESPONSE_REQUIRED]
    have h1 : esv ≠ 0x73 := by omega
    have h2 : esv ≠ 0x7A := by omega
    have h3 : esv ≠ 0x74 := by omega
    simp [h1, h2, h3]
  have htz : t ≠ 0 := by omega
  obtain ⟨j, n1, d1, d2, d3, d4, d5⟩ := device_answers hord hc.dev hc.device hc.devSends w.env w.net hw.net (encode (stamped m t)) ca req hreq o ho res
    ha2 hres hn htz
  have hback := answer_arrives res hres hres' da ⟨p5, p6⟩ h2' hcode rfl
  have hpost := ctl_snoc hreach (.post w.cnet m dest) trivial
  refine ⟨(c.postBegin w.cnet m dest).1, n1, encode res, t, q, ⟨i, j, encode (stamped m t), ?_, p2, d1, d2⟩, p7, hback, p3, p4, p8, p10, ⟨_, hpost⟩,
    ⟨⟨_, hpost⟩, ?_, ?_, ?_, d5⟩, ?_⟩
  · rw [← p1]
  · unfold CanSend
    rw [p10]
    exact hc.ctlSends
  · rw [d4]; exact reachable_receive hc.dev hw.stable w.net req
  · rw [d4, receive_controller hord hc.dev hw.stable]; exact hc.device
  · intro k
    rw [d3 k, ha1]

/-- An exchange, given what the object makes of the request. -/
theorem exchange {ord : List Int → List Int} (hord : ValidOrder ord) {c : Ctl} {n : LocalNode} (hc : Connected ord c n)
    (w : World) (hw : w.Works) (ca da : Addr) (dest : PyDest) (hd : Ctl.toAddr dest = some da) (m : Msg) (hm : FitsDatagram m)
    (ht : 0 ≤ m.tid ∧ m.tid ≤ 65535) (h2 : ¬ TwoSections m.esv) (hcode : 0 ≤ m.deoj ∧ m.deoj < 2 ^ 24)
    (o : Obj) (ho : n.getObject (.int m.deoj) = some o) (o' : Obj) (esv : Int) (he : 0x70 ≤ esv ∧ esv ≤ 0x72 ∨ 0x50 ≤ esv ∧ esv ≤ 0x52) (props : List PProp)
    (hans : ∀ t, let req : Msg := { tid := t, seoj := 0x0EF001, deoj := m.deoj, esv := m.esv, props := m.props, fromAddr := some ca }
      (o.messageReceived w.env req).obj = o' ∧
      (o.messageReceived w.env req).result = .ok (some { tid := t, seoj := m.deoj, deoj := 0x0EF001, esv := esv, props := props }))
    (hfit : FitsDatagram { esv := esv, props := props })
    (hl : esv = 0x72 → Found c da.1 ∧ instanceListOf { props := props } ≠ .empty) :
    ∃ c' n' t, Exchange ord w ca da dest c n m c' n' { tid := t, seoj := m.deoj, deoj := 0x0EF001, esv := esv, props := props, fromAddr := some da } ∧
      (m.tid ≠ 0 → t = m.tid) ∧ Connected ord c' n' ∧ (∀ ip, Found c ip → Found c' ip) ∧
      ∀ k, n'.getObject (.int k) = if k = m.deoj then some o' else n.getObject (.int k) := by
  obtain ⟨c1, n1, d, t, q, a1, a2, hback, p3, p4, p8, p10, ⟨ops, hpost⟩, a3, a4⟩ :=
    asked hord hc w hw ca da dest hd m hm ht h2 hcode o ho o' esv he props hans hfit
  have hk1 := reach_knows hord hpost
  set r : Msg := { tid := t, seoj := m.deoj, deoj := 0x0EF001, esv := esv, props := props, fromAddr := some da } with hrdef
  obtain ⟨r1, r2, -, -⟩ := received_decoded hback
  have hdone : ∃ c2, c1.messageReceived ord w.cuser w.cenv w.cnet r = (c2, .ok ()) ∧ c2.last = { request := some q, response := some r } ∧
      c2.ln = c1.ln ∧ (∀ ip, Found c1 ip → Found c2 ip) := by
    by_cases e : esv = 0x72
    · have hrep : Reports r := Or.inl e
      have hafter : ∀ ip, Found c1 ip → ip ∈ Dict.keys (afterList ord c1 r).found := by
        intro ip this
        unfold afterList
        split
        · exact this
        · rename_i a l heq
          simp only []
          rw [Dict.keys_set]
          split
          · exact this
          · exact List.mem_append_left _ this
      have hkn := hafter da.1 (by unfold Found; rw [p8]; exact (hl e).1)
      obtain ⟨x, hx⟩ := Option.isSome_iff_exists.mp ((Dict.get?_isSome_iff _ _).mpr hkn)
      obtain ⟨c2, k1, k2, k3, k4, k5, -⟩ := response_known hord w.cuser hw.calm w.cnet c1 hk1.1 r da rfl r1 hrep
        (by intro h; exact h.2 rfl) (by intro h; exact (hl e).2 h.2) x hx
      rw [r2] at k1
      refine ⟨_, k1, receiveResponse_stores c2 q r (k4.trans p3) (by rw [p4]), (receiveResponse_found c2 r).2.1.trans k3, ?_⟩
      intro ip hip
      have hin := hafter ip hip
      unfold Found
      rw [(receiveResponse_found c2 r).1, k2]
      unfold reportTo
      rw [hx]
      simp only []
      split
      · exact hin
      · rw [Dict.keys_modify]; exact hin
    · have hrep : ¬ Reports r := by show ¬ (esv = 0x72 ∨ esv = 0x73 ∨ esv = 0x7E); omega
      have hnr : ESV.isRequest esv = false := by
        rcases he with ⟨h1, h2⟩ | ⟨h1, h2⟩
        · obtain rfl | rfl : esv = 0x70 ∨ esv = 0x71 := by omega
          · rfl
          · rfl
        · obtain rfl | rfl | rfl : esv = 0x50 ∨ esv = 0x51 ∨ esv = 0x52 := by omega
          · rfl
          · rfl
          · rfl
      have := response_other (ord := ord) w.cuser (cenv := w.cenv) w.cnet c1 r r1 hnr hrep
      rw [r2] at this
      refine ⟨_, this, receiveResponse_stores c1 q r p3 (by rw [p4]), (receiveResponse_found c1 r).2.1, ?_⟩
      intro ip hip
      unfold Found
      rw [(receiveResponse_found c1 r).1]
      exact hip
  obtain ⟨c2, e1, e2, e3, e4⟩ := hdone
  refine ⟨c2, n1, t, ⟨c1, d, a1, ?_, ?_⟩, a2, ?_, ?_, a4⟩
  · rw [recvOne_ok _ c1 _ da r hback]
    unfold Ctl.deliver
    rw [e1]
    rfl
  · rw [e2]
  · refine ⟨?_, ?_, a3.dev, a3.device, a3.devSends⟩
    · have := ctl_snoc hpost (.receive w.cuser w.cenv w.cnet r) ⟨⟨r1, rfl⟩, hw.calm, hw.cstable⟩
      have hrun : CtlOp.run ord c1 (.receive w.cuser w.cenv w.cnet r) = c2 := by
        show (c1.messageReceived ord w.cuser w.cenv w.cnet r).1 = c2
        rw [e1]
      rw [hrun] at this
      exact ⟨_, this⟩
    · rw [e3]
      exact a3.ctlSends
  · intro ip hip
    exact e4 ip (by unfold Found; rw [p8]; exact hip)

end Uecho
