import Verif.Spec.Air
import Verif.Lemmas.Several
import Verif.Lemmas.Traffic

namespace Uecho
open Spec

/-! ### A controller gives an order -/

/-- `post_message` and `send_message` of a message without a TID that fits, on a machine that can send: one datagram with the next TID. -/
theorem order_sent {ord : List Int → List Int} (hord : ValidOrder ord) {c : Ctl} {ops : List CtlOp} (h : CtlReach ord c ops)
    (net : Net) (hs : NetWorks net) (hw : CanSend c.ln.mgr) (m : Msg) (hm : Encodable m) (ht : m.tid = 0) (ip : String) :
    ∃ i q g, (c.postBegin net m (.str ip)).1 = { c with ln := { c.ln with mgr := g }, last := { request := some q } } ∧
      (c.sendMessage net m (.str ip)).1 = { c with ln := { c.ln with mgr := g } } ∧
      g.log = c.ln.mgr.log ++ [(⟨i, (ip, 3610), encode (stamped m (c.ln.mgr.tid % 65535 + 1))⟩, ((encode (stamped m (c.ln.mgr.tid % 65535 + 1))).length : Int))] ∧
      q.tid = c.ln.mgr.tid % 65535 + 1 ∧ g.tid = c.ln.mgr.tid % 65535 + 1 ∧ g.servers = c.ln.mgr.servers := by
  obtain ⟨hln, hctl⟩ := reach_ln hord h
  have hout : outgoing c.ln m = { m with seoj := 0x0EF001 } := by unfold outgoing; rw [if_pos hctl]
  have hm' : Encodable (outgoing c.ln m) := (outgoing_encodable c.ln m).mpr hm
  obtain ⟨⟨s, -, h1⟩, h2, -, -⟩ := C54_works net c.ln.mgr (outgoing c.ln m) (ip, 3610) hm' hw hs
  obtain ⟨-, -, -, -, -, -, -, hsv, t, ad, h3⟩ := C54_send net c.ln.mgr (outgoing c.ln m) (ip, 3610) hm'
  have hz : (outgoing c.ln m).tid = 0 := by rw [hout]; exact ht
  have hop := op_tid c.ln.mgr (.send net (outgoing c.ln m) (some (ip, 3610))) (reachable_tid hord hln)
  simp only [MgrOp.message] at hop
  rw [if_pos hz] at hop
  have htt : t = c.ln.mgr.tid % 65535 + 1 := by
    rw [← hop.2, h3]
  refine ⟨s.ifaddr, (c.ln.mgr.send net (outgoing c.ln m) (some (ip, 3610))).2.1, (c.ln.mgr.send net (outgoing c.ln m) (some (ip, 3610))).1, ?_, ?_, ?_, hop.2, hop.1, hsv⟩
  · unfold Ctl.postBegin Ctl.sendMessage
    simp only [Ctl.toAddr]
    rw [sendMessage_eq]
  · unfold Ctl.sendMessage
    simp only [Ctl.toAddr]
    rw [sendMessage_eq]
  · rw [h1, h3, hout, htt]
    rfl

/-! ### A machine obeys an order -/

theorem order_message (o : Order) : o.message.deoj = o.obj ∧ o.message.tid = 0 ∧ o.message.fromAddr = none ∧ o.message.toAddr = none := by
  rcases o with (r | _)
  · cases r <;> exact ⟨rfl, rfl, rfl, rfl⟩
  · exact ⟨rfl, rfl, rfl, rfl⟩

/-- What answers are. -/
theorem reply_shape {s : Store} {o : Order} {a : Msg} (h : s.reply o = some a) :
    AnswerEsv a.esv ∧ a.seoj = o.obj ∧ a.deoj = 0x0EF001 ∧ OwnSections a ∧ a.fromAddr = none ∧ a.toAddr = none ∧ a.tid = 0 := by
  rcases o with (r | ⟨ip, k, items⟩)
  · obtain rfl := Option.some.inj h
    refine ⟨?_, ?_, ?_, ?_, ?_, ?_, ?_⟩
    · unfold AnswerEsv
      cases r <;> (unfold Store.answer; simp only []; split <;> decide)
    · cases r <;> rfl
    · cases r <;> rfl
    · unfold OwnSections
      cases r <;> (unfold Store.answer; simp only []; split <;> simp)
    · cases r <;> rfl
    · cases r <;> rfl
    · cases r <;> rfl
  · unfold Store.reply at h
    simp only [] at h
    split at h
    · cases h
    · obtain rfl := Option.some.inj h
      exact ⟨by unfold AnswerEsv; simp, rfl, rfl, by unfold OwnSections; simp, rfl, rfl, rfl⟩

theorem obey_other (s : Store) (o : Order) (ip : String) (k c : Int) (h : ¬ (ip = o.ip ∧ k = o.obj)) : s.obey o ip k c = s ip k c := by
  rcases o with (r | ⟨ip', k', items⟩)
  · exact after_other s r ip k c h
  · exact (foldl_put items s ip' k' ip k c).trans (if_neg h)

/-- What the object makes of an order, in terms of the store. -/
theorem obj_obeys (env : Env) (s : Store) (d : Order) (o : Obj) (hw : WellFormed o) (hh : o.handler = .self_) (hq : ∀ m, Quiet env o m)
    (hs : ∀ c, s d.ip d.obj c = (lookup o.props c).map entry) (hk : ∀ r, d = .ask r → s.Knows r) :
    ∃ o', skeleton o' = skeleton o ∧ (∀ c, (s.obey d) d.ip d.obj c = (lookup o'.props c).map entry) ∧
      ∀ (t : Int) (ca : Addr),
        let req : Msg := { tid := t, seoj := 0x0EF001, deoj := d.obj, esv := d.message.esv, props := d.message.props
                           setProps := d.message.setProps, getProps := d.message.getProps, fromAddr := some ca }
        (o.messageReceived env req).obj = o' ∧ (o.messageReceived env req).result = .ok ((s.reply d).map fun a => { a with tid := t }) := by
  rcases d with (r | ⟨ip, k, items⟩)
  · exact obj_answers env s r o hw hh hq hs (hk r rfl)
  · refine ⟨afterWrites o (acceptedWrites o (attrPolicy o) (itemProps items)), skeleton_afterWrites _ _, puts_eq hs items, ?_⟩
    intro t ca req
    rw [messageReceived_quiet env o req (hq _), handle_plain_write env (attrPolicy o) o req hw.1 (follows_default env o hw hh) (Or.inl rfl)]
    refine ⟨rfl, ?_⟩
    have hp : req.props.map (writeResp o (attrPolicy o)) = s.refused ip k items := refused_eq hs items
    have hn : (acceptedWrites o (attrPolicy o) req.props).length = items.length ↔ s.allWritten ip k items = true := allWritten_iff hs items
    have hall : req.opc + req.opcSet + req.opcGet = items.length := by
      show (itemProps items).length + 0 + 0 = _
      simp [itemProps]
    rw [hp]
    show Except.ok (Obj.respond req _ _) = _
    unfold Obj.respond
    rw [hall, if_pos (show req.esv = ESV.WRITE_REQUEST from rfl)]
    simp only [hn, Store.reply]
    split <;> rfl

/-- The device handles a datagram that needs no answer. -/
theorem device_silent {ord : List Int → List Int} (hord : ValidOrder ord) {n : LocalNode} (hr : Reachable ord n) (env : Env) (net : Net)
    (d : Bytes) (a : Addr) (req : Msg) (hd : Decodes d a req) (o : Obj) (ho : n.getObject (.int req.deoj) = some o)
    (hres : (o.messageReceived env req).result = .ok none) :
    recvOne (LocalNode.deliver env net) n d a = ((n.messageReceived env net req).1, true) ∧ (n.messageReceived env net req).1.mgr = n.mgr ∧
      ∀ c, (n.messageReceived env net req).1.getObject (.int c) = if c = req.deoj then some (o.messageReceived env req).obj else n.getObject (.int c) := by
  obtain ⟨hm, hrec, ha, hdr⟩ := received_decoded hd
  obtain ⟨hobj, -, -⟩ := C48_dispatch hord hr env net req hm hdr o ho
  rw [hrec] at hobj
  obtain ⟨s, hg, hso⟩ := Option.map_eq_some_iff.mp ho
  change Dict.get? n.node.objects req.deoj = some s at hg
  have heq := messageReceived_eq env net n req hm
  rw [Int.emod_eq_of_lt hdr.1 hdr.2, hg] at heq
  simp only [] at heq
  rw [hso, hrec, hres] at heq
  simp only [] at heq
  have hmgr : (n.putBack req.deoj s (o.messageReceived env req).obj).mgr = n.mgr := by cases s <;> rfl
  refine ⟨?_, ?_, hobj⟩
  · rw [recvOne_ok _ n d a req hd]
    unfold LocalNode.deliver
    rw [heq]
    rfl
  · rw [heq]
    exact hmgr

/-- An order reaches the machine it is for. -/
theorem host_obeys {ord : List Int → List Int} (hord : ValidOrder ord) (H : Machines) (d : Order) (hab : Able ord H d.ip d.obj) (hcode : 0 ≤ d.obj ∧ d.obj < 2 ^ 24)
    (hm : FitsDatagram d.message) (ht : H.store.Takes d) (t : Int) (htr : 1 ≤ t ∧ t ≤ 65535) (ca : Addr) :
    ∃ h n1 new, H d.ip = some h ∧ h.addr = (d.ip, 3610) ∧
      recvOne (LocalNode.deliver h.env h.net) h.node (encode (stamped d.message t)) ca = (n1, true) ∧
      n1.mgr.log = h.node.mgr.log ++ new ∧
      new.map (fun x => (x.1.dest, x.1.bytes)) = (match H.store.reply d with | none => [] | some a => [(ca, encode { a with tid := t })]) ∧
      (H.put d.ip n1).store = H.store.obey d ∧ Reachable ord n1 ∧
      ∀ ip obj, Able ord H ip obj → Able ord (H.put d.ip n1) ip obj := by
  obtain ⟨h, h1, h2, b3, b4, b5, c1, c4, o, h5, h6, h7, h8⟩ := hab
  obtain ⟨o', a1, a2, a3⟩ := obj_obeys h.env H.store d o h6 h7 h8 (fun c => (store_host h1 _ c).trans (entryOf_obj h5 c)) ht.2
  obtain ⟨m1, m2, m3, m4⟩ := order_message d
  have hwire : onWire (stamped d.message t) = { tid := t, seoj := 0x0EF001, deoj := d.obj, esv := d.message.esv, props := d.message.props
                                                setProps := d.message.setProps, getProps := d.message.getProps } := by
    have e1 : t % 2 ^ 16 = t := by omega
    have e2 : d.obj % 2 ^ 24 = d.obj := Int.emod_eq_of_lt hcode.1 hcode.2
    unfold onWire stamped
    simp only [m1, e1, e2]
    rcases d with (r | _)
    · cases r <;> rfl
    · rfl
  have hreq := decodes_encode (stamped d.message t) hm.1 (by have := hm.2; rw [encode_length] at this ⊢; exact this) ca
  rw [hwire] at hreq
  obtain ⟨r1, r2⟩ := a3 t ca
  have key : ∃ n1 new, recvOne (LocalNode.deliver h.env h.net) h.node (encode (stamped d.message t)) ca = (n1, true) ∧
      n1.mgr.log = h.node.mgr.log ++ new ∧
      new.map (fun x => (x.1.dest, x.1.bytes)) = (match H.store.reply d with | none => [] | some a => [(ca, encode { a with tid := t })]) ∧
      (∀ k, n1.getObject (.int k) = if k = d.obj then some o' else h.node.getObject (.int k)) ∧
      Reachable ord n1 ∧ n1.controller = false ∧ CanSend n1.mgr := by
    obtain hn | ⟨a, hn⟩ := Option.eq_none_or_eq_some (H.store.reply d)
    · rw [hn] at r2
      obtain ⟨k1, k2, k3⟩ := device_silent hord b3 h.env h.net _ ca _ hreq o h5 r2
      refine ⟨_, [], k1, by rw [k2, List.append_nil], by rw [hn]; rfl, ?_, reachable_receive b3 c4 h.net _, ?_, by rw [k2]; exact b5⟩
      · intro k
        rw [k3 k, r1]
      · rw [receive_controller hord b3 c4]; exact b4
    · rw [hn] at r2
      obtain ⟨s1, s2, s3, s4, s5, s6, s7⟩ := reply_shape hn
      obtain ⟨hf, -⟩ := ht.1 a hn
      have hres : Encodable { a with tid := t } := by
        have := hf.1
        unfold Encodable at this ⊢
        exact this
      have hnn : ESV.isNotification a.esv = false := by
        generalize a.esv = e at s1
        rcases s1 with h | h | h | h | h | h | h | h <;> subst h <;> rfl
      obtain ⟨j, n1, d1, d2, d3, d4, d5⟩ := device_answers hord b3 b4 b5 h.env h.net c1 _ ca _ hreq o h5 { a with tid := t } r2 hres hnn (by show t ≠ 0; omega)
      refine ⟨n1, _, d1, d2, by rw [hn]; rfl, ?_, by rw [d4]; exact reachable_receive b3 c4 h.net _, ?_, d5⟩
      · intro k
        rw [d3 k, r1]
      · rw [d4, receive_controller hord b3 c4]; exact b4
  obtain ⟨n1, new, k1, k2, k3, k4, k5, k6, k7⟩ := key
  have hp : (H.put d.ip n1) d.ip = some { h with node := n1 } := by unfold Machines.put; rw [if_pos rfl, h1]; rfl
  refine ⟨h, n1, new, h1, h2, k1, k2, k3, ?_, k5, ?_⟩
  · funext ip kk cc
    by_cases e : ip = d.ip
    · subst e
      rw [store_host hp]
      by_cases e2 : kk = d.obj
      · subst e2
        rw [entryOf_obj (show n1.getObject (.int d.obj) = some o' by rw [k4, if_pos rfl])]
        exact (a2 cc).symm
      · have : entryOf n1 kk cc = entryOf h.node kk cc := by
          unfold entryOf
          rw [k4, if_neg e2]
        show entryOf n1 kk cc = _
        rw [this, ← store_host h1, obey_other _ _ _ _ _ (fun h => e2 h.2)]
    · have : (H.put d.ip n1).store ip kk cc = H.store ip kk cc := by
        unfold Machines.store Machines.put
        rw [if_neg e]
      rw [this, obey_other _ _ _ _ _ (fun h => e h.1)]
  · intro ip obj ⟨g, g1, g2, e3, e4, e5, f1, f4, u, g5, g6, g7, g8⟩
    by_cases e : ip = d.ip
    · subst e
      rw [h1] at g1
      obtain rfl := Option.some.inj g1
      refine ⟨{ h with node := n1 }, hp, g2, k5, k6, k7, f1, f4, ?_⟩
      by_cases e2 : obj = d.obj
      · subst e2
        refine ⟨o', by show n1.getObject _ = _; rw [k4, if_pos rfl], wf_of_skeleton a1 h6, (handler_of_skeleton a1).trans h7, ?_⟩
        intro m x hx
        have hobs : o'.observers = o.observers := by
          have := congrArg Obj.observers a1
          exact this
        rw [hobs] at hx
        exact h8 m x hx
      · exact ⟨u, by show n1.getObject _ = _; rw [k4, if_neg e2]; exact g5, g6, g7, g8⟩
    · exact ⟨g, by unfold Machines.put; rw [if_neg e]; exact g1, g2, e3, e4, e5, f1, f4, u, g5, g6, g7, g8⟩

/-! ### A controller gets an answer -/

/-- An answer reaches a controller that knows the node it comes from. -/
theorem ctl_hears {ord : List Int → List Int} (hord : ValidOrder ord) (k : Side) (c : Ctl) (hc : Asks ord k c) (ip : String) (hf : Found c ip)
    (a : Msg) (h1 : AnswerEsv a.esv) (h2 : 0 ≤ a.seoj ∧ a.seoj < 2 ^ 24) (h3 : a.deoj = 0x0EF001) (h4 : OwnSections a) (h5 : a.fromAddr = none ∧ a.toAddr = none)
    (h6 : FitsDatagram a) (h7 : a.esv = 0x72 → instanceListOf a ≠ .empty) (t : Int) (ht : 1 ≤ t ∧ t ≤ 65535) :
    ∃ c', recvOne (Ctl.deliver ord k.cuser k.cenv k.cnet) c (encode { a with tid := t }) (ip, 3610) = (c', true) ∧ c'.ln = c.ln ∧
      (∃ c0 : Ctl, c0.last = c.last ∧ c' = c0.receiveResponse { a with tid := t, fromAddr := some (ip, 3610) }) ∧
      Asks ord k c' ∧ ∀ ip', Found c ip' → Found c' ip' := by
  obtain ⟨⟨ops, hreach⟩, hsend, hnet, hcalm, hst⟩ := hc
  have hres : Encodable { a with tid := t } := by
    have := h6.1
    unfold Encodable at this ⊢
    exact this
  have hres' : (encode { a with tid := t }).length ≤ 1024 := by
    have := h6.2
    rw [encode_length] at this ⊢
    exact this
  have hwire : onWire { a with tid := t } = { a with tid := t } := onWire_own _ (by show 0 ≤ t ∧ t < 2 ^ 16; omega) h2 (by show 0 ≤ a.deoj ∧ a.deoj < 2 ^ 24; rw [h3]; decide) h4 h5
  have hback := decodes_encode { a with tid := t } hres hres' (ip, 3610)
  rw [hwire] at hback
  obtain ⟨r, hrdef⟩ : ∃ r : Msg, r = { a with tid := t, fromAddr := some (ip, 3610) } := ⟨_, rfl⟩
  have hback : Decodes (encode { a with tid := t }) (ip, 3610) r := by rw [hrdef]; exact hback
  obtain ⟨r1, r2, r3, -⟩ := received_decoded hback
  have hk1 := reach_knows hord hreach
  have hesv : r.esv = a.esv := by rw [hrdef]
  have hdone : ∃ c2 : Ctl, c.messageReceived ord k.cuser k.cenv k.cnet r = (c2.receiveResponse r, .ok ()) ∧ c2.last = c.last ∧ c2.ln = c.ln := by
    by_cases e : a.esv = 0x72 ∨ a.esv = 0x7E
    · have hrep : Reports r := by
        unfold Reports
        rw [hesv]
        omega
      have hafter : ip ∈ Dict.keys (afterList ord c r).found := by
        unfold afterList
        split
        · exact hf
        · simp only []
          rw [Dict.keys_set]
          split
          · exact hf
          · exact List.mem_append_left _ hf
      obtain ⟨x, hx⟩ := Option.isSome_iff_exists.mp ((Dict.get?_isSome_iff _ _).mpr hafter)
      obtain ⟨c2, k1, -, k3, k4, -⟩ := response_known hord k.cuser hcalm k.cnet c hk1.1 r (ip, 3610) r3 r1 hrep
        (by
          intro h
          refine h.2 ?_
          rw [hrdef]
          show a.deoj % 2 ^ 24 = 0x0EF001
          rw [h3]
          decide)
        (by
          intro h
          rw [hesv] at h
          refine h7 (by omega) ?_
          rw [hrdef] at h
          exact h.2) x hx
      rw [r2] at k1
      exact ⟨c2, k1, k4, k3⟩
    · have hrep : ¬ Reports r := by
        unfold Reports
        rw [hesv]
        unfold AnswerEsv at h1
        omega
      have hnr : ESV.isRequest r.esv = false := by
        rw [hesv]
        generalize a.esv = e at h1
        rcases h1 with h | h | h | h | h | h | h | h <;> subst h <;> rfl
      have := response_other (ord := ord) k.cuser (cenv := k.cenv) k.cnet c r r1 hnr hrep
      rw [r2] at this
      exact ⟨c, this, rfl, rfl⟩
  obtain ⟨c2, e1, e2, e3⟩ := hdone
  have hrun := ctl_snoc hreach (.receive k.cuser k.cenv k.cnet r) ⟨⟨r1, by rw [r3]; rfl⟩, hcalm, hst⟩
  have hrun' : CtlOp.run ord c (.receive k.cuser k.cenv k.cnet r) = c2.receiveResponse r := by
    show (c.messageReceived ord k.cuser k.cenv k.cnet r).1 = _
    rw [e1]
  have hln : (c2.receiveResponse r).ln = c.ln := (ln_receiveResponse c2 r).trans e3
  refine ⟨c2.receiveResponse r, ?_, hln, ⟨c2, e2, by rw [hrdef]⟩, ⟨⟨_, by rw [← hrun']; exact hrun⟩, by rw [hln]; exact hsend, hnet, hcalm, hst⟩, ?_⟩
  · rw [recvOne_ok _ c _ _ r hback]
    unfold Ctl.deliver
    rw [e1]
    rfl
  · intro ip' hip
    have := found_receive hord hreach k.cuser hcalm hst k.cnet r ⟨r1, by rw [r3]; rfl⟩ ip' hip
    rw [e1] at this
    exact this

/-! ### The machines and the mail -/

theorem news_append (src : Addr) (old new : List (Sent × Int)) : news src old (old ++ new) = new.map fun x => ⟨src, x.1.dest, x.1.bytes⟩ := by
  unfold news
  rw [List.drop_left]

theorem news_same (src : Addr) (old : List (Sent × Int)) : news src old old = [] := by
  unfold news
  rw [List.drop_length]
  rfl

/-- The TID of the `n`-th order of a controller whose TID was `t0` at the beginning. -/
def tidOf (t0 : Nat → Int) (i n : Nat) : Int := (t0 i + n) % 65535 + 1

theorem tidOf_range (t0 : Nat → Int) (i n : Nat) : 1 ≤ tidOf t0 i n ∧ tidOf t0 i n ≤ 65535 := by
  unfold tidOf
  omega

theorem tidOf_inj (t0 : Nat → Int) (i n m : Nat) (h1 : n < m + 65535) (h2 : m < n + 65535) (h : tidOf t0 i n = tidOf t0 i m) : n = m := by
  unfold tidOf at h
  omega

/-- The datagram that carries a letter. -/
def Carries (K : Nat → Side) (L : Rights) (t0 : Nat → Int) : Letter → Datagram → Prop
  | .order i n o, p => p = ⟨(K i).addr, (o.ip, 3610), encode (stamped o.message (tidOf t0 i n))⟩ ∧ L.order i o.ip o.obj ∧ FitsDatagram o.message
  | .reply i n ip a, p => p = ⟨(ip, 3610), (K i).addr, encode { a with tid := tidOf t0 i n }⟩ ∧ L.order i ip a.seoj ∧ AnswerEsv a.esv ∧ a.deoj = 0x0EF001 ∧
      OwnSections a ∧ (a.fromAddr = none ∧ a.toAddr = none) ∧ FitsDatagram a ∧ (a.esv = 0x72 → instanceListOf a ≠ .empty)

structure Sim (ord : List Int → List Int) (N : Nat) (K : Nat → Side) (L : Rights) (t0 : Nat → Int) (X : Mail) (P : Place) : Prop where
  store : P.H.store = X.store
  air : List.Forall₂ (Carries K L t0) X.air P.air
  tid : ∀ i, (P.C i).ln.mgr.tid % 65535 = (t0 i + X.count i) % 65535
  cur : ∀ i m, X.cur i = some m → ∃ q, (P.C i).last.request = some q ∧ q.tid = tidOf t0 i m ∧
    (P.C i).last.response = (X.resp i).map fun x => { x.2 with tid := tidOf t0 i m, fromAddr := some (x.1, 3610) }
  ready : Prepared ord N K L P.C P.H
  alive : P.alive = true

/-- Another controller state at `i` that has found what the old one had. -/
theorem prepared_ctl {ord : List Int → List Int} {N : Nat} {K : Nat → Side} {L : Rights} {C : Ctls} {H : Machines} (h : Prepared ord N K L C H) (i : Nat) (c : Ctl)
    (hc : (∃ ip k, L.order i ip k) → Asks ord (K i) c ∧ ∀ ip, Found (C i) ip → Found c ip) : Prepared ord N K L (C.put i c) H := by
  refine ⟨?_, h.assign, h.apart, h.hosts⟩
  intro j ip k hl
  obtain ⟨h1, h2⟩ := h.order j ip k hl
  refine ⟨h1, ?_⟩
  by_cases e : j = i
  · subst e
    obtain ⟨s1, s2, s3, s4⟩ := (serves_iff ..).mp h2
    obtain ⟨c1, c2⟩ := hc ⟨ip, k, hl⟩
    rw [ctls_put_self]
    exact (serves_iff ..).mpr ⟨s1, c1, s3, c2 ip s4⟩
  · rw [ctls_put_other C c e]
    exact h2

/-- Another state of the machine at `ip`. -/
theorem prepared_host {ord : List Int → List Int} {N : Nat} {K : Nat → Side} {L : Rights} {C : Ctls} {H : Machines} (h : Prepared ord N K L C H) (ip : String) (n : LocalNode)
    (hn : Reachable ord n) (hc : ∀ ip' k, Able ord H ip' k → Able ord (H.put ip n) ip' k) : Prepared ord N K L C (H.put ip n) := by
  have hp : ∀ ip' g, (H.put ip n) ip' = some g → ∃ g', H ip' = some g' ∧ g'.addr = g.addr := by
    intro ip' g hg
    unfold Machines.put at hg
    split at hg
    · rename_i e
      subst e
      obtain ⟨g', k1, rfl⟩ := Option.map_eq_some_iff.mp hg
      exact ⟨g', k1, rfl⟩
    · exact ⟨g, hg, rfl⟩
  refine ⟨?_, ?_, h.apart, ?_⟩
  · intro j ip' k hl
    obtain ⟨h1, h2⟩ := h.order j ip' k hl
    obtain ⟨s1, s2, s3, s4⟩ := (serves_iff ..).mp h2
    exact ⟨h1, (serves_iff ..).mpr ⟨hc _ _ s1, s2, s3, s4⟩⟩
  · intro ip' hl
    obtain ⟨g, h1, h2⟩ := h.assign ip' hl
    by_cases e : ip' = ip
    · subst e
      exact ⟨{ g with node := n }, by unfold Machines.put; rw [if_pos rfl, h1]; rfl, hn⟩
    · exact ⟨g, by unfold Machines.put; rw [if_neg e]; exact h1, h2⟩
  · intro i g hi hg
    obtain ⟨g', k1, k2⟩ := hp _ _ hg
    rw [← k2]
    exact h.hosts i g' hi k1

/-- The next step is determined. -/
theorem step_unique {ord : List Int → List Int} {N : Nat} {K : Nat → Side} {L : Rights} {P : Place} (h : Prepared ord N K L P.C P.H) {e : Ev} {Q Q' : Place}
    (h1 : Step ord N K P e Q) (h2 : Step ord N K P e Q') : Q = Q' := by
  cases h1 with
  | post hi hc =>
    cases h2 with
    | post hi' hc' => subst hc; subst hc'; rfl
  | send hi hc =>
    cases h2 with
    | send hi' hc' => subst hc; subst hc'; rfl
  | host hp hh ha hr =>
    cases h2 with
    | host hp' hh' ha' hr' =>
      rw [hp] at hp'
      obtain rfl := Option.some.inj hp'
      rw [hh] at hh'
      obtain rfl := Option.some.inj hh'
      rw [hr] at hr'
      obtain ⟨rfl, rfl⟩ := Prod.mk.inj hr'
      rfl
    | ctl hp' hi' ha' hr' =>
      rw [hp] at hp'
      obtain rfl := Option.some.inj hp'
      rw [← ha'] at hh ha
      exact absurd ha (h.hosts _ _ hi' hh)
  | ctl hp hi ha hr =>
    cases h2 with
    | host hp' hh' ha' hr' =>
      rw [hp] at hp'
      obtain rfl := Option.some.inj hp'
      rw [← ha] at hh' ha'
      exact absurd ha' (h.hosts _ _ hi hh')
    | ctl hp' hi' ha' hr' =>
      rw [hp] at hp'
      obtain rfl := Option.some.inj hp'
      obtain rfl := h.apart _ _ hi hi' (ha.trans ha'.symm)
      rw [hr] at hr'
      obtain ⟨rfl, rfl⟩ := Prod.mk.inj hr'
      rfl
  | assign hh =>
    cases h2 with
    | assign hh' =>
      rw [hh] at hh'
      obtain rfl := Option.some.inj hh'
      rfl

theorem change_self {α : Type} (f : Nat → α) (i : Nat) (x : α) : change f i x i = x := if_pos rfl
theorem change_other {α : Type} (f : Nat → α) {i j : Nat} (x : α) (h : j ≠ i) : change f i x j = f j := if_neg h

/-- What an order does to the controller and to the network. -/
theorem sim_order {ord : List Int → List Int} (hord : ValidOrder ord) {N : Nat} {K : Nat → Side} {L : Rights} {t0 : Nat → Int} {X : Mail} {P : Place}
    (hs : Sim ord N K L t0 X P) (i : Nat) (o : Order) (hl : L.order i o.ip o.obj) (hf : FitsDatagram o.message) :
    i < N ∧ ∃ q g, ((P.C i).postBegin (K i).cnet o.message (.str o.ip)).1 = { P.C i with ln := { (P.C i).ln with mgr := g }, last := { request := some q } } ∧
      ((P.C i).sendMessage (K i).cnet o.message (.str o.ip)).1 = { P.C i with ln := { (P.C i).ln with mgr := g } } ∧
      news (K i).addr (P.C i).ln.mgr.log g.log = [⟨(K i).addr, (o.ip, 3610), encode (stamped o.message (tidOf t0 i (X.count i)))⟩] ∧
      q.tid = tidOf t0 i (X.count i) ∧ g.tid % 65535 = (t0 i + (X.count i + 1 : Nat)) % 65535 ∧
      (∀ op, op = CtlOp.post (K i).cnet o.message (.str o.ip) ∨ op = CtlOp.send (K i).cnet o.message (.str o.ip) →
        Prepared ord N K L (P.C.put i (op.run ord (P.C i))) P.H) := by
  obtain ⟨hi, hsv⟩ := hs.ready.order i _ _ hl
  obtain ⟨s1, ⟨⟨ops, v1⟩, v2, v3, v4, v5⟩, s3, s4⟩ := (serves_iff ..).mp hsv
  obtain ⟨ifc, q, g, a1, a2, a3, a4, a5, a6⟩ := order_sent hord v1 (K i).cnet v3 v2 o.message hf.1 (order_message o).2.1 o.ip
  have ht : (P.C i).ln.mgr.tid % 65535 + 1 = tidOf t0 i (X.count i) := by
    unfold tidOf
    rw [hs.tid i]
  rw [ht] at a3 a4 a5
  refine ⟨hi, q, g, a1, a2, ?_, a4, ?_, ?_⟩
  · rw [a3, news_append]
    rfl
  · rw [a5]
    unfold tidOf
    omega
  · intro op hop
    apply prepared_ctl hs.ready
    intro _
    have hr : CtlReach ord (op.run ord (P.C i)) (ops ++ [op]) := ctl_snoc v1 op (by rcases hop with rfl | rfl <;> exact trivial)
    rcases hop with rfl | rfl
    · refine ⟨⟨⟨_, hr⟩, ?_, v3, v4, v5⟩, ?_⟩
      · show CanSend ((P.C i).postBegin (K i).cnet o.message (.str o.ip)).1.ln.mgr
        rw [a1]
        unfold CanSend at v2 ⊢
        rw [a6]
        exact v2
      · intro ip hip
        show Found ((P.C i).postBegin (K i).cnet o.message (.str o.ip)).1 ip
        rw [a1]
        exact hip
    · refine ⟨⟨⟨_, hr⟩, ?_, v3, v4, v5⟩, ?_⟩
      · show CanSend ((P.C i).sendMessage (K i).cnet o.message (.str o.ip)).1.ln.mgr
        rw [a2]
        unfold CanSend at v2 ⊢
        rw [a6]
        exact v2
      · intro ip hip
        show Found ((P.C i).sendMessage (K i).cnet o.message (.str o.ip)).1 ip
        rw [a2]
        exact hip

theorem forall₂_get {α β : Type} {R : α → β → Prop} {l : List α} {m : List β} (h : List.Forall₂ R l m) (j : Nat) {x : α} (hx : l[j]? = some x) :
    ∃ y, m[j]? = some y ∧ R x y := by
  induction h generalizing j with
  | nil => simp at hx
  | cons hr _ ih =>
    cases j with
    | zero =>
      simp only [List.getElem?_cons_zero, Option.some.injEq] at hx
      subst hx
      exact ⟨_, rfl, hr⟩
    | succ j =>
      simp only [List.getElem?_cons_succ] at hx ⊢
      exact ih j hx

theorem forall₂_snoc {α β : Type} {R : α → β → Prop} {l : List α} {m : List β} (h : List.Forall₂ R l m) {l' : List α} {m' : List β} (h' : List.Forall₂ R l' m') :
    List.Forall₂ R (l ++ l') (m ++ m') := by
  induction h with
  | nil => exact h'
  | cons hr _ ih => exact .cons hr ih

/-- One step of the machines is one step of the mail. -/
theorem sim_step {ord : List Int → List Int} (hord : ValidOrder ord) {N : Nat} {K : Nat → Side} {L : Rights} {t0 : Nat → Int} {X : Mail} {P : Place}
    (hs : Sim ord N K L t0 X P) (e : Ev) (ha : L.Allow e) (hf : X.Fair e) :
    ∃ Q, Step ord N K P e Q ∧ Sim ord N K L t0 (X.step e) Q := by
  cases e with
  | post i o =>
    obtain ⟨hi, q, g, a1, a2, a3, a4, a5, a6⟩ := sim_order hord hs i o ha hf
    have a6 := a6 _ (Or.inl rfl)
    refine ⟨_, .post hi rfl, ?_⟩
    have hrun : (CtlOp.post (K i).cnet o.message (.str o.ip)).run ord (P.C i) = ((P.C i).postBegin (K i).cnet o.message (.str o.ip)).1 := rfl
    rw [hrun] at a6
    rw [a1] at a6 ⊢
    refine ⟨hs.store, ?_, ?_, ?_, a6, hs.alive⟩
    · show List.Forall₂ _ (X.air ++ _) (P.air ++ news _ _ g.log)
      rw [a3]
      exact forall₂_snoc hs.air (.cons ⟨rfl, ha, hf⟩ .nil)
    · intro j
      show (P.C.put i _ j).ln.mgr.tid % 65535 = (t0 j + (change X.count i (X.count i + 1) j : Nat)) % 65535
      by_cases e : j = i
      · subst e
        rw [ctls_put_self, change_self]
        exact a5
      · rw [ctls_put_other _ _ e, change_other _ _ e]
        exact hs.tid j
    · intro j m hm
      change change X.cur i (some (X.count i)) j = some m at hm
      show ∃ q, (P.C.put i _ j).last.request = some q ∧ q.tid = tidOf t0 j m ∧ (P.C.put i _ j).last.response = (change X.resp i none j).map _
      by_cases e : j = i
      · subst e
        rw [change_self] at hm
        obtain rfl := Option.some.inj hm
        rw [ctls_put_self, change_self]
        exact ⟨q, rfl, a4, rfl⟩
      · rw [change_other _ _ e] at hm
        rw [ctls_put_other _ _ e, change_other _ _ e]
        exact hs.cur j m hm
  | send i o =>
    obtain ⟨hi, q, g, a1, a2, a3, a4, a5, a6⟩ := sim_order hord hs i o ha hf
    have a6 := a6 _ (Or.inr rfl)
    refine ⟨_, .send hi rfl, ?_⟩
    have hrun : (CtlOp.send (K i).cnet o.message (.str o.ip)).run ord (P.C i) = ((P.C i).sendMessage (K i).cnet o.message (.str o.ip)).1 := rfl
    rw [hrun] at a6
    rw [a2] at a6 ⊢
    refine ⟨hs.store, ?_, ?_, ?_, a6, hs.alive⟩
    · show List.Forall₂ _ (X.air ++ _) (P.air ++ news _ _ g.log)
      rw [a3]
      exact forall₂_snoc hs.air (.cons ⟨rfl, ha, hf⟩ .nil)
    · intro j
      show (P.C.put i _ j).ln.mgr.tid % 65535 = (t0 j + (change X.count i (X.count i + 1) j : Nat)) % 65535
      by_cases e : j = i
      · subst e
        rw [ctls_put_self, change_self]
        exact a5
      · rw [ctls_put_other _ _ e, change_other _ _ e]
        exact hs.tid j
    · intro j m hm
      show ∃ q, (P.C.put i _ j).last.request = some q ∧ q.tid = tidOf t0 j m ∧ (P.C.put i _ j).last.response = (X.resp j).map _
      by_cases e : j = i
      · subst e
        rw [ctls_put_self]
        exact hs.cur j m hm
      · rw [ctls_put_other _ _ e]
        exact hs.cur j m hm
  | arrive j =>
    obtain hx | ⟨x, hx⟩ := Option.eq_none_or_eq_some X.air[j]?
    · simp only [Mail.Fair, hx] at hf
    · obtain ⟨p, hp, hcar⟩ := forall₂_get hs.air j hx
      cases x with
      | order i n o =>
        simp only [Mail.Fair, hx] at hf
        obtain ⟨rfl, c2, c3⟩ := hcar
        obtain ⟨hi, hsv⟩ := hs.ready.order i _ _ c2
        obtain ⟨s1, s2, s3, s4⟩ := (serves_iff ..).mp hsv
        obtain ⟨h, n1, new, b1, b2, b3, b4, b5, b6, b7, b8⟩ := host_obeys hord P.H o s1 s3 c3 (by rw [hs.store]; exact hf) (tidOf t0 i n) (tidOf_range t0 i n) (K i).addr
        refine ⟨_, .host hp b1 b2 b3, ?_⟩
        simp only [Mail.step, hx]
        refine ⟨?_, ?_, hs.tid, hs.cur, prepared_host hs.ready _ _ b7 b8, ?_⟩
        · show (P.H.put o.ip n1).store = _
          rw [b6, hs.store]
        · refine forall₂_snoc hs.air ?_
          rw [b4, news_append, b2]
          have e : new.map (fun x => (⟨(o.ip, 3610), x.1.dest, x.1.bytes⟩ : Datagram)) = (new.map fun x => (x.1.dest, x.1.bytes)).map fun y => ⟨(o.ip, 3610), y.1, y.2⟩ := by
            rw [List.map_map]
            rfl
          rw [e, b5, hs.store]
          obtain hr | ⟨a, hr⟩ := Option.eq_none_or_eq_some (X.store.reply o)
          · rw [hr]
            exact .nil
          · rw [hr]
            obtain ⟨r1, r2, r3, r4, r5, r6, -⟩ := reply_shape hr
            obtain ⟨f1, f2⟩ := hf.1 a hr
            exact .cons ⟨rfl, by rw [r2]; exact c2, r1, r3, r4, ⟨r5, r6⟩, f1, f2⟩ .nil
        · show (P.alive && true) = true
          rw [hs.alive]
          rfl
      | reply i n ip a =>
        simp only [Mail.Fair, hx] at hf
        obtain ⟨rfl, c2, c3, c4, c5, c6, c7, c8⟩ := hcar
        obtain ⟨hi, hsv⟩ := hs.ready.order i _ _ c2
        obtain ⟨s1, s2, s3, s4⟩ := (serves_iff ..).mp hsv
        obtain ⟨c', b1, b2, ⟨c0, b3, b4⟩, b5, b6⟩ := ctl_hears hord (K i) (P.C i) s2 ip s4 a c3 s3 c4 c5 c6 c7 c8 (tidOf t0 i n) (tidOf_range t0 i n)
        refine ⟨_, .ctl hp hi rfl b1, ?_⟩
        have hair : P.air ++ news (K i).addr (P.C i).ln.mgr.log c'.ln.mgr.log = P.air := by rw [b2, news_same, List.append_nil]
        have hal : (P.alive && true) = true := by rw [hs.alive]; rfl
        have htid : ∀ j, (P.C.put i c' j).ln.mgr.tid % 65535 = (t0 j + X.count j) % 65535 := by
          intro j
          by_cases e : j = i
          · subst e
            rw [ctls_put_self, b2]
            exact hs.tid j
          · rw [ctls_put_other _ _ e]
            exact hs.tid j
        rw [hair]
        have hready := prepared_ctl hs.ready i c' (fun _ => ⟨b5, b6⟩)
        by_cases hcur : X.cur i = some n ∧ X.resp i = none
        · simp only [Mail.step, hx, if_pos hcur]
          refine ⟨hs.store, hs.air, htid, ?_, hready, hal⟩
          intro k m hm
          change X.cur k = some m at hm
          show ∃ q, (P.C.put i c' k).last.request = some q ∧ q.tid = tidOf t0 k m ∧ (P.C.put i c' k).last.response = (change X.resp i _ k).map _
          by_cases e : k = i
          · subst e
            rw [hcur.1] at hm
            obtain rfl := Option.some.inj hm
            obtain ⟨q, q1, q2, q3⟩ := hs.cur k _ hcur.1
            rw [hcur.2] at q3
            rw [ctls_put_self, change_self, b4]
            refine ⟨q, ?_⟩
            have hl : c0.last = { request := some q } := by
              rw [b3]
              rcases hll : (P.C k).last with ⟨x, y⟩
              rw [hll] at q1 q3
              simp only [Option.map_none] at q1 q3
              rw [q1, q3]
            unfold Ctl.receiveResponse
            simp [hl, Post.isWaiting, Msg.isResponseMessage, q2]
          · rw [ctls_put_other _ _ e, change_other _ _ e]
            exact hs.cur k m hm
        · simp only [Mail.step, hx, if_neg hcur]
          refine ⟨hs.store, hs.air, htid, ?_, hready, hal⟩
          intro k m hm
          show ∃ q, (P.C.put i c' k).last.request = some q ∧ q.tid = tidOf t0 k m ∧ (P.C.put i c' k).last.response = (X.resp k).map _
          by_cases e : k = i
          · subst e
            obtain ⟨q, q1, q2, q3⟩ := hs.cur k _ hm
            rw [ctls_put_self, b4]
            have hl : (c0.receiveResponse { a with tid := tidOf t0 k n, fromAddr := some (ip, 3610) }).last = (P.C k).last := by
              rcases last_receiveResponse c0 { a with tid := tidOf t0 k n, fromAddr := some (ip, 3610) } with h | ⟨q', h1, h2, -⟩
              · exact h.trans b3
              · exfalso
                rw [b3] at h1
                rw [h1] at q1 q3
                obtain rfl := Option.some.inj q1
                obtain ⟨w1, w2⟩ := hf m hm
                have := tidOf_inj t0 k n m w1 w2 (h2.symm.trans q2)
                subst this
                refine hcur ⟨hm, ?_⟩
                cases hr : X.resp k with
                | none => rfl
                | some z => rw [hr] at q3; cases q3
            rw [hl]
            exact ⟨q, q1, q2, q3⟩
          · rw [ctls_put_other _ _ e]
            exact hs.cur k m hm
  | assign ip k c data =>
    obtain ⟨h1, h2⟩ := ha
    obtain ⟨h, h3, h4⟩ := hs.ready.assign ip h1
    obtain ⟨h', a1, a2, a3⟩ := assign_step hord K P.C P.H ip k c data ⟨h2, h, h3, h4⟩
    rw [h3] at a1
    obtain rfl := Option.some.inj a1
    refine ⟨_, .assign h3, ?_⟩
    refine ⟨by show (P.H.put ip _).store = _; rw [a2, hs.store]; rfl, hs.air, hs.tid, hs.cur, ?_, hs.alive⟩
    obtain ⟨-, g, g1, g2⟩ := a3 (.assign ip k c data) ⟨h2, h, h3, h4⟩
    have hg : g.node = h.node.update k fun o => (o.setPropertyData c data).1 := by
      unfold Machines.put at g1
      rw [if_pos rfl, h3] at g1
      obtain rfl := Option.some.inj g1
      rfl
    refine ⟨?_, ?_, hs.ready.apart, ?_⟩
    · intro i ip' k' hl
      obtain ⟨h1, h2⟩ := hs.ready.order i ip' k' hl
      exact ⟨h1, a3 (.request i (.read ip' k' [])) h2⟩
    · intro ip' hl
      exact (a3 (.assign ip' k c data) ⟨h2, hs.ready.assign ip' hl⟩).2
    · intro i g hi hg
      change (P.H.put ip _) (K i).addr.1 = some g at hg
      unfold Machines.put at hg
      split at hg
      · rename_i e
        rw [h3] at hg
        obtain rfl := Option.some.inj hg
        exact hs.ready.hosts i h hi (by rw [e]; exact h3)
      · exact hs.ready.hosts i g hi hg

end Uecho
