/- What a machine sends when a datagram arrives, for any handler, listeners and network. -/
import Verif.Spec.Storm
import Verif.Lemmas.Response
import Verif.Props.Node

namespace Uecho
open Spec

/-! ### Controllers do not use the network when they get a response -/

theorem notifyLoop_ln (cenv : CEnv) (call : Call) (ls : List Nat) : ∀ c : Ctl, (Ctl.notifyLoop cenv call ls c).1.ln = c.ln := by
  induction ls with
  | nil => intro c; rfl
  | cons l ls ih =>
    intro c
    unfold Ctl.notifyLoop
    simp only []
    split
    · rfl
    · exact ih _

theorem notify_ln (cenv : CEnv) (c : Ctl) (call : Call) : (c.notify cenv call).1.ln = c.ln := notifyLoop_ln cenv call _ c

theorem updateLoop_ln (cenv : CEnv) (ip : String) (code : Int) (ms : List PProp) : ∀ (c : Ctl) (r : Remote) (o : Obj) (b : Bool),
    (Ctl.updateLoop cenv ip code ms c r o b).1.ln = c.ln := by
  induction ms with
  | nil => intro c r o b; rfl
  | cons m ms ih =>
    intro c r o b
    unfold Ctl.updateLoop
    split
    · exact ih _ _ _ _
    · split
      · simp only []
        split
        · rename_i c' e h
          have := notify_ln cenv (c.putRemote ip (r.putObj code (o.storeData m.code m.data))) (.propertyUpdated (r.putObj code (o.storeData m.code m.data)) (o.storeData m.code m.data).code m.code m.data)
          rw [h] at this
          exact this
        · rename_i c' h
          have := notify_ln cenv (c.putRemote ip (r.putObj code (o.storeData m.code m.data))) (.propertyUpdated (r.putObj code (o.storeData m.code m.data)) (o.storeData m.code m.data).code m.code m.data)
          rw [h] at this
          exact (ih _ _ _ _).trans this
      · exact ih _ _ _ _

theorem updateProperties_ln (cenv : CEnv) (c : Ctl) (m : Msg) : (c.updateProperties cenv m).1.ln = c.ln := by
  unfold Ctl.updateProperties
  split
  · rfl
  · rfl
  · rename_i r _
    split
    · rfl
    · rename_i o _
      have hl := updateLoop_ln cenv r.node.ip m.deoj m.props c r o false
      generalize Ctl.updateLoop cenv r.node.ip m.deoj m.props c r o false = q at hl ⊢
      rcases q with ⟨c1, r1, e | (_ | _)⟩
      · exact hl
      · exact hl
      · simp only []
        have h1 := notify_ln cenv c1 (.objectUpdated r1 o.code)
        generalize c1.notify cenv (.objectUpdated r1 o.code) = q at h1 ⊢
        rcases q with ⟨c2, _ | e⟩
        · simp only []
          have h2 : (c2.notifyNodeUpdated cenv r1).1.ln = c2.ln := notify_ln cenv c2 _
          generalize c2.notifyNodeUpdated cenv r1 = q at h2 ⊢
          rcases q with ⟨c3, _ | e⟩ <;> exact h2.trans (h1.trans hl)
        · exact h1.trans hl

theorem addFoundNode_ln (cenv : CEnv) (c : Ctl) (r : Remote) : (c.addFoundNode cenv r).1.ln = c.ln := by
  unfold Ctl.addFoundNode
  have h : ∀ q : Ctl × Option Exc, q.1.ln = c.ln → (match q with
      | (c, some e) => (c, Except.error e)
      | (c, none) => ({ c with found := Dict.set c.found r.node.ip { r with linked := true } }, Except.ok true) : Ctl × Except Exc Bool).1.ln = c.ln := by
    rintro ⟨c', _ | e⟩ h <;> exact h
  apply h
  split
  · exact notify_ln cenv c _
  · exact notify_ln cenv c _

theorem receiveProfile_ln (ord : List Int → List Int) (cenv : CEnv) (c : Ctl) (m : Msg) : (c.receiveProfile ord cenv m).1.ln = c.ln := by
  unfold Ctl.receiveProfile
  split
  · rfl
  · rfl
  · split
    · rfl
    · split
      · rfl
      · rfl
      · rename_i node _
        have h1 := addFoundNode_ln cenv c { node := node }
        generalize c.addFoundNode cenv { node := node } = q at h1 ⊢
        rcases q with ⟨c1, e | b⟩ <;> exact h1

/-- Whatever listeners do: only requests reach the node of a controller. -/
theorem ctl_ln (ord : List Int → List Int) (env : Env) (cenv : CEnv) (net : Net) (c : Ctl) (m : Msg) :
    (c.messageReceived ord env cenv net m).1.ln = if ESV.isRequest m.esv = true then (c.ln.messageReceived env net m).1 else c.ln := by
  by_cases hr : ESV.isRequest m.esv = true
  · rw [request_eq ord env cenv net c m hr, if_pos hr]
  · rw [if_neg hr]
    unfold Ctl.messageReceived
    rw [if_neg (by rw [not_self]; simp), if_neg hr]
    simp only []
    split
    · rfl
    · split
      · rfl
      · rename_i msg _
        have h1 := receiveProfile_ln ord cenv c msg
        generalize c.receiveProfile ord cenv msg = q at h1 ⊢
        rcases q with ⟨c1, e | u⟩
        · exact h1
        · simp only []
          have h2 : (c1.receiveProperties cenv msg).1.ln = c1.ln := by
            unfold Ctl.receiveProperties
            split
            · exact updateProperties_ln cenv c1 msg
            · rfl
          generalize c1.receiveProperties cenv msg = q at h2 ⊢
          rcases q with ⟨c2, e | u⟩
          · exact h2.trans h1
          · exact (receiveResponse_found c2 msg).2.1.trans (h2.trans h1)

/-! ### Answers -/

/-- An answer is not a request. -/
theorem answer_esv (env : Env) (o : Obj) (m r : Msg) (h : (o.messageReceived env m).result = .ok (some r)) :
    r.esv ∈ [0x50, 0x52, 0x53, 0x5E, 0x71, 0x72, 0x73, 0x7A, 0x7E] := by
  have key : ∀ (res : Msg) (n : Nat), Obj.respond m res n = some r → r.esv ∈ [0x50, 0x52, 0x53, 0x5E, 0x71, 0x72, 0x73, 0x7A, 0x7E] := by
    intro res n h
    unfold Obj.respond at h
    simp only [] at h
    repeat' split at h
    all_goals first
      | (injection h with h
         have he := congrArg Msg.esv h
         simp only [] at he
         rw [← he]
         decide)
      | cases h
  rcases handleRequest_some (recv_some h) with ⟨-, o1, o2, c1, c2, sps, gps, -, -, hr⟩ | ⟨-, o1, c1, ps, -, hr⟩
  · exact key _ _ hr
  · exact key _ _ hr

theorem transmit_servers (net : Net) (g : Manager) (s : Server) (m : Msg) (d : Addr) : (g.transmit net s m d).1.servers = g.servers := by
  unfold Manager.transmit
  repeat' split
  all_goals rfl

theorem serverSend_servers (net : Net) (g : Manager) (s : Server) (m : Msg) (a : Option Addr) : (g.serverSend net s m a).1.servers = g.servers := by
  unfold Manager.serverSend
  split
  · rfl
  · split
    · rfl
    · exact transmit_servers net g s _ _

theorem serverAnnounce_servers (net : Net) (g : Manager) (s : Server) (m : Msg) : (g.serverAnnounce net s m).1.servers = g.servers := by
  unfold Manager.serverAnnounce
  split
  · rfl
  · exact transmit_servers net g s _ _

theorem sendLoop_servers (net : Net) (a : Option Addr) (ss : List Server) : ∀ (g : Manager) (m : Msg), (Manager.sendLoop net a ss g m).1.servers = g.servers := by
  induction ss with
  | nil => intro g m; rfl
  | cons s ss ih =>
    intro g m
    unfold Manager.sendLoop
    split
    · have h := serverSend_servers net g s m a
      generalize g.serverSend net s m a = q at h ⊢
      rcases q with ⟨g', m', e | (_ | _)⟩
      · exact h
      · exact (ih _ _).trans h
      · exact h
    · exact ih _ _

theorem announceLoop_servers (net : Net) (ss : List Server) : ∀ (g : Manager) (m : Msg), (Manager.announceLoop net ss g m).1.servers = g.servers := by
  induction ss with
  | nil => intro g m; rfl
  | cons s ss ih =>
    intro g m
    unfold Manager.announceLoop
    split
    · have h := serverAnnounce_servers net g s m
      generalize g.serverAnnounce net s m = q at h ⊢
      rcases q with ⟨g', m', e | b⟩
      · exact h
      · exact (ih _ _).trans h
    · exact ih _ _

theorem send_servers (net : Net) (g : Manager) (m : Msg) (a : Option Addr) : (g.send net m a).1.servers = g.servers ∧ (g.announce net m).1.servers = g.servers := by
  obtain ⟨t, t', ha⟩ := assign_shape g m
  unfold Manager.send Manager.announce
  rw [ha]
  exact ⟨sendLoop_servers net a _ _ _, announceLoop_servers net _ _ _⟩

theorem working_length (ss : List Server) : (working ss).length ≤ ss.length := by
  unfold working; exact List.length_filter_le _ _

/-- What is sent as an answer: at most one datagram per server, all with the service of the answer; the
servers stay. -/
theorem answer_few (net : Net) (n : LocalNode) (req res : Msg) :
    ∃ new, (n.answer net req (some res)).1.mgr.log = n.mgr.log ++ new ∧ new.length ≤ n.mgr.servers.length ∧
      (n.answer net req (some res)).1.mgr.servers = n.mgr.servers ∧
      ∀ x ∈ new, ∃ t s, x.1.bytes = encode { res with tid := t, seoj := s } := by
  obtain ⟨new, t, h1, -, -, h2, -, h3⟩ := answer_log net n req res
  refine ⟨new, h1, ?_, ?_, ?_⟩
  · by_cases hm : Encodable res
    swap
    · rw [h3 hm]; simp
    have hm' := (outgoing_encodable n res).mpr hm
    rw [answer_eq] at h1
    have hlen : ∀ (new' : List (Sent × Int)) (j : Nat), new'.map (fun x => x.1.ifaddr) = ((working n.mgr.servers).map (·.ifaddr)).take j →
        n.mgr.log ++ new' = n.mgr.log ++ new → new.length ≤ n.mgr.servers.length := by
      intro new' j h e
      have := List.append_cancel_left e
      subst this
      have := congrArg List.length h
      rw [List.length_map, List.length_take, List.length_map] at this
      have hw := working_length n.mgr.servers
      omega
    split at h1
    · obtain ⟨new', e1, -, ⟨j, e2⟩, -⟩ := C54_announce net n.mgr (outgoing n res) hm'
      exact hlen new' j e2 (e1.symm.trans h1)
    · cases ha : req.fromAddr with
      | none =>
        rw [ha] at h1
        have : n.mgr.log ++ [] = n.mgr.log ++ new := by rw [List.append_nil]; exact (C54_send_nowhere net n.mgr (outgoing n res)).1.symm.trans h1
        rw [← List.append_cancel_left this]
        simp
      | some a =>
        rw [ha] at h1
        obtain ⟨new', e1, -, ⟨j, e2⟩, -⟩ := C54_send net n.mgr (outgoing n res) a hm'
        exact hlen new' j e2 (e1.symm.trans h1)
  · rw [answer_eq]
    split
    · exact (send_servers net n.mgr (outgoing n res) none).2
    · exact (send_servers net n.mgr (outgoing n res) req.fromAddr).1
  · intro x hx
    refine ⟨t, (outgoing n res).seoj, ?_⟩
    rw [(h2 x hx).1]
    congr 1
    unfold outgoing
    split <;> rfl

/-- What a node sends when it gets a message. -/
theorem node_sends (env : Env) (net : Net) (n : LocalNode) (m : Msg) :
    ∃ new, (n.messageReceived env net m).1.mgr.log = n.mgr.log ++ new ∧ new.length ≤ n.mgr.servers.length ∧
      (n.messageReceived env net m).1.mgr.servers = n.mgr.servers ∧
      (∀ x ∈ new, ∃ r : Msg, x.1.bytes = encode r ∧ r.esv ∈ [0x50, 0x52, 0x53, 0x5E, 0x71, 0x72, 0x73, 0x7A, 0x7E]) ∧
      (ESV.isRequest m.esv = false → new = []) := by
  by_cases hm : Encodable m
  swap
  · rw [messageReceived_unfit env net n m hm]; exact ⟨[], by simp, by simp, rfl, by simp, fun _ => rfl⟩
  rw [messageReceived_eq env net n m hm]
  split
  · exact ⟨[], by simp, by simp, rfl, by simp, fun _ => rfl⟩
  · rename_i s hs
    have hmgr : ∀ o, (n.putBack (m.deoj % 2 ^ 24) s o).mgr = n.mgr := by intro o; cases s <;> rfl
    simp only []
    split
    · exact ⟨[], by rw [hmgr, List.append_nil], by simp, by rw [hmgr], by simp, fun _ => rfl⟩
    · rename_i res hres
      cases res with
      | none =>
        refine ⟨[], ?_, by simp, ?_, by simp, fun _ => rfl⟩
        · show (n.putBack _ s _).mgr.log = _; rw [hmgr]; simp
        · show (n.putBack _ s _).mgr.servers = _; rw [hmgr]
      | some res =>
        obtain ⟨new, h1, h2, h3, h4⟩ := answer_few net (n.putBack (m.deoj % 2 ^ 24) s ((n.deref s).messageReceived env (received m)).obj) (received m) res
        rw [hmgr] at h1 h2 h3
        refine ⟨new, h1, h2, h3, ?_, ?_⟩
        · intro x hx
          obtain ⟨t, sj, hb⟩ := h4 x hx
          exact ⟨_, hb, answer_esv env _ (received m) res hres⟩
        · intro hr
          exfalso
          refine (C22_only_requests env (n.deref s) (received m) (Or.inl ?_)).2.1 res hres
          intro hmem
          have : RequestEsv m.esv := by
            simp only [List.mem_cons, List.not_mem_nil, or_false] at hmem
            exact hmem
          rw [(isRequest_iff m.esv).mpr this] at hr
          cases hr

/-- What a machine sends when a message is delivered. -/
theorem party_sends (ord : List Int → List Int) (w : Moment) (p : Party) (m : Msg) :
    ∃ new, (p.deliver ord w m).1.mgr.log = p.mgr.log ++ new ∧ new.length ≤ p.mgr.servers.length ∧
      (p.deliver ord w m).1.mgr.servers = p.mgr.servers ∧
      (∀ x ∈ new, ∃ r : Msg, x.1.bytes = encode r ∧ r.esv ∈ [0x50, 0x52, 0x53, 0x5E, 0x71, 0x72, 0x73, 0x7A, 0x7E]) ∧
      (ESV.isRequest m.esv = false → new = []) := by
  cases p with
  | device n => exact node_sends w.env w.net n m
  | controller c =>
    show ∃ new, (c.messageReceived ord w.env w.cenv w.net m).1.ln.mgr.log = c.ln.mgr.log ++ new ∧ new.length ≤ c.ln.mgr.servers.length ∧
      (c.messageReceived ord w.env w.cenv w.net m).1.ln.mgr.servers = c.ln.mgr.servers ∧ _
    rw [ctl_ln]
    split
    · exact node_sends w.env w.net c.ln m
    · exact ⟨[], by simp, by simp, rfl, by simp, fun _ => rfl⟩

/-! ### Bytes -/

theorem encode_service (m : Msg) (rest : Bytes) : (encode m ++ rest)[10]? = some (UInt8.ofNat m.esv.toNat) := by
  unfold encode encHeader
  have h2 : ∀ x : Int, (beDigits x 2).length = 2 := fun x => beDigits_length x _
  have h3 : ∀ x : Int, (beDigits x 3).length = 3 := fun x => beDigits_length x _
  have e2 := h2 m.tid
  have e3 := h3 m.seoj
  have e4 := h3 m.deoj
  generalize beDigits m.tid 2 = a at e2
  generalize beDigits m.seoj 3 = b at e3
  generalize beDigits m.deoj 3 = c at e4
  match a, b, c, e2, e3, e4 with
  | [_, _], [_, _, _], [_, _, _], _, _, _ => rfl

theorem answer_asks_not (r : Msg) (h : r.esv ∈ ([0x50, 0x52, 0x53, 0x5E, 0x71, 0x72, 0x73, 0x7A, 0x7E] : List Int)) : ¬ AsksFor (encode r) := by
  have := encode_service r []
  rw [List.append_nil] at this
  unfold AsksFor
  rw [this]
  generalize r.esv = e at h
  simp only [List.mem_cons, List.not_mem_nil, or_false] at h
  rcases h with rfl | rfl | rfl | rfl | rfl | rfl | rfl | rfl | rfl <;> decide

/-- What a machine sends when a datagram arrives. -/
theorem hear_sends (ord : List Int → List Int) (w : Moment) (p : Party) (bytes : Bytes) (src : Addr) :
    ∃ new, (p.hear ord w bytes src).mgr.log = p.mgr.log ++ new ∧ new.length ≤ p.mgr.servers.length ∧
      (p.hear ord w bytes src).mgr.servers = p.mgr.servers ∧ (∀ x ∈ new, ¬ AsksFor x.1.bytes) ∧ (¬ AsksFor bytes → new = []) := by
  unfold Party.hear recvOne
  have triv : ∃ new, p.mgr.log = p.mgr.log ++ new ∧ new.length ≤ p.mgr.servers.length ∧ p.mgr.servers = p.mgr.servers ∧
      (∀ x ∈ new, ¬ AsksFor x.1.bytes) ∧ (¬ AsksFor bytes → new = []) := ⟨[], by simp, by simp, rfl, by simp, fun _ => rfl⟩
  split
  · exact triv
  · exact triv
  · rename_i m hp
    simp only []
    split
    · exact triv
    · obtain ⟨new, h1, h2, h3, h4, h5⟩ := party_sends ord w p { m with fromAddr := some src }
      generalize p.deliver ord w { m with fromAddr := some src } = q at h1 h3 ⊢
      suffices hfst : ∃ new, q.1.mgr.log = p.mgr.log ++ new ∧ new.length ≤ p.mgr.servers.length ∧ q.1.mgr.servers = p.mgr.servers ∧
          (∀ x ∈ new, ¬ AsksFor x.1.bytes) ∧ (¬ AsksFor bytes → new = []) by
        rcases q with ⟨q, _ | e⟩ <;> exact hfst
      refine ⟨new, h1, h2, h3, ?_, ?_⟩
      · intro x hx
        obtain ⟨r, e1, e2⟩ := h4 x hx
        rw [e1]
        exact answer_asks_not r e2
      · intro ha
        apply h5
        show ESV.isRequest m.esv = false
        by_contra hne
        have hreq := (isRequest_iff m.esv).mp (by simpa using hne)
        apply ha
        obtain ⟨-, tr, -, hb⟩ := C05_parser_sound (bytes.take RECV_SIZE) true (by rw [hp])
        rw [hp] at hb
        have h10 := encode_service m tr
        rw [← hb, List.getElem?_take, if_pos (by decide)] at h10
        unfold AsksFor
        rw [h10]
        refine ⟨_, rfl, ?_⟩
        unfold RequestEsv at hreq
        rcases hreq with e | e | e | e | e | e <;> rw [e] <;> decide

/-- How many datagrams an answer makes if the network works. -/
theorem answer_count (net : Net) (hs : NetWorks net) (n : LocalNode) (req res : Msg) :
    (n.answer net req (some res)).1.mgr.log.length = n.mgr.log.length +
      if Encodable res then (if ESV.isNotification res.esv = true then (working n.mgr.servers).length
        else if req.fromAddr = none then 0 else min 1 (working n.mgr.servers).length) else 0 := by
  rw [answer_eq]
  by_cases hm : Encodable res
  swap
  · rw [if_neg hm]
    have hm' : ¬ Encodable (outgoing n res) := fun h => hm ((outgoing_encodable n res).mp h)
    split
    · exact congrArg List.length (C54_announce_unfit net n.mgr (outgoing n res) hm').1
    · cases ha : req.fromAddr with
      | none => exact congrArg List.length (C54_send_nowhere net n.mgr (outgoing n res)).1
      | some a => exact congrArg List.length (C54_send_unfit net n.mgr (outgoing n res) a hm').1
  rw [if_pos hm]
  have hm' := (outgoing_encodable n res).mpr hm
  have none_of : ∀ (new : List (Sent × Int)) (j : Nat), working n.mgr.servers = [] →
      new.map (fun x => x.1.ifaddr) = ((working n.mgr.servers).map (·.ifaddr)).take j → new = [] := by
    intro new j hw h
    rw [hw] at h
    simpa using h
  by_cases hn : ESV.isNotification res.esv = true
  · rw [if_pos hn, if_pos hn]
    by_cases hw : working n.mgr.servers = []
    · obtain ⟨new, h1, -, ⟨j, h2⟩, -⟩ := C54_announce net n.mgr (outgoing n res) hm'
      show (n.mgr.announce net (outgoing n res)).1.log.length = _
      rw [h1, none_of new j hw h2, hw]
      simp
    · obtain ⟨-, -, h, -⟩ := C54_works net n.mgr (outgoing n res) ("", 0) hm' hw hs
      show (n.mgr.announce net (outgoing n res)).1.log.length = _
      rw [h]
      simp
  · rw [if_neg hn, if_neg hn]
    cases ha : req.fromAddr with
    | none => exact congrArg List.length (C54_send_nowhere net n.mgr (outgoing n res)).1
    | some a =>
      rw [if_neg (by simp)]
      by_cases hw : working n.mgr.servers = []
      · obtain ⟨new, h1, -, ⟨j, h2⟩, -⟩ := C54_send net n.mgr (outgoing n res) a hm'
        show (n.mgr.send net (outgoing n res) (some a)).1.log.length = _
        rw [h1, none_of new j hw h2, hw]
        simp
      · obtain ⟨⟨s, -, h⟩, -⟩ := C54_works net n.mgr (outgoing n res) a hm' hw hs
        show (n.mgr.send net (outgoing n res) (some a)).1.log.length = _
        rw [h]
        have : 0 < (working n.mgr.servers).length := List.length_pos_iff.mpr hw
        simp
        omega

/-- How many datagrams a message to a node makes. -/
theorem receive_count (env : Env) (net : Net) (hs : NetWorks net) (n : LocalNode) (m : Msg) (hm : Encodable m) :
    (n.messageReceived env net m).1.mgr.log.length = n.mgr.log.length +
      match Dict.get? n.node.objects (m.deoj % 2 ^ 24) with
      | none => 0
      | some s => match ((n.deref s).messageReceived env (received m)).result with
        | .ok (some res) => if Encodable res then (if ESV.isNotification res.esv = true then (working n.mgr.servers).length
            else if m.fromAddr = none then 0 else min 1 (working n.mgr.servers).length) else 0
        | _ => 0 := by
  rw [messageReceived_eq env net n m hm]
  rcases hg : Dict.get? n.node.objects (m.deoj % 2 ^ 24) with _ | s
  · rfl
  · have hmgr : ∀ o, (n.putBack (m.deoj % 2 ^ 24) s o).mgr = n.mgr := by intro o; cases s <;> rfl
    simp only []
    rcases hres : ((n.deref s).messageReceived env (received m)).result with e | (_ | res)
    · simp only []; rw [hmgr]; rfl
    · show (n.putBack _ s _).mgr.log.length = _; rw [hmgr]; rfl
    · simp only []
      rw [answer_count net hs, hmgr]
      rfl

/-- The same for a message to a known object. -/
theorem receive_count_at (env : Env) (net : Net) (hs : NetWorks net) (n : LocalNode) (m : Msg) (hm : Encodable m) (hd : 0 ≤ m.deoj ∧ m.deoj < 2 ^ 24)
    (o : Obj) (ho : n.getObject (.int m.deoj) = some o) :
    (n.messageReceived env net m).1.mgr.log.length = n.mgr.log.length +
      match (o.messageReceived env (received m)).result with
      | .ok (some res) => if Encodable res then (if ESV.isNotification res.esv = true then (working n.mgr.servers).length
          else if m.fromAddr = none then 0 else min 1 (working n.mgr.servers).length) else 0
      | _ => 0 := by
  rw [receive_count env net hs n m hm, Int.emod_eq_of_lt hd.1 hd.2]
  obtain ⟨s, hs, hso⟩ := Option.map_eq_some_iff.mp ho
  change Dict.get? n.node.objects m.deoj = some s at hs
  rw [hs]
  simp only []
  rw [hso]

end Uecho
