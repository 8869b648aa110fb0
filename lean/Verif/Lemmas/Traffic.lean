import Verif.Spec.Traffic

namespace Uecho
open Spec

/-! ### Receiving does not touch the local node -/

theorem ln_notifyLoop (cenv : CEnv) (call : Call) (ls : List Nat) : ∀ c : Ctl, (Ctl.notifyLoop cenv call ls c).1.ln = c.ln := by
  induction ls with
  | nil => intro c; rfl
  | cons l ls ih =>
    intro c
    unfold Ctl.notifyLoop
    simp only []
    cases cenv.listen l c.found call with
    | some e => rfl
    | none => exact ih _

theorem ln_notify (cenv : CEnv) (c : Ctl) (call : Call) : (c.notify cenv call).1.ln = c.ln := ln_notifyLoop cenv call _ c

theorem ln_updateLoop (cenv : CEnv) (ip : String) (code : Int) (ms : List PProp) : ∀ (c : Ctl) (r : Remote) (o : Obj) (u : Bool),
    (Ctl.updateLoop cenv ip code ms c r o u).1.ln = c.ln := by
  induction ms with
  | nil => intro c r o u; rfl
  | cons mp ms ih =>
    intro c r o u
    unfold Ctl.updateLoop
    split
    · exact ih c r o u
    · split
      · have h1 := ln_notify cenv (c.putRemote ip (r.putObj code (o.storeData mp.code mp.data)))
          (.propertyUpdated (r.putObj code (o.storeData mp.code mp.data)) (o.storeData mp.code mp.data).code mp.code mp.data)
        simp only []
        generalize Ctl.notify cenv _ _ = q at h1 ⊢
        rcases q with ⟨c', (_ | e)⟩
        · exact (ih _ _ _ _).trans h1
        · exact h1
      · exact ih c r o u

theorem ln_updateProperties (cenv : CEnv) (c : Ctl) (m : Msg) : (c.updateProperties cenv m).1.ln = c.ln := by
  unfold Ctl.updateProperties
  split
  · rfl
  · rfl
  · rename_i r _
    split
    · rfl
    · rename_i o _
      have h1 := ln_updateLoop cenv r.node.ip m.deoj m.props c r o false
      generalize Ctl.updateLoop cenv r.node.ip m.deoj m.props c r o false = q at h1 ⊢
      rcases q with ⟨c1, r1, (e | (_ | _))⟩
      · exact h1
      · exact h1
      · simp only []
        have h2 := ln_notify cenv c1 (.objectUpdated r1 o.code)
        generalize Ctl.notify cenv c1 _ = q at h2 ⊢
        rcases q with ⟨c2, (_ | e)⟩
        · simp only []
          have h3 := ln_notify cenv c2 (.nodeAdd r1)
          unfold Ctl.notifyNodeUpdated
          generalize Ctl.notify cenv c2 _ = q at h3 ⊢
          rcases q with ⟨c3, (_ | e)⟩
          · exact h3.trans (h2.trans h1)
          · exact h3.trans (h2.trans h1)
        · exact h2.trans h1

theorem ln_receiveProfile (ord : List Int → List Int) (cenv : CEnv) (c : Ctl) (m : Msg) : (c.receiveProfile ord cenv m).1.ln = c.ln := by
  unfold Ctl.receiveProfile
  split
  · rfl
  · rfl
  · split
    · rfl
    · split
      · rfl
      · rfl
      · rename_i node _
        unfold Ctl.addFoundNode
        simp only [Ctl.notifyNodeUpdated, ite_self]
        have h1 := ln_notify cenv c (.nodeAdd { node := node })
        generalize Ctl.notify cenv c _ = q at h1 ⊢
        rcases q with ⟨c1, (_ | e)⟩
        · exact h1
        · exact h1

theorem ln_receiveProperties (cenv : CEnv) (c : Ctl) (m : Msg) : (c.receiveProperties cenv m).1.ln = c.ln := by
  unfold Ctl.receiveProperties
  split
  · exact ln_updateProperties cenv c m
  · rfl

theorem ln_receiveResponse (c : Ctl) (m : Msg) : (c.receiveResponse m).ln = c.ln := by
  unfold Ctl.receiveResponse
  split
  · split
    · split <;> rfl
    · rfl
  · rfl

/-- Whatever is received, but for requests. -/
theorem ln_receive (ord : List Int → List Int) (env : Env) (cenv : CEnv) (net : Net) (c : Ctl) (m : Msg) (hr : ¬ RequestEsv m.esv) :
    (c.messageReceived ord env cenv net m).1.ln = c.ln := by
  have hr' : ESV.isRequest m.esv = false := by
    rw [← isRequest_iff] at hr
    simpa using hr
  unfold Ctl.messageReceived
  rw [if_neg (by rw [not_self]; simp), hr']
  simp only [isResponse_eq, hr']
  by_cases hm : Encodable m
  · obtain ⟨x, hx, -⟩ := (C10_copy m).1 hm
    rw [hx]
    simp only [Bool.not_false, Bool.false_eq_true, if_false]
    have h1 := ln_receiveProfile ord cenv c x
    generalize hq : Ctl.receiveProfile ord cenv c x = q at h1
    rcases q with ⟨c1, (e | u)⟩
    · exact h1
    · simp only []
      have h2 := ln_receiveProperties cenv c1 x
      generalize hq2 : Ctl.receiveProperties cenv c1 x = q at h2
      rcases q with ⟨c2, (e | u)⟩
      · exact h2.trans h1
      · exact (ln_receiveResponse c2 x).trans (h2.trans h1)
  · rw [(C10_copy m).2 hm]
    rfl

/-- Answering a request that has a TID does not use up one. -/
theorem tid_request (env : Env) (net : Net) (n : LocalNode) (m : Msg) (hr : 0 ≤ n.mgr.tid ∧ n.mgr.tid ≤ 65535) (ht : m.tid % 2 ^ 16 ≠ 0) :
    (n.messageReceived env net m).1.mgr.tid = n.mgr.tid := by
  by_cases hm : Encodable m
  · rw [messageReceived_eq env net n m hm]
    split
    · rfl
    · rename_i s _
      simp only []
      have hmgr : ∀ k s o, (n.putBack k s o).mgr = n.mgr := by intro k s o; cases s <;> rfl
      generalize hres : ((n.deref s).messageReceived env (received m)).result = res
      rcases res with e | (_ | res)
      · simp only []
        rw [hmgr]
      · exact congrArg Manager.tid (hmgr _ _ _)
      · simp only []
        obtain ⟨h1, -, -⟩ := C13_addressing env _ _ _ hres
        have hz : res.tid ≠ 0 := by rw [h1]; exact ht
        have hout : ∀ n', (outgoing n' res).tid = res.tid := by intro n'; unfold outgoing; split <;> rfl
        rw [answer_eq]
        generalize hn : n.putBack (m.deoj % 2 ^ 24) s ((n.deref s).messageReceived env (received m)).obj = n'
        have hm' : n'.mgr = n.mgr := by rw [← hn, hmgr]
        rw [← hm'] at hr ⊢
        split
        · have := op_tid n'.mgr (.announce net (outgoing n' res)) hr
          simp only [MgrOp.message] at this
          rw [if_neg (by rw [hout]; exact hz)] at this
          exact this.1
        · have := op_tid n'.mgr (.send net (outgoing n' res) (received m).fromAddr) hr
          simp only [MgrOp.message] at this
          rw [if_neg (by rw [hout]; exact hz)] at this
          exact this.1
  · rw [messageReceived_unfit env net n m hm]

/-- What the counter and the messages are after some traffic. -/
structure TrafficInv (t0 : Int) (c : Ctl) (sent : List Msg) (cur : Option Nat) (arrived : List (Nat × Msg)) : Prop where
  range : 0 ≤ c.ln.mgr.tid ∧ c.ln.mgr.tid ≤ 65535
  counter : c.ln.mgr.tid % 65535 = (t0 + sent.length) % 65535
  tids : ∀ (i : Nat) q, sent[i]? = some q → q.tid = (t0 + i) % 65535 + 1
  now : ∀ j, cur = some j → ∃ q, sent[j]? = some q ∧ c.last.request = some q ∧
    ∀ x, c.last.response = some x → ∃ r, (j, r) ∈ arrived ∧ x = received r

theorem TrafficInv.snoc {t0 : Int} {c c' : Ctl} {sent : List Msg} {cur : Option Nat} {arrived : List (Nat × Msg)} (h : TrafficInv t0 c sent cur arrived) (q : Msg)
    (h1 : c'.ln.mgr.tid = c.ln.mgr.tid % 65535 + 1) (h2 : q.tid = c.ln.mgr.tid % 65535 + 1) :
    (0 ≤ c'.ln.mgr.tid ∧ c'.ln.mgr.tid ≤ 65535) ∧ c'.ln.mgr.tid % 65535 = (t0 + (sent ++ [q]).length) % 65535 ∧
      ∀ (i : Nat) q', (sent ++ [q])[i]? = some q' → q'.tid = (t0 + i) % 65535 + 1 := by
  obtain ⟨hr, hc, ht, -⟩ := h
  refine ⟨by omega, ?_, ?_⟩
  · rw [List.length_append, List.length_singleton]
    push_cast
    omega
  · intro i q' hi
    rcases Nat.lt_or_ge i sent.length with hl | hl
    · rw [List.getElem?_append_left hl] at hi
      exact ht i q' hi
    · rw [List.getElem?_append_right hl] at hi
      have : i - sent.length = 0 := by
        by_contra hne
        rw [List.getElem?_eq_none (by simp; omega)] at hi
        cases hi
      rw [this] at hi
      injection hi with hi
      rw [← hi, h2]
      have : i = sent.length := by omega
      rw [this]
      omega

theorem traffic_inv {ord : List Int → List Int} {k : Side} {c0 : Ctl} (h0 : 0 ≤ c0.ln.mgr.tid ∧ c0.ln.mgr.tid ≤ 65535) {c : Ctl} {sent : List Msg}
    {cur : Option Nat} {arrived : List (Nat × Msg)} (h : Traffic ord 65535 k c0 c sent cur arrived) : TrafficInv c0.ln.mgr.tid c sent cur arrived := by
  induction h with
  | start => exact ⟨h0, by simp, (by intro i q h; simp at h), (by intro j h; cases h)⟩
  | @post c sent cur arrived m dest q h hz hq ih =>
    have hout : (outgoing c.ln m).tid = 0 := by unfold outgoing; split <;> exact hz
    have hop := op_tid c.ln.mgr (.send k.cnet (outgoing c.ln m) (Ctl.toAddr dest)) ih.range
    simp only [MgrOp.message] at hop
    rw [if_pos hout] at hop
    have heq : c.postBegin k.cnet m dest = ({ c with ln := { c.ln with mgr := (c.ln.mgr.send k.cnet (outgoing c.ln m) (Ctl.toAddr dest)).1 },
                                                     last := { request := some (c.ln.mgr.send k.cnet (outgoing c.ln m) (Ctl.toAddr dest)).2.1 } },
        (c.ln.mgr.send k.cnet (outgoing c.ln m) (Ctl.toAddr dest)).2.2) := by
      unfold Ctl.postBegin Ctl.sendMessage
      simp only []
      rw [sendMessage_eq]
    have hq' : (c.ln.mgr.send k.cnet (outgoing c.ln m) (Ctl.toAddr dest)).2.1 = q := by
      rw [heq] at hq
      exact Option.some.inj hq
    obtain ⟨s1, s2, s3⟩ := ih.snoc (c' := (c.postBegin k.cnet m dest).1) q (by rw [heq]; exact hop.1) (by rw [← hq']; exact hop.2)
    refine ⟨s1, s2, s3, ?_⟩
    intro j hj
    obtain rfl := Option.some.inj hj
    refine ⟨q, by simp, hq, ?_⟩
    intro x hx
    rw [heq] at hx
    cases hx
  | @send c sent cur arrived m dest h hz ih =>
    have hout : (outgoing c.ln m).tid = 0 := by unfold outgoing; split <;> exact hz
    have hop := op_tid c.ln.mgr (.send k.cnet (outgoing c.ln m) (Ctl.toAddr dest)) ih.range
    simp only [MgrOp.message] at hop
    rw [if_pos hout] at hop
    obtain ⟨s1, s2, s3⟩ := ih.snoc (c' := (c.sendMessage k.cnet m dest).1) (c.sendMessage k.cnet m dest).2.1 hop.1 hop.2
    refine ⟨s1, s2, s3, ?_⟩
    intro j hj
    obtain ⟨q, k1, k2, k3⟩ := ih.now j hj
    refine ⟨q, ?_, k2, k3⟩
    rw [List.getElem?_append_left (by by_contra hn; rw [List.getElem?_eq_none (by omega)] at k1; cases k1)]
    exact k1
  | @announce c sent cur arrived m h hz ih =>
    have hout : (outgoing c.ln m).tid = 0 := by unfold outgoing; split <;> exact hz
    have hop := op_tid c.ln.mgr (.announce k.cnet (outgoing c.ln m)) ih.range
    simp only [MgrOp.message] at hop
    rw [if_pos hout] at hop
    obtain ⟨s1, s2, s3⟩ := ih.snoc (c' := (c.announceMessage k.cnet m).1) (c.announceMessage k.cnet m).2.1 hop.1 hop.2
    refine ⟨s1, s2, s3, ?_⟩
    intro j hj
    obtain ⟨q, k1, k2, k3⟩ := ih.now j hj
    refine ⟨q, ?_, k2, k3⟩
    rw [List.getElem?_append_left (by by_contra hn; rw [List.getElem?_eq_none (by omega)] at k1; cases k1)]
    exact k1
  | @request c sent cur arrived m h he ht ih =>
    have heq := request_eq ord k.cuser k.cenv k.cnet c m ((isRequest_iff _).mpr he)
    have htid := tid_request k.cuser k.cnet c.ln m ih.range ht
    have e1 : (c.messageReceived ord k.cuser k.cenv k.cnet m).1.ln.mgr.tid = c.ln.mgr.tid := by rw [heq]; exact htid
    have e2 : (c.messageReceived ord k.cuser k.cenv k.cnet m).1.last = c.last := by rw [heq]
    exact ⟨by rw [e1]; exact ih.range, by rw [e1]; exact ih.counter, ih.tids, by rw [e2]; exact ih.now⟩
  | @response c sent cur arrived i q r h hi he ht hw ih =>
    have e1 := ln_receive ord k.cuser k.cenv k.cnet c r he
    refine ⟨by rw [e1]; exact ih.range, by rw [e1]; exact ih.counter, ih.tids, ?_⟩
    intro j hj
    obtain ⟨p, k1, k2, k3⟩ := ih.now j hj
    refine ⟨p, k1, ?_⟩
    rcases last_receive ord k.cuser k.cenv k.cnet c r with hl | ⟨q', l1, l2, -, -, l5⟩
    · rw [hl]
      refine ⟨k2, ?_⟩
      intro x hx
      obtain ⟨r', r1, r2⟩ := k3 x hx
      exact ⟨r', List.mem_append_left _ r1, r2⟩
    · rw [l5]
      rw [l1] at k2
      refine ⟨k2, ?_⟩
      intro x hx
      have hx := Option.some.inj hx
      refine ⟨r, ?_, hx.symm⟩
      have e3 : q' = p := Option.some.inj k2
      have e4 : (received r).tid = r.tid % 2 ^ 16 := rfl
      have t1 := ih.tids i q hi
      have t2 := ih.tids j p k1
      obtain ⟨w1, w2⟩ := hw j hj
      have : i = j := by
        rw [e3, e4, ht] at l2
        omega
      rw [this]
      exact List.mem_append_right _ List.mem_cons_self

end Uecho
