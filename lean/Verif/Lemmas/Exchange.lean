/- A request and its response with any sections, connected by datagrams. -/
import Verif.Props.EndToEnd

namespace Uecho
open Spec

/-- The services that answer requests. -/
def AnswerEsv (e : Int) : Prop := e = 0x70 ∨ e = 0x71 ∨ e = 0x72 ∨ e = 0x50 ∨ e = 0x51 ∨ e = 0x52 ∨ e = 0x7E ∨ e = 0x5E

/-- A message in range goes over the wire unchanged. -/
theorem onWire_own (m : Msg) (ht : 0 ≤ m.tid ∧ m.tid < 2 ^ 16) (hs : 0 ≤ m.seoj ∧ m.seoj < 2 ^ 24) (hd : 0 ≤ m.deoj ∧ m.deoj < 2 ^ 24) (hsec : OwnSections m)
    (ha : m.fromAddr = none ∧ m.toAddr = none) : onWire m = m := by
  rcases m with ⟨tid, seoj, deoj, esv, props, sp, gp, fa, ta⟩
  unfold OwnSections at hsec
  unfold onWire
  simp only [] at *
  obtain ⟨rfl, rfl⟩ := ha
  rw [Int.emod_eq_of_lt ht.1 ht.2, Int.emod_eq_of_lt hs.1 hs.2, Int.emod_eq_of_lt hd.1 hd.2]
  by_cases h : TwoSections esv
  · rw [if_pos (by unfold TwoSections at h; omega)] at hsec
    rw [if_pos h, if_pos h, if_pos h, hsec]
  · rw [if_neg (by unfold TwoSections at h; omega)] at hsec
    rw [if_neg h, if_neg h, if_neg h, hsec.1, hsec.2]

/-- The first half of an exchange, given what the object makes of the request. -/
theorem asked_any {ord : List Int → List Int} (hord : ValidOrder ord) {c : Ctl} {n : LocalNode} (hc : Connected ord c n)
    (w : World) (hw : w.Works) (ca da : Addr) (dest : PyDest) (hd : Ctl.toAddr dest = some da) (m : Msg) (hm : FitsDatagram m)
    (ht : 0 ≤ m.tid ∧ m.tid ≤ 65535) (hcode : 0 ≤ m.deoj ∧ m.deoj < 2 ^ 24)
    (o : Obj) (ho : n.getObject (.int m.deoj) = some o) (o' : Obj) (ans : Msg) (hes : AnswerEsv ans.esv) (hs : ans.seoj = m.deoj ∧ ans.deoj = 0x0EF001) (hsec : OwnSections ans) (hfa : ans.fromAddr = none ∧ ans.toAddr = none)
    (hans : ∀ t, 1 ≤ t ∧ t ≤ 65535 → let req : Msg := { onWire (stamped m t) with fromAddr := some ca }
      (o.messageReceived w.env req).obj = o' ∧ (o.messageReceived w.env req).result = .ok (some { ans with tid := t }))
    (hfit : FitsDatagram ans) :
    ∃ c1 n' d t q, Asked w ca da dest c n m c1 n' d ∧ (m.tid ≠ 0 → t = m.tid) ∧
      Decodes d da { ans with tid := t, fromAddr := some da } ∧
      c1.last = { request := some q } ∧ q.tid = t ∧ c1.found = c.found ∧ c1.ln.mgr.servers = c.ln.mgr.servers ∧
      (∃ ops, CtlReach ord c1 ops) ∧ Connected ord c1 n' ∧ ∀ k, n'.getObject (.int k) = if k = m.deoj then some o' else n.getObject (.int k) := by
  obtain ⟨ops, hreach⟩ := hc.ctl
  obtain ⟨i, t, q, p1, p2, p3, p4, p5, p6, p7, p8, p9, p10⟩ := post_sent hord hreach w.cnet hw.cnet hc.ctlSends m hm.1 ht dest da hd
  have hreq := decodes_encode (stamped m t) hm.1 (by have := hm.2; rw [encode_length] at this ⊢; exact this) ca
  obtain ⟨ha1, ha2⟩ := hans t ⟨p5, p6⟩
  set req : Msg := { onWire (stamped m t) with fromAddr := some ca } with hreqdef
  have hdeoj : req.deoj = m.deoj := by
    show m.deoj % 2 ^ 24 = m.deoj
    omega
  set res : Msg := { ans with tid := t } with hresdef
  have hres : Encodable res := by
    have := hfit.1
    unfold Encodable at this ⊢
    exact this
  have hres' : (encode res).length ≤ 1024 := by
    have := hfit.2
    rw [encode_length] at this ⊢
    exact this
  have hn : ESV.isNotification ans.esv = false := by
    generalize ans.esv = e at hes
    rcases hes with h | h | h | h | h | h | h | h <;> subst h <;> rfl
  have htz : t ≠ 0 := by omega
  obtain ⟨j, n1, d1, d2, d3, d4, d5⟩ := device_answers hord hc.dev hc.device hc.devSends w.env w.net hw.net (encode (stamped m t)) ca req hreq o (by rw [hdeoj]; exact ho) res
    ha2 hres hn htz
  have hwire : onWire res = res := onWire_own res (by show 0 ≤ t ∧ t < 2 ^ 16; omega) (by show 0 ≤ ans.seoj ∧ ans.seoj < 2 ^ 24; rw [hs.1]; exact hcode)
    (by show 0 ≤ ans.deoj ∧ ans.deoj < 2 ^ 24; rw [hs.2]; decide) hsec hfa
  have hback := decodes_encode res hres hres' da
  rw [hwire] at hback
  have hpost := ctl_snoc hreach (.post w.cnet m dest) trivial
  refine ⟨(c.postBegin w.cnet m dest).1, n1, encode res, t, q, ⟨i, j, encode (stamped m t), ?_, p2, d1, d2⟩, p7, hback, p3, p4, p8, p10, ⟨_, hpost⟩,
    ⟨⟨_, hpost⟩, ?_, ?_, ?_, d5⟩, ?_⟩
  · rw [← p1]
  · unfold CanSend
    rw [p10]
    exact hc.ctlSends
  · rw [d4]; exact reachable_receive hc.dev hw.stable w.net req
  · rw [d4, receive_controller hord hc.dev hw.stable]; exact hc.device
  · intro k
    rw [d3 k, ha1, hdeoj]

/-- An exchange, given what the object makes of the request. -/
theorem exchange_any {ord : List Int → List Int} (hord : ValidOrder ord) {c : Ctl} {n : LocalNode} (hc : Connected ord c n)
    (w : World) (hw : w.Works) (ca da : Addr) (dest : PyDest) (hd : Ctl.toAddr dest = some da) (m : Msg) (hm : FitsDatagram m)
    (ht : 0 ≤ m.tid ∧ m.tid ≤ 65535) (hcode : 0 ≤ m.deoj ∧ m.deoj < 2 ^ 24)
    (o : Obj) (ho : n.getObject (.int m.deoj) = some o) (o' : Obj) (ans : Msg) (hes : AnswerEsv ans.esv) (hs : ans.seoj = m.deoj ∧ ans.deoj = 0x0EF001) (hsec : OwnSections ans) (hfa : ans.fromAddr = none ∧ ans.toAddr = none)
    (hans : ∀ t, 1 ≤ t ∧ t ≤ 65535 → let req : Msg := { onWire (stamped m t) with fromAddr := some ca }
      (o.messageReceived w.env req).obj = o' ∧ (o.messageReceived w.env req).result = .ok (some { ans with tid := t }))
    (hfit : FitsDatagram ans)
    (hl : (ans.esv = 0x72 → instanceListOf ans ≠ .empty) ∧ (ans.esv = 0x72 ∨ ans.esv = 0x7E → Found c da.1)) :
    ∃ c' n' t, Exchange ord w ca da dest c n m c' n' { ans with tid := t, fromAddr := some da } ∧
      (m.tid ≠ 0 → t = m.tid) ∧ Connected ord c' n' ∧ (∀ ip, Found c ip → Found c' ip) ∧
      ∀ k, n'.getObject (.int k) = if k = m.deoj then some o' else n.getObject (.int k) := by
  obtain ⟨c1, n1, d, t, q, a1, a2, hback, p3, p4, p8, p10, ⟨ops, hpost⟩, a3, a4⟩ :=
    asked_any hord hc w hw ca da dest hd m hm ht hcode o ho o' ans hes hs hsec hfa hans hfit
  have hk1 := reach_knows hord hpost
  set r : Msg := { ans with tid := t, fromAddr := some da } with hrdef
  obtain ⟨r1, r2, -, -⟩ := received_decoded hback
  have hdone : ∃ c2, c1.messageReceived ord w.cuser w.cenv w.cnet r = (c2, .ok ()) ∧ c2.last = { request := some q, response := some r } ∧
      c2.ln = c1.ln ∧ (∀ ip, Found c1 ip → Found c2 ip) := by
    by_cases e : ans.esv = 0x72 ∨ ans.esv = 0x7E
    · have hrep : Reports r := e.elim Or.inl (fun h => Or.inr (Or.inr h))
      have hafter : ∀ ip, Found c1 ip → ip ∈ Dict.keys (afterList ord c1 r).found := by
        intro ip this
        unfold afterList
        split
        · exact this
        · rename_i a l heq
          simp only []
          rw [Dict.keys_set]
          split
          · exact this
          · exact List.mem_append_left _ this
      have hkn := hafter da.1 (by unfold Found; rw [p8]; exact hl.2 e)
      obtain ⟨x, hx⟩ := Option.isSome_iff_exists.mp ((Dict.get?_isSome_iff _ _).mpr hkn)
      obtain ⟨c2, k1, k2, k3, k4, k5, -⟩ := response_known hord w.cuser hw.calm w.cnet c1 hk1.1 r da rfl r1 hrep
        (by
          intro h
          refine h.2 ?_
          show ans.deoj % 2 ^ 24 = 0x0EF001
          rw [hs.2]
          decide)
        (by
          intro h
          have hr : r.esv = ans.esv := rfl
          rw [hr] at h
          refine hl.1 (by omega) ?_
          exact h.2) x hx
      rw [r2] at k1
      refine ⟨_, k1, receiveResponse_stores c2 q r (k4.trans p3) (by rw [p4]), (receiveResponse_found c2 r).2.1.trans k3, ?_⟩
      intro ip hip
      have hin := hafter ip hip
      unfold Found
      rw [(receiveResponse_found c2 r).1, k2]
      unfold reportTo
      rw [hx]
      simp only []
      split
      · exact hin
      · rw [Dict.keys_modify]; exact hin
    · have hrep : ¬ Reports r := by
        show ¬ (ans.esv = 0x72 ∨ ans.esv = 0x73 ∨ ans.esv = 0x7E)
        unfold AnswerEsv at hes
        omega
      have hnr : ESV.isRequest ans.esv = false := by
        generalize ans.esv = e at hes
        rcases hes with h | h | h | h | h | h | h | h <;> subst h <;> rfl
      have := response_other (ord := ord) w.cuser (cenv := w.cenv) w.cnet c1 r r1 hnr hrep
      rw [r2] at this
      refine ⟨_, this, receiveResponse_stores c1 q r p3 (by rw [p4]), (receiveResponse_found c1 r).2.1, ?_⟩
      intro ip hip
      unfold Found
      rw [(receiveResponse_found c1 r).1]
      exact hip
  obtain ⟨c2, e1, e2, e3, e4⟩ := hdone
  refine ⟨c2, n1, t, ⟨c1, d, a1, ?_, ?_⟩, a2, ?_, ?_, a4⟩
  · rw [recvOne_ok _ c1 _ da r hback]
    unfold Ctl.deliver
    rw [e1]
    rfl
  · rw [e2]
  · refine ⟨?_, ?_, a3.dev, a3.device, a3.devSends⟩
    · have := ctl_snoc hpost (.receive w.cuser w.cenv w.cnet r) ⟨⟨r1, rfl⟩, hw.calm, hw.cstable⟩
      have hrun : CtlOp.run ord c1 (.receive w.cuser w.cenv w.cnet r) = c2 := by
        show (c1.messageReceived ord w.cuser w.cenv w.cnet r).1 = c2
        rw [e1]
      rw [hrun] at this
      exact ⟨_, this⟩
    · rw [e3]
      exact a3.ctlSends
  · intro ip hip
    exact e4 ip (by unfold Found; rw [p8]; exact hip)

end Uecho
