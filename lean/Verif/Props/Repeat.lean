/- Property C115: datagrams that are delivered more than once. UDP may double and delay datagrams, and a
node has two sockets per interface. -/
import Verif.Lemmas.Repeat
import Verif.Lemmas.Storm
import Verif.Props.EndToEnd

namespace Uecho
open Spec

/-! ### Objects -/

/-- C115. An object with the default handler that gets the same message once more, whatever it is, does
the same again: the same answer, the same exception, and it ends in the same state. -/
theorem C115_object_partial (env : Env) (o : Obj) (m : Msg) (hw : WellFormed o) (hh : o.handler = .self_) :
    (o.messageReceived env m).obj.messageReceived env m = o.messageReceived env m := by
  by_cases hq : Quiet env o m
  swap
  · rw [(messageReceived_loud env o m hq).1]
  have hobj := messageReceived_state env o m hw hh
  rw [if_pos hq] at hobj
  rw [hobj]
  have hs := skeleton_afterWrites o (acceptedWrites o (attrPolicy o) (writeItems m))
  have hw' := wf_of_skeleton hs hw
  have hh' : (afterWrites o (acceptedWrites o (attrPolicy o) (writeItems m))).handler = .self_ := by
    rw [handler_of_skeleton hs, hh]
  have hq' : Quiet env (afterWrites o (acceptedWrites o (attrPolicy o) (writeItems m))) m := hq
  rw [messageReceived_quiet env _ m hq', messageReceived_quiet env o m hq]
  have hobs : (afterWrites o (acceptedWrites o (attrPolicy o) (writeItems m))).observers = o.observers := rfl
  rw [hobs]
  suffices hsuff : (afterWrites o (acceptedWrites o (attrPolicy o) (writeItems m))).handleRequest env m = o.handleRequest env m by
    rw [hsuff]
  have hf := follows_default env o hw hh
  have hf' := follows_of_skeleton hs hf
  have hacc := fun items => acceptedWrites_of_skeleton (P := attrPolicy o) hs (items := items)
  have hresp := writeResp_of_skeleton (P := attrPolicy o) hs
  by_cases h1 : m.esv = 0x60 ∨ m.esv = 0x61
  · have hwi : writeItems m = m.props := by unfold writeItems; rw [if_pos h1]
    rw [handle_plain_write env _ _ m hw'.1 hf' h1, handle_plain_write env _ o m hw.1 hf h1, hacc, hresp, hwi, afterWrites_twice]
  by_cases h2 : m.esv = 0x62
  · have hwi : writeItems m = [] := by unfold writeItems; rw [if_neg h1, if_neg (by omega)]
    rw [hwi]
    have : acceptedWrites o (attrPolicy o) [] = [] := rfl
    rw [this, afterWrites_nil]
  by_cases h3 : m.esv = 0x63 ∨ m.esv = 0x74
  · have hwi : writeItems m = [] := by unfold writeItems; rw [if_neg h1, if_neg (by omega)]
    rw [hwi]
    have : acceptedWrites o (attrPolicy o) [] = [] := rfl
    rw [this, afterWrites_nil]
  by_cases h4 : m.esv = 0x6E
  · have hwi : writeItems m = m.setProps := by unfold writeItems; rw [if_neg h1, if_pos h4]
    rw [hwi] at hs hw' hh' hf' hacc hresp ⊢
    by_cases hk : ∀ i ∈ m.getProps, (lookup o.props i.code).isSome = true
    · rw [handle_write_read env _ o m hw.1 hf h4 hk,
        handle_write_read env _ _ m hw'.1 hf' h4 (fun i hi => by rw [isSome_of_skeleton hs]; exact hk i hi), hacc, hresp, afterWrites_twice]
    · push Not at hk
      obtain ⟨i, hi, hn⟩ := hk
      have hn' : lookup o.props i.code = none := by simpa using hn
      rw [handle_write_read_unknown env o m hw hh h4 ⟨i, hi, hn'⟩,
        handle_write_read_unknown env _ m hw' hh' h4 ⟨i, hi, by
          have := isSome_of_skeleton hs i.code
          rw [hn'] at this
          simpa using this⟩, attrPolicy_of_skeleton hs, hacc, afterWrites_twice]
  · have hwi : writeItems m = [] := by unfold writeItems; rw [if_neg h1, if_neg h4]
    rw [hwi]
    have : acceptedWrites o (attrPolicy o) [] = [] := rfl
    rw [this, afterWrites_nil]

/-- The messages of a history that write something `m` writes. -/
def WritesSame (m m' : Msg) : Prop := ∃ i ∈ writeItems m, ∃ j ∈ writeItems m', i.code = j.code

/-- C115. The repeated message may also come later, after any number of other messages: it changes nothing
unless one of these wrote a property that it writes too. -/
theorem C115_late_partial (o : Obj) (hw : WellFormed o) (hh : o.handler = .self_) (before between : List (Env × Msg))
    (env env' : Env) (m : Msg) (hq : Quiet env o m) (h : ∀ x ∈ between, ¬ WritesSame m x.2) :
    afterHistory o (before ++ (env, m) :: between ++ [(env', m)]) = afterHistory o (before ++ (env, m) :: between) := by
  rw [afterHistory_eq o _ hw hh, afterHistory_eq o _ hw hh]
  apply afterWrites_congr
  intro c
  have happ : ∀ a b, historyWrites o (a ++ b) = historyWrites o a ++ historyWrites o b := by
    intro a b; simp [historyWrites]
  rw [happ (before ++ (env, m) :: between), acceptedWrites_append, lastFor_append]
  have hlast : historyWrites o [(env', m)] = if Quiet env' o m then writeItems m else [] := by simp [historyWrites]
  rw [hlast]
  by_cases hq' : Quiet env' o m
  swap
  · rw [if_neg hq']; rfl
  rw [if_pos hq']
  cases hl : lastFor (acceptedWrites o (attrPolicy o) (writeItems m)) c with
  | none => rfl
  | some d =>
    -- something of `m` is accepted for `c`, so nothing in between is
    have hmem : ∃ i ∈ writeItems m, i.code = c := by
      by_contra hno
      push Not at hno
      rw [lastFor_none (items := acceptedWrites o (attrPolicy o) (writeItems m)) (fun i hi => hno i (List.mem_of_mem_filter hi))] at hl
      cases hl
    obtain ⟨i, hi, hic⟩ := hmem
    have hcons : historyWrites o ((env, m) :: between) = writeItems m ++ historyWrites o between := by
      simp [historyWrites, hq]
    rw [happ before, hcons, acceptedWrites_append, acceptedWrites_append, lastFor_append, lastFor_append]
    have hnone : lastFor (acceptedWrites o (attrPolicy o) (historyWrites o between)) c = none := by
      apply lastFor_none
      intro j hj hjc
      have hj' := List.mem_of_mem_filter hj
      unfold historyWrites at hj'
      obtain ⟨x, hx, hjx⟩ := List.mem_flatMap.mp hj'
      split at hjx
      · exact h x hx ⟨i, hi, j, hjx, by rw [hic, hjc]⟩
      · cases hjx
    rw [hnone, hl]
    rfl

/-- C115 fails when a repeated write comes after a newer one: the old value is back. -/
theorem C115_late_false : ¬ ∀ (o : Obj), WellFormed o → o.handler = .self_ → ∀ (before between : List (Env × Msg)) (env : Env) (m : Msg),
    Quiet env o m → afterHistory o (before ++ (env, m) :: between ++ [(env, m)]) = afterHistory o (before ++ (env, m) :: between) := by
  intro h
  have := h exObj (by decide) rfl [] [(exEnv, { esv := 0x61, props := [{ code := 0x80, data := [0x31] }] })] exEnv
    { esv := 0x61, props := [{ code := 0x80, data := [0x30] }] } (by decide)
  have := congrArg (fun o => o.getPropertyData 0x80) this
  revert this
  decide

/-- The hypotheses of `C115_late_partial` are met by a write, a write of another property and a read. -/
example : (∀ x ∈ [(exEnv, ({ esv := 0x61, props := [{ code := 0x81, data := [9] }] } : Msg)), (exEnv, { esv := 0x62, props := [{ code := 0x80 }] })],
      ¬ WritesSame { esv := 0x61, props := [{ code := 0x80, data := [0x30] }] } x.2) ∧
    (afterHistory exObj [(exEnv, { esv := 0x61, props := [{ code := 0x80, data := [0x30] }] })]).getPropertyData 0x80 = some [0x30] := by
  refine ⟨?_, by decide⟩
  intro x hx
  rcases List.mem_cons.mp hx with rfl | hx
  · rintro ⟨i, hi, j, hj, e⟩
    have hi' : i = { code := 0x80, data := [0x30] } := List.mem_singleton.mp hi
    have hj' : j = { code := 0x81, data := [9] } := List.mem_singleton.mp hj
    subst hi' hj'
    exact absurd e (by decide)
  · have := List.mem_singleton.mp hx
    subst this
    rintro ⟨i, hi, j, hj, e⟩
    cases hj

/-! ### Nodes -/

/-- C115. A local node that gets a message for an object with the default handler once more: no object
changes any more, and what is sent, if the request has a TID, is the same datagram to the same address, as often as
the first time if the network works. -/
theorem C115_node_partial {ord : List Int → List Int} (hord : ValidOrder ord) {n : LocalNode} (hr : Reachable ord n) (env : Env)
    (hs : CodeStable env) (net net' : Net) (m : Msg) (hm : Encodable m) (hd : 0 ≤ m.deoj ∧ m.deoj < 2 ^ 24) (o : Obj)
    (ho : n.getObject (.int m.deoj) = some o) (hw : WellFormed o) (hh : o.handler = .self_) :
    let n₁ := (n.messageReceived env net m).1
    let n₂ := (n₁.messageReceived env net' m).1
    (∀ c, n₂.getObject (.int c) = n₁.getObject (.int c)) ∧
    ∃ a b, n₁.mgr.log = n.mgr.log ++ a ∧ n₂.mgr.log = n.mgr.log ++ a ++ b ∧
      (m.tid % 2 ^ 16 ≠ 0 → ∀ x ∈ a, ∀ y ∈ b, y.1.bytes = x.1.bytes ∧ y.1.dest = x.1.dest) ∧
      (NetWorks net → NetWorks net' → b.length = a.length) := by
  intro n₁ n₂
  obtain ⟨g1, -, a, l1, e1, f1⟩ := C48_dispatch hord hr env net m hm hd o ho
  have hr1 : Reachable ord n₁ := reachable_receive hr hs net m
  have ho1 : n₁.getObject (.int m.deoj) = some (o.messageReceived env (received m)).obj := by
    have := g1 m.deoj
    rw [if_pos rfl] at this
    exact this
  have hsame := C115_object_partial env o (received m) hw hh
  obtain ⟨g2, -, b, l2, e2, f2⟩ := C48_dispatch hord hr1 env net' m hm hd _ ho1
  rw [hsame] at g2 e2 f2
  refine ⟨?_, a, b, l1, by rw [l2, l1], ?_, ?_⟩
  rotate_right
  · intro w1 w2
    have k1 := receive_count_at env net w1 n m hm hd o ho
    have k2 := receive_count_at env net' w2 n₁ m hm hd _ ho1
    have hserv : n₁.mgr.servers = n.mgr.servers := by
      obtain ⟨-, -, -, e, -⟩ := node_sends env net n m
      exact e
    have l1' : (n.messageReceived env net m).1.mgr.log = n.mgr.log ++ a := l1
    rw [hsame, hserv, l2, List.length_append] at k2
    rw [l1', List.length_append] at k1
    exact Nat.add_left_cancel (k2.trans (by rw [Nat.add_left_cancel k1]))
  · intro c
    rw [g2 c]
    by_cases hc : c = m.deoj
    · rw [if_pos hc, hc, ho1]
    · rw [if_neg hc]
  · intro ht x hx y hy
    rcases hres : (o.messageReceived env (received m)).result with e | (_ | res)
    · rw [e1 (fun res h => by rw [hres] at h; cases h)] at hx
      cases hx
    · rw [e1 (fun res h => by rw [hres] at h; cases h)] at hx
      cases hx
    · obtain ⟨t, ht1, -, hx1, -⟩ := f1 res hres
      obtain ⟨t', ht2, -, hy1, -⟩ := f2 res hres
      have htid : res.tid = m.tid % 2 ^ 16 := (C13_addressing env o (received m) res hres).1
      have hz : res.tid ≠ 0 := by rw [htid]; exact ht
      obtain ⟨x1, x2⟩ := hx1 x hx
      obtain ⟨y1, y2⟩ := hy1 y hy
      have hctl : n₁.controller = n.controller := by
        show (n.messageReceived env net m).1.controller = _
        rw [messageReceived_eq env net n m hm]
        split
        · rfl
        · rename_i s _
          simp only []
          split
          · cases s <;> rfl
          · rw [answer_same]
            cases s <;> rfl
      refine ⟨?_, ?_⟩
      · rw [x1, y1, hctl, ht1 hz, ht2 hz]
      · have := x2.trans y2.symm
        injection this with this
        exact this.symm

/-! ### Controllers -/

/-- C115. A controller that gets the same response or report once more knows the same as before, has the
same response for a thread that waits, and ends in the same way. -/
theorem C115_controller_partial {ord : List Int → List Int} (hord : ValidOrder ord) (env : Env) {cenv : CEnv} (h : Calm cenv)
    (net net' : Net) {c : Ctl} {ops : List CtlOp} (hc : CtlReach ord c ops) (m : Msg) (hd : Delivered m) (hresp : m.esv ∉ [0x60, 0x61, 0x62, 0x63, 0x6E, 0x74]) :
    let r₁ := c.messageReceived ord env cenv net m
    let r₂ := r₁.1.messageReceived ord env cenv net' m
    r₂.1.found = r₁.1.found ∧ r₂.1.last = r₁.1.last ∧ r₂.1.ln = r₁.1.ln ∧ r₂.2 = r₁.2 := by
  intro r₁ r₂
  have hi := (reach_knows hord hc).1
  obtain ⟨a, ha⟩ := Option.isSome_iff_exists.mp hd.2
  have hm := hd.1
  have hr : ESV.isRequest m.esv = false := by
    simp only [List.mem_cons, List.not_mem_nil, or_false, not_or] at hresp
    unfold ESV.isRequest
    rw [if_neg (show ¬ m.esv = ESV.WRITE_REQUEST from hresp.1),
      if_neg (show ¬ m.esv = ESV.WRITE_REQUEST_RESPONSE_REQUIRED from hresp.2.1),
      if_neg (show ¬ m.esv = ESV.READ_REQUEST from hresp.2.2.1),
      if_neg (show ¬ m.esv = ESV.NOTIFICATION_REQUEST from hresp.2.2.2.1),
      if_neg (show ¬ m.esv = ESV.WRITE_READ_REQUEST from hresp.2.2.2.2.1),
      if_neg (show ¬ m.esv = ESV.NOTIFICATION_RESPONSE_REQUIRED from hresp.2.2.2.2.2)]
  by_cases ht : Taken m
  · obtain ⟨k1, k2, k3, k4⟩ := taken_known hord env h net c hi m a ha hm ht
    have hi1 : FoundInv r₁.1 := receive_inv_found hord env h net c hi m hd
    obtain ⟨q1, q2, q3, q4⟩ := taken_known hord env h net' r₁.1 hi1 m a ha hm ht
    -- the table after the instance list, the second time
    have hfl : (afterList ord r₁.1 m).found = match announced m with
        | none => r₁.1.found
        | some _ => (afterList ord c m).found := by
      rw [afterList_set, afterList_set]
      cases han : announced m with
      | none => rfl
      | some x =>
        obtain ⟨a', l⟩ := x
        have haa : a' = a := by
          unfold announced at han
          split at han
          · rw [ha] at han
            split at han
            · rename_i e1 _
              injection e1 with e1
              cases han
              exact e1.symm
            · cases han
          · cases han
        subst haa
        simp only []
        have hk1 : r₁.1.found = _ := k1
        rw [hk1, afterList_set, han]
        simp only []
        unfold reportTo
        rw [Dict.get?_set, if_pos rfl]
        simp only []
        split
        · exact set_set _ _ _
        · exact set_modify _ _ _ _
    have hknown : (Dict.get? (afterList ord r₁.1 m).found a.1).isSome = (Dict.get? (afterList ord c m).found a.1).isSome := by
      rw [hfl]
      cases han : announced m with
      | some x => rfl
      | none =>
        have hk1 : r₁.1.found = _ := k1
        simp only []
        rw [hk1]
        have := get?_reportTo (afterList ord c m).found a.1 (m.deoj % 2 ^ 24) (received m).props a.1
        have h2 := congrArg Option.isSome this
        rw [Option.isSome_map, Option.isSome_map] at h2
        exact h2
    refine ⟨?_, ?_, q2, ?_⟩
    · show r₂.1.found = r₁.1.found
      have hq1 : r₂.1.found = _ := q1
      have hk1 : r₁.1.found = _ := k1
      rw [hq1, hfl]
      cases han : announced m with
      | some x => simp only []; rw [hk1]
      | none =>
        simp only []
        rw [hk1]
        exact reportTo_twice _ _ _ _
    · have hq3 : r₂.1.last = _ := q3
      have hk3 : r₁.1.last = _ := k3
      rw [hq3, hknown]
      split
      · rename_i hs
        rw [if_pos hs] at hk3
        exact receiveResponse_last c r₁.1 (received m) hk3
      · rfl
    · have hq4 : r₂.2 = _ := q4
      have hk4 : r₁.2 = _ := k4
      rw [hq4, hk4, hknown]
  · -- not evaluated
    by_cases hrep : Reports m
    · by_cases hok : (m.esv = 0x72 ∨ m.esv = 0x73) ∧ m.deoj % 2 ^ 24 ≠ 0x0EF001
      · have e : ∀ (net : Net) (c : Ctl), c.messageReceived ord env cenv net m = (c, .error .attributeError) := fun net c =>
          response_misdirected ord env cenv net c m hm hok.1 hok.2
        have h1 : r₁ = (c, .error .attributeError) := e net c
        have h2 : r₂ = (r₁.1, .error .attributeError) := e net' r₁.1
        rw [h2, h1]
        exact ⟨rfl, rfl, rfl, rfl⟩
      · have hne : (m.esv = 0x72 ∨ m.esv = 0x73) ∧ instanceListOf m = .empty := by
          by_contra hne
          exact ht ⟨hrep, hok, hne⟩
        have hdj : m.deoj % 2 ^ 24 = 0x0EF001 := by
          by_contra hdj
          exact hok ⟨hne.1, hdj⟩
        have e : ∀ (net : Net) (c : Ctl), c.messageReceived ord env cenv net m = (c, .error .indexError) := fun net c =>
          response_empty hord env h net c m a ha hm hne.1 hdj hne.2
        have h1 : r₁ = (c, .error .indexError) := e net c
        have h2 : r₂ = (r₁.1, .error .indexError) := e net' r₁.1
        rw [h2, h1]
        exact ⟨rfl, rfl, rfl, rfl⟩
    · have e : ∀ (net : Net) (c : Ctl), c.messageReceived ord env cenv net m = (c.receiveResponse (received m), .ok ()) := fun net c =>
        response_other env net c m hm hr hrep
      have h1 : r₁ = (c.receiveResponse (received m), .ok ()) := e net c
      have h2 : r₂ = (r₁.1.receiveResponse (received m), .ok ()) := e net' r₁.1
      rw [h2]
      obtain ⟨f1, f2, -⟩ := receiveResponse_found r₁.1 (received m)
      exact ⟨f1, receiveResponse_last c r₁.1 (received m) (by rw [h1]), f2, by rw [h1]⟩

/-- C115. If the message lists no instances and names no property twice, nobody is told anything the second
time. -/
theorem C115_told_partial {ord : List Int → List Int} (hord : ValidOrder ord) (env : Env) {cenv : CEnv} (h : Calm cenv)
    (net net' : Net) {c : Ctl} {ops : List CtlOp} (hc : CtlReach ord c ops) (m : Msg) (hd : Delivered m)
    (hl : announced m = none) (hn : (m.props.map PProp.code).Nodup) :
    toldAll ((c.messageReceived ord env cenv net m).1.messageReceived ord env cenv net' m).1 =
      toldAll (c.messageReceived ord env cenv net m).1 := by
  have hi := (reach_knows hord hc).1
  obtain ⟨a, ha⟩ := Option.isSome_iff_exists.mp hd.2
  have hi1 := receive_inv_found hord env h net c hi m hd
  have hal : ∀ c : Ctl, afterList ord c m = c := fun c => by unfold afterList; rw [hl]
  have hn' : ((received m).props.map PProp.code).Nodup := by
    by_cases h2 : TwoSections m.esv
    · have : (received m).props = [] := by unfold received onWire; simp [h2]
      rw [this]; simp
    · rw [received_props m h2]; exact hn
  obtain ⟨t1, t2⟩ := receive_told hord env h net c hi m a ha hd.1
  obtain ⟨u1, u2⟩ := receive_told hord env h net' _ hi1 m a ha hd.1
  by_cases ht : Taken m
  · rw [(u1 ht).2, hal, (taken_known hord env h net c hi m a ha hd.1 ht).1, reportTold_twice _ _ _ _ _ hn', List.append_nil]
  · exact u2 ht

/-- The device of `ex_connected` meets the hypotheses of `C115_node_partial`. -/
example {ord : List Int → List Int} (hord : ValidOrder ord) : ∃ (n : LocalNode) (m : Msg), Reachable ord n ∧ Encodable m ∧
    n.getObject (.int m.deoj) = some exObj ∧ WellFormed exObj ∧ exObj.handler = .self_ ∧ m.tid % 2 ^ 16 ≠ 0 := by
  obtain ⟨n, d1, -, d3, -⟩ := dev_device hord exObj
  exact ⟨n, { WriteResponseRequiredRequest 0x029101 with tid := 5, props := [{ code := 0x80, data := [0x31] }] }, d1, by decide, d3, by decide, rfl, by decide⟩

/-- A value of 0x80 that a device the controller knows reports. -/
def exAgain : Msg :=
  { tid := 3, seoj := 0x029101, deoj := 0x0EF001, esv := 0x73, props := [{ code := 0x80, data := [0x31] }],
    fromAddr := some ("10.0.0.9", 3610) }

/-- The hypotheses of the controller theorems are met by a report that the controller evaluates. -/
example {ord : List Int → List Int} (hord : ValidOrder ord) : (∃ c ops, CtlReach ord c ops ∧ Found c "10.0.0.9") ∧ Delivered exAgain ∧
    Taken exAgain ∧ announced exAgain = none ∧ (exAgain.props.map PProp.code).Nodup := by
  obtain ⟨-, c, -, ops, -, -, -, h4, -, h6⟩ := ctl_ready hord
  refine ⟨⟨c, ops, h4, h6⟩, ?_, ?_, ?_, by decide⟩
  · unfold Delivered; decide +kernel
  · exact ⟨Or.inr (Or.inl rfl), fun h => h.2 (by decide), fun h => absurd h.2 (by unfold instanceListOf; simp [exAgain])⟩
  · decide +kernel

end Uecho
