/- C68: a controller reads and writes the properties of a device over the network. -/
import Verif.Lemmas.EndToEnd

namespace Uecho
open Spec

/-- What a read of the items gives: the data of the object's properties. -/
def Spec.currentData (o : Obj) (items : List PProp) : List PProp :=
  items.map fun i => { code := i.code, data := ((lookup o.props i.code).map OProp.data).getD [] }

theorem currentData_eq (o : Obj) (items : List PProp) :
    items.map (fun i => ({ code := i.code, data := (o.getPropertyData i.code).getD [] } : PProp)) = currentData o items := by
  unfold currentData
  apply List.map_congr_left
  intro i _
  rw [getPropertyData_eq]

/-- C68. A controller that posts a read request for readable properties of an object of a device gets a
response with the current data of those properties, in their order, and nothing at the device changes.
The controller has to have found the device (see C87), the request and the response have to fit a datagram, and the response must not begin with an empty instance
list (see C62). -/
theorem C68_read {ord : List Int → List Int} (hord : ValidOrder ord) {c : Ctl} {n : LocalNode} (hc : Connected ord c n)
    (w : World) (hw : w.Works) (ca da : Addr) (dest : PyDest) (hd : Ctl.toAddr dest = some da)
    (o : Obj) (hcode : 0 ≤ o.code ∧ o.code < 2 ^ 24) (ho : n.getObject (.int o.code) = some o) (hwf : WellFormed o) (hh : o.handler = .self_) (hq : ∀ m, Quiet w.env o m)
    (items : List PProp) (tid : Int) (ht : 0 ≤ tid ∧ tid ≤ 65535) (hk : ∀ i ∈ items, ∃ p, lookup o.props i.code = some p ∧ CanRead p)
    (hm : FitsDatagram { esv := 0x62, props := items }) (hr : FitsDatagram { esv := 0x72, props := currentData o items })
    (hf : Found c da.1) (hl : instanceListOf { props := currentData o items } ≠ .empty) :
    ∃ c' n' t, Exchange ord w ca da dest c n { ReadRequest o.code with tid := tid, props := items } c' n'
        { tid := t, seoj := o.code, deoj := 0x0EF001, esv := 0x72, props := currentData o items, fromAddr := some da } ∧
      (tid ≠ 0 → t = tid) ∧ Connected ord c' n' ∧ (∀ ip, Found c ip → Found c' ip) ∧ ∀ k, n'.getObject (.int k) = n.getObject (.int k) := by
  have hm' : FitsDatagram { ReadRequest o.code with tid := tid, props := items } := by
    obtain ⟨h1, h2⟩ := hm
    refine ⟨?_, ?_⟩
    · unfold Encodable at h1 ⊢; exact h1
    · rw [encode_length] at h2 ⊢; exact h2
  obtain ⟨c', n', t, h1, h2, h3, h5, h4⟩ := exchange hord hc w hw ca da dest hd { ReadRequest o.code with tid := tid, props := items } hm' ht (show ¬ TwoSections 0x62 by decide)
    hcode o ho o 0x72 (by decide) (currentData o items)
    (by
      intro t req
      obtain ⟨k1, k2⟩ := read_known w.env o req hwf hh (hq _) rfl ⟨rfl, rfl⟩ hk
      rw [currentData_eq] at k2
      exact ⟨k1, k2⟩) hr (fun _ => ⟨hf, hl⟩)
  refine ⟨c', n', t, h1, h2, h3, h5, ?_⟩
  intro k
  rw [h4 k]
  split
  · rename_i e
    rw [e]
    exact ho.symm
  · rfl

/-- C68. A controller that posts a write request with response (0x61) for writable properties of an object of
a device gets a response that says so, each written property of the object then has the data of the last item
naming it, and nothing else at the device changes. -/
theorem C68_write {ord : List Int → List Int} (hord : ValidOrder ord) {c : Ctl} {n : LocalNode} (hc : Connected ord c n)
    (w : World) (hw : w.Works) (ca da : Addr) (dest : PyDest) (hd : Ctl.toAddr dest = some da)
    (o : Obj) (hcode : 0 ≤ o.code ∧ o.code < 2 ^ 24) (ho : n.getObject (.int o.code) = some o) (hwf : WellFormed o) (hh : o.handler = .self_) (hq : ∀ m, Quiet w.env o m)
    (items : List PProp) (tid : Int) (ht : 0 ≤ tid ∧ tid ≤ 65535) (hk : ∀ i ∈ items, ∃ p, lookup o.props i.code = some p ∧ CanWrite p)
    (hm : FitsDatagram { esv := 0x61, props := items }) :
    ∃ c' n' t, Exchange ord w ca da dest c n { WriteResponseRequiredRequest o.code with tid := tid, props := items } c' n'
        { tid := t, seoj := o.code, deoj := 0x0EF001, esv := 0x71, props := items.map (fun i => { code := i.code, data := [] }), fromAddr := some da } ∧
      (tid ≠ 0 → t = tid) ∧ Connected ord c' n' ∧ (∀ ip, Found c ip → Found c' ip) ∧
      ∃ o', n'.getObject (.int o.code) = some o' ∧
        (∀ k, lookup o'.props k = (lookup o.props k).map fun p => { p with data := (lastFor items k).getD p.data }) ∧ skeleton o' = skeleton o ∧
        ∀ k, k ≠ o.code → n'.getObject (.int k) = n.getObject (.int k) := by
  have hm' : FitsDatagram { WriteResponseRequiredRequest o.code with tid := tid, props := items } := by
    obtain ⟨h1, h2⟩ := hm
    refine ⟨?_, ?_⟩
    · unfold Encodable at h1 ⊢; exact h1
    · rw [encode_length] at h2 ⊢; exact h2
  have hr : FitsDatagram { esv := 0x71, props := items.map (fun i => ({ code := i.code, data := [] } : PProp)) } := by
    obtain ⟨h1, h2⟩ := hm
    refine ⟨?_, ?_⟩
    · unfold Encodable at h1 ⊢
      rw [if_neg (show ¬ TwoSections 0x61 by decide)] at h1
      rw [if_neg (show ¬ TwoSections 0x71 by decide)]
      refine ⟨⟨by show (0:Int) ≤ 0x71; decide, by show (0x71:Int) < 256; decide⟩, by simpa using h1.2.1, ?_⟩
      intro p hp
      obtain ⟨i, hi, rfl⟩ := List.mem_map.mp hp
      have := h1.2.2 i hi
      unfold PropOk at this ⊢
      simp only [List.length_nil]
      omega
    · rw [encode_length] at h2 ⊢
      have hb : ∀ l : List PProp, (encItems (l.map (fun i => ({ code := i.code, data := [] } : PProp)))).length ≤ (encItems l).length := by
        intro l
        induction l with
        | nil => simp [encItems]
        | cons x l ih =>
          unfold encItems at ih ⊢
          simp only [List.map_cons, List.flatMap_cons, List.length_append]
          have : (encItem { code := x.code, data := [] }).length ≤ (encItem x).length := by unfold encItem; simp
          omega
      have := hb items
      unfold encBody encSection at h2 ⊢
      rw [if_neg (show ¬ TwoSections 0x61 by decide)] at h2
      rw [if_neg (show ¬ TwoSections 0x71 by decide)]
      simp only [List.length_cons] at h2 ⊢
      omega
  obtain ⟨c', n', t, h1, h2, h3, h5, h4⟩ := exchange hord hc w hw ca da dest hd { WriteResponseRequiredRequest o.code with tid := tid, props := items } hm' ht (show ¬ TwoSections 0x61 by decide)
    hcode o ho (afterWrites o items) 0x71 (by decide) (items.map (fun i => { code := i.code, data := [] }))
    (by
      intro t req
      exact write_known w.env o req hwf hh (hq _) rfl ⟨rfl, rfl⟩ hk) hr (by intro h; exact absurd h (by decide))
  refine ⟨c', n', t, h1, h2, h3, h5, afterWrites o items, ?_, lookup_afterWrites o items, skeleton_afterWrites _ _, ?_⟩
  · rw [h4 o.code]
    exact if_pos rfl
  · intro k hne
    rw [h4 k]
    exact if_neg hne

/-- C68. Written, then read: a read after a write returns the written data for the written properties and the
data they had for the others. -/
theorem C68_write_then_read {ord : List Int → List Int} (hord : ValidOrder ord) {c : Ctl} {n : LocalNode} (hc : Connected ord c n)
    (w : World) (hw : w.Works) (ca da : Addr) (dest : PyDest) (hd : Ctl.toAddr dest = some da)
    (o : Obj) (hcode : 0 ≤ o.code ∧ o.code < 2 ^ 24) (ho : n.getObject (.int o.code) = some o) (hwf : WellFormed o) (hh : o.handler = .self_) (hq : ∀ m, Quiet w.env o m)
    (new items : List PProp) (hkw : ∀ i ∈ new, ∃ p, lookup o.props i.code = some p ∧ CanWrite p)
    (hkr : ∀ i ∈ items, ∃ p, lookup o.props i.code = some p ∧ CanRead p)
    (hm1 : FitsDatagram { esv := 0x61, props := new }) (hm2 : FitsDatagram { esv := 0x62, props := items })
    (result : List PProp) (hres : result = items.map fun i =>
      { code := i.code, data := (lastFor new i.code).getD (((lookup o.props i.code).map OProp.data).getD []) })
    (hr : FitsDatagram { esv := 0x72, props := result }) (hf : Found c da.1) (hl : instanceListOf { props := result } ≠ .empty) :
    ∃ c1 n1 r1 c2 n2 r2, Exchange ord w ca da dest c n { WriteResponseRequiredRequest o.code with props := new } c1 n1 r1 ∧ r1.esv = 0x71 ∧
      Exchange ord w ca da dest c1 n1 { ReadRequest o.code with props := items } c2 n2 r2 ∧ r2.esv = 0x72 ∧ r2.seoj = o.code ∧ r2.props = result := by
  obtain ⟨c1, n1, t1, a1, -, a3, af, o1, a4, a5, a6, -⟩ := C68_write hord hc w hw ca da dest hd o hcode ho hwf hh hq new 0 (by decide) hkw hm1
  have ecode : o1.code = o.code := by
    have := congrArg Obj.code a6
    exact this
  have hobs : o1.observers = o.observers := by
    have := congrArg Obj.observers a6
    exact this
  have hcur : currentData o1 items = result := by
    rw [hres]
    unfold currentData
    apply List.map_congr_left
    intro i hi
    obtain ⟨p, hp, -⟩ := hkr i hi
    rw [a5, hp]
    rfl
  obtain ⟨c2, n2, t2, b1, -⟩ := C68_read hord a3 w hw ca da dest hd o1 (by rw [ecode]; exact hcode) (by rw [ecode]; exact a4) (wf_of_skeleton a6 hwf)
    (by rw [handler_of_skeleton a6, hh]) (by intro m x hx; rw [hobs] at hx; exact hq m x hx) items 0 (by decide)
    (by
      intro i hi
      obtain ⟨p, hp, hcr⟩ := hkr i hi
      exact ⟨{ p with data := (lastFor new i.code).getD p.data }, by rw [a5, hp]; rfl, hcr⟩)
    hm2 (by rw [hcur]; exact hr) (af _ hf) (by rw [hcur]; exact hl)
  rw [ecode, hcur] at b1
  exact ⟨c1, n1, _, c2, n2, _, a1, rfl, b1, rfl, rfl, rfl⟩

/-! ### A controller and a device -/

/-- A started device with one object. -/
theorem dev_device {ord : List Int → List Int} (hord : ValidOrder ord) (o : Obj) : ∃ n, Reachable ord n ∧ n.controller = false ∧
    n.getObject (.int o.code) = some o ∧ CanSend n.mgr := by
  obtain ⟨n0, h0, hinv, hctl⟩ := localNode_new hord ⟨[], 0, 0⟩ false
  obtain ⟨-, -, h3, -, h5, -⟩ := addObject_inv hord n0 o hinv
  obtain ⟨g, hg, hw, -⟩ := ok_start (n0.addObject ord o).1
  have hc0 : n0.controller = false := by
    have : (LocalNode.new ord ⟨[], 0, 0⟩ false).1.controller = false := by
      unfold LocalNode.new
      rcases NodeProfile.new ord ⟨[], 0, 0⟩ with ⟨p, e | u⟩
      · rfl
      · simp only []
        unfold LocalNode.refresh
        simp only []
        split <;> (rename_i hq; rw [Prod.mk.injEq] at hq; rw [← hq.1])
    rw [h0] at this
    exact this
  refine ⟨_, ⟨⟨[], 0, 0⟩, false, [.add o, .start okNet none], ?_, rfl⟩, ?_⟩
  · intro op hop
    rcases List.mem_cons.mp hop with rfl | hop
    · trivial
    · rw [List.mem_singleton.mp hop]; trivial
  have : runOps ord (LocalNode.new ord ⟨[], 0, 0⟩ false).1 [.add o, .start okNet none] =
      { (n0.addObject ord o).1 with mgr := g, node := { (n0.addObject ord o).1.node with address := some ("10.0.0.2", 3610) } } := by
    rw [h0]
    show ((n0.addObject ord o).1.start okNet none).1 = _
    rw [hg]
  rw [this]
  refine ⟨h5.trans hc0, ?_, hw⟩
  unfold LocalNode.getObject Node.getObject
  simp only []
  rw [h3]
  show Option.map _ (Dict.get? (Dict.set n0.node.objects o.code (Slot.user o)) o.code) = _
  rw [Dict.get?_set, if_pos rfl]
  rfl

/-- A started controller that has found a node, or not. -/
theorem ctl_ready {ord : List Int → List Int} (hord : ValidOrder ord) : ∃ c c' ops ops', CtlReach ord c ops ∧ CanSend c.ln.mgr ∧ Dict.keys c.found = [] ∧
    CtlReach ord c' ops' ∧ CanSend c'.ln.mgr ∧ Found c' "10.0.0.9" := by
  obtain ⟨c, h1, -, h2⟩ := ctl_device hord exObj
  have hd : Delivered (exList "10.0.0.9" [0x029101]) := by unfold Delivered; decide +kernel
  have h3 := ctl_snoc h1 (.receive exEnv calmEnv okNet (exList "10.0.0.9" [0x029101])) ⟨hd, calmEnv_calm, exEnv_stable⟩
  have hln := receive_ln ord exEnv calmEnv okNet c (exList "10.0.0.9" [0x029101]) (reach_knows hord h1).1 calmEnv_calm hord hd
  rw [if_neg (by decide)] at hln
  refine ⟨c, _, _, _, h1, h2, ?_, h3, ?_, ?_⟩
  · have := (reach_knows hord h1).2
    apply List.eq_nil_iff_forall_not_mem.mpr
    intro ip hip
    obtain ⟨x, hx⟩ := Option.isSome_iff_exists.mp ((Dict.get?_isSome_iff _ _).mpr hip)
    have := this ip
    rw [hx] at this
    cases this
  · show CanSend (c.messageReceived ord exEnv calmEnv okNet (exList "10.0.0.9" [0x029101])).1.ln.mgr
    rw [hln]
    exact h2
  · have := (reach_knows hord h3).2 "10.0.0.9"
    rw [heard_append, show heard [CtlOp.receive exEnv calmEnv okNet (exList "10.0.0.9" [0x029101])] = [exList "10.0.0.9" [0x029101]] from rfl, latest_append, show announced (exList "10.0.0.9" [0x029101]) = some (("10.0.0.9", 3610), [0x029101]) by decide +kernel] at this
    apply (Dict.get?_isSome_iff _ _).mp
    generalize Dict.get? (CtlOp.run ord c (.receive exEnv calmEnv okNet (exList "10.0.0.9" [0x029101]))).found "10.0.0.9" = z at this
    cases z with
    | none => cases this
    | some _ => rfl

/-- Nobody raises and the network takes everything. -/
def exWorld : World := { env := exEnv, net := okNet, cenv := calmEnv, cuser := exEnv, cnet := okNet }

theorem exWorld_works : exWorld.Works :=
  ⟨fun _ _ _ _ => rfl, fun _ _ _ _ => rfl, calmEnv_calm, exEnv_stable, exEnv_stable⟩

/-- The machines of the examples. -/
theorem ex_connected {ord : List Int → List Int} (hord : ValidOrder ord) : ∃ c c' n, Connected ord c n ∧ ¬ Found c "10.0.0.9" ∧
    Connected ord c' n ∧ Found c' "10.0.0.9" ∧ n.getObject (.int 0x029101) = some exObj := by
  obtain ⟨c, c', ops, ops', h1, h2, h3, h4, h5, h6⟩ := ctl_ready hord
  obtain ⟨n, d1, d2, d3, d4⟩ := dev_device hord exObj
  exact ⟨c, c', n, ⟨⟨_, h1⟩, h2, d1, d2, d4⟩, by unfold Found; rw [h3]; simp, ⟨⟨_, h4⟩, h5, d1, d2, d4⟩, h6, d3⟩

/-- Property 0x80 of the device is written, then it and 0x81 are read. -/
example {ord : List Int → List Int} (hord : ValidOrder ord) : ∃ c n c1 n1 r1 c2 n2 r2,
    Exchange ord exWorld ("10.0.0.2", 3610) ("10.0.0.9", 3610) (.str "10.0.0.9") c n
      { WriteResponseRequiredRequest 0x029101 with props := [{ code := 0x80, data := [0x31] }] } c1 n1 r1 ∧
    Exchange ord exWorld ("10.0.0.2", 3610) ("10.0.0.9", 3610) (.str "10.0.0.9") c1 n1
      { ReadRequest 0x029101 with props := [{ code := 0x80 }, { code := 0x81 }] } c2 n2 r2 ∧
    r2.props = [{ code := 0x80, data := [0x31] }, { code := 0x81, data := [7] }] := by
  obtain ⟨-, c, n, -, -, h1, h2, h3⟩ := ex_connected hord
  obtain ⟨c1, n1, r1, c2, n2, r2, a1, -, a2, -, -, a3⟩ := C68_write_then_read hord h1 exWorld exWorld_works ("10.0.0.2", 3610) ("10.0.0.9", 3610)
    (.str "10.0.0.9") rfl exObj (by decide) h3 (by decide) rfl (fun _ _ _ => rfl) [{ code := 0x80, data := [0x31] }]
    [{ code := 0x80 }, { code := 0x81 }] (by decide) (by decide) (by decide +kernel) (by decide +kernel) _ rfl (by decide +kernel) h2
    (by intro h; exact absurd h (by simp [instanceListOf]))
  exact ⟨c, n, c1, n1, r1, c2, n2, r2, a1, a2, a3⟩

/-! ### C87: devices that have not been found -/

/-- C87 (the part that holds): the response to a write reaches the posting thread whether or not the node has
been found. -/
theorem C87_write_partial {ord : List Int → List Int} (hord : ValidOrder ord) {c : Ctl} {n : LocalNode} (hc : Connected ord c n)
    (w : World) (hw : w.Works) (ca da : Addr) (dest : PyDest) (hd : Ctl.toAddr dest = some da) (_hf : ¬ Found c da.1)
    (o : Obj) (hcode : 0 ≤ o.code ∧ o.code < 2 ^ 24) (ho : n.getObject (.int o.code) = some o) (hwf : WellFormed o) (hh : o.handler = .self_) (hq : ∀ m, Quiet w.env o m)
    (items : List PProp) (hk : ∀ i ∈ items, ∃ p, lookup o.props i.code = some p ∧ CanWrite p) (hm : FitsDatagram { esv := 0x61, props := items }) :
    ∃ c' n' r, Exchange ord w ca da dest c n { WriteResponseRequiredRequest o.code with props := items } c' n' r ∧ r.esv = 0x71 := by
  obtain ⟨c', n', t, h, -⟩ := C68_write hord hc w hw ca da dest hd o hcode ho hwf hh hq items 0 (by decide) hk hm
  exact ⟨c', n', _, h, rfl⟩

/-- C87 (violated): the response to a read from a node that has not been found ends the receiving thread of
the controller, and the posting thread does not get it, although the device answered with the data. -/
theorem C87_read_false {ord : List Int → List Int} (hord : ValidOrder ord) :
    (∀ (c : Ctl) (n : LocalNode), Connected ord c n → ∀ (w : World), w.Works → ∀ (ca da : Addr) (dest : PyDest), Ctl.toAddr dest = some da → ¬ Found c da.1 →
      ∀ (o : Obj), (0 ≤ o.code ∧ o.code < 2 ^ 24) → n.getObject (.int o.code) = some o → WellFormed o → o.handler = .self_ → (∀ m, Quiet w.env o m) →
      ∀ (items : List PProp), (∀ i ∈ items, ∃ p, lookup o.props i.code = some p ∧ CanRead p) →
      FitsDatagram { esv := 0x62, props := items } → FitsDatagram { esv := 0x72, props := currentData o items } →
      (∀ i ∈ items, i.code ≠ 0xD5 ∧ i.code ≠ 0xD6) →
      ∃ c1 n' d t, Asked w ca da dest c n { ReadRequest o.code with props := items } c1 n' d ∧
        Decodes d da { tid := t, seoj := o.code, deoj := 0x0EF001, esv := 0x72, props := currentData o items, fromAddr := some da } ∧
        (∃ q, c1.last = { request := some q } ∧ q.tid = t) ∧
        recvOne (Ctl.deliver ord w.cuser w.cenv w.cnet) c1 d da = (c1, false) ∧ c1.last.response = none) ∧
    ∃ c n, Connected ord c n ∧ ¬ Found c "10.0.0.9" ∧ n.getObject (.int 0x029101) = some exObj := by
  refine ⟨?_, ?_⟩
  · intro c n hc w hw ca da dest hd hf o hcode ho hwf hh hq items hk hm hr hns
    have hm' : FitsDatagram { ReadRequest o.code with props := items } := by
      obtain ⟨h1, h2⟩ := hm
      refine ⟨?_, ?_⟩
      · unfold Encodable at h1 ⊢; exact h1
      · rw [encode_length] at h2 ⊢; exact h2
    obtain ⟨c1, n1, d, t, q, a1, a2, hback, p3, p4, p8, p10, ⟨ops, hpost⟩, a3, a4⟩ :=
      asked hord hc w hw ca da dest hd { ReadRequest o.code with props := items } hm' (show (0:Int) ≤ 0 ∧ (0:Int) ≤ 65535 by decide) (show ¬ TwoSections 0x62 by decide)
        hcode o ho o 0x72 (by decide) (currentData o items)
        (by
          intro t req
          obtain ⟨k1, k2⟩ := read_known w.env o req hwf hh (hq _) rfl ⟨rfl, rfl⟩ hk
          rw [currentData_eq] at k2
          exact ⟨k1, k2⟩) hr
    refine ⟨c1, n1, d, t, a1, hback, ⟨q, p3, p4⟩, ?_, by rw [p3]⟩
    rw [recvOne_ok _ c1 _ da _ hback]
    have hnl : ∀ m : Msg, m.props = currentData o items → instanceListOf m = .notAList := by
      intro m e
      unfold instanceListOf
      rw [e]
      unfold currentData
      cases items with
      | nil => rfl
      | cons i l =>
        have := hns i List.mem_cons_self
        simp only [List.map_cons]
        rw [if_neg (by omega)]
    obtain ⟨r1, -, -, -⟩ := received_decoded hback
    generalize hrdef : ({ tid := t, seoj := (ReadRequest o.code).deoj, deoj := 0x0EF001, esv := 0x72, props := currentData o items, fromAddr := some da } : Msg) = r at *
    have hrp : r.props = currentData o items := by rw [← hrdef]
    have hre : r.esv = 0x72 := by rw [← hrdef]
    have hrd : r.deoj = 0x0EF001 := by rw [← hrdef]
    have hra : r.fromAddr = some da := by rw [← hrdef]
    have hann : afterList ord c1 r = c1 := by
      unfold afterList announced
      rw [hnl r hrp, hra]
      split
      · rfl
      · rename_i heq
        split at heq <;> cases heq
    have := response_unknown hord w.cuser hw.calm w.cnet c1 (reach_knows hord hpost).1 r da hra r1 (Or.inl hre)
      (by rw [hrd]; intro h; exact h.2 rfl) (by rw [hnl r hrp]; intro h; cases h.2)
      (by rw [hann, p8]; exact (Dict.get?_eq_none_iff _ _).mpr hf)
    rw [hann] at this
    have e : Ctl.deliver ord w.cuser w.cenv w.cnet c1 r = (c1, some .attributeError) := by
      unfold Ctl.deliver
      rw [this]
    rw [e]
    rfl
  · obtain ⟨c, -, n, h1, h2, -, -, h3⟩ := ex_connected hord
    exact ⟨c, n, h1, h2, h3⟩

end Uecho
