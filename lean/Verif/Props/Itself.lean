/- C127: whether a controller finds itself. -/
import Verif.Props.Search
import Verif.Lemmas.Storm

namespace Uecho
open Spec

/-- A started controller that hosts a device, and what it has for objects. -/
theorem ctl_hosts {ord : List Int → List Int} (hord : ValidOrder ord) (o : Obj) : ∃ c, CtlReach ord c [.add o, .start okNet none] ∧
    c.ln.node.objects = Dict.set [(0x0EF001, .profile)] o.code (.user o) ∧ CanSend c.ln.mgr := by
  refine ⟨runCtl ord (Ctl.new ord ⟨[], 0, 0⟩).1 [.add o, .start okNet none], ⟨⟨[], 0, 0⟩, ?_, rfl⟩, ?_⟩
  · intro op hop
    rcases List.mem_cons.mp hop with rfl | hop
    · trivial
    · rw [List.mem_singleton.mp hop]; trivial
  obtain ⟨n, hn, hn'⟩ := ctl_new hord ⟨[], 0, 0⟩
  obtain ⟨n0, h0, hinv, hob, -⟩ := localNode_new hord ⟨[], 0, 0⟩ true
  have hnn : n0 = n := by
    have := h0.symm.trans hn'
    injection this
  subst hnn
  rw [hn]
  obtain ⟨-, -, h3, -⟩ := addObject_inv hord n0 o hinv
  obtain ⟨g, hg, hw, -⟩ := ok_start (n0.addObject ord o).1
  show (Ctl.start okNet { ln := (n0.addObject ord o).1 } none).1.ln.node.objects = _ ∧ CanSend (Ctl.start okNet { ln := (n0.addObject ord o).1 } none).1.ln.mgr
  unfold Ctl.start
  simp only []
  rw [hg]
  simp only [Ctl.search, Ctl.announceMessage]
  have hs : ∀ n : LocalNode, (n.announceMessage okNet SearchMessage).1.node = n.node ∧ (n.announceMessage okNet SearchMessage).1.profile = n.profile ∧
      (n.announceMessage okNet SearchMessage).1.mgr.servers = n.mgr.servers := by
    intro n
    rw [announceMessage_eq]
    obtain ⟨-, -, -, -, -, -, hsv, -⟩ := C54_announce okNet n.mgr (outgoing n SearchMessage) ((outgoing_encodable n _).mpr (by decide +kernel))
    exact ⟨rfl, rfl, hsv⟩
  generalize hx : ({ (n0.addObject ord o).1 with mgr := g, node := { (n0.addObject ord o).1.node with address := some ("10.0.0.2", 3610) } } : LocalNode) = x
  have hxo : x.node.objects = Dict.set n0.node.objects o.code (.user o) := by rw [← hx]; exact h3
  have hxg : x.mgr = g := by rw [← hx]
  obtain ⟨a1, a2, a3⟩ := hs x
  have key : (x.announceMessage okNet SearchMessage).1.node.objects = Dict.set [(0x0EF001, .profile)] o.code (.user o) ∧ CanSend (x.announceMessage okNet SearchMessage).1.mgr := by
    constructor
    · rw [a1, hxo, hob]
    · unfold CanSend
      rw [a3, hxg]
      exact hw
  rcases hq : x.announceMessage okNet SearchMessage with ⟨y, m', e | (_ | _)⟩ <;> (rw [hq] at key; exact key)

/-- C127, what is false. A controller that can send and whose own profile answers finds itself: `search()` reaches its own receiving threads as it reaches everyone's in the group,
the answer is sent to its own address, and once it arrives there the controller is in its own list of found nodes, under its own address and with its own objects, and its listeners
have been told. `a` is the address that the datagrams of this host come from. -/
theorem C127_itself_false {ord : List Int → List Int} (hord : ValidOrder ord) {c : Ctl} {ops : List CtlOp} (h : CtlReach ord c ops) (env : Env) (hst : CodeStable env)
    {cenv : CEnv} (hc : Calm cenv) (net : Net) (a : Addr) (hr : Host.Ready ord ⟨a, c.ln, env, net⟩) :
    ∃ c1 q c2 j d c3, c.search net = (c1, .ok true) ∧
      c1.ln.mgr.log = c.ln.mgr.log ++ (working c.ln.mgr.servers).map (fun s => (⟨s.ifaddr, ("224.0.23.0", 3610), q⟩, (q.length : Int))) ∧
      recvOne (Ctl.deliver ord env cenv net) c1 q a = (c2, true) ∧ c2.ln.mgr.log = c1.ln.mgr.log ++ [(⟨j, a, d⟩, (d.length : Int))] ∧
      recvOne (Ctl.deliver ord env cenv net) c2 d a = (c3, true) ∧
      (∃ r ∈ c3.nodes, r.node.address = some a ∧ r.linked = true ∧ r.node.objectList.map Obj.code = addCodes [0x0EF001] (instancesOf (c.ln.objs.map Obj.code))) ∧
      ∃ rest, toldAll c3 = toldAll c ++ tellAll c.listeners (.nodeAdd a.1) ++ rest := by
  obtain ⟨s1, hi, lo, -, s2, s3, -⟩ := C67_search hord h net hr.net hr.sends
  obtain ⟨req, hd, hreq, hsj⟩ := search_decodes hi lo a
  generalize hq : ([0x10, 0x81, hi, lo, 0x0E, 0xF0, 0x01, 0x0E, 0xF0, 0x01, 0x62, 0x01, 0xD6, 0x00] : Bytes) = q at s2 hd
  have hc1 : CtlReach ord (c.search net).1 (ops ++ [.search net]) := ctl_snoc h (.search net) trivial
  have ho := run_other ord c (.search net) (by intros; intro e; cases e)
  have hr1 : Host.Ready ord ⟨a, (c.search net).1.ln, env, net⟩ := by
    refine ⟨(reach_ln hord hc1).1, hr.own, hr.range, hr.few, ?_, hr.net, hr.quiet⟩
    have : (c.search net).1.ln.mgr.servers = c.ln.mgr.servers := by
      show (c.ln.announceMessage net SearchMessage).1.mgr.servers = _
      rw [announceMessage_eq]
      exact (send_servers net c.ln.mgr (outgoing c.ln SearchMessage) none).2
    show working (c.search net).1.ln.mgr.servers ≠ []
    rw [this]
    exact hr.sends
  obtain ⟨d, m, ⟨n', j, w1, w2⟩, w3, w4, w5, w6⟩ := host_answers hord hr1 q a req hd hreq
  generalize hC : (c.search net).1 = c1 at *
  have hdel : Delivered req := ⟨(received_decoded hd).1, by rw [(received_decoded hd).2.2.1]; rfl⟩
  rw [recvOne_ok _ _ _ _ _ hd] at w1
  have hreqs : ESV.isRequest req.esv = true := by rw [hreq.1]; decide
  have hmr := request_eq ord env cenv net c1 req hreqs
  have hx : recvOne (Ctl.deliver ord env cenv net) c1 q a = ({ c1 with ln := n' }, true) := by
    rw [recvOne_ok _ _ _ _ _ hd]
    unfold Ctl.deliver
    unfold LocalNode.deliver at w1
    rw [hmr]
    simp only [] at w1 ⊢
    rcases hz : c1.ln.messageReceived env net req with ⟨n, e | u⟩
    · rw [hz] at w1; simp at w1
    · rw [hz] at w1; simp at w1; simp [w1]
  have hc2 : CtlReach ord { c1 with ln := n' } (ops ++ [.search net] ++ [.receive env cenv net req]) := by
    have := ctl_snoc hc1 (.receive env cenv net req) ⟨hdel, hc, hst⟩
    have e : CtlOp.run ord c1 (.receive env cenv net req) = { c1 with ln := n' } := by
      show (c1.messageReceived ord env cenv net req).1 = _
      rw [hmr]
      unfold LocalNode.deliver at w1
      simp only [] at w1 ⊢
      rcases hz : c1.ln.messageReceived env net req with ⟨n, e | u⟩
      · rw [hz] at w1; simp at w1
      · rw [hz] at w1; simp at w1; simp [w1]
    rw [e] at this
    exact this
  have hdj : m.deoj = 0x0EF001 := by rw [w5, hsj]; decide
  obtain ⟨c3, r1, r2, r3, -, -, ⟨rest, r6⟩, -⟩ := list_taken hord hc2 env hc hst net d a _ _ (w3 a) w4 hdj w6
  refine ⟨c1, q, _, j, d, c3, ?_, ?_, hx, w2, r1, ?_, rest, ?_⟩
  · rw [← hC, ← s1]
  · rw [s2, show ((q.length : Nat) : Int) = 14 by rw [← hq]; rfl]
  · obtain ⟨r, e1, e2, -, e4, e5⟩ := (C59_nodes hord r2).2.2 a.1 a (instancesOf (c.ln.objs.map Obj.code)) (by
      rw [heard_append]
      show latest (heard _ ++ [_]) a.1 = _
      rw [latest_append, r3]
      simp only [if_true]
      rw [← hC]; rfl)
    exact ⟨r, e1, e2, e4, e5⟩
  · rw [r6, ← hC]
    unfold toldAll
    show _ ++ tellAll c.listeners _ ++ _ = _
    congr 3

/-- A started controller with one device, whose own datagrams come from its own address. -/
example {ord : List Int → List Int} (hord : ValidOrder ord) : ∃ c ops, CtlReach ord c ops ∧
    Host.Ready ord ⟨("10.0.0.2", 3610), c.ln, { exEnv with observe := fun _ _ => none }, okNet⟩ ∧ instancesOf (c.ln.objs.map Obj.code) = [0x029101] := by
  obtain ⟨c, h1, h2, h3⟩ := ctl_hosts hord { code := 0x029101 }
  obtain ⟨hr, -⟩ := reach_ln hord h1
  have hk : c.ln.objs.map Obj.code = [0x0EF001, 0x029101] := by
    rw [objs_codes c.ln (reachable_inv hord hr).own, h2]; rfl
  refine ⟨c, _, h1, ⟨hr, ?_, ?_, ?_, h3, fun _ _ _ _ => rfl, fun _ _ _ => rfl⟩, ?_⟩
  · show Dict.get? c.ln.node.objects _ = _
    rw [h2]; rfl
  · intro o ho
    have : o.code ∈ c.ln.objs.map Obj.code := List.mem_map_of_mem ho
    rw [hk] at this
    simp only [List.mem_cons, List.not_mem_nil, or_false] at this
    rcases this with e | e <;> rw [e] <;> decide
  · show (instancesOf (c.ln.objs.map Obj.code)).length ≤ 84
    rw [hk]; decide
  · rw [hk]; decide

/-- C127. Nothing else makes a controller find itself, or anyone: an address from which it never heard a list of instances is not among the found nodes, whatever else was received,
sent or searched for. -/
theorem C127_unheard_partial {ord : List Int → List Int} (hord : ValidOrder ord) {c : Ctl} {ops : List CtlOp} (h : CtlReach ord c ops) (cenv : CEnv) (ip : String) (p : Int)
    (hno : ∀ m ∈ heard ops, ∀ a l, announced m = some (a, l) → a.1 ≠ ip) :
    (∀ r ∈ c.nodes, ipOf r ≠ ip) ∧ c.getNode cenv (.pair (ip, p)) = .ok none := by
  have hl : latest (heard ops) ip = none := by
    generalize heard ops = ms at hno
    induction ms using List.reverseRecOn with
    | nil => rfl
    | append_singleton ms m ih =>
      rw [latest_append]
      cases hm : announced m with
      | none => exact ih (fun m' h' => hno m' (List.mem_append_left _ h'))
      | some x =>
        obtain ⟨a, l⟩ := x
        simp only []
        rw [if_neg (hno m (by simp) a l hm)]
        exact ih (fun m' h' => hno m' (List.mem_append_left _ h'))
  exact ⟨(C59_nodes hord h).2.1 ip hl, (C59_get_node hord h cenv ip p).1 hl⟩

/-- A controller that has heard of "10.0.0.9" and not of itself. -/
example {ord : List Int → List Int} (hord : ValidOrder ord) : ∃ c ops, CtlReach ord c ops ∧ heard ops = [exList "10.0.0.9" [0x029101]] ∧
    ∀ m ∈ heard ops, ∀ a l, announced m = some (a, l) → a.1 ≠ "10.0.0.2" := by
  obtain ⟨c, h1, -, -⟩ := ctl_device hord exObj
  have hd : Delivered (exList "10.0.0.9" [0x029101]) := by unfold Delivered; decide +kernel
  refine ⟨_, _, ctl_snoc h1 (.receive exEnv calmEnv okNet (exList "10.0.0.9" [0x029101])) ⟨hd, calmEnv_calm, exEnv_stable⟩, rfl, ?_⟩
  intro m hm a l ha
  rw [List.mem_singleton.mp hm, show announced (exList "10.0.0.9" [0x029101]) = some (("10.0.0.9", 3610), [0x029101]) by decide +kernel] at ha
  injection ha with ha
  injection ha with ha
  rw [← ha]
  decide

end Uecho
