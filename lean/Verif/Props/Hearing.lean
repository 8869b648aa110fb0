/-
Listeners that use the controller they listen to: send, announce, search, start, stop, while they are called.
-/
import Verif.Lemmas.Hearing
import Verif.Props.Calling
import Verif.Props.Controller
import Verif.Props.Search

namespace Uecho
open Spec

theorem request_not_response (m : Msg) (h : ESV.isRequest m.esv = true) : ESV.isResponse m.esv = false := by
  unfold ESV.isResponse
  rw [h]
  rfl

/-- C139. A listener may call its controller while it is called: the message is taken in as if it had made no calls (the same nodes, the same
listeners called with the same, the same result, the same response for a waiting `post_message`), and the calls do what they do at any other time. -/
theorem C139_calls {ord : List Int → List Int} {P : CtlOp → Prop} {cenv : CEnv} {L : Hearing.Listener} (hL : Besides ord P cenv L) (env : Env) (net : Net)
    (c : Ctl) (m : Msg) :
    ∃ ops, (∀ op ∈ ops, P op ∧ Usable op) ∧
      Hearing.messageReceived ord env L cenv net c m = (runCtl ord (c.messageReceived ord env cenv net m).1 ops, (c.messageReceived ord env cenv net m).2) := by
  by_cases hr : ESV.isRequest m.esv = true
  · refine ⟨[], by simp, ?_⟩
    have hp := request_not_response m hr
    unfold Hearing.messageReceived Ctl.messageReceived
    rw [not_self]
    simp only [hr, hp, if_true, if_false, Bool.false_eq_true]
    rcases c.ln.messageReceived env net m with ⟨n, e | _⟩ <;> rfl
  · obtain ⟨⟨ops, h1, h2⟩, h3⟩ := receive_busy hL env net m c c ⟨[], by simp, rfl⟩ (by rw [← Bool.not_eq_true]; exact hr)
    exact ⟨ops, h1, Prod.ext h2 h3⟩

/-- C139, said of the parts of a controller. -/
theorem C139_state {ord : List Int → List Int} {P : CtlOp → Prop} {cenv : CEnv} {L : Hearing.Listener} (hL : Besides ord P cenv L) (env : Env) (net : Net)
    (c : Ctl) (m : Msg) :
    (Hearing.messageReceived ord env L cenv net c m).1.found = (c.messageReceived ord env cenv net m).1.found ∧
    (Hearing.messageReceived ord env L cenv net c m).1.calls = (c.messageReceived ord env cenv net m).1.calls ∧
    (Hearing.messageReceived ord env L cenv net c m).1.last = (c.messageReceived ord env cenv net m).1.last ∧
    (Hearing.messageReceived ord env L cenv net c m).1.listeners = (c.messageReceived ord env cenv net m).1.listeners ∧
    (Hearing.messageReceived ord env L cenv net c m).2 = (c.messageReceived ord env cenv net m).2 := by
  obtain ⟨ops, h1, h2⟩ := C139_calls hL env net c m
  rw [h2, usable_frame ops _ fun op ho => (h1 op ho).2]
  exact ⟨rfl, rfl, rfl, rfl, rfl⟩

/-- What happens to a controller whose listeners make calls. -/
inductive HearOp where
  | call (op : CtlOp)
  | hear (env : Env) (L : Hearing.Listener) (cenv : CEnv) (net : Net) (m : Msg)

def HearOp.run (ord : List Int → List Int) (c : Ctl) : HearOp → Ctl
  | .call op => op.run ord c
  | .hear env L cenv net m => (Hearing.messageReceived ord env L cenv net c m).1

/-- As for other controllers: messages come from the transport, listeners raise nothing, nobody changes object codes. -/
def HearOp.Allowed (ord : List Int → List Int) : HearOp → Prop
  | .call op => op.Allowed
  | .hear env L cenv _ m => Delivered m ∧ Calm cenv ∧ CodeStable env ∧ Besides ord CtlOp.Allowed cenv L

/-- The messages received. -/
def HearOp.heard : HearOp → List Msg
  | .call op => Uecho.heard [op]
  | .hear _ _ _ _ m => [m]

theorem usable_deaf (ops : List CtlOp) (h : ∀ op ∈ ops, Usable op) : heard ops = [] := by
  induction ops with
  | nil => rfl
  | cons op ops ih =>
    have := h op (by simp)
    have ih := ih fun op ho => h op (by simp [ho])
    cases op <;> first | exact this.elim | exact ih

/-- C139. Over a whole life: a controller whose listeners make calls is, at every moment, as a controller would be whose program made these calls
by itself, after the same messages. All that holds of every history of those holds of it. -/
theorem C139_life {ord : List Int → List Int} (rnd : NodeProfile.Random) (hist : List HearOp) (h : ∀ x ∈ hist, x.Allowed ord) :
    ∃ ops, CtlReach ord (hist.foldl (HearOp.run ord) (Ctl.new ord rnd).1) ops ∧ heard ops = (hist.map HearOp.heard).flatten := by
  induction hist using List.reverseRecOn with
  | nil => exact ⟨[], ⟨rnd, by simp, rfl⟩, rfl⟩
  | append_singleton hist x ih =>
    obtain ⟨ops, ⟨rnd', h1, h2⟩, h3⟩ := ih fun y hy => h y (List.mem_append_left _ hy)
    have hx := h x (by simp)
    rw [List.foldl_append, List.map_append, List.flatten_append, ← h3]
    generalize hc : hist.foldl (HearOp.run ord) (Ctl.new ord rnd).1 = c at *
    cases x with
    | call op =>
      refine ⟨ops ++ [op], ⟨rnd', ?_, ?_⟩, ?_⟩
      · intro y hy
        rcases List.mem_append.mp hy with hy | hy
        · exact h1 y hy
        · rw [List.mem_singleton.mp hy]; exact hx
      · show op.run ord c = _
        rw [h2]
        unfold runCtl
        rw [List.foldl_append]
        rfl
      · rw [heard_append]
        simp [HearOp.heard]
    | hear env L cenv net m =>
      obtain ⟨hd, hcalm, hst, hL⟩ := hx
      obtain ⟨more, m1, m2⟩ := C139_calls hL env net c m
      refine ⟨ops ++ .receive env cenv net m :: more, ⟨rnd', ?_, ?_⟩, ?_⟩
      · intro y hy
        rcases List.mem_append.mp hy with hy | hy
        · exact h1 y hy
        · rcases List.mem_cons.mp hy with rfl | hy
          · exact ⟨hd, hcalm, hst⟩
          · exact (m1 y hy).1
      · show (Hearing.messageReceived ord env L cenv net c m).1 = _
        rw [m2, h2]
        unfold runCtl
        rw [List.foldl_append]
        rfl
      · rw [heard_append]
        simp only [heard, HearOp.heard, List.map_cons, List.map_nil, List.flatten_cons, List.flatten_nil, List.append_nil]
        rw [usable_deaf more fun op ho => (m1 op ho).2]

/-- For instance, the nodes it knows are those of the latest valid instance lists, whatever its listeners do. -/
theorem C139_nodes {ord : List Int → List Int} (hord : ValidOrder ord) (rnd : NodeProfile.Random) (hist : List HearOp) (h : ∀ x ∈ hist, x.Allowed ord) :
    ((hist.foldl (HearOp.run ord) (Ctl.new ord rnd).1).nodes.map ipOf).Nodup ∧
    (∀ ip, latest (hist.map HearOp.heard).flatten ip = none → ∀ r ∈ (hist.foldl (HearOp.run ord) (Ctl.new ord rnd).1).nodes, ipOf r ≠ ip) ∧
    (∀ ip a l, latest (hist.map HearOp.heard).flatten ip = some (a, l) → ∃ r ∈ (hist.foldl (HearOp.run ord) (Ctl.new ord rnd).1).nodes,
      r.node.address = some a ∧ a.1 = ip ∧ r.linked = true ∧ r.node.objectList.map Obj.code = addCodes [0x0EF001] l) := by
  obtain ⟨ops, h1, h2⟩ := C139_life rnd hist h
  rw [← h2]
  exact C59_nodes hord h1

/-! ### Searching again when a node is added -/

/-- Listeners that search again whenever they are told of a node. -/
def seeker (net : Net) : Hearing.Listener := fun _ c call =>
  match call with
  | .nodeAdd _ => ((c.search net).1, none)
  | _ => (c, none)

theorem seeker_besides (ord : List Int → List Int) (net : Net) (cenv : CEnv) (hc : Calm cenv) : Besides ord CtlOp.Allowed cenv (seeker net) := by
  intro l c call
  have hn : cenv.listen l c.found call = none := hc l c.found call
  rw [hn]
  cases call with
  | nodeAdd r => exact ⟨[.search net], by simp [CtlOp.Allowed, Usable], rfl⟩
  | _ => exact ⟨[], by simp, rfl⟩

/-- How often listeners were told of a node. -/
def additions (ts : List (Nat × Told)) : Nat := (ts.filter fun t => match t.2 with | .nodeAdd _ => true | _ => false).length

/-- The datagram is a search, sent to everybody. -/
def IsSearchDatagram (x : Sent × Int) : Prop := x.1.dest = everybody ∧ ∃ t, x.1.bytes = encode { SearchMessage with tid := t }

/-- A search goes out through every open server. -/
theorem search_log (net : Net) (hs : NetWorks net) (c : Ctl) :
    ∃ new, (c.search net).1.ln.mgr.log = c.ln.mgr.log ++ new ∧ new.length = (working c.ln.mgr.servers).length ∧ (∀ x ∈ new, IsSearchDatagram x) ∧
      (c.search net).1.ln.mgr.servers = c.ln.mgr.servers ∧ (c.search net).1.calls = c.calls := by
  have hu : Encodable SearchMessage := by decide +kernel
  have hu' := (outgoing_encodable c.ln SearchMessage).mpr hu
  have ho : outgoing c.ln SearchMessage = SearchMessage := by unfold outgoing; split <;> rfl
  obtain ⟨new, h1, h2, ⟨j, h6⟩, h3, -, h4, t, ad, h5⟩ := C54_announce net c.ln.mgr _ hu'
  refine ⟨new, h1, ?_, ?_, h4, rfl⟩
  · by_cases hw : working c.ln.mgr.servers = []
    · rw [hw] at h6 ⊢
      have := congrArg List.length h6
      simpa using this
    · have := congrArg List.length (h3 (C54_works net c.ln.mgr _ ("", 0) hu' hw hs).2.2.2)
      simpa using this
  · intro x hx
    obtain ⟨x1, x2⟩ := h2 x hx
    rw [h5, ho] at x2
    exact ⟨x1, t, x2⟩

/-- C140, what holds: such listeners search exactly when they are told of a node: every `node_add` sends one search through every interface, and nothing else is sent. -/
theorem C140_counted_partial {ord : List Int → List Int} (net : Net) (hs : NetWorks net) (env : Env) (cenv : CEnv) (net' : Net) (c : Ctl) (m : Msg)
    (hr : ESV.isRequest m.esv = false) :
    ∃ new, (Hearing.messageReceived ord env (seeker net) cenv net' c m).1.ln.mgr.log = c.ln.mgr.log ++ new ∧ (∀ x ∈ new, IsSearchDatagram x) ∧
      new.length + (working c.ln.mgr.servers).length * additions (toldAll c) =
        (working c.ln.mgr.servers).length * additions (toldAll (Hearing.messageReceived ord env (seeker net) cenv net' c m).1) := by
  have key := receive_keeps (ord := ord) (cenv := cenv) (L := seeker net)
    (I := fun b => b.ln.mgr.servers = c.ln.mgr.servers ∧ ∃ new, b.ln.mgr.log = c.ln.mgr.log ++ new ∧ (∀ x ∈ new, IsSearchDatagram x) ∧
      new.length + (working c.ln.mgr.servers).length * additions (toldAll c) = (working c.ln.mgr.servers).length * additions (toldAll b))
    ?_ (fun _ _ h => h) (fun _ _ h => h) env net' m c hr ⟨rfl, [], by simp, by simp, by simp⟩
  · exact key.2
  · rintro l b call ⟨h1, new, h2, h3, h4⟩
    have hadd : additions (toldAll { b with calls := b.calls ++ [(l, b.found, call)] }) = additions (toldAll b) + additions [(l, told call)] := by
      unfold additions toldAll
      simp [List.filter_append]
    cases call with
    | nodeAdd r =>
      obtain ⟨more, s1, s2, s3, s4, s5⟩ := search_log net hs { b with calls := b.calls ++ [(l, b.found, .nodeAdd r)] }
      show (Ctl.search net _).1.ln.mgr.servers = _ ∧ ∃ new', (Ctl.search net _).1.ln.mgr.log = _ ∧ _
      refine ⟨s4.trans h1, new ++ more, ?_, ?_, ?_⟩
      · rw [s1, ← List.append_assoc, ← h2]
      · intro x hx
        rcases List.mem_append.mp hx with hx | hx
        · exact h3 x hx
        · exact s3 x hx
      · have e : toldAll (Ctl.search net { b with calls := b.calls ++ [(l, b.found, .nodeAdd r)] }).1 = toldAll { b with calls := b.calls ++ [(l, b.found, .nodeAdd r)] } := by
          unfold toldAll; rw [s5]
        show _ = _ * additions (toldAll (Ctl.search net { b with calls := b.calls ++ [(l, b.found, .nodeAdd r)] }).1)
        rw [e, hadd, List.length_append, s2, Nat.mul_add, ← h4, ← h1]
        simp [additions, told]
        omega
    | _ =>
      refine ⟨h1, new, h2, h3, ?_⟩
      show _ = _ * additions (toldAll { b with calls := b.calls ++ [(l, b.found, _)] })
      rw [hadd, h4]
      simp [additions, told]

theorem additions_append (a b : List (Nat × Told)) : additions (a ++ b) = additions a + additions b := by
  unfold additions
  rw [List.filter_append, List.length_append]

theorem additions_tell (ls : List Nat) (ip : String) : additions (tellAll ls (.nodeAdd ip)) = ls.length := by
  unfold additions tellAll
  rw [List.filter_eq_self.mpr]
  · simp
  · intro x hx
    obtain ⟨l, -, rfl⟩ := List.mem_map.mp hx
    rfl

/-- C140, what fails: a listener that searches again when it is told of a node never comes to an end. Every valid instance list, also the hundredth of a node
long known, with nothing new in it, makes every such listener search at least twice, through every interface; each of these searches is answered by all nodes with such a list (C88). -/
theorem C140_again_false {ord : List Int → List Int} (hord : ValidOrder ord) {c : Ctl} {ops : List CtlOp} (h : CtlReach ord c ops) (net : Net) (hs : NetWorks net)
    (env : Env) {cenv : CEnv} (hc : Calm cenv) (net' : Net) (m : Msg) (hd : Delivered m) (a : Addr) (l : List Int) (ha : announced m = some (a, l)) :
    ∃ new, (Hearing.messageReceived ord env (seeker net) cenv net' c m).1.ln.mgr.log = c.ln.mgr.log ++ new ∧ (∀ x ∈ new, IsSearchDatagram x) ∧
      2 * c.listeners.length * (working c.ln.mgr.servers).length ≤ new.length := by
  have hr : ESV.isRequest m.esv = false := by
    unfold announced at ha
    split at ha
    · rename_i hcond
      rcases hcond.1 with e | e <;> rw [e] <;> decide
    · cases ha
  obtain ⟨new, h1, h2, h3⟩ := C140_counted_partial (ord := ord) net hs env cenv net' c m hr
  refine ⟨new, h1, h2, ?_⟩
  have hcalls := (C139_state (seeker_besides ord net cenv hc) env net' c m).2.1
  have ht : toldAll (Hearing.messageReceived ord env (seeker net) cenv net' c m).1 = toldAll (c.messageReceived ord env cenv net' m).1 := by
    unfold toldAll; rw [hcalls]
  obtain ⟨mid, hm⟩ := C60_twice_false hord h env hc net' m hd a l ha
  rw [ht, hm] at h3
  simp only [additions_append, additions_tell] at h3
  have h4 : (working c.ln.mgr.servers).length * (2 * c.listeners.length) + (working c.ln.mgr.servers).length * additions (toldAll c) ≤
      (working c.ln.mgr.servers).length * (additions (toldAll c) + c.listeners.length + additions mid + c.listeners.length) := by
    rw [← Nat.mul_add]
    apply Nat.mul_le_mul_left
    omega
  rw [← h3] at h4
  rw [Nat.mul_comm (2 * c.listeners.length)]
  omega

/-! ### A network that never comes to rest -/

/-- What a receiving thread of the controller delivers to. -/
def hearing (ord : List Int → List Int) (env : Env) (L : Hearing.Listener) (cenv : CEnv) (net : Net) (c : Ctl) (m : Msg) : Ctl × Option Exc :=
  match Hearing.messageReceived ord env L cenv net c m with
  | (c, .error e) => (c, some e)
  | (c, .ok _) => (c, none)

/-- A host hears datagrams from `ca`, one after the other: the host afterwards, and the datagrams it has sent to `ca`. -/
def Spec.Host.hears (ca : Addr) : Host → List Bytes → Host × List Bytes
  | h, [] => (h, [])
  | h, q :: qs =>
    let n := (recvOne (LocalNode.deliver h.env h.net) h.node q ca).1
    let r := Host.hears ca { h with node := n } qs
    (r.1, ((n.mgr.log.drop h.node.mgr.log.length).filter fun x => x.1.dest = ca).map (fun x => x.1.bytes) ++ r.2)

/-- A controller and another host, and what the controller sent last. -/
structure Pair where
  c : Ctl
  h : Host
  pending : List Bytes

/-- The host hears all that the controller sent last, the controller hears all that the host answers; no program does anything. What the
controller sends to everybody meanwhile is pending next. -/
def Pair.round (ord : List Int → List Int) (env : Env) (L : Hearing.Listener) (cenv : CEnv) (net : Net) (ca : Addr) (p : Pair) : Pair :=
  let r := Host.hears ca p.h p.pending
  let c := (runLoop (hearing ord env L cenv net) p.c (r.2.map fun d => (d, p.h.addr))).1
  { c := c, h := r.1, pending := ((c.ln.mgr.log.drop p.c.ln.mgr.log.length).filter fun x => x.1.dest = everybody).map fun x => x.1.bytes }

/-- A search, as it travels. -/
def IsSearch (q : Bytes) : Prop := ∃ t, q = encode { SearchMessage with tid := t }

theorem isSearch_read {q : Bytes} (h : IsSearch q) (ca : Addr) : ∃ req, Decodes q ca req ∧ IsReadOf req 0x0EF001 0xD6 ∧ req.seoj = 0x0EF001 := by
  obtain ⟨t, rfl⟩ := h
  refine ⟨_, decodes_encode _ ?_ ?_ ca, ⟨rfl, rfl, [], rfl, ?_⟩, rfl⟩
  · show Encodable SearchMessage
    decide +kernel
  · rw [encode_length]
    show 11 + (encBody SearchMessage).length ≤ 1024
    decide +kernel
  · decide

/-- A host that can be found answers a search and can be found afterwards. -/
theorem host_again {ord : List Int → List Int} (hord : ValidOrder ord) {h : Host} (hr : h.Ready ord) (hst : CodeStable h.env) {q : Bytes} (hq : IsSearch q) (ca : Addr) :
    ∃ n' j d m, recvOne (LocalNode.deliver h.env h.net) h.node q ca = (n', true) ∧ n'.mgr.log = h.node.mgr.log ++ [(⟨j, ca, d⟩, (d.length : Int))] ∧
      ({ h with node := n' } : Host).Ready ord ∧ Decodes d h.addr m ∧ m.esv = 0x72 ∧ m.deoj = 0x0EF001 ∧
      instanceListOf m = .codes (instancesOf (h.node.objs.map Obj.code)) := by
  obtain ⟨req, hd, hreq, hsj⟩ := isSearch_read hq ca
  obtain ⟨d, m, ⟨n', j, h1, h2⟩, h3, h4, h5, h6⟩ := host_answers hord hr q ca req hd hreq
  refine ⟨n', j, d, _, h1, h2, ?_, h3 h.addr, h4, by show m.deoj = _; rw [h5, hsj]; decide, h6⟩
  · obtain ⟨henc, hrec, ha, -⟩ := received_decoded hd
    obtain ⟨b, hb, k1, k2⟩ := profile_answer hord hr.reach h.env req hreq (hr.quiet _)
    have hdisp := profile_dispatch hr.own h.env h.net req _ hreq k1 k2
    have e : n' = (h.node.messageReceived h.env h.net req).1 := by
      have := congrArg Prod.fst h1
      rw [recvOne_ok _ _ q ca req hd] at this
      simp only [] at this
      rw [← this]
      unfold LocalNode.deliver
      rcases h.node.messageReceived h.env h.net req with ⟨z, e | e⟩ <;> rfl
    have hreach : Reachable ord n' := by
      obtain ⟨rnd, ctl, ops, o1, o2⟩ := hr.reach
      refine ⟨rnd, ctl, ops ++ [.receive h.env h.net req], ?_, ?_⟩
      · intro op ho
        rcases List.mem_append.mp ho with ho | ho
        · exact o1 op ho
        · rw [List.mem_singleton.mp ho]; exact hst
      · rw [e, o2]
        unfold runOps
        rw [List.foldl_append]
        rfl
    rw [hdisp, answer_eq, if_neg (by show ¬ ESV.isNotification 0x72 = true; decide)] at e
    refine ⟨hreach, ?_, ?_, ?_, ?_, hr.net, ?_⟩
    · rw [e]; exact hr.own
    · rw [e]; exact hr.range
    · rw [e]; exact hr.few
    · show CanSend n'.mgr
      unfold CanSend
      rw [e]
      show working (Manager.send _ _ _ _).1.servers ≠ []
      rw [(send_servers _ _ _ _).1]
      exact hr.sends
    · rw [e]; exact hr.quiet

/-- What all of that comes to. -/
theorem hears_all {ord : List Int → List Int} (hord : ValidOrder ord) (ca : Addr) (qs : List Bytes) : ∀ (h : Host), h.Ready ord → CodeStable h.env → (∀ q ∈ qs, IsSearch q) →
    (h.hears ca qs).1.Ready ord ∧ (h.hears ca qs).1.env = h.env ∧ (h.hears ca qs).1.addr = h.addr ∧ (h.hears ca qs).2.length = qs.length ∧
      ∀ d ∈ (h.hears ca qs).2, ∃ m l, Decodes d h.addr m ∧ m.esv = 0x72 ∧ m.deoj = 0x0EF001 ∧ instanceListOf m = .codes l := by
  induction qs with
  | nil => exact fun h hr _ _ => ⟨hr, rfl, rfl, rfl, by simp [Host.hears]⟩
  | cons q qs ih =>
    intro h hr hst hq
    obtain ⟨n', j, d, m, h1, h2, h3, h4, h5⟩ := host_again hord hr hst (hq q (by simp)) ca
    obtain ⟨i1, i2, i3, i4, i5⟩ := ih { h with node := n' } h3 hst fun x hx => hq x (by simp [hx])
    unfold Host.hears
    rw [h1]
    simp only [h2, List.drop_left]
    refine ⟨i1, i2, i3, by simp [i4], ?_⟩
    intro x hx
    simp only [List.filter_cons, decide_true, if_true, List.filter_nil, List.map_cons, List.map_nil, List.cons_append, List.nil_append, List.mem_cons] at hx
    rcases hx with rfl | hx
    · exact ⟨m, _, h4, h5⟩
    · exact i5 x hx

theorem seeker_servers {ord : List Int → List Int} (net : Net) (hs : NetWorks net) (env : Env) (cenv : CEnv) (net' : Net) (c : Ctl) (m : Msg)
    (hr : ESV.isRequest m.esv = false) : (Hearing.messageReceived ord env (seeker net) cenv net' c m).1.ln.mgr.servers = c.ln.mgr.servers := by
  apply receive_keeps (ord := ord) (cenv := cenv) (L := seeker net) (I := fun b => b.ln.mgr.servers = c.ln.mgr.servers) ?_ (fun _ _ h => h) (fun _ _ h => h) env net' m c hr rfl
  intro l b call h
  cases call with
  | nodeAdd r =>
    obtain ⟨-, -, -, -, s4, -⟩ := search_log net hs { b with calls := b.calls ++ [(l, b.found, .nodeAdd r)] }
    exact s4.trans h
  | _ => exact h

/-- The controller with such listeners takes instance lists. -/
theorem seeks_all {ord : List Int → List Int} (hord : ValidOrder ord) (net : Net) (hs : NetWorks net) (env : Env) (hst : CodeStable env) {cenv : CEnv} (hc : Calm cenv) (net' : Net)
    (a : Addr) (ds : List Bytes) : ∀ (c : Ctl) (ops : List CtlOp), CtlReach ord c ops → (∀ d ∈ ds, ∃ m l, Decodes d a m ∧ m.esv = 0x72 ∧ m.deoj = 0x0EF001 ∧ instanceListOf m = .codes l) →
    ∃ c' ops' new, runLoop (hearing ord env (seeker net) cenv net') c (ds.map fun d => (d, a)) = (c', true) ∧ CtlReach ord c' ops' ∧ c'.listeners = c.listeners ∧
      c'.ln.mgr.servers = c.ln.mgr.servers ∧ c'.ln.mgr.log = c.ln.mgr.log ++ new ∧ (∀ x ∈ new, IsSearchDatagram x) ∧
      2 * c.listeners.length * (working c.ln.mgr.servers).length * ds.length ≤ new.length := by
  induction ds with
  | nil => exact fun c ops h _ => ⟨c, ops, [], rfl, h, rfl, rfl, by simp, by simp, by simp⟩
  | cons d ds ih =>
    intro c ops h hds
    obtain ⟨m, l, hd, he, hdj, hl⟩ := hds d (by simp)
    obtain ⟨henc, -, hfrom, -⟩ := received_decoded hd
    have hdel : Delivered m := ⟨henc, by rw [hfrom]; rfl⟩
    obtain ⟨c1, t1, t2, hann, -, t4, -, t6⟩ := list_taken hord h env hc hst net' d a m l hd he hdj hl
    rw [recvOne_ok _ c d a m hd] at t1
    have hres : (c.messageReceived ord env cenv net' m).1 = c1 ∧ ∃ u, (c.messageReceived ord env cenv net' m).2 = .ok u := by
      unfold Ctl.deliver at t1
      generalize c.messageReceived ord env cenv net' m = z at t1
      rcases z with ⟨z, e | u⟩
      · exact absurd (congrArg Prod.snd t1) (by simp)
      · exact ⟨congrArg Prod.fst t1, u, rfl⟩
    obtain ⟨new, n1, n2, n3⟩ := C140_again_false hord h net hs env hc net' m hdel a l hann
    obtain ⟨s1, s2, s3, s4, s5⟩ := C139_state (seeker_besides ord net cenv hc) env net' c m
    obtain ⟨more, m1, m2⟩ := C139_calls (seeker_besides ord net cenv hc) env net' c m
    have hsv := seeker_servers (ord := ord) net hs env cenv net' c m (by rw [he]; decide)
    have hreach : ∃ ops', CtlReach ord (Hearing.messageReceived ord env (seeker net) cenv net' c m).1 ops' := by
      rw [m2, hres.1]
      obtain ⟨rnd, r1, r2⟩ := t2
      refine ⟨ops ++ [.receive env cenv net' m] ++ more, rnd, ?_, ?_⟩
      · intro op ho
        rcases List.mem_append.mp ho with ho | ho
        · exact r1 op ho
        · exact (m1 op ho).1
      · show runCtl ord c1 more = _
        rw [r2]
        unfold runCtl
        rw [← List.foldl_append]
    obtain ⟨ops1, hreach⟩ := hreach
    rw [hres.1, t4] at s4
    rw [hres.2.choose_spec] at s5
    generalize hz : Hearing.messageReceived ord env (seeker net) cenv net' c m = z at *
    rcases z with ⟨z, zr⟩
    simp only [] at *
    obtain ⟨c', ops', new', k1, k2, k3, k4, k5, k6, k7⟩ := ih z ops1 hreach fun x hx => hds x (by simp [hx])
    refine ⟨c', ops', new ++ new', ?_, k2, k3.trans s4, k4.trans hsv, ?_, ?_, ?_⟩
    · rw [List.map_cons]
      unfold runLoop
      rw [recvOne_ok _ c d a m hd]
      unfold hearing
      rw [hz, s5]
      exact k1
    · rw [k5, n1, List.append_assoc]
    · intro x hx
      rcases List.mem_append.mp hx with hx | hx
      · exact n2 x hx
      · exact k6 x hx
    · rw [s4, hsv] at k7
      rw [List.length_append, List.length_cons, Nat.mul_succ]
      omega

/-- C140, what fails, over time: with one listener that searches again when it is told of a node, and one other host that can be found, one search is enough, and the network never
comes to rest. No program does anything more, the host never changes, and after any number of rounds the searches on their way have doubled (at least) each time. -/
theorem C140_storm_false {ord : List Int → List Int} (hord : ValidOrder ord) (net : Net) (hs : NetWorks net) (env : Env) (hst : CodeStable env) {cenv : CEnv} (hc : Calm cenv) (net' : Net)
    (ca : Addr) (k : Nat) : ∀ (p : Pair) (ops : List CtlOp), CtlReach ord p.c ops → p.h.Ready ord → CodeStable p.h.env → (∀ q ∈ p.pending, IsSearch q) →
    ∀ p', p' = (Pair.round ord env (seeker net) cenv net' ca)^[k] p → (∀ q ∈ p'.pending, IsSearch q) ∧
      (2 * p.c.listeners.length * (working p.c.ln.mgr.servers).length) ^ k * p.pending.length ≤ p'.pending.length := by
  induction k with
  | zero =>
    rintro p ops - - - hq p' rfl
    simpa using hq
  | succ k ih =>
    rintro p ops h hr hh hq p' rfl
    rw [Function.iterate_succ, Function.comp_apply]
    obtain ⟨a1, a2, a3, a4, a5⟩ := hears_all hord ca p.pending p.h hr hh hq
    obtain ⟨c', ops', new, b1, b2, b3, b4, b5, b6, b7⟩ := seeks_all hord net hs env hst hc net' p.h.addr (p.h.hears ca p.pending).2 p.c ops h a5
    have hround : Pair.round ord env (seeker net) cenv net' ca p = { c := c', h := (p.h.hears ca p.pending).1, pending := new.map fun x => x.1.bytes } := by
      unfold Pair.round
      simp only [b1, b5, List.drop_left]
      rw [List.filter_eq_self.mpr]
      intro x hx
      exact decide_eq_true (b6 x hx).1
    rw [hround]
    obtain ⟨j1, j2⟩ := ih { c := c', h := (p.h.hears ca p.pending).1, pending := new.map fun x => x.1.bytes } ops' b2 a1 (by simp only [a2]; exact hh)
      (by
        intro q hq
        obtain ⟨x, hx, rfl⟩ := List.mem_map.mp hq
        exact (b6 x hx).2) _ rfl
    refine ⟨j1, le_trans ?_ j2⟩
    simp only [b3, b4, List.length_map]
    rw [a4] at b7
    rw [Nat.pow_succ, Nat.mul_assoc]
    exact Nat.mul_le_mul_left _ b7

/-- A started controller with a listener, and a host with three devices, with one search on its way: after ten rounds at least 1024 searches are. -/
example {ord : List Int → List Int} (hord : ValidOrder ord) : ∃ (p : Pair) (ops : List CtlOp), CtlReach ord p.c ops ∧ p.h.Ready ord ∧ CodeStable p.h.env ∧ (∀ q ∈ p.pending, IsSearch q) ∧
    instancesOf (p.h.node.objs.map Obj.code) = [0, 1, 2] ∧ NetWorks okNet ∧
    1024 ≤ ((Pair.round ord exEnv (seeker okNet) calmEnv okNet ("10.0.0.2", 3610))^[10] p).pending.length := by
  obtain ⟨c, -, ops, -, h1, h2, -⟩ := ctl_ready hord
  obtain ⟨n, n1, n2, n3, n4, n5, -⟩ := reach_started hord 3 (by omega)
  have hnet : NetWorks okNet := fun _ _ _ _ => rfl
  have hh : Host.Ready ord ⟨("10.0.0.8", 3610), n, { exEnv with observe := fun _ _ => none }, okNet⟩ := by
    refine ⟨n1, n2, ?_, by show (instancesOf (n.objs.map Obj.code)).length ≤ 84; rw [n4]; decide, n5, hnet, fun _ _ _ => rfl⟩
    intro o ho
    have : o.code ∈ n.objs.map Obj.code := List.mem_map_of_mem ho
    rw [n3] at this
    rcases List.mem_cons.mp this with h | h
    · rw [h]; decide
    · obtain ⟨i, hi, h⟩ := List.mem_map.mp h
      have := List.mem_range.mp hi
      rw [← h]
      show 0 ≤ (i : Int) ∧ (i : Int) < _
      omega
  have hs : CodeStable { exEnv with observe := fun _ _ => none } := fun h o => exEnv_stable h o
  have hq : ∀ q ∈ [encode { SearchMessage with tid := 7 }], IsSearch q := fun q hq => ⟨7, List.mem_singleton.mp hq⟩
  have h3 := ctl_snoc h1 (.listen 7) trivial
  refine ⟨⟨_, _, [encode { SearchMessage with tid := 7 }]⟩, _, h3, hh, hs, hq, n4, hnet, ?_⟩
  refine le_trans ?_ (C140_storm_false hord okNet hnet exEnv exEnv_stable calmEnv_calm okNet ("10.0.0.2", 3610) 10 ⟨_, _, [encode { SearchMessage with tid := 7 }]⟩ _ h3 hh hs hq _ rfl).2
  have hw : 1 ≤ (working (CtlOp.run ord c (.listen 7)).ln.mgr.servers).length := List.length_pos_iff.mpr h2
  have hl : 1 ≤ (CtlOp.run ord c (.listen 7)).listeners.length := by
    show 1 ≤ (c.listeners ++ [7]).length
    simp
  have h4 : 2 ≤ 2 * (CtlOp.run ord c (.listen 7)).listeners.length * (working (CtlOp.run ord c (.listen 7)).ln.mgr.servers).length := by
    have := Nat.mul_le_mul hl hw
    rw [Nat.mul_assoc]
    omega
  show 1024 ≤ _ ^ 10 * 1
  rw [Nat.mul_one]
  exact le_trans (by decide) (Nat.pow_le_pow_left h4 10)

/-- Listeners with a search in them, told of a device that has been known for long. -/
example {ord : List Int → List Int} : CtlReach ord (runCtl ord (Ctl.new ord exRandom).1 exHistory) exHistory ∧ Delivered (exList "10.0.0.9" [0x029101, 0x029102]) ∧
    announced (exList "10.0.0.9" [0x029101, 0x029102]) = some (("10.0.0.9", 3610), [0x029101, 0x029102]) ∧
    latest (heard exHistory) "10.0.0.9" = some (("10.0.0.9", 3610), [0x029101, 0x029102]) ∧ Besides ord CtlOp.Allowed calmEnv (seeker okNet) :=
  ⟨exHistory_reach, ⟨by decide +kernel, rfl⟩, by decide +kernel, by decide +kernel, seeker_besides ord okNet calmEnv calmEnv_calm⟩

/-- A history in which a listener searches while it is called. -/
example {ord : List Int → List Int} : ∀ x ∈ [HearOp.call (.listen 7), .hear exEnv (seeker okNet) calmEnv okNet (exList "10.0.0.9" [0x029101])], x.Allowed ord := by
  intro x hx
  simp only [List.mem_cons, List.not_mem_nil, or_false] at hx
  rcases hx with rfl | rfl
  · trivial
  · exact ⟨⟨by decide +kernel, rfl⟩, calmEnv_calm, exEnv_stable, seeker_besides ord okNet calmEnv calmEnv_calm⟩

end Uecho
