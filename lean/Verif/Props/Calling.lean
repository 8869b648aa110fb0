/-
Request handlers that use the node they serve: send, announce, change objects, while they are asked.
-/
import Verif.Lemmas.Calling
import Verif.Props.Sending

namespace Uecho
open Spec

/-- C138. A handler may call its node while it is asked: send, announce, change its object and others, add objects, set options, start and stop it.
The request is performed and answered as if it had made no calls, and the calls do what they do at any other time; the answer comes after them. No
assumption about which calls it makes, nor about the network. -/
theorem C138_calls_partial {ord : List Int → List Int} {P : NodeOp → Prop} {env : Env} {h : Nat} {H : Calling.NodeHandler} (net : Net) (n : LocalNode) (m : Msg)
    (hm : Encodable m) (o : Obj) (ho : Dict.get? n.node.objects (m.deoj % 2 ^ 24) = some (.user o)) (hh : o.handler = .user h)
    (hP : ∀ f, P (.update (m.deoj % 2 ^ 24) f)) (hA : Alongside ord P env h (m.deoj % 2 ^ 24) H) (hS : Stays env h) :
    ∃ ops, (∀ op ∈ ops, P op) ∧
      Dict.get? (runOps ord n ops).node.objects (m.deoj % 2 ^ 24) = some (.user (o.messageReceived env (received m)).obj) ∧
      Calling.messageReceived H env net n m = match (o.messageReceived env (received m)).result with
        | .error e => (runOps ord n ops, .error e)
        | .ok res => (runOps ord n ops).answer net (received m) res := by
  rw [calling_eq H env net n m hm, ho, own_eq ho]
  unfold Obj.messageReceived
  simp only []
  rcases hn : Obj.notify env (received m) o.observers with ⟨l, _ | e⟩
  swap
  · exact ⟨[], by simp, ho, rfl⟩
  simp only []
  have h0 : Asking ord P n (m.deoj % 2 ^ 24) h n o := ⟨ho, hh, [], by simp, rfl⟩
  obtain ⟨⟨h1, -, ops, h2, h3⟩, h4⟩ := handle_calls hP hA hS n o (received m) h0
  refine ⟨ops, h2, ?_, ?_⟩
  · rw [← h3]; exact h1
  · generalize Calling.handleRequest H (m.deoj % 2 ^ 24) n (received m) = x at h3 h4 ⊢
    generalize o.handleRequest env (received m) = y at h4 ⊢
    rcases x with ⟨x1, x2⟩
    rcases y with ⟨y1, y2⟩
    simp only [] at h3 h4
    subst h3 h4
    rcases x2 with e | res <;> rfl

/-- Messages that do not fit the wire format reach no handler. -/
theorem C138_unfit (H : Calling.NodeHandler) (env : Env) (net : Net) (n : LocalNode) (m : Msg) (hm : ¬ Encodable m) :
    Calling.messageReceived H env net n m = (n, .error .valueError) := by
  unfold Calling.messageReceived
  rw [if_neg (by rw [not_self]; simp), (C10_copy m).2 hm]

theorem update_putBack (n : LocalNode) (code : Int) (o o' : Obj) (ho : Dict.get? n.node.objects code = some (.user o)) (f : Obj → Obj) :
    (n.putBack code (.user o) o').update code f = n.putBack code (.user o) (f o') := by
  have hg : Dict.get? (n.putBack code (.user o) o').node.objects code = some (.user o') := by
    show Dict.get? (Dict.modify n.node.objects code fun _ => .user o') code = _
    rw [Dict.get?_modify, if_pos rfl, ho]
    rfl
  unfold LocalNode.update
  rw [hg]
  show LocalNode.putBack (n.putBack code (.user o) o') code (.user o') (f o') = _
  unfold LocalNode.putBack
  simp only []
  rw [Dict.modify_modify_const]

theorem own_updates {ord : List Int → List Int} (n : LocalNode) (code : Int) (o : Obj) (ho : Dict.get? n.node.objects code = some (.user o)) (ops : List NodeOp) :
    ∀ o', (∀ op ∈ ops, ∃ f, op = .update code f) → ∃ o'', runOps ord (n.putBack code (.user o) o') ops = n.putBack code (.user o) o'' := by
  induction ops with
  | nil => intro o' _; exact ⟨o', rfl⟩
  | cons op ops ih =>
    intro o' hu
    obtain ⟨f, rfl⟩ := hu op (by simp)
    have : runOps ord (n.putBack code (.user o) o') (.update code f :: ops) = runOps ord ((n.putBack code (.user o) o').update code f) ops := rfl
    rw [this, update_putBack n code o o' ho f]
    exact ih _ fun op hop => hu op (by simp [hop])

theorem plain_alongside (ord : List Int → List Int) (env : Env) (h : Nat) (code : Int) :
    Alongside ord (fun op => ∃ f, op = .update code f) env h code (Calling.plain env h code) := by
  constructor
  · intro n o p ho hh
    refine ⟨[.update code fun o => ((env.handler h).read o p).1], by simp, rfl, update_own ho _, ?_⟩
    show ((env.handler h).read (Calling.own n code) p).2 = _
    rw [own_eq ho]
  · intro n o p d ho hh
    refine ⟨[.update code fun o => ((env.handler h).write o p d).1], by simp, rfl, update_own ho _, ?_⟩
    show ((env.handler h).write (Calling.own n code) p d).2 = _
    rw [own_eq ho]

/-- A handler that makes no calls is one of the handlers of the other theorems. -/
theorem C138_none (env : Env) (h : Nat) (net : Net) (n : LocalNode) (m : Msg) (hm : Encodable m) (o : Obj)
    (ho : Dict.get? n.node.objects (m.deoj % 2 ^ 24) = some (.user o)) (hh : o.handler = .user h) (hS : Stays env h) :
    Calling.messageReceived (Calling.plain env h (m.deoj % 2 ^ 24)) env net n m = n.messageReceived env net m := by
  obtain ⟨ops, h1, h2, h3⟩ := C138_calls_partial net n m hm o ho hh (fun f => ⟨f, rfl⟩) (plain_alongside id env h (m.deoj % 2 ^ 24)) hS
  have h0 : n.putBack (m.deoj % 2 ^ 24) (.user o) o = n := by
    show { n with node := { n.node with objects := n.node.objects.modify (m.deoj % 2 ^ 24) (fun _ => .user o) } } = n
    rw [Dict.modify_const_get? _ _ _ ho]
  obtain ⟨o', h4⟩ := own_updates n _ o ho ops o h1
  rw [h0] at h4
  rw [h4] at h2 h3
  have h5 : Dict.get? (n.putBack (m.deoj % 2 ^ 24) (.user o) o').node.objects (m.deoj % 2 ^ 24) = some (.user o') := by
    show Dict.get? (Dict.modify n.node.objects (m.deoj % 2 ^ 24) fun _ => .user o') (m.deoj % 2 ^ 24) = _
    rw [Dict.get?_modify, if_pos rfl, ho]
    rfl
  rw [h5] at h2
  injection h2 with h2
  injection h2 with h2
  rw [h3, messageReceived_eq env net n m hm, ho, h2]
  rfl

theorem runOps_causes (ord : List Int → List Int) (ops : List NodeOp) : ∀ n : LocalNode, 0 ≤ n.mgr.tid ∧ n.mgr.tid ≤ 65535 →
    (∃ new, (runOps ord n ops).mgr.log = n.mgr.log ++ new ∧ Causes (fun a m => ∃ op ∈ ops, NodeCauses n.controller op a m) new) ∧
      (runOps ord n ops).controller = n.controller := by
  induction ops with
  | nil => intro n _; exact ⟨⟨[], by simp [runOps], causes_nil _⟩, rfl⟩
  | cons op ops ih =>
    intro n hr
    have hrun : runOps ord n (op :: ops) = runOps ord (op.run ord n) ops := rfl
    obtain ⟨new1, h1, h2⟩ := node_causes ord n op hr
    have hr' : 0 ≤ (op.run ord n).mgr.tid ∧ (op.run ord n).mgr.tid ≤ 65535 := by
      obtain ⟨mops, h⟩ := run_mgr ord n op
      rw [h]
      exact tid_range mops _ hr
    obtain ⟨⟨new2, h3, h4⟩, h5⟩ := ih (op.run ord n) hr'
    have hc := run_controller ord n op
    rw [hrun, h3, h1, h5, hc]
    refine ⟨⟨new1 ++ new2, by simp, ?_⟩, rfl⟩
    intro x hx
    rcases List.mem_append.mp hx with hx | hx
    · obtain ⟨m, m1, m2, m3⟩ := h2 x hx
      exact ⟨m, m1, m2, op, by simp, m3⟩
    · obtain ⟨m, m1, m2, op', m3, m4⟩ := h4 x hx
      exact ⟨m, m1, m2, op', by simp [m3], by rw [hc] at m4; exact m4⟩

/-- What goes out: first what the calls of the handler cause, then at most the answer to the request. -/
theorem C138_sends {ord : List Int → List Int} {P : NodeOp → Prop} {env : Env} {h : Nat} {H : Calling.NodeHandler} (net : Net) (n : LocalNode) (m : Msg)
    (hm : Encodable m) (o : Obj) (ho : Dict.get? n.node.objects (m.deoj % 2 ^ 24) = some (.user o)) (hh : o.handler = .user h)
    (hP : ∀ f, P (.update (m.deoj % 2 ^ 24) f)) (hA : Alongside ord P env h (m.deoj % 2 ^ 24) H) (hS : Stays env h)
    (hr : 0 ≤ n.mgr.tid ∧ n.mgr.tid ≤ 65535) :
    ∃ calls answer, (Calling.messageReceived H env net n m).1.mgr.log = n.mgr.log ++ calls ++ answer ∧
      Causes (fun a u => ∃ op, P op ∧ NodeCauses n.controller op a u) calls ∧
      Causes (fun a u => AnswerTo n.controller m u ∧ (if u.esv = 0x73 then a = everybody else m.fromAddr = some a)) answer := by
  obtain ⟨ops, h1, -, h3⟩ := C138_calls_partial net n m hm o ho hh hP hA hS
  obtain ⟨⟨calls, h4, h5⟩, h6⟩ := runOps_causes ord ops n hr
  have h5 : Causes (fun a u => ∃ op, P op ∧ NodeCauses n.controller op a u) calls := by
    intro x hx
    obtain ⟨u, u1, u2, op, u3, u4⟩ := h5 x hx
    exact ⟨u, u1, u2, op, h1 op u3, u4⟩
  rw [h3]
  rcases hres : (o.messageReceived env (received m)).result with e | (_ | res)
  · exact ⟨calls, [], by rw [List.append_nil]; exact h4, h5, causes_nil _⟩
  · exact ⟨calls, [], by rw [List.append_nil]; exact h4, h5, causes_nil _⟩
  · obtain ⟨new, h7, h8⟩ := answer_causes env net (runOps ord n ops) o m res hres
    rw [h6] at h8
    exact ⟨calls, new, by rw [← h4]; exact h7, h5, h8⟩

theorem spared {ord : List Int → List Int} (c : Int) (ops : List NodeOp) : ∀ n : LocalNode, (∀ op ∈ ops, Spares c op) →
    Dict.get? (runOps ord n ops).node.objects c = Dict.get? n.node.objects c := by
  induction ops with
  | nil => intro n _; rfl
  | cons op ops ih =>
    intro n hs
    have hrun : runOps ord n (op :: ops) = runOps ord (op.run ord n) ops := rfl
    rw [hrun, ih _ fun op hop => hs op (by simp [hop])]
    have := hs op (by simp)
    cases op with
    | add o => exact this.elim
    | receive env net m => exact this.elim
    | enable opt v =>
      show Dict.get? (n.setEnabled opt v).node.objects c = _
      unfold LocalNode.setEnabled
      split <;> rfl
    | start net caller =>
      show Dict.get? (n.start net caller).1.node.objects c = _
      unfold LocalNode.start
      rcases n.mgr.start net caller [] with ⟨g, e | (_ | _)⟩ <;> rfl
    | stop caller => rfl
    | announce net m => rfl
    | send net m a => rfl
    | update code f =>
      show Dict.get? (n.update code f).node.objects c = _
      unfold LocalNode.update
      split
      · show Dict.get? (Dict.modify n.node.objects code _) c = _
        rw [Dict.get?_modify, if_neg]
        exact this
      · rfl

/-- Objects the handler leaves alone are as they were. -/
theorem C138_others {ord : List Int → List Int} {P : NodeOp → Prop} {env : Env} {h : Nat} {H : Calling.NodeHandler} (net : Net) (n : LocalNode) (m : Msg)
    (hm : Encodable m) (o : Obj) (ho : Dict.get? n.node.objects (m.deoj % 2 ^ 24) = some (.user o)) (hh : o.handler = .user h)
    (hP : ∀ f, P (.update (m.deoj % 2 ^ 24) f)) (hA : Alongside ord P env h (m.deoj % 2 ^ 24) H) (hS : Stays env h) (c : Int)
    (hc : ∀ op, P op → Spares c op) :
    Dict.get? (Calling.messageReceived H env net n m).1.node.objects c = Dict.get? n.node.objects c := by
  obtain ⟨ops, h1, -, h3⟩ := C138_calls_partial net n m hm o ho hh hP hA hS
  rw [h3, ← spared (ord := ord) c ops n fun op hop => hc op (h1 op hop)]
  rcases (o.messageReceived env (received m)).result with e | (_ | res)
  · rfl
  · rfl
  · simp only []
    rw [answer_eq]
    split <;> rfl

theorem gentle_servers {ord : List Int → List Int} (ops : List NodeOp) : ∀ n : LocalNode, (∀ op ∈ ops, Gentle op) →
    (runOps ord n ops).mgr.servers = n.mgr.servers := by
  induction ops with
  | nil => intro n _; rfl
  | cons op ops ih =>
    intro n hs
    have hrun : runOps ord n (op :: ops) = runOps ord (op.run ord n) ops := rfl
    rw [hrun, ih _ fun op hop => hs op (by simp [hop])]
    have := hs op (by simp)
    cases op with
    | add o => rfl
    | receive env net m =>
      obtain ⟨-, -, -, h, -⟩ := node_sends env net n m
      exact h
    | enable opt v =>
      show (n.setEnabled opt v).mgr.servers = _
      unfold LocalNode.setEnabled
      split <;> rfl
    | start net caller => exact this.elim
    | stop caller => exact this.elim
    | announce net m => exact (send_servers net n.mgr (outgoing n m) none).2
    | send net m a => exact (send_servers net n.mgr (outgoing n m) a).1
    | update code f =>
      show (n.update code f).mgr.servers = _
      unfold LocalNode.update
      split <;> rfl

/-- As long as the handler does not stop or restart the node, the answer goes out: once, to who asked, after everything the handler has sent. -/
theorem C138_answered {ord : List Int → List Int} {P : NodeOp → Prop} {env : Env} {h : Nat} {H : Calling.NodeHandler} (net : Net) (n : LocalNode) (m : Msg)
    (hm : Encodable m) (o : Obj) (ho : Dict.get? n.node.objects (m.deoj % 2 ^ 24) = some (.user o)) (hh : o.handler = .user h)
    (hP : ∀ f, P (.update (m.deoj % 2 ^ 24) f)) (hA : Alongside ord P env h (m.deoj % 2 ^ 24) H) (hS : Stays env h)
    (hG : ∀ op, P op → Gentle op) (hr : 0 ≤ n.mgr.tid ∧ n.mgr.tid ≤ 65535) (hw : CanSend n.mgr) (hs : NetWorks net) (a : Addr) (ha : m.fromAddr = some a)
    (res : Msg) (hres : (o.messageReceived env (received m)).result = .ok (some res)) (hno : res.esv ≠ 0x73) (hfit : Encodable res) :
    (Calling.messageReceived H env net n m).2 = .ok () ∧
    ∃ calls x u, (Calling.messageReceived H env net n m).1.mgr.log = n.mgr.log ++ calls ++ [x] ∧
      Causes (fun a u => ∃ op, P op ∧ NodeCauses n.controller op a u) calls ∧
      x.1.dest = a ∧ x.1.bytes = encode u ∧ AnswerTo n.controller m u ∧ u.props = res.props ∧ u.setProps = res.setProps ∧ u.getProps = res.getProps ∧ u.esv = res.esv := by
  obtain ⟨ops, h1, -, h3⟩ := C138_calls_partial net n m hm o ho hh hP hA hS
  obtain ⟨⟨calls, h4, h5⟩, h6⟩ := runOps_causes ord ops n hr
  have hcan : CanSend (runOps ord n ops).mgr := by
    unfold CanSend
    rw [gentle_servers ops n fun op hop => hG op (h1 op hop)]
    exact hw
  have he := answer_esv env o (received m) res hres
  have hn : ESV.isNotification res.esv = false := by
    rcases hb : ESV.isNotification res.esv with _ | _
    · rfl
    · exact absurd ((answer_notification he).mp hb) hno
  obtain ⟨i, t, s1, s2, s3, -⟩ := answer_sent net (runOps ord n ops) (received m) res a hn ha hfit hcan hs
  obtain ⟨a1, a2, a3⟩ := C13_addressing env _ (received m) res hres
  have hreq : m.esv ∈ ([0x60, 0x61, 0x62, 0x63, 0x6E, 0x74] : List Int) := by
    by_contra hbad
    exact (C22_only_requests env o (received m) (Or.inl hbad)).2.1 res hres
  rw [h3, hres]
  refine ⟨s1, calls, _, { outgoing (runOps ord n ops) res with tid := t }, by rw [← h4]; exact s2, ?_, rfl, rfl, ⟨hreq, ?_, ?_, ?_, ?_⟩, ?_⟩
  · intro x hx
    obtain ⟨u, u1, u2, op, u3, u4⟩ := h5 x hx
    exact ⟨u, u1, u2, op, h1 op u3, u4⟩
  · unfold outgoing; split <;> exact he
  · unfold outgoing; split <;> exact a3
  · rw [← h6]
    unfold outgoing
    cases (runOps ord n ops).controller
    · exact a2
    · rfl
  · intro ht
    exact (s3 (by rw [a1]; exact ht)).trans a1
  · unfold outgoing
    split <;> exact ⟨rfl, rfl, rfl, rfl⟩

/-- The announcement of a property: INF from the object to all node profiles. -/
def infOf (code c : Int) (data : Bytes) : Msg := { esv := 0x73, seoj := code, deoj := 0x0EF001, props := [{ code := c, data := data }] }

/-- A handler as a program would write it: it permits what it is asked for, and when a property is written announces the value of the
property (`node.announce_message`). -/
def announcing (net : Net) (code : Int) : Calling.NodeHandler where
  read n _ := (n, .ok true)
  write n p _ := match n.announceMessage net (infOf code p.code p.data) with
    | (n, _, .error e) => (n, .error e)
    | (n, _, .ok _) => (n, .ok true)

/-- C138, what fails: a handler that announces the property it is asked to let a peer write, announces the value from before: the data is stored
only when it has returned. For every object, property, value, request, and node. -/
theorem C138_announce_false (env : Env) (net : Net) (n : LocalNode) (m : Msg) (hm : Encodable m) (o : Obj) (h : Nat) (c : Int) (d : Bytes) (p : OProp) (a : Addr)
    (ho : Dict.get? n.node.objects (m.deoj % 2 ^ 24) = some (.user o)) (hh : o.handler = .user h) (hobs : o.observers = []) (he : m.esv = 0x61)
    (hp : m.props = [{ code := c, data := d }]) (hg : o.getProperty c = some p) (hc : p.code = c) (hl : p.data.length ≤ 255)
    (ha : m.fromAddr = some a) (hw : CanSend n.mgr) (hs : NetWorks net) :
    ∃ n' shout x, Calling.messageReceived (announcing net (m.deoj % 2 ^ 24)) env net n m = (n', .ok ()) ∧ n'.mgr.log = n.mgr.log ++ shout ++ [x] ∧
      shout ≠ [] ∧ (∀ y ∈ shout, y.1.dest = everybody ∧ ∃ u : Msg, y.1.bytes = encode u ∧ u.esv = 0x73 ∧ u.props = [{ code := c, data := p.data }]) ∧
      (x.1.dest = a ∧ ∃ u : Msg, x.1.bytes = encode u ∧ u.esv = 0x71 ∧ u.props = [{ code := c }]) ∧
      ∃ o', Dict.get? n'.node.objects (m.deoj % 2 ^ 24) = some (.user o') ∧ o'.getPropertyData c = some d := by
  have htwo : ¬ TwoSections m.esv := by rw [he]; decide
  have hprops : (received m).props = [{ code := c, data := d }] := by rw [received_props m htwo, hp]
  have hesv : (received m).esv = 0x61 := he
  have hcode : 0 ≤ c ∧ c < 256 := by
    obtain ⟨-, h2⟩ := hm
    rw [if_neg htwo, hp] at h2
    have h3 := h2.2 { code := c, data := d } (by simp)
    exact ⟨h3.1, h3.2.1⟩
  have hu : Encodable (infOf (m.deoj % 2 ^ 24) p.code p.data) := by
    refine ⟨by simp [infOf], ?_⟩
    rw [if_neg (by show ¬ TwoSections 0x73; decide)]
    refine ⟨by simp [infOf], ?_⟩
    intro q hq
    rw [List.mem_singleton.mp hq]
    exact ⟨by rw [hc]; exact hcode.1, by rw [hc]; exact hcode.2, by simp only []; omega⟩
  -- the announcement
  have hu' := (outgoing_encodable n (infOf (m.deoj % 2 ^ 24) p.code p.data)).mpr hu
  obtain ⟨-, -, w1, w2⟩ := C54_works net n.mgr _ ("", 0) hu' hw hs
  obtain ⟨-, -, -, -, -, -, w3, t, ad, w4⟩ := C54_announce net n.mgr _ hu'
  obtain ⟨n1, hn1⟩ : ∃ n1, n1 = (n.announceMessage net (infOf (m.deoj % 2 ^ 24) p.code p.data)).1 := ⟨_, rfl⟩
  have hW : (announcing net (m.deoj % 2 ^ 24)).write n p d = (n1, .ok true) := by
    rw [hn1, announceMessage_eq]
    unfold announcing
    simp only [announceMessage_eq, w2]
  have ho1 : Dict.get? n1.node.objects (m.deoj % 2 ^ 24) = some (.user o) := by rw [hn1]; exact ho
  have hlog1 := w1
  rw [show (n.mgr.announce net (outgoing n (infOf (m.deoj % 2 ^ 24) p.code p.data))).1 = n1.mgr by rw [hn1, announceMessage_eq]] at hlog1
  have hsrv1 : n1.mgr.servers = n.mgr.servers := by rw [hn1, announceMessage_eq]; exact w3
  obtain ⟨n2, hn2⟩ : ∃ n2, n2 = Calling.store n1 (m.deoj % 2 ^ 24) c d := ⟨_, rfl⟩
  have ho2 : Dict.get? n2.node.objects (m.deoj % 2 ^ 24) = some (.user (o.storeData c d)) := by rw [hn2]; exact update_own ho1 _
  have hmgr2 : n2.mgr = n1.mgr := by
    rw [hn2]
    unfold Calling.store LocalNode.update
    split <;> rfl
  have hH : Calling.handleRequest (announcing net (m.deoj % 2 ^ 24)) (m.deoj % 2 ^ 24) n (received m) =
      (n2, .ok (some { tid := (received m).tid, deoj := (received m).seoj, seoj := (received m).deoj, esv := 0x71, props := [{ code := c }] })) := by
    unfold Calling.handleRequest
    rw [hesv, if_neg (by decide), if_neg (by decide), hprops]
    unfold Calling.plainLoop
    rw [own_eq ho]
    simp only [hg]
    rw [if_neg (by decide), if_pos (by decide), hW]
    simp only []
    unfold Calling.plainLoop
    rw [← hn2]
    simp only [Obj.respond, hesv]
    rw [if_neg (by decide), if_pos (by decide), if_pos]
    · rfl
    · unfold Msg.opc Msg.opcSet Msg.opcGet
      rw [hprops]
      have e1 : (received m).setProps = if TwoSections m.esv then m.setProps else [] := rfl
      have e2 : (received m).getProps = if TwoSections m.esv then m.getProps else [] := rfl
      rw [e1, e2, if_neg htwo, if_neg htwo]
      rfl
  have hres : Encodable { tid := (received m).tid, deoj := (received m).seoj, seoj := (received m).deoj, esv := 0x71, props := [{ code := c }] } := by
    refine ⟨by show (0 : Int) ≤ 0x71 ∧ (0x71 : Int) < 256; decide, ?_⟩
    rw [if_neg (by show ¬ TwoSections 0x71; decide)]
    refine ⟨by simp, ?_⟩
    intro q hq
    rw [List.mem_singleton.mp hq]
    exact ⟨hcode.1, hcode.2, by simp⟩
  have hcan : CanSend n2.mgr := by
    unfold CanSend
    rw [hmgr2, hsrv1]
    exact hw
  obtain ⟨i, t2, s1, s2, -, -⟩ := answer_sent net n2 (received m) _ a (by show ESV.isNotification 0x71 = false; decide) ha hres hcan hs
  have hrecv : Calling.messageReceived (announcing net (m.deoj % 2 ^ 24)) env net n m = n2.answer net (received m)
      (some { tid := (received m).tid, deoj := (received m).seoj, seoj := (received m).deoj, esv := 0x71, props := [{ code := c }] }) := by
    rw [calling_eq _ env net n m hm, ho, own_eq ho, hobs]
    simp only [Obj.notify]
    rw [hH]
  rw [hmgr2, hlog1] at s2
  refine ⟨_, _, _, hrecv.trans (Prod.ext rfl s1), s2, ?_, ?_, ⟨rfl, _, rfl, ?_, ?_⟩, o.storeData c d, ?_, ?_⟩
  · intro hnil
    exact hw (List.map_eq_nil_iff.mp hnil)
  · intro y hy
    obtain ⟨s, -, rfl⟩ := List.mem_map.mp hy
    refine ⟨rfl, _, rfl, ?_⟩
    rw [w4, ← hc]
    unfold outgoing
    split <;> exact ⟨rfl, rfl⟩
  · unfold outgoing; split <;> rfl
  · unfold outgoing; split <;> rfl
  · rw [answer_eq]
    split <;> exact ho2
  · unfold Obj.getPropertyData Obj.storeData
    simp only []
    rw [Dict.get?_modify, if_pos rfl]
    unfold Obj.getProperty at hg
    rw [hg]
    rfl

/-! ### Examples -/

/-- A handler that permits everything, tells a log server of every read, and announces the value about to be written. -/
def chatty (net : Net) (code : Int) : Calling.NodeHandler where
  read n p := ((n.sendMessage net (infOf code ((p.map OProp.code).getD 0x80) []) (some ("10.0.0.9", 3610))).1, .ok true)
  write n p d := ((n.announceMessage net (infOf code p.code d)).1, .ok true)

/-- It does nothing to its object, and nothing but sending to its node. -/
theorem chatty_alongside (ord : List Int → List Int) (net : Net) (code : Int) (env : Env) (h : Nat)
    (hy : (∀ o p, (env.handler h).read o p = (o, .ok true)) ∧ ∀ o p d, (env.handler h).write o p d = (o, .ok true)) :
    Alongside ord Gentle env h code (chatty net code) ∧ Stays env h := by
  refine ⟨⟨?_, ?_⟩, ?_⟩
  · intro n o p ho hh
    refine ⟨[.send net (infOf code ((p.map OProp.code).getD 0x80) []) (some ("10.0.0.9", 3610))], by simp [Gentle], rfl, ?_, ?_⟩
    · rw [hy.1]; exact ho
    · rw [hy.1]; rfl
  · intro n o p d ho hh
    refine ⟨[.announce net (infOf code p.code d)], by simp [Gentle], rfl, ?_, ?_⟩
    · rw [hy.2]; exact ho
    · rw [hy.2]; rfl
  · intro o ho
    exact ⟨fun p => by rw [hy.1]; exact ho, fun p d => by rw [hy.2]; exact ho⟩

/-- A running node with an object that has a handler of its own. -/
def exCalled : LocalNode :=
  runOps List.dedup (LocalNode.new List.dedup ⟨[], 0, 0⟩ false).1 [.add { exObj with handler := .user 0, observers := [] }, .start okNet none]

def exSwitch : Msg := { tid := 7, seoj := 0x05FF01, deoj := 0x029101, esv := 0x61, props := [{ code := 0x80, data := [0x31] }], fromAddr := some ("10.0.0.3", 3610) }

theorem exCalled_object : ∃ o p, Dict.get? exCalled.node.objects (exSwitch.deoj % 2 ^ 24) = some (.user o) ∧ o.handler = .user 0 ∧ o.observers = [] ∧
    o.getProperty 0x80 = some p ∧ p.code = 0x80 ∧ p.data = [0x30] := by
  have h : ((Dict.get? exCalled.node.objects 0x029101).map fun
      | .user o => decide (o.handler = .user 0) && o.observers.isEmpty && (match o.getProperty 0x80 with | some p => decide (p.code = 0x80 ∧ p.data = [0x30]) | none => false)
      | _ => false) = some true := by decide +kernel
  obtain ⟨s, h1, h2⟩ := Option.map_eq_some_iff.mp h
  cases s with
  | profile => cases h2
  | user o =>
    simp only [Bool.and_eq_true, decide_eq_true_eq] at h2
    obtain ⟨⟨h3, h4⟩, h5⟩ := h2
    cases hp : o.getProperty 0x80 with
    | none => rw [hp] at h5; cases h5
    | some p =>
      rw [hp] at h5
      have h5 := of_decide_eq_true h5
      exact ⟨o, p, h1, h3, List.isEmpty_iff.mp h4, hp, h5.1, h5.2⟩

theorem exCalled_can : CanSend exCalled.mgr ∧ 0 ≤ exCalled.mgr.tid ∧ exCalled.mgr.tid ≤ 65535 := by
  have h : (working exCalled.mgr.servers).isEmpty = false ∧ decide (0 ≤ exCalled.mgr.tid ∧ exCalled.mgr.tid ≤ 65535) = true := by decide +kernel
  exact ⟨fun e => (by rw [e] at h; cases h.1), of_decide_eq_true h.2⟩

/-- The hypotheses are met by the chatty handler: its device is switched on and answers 0x71; before that goes out the announcement of the new value. -/
example : Encodable exSwitch ∧ Alongside List.dedup Gentle exEnv 0 (exSwitch.deoj % 2 ^ 24) (chatty okNet (exSwitch.deoj % 2 ^ 24)) ∧ Stays exEnv 0 ∧
    (∀ f, Gentle (.update (exSwitch.deoj % 2 ^ 24) f)) ∧ NetWorks okNet ∧
    ((Calling.messageReceived (chatty okNet 0x029101) exEnv okNet exCalled exSwitch).1.mgr.log.map fun x => x.1.bytes) =
      [encode { infOf 0x029101 0x80 [0x31] with tid := 1 }, encode { tid := 7, seoj := 0x029101, deoj := 0x05FF01, esv := 0x71, props := [{ code := 0x80 }] }] :=
  ⟨by decide, (chatty_alongside _ _ _ _ _ ⟨fun _ _ => rfl, fun _ _ _ => rfl⟩).1, (chatty_alongside List.dedup okNet 0 _ _ ⟨fun _ _ => rfl, fun _ _ _ => rfl⟩).2,
    fun _ => trivial, fun _ _ _ _ => rfl, by decide +kernel⟩

/-- The other handler announces "off" while the device is switched on. -/
example : ∃ n' shout x, Calling.messageReceived (announcing okNet (exSwitch.deoj % 2 ^ 24)) exEnv okNet exCalled exSwitch = (n', .ok ()) ∧
    n'.mgr.log = exCalled.mgr.log ++ shout ++ [x] ∧ shout ≠ [] ∧
    (∀ y ∈ shout, ∃ u : Msg, y.1.bytes = encode u ∧ u.props = [{ code := 0x80, data := [0x30] }]) ∧
    ∃ o', Dict.get? n'.node.objects (exSwitch.deoj % 2 ^ 24) = some (.user o') ∧ o'.getPropertyData 0x80 = some [0x31] := by
  obtain ⟨o, p, h1, h2, h3, h4, h5, h6⟩ := exCalled_object
  obtain ⟨n', shout, x, r1, r2, r3, r4, -, r5⟩ := C138_announce_false exEnv okNet exCalled exSwitch (by decide) o 0 0x80 [0x31] p ("10.0.0.3", 3610) h1 h2 h3 rfl rfl h4 h5
    (by rw [h6]; decide) rfl exCalled_can.1 (fun _ _ _ _ => rfl)
  refine ⟨n', shout, x, r1, r2, r3, ?_, r5⟩
  intro y hy
  obtain ⟨-, u, u1, -, u2⟩ := r4 y hy
  exact ⟨u, u1, by rw [u2, h6]⟩

end Uecho
