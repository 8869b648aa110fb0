import Verif.Lemmas.Remote
import Verif.Model.Messages
import Verif.Props.Frame
import Verif.Props.Request

namespace Uecho
open Spec

/-! ### Reachable nodes -/

/-- The codes added by a history. -/
def addedCodes : List NodeOp → List Int
  | [] => []
  | .add o :: ops => o.code :: addedCodes ops
  | _ :: ops => addedCodes ops

theorem runOps_keys {ord : List Int → List Int} (hord : ValidOrder ord) (ops : List NodeOp) : ∀ (n : LocalNode), NodeInv n →
    (∀ op ∈ ops, op.Allowed) → Dict.keys (runOps ord n ops).node.objects = addCodes (Dict.keys n.node.objects) (addedCodes ops) := by
  induction ops with
  | nil => intro n _ _; rfl
  | cons op ops ih =>
    intro n h ha
    have h1 := run_inv hord n op h (ha op List.mem_cons_self)
    have h2 := ih (op.run ord n) h1.1 (fun x hx => ha x (List.mem_cons_of_mem _ hx))
    have : runOps ord n (op :: ops) = runOps ord (op.run ord n) ops := rfl
    rw [this, h2, h1.2.1]
    cases op <;> rfl

/-- The node's own profile is still the object under its code. -/
def OwnProfile (n : LocalNode) : Prop := Dict.get? n.node.objects 0x0EF001 = some .profile

theorem run_ownProfile {ord : List Int → List Int} (hord : ValidOrder ord) (n : LocalNode) (op : NodeOp) (hi : NodeInv n)
    (h : OwnProfile n) (hadd : 0x0EF001 ∉ addedCodes [op]) : OwnProfile (op.run ord n) := by
  cases op with
  | add o =>
    obtain ⟨-, -, h3, -⟩ := addObject_inv hord n o hi
    unfold OwnProfile
    show Dict.get? (n.addObject ord o).1.node.objects _ = _
    rw [h3, Dict.get?_set, if_neg]
    · exact h
    · intro h'
      exact hadd (by rw [← h']; exact List.mem_cons_self)
  | receive env net m =>
    show OwnProfile (n.messageReceived env net m).1
    unfold LocalNode.messageReceived
    split
    · exact h
    · cases Msg.copyOf (some m) with
      | error e => exact h
      | ok req =>
        simp only []
        cases hg : n.node.getObject (.int req.deoj) with
        | none => exact h
        | some s =>
          simp only []
          have hp : ∀ o, OwnProfile (n.putBack req.deoj s o) := by
            intro o
            cases s with
            | profile => exact h
            | user u =>
              unfold OwnProfile
              show Dict.get? (Dict.modify _ _ _) _ = _
              rw [Dict.get?_modify]
              split
              · rename_i e
                exfalso
                have hg' : Dict.get? n.node.objects req.deoj = some (.user u) := hg
                rw [e] at hg'
                rw [h] at hg'
                cases hg'
              · exact h
          cases ((n.deref s).messageReceived env req).result with
          | error e => exact hp _
          | ok res =>
            simp only []
            rw [answer_same]
            exact hp _
  | enable opt v =>
    show OwnProfile (n.setEnabled opt v)
    unfold LocalNode.setEnabled
    split <;> exact h
  | start net caller =>
    show OwnProfile (n.start net caller).1
    unfold LocalNode.start
    rcases n.mgr.start net caller [] with ⟨g, e | (_ | _)⟩ <;> exact h
  | stop caller => exact h
  | announce net m => exact h
  | send net m a => exact h
  | update code f =>
    show OwnProfile (n.update code f)
    unfold LocalNode.update
    split
    · rename_i u hg
      unfold OwnProfile
      show Dict.get? (Dict.modify _ _ _) _ = _
      rw [Dict.get?_modify]
      split
      · rename_i e
        exfalso
        rw [e, h] at hg
        cases hg
      · exact h
    · exact h

theorem runOps_ownProfile {ord : List Int → List Int} (hord : ValidOrder ord) (ops : List NodeOp) : ∀ (n : LocalNode), NodeInv n →
    (∀ op ∈ ops, op.Allowed) → OwnProfile n → 0x0EF001 ∉ addedCodes ops → OwnProfile (runOps ord n ops) := by
  induction ops with
  | nil => intro n _ _ h _; exact h
  | cons op ops ih =>
    intro n hi ha h hadd
    have h1 := run_inv hord n op hi (ha op List.mem_cons_self)
    have hop : 0x0EF001 ∉ addedCodes [op] ∧ 0x0EF001 ∉ addedCodes ops := by
      cases op <;> simp_all [addedCodes]
    exact ih (op.run ord n) h1.1 (fun x hx => ha x (List.mem_cons_of_mem _ hx)) (run_ownProfile hord n op hi h hop.1) hop.2

/-- Nodes a program can get: created, then used by any calls. -/
def Reachable (ord : List Int → List Int) (n : LocalNode) : Prop :=
  ∃ rnd ctl ops, (∀ op ∈ ops, NodeOp.Allowed op) ∧ n = runOps ord (LocalNode.new ord rnd ctl).1 ops

theorem reachable_inv {ord : List Int → List Int} (hord : ValidOrder ord) {n : LocalNode} (h : Reachable ord n) : NodeInv n := by
  obtain ⟨rnd, ctl, ops, ha, rfl⟩ := h
  obtain ⟨n0, h0, hi, -⟩ := localNode_new hord rnd ctl
  rw [h0]
  exact (runOps_inv hord ops n0 hi ha).1

/-! ### Dispatch -/

theorem not_self (n : LocalNode) (m : Msg) : (n.isEnabled LocalNode.IGNORE_SELF_MESSAGE && LocalNode.truthy (n.isSelfMessage m)) = false := by
  unfold LocalNode.isSelfMessage
  split <;> simp [LocalNode.truthy]

/-- The request an object is given: what survives the trip through the codec. -/
def received (m : Msg) : Msg := { onWire m with fromAddr := m.fromAddr, toAddr := m.toAddr }

theorem messageReceived_eq (env : Env) (net : Net) (n : LocalNode) (m : Msg) (hm : Encodable m) :
    n.messageReceived env net m = match Dict.get? n.node.objects (m.deoj % 2 ^ 24) with
      | none => (n, .ok ())
      | some s =>
        let r := (n.deref s).messageReceived env (received m)
        match r.result with
        | .error e => (n.putBack (m.deoj % 2 ^ 24) s r.obj, .error e)
        | .ok res => (n.putBack (m.deoj % 2 ^ 24) s r.obj).answer net (received m) res := by
  unfold LocalNode.messageReceived
  rw [if_neg (by rw [not_self]; simp)]
  obtain ⟨c, h1, -, -, -, h2⟩ := (C10_copy m).1 hm
  rw [h1, h2]
  rfl

theorem messageReceived_unfit (env : Env) (net : Net) (n : LocalNode) (m : Msg) (hm : ¬ Encodable m) :
    n.messageReceived env net m = (n, .error .valueError) := by
  unfold LocalNode.messageReceived
  rw [if_neg (by rw [not_self]; simp), (C10_copy m).2 hm]

/-- What a controller does to the messages it sends. -/
def outgoing (n : LocalNode) (m : Msg) : Msg := if n.controller then { m with seoj := 0x0EF001 } else m

theorem outgoing_encodable (n : LocalNode) (m : Msg) : Encodable (outgoing n m) ↔ Encodable m := by
  unfold outgoing; split <;> exact Iff.rfl

theorem sendMessage_eq (net : Net) (n : LocalNode) (m : Msg) (a : Option Addr) :
    n.sendMessage net m a = ({ n with mgr := (n.mgr.send net (outgoing n m) a).1 }, (n.mgr.send net (outgoing n m) a).2.1,
      (n.mgr.send net (outgoing n m) a).2.2) := rfl

theorem announceMessage_eq (net : Net) (n : LocalNode) (m : Msg) :
    n.announceMessage net m = ({ n with mgr := (n.mgr.announce net (outgoing n m)).1 }, (n.mgr.announce net (outgoing n m)).2.1,
      (n.mgr.announce net (outgoing n m)).2.2) := rfl

def forget : Except Exc Bool → Except Exc Unit
  | .error e => .error e
  | .ok _ => .ok ()

theorem answer_eq (net : Net) (n : LocalNode) (req res : Msg) :
    n.answer net req (some res) = if ESV.isNotification res.esv
      then ({ n with mgr := (n.mgr.announce net (outgoing n res)).1 }, forget (n.mgr.announce net (outgoing n res)).2.2)
      else ({ n with mgr := (n.mgr.send net (outgoing n res) req.fromAddr).1 }, forget (n.mgr.send net (outgoing n res) req.fromAddr).2.2) := by
  unfold LocalNode.answer
  simp only []
  by_cases h : ESV.isNotification res.esv = true
  · rw [if_pos h, if_pos h, announceMessage_eq]
    rcases n.mgr.announce net (outgoing n res) with ⟨g, m, e | b⟩ <;> rfl
  · rw [if_neg h, if_neg h, sendMessage_eq]
    rcases n.mgr.send net (outgoing n res) req.fromAddr with ⟨g, m, e | b⟩ <;> rfl

/-- The operating system sends whatever it is given. -/
def NetWorks (net : Net) : Prop := ∀ n i d b, net.sendto n i d b = .ok (List.length b : Int)

/-- The servers can send. -/
def CanSend (g : Manager) : Prop := working g.servers ≠ []

/-- An answer that fits is sent once, to the sender of the request. -/
theorem answer_sent (net : Net) (n : LocalNode) (req res : Msg) (a : Addr) (hn : ESV.isNotification res.esv = false)
    (ha : req.fromAddr = some a) (hm : Encodable res) (hw : CanSend n.mgr) (hs : NetWorks net) :
    ∃ i t, (n.answer net req (some res)).2 = .ok () ∧
      (n.answer net req (some res)).1.mgr.log = n.mgr.log ++ [(⟨i, a, encode { outgoing n res with tid := t }⟩, ((encode { outgoing n res with tid := t }).length : Int))] ∧
      (res.tid ≠ 0 → t = res.tid) ∧ (n.answer net req (some res)).1.mgr.servers = n.mgr.servers := by
  have hm' := (outgoing_encodable n res).mpr hm
  obtain ⟨⟨s, -, h1⟩, h2, -⟩ := C54_works net n.mgr (outgoing n res) a hm' hw hs
  obtain ⟨-, -, -, -, -, -, -, hsv, t, ad, h3⟩ := C54_send net n.mgr (outgoing n res) a hm'
  rw [answer_eq, if_neg (by rw [hn]; simp), ha]
  refine ⟨s.ifaddr, t, by rw [h2]; rfl, ?_, ?_, hsv⟩
  · simp only []
    rw [h1, h3]
    rfl
  · intro hz
    have htid : (outgoing n res).tid = res.tid := by unfold outgoing; split <;> rfl
    have := (C51_kept n.mgr net (outgoing n res) (some a) (by rw [htid]; exact hz)).2.1
    rw [h3] at this
    exact this.trans htid

/-- An answer that does not fit is not sent. -/
theorem answer_unfit (net : Net) (n : LocalNode) (req res : Msg) (a : Addr)
    (ha : req.fromAddr = some a) (hm : ¬ Encodable res) :
    (n.answer net req (some res)).1.mgr.log = n.mgr.log ∧
    (CanSend n.mgr → (n.answer net req (some res)).2 = .error .valueError) := by
  have hm' : ¬ Encodable (outgoing n res) := fun h => hm ((outgoing_encodable n res).mp h)
  rw [answer_eq]
  obtain ⟨h1, h2⟩ := C54_send_unfit net n.mgr (outgoing n res) a hm'
  obtain ⟨h3, h4⟩ := C54_announce_unfit net n.mgr (outgoing n res) hm'
  split
  · refine ⟨h3, fun hw => ?_⟩
    simp only []
    rw [h4, if_neg hw]
    rfl
  · rw [ha]
    refine ⟨h1, fun hw => ?_⟩
    simp only []
    rw [h2, if_neg hw]
    rfl

/-- Whatever the network does: what is sent is the answer, to whom it is for. -/
theorem answer_log (net : Net) (n : LocalNode) (req res : Msg) :
    ∃ new t, (n.answer net req (some res)).1.mgr.log = n.mgr.log ++ new ∧ (res.tid ≠ 0 → t = res.tid) ∧
      (res.tid = 0 → 0 ≤ n.mgr.tid ∧ n.mgr.tid ≤ 65535 → 1 ≤ t ∧ t ≤ 65535) ∧
      (∀ x ∈ new, x.1.bytes = encode { outgoing n res with tid := t } ∧
        some x.1.dest = if ESV.isNotification res.esv = true then some ("224.0.23.0", 3610) else req.fromAddr) ∧
      (ESV.isNotification res.esv = false → (new.filter (fun x => decide (0 < x.2))).length ≤ 1) ∧
      (¬ Encodable res → new = []) := by
  have htid : (outgoing n res).tid = res.tid := by unfold outgoing; split <;> rfl
  rw [answer_eq]
  by_cases hm : Encodable res
  · have hm' := (outgoing_encodable n res).mpr hm
    by_cases hn : ESV.isNotification res.esv = true
    · rw [if_pos hn]
      obtain ⟨new, h1, h2, -, -, -, -, t, ad, h3⟩ := C54_announce net n.mgr (outgoing n res) hm'
      refine ⟨new, t, h1, ?_, ?_, ?_, fun h => (by rw [hn] at h; cases h), fun h => absurd hm h⟩
      · intro hz
        have := (C51_kept n.mgr net (outgoing n res) none (by rw [htid]; exact hz)).1
        rw [h3] at this
        exact this.trans htid
      · intro hz hr
        have := op_tid n.mgr (.announce net (outgoing n res)) hr
        simp only [MgrOp.message] at this
        rw [if_pos (htid.trans hz), h3] at this
        have := this.2
        simp only [] at this
        omega
      · intro x hx
        obtain ⟨x1, x2⟩ := h2 x hx
        refine ⟨?_, by rw [if_pos hn, x1]⟩
        rw [x2, h3]
        rfl
    · rw [if_neg hn]
      cases ha : req.fromAddr with
      | none =>
        refine ⟨[], if res.tid = 0 then 1 else res.tid, ?_, fun h => if_neg h, fun h _ => by rw [if_pos h]; omega, by simp, by simp, fun _ => rfl⟩
        rw [List.append_nil]
        exact (C54_send_nowhere net n.mgr (outgoing n res)).1
      | some a =>
        obtain ⟨new, h1, h2, -, h4, -, -, -, t, ad, h3⟩ := C54_send net n.mgr (outgoing n res) a hm'
        refine ⟨new, t, h1, ?_, ?_, ?_, fun _ => h4, fun h => absurd hm h⟩
        · intro hz
          have := (C51_kept n.mgr net (outgoing n res) (some a) (by rw [htid]; exact hz)).2.1
          rw [h3] at this
          exact this.trans htid
        · intro hz hr
          have := op_tid n.mgr (.send net (outgoing n res) (some a)) hr
          simp only [MgrOp.message] at this
          rw [if_pos (htid.trans hz), h3] at this
          have := this.2
          simp only [] at this
          omega
        · intro x hx
          obtain ⟨x1, x2, -⟩ := h2 x hx
          refine ⟨?_, by rw [if_neg hn, x1]⟩
          rw [x2, h3]
          rfl
  · have hm' : ¬ Encodable (outgoing n res) := fun h => hm ((outgoing_encodable n res).mp h)
    refine ⟨[], if res.tid = 0 then 1 else res.tid, ?_, fun h => if_neg h, fun h _ => by rw [if_pos h]; omega, by simp, by simp, fun _ => rfl⟩
    rw [List.append_nil]
    split
    · exact (C54_announce_unfit net n.mgr (outgoing n res) hm').1
    · cases ha : req.fromAddr with
      | none => exact (C54_send_nowhere net n.mgr (outgoing n res)).1
      | some a => exact (C54_send_unfit net n.mgr (outgoing n res) a hm').1

/-- An answer that is a notification goes out through every interface. -/
theorem answer_announced (net : Net) (n : LocalNode) (req res : Msg) (hn : ESV.isNotification res.esv = true)
    (hm : Encodable res) (hw : CanSend n.mgr) (hs : NetWorks net) :
    (n.answer net req (some res)).2 = .ok () ∧
    (n.answer net req (some res)).1.mgr.log.length = n.mgr.log.length + (working n.mgr.servers).length := by
  have hm' := (outgoing_encodable n res).mpr hm
  obtain ⟨-, -, h1, h2⟩ := C54_works net n.mgr (outgoing n res) ("", 0) hm' hw hs
  rw [answer_eq, if_pos hn]
  refine ⟨by rw [h2]; rfl, ?_⟩
  simp only []
  rw [h1]
  simp

/-! ### A node's use of the transport -/

/-- Whatever is done with a node amounts to calls on its manager: what is proved about every history of
a manager holds for the manager of every node. -/
theorem run_mgr (ord : List Int → List Int) (n : LocalNode) (op : NodeOp) :
    ∃ mops : List MgrOp, (op.run ord n).mgr = mops.foldl MgrOp.run n.mgr := by
  cases op with
  | add o => exact ⟨[], rfl⟩
  | receive env net m =>
    show ∃ mops : List MgrOp, (n.messageReceived env net m).1.mgr = _
    by_cases hm : Encodable m
    · rw [messageReceived_eq env net n m hm]
      cases Dict.get? n.node.objects (m.deoj % 2 ^ 24) with
      | none => exact ⟨[], rfl⟩
      | some s =>
        simp only []
        have hp : ∀ o, (n.putBack (m.deoj % 2 ^ 24) s o).mgr = n.mgr := by intro o; cases s <;> rfl
        rcases ((n.deref s).messageReceived env (received m)).result with e | (_ | res)
        · exact ⟨[], hp _⟩
        · exact ⟨[], hp _⟩
        · simp only []
          rw [answer_eq]
          split
          · exact ⟨[.announce net (outgoing (n.putBack (m.deoj % 2 ^ 24) s ((n.deref s).messageReceived env (received m)).obj) res)], by
              simp only [hp]; rfl⟩
          · exact ⟨[.send net (outgoing (n.putBack (m.deoj % 2 ^ 24) s ((n.deref s).messageReceived env (received m)).obj) res) (received m).fromAddr], by
              simp only [hp]; rfl⟩
    · rw [messageReceived_unfit env net n m hm]
      exact ⟨[], rfl⟩
  | enable opt v =>
    refine ⟨[], ?_⟩
    show (n.setEnabled opt v).mgr = _
    unfold LocalNode.setEnabled
    split <;> rfl
  | start net caller =>
    show ∃ mops : List MgrOp, (n.start net caller).1.mgr = _
    unfold LocalNode.start
    rcases h : n.mgr.start net caller [] with ⟨g, e | (_ | _)⟩
    · exact ⟨[.start net caller []], by simp [MgrOp.run, h]⟩
    · exact ⟨[.start net caller []], by simp [MgrOp.run, h]⟩
    · exact ⟨[.start net caller [], .observe 0], by simp [MgrOp.run, h]⟩
  | stop caller => exact ⟨[.stop caller], rfl⟩
  | announce net m => exact ⟨[.announce net (outgoing n m)], rfl⟩
  | send net m a => exact ⟨[.send net (outgoing n m) a], rfl⟩
  | update code f =>
    refine ⟨[], ?_⟩
    show (n.update code f).mgr = _
    unfold LocalNode.update
    split <;> rfl

theorem runOps_mgr (ord : List Int → List Int) (ops : List NodeOp) : ∀ n : LocalNode,
    ∃ mops : List MgrOp, (runOps ord n ops).mgr = mops.foldl MgrOp.run n.mgr := by
  induction ops with
  | nil => intro n; exact ⟨[], rfl⟩
  | cons op ops ih =>
    intro n
    obtain ⟨m1, h1⟩ := run_mgr ord n op
    obtain ⟨m2, h2⟩ := ih (op.run ord n)
    exact ⟨m1 ++ m2, by rw [List.foldl_append, ← h1, ← h2]; rfl⟩

theorem reachable_mgr {ord : List Int → List Int} (hord : ValidOrder ord) {n : LocalNode} (h : Reachable ord n) :
    ∃ mops : List MgrOp, n.mgr = mops.foldl MgrOp.run {} := by
  obtain ⟨rnd, ctl, ops, -, rfl⟩ := h
  obtain ⟨n0, h0, -, -, -, -, hm, -⟩ := localNode_new hord rnd ctl
  obtain ⟨mops, h⟩ := runOps_mgr ord ops n0
  exact ⟨mops, by rw [h0, h, hm]⟩

theorem tid_range (mops : List MgrOp) : ∀ g : Manager, 0 ≤ g.tid ∧ g.tid ≤ 65535 →
    0 ≤ (mops.foldl MgrOp.run g).tid ∧ (mops.foldl MgrOp.run g).tid ≤ 65535 := by
  induction mops with
  | nil => intro g h; exact h
  | cons op mops ih =>
    intro g h
    apply ih
    have := op_tid g op h
    split at this
    · omega
    · split at this <;> omega

theorem reachable_tid {ord : List Int → List Int} (hord : ValidOrder ord) {n : LocalNode} (h : Reachable ord n) :
    0 ≤ n.mgr.tid ∧ n.mgr.tid ≤ 65535 := by
  obtain ⟨mops, h⟩ := reachable_mgr hord h
  rw [h]
  exact tid_range mops {} (by decide)

/-- The node's own profile sits under its own code only. -/
theorem slot_profile {n : LocalNode} (h : NodeInv n) {c : Int} (hg : Dict.get? n.node.objects c = some .profile) : c = 0x0EF001 := by
  have := h.own _ (Dict.mem_of_get? _ _ _ hg)
  exact this.symm.trans h.prof.code

theorem putBack_get {n : LocalNode} (h : NodeInv n) {k : Int} {s : Slot} (hg : Dict.get? n.node.objects k = some s) (o : Obj) (c : Int) :
    (n.putBack k s o).getObject (.int c) = if c = k then some o else n.getObject (.int c) := by
  unfold LocalNode.getObject Node.getObject
  show Option.map _ (Dict.get? (n.putBack k s o).node.objects c) = if c = k then _ else Option.map _ (Dict.get? n.node.objects c)
  cases s with
  | profile =>
    have hk := slot_profile h hg
    show Option.map _ (Dict.get? n.node.objects c) = _
    by_cases hc : c = k
    · rw [if_pos hc, hc, hg]
      rfl
    · rw [if_neg hc]
      cases hs : Dict.get? n.node.objects c with
      | none => rfl
      | some s =>
        cases s with
        | profile => exact absurd ((slot_profile h hs).trans hk.symm) hc
        | user u => rfl
  | user u =>
    show Option.map _ (Dict.get? (Dict.modify n.node.objects k (fun _ => .user o)) c) = _
    rw [Dict.get?_modify]
    by_cases hc : c = k
    · rw [if_pos hc, if_pos hc.symm, hc, hg]
      rfl
    · rw [if_neg hc, if_neg (fun h => hc h.symm)]
      rfl

/-- What a read of known, readable properties gives. -/
theorem read_known (env : Env) (o : Obj) (m : Msg) (hw : WellFormed o) (hh : o.handler = .self_) (hq : Quiet env o m)
    (he : m.esv = 0x62) (hs : OwnSections m) (hk : ∀ i ∈ m.props, ∃ p, lookup o.props i.code = some p ∧ CanRead p) :
    (o.messageReceived env m).obj = o ∧ (o.messageReceived env m).result = .ok (some
      { tid := m.tid, seoj := m.deoj, deoj := m.seoj, esv := 0x72
        props := m.props.map (fun i => { code := i.code, data := (o.getPropertyData i.code).getD [] }) }) := by
  rw [messageReceived_quiet env o m hq, handle_read env (attrPolicy o) o m (follows_default env o hw hh) he]
  refine ⟨rfl, ?_⟩
  simp only []
  have h1 : (acceptedReads o (attrPolicy o) m.props).length = m.props.length := by
    apply (all_accepted_iff _ _).mpr
    intro i hi
    obtain ⟨p, hp, hc⟩ := hk i hi
    simp [attrPolicy, hp, hc]
  have h2 : m.props.map (readResp o (attrPolicy o)) =
      m.props.map (fun i => { code := i.code, data := (o.getPropertyData i.code).getD [] }) := by
    apply List.map_congr_left
    intro i hi
    obtain ⟨p, hp, hc⟩ := hk i hi
    simp [readResp, readValue, attrPolicy, hp, hc, getPropertyData_eq]
  have h3 : m.setProps = [] ∧ m.getProps = [] := by
    have := hs
    unfold OwnSections at this
    rw [he, if_neg (by decide)] at this
    exact this
  rw [h1, h2]
  unfold Obj.respond Msg.opc Msg.opcSet Msg.opcGet
  rw [he, h3.1, h3.2]
  simp [ESV.WRITE_REQUEST, ESV.WRITE_REQUEST_RESPONSE_REQUIRED, ESV.READ_REQUEST, ESV.READ_RESPONSE, replyTo]

theorem decodes_encode (m : Msg) (hm : Encodable m) (hl : (encode m).length ≤ 1024) (a : Addr) :
    Decodes (encode m) a { onWire m with fromAddr := some a } := by
  refine ⟨onWire m, [], encodable_onWire m hm, ?_, ?_, rfl⟩
  · unfold onWire
    by_cases h : TwoSections m.esv <;> simp [h]
  · rw [encode_onWire, List.append_nil, List.take_of_length_le hl]

/-- What a request carries that asks for one property of the node profile. -/
def IsReadOf (m : Msg) (deoj c : Int) : Prop :=
  m.esv = 0x62 ∧ m.deoj % 2 ^ 24 = deoj ∧ ∃ d, m.props = [{ code := c, data := d }] ∧ PropOk { code := c, data := d }

theorem IsReadOf.encodable {m : Msg} {o c : Int} (h : IsReadOf m o c) : Encodable m := by
  obtain ⟨h1, -, d, h2, h3⟩ := h
  unfold Encodable
  rw [h1, if_neg (by decide), h2]
  exact ⟨by decide, by simp, by simpa using h3⟩

/-- The answer to a request for 0xD6 of the node profile. -/
def listAnswer (tid deoj : Int) (data : Bytes) : Msg :=
  { tid := tid, seoj := 0x0EF001, deoj := deoj, esv := 0x72, props := [{ code := 0xD6, data := data }] }

theorem listAnswer_encodable (tid deoj : Int) (data : Bytes) : Encodable (listAnswer tid deoj data) ↔ data.length < 256 := by
  have h : ¬ TwoSections (listAnswer tid deoj data).esv := (by decide : ¬ TwoSections 0x72)
  unfold Encodable
  rw [if_neg h]
  constructor
  · rintro ⟨-, -, h⟩
    exact (h _ List.mem_cons_self).2.2
  · intro hd
    refine ⟨(by decide : (0 : Int) ≤ 0x72 ∧ (0x72 : Int) < 256), by simp [listAnswer], ?_⟩
    intro p hp
    rw [List.mem_singleton.mp hp]
    exact ⟨(by decide : (0 : Int) ≤ 0xD6), (by decide : (0xD6 : Int) < 256), hd⟩

theorem listAnswer_length (tid deoj : Int) (data : Bytes) : (encode (listAnswer tid deoj data)).length = 14 + data.length := by
  have h : ¬ TwoSections (listAnswer tid deoj data).esv := (by decide : ¬ TwoSections 0x72)
  unfold encode encHeader encBody
  rw [if_neg h]
  simp [listAnswer, encSection, encItems, encItem, beDigits]
  omega

theorem outgoing_listAnswer (n : LocalNode) (t tid deoj : Int) (data : Bytes) :
    ({ outgoing n (listAnswer tid deoj data) with tid := t } : Msg) = listAnswer t deoj data := by
  unfold outgoing; split <;> rfl

theorem onWire_listAnswer (tid deoj : Int) (data : Bytes) :
    onWire (listAnswer tid deoj data) = listAnswer (tid % 2 ^ 16) (deoj % 2 ^ 24) data := by
  have h : ¬ TwoSections (listAnswer tid deoj data).esv := (by decide : ¬ TwoSections 0x72)
  unfold onWire
  rw [if_neg h, if_neg h, if_neg h]
  rfl

end Uecho
