/-
Everything a machine sends, over any history: whatever peers send to it, whatever its handlers and listeners do, whatever the network does.
-/
import Verif.Lemmas.Sending
import Verif.Lemmas.Search
import Verif.Props.Search

namespace Uecho
open Spec

theorem run_controller (ord : List Int → List Int) (n : LocalNode) (op : NodeOp) : (op.run ord n).controller = n.controller := by
  cases op with
  | add o => rfl
  | receive env net m =>
    show (n.messageReceived env net m).1.controller = _
    by_cases hm : Encodable m
    swap
    · rw [messageReceived_unfit env net n m hm]
    rw [messageReceived_eq env net n m hm]
    split
    · rfl
    · simp only []
      split
      · exact putBack_controller n _ _ _
      · rename_i res _
        cases res with
        | none => exact putBack_controller n _ _ _
        | some res =>
          rw [answer_eq]
          split <;> exact putBack_controller n _ _ _
  | enable opt v =>
    show (n.setEnabled opt v).controller = _
    unfold LocalNode.setEnabled
    split <;> rfl
  | start net caller =>
    show (n.start net caller).1.controller = _
    unfold LocalNode.start
    rcases n.mgr.start net caller [] with ⟨g, e | (_ | _)⟩ <;> rfl
  | stop caller => rfl
  | announce net m => rfl
  | send net m a => rfl
  | update code f =>
    show (n.update code f).controller = _
    unfold LocalNode.update
    split
    · exact putBack_controller n _ _ _
    · rfl

theorem node_range {ord : List Int → List Int} (hord : ValidOrder ord) (rnd : NodeProfile.Random) (ctl : Bool) (ops : List NodeOp) :
    0 ≤ (runOps ord (LocalNode.new ord rnd ctl).1 ops).mgr.tid ∧ (runOps ord (LocalNode.new ord rnd ctl).1 ops).mgr.tid ≤ 65535 := by
  obtain ⟨n0, h0, -, -, -, -, hm, -⟩ := localNode_new hord rnd ctl
  obtain ⟨mops, h⟩ := runOps_mgr ord ops n0
  rw [h0, h, hm]
  exact tid_range mops {} (by decide)

/-- C136. Everything a local node ever hands to the network is a message that fits the wire format, caused by a call of its program or by
a request it got: an announcement goes to everybody, a message sent to where the program says, an answer to who asked. No assumption
about the program's handlers, what it does to its objects, what peers send, the network. -/
theorem C136_node {ord : List Int → List Int} (hord : ValidOrder ord) (rnd : NodeProfile.Random) (ctl : Bool) (ops : List NodeOp) :
    ∀ x ∈ (runOps ord (LocalNode.new ord rnd ctl).1 ops).mgr.log, ∃ op ∈ ops, ∃ m : Msg, Encodable m ∧ x.1.bytes = encode m ∧
      NodeCauses ctl op x.1.dest m := by
  have hctl : ∀ ops, (runOps ord (LocalNode.new ord rnd ctl).1 ops).controller = ctl := by
    intro ops
    induction ops using List.reverseRecOn with
    | nil =>
      obtain ⟨n0, h0, -, -, -, hc, -⟩ := localNode_new hord rnd ctl
      rw [h0]
      exact hc
    | append_singleton ops op ih =>
      unfold runOps at ih ⊢
      rw [List.foldl_append]
      exact (run_controller ord _ op).trans ih
  induction ops using List.reverseRecOn with
  | nil =>
    obtain ⟨n0, h0, -, -, -, -, hm, -⟩ := localNode_new hord rnd ctl
    rw [h0]
    show ∀ x ∈ n0.mgr.log, _
    rw [hm]
    intro x hx
    cases hx
  | append_singleton ops op ih =>
    intro x hx
    have hx : x ∈ (op.run ord (runOps ord (LocalNode.new ord rnd ctl).1 ops)).mgr.log := by
      unfold runOps at hx ⊢
      rw [List.foldl_append] at hx
      exact hx
    obtain ⟨new, h1, h2⟩ := node_causes ord (runOps ord (LocalNode.new ord rnd ctl).1 ops) op (node_range hord rnd ctl ops)
    rw [h1] at hx
    rcases List.mem_append.mp hx with hx | hx
    · obtain ⟨op', ho, m, h⟩ := ih x hx
      exact ⟨op', List.mem_append_left _ ho, m, h⟩
    · obtain ⟨m, m1, m2, m3⟩ := h2 x hx
      rw [hctl] at m3
      exact ⟨op, List.mem_append_right _ (List.mem_singleton.mpr rfl), m, m1, m2, m3⟩

/-- What any call makes a controller send. -/
theorem ctl_causes (ord : List Int → List Int) (c : Ctl) (op : CtlOp) (hc : c.ln.controller = true) (hr : 0 ≤ c.ln.mgr.tid ∧ c.ln.mgr.tid ≤ 65535) :
    (∃ new, (op.run ord c).ln.mgr.log = c.ln.mgr.log ++ new ∧ Causes (CtlCauses op) new) ∧
    ((op.run ord c).ln.controller = true ∧ 0 ≤ (op.run ord c).ln.mgr.tid ∧ (op.run ord c).ln.mgr.tid ≤ 65535) := by
  -- a call on the node of the controller
  have via : ∀ (nop : NodeOp), (op.run ord c).ln = nop.run ord c.ln → (∀ a m, NodeCauses true nop a m → CtlCauses op a m) →
      (∃ new, (op.run ord c).ln.mgr.log = c.ln.mgr.log ++ new ∧ Causes (CtlCauses op) new) ∧
      ((op.run ord c).ln.controller = true ∧ 0 ≤ (op.run ord c).ln.mgr.tid ∧ (op.run ord c).ln.mgr.tid ≤ 65535) := by
    intro nop he himp
    rw [he]
    refine ⟨?_, (run_controller ord c.ln nop).trans hc, ?_⟩
    · obtain ⟨new, h1, h2⟩ := node_causes ord c.ln nop hr
      rw [hc] at h2
      refine ⟨new, h1, fun x hx => ?_⟩
      obtain ⟨m, m1, m2, m3⟩ := h2 x hx
      exact ⟨m, m1, m2, himp _ _ m3⟩
    · obtain ⟨mops, h⟩ := run_mgr ord c.ln nop
      rw [h]
      exact tid_range mops _ hr
  have same : (op.run ord c).ln = c.ln →
      (∃ new, (op.run ord c).ln.mgr.log = c.ln.mgr.log ++ new ∧ Causes (CtlCauses op) new) ∧
      ((op.run ord c).ln.controller = true ∧ 0 ≤ (op.run ord c).ln.mgr.tid ∧ (op.run ord c).ln.mgr.tid ≤ 65535) := by
    intro he
    rw [he]
    exact ⟨⟨[], by simp, causes_nil _⟩, hc, hr⟩
  have hsearch : ∀ m, GoesOut true SearchMessage m → isSearch m := by
    rintro m ⟨h1, h2, h3, ⟨h4, h5, h6⟩, -, h7⟩
    refine ⟨h3, h2, h1, ?_, h5, h6, h7 rfl⟩
    rw [h4]
    rfl
  cases op with
  | receive env cenv net m =>
    by_cases hq : ESV.isRequest m.esv = true
    · exact via (.receive env net m) (by show (c.messageReceived ord env cenv net m).1.ln = _; rw [ctl_ln, if_pos hq]; rfl) (fun _ _ h => h)
    · exact same (by show (c.messageReceived ord env cenv net m).1.ln = _; rw [ctl_ln, if_neg hq])
  | add o => exact via (.add o) rfl (fun _ _ h => h)
  | enable opt v => exact via (.enable opt v) rfl (fun _ _ h => h)
  | start net caller =>
    rcases hst : c.ln.start net caller with ⟨n, e | (_ | _)⟩
    · exact via (.start net caller) (by show (c.start net caller).1.ln = (c.ln.start net caller).1; unfold Ctl.start; rw [hst]) (fun _ _ h => h.elim)
    · exact via (.start net caller) (by show (c.start net caller).1.ln = (c.ln.start net caller).1; unfold Ctl.start; rw [hst]) (fun _ _ h => h.elim)
    · have he : (c.start net caller).1.ln = (n.announceMessage net SearchMessage).1 := by
        unfold Ctl.start
        rw [hst]
        simp only [Ctl.search, Ctl.announceMessage]
        rcases n.announceMessage net SearchMessage with ⟨n', m', e | (_ | _)⟩ <;> rfl
      have hn : n = (NodeOp.start net caller).run ord c.ln := by show n = (c.ln.start net caller).1; rw [hst]
      have hnc : n.controller = true := by rw [hn]; exact (run_controller ord c.ln _).trans hc
      have hnr : 0 ≤ n.mgr.tid ∧ n.mgr.tid ≤ 65535 := by
        obtain ⟨mops, h⟩ := run_mgr ord c.ln (.start net caller)
        rw [hn, h]
        exact tid_range mops _ hr
      have hnl : n.mgr.log = c.ln.mgr.log := by
        obtain ⟨new, h1, h2⟩ := node_causes ord c.ln (.start net caller) hr
        rw [hn, h1]
        cases new with
        | nil => simp
        | cons x l =>
          obtain ⟨m, -, -, h⟩ := h2 x List.mem_cons_self
          exact h.elim
      show (∃ new, (c.start net caller).1.ln.mgr.log = _ ∧ _) ∧ ((c.start net caller).1.ln.controller = true ∧
        0 ≤ (c.start net caller).1.ln.mgr.tid ∧ (c.start net caller).1.ln.mgr.tid ≤ 65535)
      rw [he]
      refine ⟨?_, (run_controller ord n (.announce net SearchMessage)).trans hnc, ?_⟩
      · obtain ⟨new, h1, h2⟩ := announce_causes net n SearchMessage hnr
        rw [hnc] at h2
        refine ⟨new, by rw [← hnl]; exact h1, fun x hx => ?_⟩
        obtain ⟨m, m1, m2, m3, m4⟩ := h2 x hx
        exact ⟨m, m1, m2, m3, hsearch m m4⟩
      · obtain ⟨mops, h⟩ := run_mgr ord n (.announce net SearchMessage)
        have h : (n.announceMessage net SearchMessage).1.mgr = _ := h
        rw [h]
        exact tid_range mops _ hnr
  | stop caller =>
    exact via (.stop caller) (by
      show (c.stop caller).1.ln = (c.ln.stop caller).1
      unfold Ctl.stop
      rcases c.ln.stop caller with ⟨n, e | (_ | _)⟩ <;> rfl) (fun _ _ h => h)
  | search net => exact via (.announce net SearchMessage) rfl (fun _ m h => ⟨h.1, hsearch m h.2⟩)
  | announce net m => exact via (.announce net m) rfl (fun _ _ h => h)
  | send net m dest =>
    refine via (.send net m (Ctl.toAddr dest)) rfl (fun a _ h => ⟨?_, h.2⟩)
    have := h.1
    cases dest with
    | remote r => injection this with this; exact this.symm
    | str s => injection this with this; exact this.symm
    | pair p => injection this with this; exact this.symm
    | other => cases this
  | post net m dest =>
    refine via (.send net m (Ctl.toAddr dest)) rfl (fun a _ h => ⟨?_, h.2⟩)
    have := h.1
    cases dest with
    | remote r => injection this with this; exact this.symm
    | str s => injection this with this; exact this.symm
    | pair p => injection this with this; exact this.symm
    | other => cases this
  | listen l => exact same rfl
  | unlisten l =>
    refine same ?_
    show (c.removeListener l).1.ln = _
    unfold Ctl.removeListener
    split <;> rfl
  | update code f => exact via (.update code f) rfl (fun _ _ h => h)

/-- C136. The same for a controller; its searches read the instance lists of all nodes. Nothing is assumed of its listeners either. -/
theorem C136_controller {ord : List Int → List Int} (hord : ValidOrder ord) (rnd : NodeProfile.Random) (ops : List CtlOp) :
    ∀ x ∈ (runCtl ord (Ctl.new ord rnd).1 ops).ln.mgr.log, ∃ op ∈ ops, ∃ m : Msg, Encodable m ∧ x.1.bytes = encode m ∧ m.seoj = 0x0EF001 ∧
      CtlCauses op x.1.dest m := by
  have hinv : ∀ ops, (runCtl ord (Ctl.new ord rnd).1 ops).ln.controller = true ∧ 0 ≤ (runCtl ord (Ctl.new ord rnd).1 ops).ln.mgr.tid ∧
      (runCtl ord (Ctl.new ord rnd).1 ops).ln.mgr.tid ≤ 65535 := by
    intro ops
    induction ops using List.reverseRecOn with
    | nil =>
      obtain ⟨n, hn, hn'⟩ := ctl_new hord rnd
      obtain ⟨n0, h0, -, -, -, hc, hm, -⟩ := localNode_new hord rnd true
      have : n0 = n := congrArg Prod.fst (h0.symm.trans hn')
      subst this
      rw [hn]
      show n0.controller = true ∧ 0 ≤ n0.mgr.tid ∧ n0.mgr.tid ≤ 65535
      rw [hc, hm]
      decide
    | append_singleton ops op ih =>
      unfold runCtl at ih ⊢
      rw [List.foldl_append]
      exact (ctl_causes ord _ op ih.1 ih.2).2
  have hseoj : ∀ (op : CtlOp) (a : Addr) (m : Msg), CtlCauses op a m → m.seoj = 0x0EF001 := by
    intro op a m h
    cases op <;> first | exact h.elim | exact h.1.seoj | exact h.2.seoj | exact h.2.1
  induction ops using List.reverseRecOn with
  | nil =>
    obtain ⟨n, hn, hn'⟩ := ctl_new hord rnd
    obtain ⟨n0, h0, -, -, -, -, hm, -⟩ := localNode_new hord rnd true
    have : n0 = n := congrArg Prod.fst (h0.symm.trans hn')
    subst this
    rw [hn]
    show ∀ x ∈ n0.mgr.log, _
    rw [hm]
    intro x hx
    cases hx
  | append_singleton ops op ih =>
    intro x hx
    have hx : x ∈ (op.run ord (runCtl ord (Ctl.new ord rnd).1 ops)).ln.mgr.log := by
      unfold runCtl at hx ⊢
      rw [List.foldl_append] at hx
      exact hx
    obtain ⟨new, h1, h2⟩ := (ctl_causes ord (runCtl ord (Ctl.new ord rnd).1 ops) op (hinv ops).1 (hinv ops).2).1
    rw [h1] at hx
    rcases List.mem_append.mp hx with hx | hx
    · obtain ⟨op', ho, m, h⟩ := ih x hx
      exact ⟨op', List.mem_append_left _ ho, m, h⟩
    · obtain ⟨m, m1, m2, m3⟩ := h2 x hx
      exact ⟨op, List.mem_append_right _ (List.mem_singleton.mpr rfl), m, m1, m2, hseoj _ _ _ m3, m3⟩

/-- C137, what holds: what a controller sends is received as it was sent by every machine running this library that gets it, if it is not
longer than 1024 bytes. -/
theorem C137_received_partial {ord : List Int → List Int} (hord : ValidOrder ord) (rnd : NodeProfile.Random) (ops : List CtlOp) :
    ∀ x ∈ (runCtl ord (Ctl.new ord rnd).1 ops).ln.mgr.log, x.1.bytes.length ≤ 1024 → ∃ op ∈ ops, ∃ m : Msg, CtlCauses op x.1.dest m ∧
      ∀ src, Decodes x.1.bytes src { onWire m with fromAddr := some src } := by
  intro x hx hl
  obtain ⟨op, ho, m, m1, m2, -, m3⟩ := C136_controller hord rnd ops x hx
  refine ⟨op, ho, m, m3, fun src => ?_⟩
  rw [m2] at hl ⊢
  exact decodes_encode m m1 hl src

/-- The port of whom a request is from, or of where the program wants a message to go, is 3610. -/
def usesPort : CtlOp → Prop
  | .receive _ _ _ q => ∀ a, q.fromAddr = some a → a.2 = 3610
  | .send _ _ d => ∀ a, destOf d a → a.2 = 3610
  | .post _ _ d => ∀ a, destOf d a → a.2 = 3610
  | _ => True

/-- C137, what holds: everything goes to port 3610 as long as the requests come from there and the program names no other port. -/
theorem C137_port_partial {ord : List Int → List Int} (hord : ValidOrder ord) (rnd : NodeProfile.Random) (ops : List CtlOp) (h : ∀ op ∈ ops, usesPort op) :
    ∀ x ∈ (runCtl ord (Ctl.new ord rnd).1 ops).ln.mgr.log, x.1.dest.2 = 3610 := by
  intro x hx
  obtain ⟨op, ho, m, -, -, -, m3⟩ := C136_controller hord rnd ops x hx
  have hu := h op ho
  have he : x.1.dest = everybody → x.1.dest.2 = 3610 := by intro h; rw [h]; rfl
  cases op with
  | receive env cenv net q =>
    obtain ⟨-, h2⟩ := m3
    split at h2
    · exact he h2
    · exact hu _ h2
  | announce net u => exact he m3.1
  | send net u d => exact hu _ m3.1
  | post net u d => exact hu _ m3.1
  | start net caller => exact he m3.1
  | search net => exact he m3.1
  | _ => exact m3.elim

/-- C137, what fails: the protocol's port is 3610, whatever port a request comes from. The answer of any device that can be found to a
search from another port goes to that port, and to no other. -/
theorem C137_port_false {ord : List Int → List Int} (hord : ValidOrder ord) {h : Host} (hr : h.Ready ord) (q : Bytes) (ip : String) (port : Int)
    (hp : port ≠ 3610) (req : Msg) (hd : Decodes q (ip, port) req) (hreq : IsReadOf req 0x0EF001 0xD6) :
    ∃ n' new, recvOne (LocalNode.deliver h.env h.net) h.node q (ip, port) = (n', true) ∧ n'.mgr.log = h.node.mgr.log ++ new ∧ new ≠ [] ∧
      ∀ x ∈ new, x.1.dest.2 ≠ 3610 := by
  obtain ⟨d, m, ⟨n', j, h1, h2⟩, -⟩ := host_answers hord hr q (ip, port) req hd hreq
  refine ⟨n', _, h1, h2, by simp, ?_⟩
  intro x hx
  rw [List.mem_singleton] at hx
  rw [hx]
  exact hp

/-- C137, what fails: what is sent may be more than the library itself can receive. A message of more than 1024 bytes is handed to the
network without complaint, and ends the thread of any machine running this library that gets it. -/
theorem C137_long_false (net : Net) (hs : NetWorks net) (n : LocalNode) (hw : CanSend n.mgr) (hc : n.controller = false) (m : Msg) (a : Addr) (hm : Encodable m)
    (hl : 1024 < (encode m).length) {σ : Type} (deliver : σ → Msg → σ × Option Exc) (st : σ) (src : Addr) :
    (n.sendMessage net m (some a)).2.2 = .ok true ∧
    ∃ x, (n.sendMessage net m (some a)).1.mgr.log = n.mgr.log ++ [x] ∧ x.1.dest = a ∧ x.2 = (x.1.bytes.length : Int) ∧
      recvOne deliver st x.1.bytes src = (st, false) := by
  have ho : outgoing n m = m := by unfold outgoing; rw [hc]; rfl
  rw [sendMessage_eq, ho]
  obtain ⟨⟨s, -, h1⟩, h2, -⟩ := C54_works net n.mgr m a hm hw hs
  obtain ⟨-, -, -, -, -, -, -, -, t, ad, h3⟩ := C54_send net n.mgr m a hm
  refine ⟨h2, _, h1, rfl, rfl, ?_⟩
  simp only []
  rw [h3]
  have := C55_long_message_false deliver st src { m with tid := t, toAddr := ad } [] hm hl
  unfold runLoop at this
  generalize recvOne deliver st (encode { m with tid := t, toAddr := ad }) src = z at this
  rcases z with ⟨z1, _ | _⟩
  · exact this
  · unfold runLoop at this
    simp at this

/-- A controller that starts, is asked for its instance list from port 4000, sends, and posts to an address without a port. -/
def aDay : List CtlOp :=
  [.start okNet none,
   .receive exEnv { resolve := .ok, listen := fun _ _ _ => none } okNet
     { tid := 7, seoj := 0x05FF01, deoj := 0x0EF001, esv := 0x62, props := [⟨0xD6, []⟩], fromAddr := some ("10.0.0.9", 4000) },
   .send okNet { deoj := 0x029001, esv := 0x60, props := [⟨0x80, [0x30]⟩] } (.pair ("10.0.0.9", 5000)),
   .post okNet { deoj := 0x029001, esv := 0x62, props := [⟨0x80, []⟩] } (.str "10.0.0.9")]

example : ((runCtl List.dedup (Ctl.new List.dedup ⟨List.replicate 13 0, 0, 0⟩).1 aDay).ln.mgr.log.map fun x => (x.1.dest, x.1.bytes.take 12)) =
    [(("224.0.23.0", 3610), [0x10, 0x81, 0, 1, 0x0E, 0xF0, 1, 0x0E, 0xF0, 1, 0x62, 1]), (("10.0.0.9", 4000), [0x10, 0x81, 0, 7, 0x0E, 0xF0, 1, 5, 0xFF, 1, 0x72, 1]),
     (("10.0.0.9", 5000), [0x10, 0x81, 0, 2, 0x0E, 0xF0, 1, 2, 0x90, 1, 0x60, 1]), (("10.0.0.9", 3610), [0x10, 0x81, 0, 3, 0x0E, 0xF0, 1, 2, 0x90, 1, 0x62, 1])] := by decide +kernel

example : ∀ op ∈ [aDay[0], aDay[3]], usesPort op := by
  intro op h
  rcases List.mem_cons.mp h with rfl | h
  · trivial
  · rw [List.mem_singleton] at h
    subst h
    intro a ha
    rw [show a = ("10.0.0.9", 3610) from ha]

end Uecho
