import Verif.Spec.Sending
import Verif.Lemmas.Storm

namespace Uecho
open Spec

/-- The entries `new` carry messages that fit the wire format and that `P` allows. -/
def Causes (P : Addr → Msg → Prop) (new : List (Sent × Int)) : Prop :=
  ∀ x ∈ new, ∃ m : Msg, Encodable m ∧ x.1.bytes = encode m ∧ P x.1.dest m

theorem causes_nil (P : Addr → Msg → Prop) : Causes P [] := by intro x hx; cases hx

theorem outgoing_goes (n : LocalNode) (u : Msg) (t : Int) (ad : Option Addr) (hk : u.tid ≠ 0 → t = u.tid)
    (hg : u.tid = 0 → 1 ≤ t ∧ t ≤ 65535) : GoesOut n.controller u { outgoing n u with tid := t, toAddr := ad } := by
  unfold outgoing
  cases hc : n.controller
  · exact ⟨rfl, rfl, rfl, ⟨rfl, rfl, rfl⟩, hk, hg⟩
  · exact ⟨rfl, rfl, rfl, ⟨rfl, rfl, rfl⟩, hk, hg⟩

theorem outgoing_tid (n : LocalNode) (u : Msg) : (outgoing n u).tid = u.tid := by unfold outgoing; split <;> rfl

/-- What `announce_message` sends. -/
theorem announce_causes (net : Net) (n : LocalNode) (u : Msg) (hr : 0 ≤ n.mgr.tid ∧ n.mgr.tid ≤ 65535) :
    ∃ new, (n.announceMessage net u).1.mgr.log = n.mgr.log ++ new ∧ Causes (fun a m => a = everybody ∧ GoesOut n.controller u m) new := by
  rw [announceMessage_eq]
  by_cases hm : Encodable u
  swap
  · exact ⟨[], by rw [List.append_nil]; exact (C54_announce_unfit net n.mgr (outgoing n u) (fun h => hm ((outgoing_encodable n u).mp h))).1, causes_nil _⟩
  have hm' := (outgoing_encodable n u).mpr hm
  obtain ⟨new, h1, h2, -, -, -, -, t, ad, h3⟩ := C54_announce net n.mgr (outgoing n u) hm'
  refine ⟨new, h1, ?_⟩
  intro x hx
  obtain ⟨x1, x2⟩ := h2 x hx
  rw [h3] at x2
  refine ⟨{ outgoing n u with tid := t, toAddr := ad }, hm', x2, x1, outgoing_goes n u t ad ?_ ?_⟩
  · intro hz
    have := (C51_kept n.mgr net (outgoing n u) none (by rw [outgoing_tid]; exact hz)).1
    rw [h3] at this
    exact this.trans (outgoing_tid n u)
  · intro hz
    have := op_tid n.mgr (.announce net (outgoing n u)) hr
    simp only [MgrOp.message] at this
    rw [if_pos ((outgoing_tid n u).trans hz), h3] at this
    have := this.2
    simp only [] at this
    omega

/-- What `send_message` sends. -/
theorem send_causes (net : Net) (n : LocalNode) (u : Msg) (d : Option Addr) (hr : 0 ≤ n.mgr.tid ∧ n.mgr.tid ≤ 65535) :
    ∃ new, (n.sendMessage net u d).1.mgr.log = n.mgr.log ++ new ∧ Causes (fun a m => d = some a ∧ GoesOut n.controller u m) new := by
  rw [sendMessage_eq]
  cases d with
  | none => exact ⟨[], by rw [List.append_nil]; exact (C54_send_nowhere net n.mgr (outgoing n u)).1, causes_nil _⟩
  | some a =>
    by_cases hm : Encodable u
    swap
    · exact ⟨[], by rw [List.append_nil]; exact (C54_send_unfit net n.mgr (outgoing n u) a (fun h => hm ((outgoing_encodable n u).mp h))).1, causes_nil _⟩
    have hm' := (outgoing_encodable n u).mpr hm
    obtain ⟨new, h1, h2, -, -, -, -, -, t, ad, h3⟩ := C54_send net n.mgr (outgoing n u) a hm'
    refine ⟨new, h1, ?_⟩
    intro x hx
    obtain ⟨x1, x2, -⟩ := h2 x hx
    rw [h3] at x2
    refine ⟨{ outgoing n u with tid := t, toAddr := ad }, hm', x2, by rw [x1], outgoing_goes n u t ad ?_ ?_⟩
    · intro hz
      have := (C51_kept n.mgr net (outgoing n u) (some a) (by rw [outgoing_tid]; exact hz)).2.1
      rw [h3] at this
      exact this.trans (outgoing_tid n u)
    · intro hz
      have := op_tid n.mgr (.send net (outgoing n u) (some a)) hr
      simp only [MgrOp.message] at this
      rw [if_pos ((outgoing_tid n u).trans hz), h3] at this
      have := this.2
      simp only [] at this
      omega

theorem putBack_controller (n : LocalNode) (k : Int) (s : Slot) (o : Obj) : (n.putBack k s o).controller = n.controller := by cases s <;> rfl
theorem putBack_mgr (n : LocalNode) (k : Int) (s : Slot) (o : Obj) : (n.putBack k s o).mgr = n.mgr := by cases s <;> rfl

/-- Whether an answer is a notification. -/
theorem answer_notification {e : Int} (h : e ∈ ([0x50, 0x52, 0x53, 0x5E, 0x71, 0x72, 0x73, 0x7A, 0x7E] : List Int)) :
    ESV.isNotification e = true ↔ e = 0x73 := by
  simp only [List.mem_cons, List.not_mem_nil, or_false] at h
  rcases h with rfl | rfl | rfl | rfl | rfl | rfl | rfl | rfl | rfl <;> decide

/-- What the answer to a request is, whatever has happened to the node in between. -/
theorem answer_causes (env : Env) (net : Net) (n1 : LocalNode) (o : Obj) (q res : Msg) (hres : (o.messageReceived env (received q)).result = .ok (some res)) :
    ∃ new, (n1.answer net (received q) (some res)).1.mgr.log = n1.mgr.log ++ new ∧
      Causes (fun a m => AnswerTo n1.controller q m ∧ (if m.esv = 0x73 then a = everybody else q.fromAddr = some a)) new := by
  obtain ⟨new, t, h1, h2, -, h3, -, h4⟩ := answer_log net n1 (received q) res
  refine ⟨new, h1, ?_⟩
  intro x hx
  have hfit : Encodable res := by
    by_contra hbad
    rw [h4 hbad] at hx
    cases hx
  obtain ⟨x1, x2⟩ := h3 x hx
  obtain ⟨a1, a2, a3⟩ := C13_addressing env _ (received q) res hres
  have he := answer_esv env _ (received q) res hres
  have hreq : q.esv ∈ ([0x60, 0x61, 0x62, 0x63, 0x6E, 0x74] : List Int) := by
    by_contra hbad
    exact (C22_only_requests env o (received q) (Or.inl hbad)).2.1 res hres
  refine ⟨{ outgoing n1 res with tid := t }, (outgoing_encodable n1 res).mpr hfit, x1, ⟨hreq, ?_, ?_, ?_, ?_⟩, ?_⟩
  · unfold outgoing; split <;> exact he
  · unfold outgoing; split <;> exact a3
  · unfold outgoing
    cases n1.controller
    · exact a2
    · rfl
  · intro ht
    exact (h2 (by rw [a1]; exact ht)).trans a1
  · have hes : ({ outgoing n1 res with tid := t } : Msg).esv = res.esv := by unfold outgoing; split <;> rfl
    rw [hes]
    by_cases h73 : res.esv = 0x73
    · rw [if_pos h73]
      rw [if_pos ((answer_notification he).mpr h73)] at x2
      injection x2
    · rw [if_neg h73]
      rw [if_neg (fun h => h73 ((answer_notification he).mp h))] at x2
      exact x2.symm

/-- What a message delivered to a node makes it send. -/
theorem receive_causes (env : Env) (net : Net) (n : LocalNode) (q : Msg) :
    ∃ new, (n.messageReceived env net q).1.mgr.log = n.mgr.log ++ new ∧
      Causes (fun a m => AnswerTo n.controller q m ∧ (if m.esv = 0x73 then a = everybody else q.fromAddr = some a)) new := by
  by_cases hq : Encodable q
  swap
  · rw [messageReceived_unfit env net n q hq]; exact ⟨[], by simp, causes_nil _⟩
  rw [messageReceived_eq env net n q hq]
  split
  · exact ⟨[], by simp, causes_nil _⟩
  · rename_i s hs
    simp only []
    split
    · exact ⟨[], by rw [putBack_mgr, List.append_nil], causes_nil _⟩
    · rename_i res hres
      cases res with
      | none =>
        refine ⟨[], ?_, causes_nil _⟩
        show (n.putBack _ s _).mgr.log = _
        rw [putBack_mgr, List.append_nil]
      | some res =>
        obtain ⟨n1, hn1⟩ : ∃ n1, n1 = n.putBack (q.deoj % 2 ^ 24) s ((n.deref s).messageReceived env (received q)).obj := ⟨_, rfl⟩
        have hm1 : n1.mgr = n.mgr := by rw [hn1, putBack_mgr]
        have hc1 : n1.controller = n.controller := by rw [hn1, putBack_controller]
        rw [← hn1, ← hm1, ← hc1]
        exact answer_causes env net n1 (n.deref s) q res hres

/-- Opening and closing servers sends nothing. -/
theorem mgr_stop_log (g : Manager) (caller : Option Nat) : (g.stop caller).1.log = g.log := by
  unfold Manager.stop
  split <;> rfl

theorem mgr_start_log (net : Net) (g : Manager) (caller : Option Nat) (as : List String) : (g.start net caller as).1.log = g.log := by
  unfold Manager.start
  have := mgr_stop_log g caller
  rcases h : g.stop caller with ⟨g1, e | (_ | _)⟩
  · rw [h] at this; exact this
  · rw [h] at this; exact this
  · rw [h] at this
    simp only [] at this ⊢
    generalize (if as.length ≤ 0 then getAllIpaddrs net.interfaces [] else as) = l
    obtain ⟨k, -, -, h3⟩ := Manager.startLoop_prefix net l g1
    rcases h2 : Manager.startLoop net l g1 with ⟨g2, _ | e⟩
    · rw [h2] at h3
      simp only []
      split <;> exact h3.trans this
    · rw [h2] at h3
      exact h3.trans this

/-- What any call makes a node send. -/
theorem node_causes (ord : List Int → List Int) (n : LocalNode) (op : NodeOp) (hr : 0 ≤ n.mgr.tid ∧ n.mgr.tid ≤ 65535) :
    ∃ new, (op.run ord n).mgr.log = n.mgr.log ++ new ∧ Causes (NodeCauses n.controller op) new := by
  cases op with
  | add o => exact ⟨[], by rw [List.append_nil]; rfl, causes_nil _⟩
  | receive env net m => exact receive_causes env net n m
  | enable opt v =>
    refine ⟨[], ?_, causes_nil _⟩
    show (n.setEnabled opt v).mgr.log = _
    unfold LocalNode.setEnabled
    split <;> simp
  | start net caller =>
    refine ⟨[], ?_, causes_nil _⟩
    show (n.start net caller).1.mgr.log = _
    rw [List.append_nil]
    unfold LocalNode.start
    have := mgr_start_log net n.mgr caller []
    rcases h : n.mgr.start net caller [] with ⟨g, e | (_ | _)⟩
    · rw [h] at this; exact this
    · rw [h] at this; exact this
    · rw [h] at this; exact this
  | stop caller =>
    refine ⟨[], ?_, causes_nil _⟩
    show (n.mgr.stop caller).1.log = _
    rw [List.append_nil]
    exact mgr_stop_log n.mgr caller
  | announce net m => exact announce_causes net n m hr
  | send net m a => exact send_causes net n m a hr
  | update code f =>
    refine ⟨[], ?_, causes_nil _⟩
    show (n.update code f).mgr.log = _
    unfold LocalNode.update
    split
    · rw [putBack_mgr, List.append_nil]
    · rw [List.append_nil]

end Uecho
