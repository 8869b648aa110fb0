import Verif.Lemmas.Frame
import Verif.Props.Wire
import Mathlib.Tactic.Ring

namespace Uecho
open Spec

/-! ## C57: interfaces -/

theorem C57_all_addresses (l : List IfInfo) : getAllIpaddrs l [] = addresses l := by
  rw [getAllIpaddrs_eq]; rfl

/-- An address is reported iff some interface has it and it is not the loopback address; the order and
the multiplicity are those of the interfaces (`C57_all_addresses`). -/
theorem C57_reported (l : List IfInfo) (a : String) :
    a ∈ getAllIpaddrs l [] ↔ a ≠ "127.0.0.1" ∧ ∃ inets, some inets ∈ l ∧ some a ∈ inets := by
  rw [getAllIpaddrs_eq]
  simp only [List.nil_append, List.mem_filter, List.mem_filterMap, id, decide_eq_true_eq, List.mem_flatten]
  constructor
  · rintro ⟨⟨x, ⟨inets, ⟨y, hy, rfl⟩, hx⟩, rfl⟩, hne⟩
    exact ⟨hne, inets, hy, hx⟩
  · rintro ⟨hne, inets, hy, hx⟩
    exact ⟨⟨some a, ⟨inets, ⟨some inets, hy, rfl⟩, hx⟩, rfl⟩, hne⟩

example : getAllIpaddrs [some [some "127.0.0.1"], none, some [some "10.0.0.2", none, some "10.0.0.3"]] []
    = ["10.0.0.2", "10.0.0.3"] := by decide +kernel

/-! ## C51: transaction identifiers -/

/-- The calls on a manager. -/
inductive MgrOp where
  | announce (net : Net) (m : Msg)
  | send (net : Net) (m : Msg) (addr : Option Addr)
  | start (net : Net) (caller : Option Nat) (ifaddrs : List String)
  | stop (caller : Option Nat)
  | observe (n : Nat)

/-- The manager after a call. -/
def MgrOp.run (g : Manager) : MgrOp → Manager
  | .announce net m => (g.announce net m).1
  | .send net m a => (g.send net m a).1
  | .start net c as => (g.start net c as).1
  | .stop c => (g.stop c).1
  | .observe n => g.addObserver n

/-- The message of a call, before and after it. -/
def MgrOp.message (g : Manager) : MgrOp → Option (Msg × Msg)
  | .announce net m => some (m, (g.announce net m).2.1)
  | .send net m a => some (m, (g.send net m a).2.1)
  | _ => none

/-- The TIDs of the messages that had none (0) before being sent or announced, in order. -/
def autoTids : Manager → List MgrOp → List Int
  | _, [] => []
  | g, op :: ops =>
    match op.message g with
    | none => autoTids (op.run g) ops
    | some (m, m') => if m.tid = 0 then m'.tid :: autoTids (op.run g) ops else autoTids (op.run g) ops

theorem sendLoop_tid (net : Net) (a : Option Addr) (g : Manager) (m : Msg) (ss : List Server) :
    (Manager.sendLoop net a ss g m).1.tid = g.tid ∧ (Manager.sendLoop net a ss g m).1.servers = g.servers ∧
    ∃ t, (Manager.sendLoop net a ss g m).2.1 = { m with toAddr := t } := by
  cases a with
  | none => rw [Manager.sendLoop_none]; exact ⟨rfl, rfl, m.toAddr, rfl⟩
  | some a =>
    by_cases h : Encodable m
    · obtain ⟨t, -, -, -, he⟩ := Manager.sendLoop_eq net a ss g m h
      rw [he]; exact ⟨rfl, rfl, t, rfl⟩
    · by_cases hw : working ss = []
      · rw [(Manager.sendLoop_bad net a ss g m h).1 hw]; exact ⟨rfl, rfl, m.toAddr, rfl⟩
      · rw [(Manager.sendLoop_bad net a ss g m h).2 hw]; exact ⟨rfl, rfl, some a, rfl⟩

theorem announceLoop_tid (net : Net) (g : Manager) (m : Msg) (ss : List Server) :
    (Manager.announceLoop net ss g m).1.tid = g.tid ∧ (Manager.announceLoop net ss g m).1.servers = g.servers ∧
    ∃ t, (Manager.announceLoop net ss g m).2.1 = { m with toAddr := t } := by
  by_cases h : Encodable m
  · obtain ⟨t, -, -, he⟩ := Manager.announceLoop_eq net ss g m h
    rw [he]; exact ⟨rfl, rfl, t, rfl⟩
  · by_cases hw : working ss = []
    · rw [(Manager.announceLoop_bad net ss g m h).1 hw]; exact ⟨rfl, rfl, m.toAddr, rfl⟩
    · rw [(Manager.announceLoop_bad net ss g m h).2 hw]; exact ⟨rfl, rfl, _, rfl⟩

theorem stop_tid (g : Manager) (c : Option Nat) : (g.stop c).1.tid = g.tid := by
  unfold Manager.stop
  rcases Manager.stopLoop c g.servers 0 with ⟨ss, e | e⟩ <;> rfl

theorem start_tid (net : Net) (g : Manager) (c : Option Nat) (as : List String) :
    (g.start net c as).1.tid = g.tid := by
  unfold Manager.start
  have h := stop_tid g c
  generalize g.stop c = r at h
  rcases r with ⟨g', e | (_ | _)⟩
  · exact h
  · exact h
  · simp only [] at h ⊢
    generalize (if as.length ≤ 0 then getAllIpaddrs net.interfaces [] else as) = as'
    obtain ⟨k, -, ht, -⟩ := Manager.startLoop_prefix net as' g'
    generalize Manager.startLoop net as' g' = q at ht
    rcases q with ⟨g'', e | e⟩
    · simp only [] at ht ⊢
      split <;> exact ht.trans h
    · exact ht.trans h

/-- The effect of a call on the counter, and on the TID of its message. -/
theorem op_tid (g : Manager) (op : MgrOp) (hr : 0 ≤ g.tid ∧ g.tid ≤ 65535) :
    match op.message g with
    | none => (op.run g).tid = g.tid
    | some (m, m') => if m.tid = 0 then (op.run g).tid = g.tid % 65535 + 1 ∧ m'.tid = g.tid % 65535 + 1
        else (op.run g).tid = g.tid ∧ m'.tid = m.tid := by
  cases op with
  | announce net m =>
    simp only [MgrOp.message, MgrOp.run, Manager.announce]
    by_cases hz : m.tid = 0
    · rw [if_pos hz, Manager.assignTid_zero g m hz hr]
      simp only []
      obtain ⟨h1, -, t, h2⟩ := announceLoop_tid net { g with tid := g.tid % 65535 + 1 } { m with tid := g.tid % 65535 + 1 } g.servers
      rw [h2]
      exact ⟨h1, rfl⟩
    · rw [if_neg hz, Manager.assignTid_nonzero g m hz]
      simp only []
      obtain ⟨h1, -, t, h2⟩ := announceLoop_tid net g m g.servers
      rw [h2]
      exact ⟨h1, rfl⟩
  | send net m a =>
    simp only [MgrOp.message, MgrOp.run, Manager.send]
    by_cases hz : m.tid = 0
    · rw [if_pos hz, Manager.assignTid_zero g m hz hr]
      simp only []
      obtain ⟨h1, -, t, h2⟩ := sendLoop_tid net a { g with tid := g.tid % 65535 + 1 } { m with tid := g.tid % 65535 + 1 } g.servers
      rw [h2]
      exact ⟨h1, rfl⟩
    · rw [if_neg hz, Manager.assignTid_nonzero g m hz]
      simp only []
      obtain ⟨h1, -, t, h2⟩ := sendLoop_tid net a g m g.servers
      rw [h2]
      exact ⟨h1, rfl⟩
  | start net c as => exact start_tid net g c as
  | stop c => exact stop_tid g c
  | observe n => rfl

theorem autoTids_from (ops : List MgrOp) : ∀ (g : Manager) (k : Nat), g.tid = (if k = 0 then 0 else ((k - 1 : Nat) : Int) % 65535 + 1) →
    ∀ i t, (autoTids g ops)[i]? = some t → t = ((k + i : Nat) : Int) % 65535 + 1 := by
  induction ops with
  | nil => intro g k _ i t h; simp [autoTids] at h
  | cons op ops ih =>
    intro g k hk i t h
    have hr : 0 ≤ g.tid ∧ g.tid ≤ 65535 := by
      rw [hk]; split <;> omega
    have ho := op_tid g op hr
    have hnext : g.tid % 65535 + 1 = (k : Int) % 65535 + 1 := by
      rw [hk]; split
      · next h0 => subst h0; rfl
      · omega
    unfold autoTids at h
    rcases hm : op.message g with _ | ⟨m, m'⟩
    · rw [hm] at h ho
      simp only [] at h ho
      exact ih _ k (ho.trans hk) i t h
    · rw [hm] at h ho
      simp only [] at h ho
      by_cases hz : m.tid = 0
      · rw [if_pos hz] at h ho
        cases i with
        | zero =>
          simp only [List.getElem?_cons_zero, Option.some.injEq] at h
          rw [← h, ho.2, hnext]; rfl
        | succ i =>
          simp only [List.getElem?_cons_succ] at h
          have := ih (op.run g) (k + 1) (by rw [ho.1, hnext]; rw [if_neg (by omega)]; rfl) i t h
          rw [this]
          congr 2
          omega
      · rw [if_neg hz] at h ho
        exact ih _ k (ho.1.trans hk) i t h

/-- The k-th (from 0) automatic TID is `k mod 65535 + 1`, whatever else is called in between, whatever
the network does, and whether or not the sends succeed. -/
theorem C51_kth_tid (ops : List MgrOp) (k : Nat) (t : Int) (h : (autoTids {} ops)[k]? = some t) :
    t = (k : Int) % 65535 + 1 := by
  have := autoTids_from ops {} 0 rfl k t h
  rwa [Nat.zero_add] at this

theorem C51_range (ops : List MgrOp) (t : Int) (h : t ∈ autoTids {} ops) : 1 ≤ t ∧ t ≤ 65535 := by
  obtain ⟨k, hk⟩ := List.mem_iff_getElem?.mp h
  have := C51_kth_tid ops k t hk
  omega

/-- Any 65535 consecutive automatic TIDs are pairwise different. -/
theorem C51_distinct (ops : List MgrOp) (i j : Nat) (t u : Int) (hi : (autoTids {} ops)[i]? = some t)
    (hj : (autoTids {} ops)[j]? = some u) (hlt : i < j) (hw : j < i + 65535) : t ≠ u := by
  rw [C51_kth_tid ops i t hi, C51_kth_tid ops j u hj]
  omega

/-- Every message without a TID gets one, even if the call then raises or fails. -/
theorem C51_every_message (ops : List MgrOp) : ∀ g, (autoTids g ops).length =
    (ops.filter fun op => match op with
      | .announce _ m => decide (m.tid = 0)
      | .send _ m _ => decide (m.tid = 0)
      | _ => false).length := by
  induction ops with
  | nil => intro g; rfl
  | cons op ops ih =>
    intro g
    unfold autoTids
    cases op with
    | announce net m =>
      simp only [MgrOp.message, List.filter_cons]
      by_cases h : m.tid = 0 <;> simp [h, ih]
    | send net m a =>
      simp only [MgrOp.message, List.filter_cons]
      by_cases h : m.tid = 0 <;> simp [h, ih]
    | start net c as => simp only [MgrOp.message, List.filter_cons]; simp [ih]
    | stop c => simp only [MgrOp.message, List.filter_cons]; simp [ih]
    | observe n => simp only [MgrOp.message, List.filter_cons]; simp [ih]

/-- A message that has a TID keeps it. -/
theorem C51_kept (g : Manager) (net : Net) (m : Msg) (a : Option Addr) (h : m.tid ≠ 0) :
    (g.announce net m).2.1.tid = m.tid ∧ (g.send net m a).2.1.tid = m.tid ∧
    (g.announce net m).1.tid = g.tid ∧ (g.send net m a).1.tid = g.tid := by
  unfold Manager.announce Manager.send
  rw [Manager.assignTid_nonzero g m h]
  simp only []
  obtain ⟨h1, -, t, h2⟩ := announceLoop_tid net g m g.servers
  obtain ⟨h3, -, t', h4⟩ := sendLoop_tid net a g m g.servers
  rw [h2, h4]
  exact ⟨rfl, rfl, h1, h3⟩

/-- A network where everything works and one interface has address `10.0.0.2`. -/
def okNet : Net :=
  { sendto := fun _ _ _ b => .ok b.length, bind := fun _ _ _ => none, thread := fun _ => none
    interfaces := [some [some "127.0.0.1"], some [some "10.0.0.2"]] }

example : autoTids {} [.start okNet none [], .announce okNet { esv := 0x62 }, .send okNet { esv := 0x62, tid := 77 } none, .stop none,
    .send okNet { esv := 0x62 } (some ("10.0.0.9", 3610)), .send okNet { esv := 1000 } none] = [1, 2, 3] := by decide +kernel

theorem assign_shape (g : Manager) (m : Msg) : ∃ t t', g.assignTid m = ({ g with tid := t' }, { m with tid := t }) := by
  unfold Manager.assignTid Manager.nextTid
  split
  · simp only []
    split <;> exact ⟨_, _, rfl⟩
  · exact ⟨m.tid, g.tid, rfl⟩

/-! ## C53: life cycle -/

/-- `stop()` called from outside the receiving threads leaves no server, whatever the state. -/
theorem C53_stop (g : Manager) : g.stop none = ({ g with servers := [] }, .ok true) :=
  Manager.stop_outside g none (fun _ _ _ _ => by simp)

/-- The same when called by a thread whose server is already closed. -/
theorem C53_stop_outside (g : Manager) (caller : Option Nat)
    (h : ∀ j s, g.servers[j]? = some s → s.open_ = true → caller ≠ some j) :
    g.stop caller = ({ g with servers := [] }, .ok true) := Manager.stop_outside g caller h

/-- The addresses `start` uses. -/
def addressesFor (net : Net) (as : List String) : List String := if as = [] then addresses net.interfaces else as

theorem start_eq (net : Net) (g : Manager) (as : List String) :
    g.start net none as = match Manager.startLoop net (addressesFor net as) { g with servers := [] } with
      | (g, some e) => (g, .error e)
      | (g, none) => if g.servers.length ≤ 0 then (g, .ok false) else (g, .ok true) := by
  unfold Manager.start
  rw [C53_stop]
  simp only []
  have : (if as.length ≤ 0 then getAllIpaddrs net.interfaces [] else as) = addressesFor net as := by
    unfold addressesFor
    rw [C57_all_addresses]
    cases as <;> simp
  rw [this]
  rfl

/-- `start()` returning True leaves exactly one unicast and one multicast server per address, all
running, however many servers there were; there is at least one address. -/
theorem C53_start_true (net : Net) (g : Manager) (as : List String) (h : (g.start net none as).2 = .ok true) :
    (g.start net none as).1.servers = serversFor (addressesFor net as) ∧ addressesFor net as ≠ [] := by
  rw [start_eq] at h ⊢
  have hs := Manager.startLoop_ok net (addressesFor net as) { g with servers := [] }
  generalize hq : Manager.startLoop net (addressesFor net as) { g with servers := [] } = q at h hs
  rcases q with ⟨g', e | e⟩
  · have hs := hs rfl
    simp only [] at hs h ⊢
    split at h
    · cases h
    · next hl =>
      rw [if_neg hl]
      have : g'.servers = serversFor (addressesFor net as) := by rw [hs]; simp
      refine ⟨this, fun h0 => hl ?_⟩
      rw [this, h0]; simp [serversFor]
  · cases h

/-- `start()` returning False leaves no server; it happens iff there is no address to use. -/
theorem C53_start_false (net : Net) (g : Manager) (as : List String) :
    (g.start net none as).2 = .ok false ↔ addressesFor net as = [] := by
  rw [start_eq]
  constructor
  · intro h
    have hs := Manager.startLoop_ok net (addressesFor net as) { g with servers := [] }
    generalize hq : Manager.startLoop net (addressesFor net as) { g with servers := [] } = q at h hs
    rcases q with ⟨g', e | e⟩
    · have hs := hs rfl
      simp only [] at hs h
      split at h
      · next hl =>
        rw [hs] at hl
        cases hc : addressesFor net as with
        | nil => rfl
        | cons a as' => rw [hc] at hl; simp [serversFor] at hl
      · cases h
    · cases h
  · intro h
    rw [h]
    rfl

theorem C53_start_false_servers (net : Net) (g : Manager) (as : List String) (h : (g.start net none as).2 = .ok false) :
    (g.start net none as).1.servers = [] := by
  have h0 := (C53_start_false net g as).mp h
  rw [start_eq, h0]
  rfl

/-- If binding and starting threads works, `start` returns True when there is an address. -/
theorem C53_start_works (net : Net) (g : Manager) (as : List String) (hb : ∀ n k a, net.bind n k a = none)
    (ht : ∀ n, net.thread n = none) (ha : addressesFor net as ≠ []) : (g.start net none as).2 = .ok true := by
  have h : ∀ l g, (Manager.startLoop net l g).2 = none := by
    intro l
    induction l with
    | nil => intro g; rfl
    | cons a l ih =>
      intro g
      unfold Manager.startLoop Manager.launch
      simp only [hb, ht]
      exact ih _
  rcases hr : g.start net none as with ⟨g', e | (_ | _)⟩
  · exfalso
    rw [start_eq] at hr
    have := h (addressesFor net as) { g with servers := [] }
    generalize Manager.startLoop net (addressesFor net as) { g with servers := [] } = q at hr this
    rcases q with ⟨q1, q2⟩
    subst this
    simp only [] at hr
    split at hr <;> injection hr with _ hr <;> cases hr
  · exact absurd ((C53_start_false net g as).mp (by rw [hr])) ha
  · rfl

/-- Starting twice is the same as starting once, as far as the servers are concerned. -/
theorem C53_no_accumulation (net net' : Net) (g : Manager) (as : List String) (hi : net.interfaces = net'.interfaces)
    (h1 : (g.start net none as).2 = .ok true) (h2 : ((g.start net none as).1.start net' none as).2 = .ok true) :
    ((g.start net none as).1.start net' none as).1.servers = (g.start net none as).1.servers := by
  rw [(C53_start_true _ _ _ h1).1, (C53_start_true _ _ _ h2).1]
  unfold addressesFor
  rw [hi]

/-- After `stop()` nothing is sent: `send_message` returns False. -/
theorem C53_stopped (net : Net) (g : Manager) (m : Msg) (a : Option Addr) :
    ((g.stop none).1.send net m a).2.2 = .ok false ∧ ((g.stop none).1.send net m a).1.log = g.log ∧
    ((g.stop none).1.announce net m).1.log = g.log := by
  rw [C53_stop]
  unfold Manager.send Manager.announce
  obtain ⟨t, t', h⟩ := assign_shape { g with servers := [] } m
  rw [h]
  exact ⟨rfl, rfl, rfl⟩

/-- Servers without their observers. -/
def core (ss : List Server) : List Server := ss.map fun s => { s with observers := [] }

theorem core_serversFor (as : List String) (k : Nat) : core ((serversFor as).take k) = (serversFor as).take k := by
  have : core (serversFor as) = serversFor as := by
    unfold core serversFor
    rw [List.map_flatMap]
    rfl
  unfold core at this ⊢
  rw [List.map_take, this]

/-- Whatever is called (from outside the receiving threads), the servers are those of some address list,
or a prefix of them (if a `start` raised), apart from their observers. -/
theorem C53_history (ops : List MgrOp) : ∀ g : Manager,
    (∀ op ∈ ops, match op with | .start _ c _ => c = none | .stop c => c = none | _ => True) →
    (∃ as k, core g.servers = (serversFor as).take k) →
    ∃ as k, core (ops.foldl MgrOp.run g).servers = (serversFor as).take k := by
  induction ops with
  | nil => intro g _ h; exact h
  | cons op ops ih =>
    intro g hc hg
    rw [List.foldl_cons]
    refine ih _ (fun o ho => hc o (List.mem_cons_of_mem _ ho)) ?_
    have hop := hc op List.mem_cons_self
    cases op with
    | announce net m =>
      have : (MgrOp.run g (.announce net m)).servers = g.servers := by
        simp only [MgrOp.run, Manager.announce]
        rw [(announceLoop_tid net _ _ _).2.1]
        unfold Manager.assignTid Manager.nextTid
        split
        · simp only []; split <;> rfl
        · rfl
      rw [this]; exact hg
    | send net m a =>
      have : (MgrOp.run g (.send net m a)).servers = g.servers := by
        simp only [MgrOp.run, Manager.send]
        rw [(sendLoop_tid net _ _ _ _).2.1]
        unfold Manager.assignTid Manager.nextTid
        split
        · simp only []; split <;> rfl
        · rfl
      rw [this]; exact hg
    | start net c as =>
      simp only [] at hop
      subst hop
      simp only [MgrOp.run]
      rw [start_eq]
      obtain ⟨k, hk, -, -⟩ := Manager.startLoop_prefix net (addressesFor net as) { g with servers := [] }
      refine ⟨addressesFor net as, k, ?_⟩
      generalize Manager.startLoop net (addressesFor net as) { g with servers := [] } = q at hk
      rw [List.nil_append] at hk
      rw [← core_serversFor, ← hk]
      rcases q with ⟨g', e | e⟩
      · simp only []; split <;> rfl
      · rfl
    | stop c =>
      simp only [] at hop
      subst hop
      simp only [MgrOp.run]
      rw [C53_stop]
      exact ⟨[], 0, rfl⟩
    | observe n =>
      obtain ⟨as, k, h⟩ := hg
      refine ⟨as, k, ?_⟩
      rw [← h]
      simp only [MgrOp.run, Manager.addObserver, core, List.map_map]
      congr 1
      funext s
      simp only [Function.comp]
      split <;> rfl

example : (({} : Manager).start okNet none []).2 = .ok true ∧
    (({} : Manager).start okNet none []).1.servers = [⟨.unicast, "10.0.0.2", true, []⟩, ⟨.multicast, "10.0.0.2", true, []⟩] := by
  decide +kernel

/-! ## C71: a start() that fails half-way -/

/-- Binding the multicast socket fails. -/
def badMulticast : Net := { okNet with bind := fun _ k _ => match k with | .unicast => none | .multicast => some .osError }

/-- A `start()` that fails leaves a server running. -/
theorem C71_start_cleans_up_false : ∃ (net : Net) (g : Manager), (g.start net none []).2 = .error .osError ∧
    ∃ s ∈ (g.start net none []).1.servers, s.open_ = true :=
  ⟨badMulticast, {}, by decide +kernel, ⟨.unicast, "10.0.0.2", true, []⟩, by decide +kernel, rfl⟩

/-- What is left of a `start()` that raises: the servers launched before. `stop()` removes them. -/
theorem C71_start_cleans_up_partial (net : Net) (g : Manager) (as : List String) (e : Exc)
    (h : (g.start net none as).2 = .error e) :
    (∃ k, k < (serversFor (addressesFor net as)).length ∧
      (g.start net none as).1.servers = (serversFor (addressesFor net as)).take k) ∧
    ((g.start net none as).1.stop none).1.servers = [] := by
  refine ⟨?_, by rw [C53_stop]⟩
  have hk : ∀ (as : List String) (g : Manager), (Manager.startLoop net as g).2 = some e →
      ∃ k, k < (serversFor as).length ∧ (Manager.startLoop net as g).1.servers = g.servers ++ (serversFor as).take k := by
    intro as
    induction as with
    | nil => intro g h; cases h
    | cons a as ih =>
      intro g h
      have hlen : (serversFor (a :: as)).length = 2 + (serversFor as).length := by
        simp [serversFor]; omega
      unfold Manager.startLoop Manager.launch at h ⊢
      cases h1 : net.bind g.calls .unicast a with
      | some e => exact ⟨0, by omega, by simp⟩
      | none =>
        rw [h1] at h
        simp only [] at h ⊢
        cases h2 : net.thread (g.calls + 1) with
        | some e => exact ⟨0, by omega, by simp⟩
        | none =>
          rw [h2] at h
          simp only [] at h ⊢
          cases h3 : net.bind (g.calls + 2) .multicast a with
          | some e => exact ⟨1, by omega, by simp [serversFor]⟩
          | none =>
            rw [h3] at h
            simp only [] at h ⊢
            cases h4 : net.thread (g.calls + 2 + 1) with
            | some e => exact ⟨1, by omega, by simp [serversFor]⟩
            | none =>
              rw [h4] at h
              simp only [] at h ⊢
              obtain ⟨k, hk, he⟩ := ih _ h
              refine ⟨k + 2, by omega, ?_⟩
              rw [he]
              simp [serversFor]
  rw [start_eq] at h ⊢
  have hk := hk (addressesFor net as) { g with servers := [] }
  generalize Manager.startLoop net (addressesFor net as) { g with servers := [] } = q at h hk
  rcases q with ⟨g', e' | e'⟩
  · simp only [] at h
    split at h <;> cases h
  · simp only [Except.error.injEq] at h
    subst h
    simpa using hk rfl

/-! ## C72: stop() from a callback -/

/-- `stop()` called by a receiving thread (that is, in a callback) raises `RuntimeError`, the servers
stay in the list, its own and the earlier ones closed, the later ones still running. -/
theorem C72_stop_in_callback_false (g : Manager) (i : Nat) (s : Server) (hs : g.servers[i]? = some s) (ho : s.open_ = true) :
    (g.stop (some i)).2 = .error .runtimeError ∧
    (g.stop (some i)).1.servers = (g.servers.take (i + 1)).map (fun s => { s with open_ := false }) ++ g.servers.drop (i + 1) := by
  have key : ∀ (ss : List Server) (i j : Nat) (s : Server), ss[i]? = some s → s.open_ = true →
      Manager.stopLoop (some (j + i)) ss j =
        ((ss.take (i + 1)).map (fun s => { s with open_ := false }) ++ ss.drop (i + 1), some .runtimeError) := by
    intro ss
    induction ss with
    | nil => intro i j s h; simp at h
    | cons x ss ih =>
      intro i j s h ho
      unfold Manager.stopLoop
      cases i with
      | zero =>
        simp only [List.getElem?_cons_zero, Option.some.injEq] at h
        subst h
        rw [if_neg (by simp [ho]), if_pos (by simp)]
        simp
      | succ i =>
        simp only [List.getElem?_cons_succ] at h
        have := ih i (j + 1) s h ho
        rw [show j + (i + 1) = j + 1 + i by omega, this]
        by_cases hx : x.open_ = false
        · rw [if_pos hx]
          have : x = { x with open_ := false } := by rw [← hx]
          simp [← this]
        · rw [if_neg hx, if_neg (by simp; omega)]
          simp
  have := key g.servers i 0 s hs ho
  rw [Nat.zero_add] at this
  unfold Manager.stop
  rw [this]
  exact ⟨rfl, rfl⟩

/-- A second `stop()` from outside finishes the job. -/
theorem C72_stop_in_callback_partial (g : Manager) (i : Nat) : ((g.stop (some i)).1.stop none).1.servers = [] := by
  rw [C53_stop]

example : ((({} : Manager).start okNet none []).1.stop (some 0)).2 = .error .runtimeError ∧
    ((({} : Manager).start okNet none []).1.stop (some 0)).1.servers = [⟨.unicast, "10.0.0.2", false, []⟩, ⟨.multicast, "10.0.0.2", true, []⟩] := by
  decide +kernel

/-! ## C54: sending -/

theorem sendAll_sound (net : Net) (f : Bool) (a : Addr) (b : Bytes) (ss : List Server) : ∀ k,
    (∀ x ∈ (Manager.sendAll net f a b ss k).1, x.1.dest = a ∧ x.1.bytes = b ∧ ∃ s ∈ ss, s.ifaddr = x.1.ifaddr) ∧
    (∃ j, (Manager.sendAll net f a b ss k).1.map (fun x => x.1.ifaddr) = (ss.map (·.ifaddr)).take j) ∧
    ((Manager.sendAll net f a b ss k).2.2 = .ok false → (Manager.sendAll net f a b ss k).1.map (fun x => x.1.ifaddr) = ss.map (·.ifaddr)) := by
  induction ss with
  | nil => intro k; simp [Manager.sendAll]
  | cons s ss ih =>
    intro k
    unfold Manager.sendAll
    cases hs : net.sendto k s.ifaddr a b with
    | error e => exact ⟨fun x hx => by simp at hx, ⟨0, by simp⟩, fun h => by cases h⟩
    | ok n =>
      simp only []
      by_cases hc : f = true ∧ 0 < n
      · rw [if_pos hc]
        refine ⟨fun x hx => ?_, ⟨1, by simp⟩, fun h => by cases h⟩
        simp only [List.mem_singleton] at hx
        subst hx
        exact ⟨rfl, rfl, s, List.mem_cons_self, rfl⟩
      · rw [if_neg hc]
        obtain ⟨h1, ⟨j, h2⟩, h3⟩ := ih (k + 1)
        refine ⟨fun x hx => ?_, ⟨j + 1, ?_⟩, fun h => ?_⟩
        · rcases List.mem_cons.mp hx with rfl | hx
          · exact ⟨rfl, rfl, s, List.mem_cons_self, rfl⟩
          · obtain ⟨p, q, t, ht, hte⟩ := h1 x hx
            exact ⟨p, q, t, List.mem_cons_of_mem _ ht, hte⟩
        · simp [h2]
        · simp [h3 h]

theorem sendAll_first (net : Net) (a : Addr) (b : Bytes) (ss : List Server) : ∀ k,
    ((Manager.sendAll net true a b ss k).2.2 = .ok true ↔ ∃ x ∈ (Manager.sendAll net true a b ss k).1, 0 < x.2) ∧
    ((Manager.sendAll net true a b ss k).1.filter (fun x => decide (0 < x.2))).length ≤ 1 := by
  induction ss with
  | nil => intro k; simp [Manager.sendAll]
  | cons s ss ih =>
    intro k
    unfold Manager.sendAll
    cases hs : net.sendto k s.ifaddr a b with
    | error e => simp
    | ok n =>
      simp only []
      by_cases hn : 0 < n
      · rw [if_pos (by simp [hn])]
        simp [hn]
      · rw [if_neg (by simp [hn])]
        obtain ⟨h1, h2⟩ := ih (k + 1)
        constructor
        · rw [h1]
          simp [hn]
        · rw [List.filter_cons_of_neg (by simp [hn])]
          exact h2

theorem sendAll_all (net : Net) (a : Addr) (b : Bytes) (ss : List Server) : ∀ k,
    (Manager.sendAll net false a b ss k).2.2 ≠ .ok true := by
  induction ss with
  | nil => intro k; simp [Manager.sendAll]
  | cons s ss ih =>
    intro k
    unfold Manager.sendAll
    cases hs : net.sendto k s.ifaddr a b with
    | error e => simp
    | ok n =>
      simp only []
      rw [if_neg (by simp)]
      exact ih (k + 1)

theorem mem_working {ss : List Server} {s : Server} (h : s ∈ working ss) : s ∈ ss ∧ s.kind = .unicast ∧ s.open_ = true := by
  unfold working at h
  simpa using h

/-- `send_message(m, (host, port))` for a message that fits the wire format. All it hands to the
operating system is the encoding of the message, for that destination, through unicast servers with an open
socket, in the order of the servers; at most one of these sends is successful; the result is True iff there is one;
the result is False only if all of them have been tried. Of the message only TID and `to_addr` change; the servers do not. -/
theorem C54_send (net : Net) (g : Manager) (m : Msg) (a : Addr) (hm : Encodable m) :
    ∃ new, (g.send net m (some a)).1.log = g.log ++ new ∧
      (∀ x ∈ new, x.1.dest = a ∧ x.1.bytes = encode (g.send net m (some a)).2.1 ∧
        ∃ s ∈ g.servers, s.kind = .unicast ∧ s.open_ = true ∧ s.ifaddr = x.1.ifaddr) ∧
      (∃ j, new.map (fun x => x.1.ifaddr) = ((working g.servers).map (·.ifaddr)).take j) ∧
      (new.filter (fun x => decide (0 < x.2))).length ≤ 1 ∧
      ((g.send net m (some a)).2.2 = .ok true ↔ ∃ x ∈ new, 0 < x.2) ∧
      ((g.send net m (some a)).2.2 = .ok false → new.map (fun x => x.1.ifaddr) = (working g.servers).map (·.ifaddr)) ∧
      (g.send net m (some a)).1.servers = g.servers ∧
      (∃ t ad, (g.send net m (some a)).2.1 = { m with tid := t, toAddr := ad }) := by
  unfold Manager.send
  obtain ⟨t, t', ha⟩ := assign_shape g m
  rw [ha]
  simp only []
  obtain ⟨u, -, -, -, he⟩ := Manager.sendLoop_eq net a g.servers { g with tid := t' } { m with tid := t } hm
  rw [he]
  simp only []
  obtain ⟨h1, h2, h3⟩ := sendAll_sound net true a (encode { m with tid := t }) (working g.servers) g.calls
  obtain ⟨h4, h5⟩ := sendAll_first net a (encode { m with tid := t }) (working g.servers) g.calls
  refine ⟨_, rfl, fun x hx => ?_, h2, h5, h4, h3, trivial, t, u, rfl⟩
  obtain ⟨p, q, s, hs, hse⟩ := h1 x hx
  obtain ⟨w1, w2, w3⟩ := mem_working hs
  exact ⟨p, q, s, w1, w2, w3, hse⟩

/-- A message that does not fit is never sent: `ValueError` if there is a server that could send,
else False. -/
theorem C54_send_unfit (net : Net) (g : Manager) (m : Msg) (a : Addr) (hm : ¬ Encodable m) :
    (g.send net m (some a)).1.log = g.log ∧
    (g.send net m (some a)).2.2 = if working g.servers = [] then .ok false else .error .valueError := by
  unfold Manager.send
  obtain ⟨t, t', ha⟩ := assign_shape g m
  rw [ha]
  simp only []
  obtain ⟨h1, h2⟩ := Manager.sendLoop_bad net a g.servers { g with tid := t' } { m with tid := t } hm
  by_cases hw : working g.servers = []
  · rw [h1 hw, if_pos hw]; exact ⟨rfl, rfl⟩
  · rw [h2 hw, if_neg hw]; exact ⟨rfl, rfl⟩

/-- A destination that is not a pair: False, nothing sent. -/
theorem C54_send_nowhere (net : Net) (g : Manager) (m : Msg) :
    (g.send net m none).1.log = g.log ∧ (g.send net m none).2.2 = .ok false := by
  unfold Manager.send
  obtain ⟨t, t', ha⟩ := assign_shape g m
  rw [ha]
  simp only []
  rw [Manager.sendLoop_none]
  exact ⟨rfl, rfl⟩

/-- `announce_message(m)` for a message that fits: its encoding goes to 224.0.23.0:3610 through the
unicast servers with an open socket, in order, and through all of them unless one raises. -/
theorem C54_announce (net : Net) (g : Manager) (m : Msg) (hm : Encodable m) :
    ∃ new, (g.announce net m).1.log = g.log ++ new ∧
      (∀ x ∈ new, x.1.dest = ("224.0.23.0", 3610) ∧ x.1.bytes = encode (g.announce net m).2.1) ∧
      (∃ j, new.map (fun x => x.1.ifaddr) = ((working g.servers).map (·.ifaddr)).take j) ∧
      ((g.announce net m).2.2 = .ok true → new.map (fun x => x.1.ifaddr) = (working g.servers).map (·.ifaddr)) ∧
      (g.announce net m).2.2 ≠ .ok false ∧
      (g.announce net m).1.servers = g.servers ∧
      (∃ t ad, (g.announce net m).2.1 = { m with tid := t, toAddr := ad }) := by
  unfold Manager.announce
  obtain ⟨t, t', ha⟩ := assign_shape g m
  rw [ha]
  simp only []
  obtain ⟨u, -, -, he⟩ := Manager.announceLoop_eq net g.servers { g with tid := t' } { m with tid := t } hm
  rw [he]
  simp only []
  obtain ⟨h1, h2, h3⟩ := sendAll_sound net false (MULTICAST_ADDRESS, SERVER_PORT) (encode { m with tid := t }) (working g.servers) g.calls
  have h4 := sendAll_all net (MULTICAST_ADDRESS, SERVER_PORT) (encode { m with tid := t }) (working g.servers) g.calls
  refine ⟨_, rfl, fun x hx => ?_, h2, fun h => h3 ?_, ?_, trivial, t, u, rfl⟩
  · obtain ⟨p, q, -⟩ := h1 x hx
    exact ⟨p, q⟩
  · generalize (Manager.sendAll net false (MULTICAST_ADDRESS, SERVER_PORT) (encode { m with tid := t }) (working g.servers) g.calls).2.2 = r at h h4 ⊢
    rcases r with e | (_ | _)
    · cases h
    · rfl
    · exact absurd rfl h4
  · generalize (Manager.sendAll net false (MULTICAST_ADDRESS, SERVER_PORT) (encode { m with tid := t }) (working g.servers) g.calls).2.2 = r
    rcases r with e | b <;> simp [Manager.mapTrue]

theorem C54_announce_unfit (net : Net) (g : Manager) (m : Msg) (hm : ¬ Encodable m) :
    (g.announce net m).1.log = g.log ∧
    (g.announce net m).2.2 = if working g.servers = [] then .ok true else .error .valueError := by
  unfold Manager.announce
  obtain ⟨t, t', ha⟩ := assign_shape g m
  rw [ha]
  simp only []
  obtain ⟨h1, h2⟩ := Manager.announceLoop_bad net g.servers { g with tid := t' } { m with tid := t } hm
  by_cases hw : working g.servers = []
  · rw [h1 hw, if_pos hw]; exact ⟨rfl, rfl⟩
  · rw [h2 hw, if_neg hw]; exact ⟨rfl, rfl⟩

/-- When the operating system sends everything, one datagram goes out per `send_message` and one per
interface and `announce_message`. -/
theorem C54_works (net : Net) (g : Manager) (m : Msg) (a : Addr) (hm : Encodable m) (hw : working g.servers ≠ [])
    (hs : ∀ n i d b, net.sendto n i d b = .ok (b.length : Int)) :
    (∃ s ∈ g.servers, (g.send net m (some a)).1.log = g.log ++ [(⟨s.ifaddr, a, encode (g.send net m (some a)).2.1⟩, ((encode (g.send net m (some a)).2.1).length : Int))]) ∧
    (g.send net m (some a)).2.2 = .ok true ∧
    (g.announce net m).1.log = g.log ++ (working g.servers).map (fun s =>
      (⟨s.ifaddr, ("224.0.23.0", 3610), encode (g.announce net m).2.1⟩, ((encode (g.announce net m).2.1).length : Int))) ∧
    (g.announce net m).2.2 = .ok true := by
  have hpos : ∀ t, 0 < ((encode { m with tid := t }).length : Int) := by
    intro t
    simp [encode, encHeader]
    omega
  obtain ⟨t, t', ha⟩ := assign_shape g m
  refine ⟨?_, ?_, ?_, ?_⟩
  · unfold Manager.send
    rw [ha]
    simp only []
    obtain ⟨u, -, -, -, he⟩ := Manager.sendLoop_eq net a g.servers { g with tid := t' } { m with tid := t } hm
    rw [he]
    cases hc : working g.servers with
    | nil => exact absurd hc hw
    | cons s ss =>
      refine ⟨s, (mem_working (hc ▸ List.mem_cons_self)).1, ?_⟩
      unfold Manager.sendAll
      rw [hs]
      simp only []
      rw [if_pos ⟨trivial, hpos t⟩]
      rfl
  · unfold Manager.send
    rw [ha]
    simp only []
    obtain ⟨u, -, -, -, he⟩ := Manager.sendLoop_eq net a g.servers { g with tid := t' } { m with tid := t } hm
    rw [he]
    cases hc : working g.servers with
    | nil => exact absurd hc hw
    | cons s ss =>
      unfold Manager.sendAll
      rw [hs]
      simp only []
      rw [if_pos ⟨trivial, hpos t⟩]
  · unfold Manager.announce
    rw [ha]
    simp only []
    obtain ⟨u, -, -, he⟩ := Manager.announceLoop_eq net g.servers { g with tid := t' } { m with tid := t } hm
    rw [he]
    simp only []
    congr 1
    have key : ∀ b ss k, (Manager.sendAll net false (MULTICAST_ADDRESS, SERVER_PORT) b ss k).1 = ss.map fun s => (⟨s.ifaddr, (MULTICAST_ADDRESS, SERVER_PORT), b⟩, (b.length : Int)) := by
      intro b ss
      induction ss with
      | nil => intro k; rfl
      | cons s ss ih =>
        intro k
        unfold Manager.sendAll
        rw [hs]
        simp only []
        rw [if_neg (by simp)]
        simp only [ih (k + 1), List.map_cons]
    exact key _ _ _
  · unfold Manager.announce
    rw [ha]
    simp only []
    obtain ⟨u, -, -, he⟩ := Manager.announceLoop_eq net g.servers { g with tid := t' } { m with tid := t } hm
    rw [he]
    simp only []
    have key : ∀ b ss k, (Manager.sendAll net false (MULTICAST_ADDRESS, SERVER_PORT) b ss k).2.2 = .ok false := by
      intro b ss
      induction ss with
      | nil => intro k; rfl
      | cons s ss ih =>
        intro k
        unfold Manager.sendAll
        rw [hs]
        simp only []
        rw [if_neg (by simp)]
        exact ih (k + 1)
    rw [key]
    rfl

/-- The hypotheses of `C54_works` are met after a start. -/
example : working (({} : Manager).start okNet none []).1.servers ≠ [] ∧ Encodable { esv := 0x62, deoj := 0x0EF001, props := [⟨0xD6, []⟩] } := by
  decide +kernel

/-! ## C73: announce_message's result -/

/-- `announce_message` returns True although nothing was sent. -/
theorem C73_announce_result_false : ∃ (net : Net) (g : Manager) (m : Msg), Encodable m ∧
    (g.announce net m).2.2 = .ok true ∧ (g.announce net m).1.log = g.log :=
  ⟨okNet, {}, { esv := 0x62 }, by decide +kernel, by decide +kernel, by decide +kernel⟩

/-- Also when every interface refuses: the results of the servers are not looked at. -/
theorem C73_announce_result_refused_false : ∃ (net : Net) (g : Manager) (m : Msg), Encodable m ∧ working g.servers ≠ [] ∧
    (g.announce net m).2.2 = .ok true ∧ ∀ x ∈ (g.announce net m).1.log, x.2 ≤ 0 :=
  ⟨{ okNet with sendto := fun _ _ _ _ => .ok 0 }, (({} : Manager).start okNet none []).1, { esv := 0x62 }, by decide +kernel, by decide +kernel,
    by decide +kernel, by decide +kernel⟩

/-- With at least one open unicast socket, True means that every one of them was tried. -/
theorem C73_announce_result_partial (net : Net) (g : Manager) (m : Msg) (hm : Encodable m) (hw : working g.servers ≠ [])
    (h : (g.announce net m).2.2 = .ok true) :
    ∃ new, new ≠ [] ∧ (g.announce net m).1.log = g.log ++ new ∧ new.map (fun x => x.1.ifaddr) = (working g.servers).map (·.ifaddr) := by
  obtain ⟨new, h1, -, -, h2, -⟩ := C54_announce net g m hm
  have := h2 h
  refine ⟨new, ?_, h1, this⟩
  intro h0
  subst h0
  cases hc : working g.servers with
  | nil => exact hw hc
  | cons s ss => rw [hc] at this; simp at this

/-! ## C74: one failing interface -/

/-- Two interfaces; sending through the first raises. -/
def halfNet : Net :=
  { okNet with interfaces := [some [some "10.0.0.2"], some [some "192.168.0.2"]]
               sendto := fun _ i _ b => if i = "10.0.0.2" then .error .osError else .ok b.length }

/-- An exception from one interface keeps the message from going out through the others. -/
theorem C74_other_interfaces_false : ∃ (net : Net) (g : Manager) (m : Msg) (a : Addr), Encodable m ∧
    (∃ s ∈ working g.servers, ∀ n d b, ∃ k, net.sendto n s.ifaddr d b = .ok k ∧ k = (b.length : Int)) ∧
    (g.send net m (some a)).2.2 = .error .osError ∧ (g.send net m (some a)).1.log = [] ∧
    (g.announce net m).2.2 = .error .osError ∧ (g.announce net m).1.log = [] := by
  refine ⟨halfNet, (({} : Manager).start halfNet none []).1, { esv := 0x62 }, ("192.168.0.9", 3610), by decide +kernel,
    ⟨⟨.unicast, "192.168.0.2", true, []⟩, by decide +kernel, fun n d b => ⟨_, ?_, rfl⟩⟩, by decide +kernel, by decide +kernel, by decide +kernel, by decide +kernel⟩
  unfold halfNet
  simp

/-- If no interface raises, a message that fits is sent as soon as one interface sends it: `send_message` tries
all of them before giving up. -/
theorem C74_other_interfaces_partial (net : Net) (g : Manager) (m : Msg) (a : Addr) (hm : Encodable m)
    (hn : ∀ n i d b e, net.sendto n i d b ≠ .error e) :
    ((g.send net m (some a)).2.2 = .ok true ∨
      ((g.send net m (some a)).2.2 = .ok false ∧ ∃ new, (g.send net m (some a)).1.log = g.log ++ new ∧
        new.map (fun x => x.1.ifaddr) = (working g.servers).map (·.ifaddr) ∧ ∀ x ∈ new, x.2 ≤ 0)) ∧
    (g.announce net m).2.2 = .ok true := by
  have key : ∀ f b ss k d e, (Manager.sendAll net f d b ss k).2.2 ≠ .error e := by
    intro f b ss
    induction ss with
    | nil => intro k d e h; cases h
    | cons s ss ih =>
      intro k d e h
      unfold Manager.sendAll at h
      cases hs : net.sendto k s.ifaddr d b with
      | error e' => exact hn _ _ _ _ _ hs
      | ok n =>
        rw [hs] at h
        simp only [] at h
        split at h
        · cases h
        · exact ih _ _ _ h
  constructor
  · obtain ⟨new, h1, -, -, -, h5, h6, -, -⟩ := C54_send net g m a hm
    rcases hr : (g.send net m (some a)).2.2 with e | (_ | _)
    · exfalso
      unfold Manager.send at hr
      obtain ⟨t, t', ha⟩ := assign_shape g m
      rw [ha] at hr
      simp only [] at hr
      obtain ⟨u, -, -, -, he⟩ := Manager.sendLoop_eq net a g.servers { g with tid := t' } { m with tid := t } hm
      rw [he] at hr
      exact key _ _ _ _ _ _ hr
    · refine Or.inr ⟨rfl, new, h1, h6 hr, fun x hx => ?_⟩
      by_contra hc
      have := h5.mpr ⟨x, hx, by omega⟩
      rw [hr] at this
      cases this
    · exact Or.inl rfl
  · unfold Manager.announce
    obtain ⟨t, t', ha⟩ := assign_shape g m
    rw [ha]
    simp only []
    obtain ⟨u, -, -, he⟩ := Manager.announceLoop_eq net g.servers { g with tid := t' } { m with tid := t } hm
    rw [he]
    simp only []
    have h := key false (encode { m with tid := t }) (working g.servers) g.calls (MULTICAST_ADDRESS, SERVER_PORT)
    generalize (Manager.sendAll net false (MULTICAST_ADDRESS, SERVER_PORT) (encode { m with tid := t }) (working g.servers) g.calls).2.2 = r at h
    rcases r with e | b
    · exact absurd rfl (h e)
    · rfl

/-! ## C55: the receiving loop -/

theorem recv_survives {σ : Type} (deliver : σ → Msg → σ × Option Exc) (ds : List (Bytes × Addr)) :
    ∀ st st', Survives deliver st ds st' → runLoop deliver st ds = (st', true) := by
  induction ds with
  | nil => intro st st' h; cases h; rfl
  | cons x ds ih =>
    intro st st' h
    cases h with
    | cons hd hv hs =>
      unfold runLoop
      rw [recvOne_ok deliver st _ _ _ hd, hv]
      exact ih _ _ hs

/-- The receiver is still there after some datagrams iff each of them meant a message whose delivery
did not raise; it is then in the state those deliveries lead to. -/
theorem C55_receiver_survives_partial {σ : Type} (deliver : σ → Msg → σ × Option Exc) (st st' : σ) (ds : List (Bytes × Addr)) :
    runLoop deliver st ds = (st', true) ↔ Survives deliver st ds st' := by
  refine ⟨?_, recv_survives deliver ds st st'⟩
  induction ds generalizing st with
  | nil => intro h; cases h; exact .nil _
  | cons x ds ih =>
    obtain ⟨d, a⟩ := x
    intro h
    by_cases hd : ∃ m, Decodes d a m
    · obtain ⟨m, hd⟩ := hd
      unfold runLoop at h
      rw [recvOne_ok deliver st d a m hd] at h
      rcases hv : deliver st m with ⟨s1, e | e⟩
      · rw [hv] at h
        exact .cons hd hv (ih _ h)
      · rw [hv] at h
        injection h with _ h
        cases h
    · unfold runLoop at h
      rw [recvOne_bad deliver st d a hd] at h
      injection h with _ h
      cases h

/-- Once it has ended nothing is processed any more. -/
theorem C55_dead_partial {σ : Type} (deliver : σ → Msg → σ × Option Exc) (st : σ) (ds more : List (Bytes × Addr))
    (h : (runLoop deliver st ds).2 = false) : runLoop deliver st (ds ++ more) = runLoop deliver st ds := by
  induction ds generalizing st with
  | nil => cases h
  | cons x ds ih =>
    obtain ⟨d, a⟩ := x
    rw [List.cons_append]
    unfold runLoop at h ⊢
    generalize recvOne deliver st d a = r at h ⊢
    rcases r with ⟨s, _ | _⟩
    · rfl
    · exact ih s h

/-- Until then every datagram is delivered once, in order: what an observer has seen is the list of the
messages they mean. -/
theorem C55_in_order_partial (ds : List (Bytes × Addr)) (ms : List Msg)
    (h : List.Forall₂ (fun x m => Decodes x.1 x.2 m) ds ms) (seen : List Msg) :
    runLoop (fun l m => (l ++ [m], none)) seen ds = (seen ++ ms, true) := by
  apply recv_survives
  induction h generalizing seen with
  | nil => rw [List.append_nil]; exact .nil _
  | @cons x m ds ms hd _ ih =>
    have := ih (seen ++ [m])
    rw [List.append_assoc] at this
    exact .cons hd rfl this

/-- A one-byte datagram ends the receiver, whatever the state, the observers and what comes later. -/
theorem C55_receiver_survives_false {σ : Type} (deliver : σ → Msg → σ × Option Exc) (st : σ) (a : Addr) (later : List (Bytes × Addr)) :
    runLoop deliver st (([0x10], a) :: later) = (st, false) := rfl

/-- So does a message that does not fit the receive buffer, though well formed. -/
theorem C55_long_message_false {σ : Type} (deliver : σ → Msg → σ × Option Exc) (st : σ) (a : Addr) (m : Msg) (later : List (Bytes × Addr))
    (hm : Encodable m) (hl : 1024 < (encode m).length) : runLoop deliver st ((encode m, a) :: later) = (st, false) := by
  unfold runLoop
  rw [recvOne_bad]
  rintro ⟨m', w, t, hw, how, hd, -⟩
  have h1 := C07_no_prefix m (encode m) (toBytes_ok m hm) 1024 hl {}
  rw [hd, parseBytes_encode {} w t hw] at h1
  rcases h1 with h1 | h1 <;> cases h1

/-- There are such messages. -/
example : Encodable { esv := 0x72, props := List.replicate 5 ⟨0x80, List.replicate 255 0⟩ } ∧
    1024 < (encode { esv := 0x72, props := List.replicate 5 ⟨0x80, List.replicate 255 0⟩ }).length := by decide +kernel

/-- An exception in an observer ends it as well. -/
theorem C55_observer_false {σ : Type} (deliver : σ → Msg → σ × Option Exc) (st : σ) (d : Bytes) (a : Addr) (m : Msg) (e : Exc) (later : List (Bytes × Addr))
    (hd : Decodes d a m) (he : (deliver st m).2 = some e) : runLoop deliver st ((d, a) :: later) = ((deliver st m).1, false) := by
  unfold runLoop
  rw [recvOne_ok deliver st d a m hd, he]
  rfl

/-! ## C56: delivery -/

/-- Observers that record what they get, the i-th one in the i-th list. -/
def recorder (i : Nat) (st : List (List Msg)) (m : Msg) : List (List Msg) × Option Exc := (st.modify i (· ++ [m]), none)

/-- What all observers do, in order, if none raises. -/
theorem notifyAll_calls {σ : Type} (obs : List (σ → Msg → σ × Option Exc)) (m : Msg) : ∀ st,
    (∀ f ∈ obs, ∀ st, (f st m).2 = none) → notifyAll obs st m = (obs.foldl (fun st f => (f st m).1) st, none) := by
  induction obs with
  | nil => intro st _; rfl
  | cons f fs ih =>
    intro st h
    unfold notifyAll
    have h1 := h f List.mem_cons_self st
    rcases hf : f st m with ⟨st', e⟩
    rw [hf] at h1
    simp only [] at h1
    subst h1
    simp only []
    rw [ih st' (fun g hg => h g (List.mem_cons_of_mem _ hg)), List.foldl_cons, hf]

/-- A message that fits the format and the 1024-byte buffer, sent to a live receiver, reaches every
observer, in order, as what was sent (`onWire m`, which is `m` itself if its fields are in range: C03), stamped
with the sender's address; and the receiver goes on. -/
theorem C56_delivered {σ : Type} (obs : List (σ → Msg → σ × Option Exc)) (st : σ) (m : Msg) (a : Addr)
    (hm : Encodable m) (hl : (encode m).length ≤ 1024)
    (hq : ∀ f ∈ obs, ∀ st, (f st { onWire m with fromAddr := some a }).2 = none) :
    runLoop (notifyAll obs) st [(encode m, a)] =
      (obs.foldl (fun st f => (f st { onWire m with fromAddr := some a }).1) st, true) := by
  apply recv_survives
  refine .cons (m := { onWire m with fromAddr := some a }) ⟨onWire m, [], encodable_onWire m hm, ?_, ?_, rfl⟩ (notifyAll_calls obs _ st hq) (.nil _)
  · unfold onWire
    by_cases h : TwoSections m.esv <;> simp [h]
  · rw [List.append_nil, encode_onWire, List.take_of_length_le hl]

/-- The i-th of `k` observers sees it exactly once, and nothing else. -/
theorem C56_every_observer (k : Nat) (seen : List (List Msg)) (m : Msg) (a : Addr) (hk : seen.length = k)
    (hm : Encodable m) (hl : (encode m).length ≤ 1024) :
    runLoop (notifyAll ((List.range k).map recorder)) seen [(encode m, a)] =
      (seen.map (· ++ [{ onWire m with fromAddr := some a }]), true) := by
  rw [C56_delivered _ _ m a hm hl (by
    intro f hf st
    obtain ⟨i, -, rfl⟩ := List.mem_map.mp hf
    rfl)]
  congr 1
  rw [List.foldl_map]
  have : ∀ (x : Msg) (n : Nat) (s : List (List Msg)) (j : Nat),
      ((List.range n).foldl (fun st i => (recorder i st x).1) s)[j]? = if j < n then (s[j]?).map (· ++ [x]) else s[j]? := by
    intro x n
    induction n with
    | zero => intro s j; simp
    | succ n ih =>
      intro s j
      rw [List.range_succ, List.foldl_append]
      simp only [List.foldl_cons, List.foldl_nil, recorder, List.getElem?_modify]
      rw [show (List.foldl (fun st i => st.modify i (· ++ [x])) s (List.range n))[j]? = _ from ih s j]
      by_cases h1 : j < n
      · have h2 : n ≠ j := by omega
        rw [if_pos h1, if_pos (by omega)]
        simp [h2]
      · rw [if_neg h1]
        by_cases h2 : n = j
        · rw [if_pos (by omega)]
          simp [h2]
        · rw [if_neg (by omega)]; simp [h2]
  apply List.ext_getElem?
  intro j
  rw [this]
  by_cases h : j < k
  · rw [if_pos h, List.getElem?_map]
  · rw [if_neg h, List.getElem?_map, List.getElem?_eq_none (by omega)]; rfl

/-- A longer message is not delivered to anybody, let alone as a different message. -/
theorem C56_long_not_delivered {σ : Type} (deliver : σ → Msg → σ × Option Exc) (st : σ) (a : Addr) (m : Msg)
    (hm : Encodable m) (hl : 1024 < (encode m).length) : (runLoop deliver st [(encode m, a)]).1 = st := by
  rw [C55_long_message_false deliver st a m [] hm hl]

/-- A datagram means at most one message. -/
theorem C56_one_meaning (d : Bytes) (a : Addr) (m m' : Msg) (h : Decodes d a m) (h' : Decodes d a m') : m = m' :=
  decodes_unique h h'

example : runLoop (notifyAll ((List.range 2).map recorder)) [[], []] [(encode { tid := 7, esv := 0x62, deoj := 0x0EF001, props := [⟨0xD6, []⟩] }, ("10.0.0.9", 3610))] =
    ([[{ tid := 7, esv := 0x62, deoj := 0x0EF001, props := [⟨0xD6, []⟩], fromAddr := some ("10.0.0.9", 3610) }],
      [{ tid := 7, esv := 0x62, deoj := 0x0EF001, props := [⟨0xD6, []⟩], fromAddr := some ("10.0.0.9", 3610) }]], true) := by
  decide +kernel

end Uecho
