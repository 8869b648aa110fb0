/- C126: a node or controller that is stopped and started again. -/
import Verif.Lemmas.Controller

namespace Uecho
open Spec

/-- A node is started or stopped, by whichever thread and whatever comes of it. -/
inductive Cycle where
  | start (net : Net) (caller : Option Nat)
  | stop (caller : Option Nat)

def Cycle.run (n : LocalNode) : Cycle → LocalNode
  | .start net caller => (n.start net caller).1
  | .stop caller => (n.stop caller).1

def Cycle.runCtl (c : Ctl) : Cycle → Ctl
  | .start net caller => (c.start net caller).1
  | .stop caller => (c.stop caller).1

theorem mgrStop_kept (g : Manager) (caller : Option Nat) : (g.stop caller).1.tid = g.tid ∧ (g.stop caller).1.log = g.log := by
  unfold Manager.stop
  rcases Manager.stopLoop caller g.servers 0 with ⟨ss, e | e⟩ <;> exact ⟨rfl, rfl⟩

theorem mgrStart_kept (net : Net) (g : Manager) (caller : Option Nat) (as : List String) :
    (g.start net caller as).1.tid = g.tid ∧ (g.start net caller as).1.log = g.log := by
  have hs := mgrStop_kept g caller
  unfold Manager.start
  generalize g.stop caller = q at hs
  rcases q with ⟨g1, e | (_ | _)⟩
  · exact hs
  · exact hs
  · simp only [] at hs ⊢
    generalize (if as.length ≤ 0 then getAllIpaddrs net.interfaces [] else as) = l
    obtain ⟨k, -, h2, h3⟩ := Manager.startLoop_prefix net l g1
    generalize Manager.startLoop net l g1 = r at h2 h3
    rcases r with ⟨g2, e | e⟩
    · simp only [] at h2 h3 ⊢
      split <;> exact ⟨h2.trans hs.1, h3.trans hs.2⟩
    · exact ⟨h2.trans hs.1, h3.trans hs.2⟩

/-- What a start or stop leaves alone. -/
structure Same (n n' : LocalNode) : Prop where
  objects : n'.node.objects = n.node.objects
  profile : n'.profile = n.profile
  options : n'.options = n.options
  controller : n'.controller = n.controller
  tid : n'.mgr.tid = n.mgr.tid
  log : n'.mgr.log = n.mgr.log

theorem start_same (net : Net) (n : LocalNode) (caller : Option Nat) : Same n (n.start net caller).1 := by
  have h := mgrStart_kept net n.mgr caller []
  unfold LocalNode.start
  generalize n.mgr.start net caller [] = q at h
  rcases q with ⟨g, e | (_ | _)⟩ <;> exact ⟨rfl, rfl, rfl, rfl, h.1, h.2⟩

theorem stop_same (n : LocalNode) (caller : Option Nat) : Same n (n.stop caller).1 :=
  ⟨rfl, rfl, rfl, rfl, (mgrStop_kept n.mgr caller).1, (mgrStop_kept n.mgr caller).2⟩

/-- C126. However often a node is started and stopped, whether or not that works: its objects with all their data, its profile, its options and the TID it counts from are as before,
and nothing is sent by that. -/
theorem C126_kept (cs : List Cycle) (n : LocalNode) : Same n (cs.foldl Cycle.run n) := by
  induction cs generalizing n with
  | nil => exact ⟨rfl, rfl, rfl, rfl, rfl, rfl⟩
  | cons x cs ih =>
    have h1 : Same n (x.run n) := by
      cases x with
      | start net caller => exact start_same net n caller
      | stop caller => exact stop_same n caller
    have h2 := ih (x.run n)
    exact ⟨h2.objects.trans h1.objects, h2.profile.trans h1.profile, h2.options.trans h1.options, h2.controller.trans h1.controller, h2.tid.trans h1.tid, h2.log.trans h1.log⟩

/-- What a start that returns True makes of a node. -/
theorem start_true {net : Net} {n n1 : LocalNode} (h : n.start net none = (n1, .ok true)) : ∃ k, n1 =
    { n with mgr := { n.mgr with servers := (serversFor (addresses net.interfaces)).map fun s => { s with observers := [0] }, calls := k },
             node := { n.node with address := some ((Manager.mk (serversFor (addresses net.interfaces)) 0 0 []).ifaddr, (Manager.mk (serversFor (addresses net.interfaces)) 0 0 []).port) } } := by
  have hk := mgrStart_kept net n.mgr none []
  unfold LocalNode.start at h
  rcases hq : n.mgr.start net none [] with ⟨g, e | (_ | _)⟩
  · rw [hq] at h; cases h
  · rw [hq] at h; cases h
  · rw [hq] at h hk
    have hs := (C53_start_true net n.mgr [] (by rw [hq])).1
    rw [hq] at hs
    simp only [] at hs hk h
    have ha : addressesFor net [] = addresses net.interfaces := rfl
    rw [ha] at hs
    obtain ⟨ss, t, k, l⟩ := g
    simp only [] at hs hk
    obtain ⟨ht, hl⟩ := hk
    subst hs ht hl
    refine ⟨k, ?_⟩
    injection h with h _
    rw [← h]
    have hobs : (serversFor (addresses net.interfaces)).map (fun s => if 0 ∈ s.observers then s else { s with observers := s.observers ++ [0] }) =
        (serversFor (addresses net.interfaces)).map fun s => { s with observers := [0] } := by
      apply List.map_congr_left
      intro s hs
      unfold serversFor at hs
      obtain ⟨a, -, ha⟩ := List.mem_flatMap.mp hs
      simp only [List.mem_cons, List.not_mem_nil, or_false] at ha
      rcases ha with rfl | rfl <;> rfl
    unfold Manager.addObserver
    simp only [hobs]
    rfl

/-- C126. A node that was started and stopped any number of times and is started again with success is what it would be had it been started once, in every respect but the number of
calls made to the operating system, if the interfaces of the host are the same. -/
theorem C126_as_new (cs : List Cycle) (n : LocalNode) (net net' : Net) (hi : net'.interfaces = net.interfaces) {n1 n2 : LocalNode}
    (h1 : n.start net none = (n1, .ok true)) (h2 : (cs.foldl Cycle.run n).start net' none = (n2, .ok true)) :
    n2 = { n1 with mgr := { n1.mgr with calls := n2.mgr.calls } } := by
  have hs := C126_kept cs n
  obtain ⟨k1, e1⟩ := start_true h1
  obtain ⟨k2, e2⟩ := start_true h2
  rw [hi] at e2
  generalize List.foldl Cycle.run n cs = m at *
  subst e1 e2
  obtain ⟨⟨o, a⟩, p, opt, ⟨ss, t, k, l⟩, ctl⟩ := n
  obtain ⟨⟨o', a'⟩, p', opt', ⟨ss', t', k', l'⟩, ctl'⟩ := m
  obtain ⟨b1, b2, b3, b4, b5, b6⟩ := hs
  simp only [] at b1 b2 b3 b4 b5 b6
  subst b1 b2 b3 b4 b5 b6
  rfl

/-- C126. After a successful start a node has the first address of the host that is not the loopback address, and the port of the protocol, whatever it was told or did before. -/
theorem C126_address {net : Net} {n n1 : LocalNode} (h : n.start net none = (n1, .ok true)) : ∃ a, (addresses net.interfaces).head? = some a ∧ n1.node.ip = a ∧ n1.node.port = 3610 ∧
    n1.node.address = some (a, 3610) := by
  obtain ⟨k, hk⟩ := start_true h
  have hne : addresses net.interfaces ≠ [] := by
    have h1 : (n.mgr.start net none []).2 = .ok true := by
      unfold LocalNode.start at h
      rcases hq : n.mgr.start net none [] with ⟨g, e | (_ | _)⟩
      · rw [hq] at h; cases h
      · rw [hq] at h; cases h
      · rfl
    exact (C53_start_true net n.mgr [] h1).2
  cases ha : addresses net.interfaces with
  | nil => exact absurd ha hne
  | cons a as => rw [ha] at hk; subst hk; exact ⟨a, rfl, rfl, rfl, rfl⟩

/-- C126. A start that fails, in whatever way, and a stop leave a node the address it has. -/
theorem C126_address_kept (n : LocalNode) (caller : Option Nat) (net : Net) :
    (n.stop caller).1.node.address = n.node.address ∧ ((n.start net caller).2 ≠ .ok true → (n.start net caller).1.node.address = n.node.address) := by
  constructor
  · unfold LocalNode.stop
    rcases n.mgr.stop caller with ⟨g, e | (_ | _)⟩ <;> rfl
  · unfold LocalNode.start
    rcases n.mgr.start net caller [] with ⟨g, e | (_ | _)⟩
    · intro; rfl
    · intro; rfl
    · intro h; exact absurd rfl h

/-- C126. A start succeeds whenever the operating system lets it and there is an address, whatever came before. -/
theorem C126_again (cs : List Cycle) (n : LocalNode) (net : Net) (hb : ∀ k kind a, net.bind k kind a = none) (ht : ∀ k, net.thread k = none)
    (ha : addresses net.interfaces ≠ []) : ((cs.foldl Cycle.run n).start net none).2 = .ok true := by
  have h := C53_start_works net (cs.foldl Cycle.run n).mgr [] hb ht ha
  unfold LocalNode.start
  rcases hq : (cs.foldl Cycle.run n).mgr.start net none [] with ⟨g, e | (_ | _)⟩
  · rw [hq] at h; cases h
  · rw [hq] at h; cases h
  · rfl

theorem search_keeps (net : Net) (c : Ctl) : (c.search net).1.found = c.found ∧ (c.search net).1.listeners = c.listeners ∧ (c.search net).1.calls = c.calls ∧
    (c.search net).1.ln.node = c.ln.node ∧ (c.search net).1.ln.profile = c.ln.profile ∧ (c.search net).1.ln.options = c.ln.options := by
  unfold Ctl.search Ctl.announceMessage
  refine ⟨rfl, rfl, rfl, rfl, rfl, rfl⟩

/-- C126. A controller that is started and stopped any number of times keeps the nodes it has found, with all it knows of them, its listeners, and its own objects; its listeners are
not called by that. -/
theorem C126_controller (cs : List Cycle) (c : Ctl) :
    (cs.foldl Cycle.runCtl c).found = c.found ∧ (cs.foldl Cycle.runCtl c).listeners = c.listeners ∧ (cs.foldl Cycle.runCtl c).calls = c.calls ∧
    (cs.foldl Cycle.runCtl c).ln.node.objects = c.ln.node.objects ∧ (cs.foldl Cycle.runCtl c).ln.profile = c.ln.profile ∧
    (cs.foldl Cycle.runCtl c).ln.options = c.ln.options := by
  induction cs generalizing c with
  | nil => exact ⟨rfl, rfl, rfl, rfl, rfl, rfl⟩
  | cons x cs ih =>
    have h : (x.runCtl c).found = c.found ∧ (x.runCtl c).listeners = c.listeners ∧ (x.runCtl c).calls = c.calls ∧
        (x.runCtl c).ln.node.objects = c.ln.node.objects ∧ (x.runCtl c).ln.profile = c.ln.profile ∧ (x.runCtl c).ln.options = c.ln.options := by
      cases x with
      | stop caller =>
        have hs := stop_same c.ln caller
        simp only [Cycle.runCtl, Ctl.stop]
        generalize c.ln.stop caller = q at hs ⊢
        rcases q with ⟨n, e | (_ | _)⟩ <;> exact ⟨rfl, rfl, rfl, hs.objects, hs.profile, hs.options⟩
      | start net caller =>
        have hs := start_same net c.ln caller
        simp only [Cycle.runCtl, Ctl.start]
        generalize c.ln.start net caller = q at hs ⊢
        rcases q with ⟨n, e | (_ | _)⟩
        · exact ⟨rfl, rfl, rfl, hs.objects, hs.profile, hs.options⟩
        · exact ⟨rfl, rfl, rfl, hs.objects, hs.profile, hs.options⟩
        · simp only []
          have hk := search_keeps net { c with ln := n }
          generalize Ctl.search net { c with ln := n } = r at hk ⊢
          rcases r with ⟨c', e | (_ | _)⟩ <;>
          exact ⟨hk.1, hk.2.1, hk.2.2.1, (congrArg Node.objects hk.2.2.2.1).trans hs.objects, hk.2.2.2.2.1.trans hs.profile, hk.2.2.2.2.2.trans hs.options⟩
    obtain ⟨a1, a2, a3, a4, a5, a6⟩ := ih (x.runCtl c)
    obtain ⟨b1, b2, b3, b4, b5, b6⟩ := h
    exact ⟨a1.trans b1, a2.trans b2, a3.trans b3, a4.trans b4, a5.trans b5, a6.trans b6⟩

/-- `C126_address`: a host with two addresses. -/
example (n : LocalNode) : ∃ n1, n.start { okNet with interfaces := [some [some "127.0.0.1"], none, some [none, some "10.0.0.7", some "10.0.0.8"]] } none = (n1, .ok true) ∧ n1.node.ip = "10.0.0.7" := by
  have h := C126_again [] n { okNet with interfaces := [some [some "127.0.0.1"], none, some [none, some "10.0.0.7", some "10.0.0.8"]] } (fun _ _ _ => rfl) (fun _ => rfl) (by decide +kernel)
  refine ⟨_, Prod.ext rfl h, ?_⟩
  obtain ⟨a, h1, h2, -⟩ := C126_address (Prod.ext rfl h)
  rw [show (addresses [some [some "127.0.0.1"], none, some [none, some "10.0.0.7", some "10.0.0.8"]]).head? = some "10.0.0.7" by decide +kernel] at h1
  injection h1 with h1
  exact h2.trans h1.symm

/-- `C126_as_new`: a node stopped from within a callback, started on a host that refuses sockets, stopped, and started. -/
example (n : LocalNode) : ∃ n1 n2, n.start okNet none = (n1, .ok true) ∧
    ([.start okNet none, .stop (some 0), .start { okNet with bind := fun _ _ _ => some .osError } none, .stop none].foldl Cycle.run n).start okNet none = (n2, .ok true) ∧
    n2.mgr.servers = n1.mgr.servers := by
  obtain ⟨g, h1, -⟩ := ok_start n
  obtain ⟨g', h2, -⟩ := ok_start ([.start okNet none, .stop (some 0), .start { okNet with bind := fun _ _ _ => some .osError } none, .stop none].foldl Cycle.run n)
  refine ⟨_, _, h1, h2, ?_⟩
  rw [C126_as_new _ n okNet okNet rfl h1 h2]

end Uecho
