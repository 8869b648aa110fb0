/-
C146: nodes the program forgets.
-/
import Verif.Lemmas.Lifetime
import Verif.Props.Pool

namespace Uecho
open Spec Life

/-! ## C146 -/

/-- A node that has been started is never collected: as long as one of its threads receives, and nobody calls `start` or `stop` of it, its `__del__` cannot be called
and it goes on receiving, whatever the program forgets. -/
theorem C146_forgotten_false (ord : List Int → List Int) (w : Memory) (i k : Nat) (h : ServingNode w i k) (evs : List Event)
    (hp : AllPossible ord w evs) (hl : ∀ ev ∈ evs, LeavesServer i k ev) :
    ServingNode (Life.run ord w evs) i k ∧ ¬ Possible ord (Life.run ord w evs) (.del i) := by
  have hs := serving_run ord evs h hp hl
  exact ⟨hs, fun hd => hd (reach_serving hs)⟩

/-- … and the process does not end. -/
theorem C146_exit_false (ord : List Int → List Int) (w : Memory) (i k : Nat) (h : ServingNode w i k) (evs : List Event)
    (hp : AllPossible ord w evs) (hl : ∀ ev ∈ evs, LeavesServer i k ev) : ¬ Exits (Life.run ord w evs) := by
  intro he
  obtain ⟨s, h1, h2, h3, -⟩ := serving_run ord evs h hp hl
  exact he i k ⟨s, h1, h2, h3⟩

/-- Every `start()` that succeeds, outside of callbacks, makes the node one of these, by each of its servers. -/
theorem C146_started (ord : List Int → List Int) (w : Memory) (i : Nat) (net : Net) (h : ((w.heap.nodes i).base.start net none).2 = .ok true) :
    serversOf (Life.step ord w (.does (.start i net none))) i ≠ [] ∧
    ∀ k, k < (serversOf (Life.step ord w (.does (.start i net none))) i).length → ServingNode (Life.step ord w (.does (.start i net none))) i k := by
  have hb : serversOf (Life.step ord w (.does (.start i net none))) i = (((w.heap.nodes i).base.start net none).1).mgr.servers :=
    congrArg (fun n : LocalNode => n.mgr.servers) (start_servers ord w.heap i net none)
  have hg : ((w.heap.nodes i).base.mgr.start net none []).2 = .ok true := by
    unfold LocalNode.start at h
    rcases hq : (w.heap.nodes i).base.mgr.start net none [] with ⟨g, e | b⟩
    · rw [hq] at h; cases h
    · rw [hq] at h
      cases b
      · cases h
      · rfl
  obtain ⟨hsv, hne⟩ := C53_start_true net (w.heap.nodes i).base.mgr [] hg
  have hb2 : (((w.heap.nodes i).base.start net none).1).mgr.servers = (serversFor (addressesFor net [])).map fun s => { s with observers := [0] } := by
    unfold LocalNode.start
    rcases hq : (w.heap.nodes i).base.mgr.start net none [] with ⟨g, e | b⟩
    · rw [hq] at hg; cases hg
    · rw [hq] at hg hsv
      cases hg
      show (g.addObserver 0).servers = _
      unfold Manager.addObserver
      simp only [] at hsv ⊢
      rw [hsv]
      apply List.map_congr_left
      intro s hs
      have := serversFor_observers _ s hs
      simp [this]
  rw [hb, hb2]
  refine ⟨?_, ?_⟩
  · cases ha : addressesFor net [] with
    | nil => exact absurd ha hne
    | cons a as => simp [serversFor]
  · intro k hk
    rw [List.length_map] at hk
    refine ⟨{ (serversFor (addressesFor net []))[k] with observers := [0] }, ?_, ?_, ?_, by simp⟩
    · rw [hb, hb2, List.getElem?_map, List.getElem?_eq_getElem hk]; rfl
    · have : ∀ s ∈ serversFor (addressesFor net []), s.open_ = true := by
        intro s hs
        unfold serversFor at hs
        simp only [List.mem_flatMap, List.mem_cons, List.not_mem_nil, or_false] at hs
        obtain ⟨a, -, rfl | rfl⟩ := hs <;> rfl
      exact this (serversFor (addressesFor net []))[k] (List.getElem_mem hk)
    · intro hm
      have hr : restarts w.heap (.start i net none) = some i := by
        simp only [restarts, stop_none]
      have := (List.mem_filter.mp hm).2
      rw [hr] at this
      simp at this

/-- When the program refers to nothing any more and no running thread tells anyone anything, all nodes can be collected, in every order; the sockets of those that are collected are closed. If
these are all the nodes that had sockets, the process ends. -/
theorem C146_collected_partial (ord : List Int → List Int) (w : Memory) (hh : w.held = []) (hu : Untold w) (is : List Nat) :
    AllPossible ord w (is.map .del) ∧ (∀ i ∈ is, serversOf (Life.run ord w (is.map .del)) i = []) ∧
    ((∀ i, i ∉ is → serversOf w i = []) → Exits (Life.run ord w (is.map .del))) := by
  obtain ⟨h1, h2⟩ := collect ord is hh hu
  refine ⟨h1, fun i hi => by rw [h2, if_pos hi], fun h => ?_⟩
  rintro i k ⟨s, hs, -⟩
  rw [h2] at hs
  split at hs
  · simp at hs
  · rename_i hi; rw [h i hi] at hs; simp at hs

/-- A `start()` that does not succeed leaves nothing that keeps the node: once the program has forgotten all it had, the node is collected, which closes the sockets that `start()` left open (C71). -/
theorem C146_failed_partial (ord : List Int → List Int) (w : Memory) (i : Nat) (net : Net) (h : ((w.heap.nodes i).base.start net none).2 ≠ .ok true)
    (hi : ∀ k, k ≠ i → serversOf w k = []) (hr : Reach w (.node i)) :
    AllPossible ord w (.does (.start i net none) :: (w.held.map .forgets ++ [.del i])) ∧
    Exits (Life.run ord w (.does (.start i net none) :: (w.held.map .forgets ++ [.del i]))) := by
  have happ : ∀ (a b : List Event) (w : Memory), AllPossible ord w a → AllPossible ord (Life.run ord w a) b → AllPossible ord w (a ++ b) := by
    intro a
    induction a with
    | nil => exact fun b w _ h => h
    | cons ev a ih => exact fun b w h1 h2 => ⟨h1.1, ih b _ h1.2 h2⟩
  generalize hw1 : Life.step ord w (.does (.start i net none)) = w1
  have hheld : w1.held = w.held := by rw [← hw1]; rfl
  obtain ⟨f1, f2⟩ := forget_all ord w.held w1
  have hnil : w1.held.filter (fun e => decide (e ∉ w.held)) = [] := by
    rw [hheld, List.filter_eq_nil_iff]
    intro e he
    simpa using he
  rw [hnil] at f2
  have hsv : ∀ k s, s ∈ serversOf w1 k → s.observers = [] := by
    intro k s hs
    by_cases e : k = i
    · subst e
      rw [← hw1] at hs
      replace hs : s ∈ ((Pool.step ord w.heap (.start k net none)).nodes k).base.mgr.servers := hs
      rw [start_servers] at hs
      rcases start_observers net (w.heap.nodes k).base none with ⟨e, h1, -⟩ | ⟨-, -, h3, -⟩
      · rw [stop_none] at h1; cases h1
      · exact h3 h s hs
    · rw [← hw1, event_servers ord w _ k (fun _ _ he => by cases he; exact e rfl) (fun _ he => by cases he) (fun he => by cases he), hi k e] at hs
      cases hs
  have hu : Untold { w1 with held := [] } := fun a b s _ hs => hsv a s (List.mem_of_getElem? hs)
  obtain ⟨c1, -, c3⟩ := C146_collected_partial ord { w1 with held := [] } rfl hu [i]
  have hrest : ∀ k, k ∉ [i] → serversOf { w1 with held := [] } k = [] := by
    intro k hk
    have e : k ≠ i := fun e => hk (by rw [e]; exact List.mem_cons_self)
    show serversOf w1 k = []
    rw [← hw1, event_servers ord w _ k (fun _ _ he => by cases he; exact e rfl) (fun _ he => by cases he) (fun he => by cases he), hi k e]
  refine ⟨⟨⟨?_, ?_⟩, ?_⟩, ?_⟩
  · intro e he
    rcases List.mem_cons.mp he with rfl | he
    · exact hr
    · cases he
  · refine ⟨fun j u hm => Or.inl hm, fun k u hm => Or.inl ?_⟩
    replace hm : u ∈ usersOf ((Pool.onBase ord w.heap i (.start net none)).nodes k).base.profile := hm
    rw [onBase_base] at hm
    split at hm
    · rename_i e
      subst e
      have : (((w.heap.nodes k).base.start net none).1).profile = (w.heap.nodes k).base.profile := by
        unfold LocalNode.start
        rcases (w.heap.nodes k).base.mgr.start net none [] with ⟨g, e | b⟩
        · rfl
        · cases b <;> rfl
      replace hm : u ∈ usersOf (((w.heap.nodes k).base.start net none).1).profile := hm
      rw [this] at hm; exact hm
    · exact hm
  · rw [hw1]
    refine happ _ _ _ f1 ?_
    rw [f2]
    exact c1
  · show Exits (List.foldl (Life.step ord) (Life.step ord w _) (w.held.map .forgets ++ [.del i]))
    rw [hw1, List.foldl_append]
    show Exits (Life.run ord (Life.run ord w1 (w.held.map .forgets)) [.del i])
    rw [f2]
    exact c3 hrest

/-- A node that has been collected is gone: nothing reaches it again, and it has no sockets any more. -/
theorem C146_gone_partial (ord : List Int → List Int) (w : Memory) (i : Nat) (evs : List Event) (h : AllPossible ord w (.del i :: evs)) :
    ¬ Reach (Life.run ord w (.del i :: evs)) (.node i) ∧ serversOf (Life.run ord w (.del i :: evs)) i = [] :=
  gone_run ord i evs (unreached_step ord h.1 h.1).1 (by rw [del_servers, if_pos rfl]) h.2

/-- After `stop()` of all nodes that had sockets, outside of callbacks, the process ends. -/
theorem C146_stopped_partial (ord : List Int → List Int) (is : List Nat) : ∀ (w : Memory), (∀ i, i ∉ is → serversOf w i = []) →
    Exits (Life.run ord w (is.map fun i => .does (.stop i none))) := by
  have key : ∀ (is : List Nat) (w : Memory) (i : Nat), serversOf (Life.run ord w (is.map fun i => .does (.stop i none))) i = if i ∈ is then [] else serversOf w i := by
    intro is
    induction is with
    | nil => exact fun w i => rfl
    | cons a is ih =>
      intro w i
      show serversOf (Life.run ord (Life.step ord w (.does (.stop a none))) (is.map fun i => .does (.stop i none))) i = _
      rw [ih]
      have : serversOf (Life.step ord w (.does (.stop a none))) i = if i = a then [] else serversOf w i := stopped_servers ord w.heap a i
      rw [this]
      by_cases e : i = a
      · simp [e]
      · simp [e]
  rintro w h i k ⟨s, hs, -⟩
  rw [key] at hs
  split at hs
  · simp at hs
  · rename_i hi; rw [h i hi] at hs; simp at hs

/-- A program that has made a node and refers to it. -/
def exLife (ord : List Int → List Int) : Memory := { heap := exPool ord, held := [.node 0] }

theorem exLife_servers {ord : List Int → List Int} (hord : ValidOrder ord) (k : Nat) : ((exLife ord).heap.nodes k).base.mgr = {} := by
  obtain ⟨n, hn, -, -, -, -, hm, -⟩ := localNode_new hord ⟨[], 0, 0⟩ false
  show ((LocalNode.new ord ⟨[], 0, 0⟩ false).1).mgr = {}
  rw [hn]; exact hm

/-- The program starts its node and forgets it: the node goes on. Had `start()` failed half-way, leaving a socket open, the node would be collected and the process would end. -/
example {ord : List Int → List Int} (hord : ValidOrder ord) :
    (let w := Life.run ord (exLife ord) [.does (.start 0 okNet none), .forgets (.node 0)]
     w.held = [] ∧ ServingNode w 0 0 ∧ ¬ Exits w) ∧
    (serversOf (Life.run ord (exLife ord) [.does (.start 0 badMulticast none)]) 0 ≠ [] ∧
     Exits (Life.run ord (exLife ord) [.does (.start 0 badMulticast none), .forgets (.node 0), .del 0])) := by
  have hm := exLife_servers hord
  have h1 : (((exLife ord).heap.nodes 0).base.start okNet none).2 = .ok true := by
    unfold LocalNode.start
    rw [hm 0]
    rcases hq : ({} : Manager).start okNet none [] with ⟨g, e⟩
    have : (({} : Manager).start okNet none []).2 = .ok true := by decide +kernel
    rw [hq] at this
    cases this; rfl
  have h2 : (((exLife ord).heap.nodes 0).base.start badMulticast none).2 = .error .osError ∧
      (((exLife ord).heap.nodes 0).base.start badMulticast none).1.mgr.servers ≠ [] := by
    unfold LocalNode.start
    rw [hm 0]
    have a : (({} : Manager).start badMulticast none []).2 = .error .osError := by decide +kernel
    have b : (({} : Manager).start badMulticast none []).1.servers ≠ [] := by decide +kernel
    rcases hq : ({} : Manager).start badMulticast none [] with ⟨g, e⟩
    rw [hq] at a b
    cases a; exact ⟨rfl, b⟩
  obtain ⟨s1, s2⟩ := C146_started ord (exLife ord) 0 okNet h1
  have hs := s2 0 (List.length_pos_of_ne_nil s1)
  have hp : AllPossible ord (Life.step ord (exLife ord) (.does (.start 0 okNet none))) [.forgets (.node 0)] := ⟨trivial, trivial⟩
  have hl : ∀ ev ∈ [Event.forgets (.node 0)], LeavesServer 0 0 ev := fun ev he => by
    rcases List.mem_cons.mp he with rfl | he
    · trivial
    · cases he
  refine ⟨⟨rfl, (C146_forgotten_false ord _ 0 0 hs _ hp hl).1, C146_exit_false ord _ 0 0 hs _ hp hl⟩, ?_, ?_⟩
  · show ((Pool.step ord (exLife ord).heap (.start 0 badMulticast none)).nodes 0).base.mgr.servers ≠ []
    rw [start_servers]; exact h2.2
  · exact (C146_failed_partial ord (exLife ord) 0 badMulticast (by rw [h2.1]; intro e; cases e)
      (fun k _ => by show ((exLife ord).heap.nodes k).base.mgr.servers = []; rw [hm k]) (.held List.mem_cons_self)).2

end Uecho
