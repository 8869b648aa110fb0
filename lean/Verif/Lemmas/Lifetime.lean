/- Lemmas on references and `__del__` (`Model/Lifetime`). -/
import Verif.Spec.Lifetime
import Verif.Lemmas.Pool
import Verif.Props.Frame

namespace Uecho.Life
open Spec Pool

/-! ### Servers -/

theorem assignTid_servers (g : Manager) (m : Msg) : (g.assignTid m).1.servers = g.servers := by
  unfold Manager.assignTid Manager.nextTid
  by_cases h : m.tid = 0
  · rw [if_pos h]
    simp only []
    split <;> rfl
  · rw [if_neg h]

theorem announce_servers (net : Net) (g : Manager) (m : Msg) : (g.announce net m).1.servers = g.servers :=
  ((announceLoop_tid net _ _ _).2.1).trans (assignTid_servers g m)

theorem send_servers (net : Net) (g : Manager) (m : Msg) (a : Option Addr) : (g.send net m a).1.servers = g.servers :=
  ((sendLoop_tid net _ _ _ _).2.1).trans (assignTid_servers g m)

theorem announceMessage_servers (net : Net) (n : LocalNode) (m : Msg) : (n.announceMessage net m).1.mgr.servers = n.mgr.servers :=
  announce_servers net n.mgr _

theorem sendMessage_servers (net : Net) (n : LocalNode) (m : Msg) (a : Option Addr) : (n.sendMessage net m a).1.mgr.servers = n.mgr.servers :=
  send_servers net n.mgr _ a

theorem answer_servers (net : Net) (n : LocalNode) (req : Msg) (r : Option Msg) : (n.answer net req r).1.mgr.servers = n.mgr.servers := by
  cases r with
  | none => rfl
  | some res =>
    unfold LocalNode.answer
    simp only []
    by_cases hn : ESV.isNotification res.esv = true
    · rw [if_pos hn]
      have := announceMessage_servers net n res
      generalize n.announceMessage net res = r at this ⊢
      rcases r with ⟨n1, m1, e | b⟩ <;> exact this
    · rw [if_neg hn]
      have := sendMessage_servers net n res req.fromAddr
      generalize n.sendMessage net res req.fromAddr = r at this ⊢
      rcases r with ⟨n1, m1, e | b⟩ <;> exact this

theorem stop_none (g : Manager) : g.stop none = ({ g with servers := [] }, .ok true) :=
  Manager.stop_outside g none (fun _ _ _ _ h => by cases h)

theorem stopLoop_observers (caller : Option Nat) : ∀ (ss : List Server) (j k : Nat) (s : Server), (Manager.stopLoop caller ss j).1[k]? = some s →
    ∃ s0, ss[k]? = some s0 ∧ s.observers = s0.observers
  | [], _, _, _, h => by simp [Manager.stopLoop] at h
  | x :: ss, j, k, s, h => by
    have ih := stopLoop_observers caller ss (j + 1)
    unfold Manager.stopLoop at h
    split at h
    · cases k with
      | zero => simp only [List.getElem?_cons_zero, Option.some.injEq] at h; exact ⟨x, rfl, by rw [← h]⟩
      | succ k => exact ih k s h
    · split at h
      · cases k with
        | zero => simp only [List.getElem?_cons_zero, Option.some.injEq] at h; exact ⟨x, rfl, by rw [← h]⟩
        | succ k => exact ⟨s, h, rfl⟩
      · cases k with
        | zero => simp only [List.getElem?_cons_zero, Option.some.injEq] at h; exact ⟨x, rfl, by rw [← h]⟩
        | succ k => exact ih k s h

/-- `stop` leaves no server that was not there, with the observers it had. -/
theorem stop_observers (g : Manager) (caller : Option Nat) (k : Nat) (s : Server) (h : (g.stop caller).1.servers[k]? = some s) :
    ∃ s0, g.servers[k]? = some s0 ∧ s.observers = s0.observers := by
  have := stopLoop_observers caller g.servers 0
  unfold Manager.stop at h
  rcases hs : Manager.stopLoop caller g.servers 0 with ⟨ss, r | e⟩
  · rw [hs] at h; simp at h
  · rw [hs] at h this; exact this k s h

theorem serversFor_observers (as : List String) : ∀ s ∈ serversFor as, s.observers = [] := by
  intro s hs
  unfold serversFor at hs
  simp only [List.mem_flatMap, List.mem_cons, List.not_mem_nil, or_false] at hs
  obtain ⟨a, -, rfl | rfl⟩ := hs <;> rfl

/-- `Manager.start`: the servers are those `stop` left over, if it raised; otherwise they have no observers. -/
theorem mgr_start_observers (net : Net) (g : Manager) (caller : Option Nat) :
    (∃ e, (g.stop caller).2 = .error e ∧ (g.start net caller []).2 = .error e ∧ (g.start net caller []).1 = (g.stop caller).1) ∨
    ((∃ b, (g.stop caller).2 = .ok b) ∧ ∀ s ∈ (g.start net caller []).1.servers, s.observers = []) := by
  unfold Manager.start
  rcases hs : g.stop caller with ⟨g1, e | b⟩
  · exact Or.inl ⟨e, rfl, rfl, rfl⟩
  · have hg : b = true ∧ g1.servers = [] := by
      unfold Manager.stop at hs
      rcases hl : Manager.stopLoop caller g.servers 0 with ⟨ss, r | e⟩
      · rw [hl] at hs; cases hs; exact ⟨rfl, rfl⟩
      · rw [hl] at hs; cases hs
    obtain ⟨rfl, hg⟩ := hg
    refine Or.inr ⟨⟨true, rfl⟩, ?_⟩
    simp only []
    intro s hm
    obtain ⟨k, hp, -, -⟩ := Manager.startLoop_prefix net (if ([] : List String).length ≤ 0 then getAllIpaddrs net.interfaces [] else []) g1
    generalize Manager.startLoop net _ g1 = q at hm hp
    rw [hg, List.nil_append] at hp
    have : s ∈ q.1.servers := by
      rcases q with ⟨g', e | e⟩
      · simp only [] at hm
        split at hm <;> exact hm
      · exact hm
    rw [hp] at this
    exact serversFor_observers _ s (List.mem_of_mem_take this)

/-- What `start` leaves: only the node is told something by servers that were not there before. -/
theorem start_observers (net : Net) (n : LocalNode) (caller : Option Nat) :
    (∃ e, (n.mgr.stop caller).2 = .error e ∧ (n.start net caller).2 = .error e ∧ (n.start net caller).1.mgr = (n.mgr.stop caller).1) ∨
    ((∃ b, (n.mgr.stop caller).2 = .ok b) ∧
      (∀ s ∈ (n.start net caller).1.mgr.servers, s.observers = [] ∨ s.observers = [0]) ∧
      ((n.start net caller).2 ≠ .ok true → ∀ s ∈ (n.start net caller).1.mgr.servers, s.observers = []) ∧
      ((n.start net caller).2 = .ok true → ∀ s ∈ (n.start net caller).1.mgr.servers, s.observers = [0])) := by
  unfold LocalNode.start
  rcases mgr_start_observers net n.mgr caller with ⟨e, h1, h2, h3⟩ | ⟨h1, h2⟩
  · refine Or.inl ⟨e, h1, ?_⟩
    rcases hs : n.mgr.start net caller [] with ⟨g, e' | b⟩
    · rw [hs] at h2 h3; cases h2; exact ⟨rfl, h3⟩
    · rw [hs] at h2; cases h2
  · refine Or.inr ⟨h1, ?_⟩
    rcases hs : n.mgr.start net caller [] with ⟨g, e' | b⟩
    · rw [hs] at h2
      exact ⟨fun s hm => Or.inl (h2 s hm), fun _ => h2, fun h => by cases h⟩
    · rw [hs] at h2
      cases b with
      | false => exact ⟨fun s hm => Or.inl (h2 s hm), fun _ => h2, fun h => by cases h⟩
      | true =>
        have key : ∀ s ∈ (g.addObserver 0).servers, s.observers = [0] := by
          intro s hm
          obtain ⟨s0, hm0, rfl⟩ := List.mem_map.mp hm
          have := h2 s0 hm0
          simp [this]
        exact ⟨fun s hm => Or.inr (key s hm), fun h => absurd rfl h, fun _ => key⟩

/-! ### One event -/

theorem onBase_base (ord : List Int → List Int) (h : Heap) (i : Nat) (op : NodeOp) (k : Nat) :
    ((onBase ord h i op).nodes k).base = if k = i then op.run ord (h.nodes i).base else (h.nodes k).base := by
  unfold onBase
  by_cases e : k = i
  · subst e; rw [setNode_same, if_pos rfl]
  · rw [setNode_other h _ e, if_neg e]

theorem store_servers (h : Heap) (i : Nat) (r : Ref) (o : Obj) (k : Nat) : ((store h i r o).nodes k).base.mgr = (h.nodes k).base.mgr := by
  cases r with
  | profile =>
    unfold store
    by_cases e : k = i
    · subst e; rw [setNode_same]
    · rw [setNode_other h _ e]
  | obj j => rfl

theorem receive_servers (env : Env) (net : Net) (h : Heap) (i : Nat) (m : Msg) (k : Nat) :
    (((messageReceived env net h i m).1).nodes k).base.mgr.servers = (h.nodes k).base.mgr.servers := by
  unfold messageReceived
  simp only []
  split
  · rfl
  · split
    · rfl
    · split
      · rfl
      · rename_i req _ _ r _
        generalize (deref h i r).messageReceived env req = q
        rcases q with ⟨o, l, e | res⟩
        · simp only []; rw [store_servers]
        · simp only []
          by_cases e : k = i
          · subst e; rw [setNode_same, answer_servers, store_servers]
          · rw [setNode_other _ _ e, store_servers]

/-- Only `start` and `stop` of a node change its servers. -/
theorem step_servers (ord : List Int → List Int) (h : Heap) (op : Op) (i : Nat) (hs : ∀ net c, op ≠ .start i net c) (ht : ∀ c, op ≠ .stop i c) :
    ((Pool.step ord h op).nodes i).base.mgr.servers = (h.nodes i).base.mgr.servers := by
  cases op with
  | add k j =>
    show (((addObject ord h k j).1).nodes i).base.mgr.servers = _
    unfold addObject
    simp only []
    by_cases e : i = k
    · subst e; rw [setNode_same]
    · rw [setNode_other _ _ e]
  | receive k env net m => exact receive_servers env net h k m i
  | change j f => rfl
  | enable k opt v =>
    show ((onBase ord h k (.enable opt v)).nodes i).base.mgr.servers = _
    rw [onBase_base]
    split
    · rename_i e; subst e; cases v <;> rfl
    · rfl
  | start k net c =>
    show ((onBase ord h k _).nodes i).base.mgr.servers = _
    rw [onBase_base, if_neg (fun e => hs net c (by rw [e]))]
  | stop k c =>
    show ((onBase ord h k _).nodes i).base.mgr.servers = _
    rw [onBase_base, if_neg (fun e => ht c (by rw [e]))]
  | announce k net m =>
    show ((onBase ord h k _).nodes i).base.mgr.servers = _
    rw [onBase_base]
    split
    · rename_i e; subst e; exact announceMessage_servers net _ m
    · rfl
  | send k net m a =>
    show ((onBase ord h k _).nodes i).base.mgr.servers = _
    rw [onBase_base]
    split
    · rename_i e; subst e; exact sendMessage_servers net _ m a
    · rfl

theorem start_servers (ord : List Int → List Int) (h : Heap) (i : Nat) (net : Net) (c : Option Nat) :
    ((Pool.step ord h (.start i net c)).nodes i).base = ((h.nodes i).base.start net c).1 := by
  show ((onBase ord h i _).nodes i).base = _
  rw [onBase_base, if_pos rfl]; rfl

theorem stop_servers (ord : List Int → List Int) (h : Heap) (i : Nat) (c : Option Nat) :
    ((Pool.step ord h (.stop i c)).nodes i).base = ((h.nodes i).base.stop c).1 := by
  show ((onBase ord h i _).nodes i).base = _
  rw [onBase_base, if_pos rfl]; rfl

theorem stopped_servers (ord : List Int → List Int) (h : Heap) (i k : Nat) :
    ((Pool.step ord h (.stop i none)).nodes k).base.mgr.servers = if k = i then [] else (h.nodes k).base.mgr.servers := by
  by_cases e : k = i
  · subst e
    rw [if_pos rfl, stop_servers]
    show ((h.nodes k).base.mgr.stop none).1.servers = []
    rw [stop_none]
  · rw [if_neg e]
    exact step_servers ord h _ k (fun _ _ he => by cases he) (fun _ he => by cases he; exact e rfl)

theorem del_servers (ord : List Int → List Int) (w : Memory) (i k : Nat) : serversOf (step ord w (.del i)) k = if k = i then [] else serversOf w k :=
  stopped_servers ord w.heap i k

/-- Events that are not `start`, `stop` or `__del__` of a node leave its servers. -/
theorem event_servers (ord : List Int → List Int) (w : Memory) (ev : Event) (i : Nat) (hs : ∀ net c, ev ≠ .does (.start i net c)) (ht : ∀ c, ev ≠ .does (.stop i c))
    (hd : ev ≠ .del i) : serversOf (step ord w ev) i = serversOf w i := by
  cases ev with
  | does op => exact step_servers ord w.heap op i (fun net c e => hs net c (by rw [e])) (fun c e => ht c (by rw [e]))
  | del k =>
    rw [del_servers, if_neg]
    intro e
    exact hd (by rw [e])
  | keeps e => rfl
  | forgets e => rfl
  | refers u es => rfl
  | ends a b => rfl

/-- … and start no thread that has ended again. -/
theorem event_ended (ord : List Int → List Int) (w : Memory) (ev : Event) (i k : Nat) (hs : ∀ net c, ev ≠ .does (.start i net c)) (ht : ∀ c, ev ≠ .does (.stop i c))
    (hd : ev ≠ .del i) (h : (i, k) ∈ w.ended) : (i, k) ∈ (step ord w ev).ended := by
  cases ev with
  | does op =>
    refine List.mem_filter.mpr ⟨h, ?_⟩
    have : restarts w.heap op ≠ some i := by
      intro e
      cases op with
      | start a net c =>
        simp only [restarts] at e
        split at e
        · cases e; exact hs net c rfl
        · cases e
      | stop a c =>
        simp only [restarts] at e
        split at e
        · cases e; exact ht c rfl
        · cases e
      | _ => cases e
    simpa using this
  | del a =>
    refine List.mem_filter.mpr ⟨h, ?_⟩
    have : i ≠ a := fun e => hd (by rw [e])
    simpa using this
  | keeps e => exact h
  | forgets e => exact h
  | refers u es => exact h
  | ends a b => exact List.mem_cons_of_mem _ h

theorem reach_serving {w : Memory} {i k : Nat} (h : ServingNode w i k) : Reach w (.node i) := by
  obtain ⟨s, h1, h2, h3, h4⟩ := h
  exact .ref (.thread ⟨s, h1, h2, h3⟩) (.told h1 h4)

theorem ended_sub (ord : List Int → List Int) (w : Memory) (ev : Event) (i k : Nat) (he : ev ≠ .ends i k) (h : (i, k) ∉ w.ended) :
    (i, k) ∉ (step ord w ev).ended := by
  cases ev with
  | does op => exact fun hm => h (List.mem_filter.mp hm).1
  | del a => exact fun hm => h (List.mem_filter.mp hm).1
  | keeps e => exact h
  | forgets e => exact h
  | refers u es => exact h
  | ends a b =>
    intro hm
    rcases List.mem_cons.mp hm with e | hm
    · cases e; exact he rfl
    · exact h hm

theorem serving_step (ord : List Int → List Int) {w : Memory} {i k : Nat} (h : ServingNode w i k) (ev : Event) (hp : Possible ord w ev) (hl : LeavesServer i k ev) :
    ServingNode (step ord w ev) i k := by
  have hd : ev ≠ .del i := by
    rintro rfl
    exact hp (reach_serving h)
  have hs : serversOf (step ord w ev) i = serversOf w i := event_servers ord w ev i
    (fun net c e => by subst e; exact hl rfl) (fun c e => by subst e; exact hl rfl) hd
  obtain ⟨s, h1, h2, h3, h4⟩ := h
  exact ⟨s, by rw [hs]; exact h1, h2, ended_sub ord w ev i k (fun e => by subst e; exact hl ⟨rfl, rfl⟩) h3, h4⟩

theorem serving_run (ord : List Int → List Int) {i k : Nat} : ∀ (evs : List Event) {w : Memory}, ServingNode w i k → AllPossible ord w evs →
    (∀ ev ∈ evs, LeavesServer i k ev) → ServingNode (run ord w evs) i k
  | [], _, h, _, _ => h
  | ev :: evs, w, h, hp, hl =>
    serving_run ord evs (serving_step ord h ev hp.1 (hl ev List.mem_cons_self)) hp.2 (fun e he => hl e (List.mem_cons_of_mem _ he))

/-! ### What cannot be reached stays so -/

/-- A server of a node that can be reached counts as reached. -/
def Within (w : Memory) : Ent → Prop
  | .server i k => Reach w (.server i k) ∨ Reach w (.node i)
  | e => Reach w e

theorem within_of_reach {w : Memory} {e : Ent} (h : Reach w e) : Within w e := by
  cases e with
  | server i k => exact Or.inl h
  | _ => exact h

theorem table_step (ord : List Int → List Int) (h : Heap) (op : Op) (i : Nat) (c : Int) (j : Nat) (hm : (c, Ref.obj j) ∈ ((Pool.step ord h op).nodes i).table) :
    (c, Ref.obj j) ∈ (h.nodes i).table ∨ op = .add i j := by
  cases op with
  | add a b =>
    replace hm : (c, Ref.obj j) ∈ (((addObject ord h a b).1).nodes i).table := hm
    unfold addObject at hm
    simp only [] at hm
    by_cases e : i = a
    · subst e
      rw [setNode_same] at hm
      rcases mem_set hm with ⟨-, e⟩ | hm
      · cases e; exact Or.inr rfl
      · exact Or.inl hm
    · rw [setNode_other _ _ e] at hm; exact Or.inl hm
  | receive a env net m =>
    left
    replace hm : (c, Ref.obj j) ∈ (((messageReceived env net h a m).1).nodes i).table := hm
    have : (((messageReceived env net h a m).1).nodes i).table = (h.nodes i).table := by
      unfold messageReceived
      simp only []
      split
      · rfl
      · split
        · rfl
        · split
          · rfl
          · rename_i req _ _ r _
            generalize (deref h a r).messageReceived env req = q
            rcases q with ⟨o, l, e | res⟩
            · simp only []; rw [store_table]
            · simp only []; rw [setBase_table, store_table]
    rw [this] at hm; exact hm
  | change a f => exact Or.inl hm
  | enable a opt v => left; rw [← onBase_table ord h a (.enable opt v) i]; exact hm
  | start a net caller => left; rw [← onBase_table ord h a (.start net caller) i]; exact hm
  | stop a caller => left; rw [← onBase_table ord h a (.stop caller) i]; exact hm
  | announce a net m => left; rw [← onBase_table ord h a (.announce net m) i]; exact hm
  | send a net m d => left; rw [← onBase_table ord h a (.send net m d) i]; exact hm

theorem store_home (h : Heap) (i : Nat) (r : Ref) (o : Obj) : (store h i r o).home = h.home := by cases r <;> rfl

theorem home_step (ord : List Int → List Int) (h : Heap) (op : Op) (i j : Nat) (hm : (Pool.step ord h op).home j = some i) :
    h.home j = some i ∨ op = .add i j := by
  cases op with
  | add a b =>
    replace hm : (addObject ord h a b).1.home j = some i := hm
    unfold addObject at hm
    simp only [] at hm
    by_cases e : j = b
    · subst e; rw [if_pos rfl] at hm; cases hm; exact Or.inr rfl
    · rw [if_neg e] at hm; exact Or.inl hm
  | receive a env net m =>
    left
    replace hm : (messageReceived env net h a m).1.home j = some i := hm
    have : (messageReceived env net h a m).1.home = h.home := by
      unfold messageReceived
      simp only []
      split
      · rfl
      · split
        · rfl
        · split
          · rfl
          · rename_i req _ _ r _
            generalize (deref h a r).messageReceived env req = q
            rcases q with ⟨o, l, e | res⟩
            · exact store_home h a r o
            · exact store_home h a r o
    rw [this] at hm; exact hm
  | change a f => exact Or.inl hm
  | enable a opt v => exact Or.inl hm
  | start a net caller => exact Or.inl hm
  | stop a caller => exact Or.inl hm
  | announce a net m => exact Or.inl hm
  | send a net m d => exact Or.inl hm

/-- A watcher of a server after an operation was one before. -/
theorem watcher_step (ord : List Int → List Int) (h : Heap) (op : Op) (i k : Nat) (s : Server) (u : Nat)
    (hs : ((Pool.step ord h op).nodes i).base.mgr.servers[k]? = some s) (hu : u + 1 ∈ s.observers) :
    ∃ s0, (h.nodes i).base.mgr.servers[k]? = some s0 ∧ u + 1 ∈ s0.observers := by
  by_cases h1 : ∃ net c, op = .start i net c
  · obtain ⟨net, c, rfl⟩ := h1
    rw [start_servers] at hs
    rcases start_observers net (h.nodes i).base c with ⟨e, -, -, h3⟩ | ⟨-, h2, -⟩
    · rw [h3] at hs
      obtain ⟨s0, a, b⟩ := stop_observers _ c k s hs
      exact ⟨s0, a, b ▸ hu⟩
    · rcases h2 s (List.mem_of_getElem? hs) with e | e <;> rw [e] at hu <;> simp at hu
  · by_cases h2 : ∃ c, op = .stop i c
    · obtain ⟨c, rfl⟩ := h2
      rw [stop_servers] at hs
      obtain ⟨s0, a, b⟩ := stop_observers _ c k s hs
      exact ⟨s0, a, b ▸ hu⟩
    · rw [step_servers ord h op i (fun net c e => h1 ⟨net, c, e⟩) (fun c e => h2 ⟨c, e⟩)] at hs
      exact ⟨s, hs, hu⟩

theorem event_watcher (ord : List Int → List Int) (w : Memory) (ev : Event) (i k : Nat) (s : Server) (u : Nat)
    (hs : (serversOf (step ord w ev) i)[k]? = some s) (hu : u + 1 ∈ s.observers) : ∃ s0, (serversOf w i)[k]? = some s0 ∧ u + 1 ∈ s0.observers := by
  cases ev with
  | does op => exact watcher_step ord w.heap op i k s u hs hu
  | del a => exact watcher_step ord w.heap (.stop a none) i k s u hs hu
  | keeps e => exact ⟨s, hs, hu⟩
  | forgets e => exact ⟨s, hs, hu⟩
  | refers v es => exact ⟨s, hs, hu⟩
  | ends a b => exact ⟨s, hs, hu⟩

/-- A server that is there after an event was there before, as it was, or its node can be reached. -/
theorem same_server (ord : List Int → List Int) {w : Memory} {ev : Event} (hp : Possible ord w ev) (i k : Nat) (s : Server)
    (hs : (serversOf (step ord w ev) i)[k]? = some s) :
    Reach w (.node i) ∨ ((serversOf w i)[k]? = some s ∧ ((i, k) ∈ w.ended → (i, k) ∈ (step ord w ev).ended)) := by
  by_cases h1 : ∃ net c, ev = .does (.start i net c)
  · obtain ⟨net, c, rfl⟩ := h1
    exact Or.inl (hp.1 _ List.mem_cons_self)
  by_cases h2 : ∃ c, ev = .does (.stop i c)
  · obtain ⟨c, rfl⟩ := h2
    exact Or.inl (hp.1 _ List.mem_cons_self)
  by_cases h3 : ev = .del i
  · subst h3
    rw [del_servers, if_pos rfl] at hs
    simp at hs
  · refine Or.inr ⟨?_, event_ended ord w ev i k (fun net c e => h1 ⟨net, c, e⟩) (fun c e => h2 ⟨c, e⟩) h3⟩
    rw [event_servers ord w ev i (fun net c e => h1 ⟨net, c, e⟩) (fun c e => h2 ⟨c, e⟩) h3] at hs
    exact hs

theorem refers_step (ord : List Int → List Int) {w : Memory} {ev : Event} (hp : Possible ord w ev) {e e' : Ent} (he : Within w e)
    (hr : Refers (step ord w ev) e e') : Within w e' := by
  cases hr with
  | @table i c j hm =>
    cases ev with
    | does op =>
      rcases table_step ord w.heap op i c j hm with h | rfl
      · exact Reach.ref he (.table h)
      · exact hp.1 (.object j) (by simp [about])
    | del a =>
      rcases table_step ord w.heap (.stop a none) i c j hm with h | h
      · exact Reach.ref he (.table h)
      · cases h
    | keeps e => exact Reach.ref he (.table hm)
    | forgets e => exact Reach.ref he (.table hm)
    | refers v es => exact Reach.ref he (.table hm)
    | ends a b => exact Reach.ref he (.table hm)
  | @profile i u hm =>
    cases ev with
    | does op =>
      rcases hp.2.2 i u hm with h | h
      · exact Reach.ref he (.profile h)
      · exact h
    | del a =>
      refine Reach.ref he (.profile ?_)
      replace hm : u ∈ usersOf ((onBase ord w.heap a (.stop none)).nodes i).base.profile := hm
      rw [onBase_base] at hm
      split at hm
      · rename_i e; subst e; exact hm
      · exact hm
    | keeps e => exact Reach.ref he (.profile hm)
    | forgets e => exact Reach.ref he (.profile hm)
    | refers v es => exact Reach.ref he (.profile hm)
    | ends a b => exact Reach.ref he (.profile hm)
  | server hs => exact Or.inr he
  | @home i j hm =>
    cases ev with
    | does op =>
      rcases home_step ord w.heap op i j hm with h | rfl
      · exact Reach.ref he (.home h)
      · exact hp.1 (.node i) (by simp [about])
    | del a => exact Reach.ref he (.home hm)
    | keeps e => exact Reach.ref he (.home hm)
    | forgets e => exact Reach.ref he (.home hm)
    | refers v es => exact Reach.ref he (.home hm)
    | ends a b => exact Reach.ref he (.home hm)
  | @object j u hm =>
    cases ev with
    | does op =>
      rcases hp.2.1 j u hm with h | h
      · exact Reach.ref he (.object h)
      · exact h
    | del a => exact Reach.ref he (.object hm)
    | keeps e => exact Reach.ref he (.object hm)
    | forgets e => exact Reach.ref he (.object hm)
    | refers v es => exact Reach.ref he (.object hm)
    | ends a b => exact Reach.ref he (.object hm)
  | @told i k s hs ho =>
    rcases same_server ord hp i k s hs with h | ⟨h, -⟩
    · exact h
    · rcases he with he | he
      · exact Reach.ref he (.told h ho)
      · exact he
  | @watcher i k s u hs ho =>
    obtain ⟨s0, h1, h2⟩ := event_watcher ord w ev i k s u hs ho
    have : Reach w (.server i k) := by
      rcases he with he | he
      · exact he
      · exact Reach.ref he (.server h1)
    exact Reach.ref this (.watcher h1 h2)
  | @user u _ hm =>
    cases ev with
    | does op => exact within_of_reach (Reach.ref he (.user hm))
    | del a => exact within_of_reach (Reach.ref he (.user hm))
    | keeps e => exact within_of_reach (Reach.ref he (.user hm))
    | forgets e => exact within_of_reach (Reach.ref he (.user hm))
    | refers v es =>
      replace hm : e' ∈ (if u = v then es else w.user u) := hm
      split at hm
      · exact within_of_reach (hp.2 _ hm)
      · exact within_of_reach (Reach.ref he (.user hm))
    | ends a b => exact within_of_reach (Reach.ref he (.user hm))

theorem reach_step (ord : List Int → List Int) {w : Memory} {ev : Event} (hp : Possible ord w ev) {e : Ent} (h : Reach (step ord w ev) e) : Within w e := by
  induction h with
  | @held e hm =>
    cases ev with
    | does op => exact within_of_reach (.held hm)
    | del a => exact within_of_reach (.held hm)
    | keeps e =>
      rcases List.mem_cons.mp hm with rfl | hm
      · exact within_of_reach hp
      · exact within_of_reach (.held hm)
    | forgets e => exact within_of_reach (.held (List.mem_filter.mp hm).1)
    | refers v es => exact within_of_reach (.held hm)
    | ends a b => exact within_of_reach (.held hm)
  | @thread i k hr =>
    obtain ⟨s, h1, h2, h3⟩ := hr
    rcases same_server ord hp i k s h1 with h | ⟨h, hd⟩
    · exact Or.inr h
    · exact Or.inl (.thread ⟨s, h, h2, fun hm => h3 (hd hm)⟩)
  | ref _ hr ih => exact refers_step ord hp ih hr

theorem unreached_step (ord : List Int → List Int) {w : Memory} {ev : Event} (hp : Possible ord w ev) {i : Nat} (h : ¬ Reach w (.node i)) :
    ¬ Reach (step ord w ev) (.node i) ∧ (serversOf (step ord w ev) i = serversOf w i ∨ serversOf (step ord w ev) i = []) := by
  refine ⟨fun hr => h (reach_step ord hp hr), ?_⟩
  by_cases h3 : ev = .del i
  · subst h3; exact Or.inr (by rw [del_servers, if_pos rfl])
  · refine Or.inl (event_servers ord w ev i ?_ ?_ h3)
    · rintro net c rfl; exact h (hp.1 _ List.mem_cons_self)
    · rintro c rfl; exact h (hp.1 _ List.mem_cons_self)

theorem gone_run (ord : List Int → List Int) (i : Nat) : ∀ (evs : List Event) {w : Memory}, ¬ Reach w (.node i) → serversOf w i = [] → AllPossible ord w evs →
    ¬ Reach (run ord w evs) (.node i) ∧ serversOf (run ord w evs) i = []
  | [], _, h, hs, _ => ⟨h, hs⟩
  | ev :: evs, w, h, hs, hp => by
    obtain ⟨h1, h2⟩ := unreached_step ord hp.1 h
    refine gone_run ord i evs h1 ?_ hp.2
    rcases h2 with h2 | h2
    · rw [h2, hs]
    · exact h2

/-! ### Nothing is kept -/

theorem nothing_reached {w : Memory} (hh : w.held = []) (hu : Untold w) {e : Ent} (h : Reach w e) : ∃ i k, e = .server i k ∧ Running w i k := by
  induction h with
  | held hm => rw [hh] at hm; cases hm
  | thread hr => exact ⟨_, _, rfl, hr⟩
  | ref _ hr ih =>
    obtain ⟨i, k, rfl, hrun⟩ := ih
    cases hr with
    | told hs ho => rw [hu _ _ _ hrun hs] at ho; cases ho
    | watcher hs ho => rw [hu _ _ _ hrun hs] at ho; cases ho

theorem del_running (ord : List Int → List Int) (w : Memory) (a i k : Nat) (h : Running (step ord w (.del a)) i k) : i ≠ a ∧ Running w i k := by
  obtain ⟨s, h1, h2, h3⟩ := h
  rw [del_servers] at h1
  by_cases e : i = a
  · rw [if_pos e] at h1; simp at h1
  · rw [if_neg e] at h1
    refine ⟨e, s, h1, h2, fun hm => h3 (List.mem_filter.mpr ⟨hm, by simpa using e⟩)⟩

theorem del_untold (ord : List Int → List Int) {w : Memory} (hu : Untold w) (a : Nat) : Untold (step ord w (.del a)) := by
  intro i k s hr hs
  obtain ⟨e, hr⟩ := del_running ord w a i k hr
  rw [del_servers, if_neg e] at hs
  exact hu i k s hr hs

theorem collect (ord : List Int → List Int) : ∀ (is : List Nat) {w : Memory}, w.held = [] → Untold w →
    AllPossible ord w (is.map .del) ∧ ∀ i, serversOf (run ord w (is.map .del)) i = if i ∈ is then [] else serversOf w i
  | [], _, _, _ => ⟨trivial, fun i => rfl⟩
  | a :: is, w, hh, hu => by
    obtain ⟨h1, h2⟩ := collect ord is (w := step ord w (.del a)) hh (del_untold ord hu a)
    refine ⟨⟨fun hr => ?_, h1⟩, fun i => ?_⟩
    · obtain ⟨_, _, e, -⟩ := nothing_reached hh hu hr
      cases e
    · have := h2 i
      rw [List.map_cons]
      show serversOf (run ord (step ord w (.del a)) (is.map .del)) i = _
      rw [this, del_servers]
      by_cases e : i = a
      · simp [e]
      · simp [e]

theorem forget_all (ord : List Int → List Int) : ∀ (es : List Ent) (w : Memory), AllPossible ord w (es.map .forgets) ∧
    run ord w (es.map .forgets) = { w with held := w.held.filter fun e => decide (e ∉ es) }
  | [], w => ⟨trivial, by
      show w = { w with held := _ }
      have : w.held.filter (fun e => decide (e ∉ ([] : List Ent))) = w.held := by
        rw [List.filter_eq_self]; intro a _; simp
      rw [this]⟩
  | e :: es, w => by
    obtain ⟨h1, h2⟩ := forget_all ord es (step ord w (.forgets e))
    refine ⟨⟨trivial, h1⟩, ?_⟩
    show run ord (step ord w (.forgets e)) (es.map .forgets) = _
    rw [h2]
    show ({ w with held := (w.held.filter (· ≠ e)).filter _ } : Memory) = _
    rw [List.filter_filter]
    congr 1
    apply List.filter_congr
    intro x _
    simp only [List.mem_cons, not_or, ne_eq, Bool.decide_and]
    exact Bool.and_comm _ _

end Uecho.Life
