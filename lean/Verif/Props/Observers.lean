/- C93: observers of a local node. -/
import Verif.Model.Observers
import Verif.Props.Frame

namespace Uecho
open Spec

/-- The numbers in order of first occurrence, after those in `seen`. -/
def Spec.firsts (seen ks : List Nat) : List Nat := ks.foldl (fun l k => if k ∈ l then l else l ++ [k]) seen

/-- Observers that write down that they were called, and with what. -/
def Spec.scribe (k : Nat) (l : List (Nat × Msg)) (m : Msg) : List (Nat × Msg) × Option Exc := (l ++ [(k, m)], none)

theorem addObservers_servers (ks : List Nat) : ∀ (n : LocalNode),
    (n.addObservers ks).mgr.servers = n.mgr.servers.map fun s => { s with observers := firsts s.observers ks } := by
  induction ks with
  | nil => intro n; show n.mgr.servers = n.mgr.servers.map _; simp [firsts]
  | cons k ks ih =>
    intro n
    show ((n.addObserver k).addObservers ks).mgr.servers = _
    rw [ih]
    show (n.mgr.servers.map _).map _ = _
    rw [List.map_map]
    apply List.map_congr_left
    intro s _
    show _ = ({ s with observers := firsts (if k ∈ s.observers then s.observers else s.observers ++ [k]) ks } : Server)
    simp only [Function.comp]
    split <;> rfl

/-- A start that succeeds leaves servers whose only observer is the node. -/
theorem start_observers {n n1 : LocalNode} {net : Net} {caller : Option Nat} {as : List String} (h : n.start net caller as = (n1, .ok true)) :
    n1.mgr.servers ≠ [] ∧ ∀ s ∈ n1.mgr.servers, s.observers = [0] := by
  unfold LocalNode.start at h
  unfold Manager.start at h
  rcases hst : n.mgr.stop caller with ⟨g, e | (_ | _)⟩
  · rw [hst] at h; cases h
  · rw [hst] at h; cases h
  · rw [hst] at h
    simp only [] at h
    have hg : g.servers = [] := by
      unfold Manager.stop at hst
      rcases hl : Manager.stopLoop caller n.mgr.servers 0 with ⟨ss, _ | e⟩
      · rw [hl] at hst
        injection hst with hst _
        rw [← hst]
      · rw [hl] at hst; cases hst
    generalize (if ([] : List String).length ≤ 0 then getAllIpaddrs net.interfaces [] else []) = as' at h
    have hok := Manager.startLoop_ok net as' g
    rcases hl : Manager.startLoop net as' g with ⟨g', _ | e⟩
    · rw [hl] at h hok
      have hok := hok rfl
      simp only [] at h hok
      by_cases hlen : g'.servers.length ≤ 0
      · rw [if_pos hlen] at h
        cases h
      · rw [if_neg hlen] at h
        injection h with h _
        rw [← h]
        show g'.servers.map _ ≠ [] ∧ ∀ s ∈ g'.servers.map _, _
        constructor
        · intro e
          rw [List.map_eq_nil_iff] at e
          rw [e] at hlen
          exact hlen (Nat.le_refl _)
        · intro s hs
          obtain ⟨s', hs', rfl⟩ := List.mem_map.mp hs
          rw [hok, hg, List.nil_append] at hs'
          have ho : s'.observers = [] := by
            unfold serversFor at hs'
            obtain ⟨a, -, ha⟩ := List.mem_flatMap.mp hs'
            simp only [List.mem_cons, List.not_mem_nil, or_false] at ha
            rcases ha with rfl | rfl <;> rfl
          rw [ho]
          rfl
    · rw [hl] at h; cases h

theorem scribe_fold (ks : List Nat) (m : Msg) : ∀ l, (ks.map scribe).foldl (fun st f => (f st m).1) l = l ++ ks.map fun k => (k, m) := by
  induction ks with
  | nil => intro l; simp
  | cons k ks ih => intro l; rw [List.map_cons, List.foldl_cons, ih]; simp [scribe]

/-- C93 (what holds): whoever has been added since the last successful start is called once for each message any of the
node's servers receives, after the node itself and in the order of the first addition, provided that none raises.
Missing: `C93_lost_false`. -/
theorem C93_called_partial {n n1 : LocalNode} {net : Net} {caller : Option Nat} {as : List String} (h : n.start net caller as = (n1, .ok true))
    (ks : List Nat) : (n1.addObservers ks).mgr.servers ≠ [] ∧ ∀ s ∈ (n1.addObservers ks).mgr.servers,
      (firsts [0] ks).Nodup ∧ (∀ k, k ∈ firsts [0] ks ↔ k = 0 ∨ k ∈ ks) ∧
      ∀ (m : Msg) (a : Addr), Encodable m → (encode m).length ≤ 1024 → ∀ l,
        runLoop (s.deliver scribe) l [(encode m, a)] = (l ++ (firsts [0] ks).map fun k => (k, { onWire m with fromAddr := some a }), true) := by
  obtain ⟨h1, h2⟩ := start_observers h
  rw [addObservers_servers]
  refine ⟨by intro e; exact h1 (List.map_eq_nil_iff.mp e), ?_⟩
  intro s hs
  obtain ⟨s', hs', rfl⟩ := List.mem_map.mp hs
  have hn : ∀ (ks seen : List Nat), seen.Nodup → (firsts seen ks).Nodup ∧ ∀ k, k ∈ firsts seen ks ↔ k ∈ seen ∨ k ∈ ks := by
    intro ks
    induction ks with
    | nil => intro seen hs; exact ⟨hs, fun k => by simp [firsts]⟩
    | cons x ks ih =>
      intro seen hs
      show (firsts (if x ∈ seen then seen else seen ++ [x]) ks).Nodup ∧ ∀ k, k ∈ firsts (if x ∈ seen then seen else seen ++ [x]) ks ↔ _
      split
      · rename_i hx
        refine ⟨(ih seen hs).1, fun k => ((ih seen hs).2 k).trans ?_⟩
        rw [List.mem_cons]
        constructor
        · rintro (h | h)
          · exact Or.inl h
          · exact Or.inr (Or.inr h)
        · rintro (h | rfl | h)
          · exact Or.inl h
          · exact Or.inl hx
          · exact Or.inr h
      · rename_i hx
        have hs' : (seen ++ [x]).Nodup := by
          rw [List.nodup_append]
          exact ⟨hs, by simp, by intro a ha b hb e; rw [List.mem_singleton] at hb; subst hb; exact hx (e ▸ ha)⟩
        refine ⟨(ih _ hs').1, fun k => ((ih _ hs').2 k).trans ?_⟩
        rw [List.mem_append, List.mem_singleton, List.mem_cons, or_assoc]
  have h0 := hn ks [0] (by simp)
  refine ⟨h0.1, fun k => (h0.2 k).trans (by rw [List.mem_singleton]), ?_⟩
  intro m a hm hl l
  have ho := h2 s' hs'
  unfold Server.deliver
  simp only [ho]
  rw [C56_delivered _ _ m a hm hl (by
    intro f hf st
    obtain ⟨k, -, rfl⟩ := List.mem_map.mp hf
    rfl), scribe_fold]

/-- C93 is false: observers added before the node is started, or before it is started again, are not called: after a successful
start nobody but the node itself is, whoever has been added before. -/
theorem C93_lost_false (n : LocalNode) (ks : List Nat) (net : Net) (caller : Option Nat) (as : List String) (n1 : LocalNode)
    (h : (n.addObservers ks).start net caller as = (n1, .ok true)) :
    ∀ s ∈ n1.mgr.servers, ∀ (m : Msg) (a : Addr), Encodable m → (encode m).length ≤ 1024 → ∀ l,
      runLoop (s.deliver scribe) l [(encode m, a)] = (l ++ [(0, { onWire m with fromAddr := some a })], true) := by
  intro s hs m a hm hl l
  have := ((C93_called_partial h []).2 s (by rw [addObservers_servers]; simpa [firsts] using hs)).2.2 m a hm hl l
  exact this

/-- A node that is not running does not even remember them. -/
theorem C93_forgotten_false (n : LocalNode) (ks : List Nat) (h : n.mgr.servers = []) : n.addObservers ks = n := by
  induction ks with
  | nil => rfl
  | cons k ks ih =>
    have : n.addObserver k = n := by
      unfold LocalNode.addObserver Manager.addObserver
      rw [h, List.map_nil]
      rcases n with ⟨_, _, _, ⟨ss, _, _, _⟩, _⟩
      simp only at h
      subst h
      rfl
    show (n.addObserver k).addObservers ks = n
    rw [this]
    exact ih

/-- A network with one interface. -/
def oneIf : Net := { sendto := fun _ _ _ b => .ok (b.length : Int), bind := fun _ _ _ => none, thread := fun _ => none, interfaces := [some [some "10.0.0.1"]] }

example (n : LocalNode) (hn : n.mgr.servers = []) : ∃ n1, (n.addObservers [5, 6]).start oneIf none = (n1, .ok true) ∧
    (n1.addObservers [6, 5, 6]).mgr.servers = [{ kind := .unicast, ifaddr := "10.0.0.1", open_ := true, observers := [0, 6, 5] },
      { kind := .multicast, ifaddr := "10.0.0.1", open_ := true, observers := [0, 6, 5] }] := by
  rw [C93_forgotten_false n _ hn]
  rcases n with ⟨_, _, _, ⟨ss, _, _, _⟩, _⟩
  simp only at hn
  subst hn
  refine ⟨_, rfl, ?_⟩
  rw [addObservers_servers]
  rfl

end Uecho
