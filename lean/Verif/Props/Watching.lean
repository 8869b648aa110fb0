/-
Observers of objects that use the node: send, announce, change properties, add objects, start, stop, while they are told of a message.
-/
import Verif.Lemmas.Watching
import Verif.Props.Calling

namespace Uecho
open Spec

theorem watching_eq (W : Watching.Watcher) (handle : Int → LocalNode → Msg → LocalNode × Except Exc (Option Msg)) (net : Net) (n : LocalNode) (m : Msg) (hm : Encodable m) :
    Watching.receive W handle net n m = match Dict.get? n.node.objects (m.deoj % 2 ^ 24) with
      | none => (n, .ok ())
      | some s => match Watching.notifyLoop W (received m) (n.deref s).observers n with
        | (n, some e) => (n, .error e)
        | (n, none) => match handle (m.deoj % 2 ^ 24) n (received m) with
          | (n, .error e) => (n, .error e)
          | (n, .ok res) => n.answer net (received m) res := by
  unfold Watching.receive
  rw [if_neg (by rw [not_self]; simp)]
  obtain ⟨c, h1, -, -, -, h2⟩ := (C10_copy m).1 hm
  rw [h1, h2]
  rfl

/-- C141. An observer may call the node while it is told of a message: the message is then handled exactly as if these calls had been made just before it arrived. If an observer
raises, so does the handling, as without calls. -/
theorem C141_calls {ord : List Int → List Int} (hord : ValidOrder ord) {n : LocalNode} (hr : Reachable ord n) (env : Env) (net : Net) {W : Watching.Watcher} (m : Msg)
    (hW : Watches ord (fun op => op.Allowed ∧ Leaves (m.deoj % 2 ^ 24) op) env W) :
    ∃ ops, (∀ op ∈ ops, op.Allowed ∧ Leaves (m.deoj % 2 ^ 24) op) ∧ Watching.messageReceived W env net n m = (runOps ord n ops).messageReceived env net m := by
  by_cases hm : Encodable m
  swap
  · refine ⟨[], by simp, ?_⟩
    rw [messageReceived_unfit _ _ _ _ hm]
    unfold Watching.messageReceived Watching.receive
    rw [if_neg (by rw [not_self]; simp), (C10_copy m).2 hm]
    rfl
  unfold Watching.messageReceived
  rw [watching_eq _ _ _ _ _ hm]
  cases hs : Dict.get? n.node.objects (m.deoj % 2 ^ 24) with
  | none =>
    refine ⟨[], by simp, ?_⟩
    show _ = n.messageReceived env net m
    rw [messageReceived_eq _ _ _ _ hm, hs]
  | some s =>
    obtain ⟨ops, h1, h2⟩ := watch_loop hW (received m) (n.deref s).observers n
    refine ⟨ops, h1, ?_⟩
    have hobs := (leaves_runs hord _ ops n (reachable_inv hord hr) h1).2
    unfold observersAt at hobs
    rw [hs, Option.map_some] at hobs
    obtain ⟨s', e1, e2⟩ := Option.map_eq_some_iff.mp hobs
    rw [messageReceived_eq _ _ _ _ hm, e1]
    simp only [h2]
    unfold Obj.messageReceived
    rw [e2]
    generalize hq : Obj.notify env (received m) (n.deref s).observers = q
    rcases q with ⟨l, _ | e⟩
    · simp only [Watching.plainly, e1]
      rcases ((runOps ord n ops).deref s').handleRequest env (received m) with ⟨o, r⟩
      rcases r with e | r <;> rfl
    · simp only []
      have h0 : (runOps ord n ops).putBack (m.deoj % 2 ^ 24) s' ((runOps ord n ops).deref s') = runOps ord n ops := by
        cases s' with
        | profile => rfl
        | user o =>
          show { runOps ord n ops with node := { (runOps ord n ops).node with objects := (runOps ord n ops).node.objects.modify (m.deoj % 2 ^ 24) (fun _ => .user o) } } = runOps ord n ops
          rw [Dict.modify_const_get? _ _ _ e1]
      rw [h0]

/-- The same if the handler of the object addressed makes calls too: first the observers' calls, then the request as in C138. -/
theorem C141_both {ord : List Int → List Int} (hord : ValidOrder ord) {n : LocalNode} (hr : Reachable ord n) (env : Env) (net : Net) {W : Watching.Watcher} (H : Calling.NodeHandler) (m : Msg)
    (hm : Encodable m) (hW : Watches ord (fun op => op.Allowed ∧ Leaves (m.deoj % 2 ^ 24) op) env W) :
    ∃ ops, (∀ op ∈ ops, op.Allowed ∧ Leaves (m.deoj % 2 ^ 24) op) ∧ Watching.bothReceived W H net n m = Calling.messageReceived H env net (runOps ord n ops) m := by
  unfold Watching.bothReceived
  rw [watching_eq _ _ _ _ _ hm]
  cases hs : Dict.get? n.node.objects (m.deoj % 2 ^ 24) with
  | none =>
    refine ⟨[], by simp, ?_⟩
    show _ = Calling.messageReceived H env net n m
    rw [calling_eq _ _ _ _ _ hm, hs]
  | some s =>
    obtain ⟨ops, h1, h2⟩ := watch_loop hW (received m) (n.deref s).observers n
    refine ⟨ops, h1, ?_⟩
    have hobs := (leaves_runs hord _ ops n (reachable_inv hord hr) h1).2
    unfold observersAt at hobs
    rw [hs, Option.map_some] at hobs
    obtain ⟨s', e1, e2⟩ := Option.map_eq_some_iff.mp hobs
    rw [calling_eq _ _ _ _ _ hm, e1]
    have e3 : Calling.own (runOps ord n ops) (m.deoj % 2 ^ 24) = (runOps ord n ops).deref s' := by
      unfold Calling.own
      rw [e1]
    simp only [h2]
    rw [e3, e2]
    rcases Obj.notify env (received m) (n.deref s).observers with ⟨l, _ | e⟩ <;> rfl

/-- So a node whose observers make calls has a history as any other: what holds after every history of a node holds for it. -/
theorem C141_reachable {ord : List Int → List Int} (hord : ValidOrder ord) {n : LocalNode} (hr : Reachable ord n) (env : Env) (hst : CodeStable env) (net : Net) {W : Watching.Watcher} (m : Msg)
    (hW : Watches ord (fun op => op.Allowed ∧ Leaves (m.deoj % 2 ^ 24) op) env W) : Reachable ord (Watching.messageReceived W env net n m).1 := by
  obtain ⟨ops, h1, h2⟩ := C141_calls hord hr env net m hW
  obtain ⟨rnd, ctl, hist, a1, a2⟩ := hr
  rw [h2]
  refine ⟨rnd, ctl, hist ++ ops ++ [.receive env net m], ?_, ?_⟩
  · intro op ho
    simp only [List.mem_append, List.mem_singleton] at ho
    rcases ho with (ho | ho) | rfl
    · exact a1 op ho
    · exact (h1 op ho).1
    · exact hst
  · rw [a2]
    unfold runOps
    rw [List.foldl_append, List.foldl_append]
    rfl

/-- An observer that counts the messages in a property and announces the count. -/
def counter (net : Net) (code c : Int) : Watching.Watcher := fun _ n _ =>
  let n := n.update code fun o => o.storeData c ((o.getPropertyData c).getD [] ++ [1])
  ((n.announceMessage net (infOf code c (((Calling.own n code).getPropertyData c).getD []))).1, none)

theorem counter_watches (ord : List Int → List Int) (net : Net) (code c : Int) (k : Int) (env : Env) (hq : ∀ j m, env.observe j m = none) :
    Watches ord (fun op => op.Allowed ∧ Leaves k op) env (counter net code c) := by
  intro j n m
  refine ⟨[.update code fun o => o.storeData c ((o.getPropertyData c).getD [] ++ [1]), .announce net
    (infOf code c (((Calling.own (n.update code fun o => o.storeData c ((o.getPropertyData c).getD [] ++ [1])) code).getPropertyData c).getD []))], ?_, ?_⟩
  · intro op ho
    simp only [List.mem_cons, List.not_mem_nil, or_false] at ho
    rcases ho with rfl | rfl
    · exact ⟨fun _ => rfl, fun _ => rfl⟩
    · exact ⟨trivial, trivial⟩
  · rw [hq]
    rfl

/-- A running node with such an observer, and a message to the object observed. -/
example (k : Int) : ∃ n : LocalNode, Reachable List.dedup n ∧ ((Dict.get? n.node.objects 0x029101).map fun s => (n.deref s).observers) = some [4] ∧
    Watches List.dedup (fun op => op.Allowed ∧ Leaves k op) { exEnv with observe := fun _ _ => none } (counter okNet 0x029101 0x80) :=
  ⟨runOps List.dedup (LocalNode.new List.dedup ⟨[], 0, 0⟩ false).1 [.add { exObj with handler := .user 0, observers := [4] }, .start okNet none],
    ⟨_, _, _, by intro op ho; simp only [List.mem_cons, List.not_mem_nil, or_false] at ho; rcases ho with rfl | rfl <;> trivial, rfl⟩, by decide +kernel,
    counter_watches _ _ _ _ _ _ fun _ _ => rfl⟩

end Uecho
