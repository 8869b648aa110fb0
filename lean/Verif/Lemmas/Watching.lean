/- Observers that use the node. -/
import Verif.Spec.Watching
import Verif.Lemmas.Calling

namespace Uecho
open Spec

/-- Who observes the object with this code, if there is one. -/
def observersAt (n : LocalNode) (c : Int) : Option (List Nat) := (Dict.get? n.node.objects c).map fun s => (n.deref s).observers

theorem afterWrites_observers (o : Obj) (items : List PProp) : (afterWrites o items).observers = o.observers := rfl

theorem leaves_run {ord : List Int → List Int} (hord : ValidOrder ord) (c : Int) (n : LocalNode) (hi : NodeInv n) (op : NodeOp) (h : Leaves c op) :
    observersAt (op.run ord n) c = observersAt n c := by
  cases op with
  | add o =>
    obtain ⟨-, -, h3, ⟨items, h4⟩, -⟩ := addObject_inv hord n o hi
    have h : o.code ≠ c := h
    show observersAt (n.addObject ord o).1 c = _
    unfold observersAt
    rw [h3, Dict.get?_set, if_neg h]
    cases Dict.get? n.node.objects c with
    | none => rfl
    | some s =>
      cases s with
      | profile =>
        show some (n.addObject ord o).1.profile.observers = some n.profile.observers
        rw [h4, afterWrites_observers]
      | user o => rfl
  | receive env net m => exact h.elim
  | enable opt v =>
    show observersAt (n.setEnabled opt v) c = _
    unfold LocalNode.setEnabled
    split <;> rfl
  | start net caller =>
    show observersAt (n.start net caller).1 c = _
    unfold LocalNode.start
    rcases n.mgr.start net caller [] with ⟨g, e | (_ | _)⟩
    · rfl
    · rfl
    · have : ∀ (x : Option Addr), observersAt { n with mgr := g.addObserver 0, node := (n.node.setAddress x).1 } c = observersAt n c := by
        intro x
        cases x <;> rfl
      exact this _
  | stop caller => rfl
  | announce net m => rfl
  | send net m a => rfl
  | update k f =>
    have h : ∀ o, (f o).observers = o.observers := h
    show observersAt (n.update k f) c = _
    unfold LocalNode.update
    cases hk : Dict.get? n.node.objects k with
    | none => rfl
    | some s =>
      cases s with
      | profile => rfl
      | user o =>
        unfold observersAt
        show (Dict.get? (Dict.modify n.node.objects k fun _ => .user (f o)) c).map _ = _
        rw [Dict.get?_modify]
        by_cases e : k = c
        · subst e
          rw [if_pos rfl, hk]
          exact congrArg some (h o)
        · rw [if_neg e]
          cases Dict.get? n.node.objects c with
          | none => rfl
          | some s => cases s <;> rfl

theorem leaves_runs {ord : List Int → List Int} (hord : ValidOrder ord) (c : Int) (ops : List NodeOp) : ∀ n, NodeInv n → (∀ op ∈ ops, op.Allowed ∧ Leaves c op) →
    NodeInv (runOps ord n ops) ∧ observersAt (runOps ord n ops) c = observersAt n c := by
  induction ops with
  | nil => exact fun n hi _ => ⟨hi, rfl⟩
  | cons op ops ih =>
    intro n hi h
    have h1 := h op (by simp)
    obtain ⟨i1, i2⟩ := ih (op.run ord n) (run_inv hord n op hi h1.1).1 fun x hx => h x (by simp [hx])
    exact ⟨i1, i2.trans (leaves_run hord c n hi op h1.2)⟩

/-- Observers that make calls are told as others are. -/
theorem watch_loop {ord : List Int → List Int} {P : NodeOp → Prop} {env : Env} {W : Watching.Watcher} (hW : Watches ord P env W) (m : Msg) (ks : List Nat) : ∀ n,
    ∃ ops, (∀ op ∈ ops, P op) ∧ Watching.notifyLoop W m ks n = (runOps ord n ops, (Obj.notify env m ks).2) := by
  induction ks with
  | nil => exact fun n => ⟨[], by simp, rfl⟩
  | cons k ks ih =>
    intro n
    obtain ⟨ops, h1, h2⟩ := hW k n m
    unfold Watching.notifyLoop Obj.notify
    rw [h2]
    cases env.observe k m with
    | some e => exact ⟨ops, h1, rfl⟩
    | none =>
      obtain ⟨ops', h3, h4⟩ := ih (runOps ord n ops)
      refine ⟨ops ++ ops', ?_, ?_⟩
      · intro op ho
        rcases List.mem_append.mp ho with ho | ho
        · exact h1 op ho
        · exact h3 op ho
      · simp only []
        rw [h4]
        unfold runOps
        rw [List.foldl_append]

end Uecho
