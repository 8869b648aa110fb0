/- Property C145 (several nodes in one program). -/
import Verif.Lemmas.Pool
import Verif.Props.Isolation

namespace Uecho
open Spec

/-- C145 (objects that are added once). Several nodes are used by one program, which also keeps references to all objects and changes them at any time. As long as no object is added twice,
every node is what it would be if it were alone: the same as after what was done to it and to its objects, and to nothing else. Missing: objects added to more than one node, or more than
once (`C145_shared_false`, `C145_moved_false`). -/
theorem C145_alone_partial (ord : List Int → List Int) (h : Pool.Heap) (hn : NoObjects h) (ops : List Pool.Op) (ha : (addedObjs ops).Nodup) (i : Nat) :
    nodeView (Pool.run ord h ops) i = runOps ord (nodeView h i) (lifeOf ord i h ops) :=
  (Pool.run_views ord i ops h (Pool.apart_none hn).1 ha (fun j _ => (Pool.apart_none hn).2 j)).1

/-- C145 (objects that are added once). What happens to other nodes and their objects is nothing to a node. -/
theorem C145_others_partial (ord : List Int → List Int) (h : Pool.Heap) (hn : NoObjects h) (ops : List Pool.Op) (op : Pool.Op)
    (ha : (addedObjs ops).Nodup) (i : Nat) (ho : forNode i (Pool.run ord h ops) op = []) :
    nodeView (Pool.step ord (Pool.run ord h ops) op) i = nodeView (Pool.run ord h ops) i := by
  rw [Pool.step_view ord (Pool.run_views ord i ops h (Pool.apart_none hn).1 ha (fun j _ => (Pool.apart_none hn).2 j)).2 op i, ho]
  rfl

/-- C145 (objects that are added once). Receiving a message and adding an object end as they would on the node alone: with the same result or the same exception. -/
theorem C145_outcome_partial (ord : List Int → List Int) (h : Pool.Heap) (hn : NoObjects h) (ops : List Pool.Op) (ha : (addedObjs ops).Nodup) (i : Nat) :
    (∀ env net m, (Pool.messageReceived env net (Pool.run ord h ops) i m).2 = ((nodeView (Pool.run ord h ops) i).messageReceived env net m).2) ∧
    (∀ j, (Pool.addObject ord (Pool.run ord h ops) i j).2 = ((nodeView (Pool.run ord h ops) i).addObject ord ((Pool.run ord h ops).objs j)).2) := by
  have hap := (Pool.run_views ord i ops h (Pool.apart_none hn).1 ha (fun j _ => (Pool.apart_none hn).2 j)).2
  exact ⟨fun env net m => (Pool.receive_views hap env net i m).2.1, fun j => (Pool.add_view ord _ i j).2.1⟩

theorem view_new {ord : List Int → List Int} (hord : ValidOrder ord) {h : Pool.Heap} (hn : NewNodes ord h) (i : Nat) :
    ∃ rnd ctl, nodeView h i = (LocalNode.new ord rnd ctl).1 := by
  obtain ⟨rnd, ctl, hb⟩ := hn.2 i
  obtain ⟨n0, h0, -, hobj, -⟩ := localNode_new hord rnd ctl
  refine ⟨rnd, ctl, ?_⟩
  rw [h0] at hb ⊢
  simp only [nodeView, hn.1 i, hb]
  show ({ n0 with node := { n0.node with objects := [(0x0EF001, Slot.profile)] } } : LocalNode) = n0
  rw [← hobj]

theorem forNode_allowed (i : Nat) (h : Pool.Heap) (op : Pool.Op) (ho : KeepsCodes op) : ∀ o ∈ forNode i h op, NodeOp.Allowed o := by
  intro o hm
  cases op with
  | change j f =>
    simp only [forNode] at hm
    cases hk : keyOf (h.nodes i).table j with
    | none => rw [hk] at hm; cases hm
    | some c =>
      rw [hk] at hm
      rw [List.mem_singleton.mp hm]
      exact ho
  | receive k env net m =>
    simp only [forNode] at hm
    split at hm
    · rw [List.mem_singleton.mp hm]; exact ho
    · cases hm
  | add k j => simp only [forNode] at hm; split at hm <;> simp at hm; rw [hm]; trivial
  | enable k opt v => simp only [forNode] at hm; split at hm <;> simp at hm; rw [hm]; trivial
  | start k net caller => simp only [forNode] at hm; split at hm <;> simp at hm; rw [hm]; trivial
  | stop k caller => simp only [forNode] at hm; split at hm <;> simp at hm; rw [hm]; trivial
  | announce k net m => simp only [forNode] at hm; split at hm <;> simp at hm; rw [hm]; trivial
  | send k net m a => simp only [forNode] at hm; split at hm <;> simp at hm; rw [hm]; trivial

theorem lifeOf_allowed (ord : List Int → List Int) (i : Nat) : ∀ (ops : List Pool.Op) (h : Pool.Heap), (∀ op ∈ ops, KeepsCodes op) →
    ∀ o ∈ lifeOf ord i h ops, NodeOp.Allowed o := by
  intro ops
  induction ops with
  | nil => intro h _ o hm; cases hm
  | cons op ops ih =>
    intro h hk o hm
    rcases List.mem_append.mp hm with w | w
    · exact forNode_allowed i h op (hk op List.mem_cons_self) o w
    · exact ih _ (fun op' h' => hk op' (List.mem_cons_of_mem _ h')) o w

/-- C145 (objects that are added once). So every node of such a program is one of the nodes all other theorems are about. -/
theorem C145_reachable_partial {ord : List Int → List Int} (hord : ValidOrder ord) (h : Pool.Heap) (hn : NewNodes ord h) (ops : List Pool.Op)
    (ha : (addedObjs ops).Nodup) (hk : ∀ op ∈ ops, KeepsCodes op) (i : Nat) : Reachable ord (nodeView (Pool.run ord h ops) i) := by
  obtain ⟨rnd, ctl, hv⟩ := view_new hord hn i
  refine ⟨rnd, ctl, lifeOf ord i h ops, lifeOf_allowed ord i ops h hk, ?_⟩
  rw [C145_alone_partial ord h hn.1 ops ha i, hv]

/-- C145 is false for an object that is in two nodes, whatever else the program did: a message one of the nodes receives changes what the other has. -/
theorem C145_shared_false (env : Env) (net : Net) (h : Pool.Heap) (i i' j : Nat) (c' : Int) (m : Msg) (hm : Encodable m)
    (h1 : Dict.get? (h.nodes i).table (m.deoj % 2 ^ 24) = some (.obj j)) (h2 : Dict.get? (h.nodes i').table c' = some (.obj j)) :
    (nodeView h i').getObject (.int c') = some (h.objs j) ∧
    (nodeView (Pool.messageReceived env net h i m).1 i').getObject (.int c') = some ((h.objs j).messageReceived env (received m)).obj := by
  obtain ⟨w1, w2⟩ := Pool.receive_object env net h i j m hm h1
  refine ⟨Pool.object_view h i' j c' h2, ?_⟩
  rw [Pool.object_view _ i' j c' (by rw [w2]; exact h2), w1]
  simp only [if_pos]

/-- Two nodes, and an object of the program. -/
def exPool (ord : List Int → List Int) : Pool.Heap :=
  { nodes := fun _ => { base := (LocalNode.new ord ⟨[], 0, 0⟩ false).1 }, objs := fun _ => exObj }

theorem exPool_new (ord : List Int → List Int) : NewNodes ord (exPool ord) := ⟨fun _ => rfl, fun _ => ⟨_, _, rfl⟩⟩

/-- A lamp that is added to two nodes and switched on through the first is on for the second, to which nothing happened; and the lamp says it belongs to the node it was added to last. -/
theorem C145_lamp_false {ord : List Int → List Int} :
    ∃ ops, NewNodes ord (exPool ord) ∧ (∀ op ∈ ops, KeepsCodes op) ∧
      forNode 1 (Pool.run ord (exPool ord) ops) (.receive 0 exEnv okNet exVisitW.msg) = [] ∧
      ((nodeView (Pool.run ord (exPool ord) ops) 1).getObject (.int 0x029101)).map (fun o => o.getPropertyData 0x80) = some (some [0x30]) ∧
      ((nodeView (Pool.step ord (Pool.run ord (exPool ord) ops) (.receive 0 exEnv okNet exVisitW.msg)) 1).getObject (.int 0x029101)).map (fun o => o.getPropertyData 0x80) =
        some (some [0x31]) ∧
      (Pool.run ord (exPool ord) ops).home 0 = some 1 := by
  refine ⟨[.add 0 0, .add 1 0], exPool_new ord, ?_, rfl, ?_⟩
  · intro op hop
    simp only [List.mem_cons, List.not_mem_nil, or_false] at hop
    rcases hop with rfl | rfl <;> trivial
  have hobj : (Pool.run ord (exPool ord) [.add 0 0, .add 1 0]).objs 0 = exObj := rfl
  have t0 : ((Pool.run ord (exPool ord) [.add 0 0, .add 1 0]).nodes 0).table = [(0x0EF001, .profile), (0x029101, .obj 0)] := rfl
  have t1 : ((Pool.run ord (exPool ord) [.add 0 0, .add 1 0]).nodes 1).table = [(0x0EF001, .profile), (0x029101, .obj 0)] := rfl
  obtain ⟨w1, w2⟩ := C145_shared_false exEnv okNet (Pool.run ord (exPool ord) [.add 0 0, .add 1 0]) 0 1 0 0x029101 exVisitW.msg (by decide +kernel)
    (by rw [t0]; decide +kernel) (by rw [t1]; decide +kernel)
  refine ⟨?_, ?_, rfl⟩
  · rw [w1, hobj]; decide +kernel
  · show ((nodeView (Pool.messageReceived exEnv okNet _ 0 exVisitW.msg).1 1).getObject _).map _ = _
    rw [w2, hobj]; decide +kernel

/-- An object that is given another code and added again is in the node twice: under the old code, where it does not say it is, and under the new one; a write to the one code is a write to both. -/
theorem C145_moved_false {ord : List Int → List Int} :
    ∃ ops, NewNodes ord (exPool ord) ∧
      (nodeView (Pool.run ord (exPool ord) ops) 0).node.objects.map Prod.fst = [0x0EF001, 0x029101, 0x029102] ∧
      ((nodeView (Pool.run ord (exPool ord) ops) 0).getObject (.int 0x029101)).map Obj.code = some 0x029102 ∧
      ((nodeView (Pool.run ord (exPool ord) ops) 0).getObject (.int 0x029102)).map (fun o => o.getPropertyData 0x80) = some (some [0x30]) ∧
      ((nodeView (Pool.step ord (Pool.run ord (exPool ord) ops) (.receive 0 exEnv okNet exVisitW.msg)) 0).getObject (.int 0x029102)).map (fun o => o.getPropertyData 0x80) =
        some (some [0x31]) := by
  refine ⟨[.add 0 0, .change 0 (fun o => { o with code := 0x029102 }), .add 0 0], exPool_new ord, ?_⟩
  generalize hh : Pool.run ord (exPool ord) [.add 0 0, .change 0 (fun o => { o with code := 0x029102 }), .add 0 0] = h
  have hobj : h.objs 0 = { exObj with code := 0x029102 } := by rw [← hh]; rfl
  have t0 : (h.nodes 0).table = [(0x0EF001, .profile), (0x029101, .obj 0), (0x029102, .obj 0)] := by rw [← hh]; rfl
  have g1 : Dict.get? (h.nodes 0).table 0x029101 = some (.obj 0) := by rw [t0]; decide +kernel
  have g2 : Dict.get? (h.nodes 0).table 0x029102 = some (.obj 0) := by rw [t0]; decide +kernel
  obtain ⟨w1, w2⟩ := C145_shared_false exEnv okNet h 0 0 0 0x029102 exVisitW.msg (by decide +kernel) g1 g2
  refine ⟨?_, ?_, ?_, ?_⟩
  · simp only [nodeView, t0]; rfl
  · rw [Pool.object_view h 0 0 _ g1, hobj]; rfl
  · rw [w1, hobj]; decide +kernel
  · show ((nodeView (Pool.messageReceived exEnv okNet _ 0 exVisitW.msg).1 0).getObject _).map _ = _
    rw [w2, hobj]; decide +kernel

/-- Two lamps in two nodes: the one is switched on, the other is not. -/
example {ord : List Int → List Int} : ∃ ops, NewNodes ord (exPool ord) ∧ (addedObjs ops).Nodup ∧ (∀ op ∈ ops, KeepsCodes op) ∧
    (lifeOf ord 1 (exPool ord) ops).length = 2 ∧
    ((nodeView (Pool.run ord (exPool ord) ops) 0).getObject (.int 0x029101)).map (fun o => o.getPropertyData 0x80) = some (some [0x31]) ∧
    ((nodeView (Pool.run ord (exPool ord) ops) 1).getObject (.int 0x029101)).map (fun o => o.getPropertyData 0x80) = some (some [0x07]) := by
  refine ⟨[.add 0 0, .add 1 1, .change 1 (fun o => o.storeData 0x80 [0x07]), .receive 0 exEnv okNet exVisitW.msg], exPool_new ord, by decide, ?_, rfl, ?_⟩
  · intro op hop
    simp only [List.mem_cons, List.not_mem_nil, or_false] at hop
    rcases hop with rfl | rfl | rfl | rfl
    · trivial
    · trivial
    · exact fun o => rfl
    · exact exEnv_stable
  generalize hh : Pool.run ord (exPool ord) [.add 0 0, .add 1 1, .change 1 (fun o => o.storeData 0x80 [0x07])] = h
  have hrun : Pool.run ord (exPool ord) [.add 0 0, .add 1 1, .change 1 (fun o => o.storeData 0x80 [0x07]), .receive 0 exEnv okNet exVisitW.msg] =
      (Pool.messageReceived exEnv okNet h 0 exVisitW.msg).1 := by rw [← hh]; rfl
  have o0 : h.objs 0 = exObj := by rw [← hh]; rfl
  have o1 : h.objs 1 = exObj.storeData 0x80 [0x07] := by rw [← hh]; rfl
  have g0 : Dict.get? (h.nodes 0).table 0x029101 = some (.obj 0) := by rw [← hh]; rfl
  have g1 : Dict.get? (h.nodes 1).table 0x029101 = some (.obj 1) := by rw [← hh]; rfl
  obtain ⟨w1, w2⟩ := Pool.receive_object exEnv okNet h 0 0 exVisitW.msg (by decide +kernel) g0
  rw [hrun, Pool.object_view _ 0 0 _ (by rw [w2]; exact g0), Pool.object_view _ 1 1 _ (by rw [w2]; exact g1), w1]
  simp only [if_pos, Nat.one_ne_zero, if_false, o0, o1]
  decide +kernel

end Uecho
