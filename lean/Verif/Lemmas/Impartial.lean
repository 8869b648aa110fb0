/-
Lemmas for C143: what an object does with a request does not depend on who asks.
-/
import Verif.Spec.Impartial
import Verif.Lemmas.Dispatch

namespace Uecho
open Spec

/-- The answer, readdressed. -/
def toAsker (m : Msg) (r : Msg) : Msg := { r with tid := m.tid, deoj := m.seoj }

theorem respond_asker {m m' : Msg} (h : SameAsk m m') (res : Msg) (k : Nat) : Obj.respond m' (toAsker m' res) k = (Obj.respond m res k).map (toAsker m') := by
  obtain ⟨-, h2, h3, h4, h5⟩ := h
  unfold Obj.respond
  have e1 : m'.opc = m.opc := by unfold Msg.opc; rw [h3]
  have e2 : m'.opcSet = m.opcSet := by unfold Msg.opcSet; rw [h4]
  have e3 : m'.opcGet = m.opcGet := by unfold Msg.opcGet; rw [h5]
  rw [h2, e1, e2, e3]
  simp only []
  split_ifs <;> rfl

theorem loops_handler {env env' : Env} (he : env'.handler = env.handler) :
    (∀ o p, Obj.callRead env' o p = Obj.callRead env o p) ∧ ∀ o p d, Obj.callWrite env' o p d = Obj.callWrite env o p d := by
  refine ⟨fun o p => ?_, fun o p d => ?_⟩
  · unfold Obj.callRead; rw [he]
  · unfold Obj.callWrite; rw [he]

theorem setLoop_env {env env' : Env} (he : env'.handler = env.handler) (ms : List PProp) : ∀ o k acc, Obj.setLoop env' o ms k acc = Obj.setLoop env o ms k acc := by
  induction ms with
  | nil => exact fun _ _ _ => rfl
  | cons mp ms ih =>
    intro o k acc
    unfold Obj.setLoop
    simp only [(loops_handler he).2, ih]

theorem getLoop_handler {env env' : Env} (he : env'.handler = env.handler) (ms : List PProp) : ∀ o k acc, Obj.getLoop env' o ms k acc = Obj.getLoop env o ms k acc := by
  induction ms with
  | nil => exact fun _ _ _ => rfl
  | cons mp ms ih =>
    intro o k acc
    unfold Obj.getLoop
    simp only [(loops_handler he).1, ih]

theorem plainLoop_handler {env env' : Env} (he : env'.handler = env.handler) (esv : Int) (ms : List PProp) :
    ∀ o k acc, Obj.plainLoop env' esv o ms k acc = Obj.plainLoop env esv o ms k acc := by
  induction ms with
  | nil => exact fun _ _ _ => rfl
  | cons mp ms ih =>
    intro o k acc
    unfold Obj.plainLoop
    simp only [(loops_handler he).1, (loops_handler he).2, ih]

theorem handle_asker {env env' : Env} (he : env'.handler = env.handler) {m m' : Msg} (h : SameAsk m m') (o : Obj) :
    Obj.handleRequest env' o m' = ((Obj.handleRequest env o m).1, (Obj.handleRequest env o m).2.map (Option.map (toAsker m'))) := by
  unfold Obj.handleRequest
  have hr := fun res k => respond_asker h res k
  obtain ⟨h1, h2, h3, h4, h5⟩ := h
  rw [h2, h3, h4, h5, h1]
  split
  · rfl
  split
  · rfl
  simp only []
  split
  · rw [setLoop_env he]
    rcases Obj.setLoop env o m.setProps 0 [] with ⟨o1, e | ⟨k, sps⟩⟩
    · rfl
    · simp only []
      rw [getLoop_handler he]
      rcases Obj.getLoop env o1 m.getProps k [] with ⟨o2, e | ⟨k, gps⟩⟩
      · rfl
      · simp only [Except.map]
        rw [← hr]
        rfl
  · rw [plainLoop_handler he]
    rcases Obj.plainLoop env m.esv o m.props 0 [] with ⟨o1, e | ⟨k, ps⟩⟩
    · rfl
    · simp only [Except.map]
      rw [← hr]
      rfl

theorem notify_asker {env env' : Env} (he : SameProgram env env') {m m' : Msg} (h : SameAsk m m') (l : List Nat) : Obj.notify env' m' l = Obj.notify env m l := by
  induction l with
  | nil => rfl
  | cons k l ih =>
    unfold Obj.notify
    rw [he.2 k m m' h, ih]

theorem object_asker {env env' : Env} (he : SameProgram env env') {m m' : Msg} (h : SameAsk m m') (o : Obj) :
    (o.messageReceived env' m').obj = (o.messageReceived env m).obj ∧ (o.messageReceived env' m').notified = (o.messageReceived env m).notified ∧
    (o.messageReceived env' m').result = (o.messageReceived env m).result.map (Option.map (toAsker m')) := by
  unfold Obj.messageReceived
  rw [notify_asker he h]
  rcases Obj.notify env m o.observers with ⟨l, _ | e⟩
  · simp only []
    rw [handle_asker he.1 h]
    exact ⟨rfl, trivial, rfl⟩
  · refine ⟨?_, ?_, ?_⟩ <;> rfl

theorem received_asker {m m' : Msg} (h : SameAsk m m') : SameAsk (received m) (received m') := by
  obtain ⟨h1, h2, h3, h4, h5⟩ := h
  unfold received onWire SameAsk
  rw [h1, h2, h3, h4, h5]
  exact ⟨rfl, rfl, rfl, rfl, rfl⟩

theorem encodable_asker {m m' : Msg} (h : SameAsk m m') : Encodable m' ↔ Encodable m := by
  obtain ⟨h1, h2, h3, h4, h5⟩ := h
  unfold Encodable
  rw [h2, h3, h4, h5]

theorem devices_answer (n : LocalNode) (net : Net) (req : Msg) (r : Option Msg) : devices (n.answer net req r).1 = devices n := by
  cases r with
  | none => rfl
  | some res => rw [answer_eq]; split <;> rfl

/-- What a message does to the objects of a node. -/
theorem devices_receive (env : Env) (net : Net) (n : LocalNode) (m : Msg) (hm : Encodable m) :
    devices (n.messageReceived env net m).1 = match Dict.get? n.node.objects (m.deoj % 2 ^ 24) with
      | none => devices n
      | some s => devices (n.putBack (m.deoj % 2 ^ 24) s ((n.deref s).messageReceived env (received m)).obj) := by
  rw [messageReceived_eq _ _ _ _ hm]
  rcases Dict.get? n.node.objects (m.deoj % 2 ^ 24) with _ | s
  · rfl
  · simp only []
    rcases ((n.deref s).messageReceived env (received m)).result with e | r
    · rfl
    · exact devices_answer _ _ _ _

theorem devices_idle {ord : List Int → List Int} (op : NodeOp) (h : Touches op = false) (n : LocalNode) : devices (op.run ord n) = devices n := by
  cases op with
  | add o => cases h
  | update c f => cases h
  | receive e t m => cases h
  | enable o v => show devices (n.setEnabled o v) = _; unfold LocalNode.setEnabled; split <;> rfl
  | start net c =>
    show devices (n.start net c).1 = _
    unfold LocalNode.start
    rcases n.mgr.start net c [] with ⟨g, e | _ | _⟩ <;> rfl
  | stop c => rfl
  | announce net m => rfl
  | send net m a => rfl

theorem devices_op {ord : List Int → List Int} {op op' : NodeOp} (hop : SameFor op op') {n n' : LocalNode} (h : devices n = devices n') :
    devices (op.run ord n) = devices (op'.run ord n') := by
  have h1 : n.node.objects = n'.node.objects := congrArg Prod.fst h
  have h2 : n.profile = n'.profile := congrArg Prod.snd h
  have hd : ∀ s, n.deref s = n'.deref s := by intro s; cases s; exacts [h2, rfl]
  have hb : ∀ c s o, devices (n.putBack c s o) = devices (n'.putBack c s o) := by
    intro c s o
    cases s with
    | profile => show (n.node.objects, o) = (n'.node.objects, o); rw [h1]
    | user x => show (Dict.modify n.node.objects c _, n.profile) = (Dict.modify n'.node.objects c _, n'.profile); rw [h1, h2]
  cases hop with
  | same op =>
   cases hto : Touches op with
   | false => rw [devices_idle op hto, devices_idle op hto, h]
   | true =>
    cases op with
    | add o =>
      show devices (n.addObject ord o).1 = devices (n'.addObject ord o).1
      have key : ∀ m : LocalNode, devices (m.addObject ord o).1 = (Dict.set m.node.objects o.code (.user o),
          (NodeProfile.updateMapProperties ord m.profile ((Dict.values (Dict.set m.node.objects o.code (.user o))).map fun s => (m.deref s).code)).1) := by
        intro m
        unfold LocalNode.addObject LocalNode.refresh LocalNode.objs Node.objectList devices
        simp only [List.map_map]
        rfl
      rw [key, key, h1, h2, show n.deref = n'.deref from funext hd]
    | update code f =>
      show devices (n.update code f) = devices (n'.update code f)
      unfold LocalNode.update
      rw [h1]
      rcases Dict.get? n'.node.objects code with _ | _ | o
      · exact h
      · exact h
      · exact hb _ _ _
    | receive env net m =>
      show devices (n.messageReceived env net m).1 = devices (n'.messageReceived env net m).1
      by_cases hq : Encodable m
      · rw [devices_receive _ _ _ _ hq, devices_receive _ _ _ _ hq, h1]
        rcases Dict.get? n'.node.objects (m.deoj % 2 ^ 24) with _ | s
        · exact h
        · simp only []
          rw [hb, hd]
      · rw [messageReceived_unfit _ _ _ _ hq, messageReceived_unfit _ _ _ _ hq]
        exact h
    | enable o v => cases hto
    | start net c => cases hto
    | stop c => cases hto
    | announce net m => cases hto
    | send net m a => cases hto
  | receive env env' net net' m m' he hm =>
    show devices (n.messageReceived env net m).1 = devices (n'.messageReceived env' net' m').1
    by_cases hq : Encodable m
    · rw [devices_receive _ _ _ _ hq, devices_receive _ _ _ _ ((encodable_asker hm).mpr hq), hm.1, h1]
      rcases Dict.get? n'.node.objects (m.deoj % 2 ^ 24) with _ | s
      · exact h
      · simp only []
        rw [hb, hd, (object_asker he (received_asker hm) (n'.deref s)).1]
    · rw [messageReceived_unfit _ _ _ _ hq, messageReceived_unfit _ _ _ _ (fun x => hq ((encodable_asker hm).mp x))]
      exact h

theorem devices_run {ord : List Int → List Int} (ops : List NodeOp) : ∀ n n' : LocalNode, devices n = devices n' →
    devices (runOps ord n ops) = devices (runOps ord n' (ops.filter Touches)) := by
  induction ops with
  | nil => exact fun _ _ h => h
  | cons op ops ih =>
    intro n n' h
    cases ht : Touches op with
    | false =>
      rw [List.filter_cons_of_neg (by rw [ht]; simp)]
      exact ih _ _ ((devices_idle op ht n).trans h)
    | true =>
      rw [List.filter_cons_of_pos ht]
      exact ih _ _ (devices_op (.same op) h)

end Uecho
