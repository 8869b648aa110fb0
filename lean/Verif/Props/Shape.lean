/- C125: what peers can and cannot change in a node. -/
import Verif.Lemmas.EndToEnd
import Verif.Lemmas.Storm
import Verif.Props.EndToEnd

namespace Uecho
open Spec

/-- A datagram on its way to a node: what user code and the network do when it is handled, its bytes, and where it comes from. -/
structure Parcel where
  env : Env
  net : Net
  bytes : Bytes
  src : Addr

/-- The node after its receiving threads got these datagrams, whether or not they are messages and whether or not handling them raised. -/
def bombarded (n : LocalNode) (ps : List Parcel) : LocalNode :=
  ps.foldl (fun n p => (recvOne (LocalNode.deliver p.env p.net) n p.bytes p.src).1) n

/-- `I` is respected by the request handlers: their callbacks keep it, and so does storing what they accept under the code they accepted it for. -/
structure Respects (env : Env) (I : Obj → Prop) : Prop where
  read : ∀ o p, I o → I (o.callRead env p).1
  write : ∀ o p d, I o → I (o.callWrite env p d).1
  store : ∀ o c p d, I o → o.getProperty c = some p → (o.callWrite env p d).2 = .ok true → I ((o.callWrite env p d).1.storeData c d)

theorem setLoop_respects {env : Env} {I : Obj → Prop} (h : Respects env I) (ms : List PProp) : ∀ (o : Obj) (cnt : Nat) (acc : List PProp), I o →
    I (Obj.setLoop env o ms cnt acc).1 := by
  induction ms with
  | nil => intro o cnt acc hi; exact hi
  | cons mp ms ih =>
    intro o cnt acc hi
    unfold Obj.setLoop
    cases hg : o.getProperty mp.code with
    | none => exact ih _ _ _ hi
    | some p =>
      simp only []
      have hw := h.write o p mp.data hi
      have hs := h.store o mp.code p mp.data hi hg
      generalize o.callWrite env p mp.data = r at hw hs ⊢
      rcases r with ⟨o1, e | b⟩
      · exact hw
      · cases b
        · exact ih _ _ _ hw
        · exact ih _ _ _ (hs rfl)

theorem getLoop_respects {env : Env} {I : Obj → Prop} (h : Respects env I) (ms : List PProp) : ∀ (o : Obj) (cnt : Nat) (acc : List PProp), I o →
    I (Obj.getLoop env o ms cnt acc).1 := by
  induction ms with
  | nil => intro o cnt acc hi; exact hi
  | cons mp ms ih =>
    intro o cnt acc hi
    unfold Obj.getLoop
    have hr := h.read o (o.getProperty mp.code) hi
    generalize o.callRead env (o.getProperty mp.code) = r at hr ⊢
    rcases r with ⟨o1, e | b⟩
    · exact hr
    · cases b
      · exact ih _ _ _ hr
      · simp only []
        split
        · exact ih _ _ _ hr
        · exact hr

theorem plainLoop_respects {env : Env} {I : Obj → Prop} (h : Respects env I) (esv : Int) (ms : List PProp) : ∀ (o : Obj) (cnt : Nat) (acc : List PProp), I o →
    I (Obj.plainLoop env esv o ms cnt acc).1 := by
  induction ms with
  | nil => intro o cnt acc hi; exact hi
  | cons mp ms ih =>
    intro o cnt acc hi
    unfold Obj.plainLoop
    cases hg : o.getProperty mp.code with
    | none => exact ih _ _ _ hi
    | some p =>
      simp only []
      split
      · have hr := h.read o (some p) hi
        generalize o.callRead env (some p) = r at hr ⊢
        rcases r with ⟨o1, e | b⟩
        · exact hr
        · cases b
          · exact ih _ _ _ hr
          · exact ih _ _ _ hr
      · split
        · have hw := h.write o p mp.data hi
          have hs := h.store o mp.code p mp.data hi hg
          generalize o.callWrite env p mp.data = r at hw hs ⊢
          rcases r with ⟨o1, e | b⟩
          · exact hw
          · cases b
            · exact ih _ _ _ hw
            · exact ih _ _ _ (hs rfl)
        · exact ih _ _ _ hi

theorem messageReceived_respects {env : Env} {I : Obj → Prop} (h : Respects env I) (o : Obj) (m : Msg) (hi : I o) :
    I (o.messageReceived env m).obj := by
  unfold Obj.messageReceived
  cases Obj.notify env m o.observers with
  | mk l x =>
    cases x with
    | some e => exact hi
    | none =>
      show I (o.handleRequest env m).1
      unfold Obj.handleRequest
      split
      · exact hi
      split
      · exact hi
      simp only []
      split
      · have h1 := setLoop_respects h m.setProps o 0 [] hi
        generalize Obj.setLoop env o m.setProps 0 [] = r at h1 ⊢
        rcases r with ⟨o1, e | ⟨c, sps⟩⟩
        · exact h1
        · simp only []
          have h2 := getLoop_respects h m.getProps o1 c [] h1
          generalize Obj.getLoop env o1 m.getProps c [] = r at h2 ⊢
          rcases r with ⟨o2, e | ⟨c', gps⟩⟩
          · exact h2
          · exact h2
      · have h1 := plainLoop_respects h m.esv m.props o 0 [] hi
        generalize Obj.plainLoop env m.esv o m.props 0 [] = r at h1 ⊢
        rcases r with ⟨o1, e | ⟨c, ps⟩⟩
        · exact h1
        · exact h1

/-- What a message does to the objects of a node: one of them handles it, or nothing. -/
theorem receive_objects (env : Env) (net : Net) (n : LocalNode) (m : Msg) :
    let n' := (n.messageReceived env net m).1
    (n'.node = n.node ∧ n'.profile = n.profile) ∨
    ∃ req s, Dict.get? n.node.objects req.deoj = some s ∧ Msg.copyOf (some m) = .ok req ∧
      n'.node = (n.putBack req.deoj s ((n.deref s).messageReceived env req).obj).node ∧
      n'.profile = (n.putBack req.deoj s ((n.deref s).messageReceived env req).obj).profile := by
  intro n'
  show ((n.messageReceived env net m).1.node = _ ∧ (n.messageReceived env net m).1.profile = _) ∨ ∃ req s, _ ∧
    _ ∧ (n.messageReceived env net m).1.node = _ ∧ (n.messageReceived env net m).1.profile = _
  unfold LocalNode.messageReceived
  split
  · exact Or.inl ⟨rfl, rfl⟩
  · cases hcp : Msg.copyOf (some m) with
    | error e => exact Or.inl ⟨rfl, rfl⟩
    | ok req =>
      simp only []
      cases hg : n.node.getObject (.int req.deoj) with
      | none => exact Or.inl ⟨rfl, rfl⟩
      | some s =>
        right
        refine ⟨req, s, hg, rfl, ?_⟩
        simp only []
        cases ((n.deref s).messageReceived env req).result with
        | error e => exact ⟨rfl, rfl⟩
        | ok res =>
          simp only []
          rw [answer_same]
          exact ⟨rfl, rfl⟩

/-- An object of a node after a message: as before, or as it left the handling of a message. -/
theorem receive_object {n : LocalNode} (hi : NodeInv n) (env : Env) (net : Net) (m : Msg) (c : Int) :
    ((n.messageReceived env net m).1.getObject (.int c)).isSome = (n.getObject (.int c)).isSome ∧
    ∀ o, n.getObject (.int c) = some o → ∃ o', (n.messageReceived env net m).1.getObject (.int c) = some o' ∧
      (o' = o ∨ ∃ req, Msg.copyOf (some m) = .ok req ∧ o' = (o.messageReceived env req).obj) := by
  have hget : ∀ k : LocalNode, k.getObject (.int c) = (Dict.get? k.node.objects c).map k.deref := fun _ => rfl
  suffices h : ∀ s, Dict.get? n.node.objects c = some s → ∃ o', (n.messageReceived env net m).1.getObject (.int c) = some o' ∧
      (o' = n.deref s ∨ ∃ req, Msg.copyOf (some m) = .ok req ∧ o' = ((n.deref s).messageReceived env req).obj) by
    constructor
    · cases hs : Dict.get? n.node.objects c with
      | some s =>
        obtain ⟨o', ho, -⟩ := h s hs
        rw [ho, hget n, hs]; rfl
      | none =>
        have hk : Dict.keys (n.messageReceived env net m).1.node.objects = Dict.keys n.node.objects := by
          rcases receive_objects env net n m with ⟨h1, -⟩ | ⟨req, s, -, -, h1, -⟩
          · rw [h1]
          · rw [h1]
            cases s with
            | profile => rfl
            | user o => exact Dict.keys_modify _ _ _
        have : Dict.get? (n.messageReceived env net m).1.node.objects c = none := by
          rw [Dict.get?_eq_none_iff, hk, ← Dict.get?_eq_none_iff]; exact hs
        rw [hget, hget, this, hs]; rfl
    · intro o ho
      rw [hget] at ho
      cases hs : Dict.get? n.node.objects c with
      | none => rw [hs] at ho; cases ho
      | some s =>
        rw [hs] at ho
        injection ho with ho
        rw [← ho]
        exact h s hs
  intro s hs
  rw [hget]
  rcases receive_objects env net n m with ⟨h1, h2⟩ | ⟨req, t, ht, hcp, h1, h2⟩
  · rw [h1, hs]
    refine ⟨n.deref s, ?_, Or.inl rfl⟩
    cases s with
    | profile => exact congrArg some h2
    | user o => rfl
  · generalize (n.messageReceived env net m).1 = n' at h1 h2 ⊢
    rw [h1]
    cases t with
    | profile =>
      show ∃ o', (Dict.get? n.node.objects c).map n'.deref = some o' ∧ _
      rw [hs]
      cases s with
      | user o => exact ⟨o, rfl, Or.inl rfl⟩
      | profile =>
        refine ⟨_, rfl, Or.inr ⟨req, hcp, ?_⟩⟩
        exact h2
    | user o =>
      show ∃ o', (Dict.get? (Dict.modify n.node.objects req.deoj _) c).map n'.deref = some o' ∧ _
      rw [Dict.get?_modify]
      by_cases hc : req.deoj = c
      · rw [if_pos hc, hs]
        rw [hc, hs] at ht
        injection ht with ht
        subst ht
        exact ⟨_, rfl, Or.inr ⟨req, hcp, rfl⟩⟩
      · rw [if_neg hc, hs]
        refine ⟨n.deref s, ?_, Or.inl rfl⟩
        cases s with
        | profile => exact congrArg some h2
        | user o => rfl

/-- A datagram does nothing to a node, or is a message for it. -/
theorem parcel_cases (n : LocalNode) (p : Parcel) : (recvOne (LocalNode.deliver p.env p.net) n p.bytes p.src).1 = n ∨
    ∃ m, Decodes p.bytes p.src m ∧ (recvOne (LocalNode.deliver p.env p.net) n p.bytes p.src).1 = (n.messageReceived p.env p.net m).1 := by
  by_cases hd : ∃ m, Decodes p.bytes p.src m
  · obtain ⟨m, hm⟩ := hd
    right
    refine ⟨m, hm, ?_⟩
    rw [recvOne_ok _ n _ _ m hm]
    unfold LocalNode.deliver
    rcases n.messageReceived p.env p.net m with ⟨n', e | u⟩ <;> rfl
  · left
    rw [recvOne_bad _ n _ _ hd]

theorem bombarded_snoc (n : LocalNode) (ps : List Parcel) (p : Parcel) :
    bombarded n (ps ++ [p]) = (recvOne (LocalNode.deliver p.env p.net) (bombarded n ps) p.bytes p.src).1 := by
  unfold bombarded; rw [List.foldl_append]; rfl

theorem bombarded_reachable {ord : List Int → List Int} {n : LocalNode} (hr : Reachable ord n) (ps : List Parcel) (hp : ∀ p ∈ ps, CodeStable p.env) :
    Reachable ord (bombarded n ps) := by
  induction ps using List.reverseRecOn with
  | nil => exact hr
  | append_singleton ps p ih =>
    have ih := ih fun q hq => hp q (List.mem_append_left _ hq)
    rw [bombarded_snoc]
    rcases parcel_cases (bombarded n ps) p with h | ⟨m, hdec, h⟩
    · rw [h]; exact ih
    · rw [h]; exact reachable_receive ih (hp p (by simp)) p.net m

/-- What holds of an object and is kept by its handling any message is kept by its node receiving any datagrams. -/
theorem bombarded_object {ord : List Int → List Int} (hord : ValidOrder ord) {n : LocalNode} (hr : Reachable ord n) (ps : List Parcel) (hp : ∀ p ∈ ps, CodeStable p.env)
    (I : Obj → Prop) (hI : ∀ p ∈ ps, ∀ o m, (∃ w, Decodes p.bytes p.src w ∧ Msg.copyOf (some w) = .ok m) → I o → I (o.messageReceived p.env m).obj) (c : Int) (o : Obj) (ho : n.getObject (.int c) = some o) (hio : I o) :
    ∃ o', (bombarded n ps).getObject (.int c) = some o' ∧ I o' := by
  induction ps using List.reverseRecOn with
  | nil => exact ⟨o, ho, hio⟩
  | append_singleton ps p ih =>
    have hp' : ∀ q ∈ ps, CodeStable q.env := fun q hq => hp q (List.mem_append_left _ hq)
    obtain ⟨o1, h1, hi1⟩ := ih hp' (fun q hq => hI q (List.mem_append_left _ hq))
    rw [bombarded_snoc]
    rcases parcel_cases (bombarded n ps) p with h | ⟨m, hdec, h⟩
    · rw [h]; exact ⟨o1, h1, hi1⟩
    · rw [h]
      obtain ⟨o2, h2, hc⟩ := (receive_object (reachable_inv hord (bombarded_reachable hr ps hp')) p.env p.net m c).2 o1 h1
      refine ⟨o2, h2, ?_⟩
      rcases hc with rfl | ⟨req, hcp, rfl⟩
      · exact hi1
      · exact hI p (by simp) o1 req ⟨m, hdec, hcp⟩ hi1

/-- C125. What the owner's request handlers respect no peer can break: an invariant of an object that the callbacks keep, and that storing accepted data keeps, holds after any
datagrams whatsoever. -/
theorem C125_invariant {ord : List Int → List Int} (hord : ValidOrder ord) {n : LocalNode} (hr : Reachable ord n) (ps : List Parcel) (hp : ∀ p ∈ ps, CodeStable p.env)
    (I : Obj → Prop) (hI : ∀ p ∈ ps, Respects p.env I) (c : Int) (o : Obj) (ho : n.getObject (.int c) = some o) (hio : I o) :
    ∃ o', (bombarded n ps).getObject (.int c) = some o' ∧ I o' :=
  bombarded_object hord hr ps hp I (fun p hps o m _ h => messageReceived_respects (hI p hps) o m h) c o ho hio

/-- C125. An object with the default handler keeps its code, its handler, its observers, its properties, their order and attributes, and the data of every property that may not be
written, whatever datagrams the node gets, and whatever the handlers of its other objects do. -/
theorem C125_shape {ord : List Int → List Int} (hord : ValidOrder ord) {n : LocalNode} (hr : Reachable ord n) (ps : List Parcel) (hp : ∀ p ∈ ps, CodeStable p.env)
    (c : Int) (o : Obj) (ho : n.getObject (.int c) = some o) (hw : WellFormed o) (hh : o.handler = .self_) :
    ∃ o', (bombarded n ps).getObject (.int c) = some o' ∧ skeleton o' = skeleton o ∧ o'.props.map Prod.fst = o.props.map Prod.fst ∧
      ∀ pc p, lookup o.props pc = some p → ¬ CanWrite p → lookup o'.props pc = some p := by
  refine bombarded_object hord hr ps hp (fun o' => skeleton o' = skeleton o ∧ o'.props.map Prod.fst = o.props.map Prod.fst ∧
      ∀ pc p, lookup o.props pc = some p → ¬ CanWrite p → lookup o'.props pc = some p) ?_ c o ho ⟨rfl, rfl, fun _ _ h _ => h⟩
  intro p _ o' m _ ⟨h1, h2, h3⟩
  obtain ⟨k1, k2, k3⟩ := C23_write_protection o' [(p.env, m)] (wf_of_skeleton h1 hw) ((congrArg Obj.handler h1).trans hh)
  refine ⟨k1.trans h1, k2.trans h2, ?_⟩
  intro pc q hq hn
  obtain ⟨q', e1, -, -, -, e2⟩ := k3 pc q (h3 pc q hq hn)
  rw [← e2 hn]
  exact e1

/-- C125. The profile of a node is such an object. -/
theorem C125_profile {ord : List Int → List Int} (hord : ValidOrder ord) {n : LocalNode} (hr : Reachable ord n) (ps : List Parcel) (hp : ∀ p ∈ ps, CodeStable p.env) :
    skeleton (bombarded n ps).profile = skeleton n.profile := by
  induction ps using List.reverseRecOn with
  | nil => rfl
  | append_singleton ps p ih =>
    have hp' : ∀ q ∈ ps, CodeStable q.env := fun q hq => hp q (List.mem_append_left _ hq)
    have hi := reachable_inv hord (bombarded_reachable hr ps hp')
    rw [bombarded_snoc, ← ih hp']
    rcases parcel_cases (bombarded n ps) p with h | ⟨m, hdec, h⟩
    · rw [h]
    · rw [h]
      rcases receive_objects p.env p.net (bombarded n ps) m with ⟨-, h2⟩ | ⟨req, s, -, -, -, h2⟩
      · rw [h2]
      · rw [h2]
        cases s with
        | user o => rfl
        | profile => exact (C23_write_protection _ [(p.env, req)] hi.prof.wf hi.prof.handler).1

/-- C125. Nothing else of a node changes, either: which objects it has and their order, its options, whether it is a controller, its address, and its servers with their sockets and
observers. -/
theorem C125_rest {ord : List Int → List Int} (hord : ValidOrder ord) {n : LocalNode} (hr : Reachable ord n) (ps : List Parcel) (hp : ∀ p ∈ ps, CodeStable p.env) :
    (bombarded n ps).objs.map Obj.code = n.objs.map Obj.code ∧ (bombarded n ps).options = n.options ∧ (bombarded n ps).controller = n.controller ∧
    (bombarded n ps).node.address = n.node.address ∧ (bombarded n ps).mgr.servers = n.mgr.servers := by
  induction ps using List.reverseRecOn with
  | nil => exact ⟨rfl, rfl, rfl, rfl, rfl⟩
  | append_singleton ps p ih =>
    have hp' : ∀ q ∈ ps, CodeStable q.env := fun q hq => hp q (List.mem_append_left _ hq)
    obtain ⟨i1, i2, i3, i4, i5⟩ := ih hp'
    have hrk := bombarded_reachable hr ps hp'
    have hi := reachable_inv hord hrk
    rw [bombarded_snoc, ← i1, ← i2, ← i3, ← i4, ← i5]
    rcases parcel_cases (bombarded n ps) p with h | ⟨m, hdec, h⟩
    · rw [h]; exact ⟨rfl, rfl, rfl, rfl, rfl⟩
    · rw [h]
      have hi' := reachable_inv hord (reachable_receive hrk (hp p (by simp)) p.net m)
      generalize bombarded n ps = k at *
      refine ⟨?_, ?_⟩
      · rw [objs_codes _ hi'.own, objs_codes _ hi.own]
        rcases receive_objects p.env p.net k m with ⟨h1, -⟩ | ⟨req, s, -, -, h1, -⟩
        · rw [h1]
        · rw [h1]
          cases s with
          | profile => rfl
          | user o => exact Dict.keys_modify _ _ _
      · obtain ⟨-, -, -, hs, -⟩ := node_sends p.env p.net k m
        have hrest : (k.messageReceived p.env p.net m).1.options = k.options ∧ (k.messageReceived p.env p.net m).1.controller = k.controller ∧
            (k.messageReceived p.env p.net m).1.node.address = k.node.address := by
          unfold LocalNode.messageReceived
          split
          · exact ⟨rfl, rfl, rfl⟩
          · cases Msg.copyOf (some m) with
            | error e => exact ⟨rfl, rfl, rfl⟩
            | ok req =>
              simp only []
              cases k.node.getObject (.int req.deoj) with
              | none => exact ⟨rfl, rfl, rfl⟩
              | some s =>
                simp only []
                have hp : ∀ o, (k.putBack req.deoj s o).options = k.options ∧ (k.putBack req.deoj s o).controller = k.controller ∧
                    (k.putBack req.deoj s o).node.address = k.node.address := by
                  intro o; cases s <;> exact ⟨rfl, rfl, rfl⟩
                cases ((k.deref s).messageReceived p.env req).result with
                | error e => exact hp _
                | ok res =>
                  simp only []
                  rw [answer_same]
                  exact hp _
        exact ⟨hrest.1, hrest.2.1, hrest.2.2, hs⟩

/-! ### Examples -/

/-- A handler that lets a light be switched on or off, and nothing else. -/
def switchEnv : Env := { handler := fun _ => { read := fun o _ => (o, .ok true), write := fun o _ d => (o, .ok (decide (d = [0x30] ∨ d = [0x31]))) }, observe := fun _ _ => none }

theorem switchEnv_stable : CodeStable switchEnv := fun _ _ => ⟨fun _ => rfl, fun _ _ => rfl⟩

/-- An object with that handler whose operation status is on or off. -/
def OnOrOff (o : Obj) : Prop := o.handler = .user 1 ∧ ∃ d, o.getPropertyData 0x80 = some d ∧ (d = [0x30] ∨ d = [0x31])

theorem switch_respects : Respects switchEnv OnOrOff where
  read o p h := by
    unfold Obj.callRead; rw [h.1]; exact h
  write o p d h := by
    unfold Obj.callWrite; rw [h.1]; exact h
  store o c p d h _ hk := by
    unfold Obj.callWrite at hk ⊢
    rw [h.1] at hk ⊢
    simp only [switchEnv, Except.ok.injEq, decide_eq_true_eq] at hk ⊢
    refine ⟨h.1, ?_⟩
    obtain ⟨d', h1, h2⟩ := h.2
    unfold Obj.getPropertyData Obj.getProperty Obj.storeData at *
    simp only [] at *
    rw [Dict.get?_modify]
    by_cases hc : c = 0x80
    · rw [if_pos hc]
      cases hq : Dict.get? o.props 0x80 with
      | none => rw [hq] at h1; cases h1
      | some q => exact ⟨d, rfl, hk⟩
    · rw [if_neg hc]
      exact ⟨d', h1, h2⟩

/-- `C125_invariant`: whatever datagrams arrive, such a light is on or off. -/
example {ord : List Int → List Int} (hord : ValidOrder ord) (ds : List (Bytes × Addr)) : ∃ n, Reachable ord n ∧
    n.getObject (.int 0x029101) = some { exObj with handler := .user 1 } ∧
    ∃ o', (bombarded n (ds.map fun d => ⟨switchEnv, okNet, d.1, d.2⟩)).getObject (.int 0x029101) = some o' ∧ OnOrOff o' := by
  obtain ⟨n, hr, -, ho, -⟩ := dev_device hord { exObj with handler := .user 1 }
  refine ⟨n, hr, ho, C125_invariant hord hr _ ?_ OnOrOff ?_ _ _ ho ⟨rfl, [0x30], by decide, Or.inl rfl⟩⟩
  · intro p hp
    obtain ⟨d, -, rfl⟩ := List.mem_map.mp hp
    exact switchEnv_stable
  · intro p hp
    obtain ⟨d, -, rfl⟩ := List.mem_map.mp hp
    exact switch_respects

/-- `C125_shape`: property 0x81 of this object may not be written, 0xB0 may; one message writes both, then comes rubbish. -/
example {ord : List Int → List Int} (hord : ValidOrder ord) : ∃ n, Reachable ord n ∧ n.getObject (.int 0x029101) = some exObj ∧ WellFormed exObj ∧
    ∃ o', (bombarded n [⟨switchEnv, okNet, encode { tid := 1, seoj := 0x05FF01, deoj := 0x029101, esv := 0x60, props := [{ code := 0x81, data := [1] }, { code := 0xB0, data := [1] }] },
      ("10.0.0.2", 3610)⟩, ⟨switchEnv, okNet, [0xFF], ("10.0.0.3", 1)⟩]).getObject (.int 0x029101) = some o' ∧ skeleton o' = skeleton exObj ∧
      lookup o'.props 0x81 = lookup exObj.props 0x81 := by
  obtain ⟨n, hr, -, ho, -⟩ := dev_device hord exObj
  have hw : WellFormed exObj := by decide
  refine ⟨n, hr, ho, hw, ?_⟩
  obtain ⟨o', h1, h2, -, h3⟩ := C125_shape hord hr [⟨switchEnv, okNet, encode { tid := 1, seoj := 0x05FF01, deoj := 0x029101, esv := 0x60, props := [{ code := 0x81, data := [1] }, { code := 0xB0, data := [1] }] },
      ("10.0.0.2", 3610)⟩, ⟨switchEnv, okNet, [0xFF], ("10.0.0.3", 1)⟩] (by intro p hp; simp only [List.mem_cons, List.not_mem_nil, or_false] at hp; rcases hp with rfl | rfl <;> exact switchEnv_stable)
      0x029101 exObj ho hw rfl
  exact ⟨o', h1, h2, h3 0x81 _ rfl (by decide)⟩

end Uecho
