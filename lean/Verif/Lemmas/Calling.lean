import Verif.Spec.Calling
import Verif.Lemmas.Sending

namespace Uecho
open Spec

/-- The node at some moment of a request: calls of the handler have been made since, and the object asked is `o`. -/
def Asking (ord : List Int → List Int) (P : NodeOp → Prop) (n0 : LocalNode) (code : Int) (h : Nat) (n : LocalNode) (o : Obj) : Prop :=
  Dict.get? n.node.objects code = some (.user o) ∧ o.handler = .user h ∧ ∃ ops, (∀ op ∈ ops, P op) ∧ n = runOps ord n0 ops

theorem own_eq {n : LocalNode} {code : Int} {o : Obj} (h : Dict.get? n.node.objects code = some (.user o)) : Calling.own n code = o := by
  unfold Calling.own
  rw [h]
  rfl

theorem update_own {n : LocalNode} {code : Int} {o : Obj} (h : Dict.get? n.node.objects code = some (.user o)) (f : Obj → Obj) :
    Dict.get? (n.update code f).node.objects code = some (.user (f o)) := by
  unfold LocalNode.update
  rw [h]
  show Dict.get? (Dict.modify n.node.objects code fun _ => .user (f o)) code = _
  rw [Dict.get?_modify, if_pos rfl, h]
  rfl

theorem storeData_handler (o : Obj) (c : Int) (d : Bytes) : (o.storeData c d).handler = o.handler := rfl

theorem Asking.more {ord : List Int → List Int} {P : NodeOp → Prop} {n0 n n' : LocalNode} {code : Int} {h : Nat} {o o' : Obj} (ha : Asking ord P n0 code h n o)
    (ops : List NodeOp) (hd : ∀ op ∈ ops, P op) (hn : n' = runOps ord n ops) (hg : Dict.get? n'.node.objects code = some (.user o'))
    (hh : o'.handler = .user h) : Asking ord P n0 code h n' o' := by
  obtain ⟨-, -, ops0, h0, e0⟩ := ha
  refine ⟨hg, hh, ops0 ++ ops, ?_, ?_⟩
  · intro op ho
    rcases List.mem_append.mp ho with ho | ho
    · exact h0 op ho
    · exact hd op ho
  · rw [hn, e0]
    unfold runOps
    rw [List.foldl_append]

theorem Asking.store {ord : List Int → List Int} {P : NodeOp → Prop} {n0 n : LocalNode} {code : Int} {h : Nat} {o : Obj} (hP : ∀ f, P (.update code f))
    (ha : Asking ord P n0 code h n o) (c : Int) (d : Bytes) :
    Asking ord P n0 code h (Calling.store n code c d) (o.storeData c d) := by
  refine ha.more [.update code fun o => o.storeData c d] ?_ rfl (update_own ha.1 _) ha.2.1
  intro op ho
  rw [List.mem_singleton.mp ho]
  exact hP _

section
variable {ord : List Int → List Int} {P : NodeOp → Prop} {env : Env} {h : Nat} {code : Int} {H : Calling.NodeHandler} {n0 : LocalNode}

theorem Asking.write (hA : Alongside ord P env h code H) (hS : Stays env h) {n : LocalNode} {o : Obj} (ha : Asking ord P n0 code h n o) (p : OProp) (d : Bytes) :
    Asking ord P n0 code h (H.write n p d).1 (o.callWrite env p d).1 ∧ (H.write n p d).2 = (o.callWrite env p d).2 := by
  obtain ⟨ops, h1, h2, h3, h4⟩ := hA.write n o p d ha.1 ha.2.1
  have hc : o.callWrite env p d = (env.handler h).write o p d := by unfold Obj.callWrite; rw [ha.2.1]
  rw [hc]
  exact ⟨ha.more ops h1 h2 h3 ((hS o ha.2.1).2 p d), h4⟩

theorem Asking.read (hA : Alongside ord P env h code H) (hS : Stays env h) {n : LocalNode} {o : Obj} (ha : Asking ord P n0 code h n o) (p : Option OProp) :
    Asking ord P n0 code h (H.read n p).1 (o.callRead env p).1 ∧ (H.read n p).2 = (o.callRead env p).2 := by
  obtain ⟨ops, h1, h2, h3, h4⟩ := hA.read n o p ha.1 ha.2.1
  have hc : o.callRead env p = (env.handler h).read o p := by unfold Obj.callRead; rw [ha.2.1]
  rw [hc]
  exact ⟨ha.more ops h1 h2 h3 ((hS o ha.2.1).1 p), h4⟩

theorem setLoop_calls (hP : ∀ f, P (.update code f)) (hA : Alongside ord P env h code H) (hS : Stays env h) (items : List PProp) : ∀ (n : LocalNode) (o : Obj) (cnt : Nat) (acc : List PProp),
    Asking ord P n0 code h n o → Asking ord P n0 code h (Calling.setLoop H code n items cnt acc).1 (Obj.setLoop env o items cnt acc).1 ∧
      (Calling.setLoop H code n items cnt acc).2 = (Obj.setLoop env o items cnt acc).2 := by
  induction items with
  | nil => intro n o cnt acc ha; exact ⟨ha, rfl⟩
  | cons mp ms ih =>
    intro n o cnt acc ha
    unfold Calling.setLoop Obj.setLoop
    rw [own_eq ha.1]
    cases o.getProperty mp.code with
    | none => exact ih _ _ _ _ ha
    | some p =>
      simp only []
      obtain ⟨h1, h2⟩ := ha.write hA hS p mp.data
      generalize H.write n p mp.data = x at h1 h2 ⊢
      generalize o.callWrite env p mp.data = y at h1 h2 ⊢
      rcases x with ⟨x1, x2⟩
      rcases y with ⟨y1, y2⟩
      simp only [] at h2
      subst h2
      rcases x2 with e | (_ | _)
      · exact ⟨h1, rfl⟩
      · exact ih _ _ _ _ h1
      · exact ih _ _ _ _ (h1.store hP _ _)

theorem getLoop_calls (hA : Alongside ord P env h code H) (hS : Stays env h) (items : List PProp) : ∀ (n : LocalNode) (o : Obj) (cnt : Nat) (acc : List PProp),
    Asking ord P n0 code h n o → Asking ord P n0 code h (Calling.getLoop H code n items cnt acc).1 (Obj.getLoop env o items cnt acc).1 ∧
      (Calling.getLoop H code n items cnt acc).2 = (Obj.getLoop env o items cnt acc).2 := by
  induction items with
  | nil => intro n o cnt acc ha; exact ⟨ha, rfl⟩
  | cons mp ms ih =>
    intro n o cnt acc ha
    unfold Calling.getLoop Obj.getLoop
    rw [own_eq ha.1]
    obtain ⟨h1, h2⟩ := ha.read hA hS (o.getProperty mp.code)
    generalize H.read n (o.getProperty mp.code) = x at h1 h2 ⊢
    generalize o.callRead env (o.getProperty mp.code) = y at h1 h2 ⊢
    rcases x with ⟨x1, x2⟩
    rcases y with ⟨y1, y2⟩
    simp only [] at h2 h1
    subst h2
    rcases x2 with e | (_ | _)
    · exact ⟨h1, rfl⟩
    · exact ih _ _ _ _ h1
    · simp only []
      rw [own_eq h1.1]
      cases o.getProperty mp.code with
      | none => exact ⟨h1, rfl⟩
      | some p =>
        cases y1.getPropertyData mp.code with
        | none => exact ⟨h1, rfl⟩
        | some d => exact ih _ _ _ _ h1

theorem plainLoop_calls (hP : ∀ f, P (.update code f)) (hA : Alongside ord P env h code H) (hS : Stays env h) (esv : Int) (items : List PProp) : ∀ (n : LocalNode) (o : Obj) (cnt : Nat) (acc : List PProp),
    Asking ord P n0 code h n o → Asking ord P n0 code h (Calling.plainLoop H code esv n items cnt acc).1 (Obj.plainLoop env esv o items cnt acc).1 ∧
      (Calling.plainLoop H code esv n items cnt acc).2 = (Obj.plainLoop env esv o items cnt acc).2 := by
  induction items with
  | nil => intro n o cnt acc ha; exact ⟨ha, rfl⟩
  | cons mp ms ih =>
    intro n o cnt acc ha
    unfold Calling.plainLoop Obj.plainLoop
    rw [own_eq ha.1]
    cases o.getProperty mp.code with
    | none => exact ih _ _ _ _ ha
    | some p =>
      simp only []
      by_cases hr : ESV.isReadRequest esv = true
      · rw [if_pos hr, if_pos hr]
        obtain ⟨h1, h2⟩ := ha.read hA hS (some p)
        generalize H.read n (some p) = x at h1 h2 ⊢
        generalize o.callRead env (some p) = y at h1 h2 ⊢
        rcases x with ⟨x1, x2⟩
        rcases y with ⟨y1, y2⟩
        simp only [] at h2 h1
        subst h2
        rcases x2 with e | (_ | _)
        · exact ⟨h1, rfl⟩
        · exact ih _ _ _ _ h1
        · simp only []
          rw [own_eq h1.1]
          exact ih _ _ _ _ h1
      · rw [if_neg hr, if_neg hr]
        by_cases hw : ESV.isWriteRequest esv = true
        · rw [if_pos hw, if_pos hw]
          obtain ⟨h1, h2⟩ := ha.write hA hS p mp.data
          generalize H.write n p mp.data = x at h1 h2 ⊢
          generalize o.callWrite env p mp.data = y at h1 h2 ⊢
          rcases x with ⟨x1, x2⟩
          rcases y with ⟨y1, y2⟩
          simp only [] at h2 h1
          subst h2
          rcases x2 with e | (_ | _)
          · exact ⟨h1, rfl⟩
          · exact ih _ _ _ _ h1
          · exact ih _ _ _ _ (h1.store hP _ _)
        · rw [if_neg hw, if_neg hw]
          exact ih _ _ _ _ ha

theorem handle_calls (hP : ∀ f, P (.update code f)) (hA : Alongside ord P env h code H) (hS : Stays env h) (n : LocalNode) (o : Obj) (req : Msg) (ha : Asking ord P n0 code h n o) :
    Asking ord P n0 code h (Calling.handleRequest H code n req).1 (o.handleRequest env req).1 ∧
      (Calling.handleRequest H code n req).2 = (o.handleRequest env req).2 := by
  unfold Calling.handleRequest Obj.handleRequest
  by_cases hq : ESV.isRequest req.esv = false
  · rw [if_pos hq, if_pos hq]; exact ⟨ha, rfl⟩
  have hno : ¬ o.handler = .none := by rw [ha.2.1]; simp
  rw [if_neg hq, if_neg hq, if_neg hno]
  by_cases hb : ESV.isWriteReadRequest req.esv = true
  · rw [if_pos hb, if_pos hb]
    obtain ⟨h1, h2⟩ := setLoop_calls hP hA hS req.setProps n o 0 [] ha
    generalize Calling.setLoop H code n req.setProps 0 [] = x at h1 h2 ⊢
    generalize Obj.setLoop env o req.setProps 0 [] = y at h1 h2 ⊢
    rcases x with ⟨x1, x2⟩
    rcases y with ⟨y1, y2⟩
    simp only [] at h2 h1
    subst h2
    rcases x2 with e | ⟨cnt, sps⟩
    · exact ⟨h1, rfl⟩
    · simp only []
      obtain ⟨h3, h4⟩ := getLoop_calls hA hS req.getProps x1 y1 cnt [] h1
      generalize Calling.getLoop H code x1 req.getProps cnt [] = u at h3 h4 ⊢
      generalize Obj.getLoop env y1 req.getProps cnt [] = v at h3 h4 ⊢
      rcases u with ⟨u1, u2⟩
      rcases v with ⟨v1, v2⟩
      simp only [] at h3 h4
      subst h4
      rcases u2 with e | ⟨cnt, gps⟩
      · exact ⟨h3, rfl⟩
      · exact ⟨h3, rfl⟩
  · rw [if_neg hb, if_neg hb]
    obtain ⟨h1, h2⟩ := plainLoop_calls hP hA hS req.esv req.props n o 0 [] ha
    generalize Calling.plainLoop H code req.esv n req.props 0 [] = x at h1 h2 ⊢
    generalize Obj.plainLoop env req.esv o req.props 0 [] = y at h1 h2 ⊢
    rcases x with ⟨x1, x2⟩
    rcases y with ⟨y1, y2⟩
    simp only [] at h2 h1
    subst h2
    rcases x2 with e | ⟨cnt, ps⟩
    · exact ⟨h1, rfl⟩
    · exact ⟨h1, rfl⟩

end

theorem calling_eq (H : Calling.NodeHandler) (env : Env) (net : Net) (n : LocalNode) (m : Msg) (hm : Encodable m) :
    Calling.messageReceived H env net n m = match Dict.get? n.node.objects (m.deoj % 2 ^ 24) with
      | none => (n, .ok ())
      | some _ => match Obj.notify env (received m) (Calling.own n (m.deoj % 2 ^ 24)).observers with
        | (_, some e) => (n, .error e)
        | (_, none) => match Calling.handleRequest H (m.deoj % 2 ^ 24) n (received m) with
          | (n, .error e) => (n, .error e)
          | (n, .ok res) => n.answer net (received m) res := by
  unfold Calling.messageReceived
  rw [if_neg (by rw [not_self]; simp)]
  obtain ⟨c, h1, -, -, -, h2⟩ := (C10_copy m).1 hm
  rw [h1, h2]
  rfl

end Uecho
