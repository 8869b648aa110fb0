/- Nothing a node does depends on data that may not be read. -/
import Verif.Spec.Secrets
import Verif.Lemmas.Dispatch
import Verif.Lemmas.Light

namespace Uecho
open Spec

theorem get?_map {ν ν' : Type} (f : ν → ν') (d : Dict Int ν) (k : Int) : Dict.get? (d.map fun kv => (kv.1, f kv.2)) k = (Dict.get? d k).map f := by
  induction d with
  | nil => rfl
  | cons kv d ih =>
    obtain ⟨k', v⟩ := kv
    simp only [List.map_cons, Dict.get?]
    split
    · rfl
    · exact ih

theorem modify_map {ν ν' : Type} (f : ν → ν') (g : ν → ν) (g' : ν' → ν') (h : ∀ v, f (g v) = g' (f v)) (d : Dict Int ν) (k : Int) :
    (Dict.modify d k g).map (fun kv => (kv.1, f kv.2)) = Dict.modify (d.map fun kv => (kv.1, f kv.2)) k g' := by
  induction d with
  | nil => rfl
  | cons kv d ih =>
    obtain ⟨k', v⟩ := kv
    simp only [List.map_cons, Dict.modify]
    split
    · simp only [List.map_cons, h]
    · simp only [List.map_cons, ih]

theorem set_map {ν ν' : Type} (f : ν → ν') (d : Dict Int ν) (k : Int) (v : ν) :
    (Dict.set d k v).map (fun kv => (kv.1, f kv.2)) = Dict.set (d.map fun kv => (kv.1, f kv.2)) k (f v) := by
  induction d with
  | nil => rfl
  | cons kv d ih =>
    obtain ⟨k', w⟩ := kv
    simp only [List.map_cons, Dict.set]
    split
    · rfl
    · simp only [List.map_cons, ih]

theorem code_of_get {o : Obj} (h : WellFormed o) {c : Int} {p : OProp} (hp : o.getProperty c = some p) : p.code = c :=
  code_of_lookup h (by rw [← getProperty_eq]; exact hp)

theorem censor_get (o : Obj) (c : Int) : (censor o).getProperty c = (o.getProperty c).map censorP := get?_map _ _ _

/-- Alike objects have alike properties. -/
theorem alike_get {o o' : Obj} (h : censor o = censor o') (c : Int) : (o.getProperty c).map censorP = (o'.getProperty c).map censorP := by
  rw [← censor_get, ← censor_get, h]

theorem censorP_attr (p : OProp) : (censorP p).code = p.code ∧ (censorP p).attrGet = p.attrGet ∧ (censorP p).attrSet = p.attrSet ∧ (censorP p).attrAnno = p.attrAnno := by
  unfold censorP; split <;> exact ⟨rfl, rfl, rfl, rfl⟩

theorem alikeP {p p' : OProp} (h : censorP p = censorP p') : p.code = p'.code ∧ p.attrGet = p'.attrGet ∧ p.attrSet = p'.attrSet ∧ p.attrAnno = p'.attrAnno ∧
    mayRead p = mayRead p' ∧ (mayRead p = true → p = p') := by
  obtain ⟨a1, a2, a3, a4⟩ := censorP_attr p
  obtain ⟨b1, b2, b3, b4⟩ := censorP_attr p'
  rw [h] at a1 a2 a3 a4
  have hr : mayRead p = mayRead p' := by unfold mayRead; rw [← a2, b2]
  refine ⟨a1.symm.trans b1, a2.symm.trans b2, a3.symm.trans b3, a4.symm.trans b4, hr, fun hp => ?_⟩
  unfold censorP at h
  rw [← hr, hp] at h
  simpa using h

theorem alike_store {o o' : Obj} (h : censor o = censor o') (c : Int) (d : Bytes) : censor (o.storeData c d) = censor (o'.storeData c d) := by
  have key : ∀ o : Obj, censor (o.storeData c d) = { censor o with props := Dict.modify (censor o).props c fun p => censorP { p with data := d } } := by
    intro o
    unfold censor Obj.storeData
    simp only []
    congr 1
    apply modify_map
    intro p
    unfold censorP
    by_cases hr : mayRead p = true
    · rw [if_pos hr]
    · rw [if_neg hr]
  rw [key, key, h]

theorem alike_handler {o o' : Obj} (h : censor o = censor o') : o.handler = o'.handler :=
  (congrArg Obj.handler h : (censor o).handler = (censor o').handler)
theorem alike_observers {o o' : Obj} (h : censor o = censor o') : o.observers = o'.observers :=
  (congrArg Obj.observers h : (censor o).observers = (censor o').observers)
theorem alike_code {o o' : Obj} (h : censor o = censor o') : o.code = o'.code :=
  (congrArg Obj.code h : (censor o).code = (censor o').code)

/-- The same property is there in both, or in neither. -/
theorem alike_cases {o o' : Obj} (h : censor o = censor o') (c : Int) : (o.getProperty c = none ∧ o'.getProperty c = none) ∨
    ∃ p p', o.getProperty c = some p ∧ o'.getProperty c = some p' ∧ censorP p = censorP p' := by
  have := alike_get h c
  cases h1 : o.getProperty c with
  | none =>
    rw [h1] at this
    cases h2 : o'.getProperty c with
    | none => exact Or.inl ⟨rfl, rfl⟩
    | some p' => rw [h2] at this; cases this
  | some p =>
    rw [h1] at this
    cases h2 : o'.getProperty c with
    | none => rw [h2] at this; cases this
    | some p' => rw [h2] at this; injection this with this; exact Or.inr ⟨p, p', rfl, rfl, this⟩

theorem isReadEnabled_readable (p : OProp) : p.isReadEnabled = mayRead p := by
  unfold OProp.isReadEnabled OProp.isAttributeEnabled mayRead OProp.REQUIRED OProp.OPTIONAL
  by_cases h1 : p.attrGet = 1 <;> by_cases h2 : p.attrGet = 2 <;> simp [h1, h2]

/-- The object's own answer. -/
theorem alike_superRead {c : Int} (o o' : Obj) (hw : WellFormed o) (hw' : WellFormed o') (h : censor o = censor o') : o.superRead (o.getProperty c) = o'.superRead (o'.getProperty c) ∧
    (o.superRead (o.getProperty c) = .ok true → ∀ p, o.getProperty c = some p → mayRead p = true) := by
  rcases alike_cases h c with ⟨h1, h2⟩ | ⟨p, p', h1, h2, h3⟩
  · rw [h1, h2]
    exact ⟨rfl, fun x => by cases x⟩
  · have e1 := code_of_get hw h1
    have e2 := code_of_get hw' h2
    rw [h1, h2]
    have r1 : o.superRead (some p) = .ok (mayRead p) := by
      unfold Obj.superRead
      simp only []
      rw [e1, h1]
      simp only [isReadEnabled_readable]
    have r2 : o'.superRead (some p') = .ok (mayRead p') := by
      unfold Obj.superRead
      simp only []
      rw [e2, h2]
      simp only [isReadEnabled_readable]
    rw [r1, r2]
    refine ⟨by rw [(alikeP h3).2.2.2.2.1], fun x q hq => ?_⟩
    injection hq with hq
    rw [← hq]
    injection x
/-- Data nobody may read makes no difference. -/
theorem censor_store {o : Obj} {c : Int} (h : ∀ p, o.getProperty c = some p → mayRead p = false) (d : Bytes) : censor (o.storeData c d) = censor o := by
  have h : ∀ p, Dict.get? o.props c = some p → mayRead p = false := h
  unfold censor Obj.storeData
  simp only []
  congr 1
  generalize o.props = l at h
  induction l with
  | nil => rfl
  | cons kp l ih =>
    obtain ⟨k, p⟩ := kp
    unfold Dict.modify
    unfold Dict.get? at h
    by_cases e : k = c
    · simp only [e, if_true] at h ⊢
      have := h p rfl
      have h2 : mayRead { p with data := d } = false := this
      simp [censorP, this, h2]
    · simp only [e, if_false] at h ⊢
      rw [List.map_cons, List.map_cons, ih h]

/-- Asking for a read. -/
theorem alike_read {env : Env} (he : AllDiscreet env) {o o' : Obj} (hw : WellFormed o) (hw' : WellFormed o') (h : censor o = censor o') (c : Int) :
    censor (o.callRead env (o.getProperty c)).1 = censor (o'.callRead env (o'.getProperty c)).1 ∧ WellFormed (o.callRead env (o.getProperty c)).1 ∧
    WellFormed (o'.callRead env (o'.getProperty c)).1 ∧ (o.callRead env (o.getProperty c)).2 = (o'.callRead env (o'.getProperty c)).2 ∧
    ((o.callRead env (o.getProperty c)).2 = .ok true → (∀ p, o.getProperty c = some p → mayRead p = true) ∧
      ∀ p, (o.callRead env (o.getProperty c)).1.getProperty c = some p → mayRead p = true) := by
  have hself := @alike_superRead c
  unfold Obj.callRead
  rw [← alike_handler h]
  cases o.handler with
  | none => exact ⟨h, hw, hw', rfl, fun x => by cases x⟩
  | self_ => exact ⟨h, hw, hw', (hself o o' hw hw' h).1, fun x => ⟨(hself o o' hw hw' h).2 x, (hself o o' hw hw' h).2 x⟩⟩
  | readOnly => exact ⟨h, hw, hw', (hself o o' hw hw' h).1, fun x => ⟨(hself o o' hw hw' h).2 x, (hself o o' hw hw' h).2 x⟩⟩
  | user n =>
    obtain ⟨a1, a2, a3, a4⟩ := (he n).read o o' c hw hw' h
    obtain ⟨-, b2, -⟩ := (he n).read o' o c hw' hw h.symm
    exact ⟨a1, a2, b2, a3, a4⟩

/-- Asking for a write. -/
theorem alike_write {env : Env} (he : AllDiscreet env) {o o' : Obj} (hw : WellFormed o) (hw' : WellFormed o') (h : censor o = censor o') (c : Int) {p p' : OProp}
    (hp : o.getProperty c = some p) (hp' : o'.getProperty c = some p') (d : Bytes) :
    censor (o.callWrite env p d).1 = censor (o'.callWrite env p' d).1 ∧ WellFormed (o.callWrite env p d).1 ∧
    WellFormed (o'.callWrite env p' d).1 ∧ (o.callWrite env p d).2 = (o'.callWrite env p' d).2 := by
  unfold Obj.callWrite
  rw [← alike_handler h]
  cases o.handler with
  | none => exact ⟨h, hw, hw', rfl⟩
  | self_ =>
    refine ⟨h, hw, hw', ?_⟩
    have e := alike_get h c
    rw [hp, hp', Option.map_some, Option.map_some] at e
    injection e with e
    simp only []
    unfold Obj.superWrite
    rw [code_of_get hw hp, code_of_get hw' hp', hp, hp']
    simp only [OProp.isWriteEnabled]
    rw [(alikeP e).2.2.1]
  | readOnly => exact ⟨h, hw, hw', rfl⟩
  | user n =>
    obtain ⟨a1, a2, a3⟩ := (he n).write o o' c p p' d hw hw' h hp hp'
    obtain ⟨-, b2, -⟩ := (he n).write o' o c p' p d hw' hw h.symm hp' hp
    exact ⟨a1, a2, b2, a3⟩

/-- Two runs agree: alike objects, the same result. -/
def Agree {α : Type} (x y : Obj × α) : Prop := censor x.1 = censor y.1 ∧ WellFormed x.1 ∧ WellFormed y.1 ∧ x.2 = y.2

theorem alike_setLoop {env : Env} (he : AllDiscreet env) (ms : List PProp) : ∀ (o o' : Obj) (cnt : Nat) (acc : List PProp), WellFormed o → WellFormed o' → censor o = censor o' →
    Agree (Obj.setLoop env o ms cnt acc) (Obj.setLoop env o' ms cnt acc) := by
  induction ms with
  | nil => exact fun o o' cnt acc hw hw' h => ⟨h, hw, hw', rfl⟩
  | cons mp ms ih =>
    intro o o' cnt acc hw hw' h
    unfold Obj.setLoop
    rcases alike_cases h mp.code with ⟨h1, h2⟩ | ⟨p, p', h1, h2, h3⟩
    · rw [h1, h2]
      exact ih o o' _ _ hw hw' h
    · rw [h1, h2]
      obtain ⟨a1, a2, a3, a4⟩ := alike_write he hw hw' h mp.code h1 h2 mp.data
      simp only []
      generalize o.callWrite env p mp.data = x at *
      generalize o'.callWrite env p' mp.data = y at *
      obtain ⟨x1, x2⟩ := x
      obtain ⟨y1, y2⟩ := y
      simp only [] at a1 a2 a3 a4
      subst a4
      rcases x2 with e | (_ | _)
      · exact ⟨a1, a2, a3, rfl⟩
      · exact ih _ _ _ _ a2 a3 a1
      · exact ih _ _ _ _ (wf_storeData _ _ _ a2) (wf_storeData _ _ _ a3) (alike_store a1 _ _)

theorem alike_data {o o' : Obj} (h : censor o = censor o') (c : Int) (hr : ∀ p, o.getProperty c = some p → mayRead p = true) : o.getPropertyData c = o'.getPropertyData c := by
  show (match o.getProperty c with | some p => some p.data | none => none) = (match o'.getProperty c with | some p => some p.data | none => none)
  rcases alike_cases h c with ⟨h1, h2⟩ | ⟨p, p', h1, h2, h3⟩
  · rw [h1, h2]
  · rw [h1, h2, (alikeP h3).2.2.2.2.2 (hr p h1)]

theorem alike_getLoop {env : Env} (he : AllDiscreet env) (ms : List PProp) : ∀ (o o' : Obj) (cnt : Nat) (acc : List PProp), WellFormed o → WellFormed o' → censor o = censor o' →
    Agree (Obj.getLoop env o ms cnt acc) (Obj.getLoop env o' ms cnt acc) := by
  induction ms with
  | nil => exact fun o o' cnt acc hw hw' h => ⟨h, hw, hw', rfl⟩
  | cons mp ms ih =>
    intro o o' cnt acc hw hw' h
    unfold Obj.getLoop
    obtain ⟨a1, a2, a3, a4, a5⟩ := alike_read he hw hw' h mp.code
    generalize o.callRead env (o.getProperty mp.code) = x at *
    generalize o'.callRead env (o'.getProperty mp.code) = y at *
    obtain ⟨x1, x2⟩ := x
    obtain ⟨y1, y2⟩ := y
    simp only [] at a1 a2 a3 a4 a5
    subst a4
    rcases x2 with e | (_ | _)
    · exact ⟨a1, a2, a3, rfl⟩
    · exact ih _ _ _ _ a2 a3 a1
    · have hd := alike_data a1 mp.code (a5 rfl).2
      simp only []
      rw [← hd]
      rcases alike_cases h mp.code with ⟨h1, h2⟩ | ⟨p, p', h1, h2, -⟩
      · rw [h1, h2]
        exact ⟨a1, a2, a3, rfl⟩
      · rw [h1, h2]
        cases x1.getPropertyData mp.code with
        | none => exact ⟨a1, a2, a3, rfl⟩
        | some d => exact ih _ _ _ _ a2 a3 a1

theorem alike_plainLoop {env : Env} (he : AllDiscreet env) (esv : Int) (ms : List PProp) : ∀ (o o' : Obj) (cnt : Nat) (acc : List PProp), WellFormed o → WellFormed o' → censor o = censor o' →
    Agree (Obj.plainLoop env esv o ms cnt acc) (Obj.plainLoop env esv o' ms cnt acc) := by
  induction ms with
  | nil => exact fun o o' cnt acc hw hw' h => ⟨h, hw, hw', rfl⟩
  | cons mp ms ih =>
    intro o o' cnt acc hw hw' h
    unfold Obj.plainLoop
    rcases alike_cases h mp.code with ⟨h1, h2⟩ | ⟨p, p', h1, h2, h3⟩
    · rw [h1, h2]
      exact ih o o' _ _ hw hw' h
    · obtain ⟨a1, a2, a3, a4, a5⟩ := alike_read he hw hw' h mp.code
      obtain ⟨b1, b2, b3, b4⟩ := alike_write he hw hw' h mp.code h1 h2 mp.data
      rw [h1] at a1 a2 a4 a5
      rw [h2] at a1 a3 a4
      rw [h1, h2]
      simp only []
      by_cases hr : ESV.isReadRequest esv = true
      · rw [if_pos hr, if_pos hr]
        generalize o.callRead env (some p) = x at *
        generalize o'.callRead env (some p') = y at *
        obtain ⟨x1, x2⟩ := x
        obtain ⟨y1, y2⟩ := y
        simp only [] at a1 a2 a3 a4 a5
        subst a4
        rcases x2 with e | (_ | _)
        · exact ⟨a1, a2, a3, rfl⟩
        · exact ih _ _ _ _ a2 a3 a1
        · have hd := alike_data a1 mp.code (a5 rfl).2
          simp only []
          rw [← hd, (alikeP h3).2.2.2.2.2 ((a5 rfl).1 p rfl)]
          exact ih _ _ _ _ a2 a3 a1
      · rw [if_neg hr, if_neg hr]
        by_cases hq : ESV.isWriteRequest esv = true
        · rw [if_pos hq, if_pos hq]
          generalize o.callWrite env p mp.data = x at *
          generalize o'.callWrite env p' mp.data = y at *
          obtain ⟨x1, x2⟩ := x
          obtain ⟨y1, y2⟩ := y
          simp only [] at b1 b2 b3 b4
          subst b4
          rcases x2 with e | (_ | _)
          · exact ⟨b1, b2, b3, rfl⟩
          · exact ih _ _ _ _ b2 b3 b1
          · exact ih _ _ _ _ (wf_storeData _ _ _ b2) (wf_storeData _ _ _ b3) (alike_store b1 _ _)
        · rw [if_neg hq, if_neg hq]
          exact ih _ _ _ _ hw hw' h

theorem alike_handle {env : Env} (he : AllDiscreet env) {o o' : Obj} (hw : WellFormed o) (hw' : WellFormed o') (h : censor o = censor o') (req : Msg) :
    Agree (o.handleRequest env req) (o'.handleRequest env req) := by
  unfold Obj.handleRequest
  by_cases h1 : ESV.isRequest req.esv = false
  · rw [if_pos h1, if_pos h1]; exact ⟨h, hw, hw', rfl⟩
  rw [if_neg h1, if_neg h1, ← alike_handler h]
  by_cases h2 : o.handler = .none
  · rw [if_pos h2, if_pos h2]; exact ⟨h, hw, hw', rfl⟩
  rw [if_neg h2, if_neg h2]
  by_cases h3 : ESV.isWriteReadRequest req.esv = true
  · simp only []
    rw [if_pos h3, if_pos h3]
    have a := alike_setLoop he req.setProps o o' 0 [] hw hw' h
    generalize Obj.setLoop env o req.setProps 0 [] = x at *
    generalize Obj.setLoop env o' req.setProps 0 [] = y at *
    obtain ⟨x1, x2⟩ := x
    obtain ⟨y1, y2⟩ := y
    obtain ⟨a1, a2, a3, a4⟩ := a
    simp only [] at a1 a2 a3 a4
    subst a4
    rcases x2 with e | ⟨cnt, sps⟩
    · exact ⟨a1, a2, a3, rfl⟩
    · have b := alike_getLoop he req.getProps x1 y1 cnt [] a2 a3 a1
      simp only []
      generalize Obj.getLoop env x1 req.getProps cnt [] = z at *
      generalize Obj.getLoop env y1 req.getProps cnt [] = w at *
      obtain ⟨z1, z2⟩ := z
      obtain ⟨w1, w2⟩ := w
      obtain ⟨b1, b2, b3, b4⟩ := b
      simp only [] at b1 b2 b3 b4
      subst b4
      rcases z2 with e | ⟨cnt, gps⟩ <;> exact ⟨b1, b2, b3, rfl⟩
  · simp only []
    rw [if_neg h3, if_neg h3]
    have a := alike_plainLoop he req.esv req.props o o' 0 [] hw hw' h
    generalize Obj.plainLoop env req.esv o req.props 0 [] = x at *
    generalize Obj.plainLoop env req.esv o' req.props 0 [] = y at *
    obtain ⟨x1, x2⟩ := x
    obtain ⟨y1, y2⟩ := y
    obtain ⟨a1, a2, a3, a4⟩ := a
    simp only [] at a1 a2 a3 a4
    subst a4
    rcases x2 with e | ⟨cnt, ps⟩ <;> exact ⟨a1, a2, a3, rfl⟩

/-- One message to alike objects. -/
theorem alike_receive {env : Env} (he : AllDiscreet env) {o o' : Obj} (hw : WellFormed o) (hw' : WellFormed o') (h : censor o = censor o') (req : Msg) :
    censor (o.messageReceived env req).obj = censor (o'.messageReceived env req).obj ∧ WellFormed (o.messageReceived env req).obj ∧ WellFormed (o'.messageReceived env req).obj ∧
    (o.messageReceived env req).result = (o'.messageReceived env req).result ∧ (o.messageReceived env req).notified = (o'.messageReceived env req).notified := by
  unfold Obj.messageReceived
  rw [← alike_observers h]
  rcases Obj.notify env req o.observers with ⟨l, _ | e⟩
  · obtain ⟨a1, a2, a3, a4⟩ := alike_handle he hw hw' h req
    exact ⟨a1, a2, a3, a4, rfl⟩
  · exact ⟨h, hw, hw', rfl, rfl⟩

/-! ### Nodes -/

theorem censorNode_get (n : LocalNode) (c : Int) : Dict.get? (censorNode n).node.objects c = (Dict.get? n.node.objects c).map censorSlot := get?_map _ _ _

theorem censorNode_answer (n : LocalNode) (net : Net) (req : Msg) (r : Option Msg) :
    (censorNode n).answer net req r = (censorNode (n.answer net req r).1, (n.answer net req r).2) := by
  cases r with
  | none => rfl
  | some res =>
    rw [answer_eq, answer_eq]
    have e : outgoing (censorNode n) res = outgoing n res := rfl
    rw [e]
    by_cases h : ESV.isNotification res.esv = true
    · rw [if_pos h, if_pos h]; rfl
    · rw [if_neg h, if_neg h]; rfl

theorem censorNode_codes (n : LocalNode) : (censorNode n).objs.map Obj.code = n.objs.map Obj.code := by
  unfold LocalNode.objs Node.objectList Dict.values censorNode
  simp only [List.map_map]
  apply List.map_congr_left
  intro kv _
  show ((censorNode n).deref (censorSlot kv.2)).code = (n.deref kv.2).code
  cases kv.2 <;> rfl

theorem censorNode_add (ord : List Int → List Int) (n : LocalNode) (o : Obj) : censorNode (n.addObject ord o).1 = ((censorNode n).addObject ord (censor o)).1 := by
  have key : ∀ m : LocalNode, (m.refresh ord).1 = { m with profile := (NodeProfile.updateMapProperties ord m.profile (m.objs.map Obj.code)).1 } := fun m => rfl
  unfold LocalNode.addObject
  rw [key, key]
  have e : ({ censorNode n with node := (censorNode n).node.put (censor o).code (.user (censor o)) } : LocalNode) = censorNode { n with node := n.node.put o.code (.user o) } := by
    unfold censorNode Node.put
    simp only []
    rw [set_map]
    rfl
  rw [e, censorNode_codes]
  rfl

theorem censorNode_putBack (n : LocalNode) (c : Int) (s : Slot) (o : Obj) :
    censorNode (n.putBack c s o) = match s with
      | .profile => (censorNode n).putBack c .profile o
      | .user _ => (censorNode n).putBack c (.user o) (censor o) := by
  cases s with
  | profile => rfl
  | user x =>
    unfold LocalNode.putBack censorNode
    simp only []
    rw [modify_map censorSlot (fun _ => .user o) (fun _ => .user (censor o)) (fun _ => rfl)]

theorem wf_putBack {n : LocalNode} (h : AllWellFormed n) (c : Int) (s : Slot) (o : Obj) (ho : (∃ x, s = .user x) → WellFormed o) : AllWellFormed (n.putBack c s o) := by
  cases s with
  | profile => exact h
  | user x =>
    intro k y hk
    have hk : Dict.get? (Dict.modify n.node.objects c fun _ => .user o) k = some (.user y) := hk
    rw [Dict.get?_modify] at hk
    by_cases e : c = k
    · rw [if_pos e] at hk
      cases hg : Dict.get? n.node.objects k with
      | none => rw [hg] at hk; cases hk
      | some z =>
        rw [hg] at hk
        injection hk with hk
        injection hk with hk
        rw [← hk]
        exact ho ⟨x, rfl⟩
    · rw [if_neg e] at hk
      exact h k y hk

theorem answer_objects (n : LocalNode) (net : Net) (req : Msg) (r : Option Msg) : (n.answer net req r).1.node = n.node := by
  cases r with
  | none => rfl
  | some res => rw [answer_eq]; split <;> rfl

/-- One message to alike nodes. -/
theorem alike_node {env : Env} (he : AllDiscreet env) (net : Net) {n n' : LocalNode} (hw : AllWellFormed n) (hw' : AllWellFormed n') (h : censorNode n = censorNode n') (m : Msg) :
    censorNode (n.messageReceived env net m).1 = censorNode (n'.messageReceived env net m).1 ∧ AllWellFormed (n.messageReceived env net m).1 ∧
    AllWellFormed (n'.messageReceived env net m).1 ∧ (n.messageReceived env net m).2 = (n'.messageReceived env net m).2 := by
  by_cases hm : Encodable m
  swap
  · rw [messageReceived_unfit _ _ _ _ hm, messageReceived_unfit _ _ _ _ hm]
    exact ⟨h, hw, hw', rfl⟩
  rw [messageReceived_eq _ _ _ _ hm, messageReceived_eq _ _ _ _ hm]
  have hg : (Dict.get? n.node.objects (m.deoj % 2 ^ 24)).map censorSlot = (Dict.get? n'.node.objects (m.deoj % 2 ^ 24)).map censorSlot := by
    rw [← censorNode_get, ← censorNode_get, h]
  generalize m.deoj % 2 ^ 24 = c at *
  have key : ∀ (s s' : Slot) (r r' : Obj.Recv), censorNode (n.putBack c s r.obj) = censorNode (n'.putBack c s' r'.obj) → AllWellFormed (n.putBack c s r.obj) →
      AllWellFormed (n'.putBack c s' r'.obj) → r.result = r'.result →
      let x := (match r.result with
        | .error e => (n.putBack c s r.obj, .error e)
        | .ok res => (n.putBack c s r.obj).answer net (received m) res : LocalNode × Except Exc Unit)
      let y := (match r'.result with
        | .error e => (n'.putBack c s' r'.obj, .error e)
        | .ok res => (n'.putBack c s' r'.obj).answer net (received m) res : LocalNode × Except Exc Unit)
      censorNode x.1 = censorNode y.1 ∧ AllWellFormed x.1 ∧ AllWellFormed y.1 ∧ x.2 = y.2 := by
    intro s s' r r' k1 k2 k3 k4
    rw [← k4]
    rcases r.result with e | res
    · exact ⟨k1, k2, k3, rfl⟩
    · have a := censorNode_answer (n.putBack c s r.obj) net (received m) res
      have b := censorNode_answer (n'.putBack c s' r'.obj) net (received m) res
      rw [k1, b] at a
      refine ⟨(congrArg Prod.fst a).symm, ?_, ?_, (congrArg Prod.snd a).symm⟩
      · intro k o hk
        simp only [] at hk
        rw [answer_objects] at hk
        exact k2 k o hk
      · intro k o hk
        simp only [] at hk
        rw [answer_objects] at hk
        exact k3 k o hk
  cases hs : Dict.get? n.node.objects c with
  | none =>
    cases hs' : Dict.get? n'.node.objects c with
    | none => exact ⟨h, hw, hw', rfl⟩
    | some s' => rw [hs, hs'] at hg; cases hg
  | some s =>
    cases hs' : Dict.get? n'.node.objects c with
    | none => rw [hs, hs'] at hg; cases hg
    | some s' =>
      rw [hs, hs'] at hg
      injection hg with hg
      simp only []
      apply key
      all_goals cases s with
        | profile =>
          cases s' with
          | user o => cases hg
          | profile =>
            have hp : n.profile = n'.profile := (congrArg LocalNode.profile h : (censorNode n).profile = (censorNode n').profile)
            simp only [LocalNode.deref]
            try rw [hp]
            all_goals first
              | (rw [censorNode_putBack, censorNode_putBack, h]; done)
              | exact hw
              | exact hw'
              | rfl
        | user o =>
          cases s' with
          | profile => cases hg
          | user o' =>
            have ho : censor o = censor o' := by injection hg
            obtain ⟨a1, a2, a3, a4, -⟩ := alike_receive he (hw c o hs) (hw' c o' hs') ho (received m)
            simp only [LocalNode.deref]
            first
              | (rw [censorNode_putBack, censorNode_putBack]; simp only []; rw [a1, h]; rfl)
              | exact wf_putBack hw _ _ _ fun _ => a2
              | exact wf_putBack hw' _ _ _ fun _ => a3
              | exact a4

/-- One thing after another. -/
theorem alike_op {ord : List Int → List Int} {op op' : NodeOp} (hop : SameBut op op') {n n' : LocalNode} (hw : AllWellFormed n) (hw' : AllWellFormed n') (h : censorNode n = censorNode n') :
    censorNode (op.run ord n) = censorNode (op'.run ord n') ∧ AllWellFormed (op.run ord n) ∧ AllWellFormed (op'.run ord n') := by
  have conj : ∀ (f : LocalNode → LocalNode), (∀ m, censorNode (f m) = f (censorNode m)) → (∀ m, (f m).node.objects = m.node.objects) →
      censorNode (f n) = censorNode (f n') ∧ AllWellFormed (f n) ∧ AllWellFormed (f n') := by
    intro f h1 h2
    refine ⟨by rw [h1, h1, h], ?_, ?_⟩
    · intro c o hc; rw [h2] at hc; exact hw c o hc
    · intro c o hc; rw [h2] at hc; exact hw' c o hc
  cases hop with
  | receive env net m he =>
    obtain ⟨a, b, c, -⟩ := alike_node he net hw hw' h m
    exact ⟨a, b, c⟩
  | enable opt v => exact conj (fun m => m.setEnabled opt v) (fun m => by unfold LocalNode.setEnabled; split <;> rfl) fun m => by unfold LocalNode.setEnabled; split <;> rfl
  | start net caller => exact conj (fun m => (m.start net caller).1) (fun m => by
        show censorNode (m.start net caller).1 = ((censorNode m).start net caller).1
        unfold LocalNode.start
        show _ = (match m.mgr.start net caller [] with
          | (g, .error e) => ({ censorNode m with mgr := g }, .error e)
          | (g, .ok false) => ({ censorNode m with mgr := g }, .ok false)
          | (g, .ok true) => ({ censorNode m with mgr := g.addObserver 0, node := ((censorNode m).node.setAddress (some (g.ifaddr, g.port))).1 }, .ok true) : LocalNode × Except Exc Bool).1
        rcases m.mgr.start net caller [] with ⟨g, e | _ | _⟩ <;> rfl) (fun m => by
        show (m.start net caller).1.node.objects = _
        unfold LocalNode.start
        rcases m.mgr.start net caller [] with ⟨g, e | _ | _⟩ <;> rfl)
  | stop caller => exact conj (fun m => (m.stop caller).1) (fun _ => rfl) fun _ => rfl
  | announce net m => exact conj (fun k => (k.announceMessage net m).1) (fun _ => rfl) fun _ => rfl
  | send net m a => exact conj (fun k => (k.sendMessage net m a).1) (fun _ => rfl) fun _ => rfl
  | add o o' ho wo wo' =>
    have hwf : ∀ (m : LocalNode) (x : Obj), AllWellFormed m → WellFormed x → AllWellFormed (m.addObject ord x).1 := by
      intro m x h1 h2 c y hy
      have hy : Dict.get? (Dict.set m.node.objects x.code (.user x)) c = some (.user y) := hy
      rw [Dict.get?_set] at hy
      by_cases e : x.code = c
      · rw [if_pos e] at hy
        injection hy with hy
        injection hy with hy
        rw [← hy]; exact h2
      · rw [if_neg e] at hy
        exact h1 c y hy
    refine ⟨?_, hwf _ _ hw wo, hwf _ _ hw' wo'⟩
    show censorNode (n.addObject ord o).1 = censorNode (n'.addObject ord o').1
    rw [censorNode_add, censorNode_add, h, ho]
  | update code f f' hf hfw =>
    have hg : (Dict.get? n.node.objects code).map censorSlot = (Dict.get? n'.node.objects code).map censorSlot := by
      rw [← censorNode_get, ← censorNode_get, h]
    show censorNode (n.update code f) = censorNode (n'.update code f') ∧ AllWellFormed (n.update code f) ∧ AllWellFormed (n'.update code f')
    unfold LocalNode.update
    rcases hs : Dict.get? n.node.objects code with _ | _ | o <;> rcases hs' : Dict.get? n'.node.objects code with _ | _ | o'
    all_goals rw [hs, hs'] at hg
    all_goals first
      | exact ⟨h, hw, hw'⟩
      | cases hg
      | skip
    have ho : censor o = censor o' := by injection hg with hg; injection hg
    simp only []
    refine ⟨?_, wf_putBack hw _ _ _ fun _ => (hfw o (hw code o hs)).1, wf_putBack hw' _ _ _ fun _ => (hfw o' (hw' code o' hs')).2⟩
    rw [censorNode_putBack, censorNode_putBack]
    simp only []
    rw [hf o o' (hw code o hs) (hw' code o' hs') ho, h]
    rfl

theorem alike_ops {ord : List Int → List Int} {ops ops' : List NodeOp} (hops : List.Forall₂ SameBut ops ops') : ∀ {n n' : LocalNode}, AllWellFormed n → AllWellFormed n' →
    censorNode n = censorNode n' → censorNode (runOps ord n ops) = censorNode (runOps ord n' ops') ∧ AllWellFormed (runOps ord n ops) ∧ AllWellFormed (runOps ord n' ops') := by
  induction hops with
  | nil => exact fun a b c => ⟨c, a, b⟩
  | cons h _ ih =>
    intro n n' a b c
    obtain ⟨c', a', b'⟩ := alike_op (ord := ord) h a b c
    exact ih a' b' c'

end Uecho
