import Verif.Lemmas.Dispatch
import Verif.Spec.Controller
import Verif.Props.Node

namespace Uecho
open Spec

/-! ### Dictionaries -/

theorem Dict.modify_const_get? {κ ν : Type} [DecidableEq κ] (d : Dict κ ν) (k : κ) (v : ν) (h : Dict.get? d k = some v) :
    Dict.modify d k (fun _ => v) = d := by
  induction d with
  | nil => rfl
  | cons x d ih =>
    obtain ⟨k', v'⟩ := x
    unfold Dict.modify
    unfold Dict.get? at h
    by_cases hk : k' = k
    · rw [if_pos hk] at h ⊢
      cases h
      rfl
    · rw [if_neg hk] at h ⊢
      rw [ih h]

theorem Dict.modify_modify_const {κ ν : Type} [DecidableEq κ] (d : Dict κ ν) (k : κ) (v w : ν) :
    Dict.modify (Dict.modify d k (fun _ => v)) k (fun _ => w) = Dict.modify d k (fun _ => w) := by
  induction d with
  | nil => rfl
  | cons x d ih =>
    obtain ⟨k', v'⟩ := x
    by_cases hk : k' = k
    · simp [Dict.modify, hk]
    · simp [Dict.modify, hk, ih]

/-! ### Listeners -/

theorem notifyLoop_calm {cenv : CEnv} (h : Calm cenv) (call : Call) (ls : List Nat) : ∀ c : Ctl,
    Ctl.notifyLoop cenv call ls c = ({ c with calls := c.calls ++ ls.map (fun l => (l, c.found, call)) }, none) := by
  induction ls with
  | nil => intro c; simp [Ctl.notifyLoop]
  | cons l ls ih =>
    intro c
    unfold Ctl.notifyLoop
    simp only [h l c.found call]
    rw [ih]
    simp

theorem notify_calm {cenv : CEnv} (h : Calm cenv) (c : Ctl) (call : Call) :
    c.notify cenv call = ({ c with calls := c.calls ++ c.listeners.map (fun l => (l, c.found, call)) }, none) :=
  notifyLoop_calm h call c.listeners c

theorem toldAll_notify (c : Ctl) (call : Call) (f : Dict String Remote) (x : List (Nat × Dict String Remote × Call)) (hx : x = c.calls) :
    (x ++ c.listeners.map (fun l => (l, f, call))).map (fun x => (x.1, told x.2.2)) = toldAll c ++ tellAll c.listeners (told call) := by
  subst hx
  simp [toldAll, tellAll, Function.comp_def]

/-! ### Looking up nodes -/

theorem getNodeLoop_pair (cenv : CEnv) (a : Addr) (d : Dict String Remote) :
    Ctl.getNodeLoop cenv (.pair a) d = .ok (Dict.get? d a.1) := by
  induction d with
  | nil => rfl
  | cons x d ih =>
    obtain ⟨k, r⟩ := x
    unfold Ctl.getNodeLoop Dict.get?
    simp only []
    by_cases h : a.1 = k
    · rw [if_pos h, if_pos h.symm]
    · rw [if_neg h, if_neg (fun e => h e.symm), ih]

theorem getNodeLoop_other (cenv : CEnv) (d : Dict String Remote) : Ctl.getNodeLoop cenv .other d = .ok none := by
  induction d with
  | nil => rfl
  | cons x d ih => exact ih

/-- By name: what the name resolves to decides, except that a name equal to an address is found at its
place. -/
theorem getNodeLoop_str (cenv : CEnv) (s ip : String) (h : cenv.resolve s = .ok ip) (d : Dict String Remote) :
    Ctl.getNodeLoop cenv (.str s) d = .ok ((d.find? fun x => decide (x.1 = s ∨ x.1 = ip)).map Prod.snd) := by
  induction d with
  | nil => rfl
  | cons x d ih =>
    obtain ⟨k, r⟩ := x
    unfold Ctl.getNodeLoop
    simp only [h]
    by_cases h1 : s = k
    · simp [h1]
    · by_cases h2 : ip = k
      · simp [h1, h2]
      · rw [if_neg h1, if_neg h2, ih, List.find?_cons_of_neg]
        simp only [decide_eq_true_eq, not_or]
        exact ⟨fun e => h1 e.symm, fun e => h2 e.symm⟩

/-! ### The table of found nodes -/

/-- What holds of the nodes of a controller. -/
structure RemoteInv (ip : String) (r : Remote) : Prop where
  addr : ∃ p, r.node.address = some (ip, p)
  linked : r.linked = true
  keys : (Dict.keys r.node.objects).Nodup
  objs : ∀ code o, Dict.get? r.node.objects code = some o → WellFormed o ∧ o.code = code

structure FoundInv (c : Ctl) : Prop where
  keys : (Dict.keys c.found).Nodup
  nodes : ∀ ip r, Dict.get? c.found ip = some r → RemoteInv ip r

theorem ip_of_address (n : Node Obj) (a : Addr) (h : n.address = some a) : n.ip = a.1 := by
  unfold Node.ip; rw [h]

theorem putObj_same (r : Remote) (code : Int) (o : Obj) (h : Dict.get? r.node.objects code = some o) : r.putObj code o = r := by
  unfold Remote.putObj
  rw [Dict.modify_const_get? _ _ _ h]

theorem putObj_putObj (r : Remote) (code : Int) (o o' : Obj) : (r.putObj code o).putObj code o' = r.putObj code o' := by
  unfold Remote.putObj
  simp only []
  rw [Dict.modify_modify_const]

theorem get?_putObj (r : Remote) (code : Int) (o : Obj) (c : Int) :
    Dict.get? (r.putObj code o).node.objects c = if code = c then (Dict.get? r.node.objects c).map (fun _ => o) else Dict.get? r.node.objects c := by
  unfold Remote.putObj
  simp only []
  rw [Dict.get?_modify]

theorem putObj_inv {ip : String} {r : Remote} (h : RemoteInv ip r) (code : Int) (o : Obj) (hw : WellFormed o) (hc : o.code = code) :
    RemoteInv ip (r.putObj code o) := by
  refine ⟨h.addr, h.linked, ?_, ?_⟩
  · unfold Remote.putObj
    simp only []
    rw [Dict.keys_modify]
    exact h.keys
  · intro c o' ho
    rw [get?_putObj] at ho
    split at ho
    · rename_i e
      cases hg : Dict.get? r.node.objects c with
      | none => rw [hg] at ho; cases ho
      | some x =>
        rw [hg] at ho
        cases ho
        exact ⟨hw, hc.trans e⟩
    · exact h.objs c o' ho

/-! ### `_update_properties` -/

/-- Storing what is there changes nothing. -/
theorem afterWrites_same (o : Obj) (i : PProp) (hw : WellFormed o) (h : ∀ p, lookup o.props i.code = some p → p.data = i.data) :
    afterWrites o [i] = o := by
  unfold afterWrites
  have : (o.props.map fun kp => (kp.1, { kp.2 with data := (lastFor [i] kp.1).getD kp.2.data })) = o.props := by
    conv => rhs; rw [← List.map_id o.props]
    apply List.map_congr_left
    intro kp hkp
    by_cases e : i.code = kp.1
    · have hl : lookup o.props i.code = some kp.2 := by
        rw [lookup_eq, e]
        exact Dict.get?_of_mem o.props kp.1 kp.2 hw.1 hkp
      simp [lastFor, e, ← h _ hl]
    · simp [lastFor, e]
  rw [this]

theorem updateLoop_calm {cenv : CEnv} (h : Calm cenv) (ip : String) (code : Int) (ms : List PProp) :
    ∀ (c : Ctl) (r : Remote) (o : Obj) (upd : Bool), WellFormed o → Dict.get? c.found ip = some r →
      Dict.get? r.node.objects code = some o → ipOf r = ip → ∃ c',
      Ctl.updateLoop cenv ip code ms c r o upd =
        (c', r.putObj code (afterWrites o ms), .ok (upd || !(changes o ms).isEmpty)) ∧
      c'.found = Dict.modify c.found ip (fun _ => r.putObj code (afterWrites o ms)) ∧
      c'.ln = c.ln ∧ c'.last = c.last ∧ c'.listeners = c.listeners ∧
      toldAll c' = toldAll c ++ (changes o ms).flatMap (fun i => tellAll c.listeners (.propertyUpdated ip o.code i.code i.data)) := by
  induction ms with
  | nil =>
    intro c r o upd hw hf ho hi
    refine ⟨c, ?_, ?_, rfl, rfl, rfl, by simp [changes]⟩
    · rw [afterWrites_nil, putObj_same _ _ _ ho]
      simp [Ctl.updateLoop, changes]
    · rw [afterWrites_nil, putObj_same _ _ _ ho, Dict.modify_const_get? _ _ _ hf]
  | cons mp ms ih =>
    intro c r o upd hw hf ho hi
    have hcons : afterWrites o (mp :: ms) = afterWrites (afterWrites o [mp]) ms := by
      rw [afterWrites_append]; rfl
    unfold Ctl.updateLoop changes
    rw [getProperty_eq]
    have hst : o.storeData mp.code mp.data = afterWrites o [mp] := storeData_eq o mp.code mp.data hw.1
    have hid := afterWrites_same o mp hw
    cases hl : lookup o.props mp.code with
    | none =>
      simp only []
      rw [hcons, hid (by intro p hp; rw [hl] at hp; cases hp)]
      exact ih c r o upd hw hf ho hi
    | some p =>
      simp only []
      by_cases hd : p.data = mp.data
      · rw [if_neg (by simpa using hd), if_pos hd, hcons, hid (by intro q hq; rw [hl] at hq; cases hq; exact hd)]
        exact ih c r o upd hw hf ho hi
      · rw [if_pos hd, if_neg hd, hst]
        rw [notify_calm h]
        simp only []
        have hw1 := wf_afterWrites o [mp] hw
        have hg1 : Dict.get? (r.putObj code (afterWrites o [mp])).node.objects code = some (afterWrites o [mp]) := by
          rw [get?_putObj, if_pos rfl, ho]; rfl
        obtain ⟨c', e1, e2, e3, e4, e5, e6⟩ := ih
          { (c.putRemote ip (r.putObj code (afterWrites o [mp]))) with
            calls := (c.putRemote ip (r.putObj code (afterWrites o [mp]))).calls ++
              (c.putRemote ip (r.putObj code (afterWrites o [mp]))).listeners.map (fun l => (l, (c.putRemote ip (r.putObj code (afterWrites o [mp]))).found,
                Call.propertyUpdated (r.putObj code (afterWrites o [mp])) (afterWrites o [mp]).code mp.code mp.data)) }
          (r.putObj code (afterWrites o [mp])) (afterWrites o [mp]) true hw1
          (by show Dict.get? (Dict.modify c.found ip _) ip = _; rw [Dict.get?_modify, if_pos rfl, hf]; rfl) hg1 hi
        refine ⟨c', ?_, ?_, e3, e4, e5, ?_⟩
        · rw [e1, hcons, putObj_putObj]
          simp
        · rw [e2, hcons, putObj_putObj]
          show Dict.modify (Dict.modify c.found ip _) ip _ = _
          rw [Dict.modify_modify_const]
        · rw [e6]
          rw [List.flatMap_cons]
          have : toldAll { (c.putRemote ip (r.putObj code (afterWrites o [mp]))) with
            calls := (c.putRemote ip (r.putObj code (afterWrites o [mp]))).calls ++
              (c.putRemote ip (r.putObj code (afterWrites o [mp]))).listeners.map (fun l => (l, (c.putRemote ip (r.putObj code (afterWrites o [mp]))).found,
                Call.propertyUpdated (r.putObj code (afterWrites o [mp])) (afterWrites o [mp]).code mp.code mp.data)) } =
              toldAll c ++ tellAll c.listeners (.propertyUpdated ip o.code mp.code mp.data) := by
            unfold toldAll
            simp only []
            refine (toldAll_notify c _ _ _ rfl).trans ?_
            have : ipOf (r.putObj code (afterWrites o [mp])) = ip := hi
            simp only [told, this]
            rfl
          rw [this, List.append_assoc]
          rfl

/-- What a report does to the nodes known and to what listeners are told. -/
theorem updateProperties_calm {cenv : CEnv} (h : Calm cenv) (c : Ctl) (hi : FoundInv c) (m : Msg) (a : Addr) (ha : m.fromAddr = some a) :
    match Dict.get? c.found a.1 with
    | none => c.updateProperties cenv m = (c, .error .attributeError)
    | some r =>
      match Dict.get? r.node.objects m.deoj with
      | none => c.updateProperties cenv m = (c, .ok ())
      | some o => ∃ c', c.updateProperties cenv m = (c', .ok ()) ∧
          c'.found = Dict.modify c.found a.1 (fun _ => r.putObj m.deoj (afterWrites o m.props)) ∧
          c'.ln = c.ln ∧ c'.last = c.last ∧ c'.listeners = c.listeners ∧
          toldAll c' = toldAll c ++ (changes o m.props).flatMap (fun i => tellAll c.listeners (.propertyUpdated a.1 m.deoj i.code i.data)) ++
            (if changes o m.props = [] then [] else tellAll c.listeners (.objectUpdated a.1 m.deoj) ++ tellAll c.listeners (.nodeAdd a.1)) := by
  unfold Ctl.updateProperties Ctl.getNode
  rw [ha]
  simp only [getNodeLoop_pair]
  cases hf : Dict.get? c.found a.1 with
  | none => rfl
  | some r =>
    simp only []
    have hr := hi.nodes a.1 r hf
    obtain ⟨port, hp⟩ := hr.addr
    have hip : r.node.ip = a.1 := ip_of_address _ (a.1, port) hp
    have hio : ipOf r = a.1 := by unfold ipOf; rw [hp]
    have hg : r.node.getObject (.int m.deoj) = Dict.get? r.node.objects m.deoj := rfl
    rw [hg, hip]
    cases ho : Dict.get? r.node.objects m.deoj with
    | none => rfl
    | some o =>
      simp only []
      obtain ⟨hw, hc⟩ := hr.objs _ _ ho
      obtain ⟨c', e1, e2, e3, e4, e5, e6⟩ := updateLoop_calm h a.1 m.deoj m.props c r o false hw hf ho hio
      rw [e1]
      by_cases hch : changes o m.props = []
      · rw [hch, if_pos rfl]
        simp only [List.isEmpty_nil, Bool.not_true, Bool.or_false]
        exact ⟨c', rfl, e2, e3, e4, e5, by rw [e6, hch]; simp⟩
      · have hne : (changes o m.props).isEmpty = false := by
          cases hx : changes o m.props with
          | nil => exact absurd hx hch
          | cons x l => rfl
        rw [hne, if_neg hch]
        simp only [Bool.not_false, Bool.or_true]
        rw [notify_calm h]
        simp only [Ctl.notifyNodeUpdated]
        rw [notify_calm h]
        refine ⟨_, rfl, e2, e3, e4, e5, ?_⟩
        have h1 : ipOf (r.putObj m.deoj (afterWrites o m.props)) = a.1 := hio
        have := e6
        unfold toldAll at this ⊢
        simp only [List.map_append, this, hc, e5, List.append_assoc, List.map_map]
        simp [tellAll, told, h1, Function.comp_def]

/-! ### Instance lists -/

/-- The node a controller makes of an instance list. -/
def listedNode (ord : List Int → List Int) (a : Addr) (l : List Int) : Node Obj :=
  { address := some a, objects := addDevices ord [(0x0EF001, devObj ord 0x0EF001)] l }

theorem listedNode_keys (ord : List Int → List Int) (a : Addr) (l : List Int) :
    Dict.keys (listedNode ord a l).objects = addCodes [0x0EF001] l := by
  unfold listedNode
  simp only []
  rw [keys_addDevices]
  rfl

theorem listedNode_get? (ord : List Int → List Int) (a : Addr) (l : List Int) (c : Int) :
    Dict.get? (listedNode ord a l).objects c = if c = 0x0EF001 ∨ c ∈ l then some (devObj ord c) else none := by
  unfold listedNode
  simp only []
  rw [get?_addDevices]
  by_cases h1 : c ∈ l
  · rw [if_pos h1, if_pos (Or.inr h1)]
  · rw [if_neg h1]
    by_cases h2 : c = 0x0EF001
    · subst h2
      rw [if_pos (Or.inl rfl)]
      rfl
    · rw [if_neg (by simp [h1, h2])]
      unfold Dict.get?
      rw [if_neg (fun e => h2 e.symm)]
      rfl

theorem listedNode_inv {ord : List Int → List Int} (hord : ValidOrder ord) (a : Addr) (l : List Int) :
    RemoteInv a.1 { node := listedNode ord a l, linked := true } := by
  refine ⟨⟨a.2, rfl⟩, rfl, ?_, ?_⟩
  · rw [listedNode_keys]
    exact nodup_addCodes _ _ (by simp)
  · intro c o ho
    rw [listedNode_get?] at ho
    split at ho
    · cases ho
      exact ⟨(std_new hord c).2.2.1, (std_new hord c).2.1⟩
    · cases ho

theorem receiveProfile_calm {ord : List Int → List Int} (hord : ValidOrder ord) {cenv : CEnv} (h : Calm cenv) (c : Ctl) (m : Msg)
    (a : Addr) (ha : m.fromAddr = some a) :
    c.receiveProfile ord cenv m =
      if ¬ (m.esv = 0x72 ∨ m.esv = 0x73) then (c, .ok ())
      else if m.deoj ≠ 0x0EF001 then (c, .error .attributeError)
      else match instanceListOf m with
        | .notAList => (c, .ok ())
        | .short => (c, .ok ())
        | .empty => (c, .error .indexError)
        | .codes l => ({ c with
            calls := c.calls ++ c.listeners.map (fun x => (x, c.found, Call.nodeAdd { node := listedNode ord a l }))
            found := Dict.set c.found a.1 { node := listedNode ord a l, linked := true } }, .ok ()) := by
  unfold Ctl.receiveProfile Msg.isNodeProfileMessage
  by_cases h1 : m.esv = 0x72 ∨ m.esv = 0x73
  · rw [if_neg (show ¬ (m.esv ≠ ESV.NOTIFICATION ∧ m.esv ≠ ESV.READ_RESPONSE) from
      (by omega : ¬ (m.esv ≠ 0x73 ∧ m.esv ≠ 0x72))), if_neg (not_not.mpr h1)]
    by_cases h2 : m.deoj = 0x0EF001
    · rw [if_neg (show ¬ (m.deoj ≠ NodeProfile.CODE) from (by simpa using h2 : ¬ (m.deoj ≠ 0x0EF001))), if_neg (by simpa using h2)]
      simp only []
      rw [remoteNode_new hord]
      simp only [parseMessage_eq hord]
      cases instanceListOf m with
      | notAList => rfl
      | short => rfl
      | empty => rfl
      | codes l =>
        simp only [ha]
        unfold Ctl.addFoundNode
        simp only [Ctl.notifyNodeUpdated, ite_self]
        rw [notify_calm h]
        rfl
    · rw [if_pos (show m.deoj ≠ NodeProfile.CODE from h2), if_pos h2]
  · rw [if_pos (show (m.esv ≠ ESV.NOTIFICATION ∧ m.esv ≠ ESV.READ_RESPONSE) from
      (by omega : (m.esv ≠ 0x73 ∧ m.esv ≠ 0x72))), if_pos h1]

/-! ### Responses -/

theorem isResponse_eq (e : Int) : ESV.isResponse e = !ESV.isRequest e := rfl

/-- A message that is not a request: the three steps. -/
theorem response_eq (ord : List Int → List Int) (env : Env) (cenv : CEnv) (net : Net) (c : Ctl) (m : Msg)
    (hr : ESV.isRequest m.esv = false) (hm : Encodable m) :
    c.messageReceived ord env cenv net m =
      match c.receiveProfile ord cenv (received m) with
      | (c, .error e) => (c, .error e)
      | (c, .ok _) =>
        match c.receiveProperties cenv (received m) with
        | (c, .error e) => (c, .error e)
        | (c, .ok _) => (c.receiveResponse (received m), .ok ()) := by
  unfold Ctl.messageReceived
  rw [if_neg (by rw [not_self]; simp), hr]
  simp only [Bool.false_eq_true, if_false, isResponse_eq, hr, Bool.not_false]
  obtain ⟨x, h1, -, -, -, h2⟩ := (C10_copy m).1 hm
  rw [h1, h2]
  rfl

theorem response_unfit (ord : List Int → List Int) (env : Env) (cenv : CEnv) (net : Net) (c : Ctl) (m : Msg)
    (hr : ESV.isRequest m.esv = false) (hm : ¬ Encodable m) :
    c.messageReceived ord env cenv net m = (c, .error .valueError) := by
  unfold Ctl.messageReceived
  rw [if_neg (by rw [not_self]; simp), hr]
  simp only [Bool.false_eq_true, if_false, isResponse_eq, hr, Bool.not_false]
  rw [(C10_copy m).2 hm]
  rfl

/-- A request: the node handles it. -/
theorem request_eq (ord : List Int → List Int) (env : Env) (cenv : CEnv) (net : Net) (c : Ctl) (m : Msg)
    (hr : ESV.isRequest m.esv = true) :
    c.messageReceived ord env cenv net m =
      ({ c with ln := (c.ln.messageReceived env net m).1 }, (c.ln.messageReceived env net m).2) := by
  unfold Ctl.messageReceived
  rw [if_neg (by rw [not_self]; simp), hr]
  simp only [if_true, isResponse_eq, hr, Bool.not_true]
  rcases c.ln.messageReceived env net m with ⟨n, e | u⟩ <;> rfl

/-- Messages that report property values. -/
def Reports (m : Msg) : Prop := m.esv = 0x72 ∨ m.esv = 0x73 ∨ m.esv = 0x7E

instance (m : Msg) : Decidable (Reports m) := by unfold Reports; infer_instance

theorem reports_yes (e : Int) (h : e = 0x72 ∨ e = 0x73 ∨ e = 0x7E) : (ESV.isNotification e || ESV.isReadResponse e) = true := by
  rcases h with e | e | e <;> rw [e] <;> rfl

/-- 0x74 counts as a request. -/
theorem reports_no (e : Int) (hr : ESV.isRequest e = false) (h : ¬ (e = 0x72 ∨ e = 0x73 ∨ e = 0x7E)) :
    ¬ (ESV.isNotification e || ESV.isReadResponse e) = true := by
  have h74 : e ≠ 0x74 := by
    intro x
    rw [x] at hr
    exact absurd hr (by decide)
  have h1 : ESV.isNotification e = false := by
    unfold ESV.isNotification
    rw [if_neg (show e ≠ ESV.NOTIFICATION from (by omega : e ≠ 0x73)), if_neg (show e ≠ ESV.NOTIFICATION_RESPONSE_REQUIRED from h74)]
  have h2 : ESV.isReadResponse e = false := by
    unfold ESV.isReadResponse
    rw [if_neg (show e ≠ ESV.READ_RESPONSE from (by omega : e ≠ 0x72)), if_neg (show e ≠ ESV.WRITE_READ_RESPONSE from (by omega : e ≠ 0x7E))]
  rw [h1, h2]
  simp

theorem received_props (m : Msg) (h : ¬ TwoSections m.esv) : (received m).props = m.props := by
  unfold received onWire
  simp [h]

theorem received_list (m : Msg) (h : ¬ TwoSections m.esv) : instanceListOf (received m) = instanceListOf m := by
  unfold instanceListOf
  rw [received_props m h]

/-- The controller once a valid instance list has been taken in. -/
def afterList (ord : List Int → List Int) (c : Ctl) (m : Msg) : Ctl :=
  match announced m with
  | none => c
  | some (a, l) => { c with
      calls := c.calls ++ c.listeners.map (fun x => (x, c.found, Call.nodeAdd { node := listedNode ord a l }))
      found := Dict.set c.found a.1 { node := listedNode ord a l, linked := true } }

/-- The table of nodes once a report about object `d` of the node at `ip` has been taken in. -/
def reportTo (f : Dict String Remote) (ip : String) (d : Int) (props : List PProp) : Dict String Remote :=
  match Dict.get? f ip with
  | none => f
  | some r =>
    match Dict.get? r.node.objects d with
    | none => f
    | some o => Dict.modify f ip (fun _ => r.putObj d (afterWrites o props))

/-- What listeners are told about it. -/
def reportTold (f : Dict String Remote) (ls : List Nat) (ip : String) (d : Int) (props : List PProp) : List (Nat × Told) :=
  match Dict.get? f ip with
  | none => []
  | some r =>
    match Dict.get? r.node.objects d with
    | none => []
    | some o => (changes o props).flatMap (fun i => tellAll ls (.propertyUpdated ip d i.code i.data)) ++
        (if changes o props = [] then [] else tellAll ls (.objectUpdated ip d) ++ tellAll ls (.nodeAdd ip))

theorem afterList_inv {ord : List Int → List Int} (hord : ValidOrder ord) (c : Ctl) (h : FoundInv c) (m : Msg) :
    FoundInv (afterList ord c m) := by
  unfold afterList
  cases announced m with
  | none => exact h
  | some x =>
    obtain ⟨a, l⟩ := x
    refine ⟨Dict.nodup_keys_set _ _ _ h.keys, ?_⟩
    intro ip r hr
    simp only [] at hr
    rw [Dict.get?_set] at hr
    split at hr
    · rename_i e
      cases hr
      rw [← e]
      exact listedNode_inv hord a l
    · exact h.nodes ip r hr

theorem reportTo_inv (c : Ctl) (h : FoundInv c) (ip : String) (d : Int) (props : List PProp) :
    (Dict.keys (reportTo c.found ip d props)).Nodup ∧ ∀ ip' r, Dict.get? (reportTo c.found ip d props) ip' = some r → RemoteInv ip' r := by
  unfold reportTo
  cases hf : Dict.get? c.found ip with
  | none => exact ⟨h.keys, h.nodes⟩
  | some r =>
    simp only []
    cases ho : Dict.get? r.node.objects d with
    | none => exact ⟨h.keys, h.nodes⟩
    | some o =>
      simp only []
      have hr := h.nodes ip r hf
      refine ⟨by rw [Dict.keys_modify]; exact h.keys, ?_⟩
      intro ip' r' hr'
      rw [Dict.get?_modify] at hr'
      split at hr'
      · rename_i e
        subst e
        rw [hf] at hr'
        cases hr'
        exact putObj_inv hr d _ (wf_afterWrites o props (hr.objs d o ho).1) ((hr.objs d o ho).2)
      · exact h.nodes ip' r' hr'

/-- What cannot be the controller's business is refused by an exception. -/
theorem response_misdirected (ord : List Int → List Int) (env : Env) (cenv : CEnv) (net : Net) (c : Ctl) (m : Msg)
    (hm : Encodable m) (he : m.esv = 0x72 ∨ m.esv = 0x73) (hd : m.deoj % 2 ^ 24 ≠ 0x0EF001) :
    c.messageReceived ord env cenv net m = (c, .error .attributeError) := by
  rw [response_eq ord env cenv net c m (by rcases he with e | e <;> rw [e] <;> rfl) hm]
  have : (received m).isNodeProfileMessage = .error .attributeError := by
    unfold Msg.isNodeProfileMessage
    rw [if_neg (show ¬ ((received m).esv ≠ ESV.NOTIFICATION ∧ (received m).esv ≠ ESV.READ_RESPONSE) from
      (by omega : ¬ (m.esv ≠ 0x73 ∧ m.esv ≠ 0x72))), if_pos (show (received m).deoj ≠ NodeProfile.CODE from hd)]
  unfold Ctl.receiveProfile
  rw [this]

theorem profile_step {ord : List Int → List Int} (hord : ValidOrder ord) {cenv : CEnv} (h : Calm cenv) (c : Ctl) (m : Msg)
    (a : Addr) (ha : m.fromAddr = some a) (hok : ¬ ((m.esv = 0x72 ∨ m.esv = 0x73) ∧ m.deoj % 2 ^ 24 ≠ 0x0EF001))
    (hne : ¬ ((m.esv = 0x72 ∨ m.esv = 0x73) ∧ instanceListOf m = .empty)) :
    c.receiveProfile ord cenv (received m) = (afterList ord c m, .ok ()) := by
  rw [receiveProfile_calm hord h c (received m) a ha]
  unfold afterList announced
  by_cases he : m.esv = 0x72 ∨ m.esv = 0x73
  · have h2 : ¬ TwoSections m.esv := by unfold TwoSections; omega
    have hd : m.deoj % 2 ^ 24 = 0x0EF001 := by
      by_contra hd
      exact hok ⟨he, hd⟩
    have hd' : (received m).deoj = 0x0EF001 := hd
    rw [if_neg (show ¬ ¬ ((received m).esv = 0x72 ∨ (received m).esv = 0x73) from not_not.mpr he), if_neg (not_not.mpr hd'), if_pos ⟨he, hd⟩,
      received_list m h2, ha]
    cases hl : instanceListOf m with
    | notAList => rfl
    | short => rfl
    | empty => exact absurd ⟨he, hl⟩ hne
    | codes l => rfl
  · rw [if_pos (show ¬ ((received m).esv = 0x72 ∨ (received m).esv = 0x73) from he), if_neg (fun x => he x.1)]

theorem response_empty {ord : List Int → List Int} (hord : ValidOrder ord) (env : Env) {cenv : CEnv} (h : Calm cenv) (net : Net) (c : Ctl) (m : Msg)
    (a : Addr) (ha : m.fromAddr = some a) (hm : Encodable m) (he : m.esv = 0x72 ∨ m.esv = 0x73) (hd : m.deoj % 2 ^ 24 = 0x0EF001)
    (hl : instanceListOf m = .empty) :
    c.messageReceived ord env cenv net m = (c, .error .indexError) := by
  rw [response_eq ord env cenv net c m (by rcases he with e | e <;> rw [e] <;> rfl) hm, receiveProfile_calm hord h c (received m) a ha]
  have h2 : ¬ TwoSections m.esv := by unfold TwoSections; omega
  rw [if_neg (show ¬ ¬ ((received m).esv = 0x72 ∨ (received m).esv = 0x73) from not_not.mpr he),
    if_neg (show ¬ ((received m).deoj ≠ 0x0EF001) from not_not.mpr hd), received_list m h2, hl]

/-- A report from a node that is not known. -/
theorem response_unknown {ord : List Int → List Int} (hord : ValidOrder ord) (env : Env) {cenv : CEnv} (h : Calm cenv) (net : Net) (c : Ctl) (hi : FoundInv c) (m : Msg)
    (a : Addr) (ha : m.fromAddr = some a) (hm : Encodable m) (hrep : Reports m)
    (hok : ¬ ((m.esv = 0x72 ∨ m.esv = 0x73) ∧ m.deoj % 2 ^ 24 ≠ 0x0EF001))
    (hne : ¬ ((m.esv = 0x72 ∨ m.esv = 0x73) ∧ instanceListOf m = .empty)) (hu : Dict.get? (afterList ord c m).found a.1 = none) :
    c.messageReceived ord env cenv net m = (afterList ord c m, .error .attributeError) := by
  have hr : ESV.isRequest m.esv = false := by rcases hrep with e | e | e <;> rw [e] <;> rfl
  rw [response_eq ord env cenv net c m hr hm, profile_step hord h c m a ha hok hne]
  simp only []
  unfold Ctl.receiveProperties
  rw [if_pos (reports_yes (received m).esv hrep)]
  have := updateProperties_calm h (afterList ord c m) (afterList_inv hord c hi m) (received m) a ha
  rw [hu] at this
  rw [this]

/-- A report from a node that is known. -/
theorem response_known {ord : List Int → List Int} (hord : ValidOrder ord) (env : Env) {cenv : CEnv} (h : Calm cenv) (net : Net) (c : Ctl) (hi : FoundInv c) (m : Msg)
    (a : Addr) (ha : m.fromAddr = some a) (hm : Encodable m) (hrep : Reports m)
    (hok : ¬ ((m.esv = 0x72 ∨ m.esv = 0x73) ∧ m.deoj % 2 ^ 24 ≠ 0x0EF001))
    (hne : ¬ ((m.esv = 0x72 ∨ m.esv = 0x73) ∧ instanceListOf m = .empty)) (r : Remote) (hk : Dict.get? (afterList ord c m).found a.1 = some r) :
    ∃ c', c.messageReceived ord env cenv net m = (c'.receiveResponse (received m), .ok ()) ∧
      c'.found = reportTo (afterList ord c m).found a.1 (m.deoj % 2 ^ 24) (received m).props ∧ c'.ln = c.ln ∧ c'.last = c.last ∧
      c'.listeners = c.listeners ∧
      toldAll c' = toldAll (afterList ord c m) ++ reportTold (afterList ord c m).found c.listeners a.1 (m.deoj % 2 ^ 24) (received m).props := by
  have hr : ESV.isRequest m.esv = false := by rcases hrep with e | e | e <;> rw [e] <;> rfl
  rw [response_eq ord env cenv net c m hr hm, profile_step hord h c m a ha hok hne]
  simp only []
  unfold Ctl.receiveProperties
  rw [if_pos (reports_yes (received m).esv hrep)]
  have := updateProperties_calm h (afterList ord c m) (afterList_inv hord c hi m) (received m) a ha
  have hln : (afterList ord c m).ln = c.ln ∧ (afterList ord c m).last = c.last ∧ (afterList ord c m).listeners = c.listeners := by
    unfold afterList; split <;> exact ⟨rfl, rfl, rfl⟩
  have hd : (received m).deoj = m.deoj % 2 ^ 24 := rfl
  rw [hk, hd] at this
  unfold reportTo reportTold
  rw [hk]
  simp only [] at this ⊢
  cases ho : Dict.get? r.node.objects (m.deoj % 2 ^ 24) with
  | none =>
    rw [ho] at this
    simp only [] at this ⊢
    rw [this]
    exact ⟨_, rfl, rfl, hln.1, hln.2.1, hln.2.2, by simp⟩
  | some o =>
    rw [ho] at this
    simp only [] at this ⊢
    obtain ⟨c', e1, e2, e3, e4, e5, e6⟩ := this
    rw [e1]
    exact ⟨c', rfl, e2, e3.trans hln.1, e4.trans hln.2.1, e5.trans hln.2.2, by rw [e6, hln.2.2, List.append_assoc]⟩

/-- Any other response. -/
theorem response_other {ord : List Int → List Int} (env : Env) {cenv : CEnv} (net : Net) (c : Ctl) (m : Msg)
    (hm : Encodable m) (hr : ESV.isRequest m.esv = false) (hrep : ¬ Reports m) :
    c.messageReceived ord env cenv net m = (c.receiveResponse (received m), .ok ()) := by
  rw [response_eq ord env cenv net c m hr hm]
  have h1 : ¬ (m.esv = 0x72 ∨ m.esv = 0x73) := by unfold Reports at hrep; omega
  have : (received m).isNodeProfileMessage = .ok false := by
    unfold Msg.isNodeProfileMessage
    rw [if_pos (show ((received m).esv ≠ ESV.NOTIFICATION ∧ (received m).esv ≠ ESV.READ_RESPONSE) from
      (by omega : (m.esv ≠ 0x73 ∧ m.esv ≠ 0x72)))]
  unfold Ctl.receiveProfile
  rw [this]
  simp only []
  unfold Ctl.receiveProperties
  rw [if_neg (reports_no (received m).esv hr hrep)]

theorem receiveResponse_found (c : Ctl) (m : Msg) : (c.receiveResponse m).found = c.found ∧ (c.receiveResponse m).ln = c.ln ∧
    (c.receiveResponse m).listeners = c.listeners ∧ toldAll (c.receiveResponse m) = toldAll c := by
  unfold Ctl.receiveResponse
  split
  · split
    · split <;> exact ⟨rfl, rfl, rfl, rfl⟩
    · exact ⟨rfl, rfl, rfl, rfl⟩
  · exact ⟨rfl, rfl, rfl, rfl⟩

/-! ### Histories -/

/-- What can be done with a controller. -/
inductive CtlOp where
  | receive (env : Env) (cenv : CEnv) (net : Net) (m : Msg)
  | add (o : Obj)
  | enable (opt : Int) (v : Bool)
  | start (net : Net) (caller : Option Nat)
  | stop (caller : Option Nat)
  | search (net : Net)
  | announce (net : Net) (m : Msg)
  | send (net : Net) (m : Msg) (dest : PyDest)
  | post (net : Net) (m : Msg) (dest : PyDest)
  | listen (l : Nat)
  | unlisten (l : Nat)
  | update (code : Int) (f : Obj → Obj)

/-- The controller afterwards, whether or not the call raised. -/
def CtlOp.run (ord : List Int → List Int) (c : Ctl) : CtlOp → Ctl
  | .receive env cenv net m => (c.messageReceived ord env cenv net m).1
  | .add o => { c with ln := (c.ln.addObject ord o).1 }
  | .enable opt v => { c with ln := c.ln.setEnabled opt v }
  | .start net caller => (c.start net caller).1
  | .stop caller => (c.stop caller).1
  | .search net => (c.search net).1
  | .announce net m => (c.announceMessage net m).1
  | .send net m dest => (c.sendMessage net m dest).1
  | .post net m dest => (c.postBegin net m dest).1
  | .listen l => c.addListener l
  | .unlisten l => (c.removeListener l).1
  | .update code f => { c with ln := c.ln.update code f }

def runCtl (ord : List Int → List Int) (c : Ctl) (ops : List CtlOp) : Ctl := ops.foldl (CtlOp.run ord) c

/-- Messages are as the transport delivers them: decoded from a datagram, with the address of the sender. -/
def Delivered (m : Msg) : Prop := Encodable m ∧ m.fromAddr.isSome

/-- The messages are delivered by the transport, no listener raises, and request handlers and the program leave
object codes alone. -/
def CtlOp.Allowed : CtlOp → Prop
  | .receive env cenv _ m => Delivered m ∧ Calm cenv ∧ CodeStable env
  | .update _ f => ∀ o, (f o).code = o.code
  | _ => True

/-- The messages received in a history. -/
def heard : List CtlOp → List Msg
  | [] => []
  | .receive _ _ _ m :: ops => m :: heard ops
  | _ :: ops => heard ops

theorem heard_append (a b : List CtlOp) : heard (a ++ b) = heard a ++ heard b := by
  induction a with
  | nil => rfl
  | cons op a ih => cases op <;> simp [heard, ih]

/-- Only receiving changes what is known and makes listeners hear something. -/
theorem run_other (ord : List Int → List Int) (c : Ctl) (op : CtlOp) (h : ∀ env cenv net m, op ≠ .receive env cenv net m) :
    (op.run ord c).found = c.found ∧ (op.run ord c).calls = c.calls := by
  cases op with
  | receive env cenv net m => exact absurd rfl (h env cenv net m)
  | start net caller =>
    show (c.start net caller).1.found = _ ∧ (c.start net caller).1.calls = _
    unfold Ctl.start
    rcases c.ln.start net caller with ⟨n, e | (_ | _)⟩
    · exact ⟨rfl, rfl⟩
    · exact ⟨rfl, rfl⟩
    · simp only [Ctl.search, Ctl.announceMessage]
      rcases n.announceMessage net SearchMessage with ⟨n', m', e | (_ | _)⟩ <;> exact ⟨rfl, rfl⟩
  | stop caller =>
    show (c.stop caller).1.found = _ ∧ (c.stop caller).1.calls = _
    unfold Ctl.stop
    rcases c.ln.stop caller with ⟨n, e | (_ | _)⟩ <;> exact ⟨rfl, rfl⟩
  | unlisten l =>
    show (c.removeListener l).1.found = _ ∧ (c.removeListener l).1.calls = _
    unfold Ctl.removeListener
    split <;> exact ⟨rfl, rfl⟩
  | _ => exact ⟨rfl, rfl⟩

/-- Everything a message can do to what a controller knows. -/
theorem receive_cases {ord : List Int → List Int} (hord : ValidOrder ord) (env : Env) {cenv : CEnv} (h : Calm cenv) (net : Net) (c : Ctl) (hi : FoundInv c)
    (m : Msg) (a : Addr) (ha : m.fromAddr = some a) (hm : Encodable m) :
    ((c.messageReceived ord env cenv net m).1.found = c.found ∧ announced m = none ∧ toldAll (c.messageReceived ord env cenv net m).1 = toldAll c ∧
      (c.messageReceived ord env cenv net m).1.listeners = c.listeners) ∨
    ((c.messageReceived ord env cenv net m).1.found = reportTo (afterList ord c m).found a.1 (m.deoj % 2 ^ 24) (received m).props ∧
      toldAll (c.messageReceived ord env cenv net m).1 = toldAll (afterList ord c m) ++
        reportTold (afterList ord c m).found c.listeners a.1 (m.deoj % 2 ^ 24) (received m).props ∧
      (c.messageReceived ord env cenv net m).1.listeners = c.listeners) := by
  by_cases hr : ESV.isRequest m.esv = true
  · left
    rw [request_eq ord env cenv net c m hr]
    refine ⟨rfl, ?_, rfl, rfl⟩
    unfold announced
    rw [if_neg]
    rintro ⟨e | e, -⟩ <;> rw [e] at hr <;> exact absurd hr (by decide)
  · have hr' : ESV.isRequest m.esv = false := by simpa using hr
    by_cases hrep : Reports m
    · by_cases hok : (m.esv = 0x72 ∨ m.esv = 0x73) ∧ m.deoj % 2 ^ 24 ≠ 0x0EF001
      · left
        rw [response_misdirected ord env cenv net c m hm hok.1 hok.2]
        refine ⟨rfl, ?_, rfl, rfl⟩
        unfold announced
        rw [if_neg (fun x => hok.2 x.2)]
      · by_cases hne : (m.esv = 0x72 ∨ m.esv = 0x73) ∧ instanceListOf m = .empty
        · left
          have hd : m.deoj % 2 ^ 24 = 0x0EF001 := by
            by_contra hd
            exact hok ⟨hne.1, hd⟩
          rw [response_empty hord env h net c m a ha hm hne.1 hd hne.2]
          refine ⟨rfl, ?_, rfl, rfl⟩
          unfold announced
          rw [if_pos ⟨hne.1, hd⟩, ha, hne.2]
        · right
          cases hk : Dict.get? (afterList ord c m).found a.1 with
          | none =>
            rw [response_unknown hord env h net c hi m a ha hm hrep hok hne hk]
            unfold reportTo reportTold
            rw [hk]
            refine ⟨rfl, by simp, ?_⟩
            unfold afterList
            split <;> rfl
          | some r =>
            obtain ⟨c', e1, e2, e3, e4, e5, e6⟩ := response_known hord env h net c hi m a ha hm hrep hok hne r hk
            obtain ⟨f1, f2, f3, f4⟩ := receiveResponse_found c' (received m)
            rw [e1]
            exact ⟨f1.trans e2, f4.trans e6, f3.trans e5⟩
    · left
      rw [response_other env net c m hm hr' hrep]
      obtain ⟨f1, f2, f3, f4⟩ := receiveResponse_found c (received m)
      refine ⟨f1, ?_, f4, f3⟩
      unfold announced
      rw [if_neg]
      unfold Reports at hrep
      omega

theorem receive_inv_found {ord : List Int → List Int} (hord : ValidOrder ord) (env : Env) {cenv : CEnv} (h : Calm cenv) (net : Net) (c : Ctl) (hi : FoundInv c)
    (m : Msg) (hm : Delivered m) : FoundInv (c.messageReceived ord env cenv net m).1 := by
  obtain ⟨a, ha⟩ := Option.isSome_iff_exists.mp hm.2
  rcases receive_cases hord env h net c hi m a ha hm.1 with ⟨e, -⟩ | ⟨e, -⟩
  · exact ⟨by rw [e]; exact hi.keys, by rw [e]; exact hi.nodes⟩
  · have := reportTo_inv (afterList ord c m) (afterList_inv hord c hi m) a.1 (m.deoj % 2 ^ 24) (received m).props
    exact ⟨by rw [e]; exact this.1, by rw [e]; exact this.2⟩

/-- Reports change neither addresses nor which objects a node has. -/
theorem get?_reportTo (f : Dict String Remote) (ip : String) (d : Int) (props : List PProp) (ip' : String) :
    (Dict.get? (reportTo f ip d props) ip').map (fun r => (r.node.address, Dict.keys r.node.objects, r.linked)) =
    (Dict.get? f ip').map (fun r => (r.node.address, Dict.keys r.node.objects, r.linked)) := by
  unfold reportTo
  cases hf : Dict.get? f ip with
  | none => rfl
  | some r =>
    simp only []
    cases ho : Dict.get? r.node.objects d with
    | none => rfl
    | some o =>
      simp only []
      rw [Dict.get?_modify]
      split
      · rename_i e
        subst e
        rw [hf]
        simp only [Option.map_some, Remote.putObj, Dict.keys_modify]
      · rfl

theorem latest_append (ms : List Msg) (m : Msg) (ip : String) :
    latest (ms ++ [m]) ip = match announced m with
      | none => latest ms ip
      | some (a, l) => if a.1 = ip then some (a, l) else latest ms ip := by
  unfold latest
  rw [List.filterMap_append, List.filter_append]
  cases h : announced m with
  | none => simp [h]
  | some x =>
    obtain ⟨a, l⟩ := x
    by_cases e : a.1 = ip
    · simp [h, e]
    · simp [h, e]

/-- What a controller knows after hearing some messages. -/
def Knows (c : Ctl) (ms : List Msg) : Prop :=
  FoundInv c ∧ ∀ ip, (Dict.get? c.found ip).map (fun r => (r.node.address, Dict.keys r.node.objects)) =
    (latest ms ip).map (fun x => (some x.1, addCodes [0x0EF001] x.2))

theorem knows_step {ord : List Int → List Int} (hord : ValidOrder ord) (c : Ctl) (ms : List Msg) (h : Knows c ms) (op : CtlOp) (ha : op.Allowed) :
    Knows (op.run ord c) (ms ++ heard [op]) := by
  by_cases hop : ∃ env cenv net m, op = .receive env cenv net m
  · obtain ⟨env, cenv, net, m, rfl⟩ := hop
    obtain ⟨hd, hc, -⟩ := ha
    obtain ⟨a, hfa⟩ := Option.isSome_iff_exists.mp hd.2
    refine ⟨receive_inv_found hord env hc net c h.1 m hd, ?_⟩
    intro ip
    show (Dict.get? (c.messageReceived ord env cenv net m).1.found ip).map _ = (latest (ms ++ [m]) ip).map _
    rw [latest_append]
    rcases receive_cases hord env hc net c h.1 m a hfa hd.1 with ⟨e, e1, -⟩ | ⟨e, -⟩
    · rw [e, e1]
      exact h.2 ip
    · rw [e]
      have h1 := get?_reportTo (afterList ord c m).found a.1 (m.deoj % 2 ^ 24) (received m).props ip
      have h2 : ∀ x : Option Remote, x.map (fun r => (r.node.address, Dict.keys r.node.objects)) =
          (x.map (fun r => (r.node.address, Dict.keys r.node.objects, r.linked))).map (fun y => (y.1, y.2.1)) := by
        intro x; cases x <;> rfl
      rw [h2, h1, ← h2]
      unfold afterList
      cases hx : announced m with
      | none => exact h.2 ip
      | some x =>
        obtain ⟨b, l⟩ := x
        simp only []
        rw [Dict.get?_set]
        by_cases eb : b.1 = ip
        · rw [if_pos eb, if_pos eb]
          simp only [Option.map_some, listedNode_keys]
          rfl
        · rw [if_neg eb, if_neg eb]
          exact h.2 ip
  · have hne : ∀ env cenv net m, op ≠ .receive env cenv net m := fun env cenv net m e => hop ⟨env, cenv, net, m, e⟩
    have hh : heard [op] = [] := by
      cases op with
      | receive env cenv net m => exact absurd rfl (hne env cenv net m)
      | _ => rfl
    have := (run_other ord c op hne).1
    rw [hh, List.append_nil]
    refine ⟨⟨by rw [this]; exact h.1.keys, by rw [this]; exact h.1.nodes⟩, ?_⟩
    rw [this]
    exact h.2

theorem knows_run {ord : List Int → List Int} (hord : ValidOrder ord) (ops : List CtlOp) : ∀ (c : Ctl) (ms : List Msg), Knows c ms →
    (∀ op ∈ ops, op.Allowed) → Knows (runCtl ord c ops) (ms ++ heard ops) := by
  induction ops with
  | nil => intro c ms h _; simpa [heard, runCtl] using h
  | cons op ops ih =>
    intro c ms h ha
    have := ih (op.run ord c) (ms ++ heard [op]) (knows_step hord c ms h op (ha op List.mem_cons_self)) (fun x hx => ha x (List.mem_cons_of_mem _ hx))
    rw [List.append_assoc, ← heard_append] at this
    exact this

theorem ctl_new {ord : List Int → List Int} (hord : ValidOrder ord) (rnd : NodeProfile.Random) :
    ∃ n, Ctl.new ord rnd = ({ ln := n }, .ok ()) ∧ LocalNode.new ord rnd true = (n, .ok ()) := by
  obtain ⟨n, h, -⟩ := localNode_new hord rnd true
  refine ⟨n, ?_, h⟩
  unfold Ctl.new
  rw [h]

/-- Controllers a program can get. -/
def CtlReach (ord : List Int → List Int) (c : Ctl) (ops : List CtlOp) : Prop :=
  ∃ rnd, (∀ op ∈ ops, CtlOp.Allowed op) ∧ c = runCtl ord (Ctl.new ord rnd).1 ops

theorem reach_knows {ord : List Int → List Int} (hord : ValidOrder ord) {c : Ctl} {ops : List CtlOp} (h : CtlReach ord c ops) : Knows c (heard ops) := by
  obtain ⟨rnd, ha, rfl⟩ := h
  obtain ⟨n, hn, -⟩ := ctl_new hord rnd
  rw [hn]
  have : Knows { ln := n } [] := ⟨⟨by simp [Dict.keys], by intro ip r h; cases h⟩, by intro ip; rfl⟩
  simpa using knows_run hord ops _ [] this ha

/-! ### The node of a controller -/

theorem receive_ln (ord : List Int → List Int) (env : Env) (cenv : CEnv) (net : Net) (c : Ctl) (m : Msg) (hi : FoundInv c) (hc : Calm cenv)
    (hord : ValidOrder ord) (hd : Delivered m) :
    (c.messageReceived ord env cenv net m).1.ln = if ESV.isRequest m.esv = true then (c.ln.messageReceived env net m).1 else c.ln := by
  by_cases hr : ESV.isRequest m.esv = true
  · rw [request_eq ord env cenv net c m hr, if_pos hr]
  · rw [if_neg hr]
    have hr' : ESV.isRequest m.esv = false := by simpa using hr
    obtain ⟨a, ha⟩ := Option.isSome_iff_exists.mp hd.2
    have hm := hd.1
    by_cases hrep : Reports m
    · by_cases hok : (m.esv = 0x72 ∨ m.esv = 0x73) ∧ m.deoj % 2 ^ 24 ≠ 0x0EF001
      · rw [response_misdirected ord env cenv net c m hm hok.1 hok.2]
      · by_cases hne : (m.esv = 0x72 ∨ m.esv = 0x73) ∧ instanceListOf m = .empty
        · have hd : m.deoj % 2 ^ 24 = 0x0EF001 := by
            by_contra hd
            exact hok ⟨hne.1, hd⟩
          rw [response_empty hord env hc net c m a ha hm hne.1 hd hne.2]
        · cases hk : Dict.get? (afterList ord c m).found a.1 with
          | none =>
            rw [response_unknown hord env hc net c hi m a ha hm hrep hok hne hk]
            unfold afterList
            split <;> rfl
          | some r =>
            obtain ⟨c', e1, e2, e3, e4, e5, e6⟩ := response_known hord env hc net c hi m a ha hm hrep hok hne r hk
            rw [e1]
            exact (receiveResponse_found c' (received m)).2.1.trans e3
    · rw [response_other env net c m hm hr' hrep]
      exact (receiveResponse_found c (received m)).2.1

/-- What is done with a controller amounts to operations on its node. -/
theorem run_ln {ord : List Int → List Int} (hord : ValidOrder ord) (c : Ctl) (hi : FoundInv c) (op : CtlOp) (ha : op.Allowed) :
    ∃ nops : List NodeOp, (∀ o ∈ nops, o.Allowed) ∧ (op.run ord c).ln = runOps ord c.ln nops := by
  cases op with
  | receive env cenv net m =>
    obtain ⟨hd, hc, hs⟩ := ha
    have := receive_ln ord env cenv net c m hi hc hord hd
    by_cases hr : ESV.isRequest m.esv = true
    · rw [if_pos hr] at this
      exact ⟨[.receive env net m], by intro o ho; rw [List.mem_singleton.mp ho]; exact hs, this⟩
    · rw [if_neg hr] at this
      exact ⟨[], by simp, this⟩
  | add o => exact ⟨[.add o], by intro o ho; rw [List.mem_singleton.mp ho]; trivial, rfl⟩
  | enable opt v => exact ⟨[.enable opt v], by intro o ho; rw [List.mem_singleton.mp ho]; trivial, rfl⟩
  | start net caller =>
    show ∃ nops : List NodeOp, (∀ o ∈ nops, o.Allowed) ∧ (c.start net caller).1.ln = _
    unfold Ctl.start
    rcases hst : c.ln.start net caller with ⟨n, e | (_ | _)⟩
    · exact ⟨[.start net caller], by intro o ho; rw [List.mem_singleton.mp ho]; trivial, by simp [runOps, NodeOp.run, hst]⟩
    · exact ⟨[.start net caller], by intro o ho; rw [List.mem_singleton.mp ho]; trivial, by simp [runOps, NodeOp.run, hst]⟩
    · refine ⟨[.start net caller, .announce net SearchMessage], ?_, ?_⟩
      · intro o ho
        rcases List.mem_cons.mp ho with rfl | ho
        · trivial
        · rw [List.mem_singleton.mp ho]; trivial
      · simp only [Ctl.search, Ctl.announceMessage, runOps, List.foldl_cons, List.foldl_nil, NodeOp.run, hst]
        rcases n.announceMessage net SearchMessage with ⟨n', m', e | (_ | _)⟩ <;> rfl
  | stop caller =>
    refine ⟨[.stop caller], by intro o ho; rw [List.mem_singleton.mp ho]; trivial, ?_⟩
    show (c.stop caller).1.ln = (c.ln.stop caller).1
    unfold Ctl.stop
    rcases c.ln.stop caller with ⟨n, e | (_ | _)⟩ <;> rfl
  | search net => exact ⟨[.announce net SearchMessage], by intro o ho; rw [List.mem_singleton.mp ho]; trivial, rfl⟩
  | announce net m => exact ⟨[.announce net m], by intro o ho; rw [List.mem_singleton.mp ho]; trivial, rfl⟩
  | send net m dest => exact ⟨[.send net m (Ctl.toAddr dest)], by intro o ho; rw [List.mem_singleton.mp ho]; trivial, rfl⟩
  | post net m dest => exact ⟨[.send net m (Ctl.toAddr dest)], by intro o ho; rw [List.mem_singleton.mp ho]; trivial, rfl⟩
  | listen l => exact ⟨[], by simp, rfl⟩
  | unlisten l =>
    refine ⟨[], by simp, ?_⟩
    show (c.removeListener l).1.ln = _
    unfold Ctl.removeListener
    split <;> rfl
  | update code f => exact ⟨[.update code f], by intro o ho; rw [List.mem_singleton.mp ho]; exact ha, rfl⟩

theorem runCtl_ln {ord : List Int → List Int} (hord : ValidOrder ord) (ops : List CtlOp) : ∀ (c : Ctl) (ms : List Msg), Knows c ms →
    (∀ op ∈ ops, op.Allowed) → ∃ nops : List NodeOp, (∀ o ∈ nops, o.Allowed) ∧ (runCtl ord c ops).ln = runOps ord c.ln nops := by
  induction ops with
  | nil => intro c ms h _; exact ⟨[], by simp, rfl⟩
  | cons op ops ih =>
    intro c ms h ha
    obtain ⟨n1, a1, e1⟩ := run_ln hord c h.1 op (ha op List.mem_cons_self)
    obtain ⟨n2, a2, e2⟩ := ih (op.run ord c) _ (knows_step hord c ms h op (ha op List.mem_cons_self)) (fun x hx => ha x (List.mem_cons_of_mem _ hx))
    refine ⟨n1 ++ n2, ?_, ?_⟩
    · intro o ho
      rcases List.mem_append.mp ho with ho | ho
      · exact a1 o ho
      · exact a2 o ho
    · show (runCtl ord (op.run ord c) ops).ln = _
      rw [e2, e1]
      unfold runOps
      rw [List.foldl_append]

theorem runOps_controller {ord : List Int → List Int} (hord : ValidOrder ord) (ops : List NodeOp) : ∀ (n : LocalNode), NodeInv n →
    (∀ op ∈ ops, op.Allowed) → (runOps ord n ops).controller = n.controller := by
  induction ops with
  | nil => intro n _ _; rfl
  | cons op ops ih =>
    intro n h ha
    obtain ⟨h1, -, h2⟩ := run_inv hord n op h (ha op List.mem_cons_self)
    exact (ih _ h1 (fun x hx => ha x (List.mem_cons_of_mem _ hx))).trans h2

theorem reach_ln {ord : List Int → List Int} (hord : ValidOrder ord) {c : Ctl} {ops : List CtlOp} (h : CtlReach ord c ops) :
    Reachable ord c.ln ∧ c.ln.controller = true := by
  obtain ⟨rnd, ha, rfl⟩ := h
  obtain ⟨n, hn, hn'⟩ := ctl_new hord rnd
  obtain ⟨n0, h0, hinv, -⟩ := localNode_new hord rnd true
  have hk : Knows { ln := n } [] := ⟨⟨by simp [Dict.keys], by intro ip r h; cases h⟩, by intro ip; rfl⟩
  rw [hn]
  obtain ⟨nops, a, e⟩ := runCtl_ln hord ops _ [] hk ha
  have hnn : n0 = n := by
    have := h0.symm.trans hn'
    injection this
  subst hnn
  refine ⟨⟨rnd, true, nops, a, by rw [e, hn']⟩, ?_⟩
  rw [e, runOps_controller hord nops _ hinv a]
  have : (LocalNode.new ord rnd true).1.controller = true := by
    unfold LocalNode.new
    rcases NodeProfile.new ord rnd with ⟨p, e | u⟩
    · rfl
    · simp only []
      unfold LocalNode.refresh
      simp only []
      split <;> (rename_i hq; rw [Prod.mk.injEq] at hq; rw [← hq.1])
  rw [hn'] at this
  exact this

/-! ### Nodes and controllers for the examples -/

theorem ok_start (n : LocalNode) : ∃ g, n.start okNet none = ({ n with mgr := g, node := { n.node with address := some ("10.0.0.2", 3610) } }, .ok true) ∧
    CanSend g ∧ working g.servers = [{ kind := .unicast, ifaddr := "10.0.0.2", open_ := true, observers := [0] }] := by
  have h1 := C53_start_works okNet n.mgr [] (fun _ _ _ => rfl) (fun _ => rfl) (by decide +kernel)
  have h5 := (C53_start_true okNet n.mgr [] h1).1
  have e : (Manager.addObserver (n.mgr.start okNet none []).1 0).servers =
      [{ kind := .unicast, ifaddr := "10.0.0.2", open_ := true, observers := [0] },
       { kind := .multicast, ifaddr := "10.0.0.2", open_ := true, observers := [0] }] := by
    unfold Manager.addObserver
    simp only []
    rw [h5]
    decide +kernel
  refine ⟨(n.mgr.start okNet none []).1.addObserver 0, ?_, ?_, ?_⟩
  · unfold LocalNode.start
    generalize n.mgr.start okNet none [] = q at *
    rcases q with ⟨g, r⟩
    simp only [] at h1 h5
    rw [h1]
    have e1 : g.ifaddr = "10.0.0.2" := by unfold Manager.ifaddr; rw [h5]; decide +kernel
    have e2 : g.port = 3610 := by unfold Manager.port; rw [h5]; decide +kernel
    simp only [e1, e2, Node.setAddress]
  · unfold CanSend
    rw [e]
    decide
  · rw [e]
    decide

/-- A started controller that hosts a device. -/
theorem ctl_device {ord : List Int → List Int} (hord : ValidOrder ord) (o : Obj) : ∃ c, CtlReach ord c [.add o, .start okNet none] ∧
    c.ln.getObject (.int o.code) = some o ∧ CanSend c.ln.mgr := by
  refine ⟨runCtl ord (Ctl.new ord ⟨[], 0, 0⟩).1 [.add o, .start okNet none], ⟨⟨[], 0, 0⟩, ?_, rfl⟩, ?_⟩
  · intro op hop
    rcases List.mem_cons.mp hop with rfl | hop
    · trivial
    · rw [List.mem_singleton.mp hop]; trivial
  obtain ⟨n, hn, hn'⟩ := ctl_new hord ⟨[], 0, 0⟩
  obtain ⟨n0, h0, hinv, -⟩ := localNode_new hord ⟨[], 0, 0⟩ true
  have hnn : n0 = n := by
    have := h0.symm.trans hn'
    injection this
  subst hnn
  rw [hn]
  obtain ⟨-, -, h3, -⟩ := addObject_inv hord n0 o hinv
  obtain ⟨g, hg, hw, -⟩ := ok_start (n0.addObject ord o).1
  show (Ctl.start okNet { ln := (n0.addObject ord o).1 } none).1.ln.getObject _ = _ ∧ CanSend (Ctl.start okNet { ln := (n0.addObject ord o).1 } none).1.ln.mgr
  unfold Ctl.start
  simp only []
  rw [hg]
  simp only [Ctl.search, Ctl.announceMessage]
  have hs : ∀ n : LocalNode, (n.announceMessage okNet SearchMessage).1.node = n.node ∧ (n.announceMessage okNet SearchMessage).1.profile = n.profile ∧
      (n.announceMessage okNet SearchMessage).1.mgr.servers = n.mgr.servers := by
    intro n
    rw [announceMessage_eq]
    obtain ⟨-, -, -, -, -, -, hsv, -⟩ := C54_announce okNet n.mgr (outgoing n SearchMessage) ((outgoing_encodable n _).mpr (by decide +kernel))
    exact ⟨rfl, rfl, hsv⟩
  generalize hx : ({ (n0.addObject ord o).1 with mgr := g, node := { (n0.addObject ord o).1.node with address := some ("10.0.0.2", 3610) } } : LocalNode) = x
  have hxo : x.node.objects = Dict.set n0.node.objects o.code (.user o) := by rw [← hx]; exact h3
  have hxg : x.mgr = g := by rw [← hx]
  obtain ⟨a1, a2, a3⟩ := hs x
  have key : (x.announceMessage okNet SearchMessage).1.getObject (.int o.code) = some o ∧ CanSend (x.announceMessage okNet SearchMessage).1.mgr := by
    constructor
    · unfold LocalNode.getObject Node.getObject
      rw [a1, hxo]
      show Option.map _ (Dict.get? (Dict.set n0.node.objects o.code (Slot.user o)) o.code) = _
      rw [Dict.get?_set, if_pos rfl]
      rfl
    · unfold CanSend
      rw [a3, hxg]
      exact hw
  rcases hq : x.announceMessage okNet SearchMessage with ⟨y, m', e | (_ | _)⟩ <;> (rw [hq] at key; exact key)

end Uecho
