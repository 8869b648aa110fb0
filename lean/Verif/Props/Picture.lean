/- C148: a controller as a machine from datagrams to what it knows, and what may be expected of it. -/
import Verif.Lemmas.Picture
import Verif.Props.Device

namespace Uecho
open Spec

/-- C148 (the part that holds). The machine a controller is: whatever arrives, in whatever order, at whichever of its threads, the nodes it knows with all their objects and values, the answer
it has been waiting for, everything its listeners are told, its threads and every datagram it sends are those of `RefController.actual`. -/
theorem C148_machine_partial {ord : List Int → List Int} (hord : ValidOrder ord) (env : Env) (hc : CodeStable env) (cenv : CEnv) (hcalm : Calm cenv) (net : Net) (hs : NetWorks net)
    (r : Running Ctl) (ops : List CtlOp) (hr : CtlReach ord r.st ops) (hp : PlainNode env r.st.ln) (hw : CanSend r.st.ln.mgr) (xs : List Arrival) :
    let r' := r.arrivals (Ctl.deliver ord env cenv net) xs
    let R := (⟨controllerOf r.st, r.alive, []⟩ : RefCtlRun).arrivals (freshData ord) xs
    controllerOf r'.st = R.ctl ∧ r'.alive = R.alive ∧ r'.st.ln.mgr.log = r.st.ln.mgr.log ++ R.sent.map fun s => (s, (s.bytes.length : Int)) := by
  have key : ∀ (xs : List Arrival) (r : Running Ctl) (old : List Sent), FoundInv r.st → Reachable ord r.st.ln → PlainNode env r.st.ln → CanSend r.st.ln.mgr →
      let r' := r.arrivals (Ctl.deliver ord env cenv net) xs
      let R := (⟨controllerOf r.st, r.alive, old⟩ : RefCtlRun).arrivals (freshData ord) xs
      controllerOf r'.st = R.ctl ∧ r'.alive = R.alive ∧
      ∃ new, R.sent = old ++ new ∧ r'.st.ln.mgr.log = r.st.ln.mgr.log ++ new.map fun s => (s, (s.bytes.length : Int)) := by
    intro xs
    induction xs with
    | nil => intro r old _ _ _ _; exact ⟨rfl, rfl, [], by simp [RefCtlRun.arrivals], by simp [Running.arrivals]⟩
    | cons x xs ih =>
      intro r old h0 h1 h2 h3
      have hm : r.arrivals (Ctl.deliver ord env cenv net) (x :: xs) = (r.arrive (Ctl.deliver ord env cenv net) x).arrivals (Ctl.deliver ord env cenv net) xs := rfl
      have hm' : (⟨controllerOf r.st, r.alive, old⟩ : RefCtlRun).arrivals (freshData ord) (x :: xs) =
          ((⟨controllerOf r.st, r.alive, old⟩ : RefCtlRun).arrive (freshData ord) x).arrivals (freshData ord) xs := rfl
      by_cases ha : r.alive x.thread = true
      · obtain ⟨k1, k2, k3⟩ := controller_datagram hord h0 h1 h2 hcalm net hs h3 x.bytes x.src
        obtain ⟨j1, j2, j3, j4⟩ := controller_stays hord h0 h1 hc h2 hcalm net hs h3 x.bytes x.src
        have e : r.arrive (Ctl.deliver ord env cenv net) x = ⟨(recvOne (Ctl.deliver ord env cenv net) r.st x.bytes x.src).1,
            fun i => if i = x.thread then (recvOne (Ctl.deliver ord env cenv net) r.st x.bytes x.src).2 else r.alive i⟩ := by
          unfold Running.arrive
          rw [if_pos ha]
        have e' : (⟨controllerOf r.st, r.alive, old⟩ : RefCtlRun).arrive (freshData ord) x =
            ⟨controllerOf (r.arrive (Ctl.deliver ord env cenv net) x).st, (r.arrive (Ctl.deliver ord env cenv net) x).alive,
              old ++ ((controllerOf r.st).actual (freshData ord) x.bytes x.src).2.1⟩ := by
          unfold RefCtlRun.arrive
          rw [if_pos ha, e, k1, k2]
        rw [hm, hm', e']
        obtain ⟨i1, i2, new, i3, i4⟩ := ih (r.arrive (Ctl.deliver ord env cenv net) x) (old ++ ((controllerOf r.st).actual (freshData ord) x.bytes x.src).2.1)
          (by rw [e]; exact j1) (by rw [e]; exact j2) (by rw [e]; exact j3) (by rw [e]; exact j4)
        refine ⟨i1, i2, ((controllerOf r.st).actual (freshData ord) x.bytes x.src).2.1 ++ new, by rw [i3, List.append_assoc], ?_⟩
        rw [i4]
        have : (r.arrive (Ctl.deliver ord env cenv net) x).st.ln.mgr.log =
            r.st.ln.mgr.log ++ ((controllerOf r.st).actual (freshData ord) x.bytes x.src).2.1.map fun s => (s, (s.bytes.length : Int)) := by
          rw [e]; exact k3
        rw [this, List.map_append, List.append_assoc]
      · have e : r.arrive (Ctl.deliver ord env cenv net) x = r := by unfold Running.arrive; rw [if_neg ha]
        have e' : (⟨controllerOf r.st, r.alive, old⟩ : RefCtlRun).arrive (freshData ord) x = ⟨controllerOf r.st, r.alive, old⟩ := by unfold RefCtlRun.arrive; rw [if_neg ha]
        rw [hm, hm', e, e']
        exact ih r old h0 h1 h2 h3
  obtain ⟨h1, h2, new, h3, h4⟩ := key xs r [] (reach_knows hord hr).1 (reach_ln hord hr).1 hp hw
  exact ⟨h1, h2, by rw [h4, h3]; rfl⟩

/-! ### The comparison -/

theorem report_nil (C : RefController) (ip : String) (N : RefNode) (o : Int) (t : Told) (h : C.node ip = some N) : C.report ip N o t [] = C := by
  unfold RefController.report
  split
  · refine ref_ext rfl rfl (fun x => ?_) rfl rfl rfl ?_
    · show (if x = ip then some _ else C.node x) = _
      by_cases hx : x = ip
      · rw [if_pos hx, hx, h]
        simp only [Option.some.injEq]
        cases N
        simp only [RefNode.mk.injEq, true_and]
        funext o'
        split
        · rename_i e; rw [e]; rfl
        · rfl
      · rw [if_neg hx]
    · show C.told ++ [] ++ [] = C.told
      simp
  · rfl

theorem careless_iff (A B : RefController) : A.careless = B.careless ↔ A.dev = B.dev ∧ A.known = B.known ∧ A.node = B.node ∧ A.asked = B.asked ∧ A.answer = B.answer ∧
    A.listeners = B.listeners ∧ A.careless.told = B.careless.told := by
  cases A; cases B
  simp only [RefController.careless, RefController.mk.injEq]

theorem careless_report {A B : RefController} (h : A.careless = B.careless) (ip : String) (N : RefNode) (o : Int) (is : List PProp) {t t' : Told} (ht : asUpdate t = asUpdate t') :
    (A.report ip N o t is).careless = (B.report ip N o t' is).careless := by
  obtain ⟨h1, h2, h3, h4, h5, h6, h7⟩ := (careless_iff A B).mp h
  unfold RefController.report
  split
  · refine (careless_iff _ _).mpr ⟨h1, h2, ?_, h4, h5, h6, ?_⟩
    · show (fun x => if x = ip then _ else A.node x) = fun x => if x = ip then _ else B.node x
      rw [h3]
    · show List.map _ (A.told ++ _ ++ _) = List.map _ (B.told ++ _ ++ _)
      rw [List.map_append, List.map_append, List.map_append, List.map_append, show List.map _ A.told = List.map _ B.told from h7]
      show _ ++ List.map _ (List.flatMap (fun i => tellAll A.listeners _) _) ++ List.map _ (if _ then [] else tellAll A.listeners _ ++ tellAll A.listeners _) =
        _ ++ List.map _ (List.flatMap (fun i => tellAll B.listeners _) _) ++ List.map _ (if _ then [] else tellAll B.listeners _ ++ tellAll B.listeners _)
      rw [h6]
      congr 1
      split
      · rfl
      · simp [tellAll, ht]
  · exact h

theorem careless_answered {A B : RefController} (h : A.careless = B.careless) (m : Msg) : (A.answered m).careless = (B.answered m).careless := by
  obtain ⟨h1, h2, h3, h4, h5, h6, h7⟩ := (careless_iff A B).mp h
  unfold RefController.answered
  rw [h4, h5]
  split
  · exact (careless_iff _ _).mpr ⟨h1, h2, h3, rfl, rfl, h6, h7⟩
  · exact h

theorem careless_list {A B : RefController} (h : A.careless = B.careless) (a : Addr) (N : RefNode) {t t' : Told} (ht : asUpdate t = asUpdate t') :
    (((A.discover a.1).setNode a.1 N).tell t).careless = (((B.discover a.1).setNode a.1 N).tell t').careless := by
  obtain ⟨h1, h2, h3, h4, h5, h6, h7⟩ := (careless_iff A B).mp h
  refine (careless_iff _ _).mpr ⟨h1, ?_, ?_, h4, h5, h6, ?_⟩
  · show (if _ ∈ A.known then A.known else A.known ++ _) = if _ ∈ B.known then B.known else B.known ++ _
    rw [h2]
  · show (fun x => if x = _ then _ else A.node x) = fun x => if x = _ then _ else B.node x
    rw [h3]
  · show List.map _ (A.told ++ tellAll A.listeners t) = List.map _ (B.told ++ tellAll B.listeners t')
    rw [List.map_append, List.map_append, show List.map _ A.told = List.map _ B.told from h7, h6]
    simp [tellAll, ht]

/-- One datagram. -/
theorem controller_intended (fresh : Int → Int → Option Bytes) {A B : RefController} (h : A.careless = B.careless) (d : Bytes) (a : Addr) (hd : ¬ B.Differs fresh d a) :
    (A.actual fresh d a).1.careless = (B.intended fresh d a).1.careless ∧ (A.actual fresh d a).2 = ((B.intended fresh d a).2, true) := by
  obtain ⟨h1, h2, h3, h4, h5, h6, h7⟩ := (careless_iff A B).mp h
  unfold RefController.Differs at hd
  simp only [not_or, not_exists, not_and] at hd
  obtain ⟨d1, d2, d3, d4⟩ := hd
  have hdev := device_standard B.dev d a d3
  unfold RefController.actual RefController.intended
  rw [List.take_of_length_le (by omega)]
  cases hr : readMsg d with
  | none => exact absurd hr d2
  | some m =>
    obtain ⟨g1, g2, g3⟩ := d4 m hr
    simp only []
    by_cases hq : isRequestEsv m.esv = true
    · have hno : ¬ (m.esv = 0x72 ∨ m.esv = 0x73 ∨ m.esv = 0x74) ∧ m.esv ≠ 0x7E := by
        unfold isRequestEsv at hq
        simp only [decide_eq_true_eq, List.mem_cons, List.not_mem_nil, or_false] at hq
        omega
      rw [if_pos hq, if_pos hq]
      unfold RefController.intendedList
      rw [if_neg (fun x => hno.1 x.1)]
      unfold RefController.intendedReport
      simp only [if_neg hno.1, if_neg hno.2]
      rw [h1, hdev]
      cases B.node a.1 <;>
      exact ⟨(careless_iff _ _).mpr ⟨rfl, h2, h3, h4, h5, h6, h7⟩, rfl⟩
    · rw [if_neg hq, if_neg hq]
      have hq' : isRequestEsv m.esv = false := by simpa using hq
      have hsil : B.dev.actual d a = (B.dev, [], true) := by
        unfold RefDevice.actual
        rw [List.take_of_length_le (by omega), hr]
        simp only []
        cases ht : B.dev.things m.deoj with
        | none => rfl
        | some t =>
          simp only []
          rw [actual_silent t m hq']
          simp only []
          rw [setThing_same B.dev m.deoj t ht]
      rw [hsil] at hdev
      have hs1 : (B.dev.standard d a).1 = B.dev := (congrArg Prod.fst hdev).symm
      have hs2 : (B.dev.standard d a).2 = [] := (congrArg (fun x => x.2.1) hdev).symm
      rw [hs1, hs2, show ({ B with dev := B.dev } : RefController) = B from rfl]
      have h74 : m.esv ≠ 0x74 := g1
      by_cases he : m.esv = 0x72 ∨ m.esv = 0x73
      · obtain ⟨k1, k2, k3, k4, k5⟩ := g2 he
        have hse : m.seoj = 0x0EF001 := by simpa using k1
        have hde : m.deoj = 0x0EF001 := by simpa using k2
        rw [if_neg (by rintro ⟨-, x | x⟩; exacts [x hde, k3 x])]
        have hlist : (A.actualList fresh a m).careless = (B.intendedList fresh a m).careless ∧ (B.intendedList fresh a m).node a.1 ≠ none := by
          unfold RefController.actualList RefController.intendedList
          rw [if_pos he, if_pos ⟨he.elim Or.inl (fun x => Or.inr (Or.inl x)), hse⟩]
          cases hl : instanceListOf m with
          | notAList => exact ⟨h, k4 (by intro l; rw [hl]; simp)⟩
          | short => exact ⟨h, k4 (by intro l; rw [hl]; simp)⟩
          | empty => exact absurd hl k3
          | codes l =>
            simp only []
            cases hn : B.node a.1 with
            | none => exact ⟨careless_list h a _ rfl, by simp [RefController.tell, RefController.setNode]⟩
            | some N =>
              simp only []
              have : RefController.listed (fun o => if o ∈ N.objs then N.data o else fresh o) a l = RefController.listed fresh a l := by
                unfold RefController.listed
                simp only [RefNode.mk.injEq, true_and]
                funext o
                split
                · rename_i ho
                  split
                  · rename_i ho'
                    by_contra hne
                    exact k5 l N hl hn o ho' ho hne
                  · rfl
                · rfl
              rw [this]
              exact ⟨careless_list h a _ rfl, by simp [RefController.tell, RefController.setNode]⟩
        generalize A.actualList fresh a m = A' at *
        generalize B.intendedList fresh a m = B' at *
        have hn := ((careless_iff A' B').mp hlist.1).2.2.1
        unfold RefController.actualReport RefController.intendedReport
        rw [if_pos (he.elim Or.inl (fun x => Or.inr (Or.inl x))), hn]
        cases hb : B'.node a.1 with
        | none => exact absurd hb hlist.2
        | some N =>
          simp only []
          rw [if_pos (he.elim Or.inl (fun x => Or.inr (Or.inl x))), hse, hde]
          exact ⟨careless_answered (careless_report (t := .nodeAdd a.1) (t' := .nodeUpdated a.1) hlist.1 a.1 N _ _ rfl) _, trivial⟩
      · rw [if_neg (fun x => he x.1)]
        unfold RefController.actualList RefController.intendedList
        rw [if_neg he, if_neg (by rintro ⟨x | x | x, -⟩; exacts [he (Or.inl x), he (Or.inr x), h74 x])]
        unfold RefController.actualReport RefController.intendedReport
        by_cases h7E : m.esv = 0x7E
        · obtain ⟨k1, k2⟩ := g3 h7E
          have hget : m.getProps = [] := by simpa using k2
          have hprops : m.props = [] := by
            have := congrArg Msg.props (readMsg_sound d m hr).2.1
            rw [this]
            unfold onWire
            simp [TwoSections, h7E]
          rw [if_pos (Or.inr (Or.inr h7E)), h3]
          cases hb : B.node a.1 with
          | none => exact absurd hb k1
          | some N =>
            simp only []
            rw [if_neg (by omega), if_pos h7E, hget, hprops, report_nil A a.1 N _ _ (by rw [h3]; exact hb), report_nil B a.1 N _ _ hb]
            exact ⟨careless_answered h _, trivial⟩
        · rw [if_neg (by omega)]
          simp only [if_neg (show ¬ (m.esv = 0x72 ∨ m.esv = 0x73 ∨ m.esv = 0x74) by omega), if_neg h7E]
          cases B.node a.1 <;> exact ⟨careless_answered h _, trivial⟩

/-- C148 (the part that holds). As long as nothing arrives that is in the list `RefController.Differs`, what a controller knows, waits for and sends is what may be expected, and its listeners are
told what may be expected but for this: they cannot tell from what they are told whether a node is new. -/
theorem C148_intended_partial {ord : List Int → List Int} (hord : ValidOrder ord) (env : Env) (hc : CodeStable env) (cenv : CEnv) (hcalm : Calm cenv) (net : Net) (hs : NetWorks net)
    (r : Running Ctl) (ops : List CtlOp) (hr : CtlReach ord r.st ops) (hp : PlainNode env r.st.ln) (hw : CanSend r.st.ln.mgr) (hal : ∀ i, r.alive i = true) (xs : List Arrival)
    (hu : (controllerOf r.st).Usual (freshData ord) xs) :
    let r' := r.arrivals (Ctl.deliver ord env cenv net) xs
    let C := (controllerOf r.st).intendeds (freshData ord) xs
    (controllerOf r'.st).careless = C.1.careless ∧ (∀ i, r'.alive i = true) ∧ r'.st.ln.mgr.log = r.st.ln.mgr.log ++ C.2.map fun s => (s, (s.bytes.length : Int)) := by
  intro r' C
  have key : ∀ (xs : List Arrival) (A B : RefController) (alive : Nat → Bool) (old : List Sent), A.careless = B.careless → (∀ i, alive i = true) → B.Usual (freshData ord) xs →
      ((⟨A, alive, old⟩ : RefCtlRun).arrivals (freshData ord) xs).ctl.careless =
        (xs.foldl (fun q x => ((q.1.intended (freshData ord) x.bytes x.src).1, q.2 ++ (q.1.intended (freshData ord) x.bytes x.src).2)) (B, old)).1.careless ∧
      ((⟨A, alive, old⟩ : RefCtlRun).arrivals (freshData ord) xs).alive = alive ∧
      ((⟨A, alive, old⟩ : RefCtlRun).arrivals (freshData ord) xs).sent =
        (xs.foldl (fun q x => ((q.1.intended (freshData ord) x.bytes x.src).1, q.2 ++ (q.1.intended (freshData ord) x.bytes x.src).2)) (B, old)).2 := by
    intro xs
    induction xs with
    | nil => intro A B alive old h _ _; exact ⟨h, rfl, rfl⟩
    | cons x xs ih =>
      intro A B alive old h hal hu
      obtain ⟨s1, s2⟩ := controller_intended (freshData ord) h x.bytes x.src hu.1
      have e : (⟨A, alive, old⟩ : RefCtlRun).arrive (freshData ord) x =
          ⟨(A.actual (freshData ord) x.bytes x.src).1, alive, old ++ (B.intended (freshData ord) x.bytes x.src).2⟩ := by
        unfold RefCtlRun.arrive
        rw [if_pos (hal _)]
        simp only [s2, RefCtlRun.mk.injEq, true_and, and_true]
        funext i
        split
        · exact (hal i).symm
        · rfl
      have e2 : (⟨A, alive, old⟩ : RefCtlRun).arrivals (freshData ord) (x :: xs) = ((⟨A, alive, old⟩ : RefCtlRun).arrive (freshData ord) x).arrivals (freshData ord) xs := rfl
      rw [e2, e]
      exact ih _ _ alive _ s1 hal hu.2
  obtain ⟨h1, h2, h3⟩ := C148_machine_partial hord env hc cenv hcalm net hs r ops hr hp hw xs
  obtain ⟨k1, k2, k3⟩ := key xs (controllerOf r.st) (controllerOf r.st) r.alive [] rfl hal hu
  refine ⟨?_, fun i => ?_, ?_⟩
  · show (controllerOf (r.arrivals (Ctl.deliver ord env cenv net) xs).st).careless = _
    rw [h1]; exact k1
  · show (r.arrivals (Ctl.deliver ord env cenv net) xs).alive i = true
    rw [h2, k2]; exact hal i
  · show (r.arrivals (Ctl.deliver ord env cenv net) xs).st.ln.mgr.log = _
    rw [h3, k3]
    rfl

/-! ### Where they differ -/

/-- A value of property `pc` of object `o`, announced to the controller's node profile or to any other object. -/
def announcement (o deoj pc : Int) (v : Bytes) (tid : Int) : Msg := { tid := tid, seoj := o, deoj := deoj, esv := 0x73, props := [{ code := pc, data := v }] }

/-- C148 (violated). A controller does not know what it is told: a device it knows announces a value of one of its objects; what is known of that object stays what it was, whomever the
announcement is for, and if it is not for the node profile the receiving thread ends. -/
theorem C148_value_false {ord : List Int → List Int} (hord : ValidOrder ord) (env : Env) (hc : CodeStable env) (cenv : CEnv) (hcalm : Calm cenv) (net : Net) (hs : NetWorks net)
    (r : Running Ctl) (ops : List CtlOp) (hr : CtlReach ord r.st ops) (hp : PlainNode env r.st.ln) (hw : CanSend r.st.ln.mgr) (i : Nat) (hal : r.alive i = true)
    (a : Addr) (N : RefNode) (o deoj pc tid : Int) (v old : Bytes) (hN : (controllerOf r.st).node a.1 = some N) (ho : o ∈ N.objs) (hv : N.data o pc = some old)
    (hne : o ≠ 0x0EF001) (hl : pc ≠ 0xD5 ∧ pc ≠ 0xD6) (hm : Encodable (announcement o deoj pc v tid)) (hown : announcement o deoj pc v tid = onWire (announcement o deoj pc v tid))
    (hlen : (encode (announcement o deoj pc v tid)).length ≤ 1024) :
    let d := encode (announcement o deoj pc v tid)
    (((controllerOf r.st).intended (freshData ord) d a).1.node a.1).map (fun N => N.data o pc) = some (some v) ∧
    let r' := r.arrive (Ctl.deliver ord env cenv net) ⟨i, d, a⟩
    ((controllerOf r'.st).node a.1).map (fun N => N.data o) = some (N.data o) ∧ (deoj ≠ 0x0EF001 → r'.alive i = false) := by
  intro d
  have hread : readMsg d = some (announcement o deoj pc v tid) := by
    have := readMsg_enc (announcement o deoj pc v tid) hm []
    rwa [List.append_nil, ← hown] at this
  have he : (announcement o deoj pc v tid).esv = 0x73 := rfl
  have hlist : instanceListOf (announcement o deoj pc v tid) = .notAList := by
    unfold instanceListOf announcement
    simp only []
    rw [if_neg (by rintro (h | h); exacts [hl.1 h, hl.2 h])]
  constructor
  · unfold RefController.intended
    rw [hread]
    simp only []
    rw [if_neg (show ¬ isRequestEsv (announcement o deoj pc v tid).esv = true from (by decide : ¬ isRequestEsv 0x73 = true))]
    have h1 : ∀ C : RefController, ∀ m, (C.answered m).node = C.node := by intro C m; unfold RefController.answered; split <;> rfl
    rw [h1]
    unfold RefController.intendedList
    rw [hlist]
    simp only [ite_self]
    unfold RefController.intendedReport
    simp only []
    rw [show (controllerOf r.st).node a.1 = some N from hN]
    simp only []
    rw [if_pos (Or.inr (Or.inl he))]
    unfold RefController.report
    rw [if_pos (show (announcement o deoj pc v tid).seoj ∈ N.objs from ho)]
    show Option.map _ (if a.1 = a.1 then some _ else _) = _
    rw [if_pos rfl]
    simp only [Option.map_some, Option.some.injEq]
    show (if o = o then putsData (N.data o) [{ code := pc, data := v }] else N.data o) pc = _
    rw [if_pos rfl]
    show (if pc = pc then (N.data o pc).map _ else _) = _
    rw [if_pos rfl, hv]
    rfl
  · intro r'
    obtain ⟨k1, k2, -⟩ := C148_machine_partial hord env hc cenv hcalm net hs r ops hr hp hw [⟨i, d, a⟩]
    have e : (⟨controllerOf r.st, r.alive, []⟩ : RefCtlRun).arrivals (freshData ord) [⟨i, d, a⟩] =
        ⟨((controllerOf r.st).actual (freshData ord) d a).1, fun j => if j = i then ((controllerOf r.st).actual (freshData ord) d a).2.2 else r.alive j,
          [] ++ ((controllerOf r.st).actual (freshData ord) d a).2.1⟩ := by
      show (⟨controllerOf r.st, r.alive, []⟩ : RefCtlRun).arrive (freshData ord) ⟨i, d, a⟩ = _
      unfold RefCtlRun.arrive
      rw [if_pos (show r.alive i = true from hal)]
    rw [e] at k1 k2
    change controllerOf r'.st = _ at k1
    change r'.alive = _ at k2
    have hact : (controllerOf r.st).actual (freshData ord) d a = if deoj ≠ 0x0EF001 then (controllerOf r.st, [], false) else
        (((controllerOf r.st).report a.1 N 0x0EF001 (.nodeAdd a.1) [{ code := pc, data := v }]).answered { announcement o 0x0EF001 pc v tid with fromAddr := some a }, [], true) := by
      unfold RefController.actual
      rw [List.take_of_length_le hlen, hread]
      simp only []
      rw [if_neg (show ¬ isRequestEsv (announcement o deoj pc v tid).esv = true from (by decide : ¬ isRequestEsv 0x73 = true)), hlist]
      by_cases hd : deoj ≠ 0x0EF001
      · rw [if_pos ⟨Or.inr rfl, Or.inl hd⟩, if_pos hd]
      · have hd' : deoj = 0x0EF001 := by simpa using hd
        rw [if_neg (by rintro ⟨-, h | h⟩; exacts [hd h, by cases h]), if_neg hd]
        unfold RefController.actualList
        rw [hlist]
        simp only [ite_self]
        unfold RefController.actualReport
        rw [if_pos (Or.inr (Or.inl he)), hN, hd']
        rfl
    constructor
    · rw [k1, hact]
      by_cases hd : deoj ≠ 0x0EF001
      · rw [if_pos hd]
        show Option.map _ ((controllerOf r.st).node a.1) = _
        rw [hN]; rfl
      · rw [if_neg hd]
        have h1 : ∀ C : RefController, ∀ m, (C.answered m).node = C.node := by intro C m; unfold RefController.answered; split <;> rfl
        show Option.map _ ((RefController.answered _ _).node a.1) = _
        rw [h1]
        unfold RefController.report
        split
        · show Option.map _ (if a.1 = a.1 then some _ else _) = _
          rw [if_pos rfl]
          simp only [Option.map_some, Option.some.injEq]
          rw [if_neg hne]
        · rw [hN]; rfl
    · intro hd
      rw [k2, hact, if_pos hd]
      simp

/-- C148 (violated). Nor does it keep what it knows: when a node it knows announces its instances again, all that was known of the values of its objects is lost, but for what comes with the
announcement. -/
theorem C148_forgets_false {ord : List Int → List Int} (hord : ValidOrder ord) (env : Env) (hc : CodeStable env) (cenv : CEnv) (hcalm : Calm cenv) (net : Net) (hs : NetWorks net)
    (r : Running Ctl) (ops : List CtlOp) (hr : CtlReach ord r.st ops) (hp : PlainNode env r.st.ln) (hw : CanSend r.st.ln.mgr) (i : Nat) (hal : r.alive i = true)
    (a : Addr) (N : RefNode) (hN : (controllerOf r.st).node a.1 = some N) (m : Msg) (l : List Int) (hm : Encodable m) (hown : m = onWire m) (hlen : (encode m).length ≤ 1024)
    (he : m.esv = 0x73) (hse : m.seoj = 0x0EF001) (hde : m.deoj = 0x0EF001) (hl : instanceListOf m = .codes l) (hone : m.props.length = 1) (pc : Int) (hpc : pc ≠ 0xD5 ∧ pc ≠ 0xD6)
    (o : Int) (hkn : o ∈ N.objs) (hol : o = 0x0EF001 ∨ o ∈ l) :
    (((controllerOf r.st).intended (freshData ord) (encode m) a).1.node a.1).map (fun N => N.data o pc) = some (N.data o pc) ∧
    ((controllerOf (r.arrive (Ctl.deliver ord env cenv net) ⟨i, encode m, a⟩).st).node a.1).map (fun N => N.data o pc) = some (freshData ord o pc) := by
  have hread : readMsg (encode m) = some m := by
    have := readMsg_enc m hm []
    rwa [List.append_nil, ← hown] at this
  have hprops : ∃ p, m.props = [p] ∧ (p.code = 0xD5 ∨ p.code = 0xD6) := by
    obtain ⟨p, hp'⟩ := List.length_eq_one_iff.mp hone
    refine ⟨p, hp', ?_⟩
    unfold instanceListOf at hl
    rw [hp'] at hl
    simp only [] at hl
    split at hl
    · assumption
    · cases hl
  obtain ⟨p, hp1, hp2⟩ := hprops
  have hput : ∀ f : Int → Option Bytes, putsData f [p] pc = f pc := by
    intro f
    show (if pc = p.code then _ else _) = _
    rw [if_neg (by omega)]
  have hans : ∀ C : RefController, ∀ m, (C.answered m).node = C.node := by intro C m; unfold RefController.answered; split <;> rfl
  have hin : ∀ fresh, (0x0EF001 : Int) ∈ (RefController.listed fresh a l).objs := fun fresh => (mem_addCodes _ _ _).mpr (by simp)
  have hio : o ∈ addCodes [0x0EF001] l := (mem_addCodes _ _ _).mpr (by rcases hol with h | h <;> simp [h])
  have hrep : ∀ (C : RefController) (M : RefNode) (t : Told), ((C.report a.1 M 0x0EF001 t [p]).node a.1).map (fun N => N.data o pc) =
      if (0x0EF001 : Int) ∈ M.objs then some (M.data o pc) else (C.node a.1).map (fun N => N.data o pc) := by
    intro C M t
    unfold RefController.report
    split
    · show Option.map _ (if a.1 = a.1 then some _ else _) = _
      rw [if_pos rfl]
      simp only [Option.map_some, Option.some.injEq]
      split
      · rename_i ho; rw [hput, ho]
      · rfl
    · rfl
  have hnr : ¬ isRequestEsv m.esv = true := by rw [he]; decide
  constructor
  · unfold RefController.intended
    rw [hread]
    simp only []
    rw [if_neg hnr, hans]
    unfold RefController.intendedList
    rw [if_pos ⟨Or.inr (Or.inl he), hse⟩, hl]
    simp only []
    rw [hN]
    simp only []
    generalize hC : RefController.tell _ _ = C
    have hCn : C.node a.1 = some (RefController.listed (fun o => if o ∈ N.objs then N.data o else freshData ord o) a l) := by
      rw [← hC]
      show (if a.1 = a.1 then some _ else _) = _
      rw [if_pos rfl]
    unfold RefController.intendedReport
    rw [hCn]
    simp only []
    rw [if_pos (Or.inr (Or.inl he)), hse, hp1, hrep, if_pos (hin _)]
    show some ((if o ∈ addCodes [0x0EF001] l then (if o ∈ N.objs then N.data o else freshData ord o) else fun _ => none) pc) = _
    rw [if_pos hio, if_pos hkn]
  · obtain ⟨k1, -, -⟩ := C148_machine_partial hord env hc cenv hcalm net hs r ops hr hp hw [⟨i, encode m, a⟩]
    have e : ((⟨controllerOf r.st, r.alive, []⟩ : RefCtlRun).arrivals (freshData ord) [⟨i, encode m, a⟩]).ctl = ((controllerOf r.st).actual (freshData ord) (encode m) a).1 := by
      show ((⟨controllerOf r.st, r.alive, []⟩ : RefCtlRun).arrive (freshData ord) ⟨i, encode m, a⟩).ctl = _
      unfold RefCtlRun.arrive
      rw [if_pos (show r.alive i = true from hal)]
    rw [e] at k1
    change controllerOf (r.arrive (Ctl.deliver ord env cenv net) ⟨i, encode m, a⟩).st = _ at k1
    rw [k1]
    unfold RefController.actual
    rw [List.take_of_length_le hlen, hread]
    simp only []
    rw [if_neg hnr, hl, if_neg (by rintro ⟨-, h | h⟩; exacts [h hde, by cases h])]
    unfold RefController.actualList
    rw [if_pos (Or.inr he), hl]
    simp only []
    generalize hC : RefController.tell _ _ = C
    have hCn : C.node a.1 = some (RefController.listed (freshData ord) a l) := by
      rw [← hC]
      show (if a.1 = a.1 then some _ else _) = _
      rw [if_pos rfl]
    unfold RefController.actualReport
    rw [if_pos (Or.inr (Or.inl he)), hCn]
    simp only []
    rw [hans, hde, hp1, hrep, if_pos (hin _)]
    show some ((if o ∈ addCodes [0x0EF001] l then freshData ord o else fun _ => none) pc) = _
    rw [if_pos hio]

/-! ### Examples -/

/-- a started controller with a listener and one device of its own -/
def exSeeing : Ctl := runCtl List.dedup (Ctl.new List.dedup exRandom).1 [.listen 7, .add exObj, .start okNet none]

theorem exSeeing_reach : CtlReach List.dedup exSeeing [.listen 7, .add exObj, .start okNet none] :=
  ⟨exRandom, by intro op h; simp only [List.mem_cons, List.not_mem_nil, or_false] at h; rcases h with rfl | rfl | rfl <;> trivial, rfl⟩

theorem exSeeing_ok : PlainNode exEnv exSeeing.ln ∧ CanSend exSeeing.ln.mgr ∧ exSeeing.found = [] ∧ exSeeing.listeners = [7] := by
  have h : (exSeeing.ln.node.objects.all (fun s => decide (WellFormed (exSeeing.ln.deref s.2)) && decide ((exSeeing.ln.deref s.2).handler = .self_) &&
      (exSeeing.ln.deref s.2).props.all (fun x => decide (x.2.data.length ≤ 255)))) = true ∧ (working exSeeing.ln.mgr.servers).isEmpty = false ∧
      exSeeing.found.isEmpty = true ∧ exSeeing.listeners = [7] := by decide +kernel
  refine ⟨?_, ?_, by simpa using h.2.2.1, h.2.2.2⟩
  · intro c o ho
    obtain ⟨s, hg, rfl⟩ := Option.map_eq_some_iff.mp ho
    have := List.all_eq_true.mp h.1 (c, s) (Dict.mem_of_get? _ _ _ hg)
    simp only [Bool.and_eq_true, decide_eq_true_eq] at this
    exact ⟨this.1.1, .inl this.1.2, fun _ _ _ => rfl, fun c p => lookup_length _ _ this.2 c p⟩
  · intro e
    rw [e] at h
    cases h.2.1

/-- what a node profile sends, from a node known or with an instance list -/
theorem not_ctl_differs (fresh : Int → Int → Option Bytes) (C : RefController) (m : Msg) (a : Addr) (h1 : Encodable m) (h2 : m = onWire m) (h3 : (encode m).length ≤ 1024)
    (he : m.esv = 0x73) (hse : m.seoj = 0x0EF001) (hde : m.deoj = 0x0EF001)
    (h : ((∃ l, instanceListOf m = .codes l) ∧ C.node a.1 = none) ∨ (instanceListOf m = .notAList ∧ C.node a.1 ≠ none)) : ¬ C.Differs fresh (encode m) a := by
  have hr : readMsg (encode m) = some m := by
    have := readMsg_enc m h1 []
    rwa [List.append_nil, ← h2] at this
  have hnr : isRequestEsv m.esv = false := by rw [he]; rfl
  rintro (k | k | k | ⟨m', k1, k2⟩)
  · omega
  · rw [hr] at k; cases k
  · rcases k with k | k | ⟨m', k1, k2, -⟩
    · omega
    · rw [hr] at k; cases k
    · rw [hr] at k1
      injection k1 with k1
      rw [← k1, hnr] at k2
      cases k2
  · rw [hr] at k1
    injection k1 with k1
    rw [← k1] at k2
    rcases k2 with k2 | ⟨-, k2⟩ | k2
    · omega
    · rcases k2 with k2 | k2 | k2 | ⟨k2, k3⟩ | ⟨l, N, k2, k3, -⟩
      · exact k2 hse
      · exact k2 hde
      · rcases h with ⟨⟨l, h⟩, -⟩ | ⟨h, -⟩ <;> rw [h] at k2 <;> cases k2
      · rcases h with ⟨⟨l, h⟩, -⟩ | ⟨-, h⟩
        · exact k2 l h
        · exact h k3
      · rcases h with ⟨-, h⟩ | ⟨h, -⟩
        · rw [h] at k3; cases k3
        · rw [h] at k2; cases k2
    · omega

/-- after an instance list the node is known -/
theorem intended_knows (fresh : Int → Int → Option Bytes) (C : RefController) (m : Msg) (a : Addr) (h1 : Encodable m) (h2 : m = onWire m)
    (he : m.esv = 0x73) (hse : m.seoj = 0x0EF001) (l : List Int) (hl : instanceListOf m = .codes l) : (C.intended fresh (encode m) a).1.node a.1 ≠ none := by
  have hr : readMsg (encode m) = some m := by
    have := readMsg_enc m h1 []
    rwa [List.append_nil, ← h2] at this
  have hans : ∀ C : RefController, ∀ m, (C.answered m).node = C.node := by intro C m; unfold RefController.answered; split <;> rfl
  unfold RefController.intended
  rw [hr]
  simp only []
  rw [if_neg (show ¬ isRequestEsv m.esv = true by rw [he]; decide), hans]
  unfold RefController.intendedList
  rw [if_pos ⟨Or.inr (Or.inl he), hse⟩, hl]
  simp only []
  have key : ∀ D : RefController, D.node a.1 ≠ none → (D.intendedReport a m).node a.1 ≠ none := by
    intro D hD
    unfold RefController.intendedReport
    cases hn : D.node a.1 with
    | none => exact absurd hn hD
    | some N =>
      simp only []
      rw [if_pos (Or.inr (Or.inl he))]
      unfold RefController.report
      split
      · show (if a.1 = a.1 then some _ else _) ≠ none
        rw [if_pos rfl]; simp
      · exact hD
  apply key
  split
  all_goals
    show (if a.1 = a.1 then some _ else _) ≠ none
    rw [if_pos rfl]; simp

/-- A node announces its instances, then its profile a value. -/
def exSeen : List Msg := [{ exList "" [0x029101] with fromAddr := none }, { exReport 0x0EF001 with fromAddr := none }]

theorem exSeen_usual : (controllerOf exSeeing).Usual (freshData List.dedup) (exSeen.map fun m => ⟨0, encode m, exAsker⟩) := by
  refine ⟨?_, ?_, trivial⟩
  · refine not_ctl_differs _ _ { exList "" [0x029101] with fromAddr := none } exAsker (by decide +kernel) (by decide +kernel) (by decide +kernel) rfl rfl rfl (.inl ⟨⟨[0x029101], by decide +kernel⟩, ?_⟩)
    show Option.map _ (Dict.get? exSeeing.found _) = none
    rw [exSeeing_ok.2.2.1]
    rfl
  · exact not_ctl_differs _ _ { exReport 0x0EF001 with fromAddr := none } exAsker (by decide +kernel) (by decide +kernel) (by decide +kernel) rfl rfl rfl
      (.inr ⟨rfl, intended_knows _ _ { exList "" [0x029101] with fromAddr := none } exAsker (by decide +kernel) (by decide +kernel) rfl rfl [0x029101] (by decide +kernel)⟩)

example : ∃ ops, CtlReach List.dedup exSeeing ops ∧ PlainNode exEnv exSeeing.ln ∧ CanSend exSeeing.ln.mgr ∧ CodeStable exEnv ∧ Calm calmEnv ∧ NetWorks okNet ∧
    (controllerOf exSeeing).Usual (freshData List.dedup) (exSeen.map fun m => ⟨0, encode m, exAsker⟩) :=
  ⟨_, exSeeing_reach, exSeeing_ok.1, exSeeing_ok.2.1, exEnv_stable, calmEnv_calm, fun _ _ _ _ => rfl, exSeen_usual⟩

/-- the same controller once it has heard of a node with one device -/
def exSeer : Ctl := CtlOp.run List.dedup exSeeing (.receive exEnv calmEnv okNet (exList "10.0.0.9" [0x029101]))

/-- Such a controller, and a value of the device and an instance list as in the counterexamples. -/
example : CtlReach List.dedup exSeer [.listen 7, .add exObj, .start okNet none, .receive exEnv calmEnv okNet (exList "10.0.0.9" [0x029101])] ∧
    (∃ N old, (controllerOf exSeer).node exAsker.1 = some N ∧ (0x029101 : Int) ∈ N.objs ∧ (0x0EF001 : Int) ∈ N.objs ∧ N.data 0x029101 0x80 = some old) ∧
    PlainNode exEnv exSeer.ln ∧ CanSend exSeer.ln.mgr ∧
    (∀ d ∈ ([0x0EF001, 0x05FF01] : List Int), Encodable (announcement 0x029101 d 0x80 [0x31] 5) ∧ announcement 0x029101 d 0x80 [0x31] 5 = onWire (announcement 0x029101 d 0x80 [0x31] 5) ∧
      (encode (announcement 0x029101 d 0x80 [0x31] 5)).length ≤ 1024) := by
  have hd : Delivered (exList "10.0.0.9" [0x029101]) := by unfold Delivered; decide +kernel
  have h3 := ctl_snoc exSeeing_reach (.receive exEnv calmEnv okNet (exList "10.0.0.9" [0x029101])) ⟨hd, calmEnv_calm, exEnv_stable⟩
  have hord : ValidOrder List.dedup := fun l => ⟨l.nodup_dedup, fun _ => List.mem_dedup⟩
  have hln := receive_ln List.dedup exEnv calmEnv okNet exSeeing (exList "10.0.0.9" [0x029101]) (reach_knows hord exSeeing_reach).1 calmEnv_calm hord hd
  rw [if_neg (by decide)] at hln
  have hln : exSeer.ln = exSeeing.ln := hln
  have hN : (((controllerOf exSeer).node exAsker.1).map fun N => (decide ((0x029101 : Int) ∈ N.objs), decide ((0x0EF001 : Int) ∈ N.objs), (N.data 0x029101 0x80).isSome)) =
      some (true, true, true) := by decide +kernel
  obtain ⟨N, n1, n2⟩ := Option.map_eq_some_iff.mp hN
  simp only [Prod.mk.injEq, decide_eq_true_eq] at n2
  obtain ⟨old, ho⟩ := Option.isSome_iff_exists.mp n2.2.2
  refine ⟨h3, ⟨N, old, n1, n2.1, n2.2.1, ho⟩, by rw [hln]; exact exSeeing_ok.1, by rw [hln]; exact exSeeing_ok.2.1, ?_⟩
  intro d hd
  rcases List.mem_cons.mp hd with rfl | hd
  · decide +kernel
  · rw [List.mem_singleton.mp hd]; decide +kernel

end Uecho
