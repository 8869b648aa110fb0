/- C147: a device as a machine from datagrams to datagrams, and the standard. -/
import Verif.Lemmas.Device
import Verif.Props.Running

namespace Uecho
open Spec

/-- C147 (the part that holds). The machine a device is: whatever arrives, in whatever order, at whichever of its threads, its objects, its transaction numbers, its threads and every
datagram it sends are those of `RefDevice.actual`. -/
theorem C147_machine_partial {ord : List Int → List Int} (hord : ValidOrder ord) (env : Env) (hc : CodeStable env) (net : Net) (hs : NetWorks net) (xs : List Arrival) :
    ∀ (r : Running LocalNode) (old : List Sent), Reachable ord r.st → PlainNode env r.st → CanSend r.st.mgr →
      let r' := r.arrivals (LocalNode.deliver env net) xs
      let R := (⟨deviceOf r.st, r.alive, old⟩ : RefRun).arrivals xs
      deviceOf r'.st = R.dev ∧ r'.alive = R.alive ∧
      ∃ new, R.sent = old ++ new ∧ r'.st.mgr.log = r.st.mgr.log ++ new.map fun s => (s, (s.bytes.length : Int)) := by
  induction xs with
  | nil => intro r old _ _ _; exact ⟨rfl, rfl, [], by simp [RefRun.arrivals], by simp [Running.arrivals]⟩
  | cons x xs ih =>
    intro r old h1 h2 h3
    by_cases ha : r.alive x.thread = true
    · obtain ⟨k1, k2, k3⟩ := device_datagram hord h1 h2 net hs h3 x.bytes x.src
      obtain ⟨-, j2, j3, j4, -⟩ := plain_datagram hord h1 hc h2 net hs h3 x.bytes x.src
      have e : r.arrive (LocalNode.deliver env net) x = ⟨(recvOne (LocalNode.deliver env net) r.st x.bytes x.src).1,
          fun i => if i = x.thread then (recvOne (LocalNode.deliver env net) r.st x.bytes x.src).2 else r.alive i⟩ := by
        unfold Running.arrive
        rw [if_pos ha]
      have e' : (⟨deviceOf r.st, r.alive, old⟩ : RefRun).arrive x = ⟨deviceOf (r.arrive (LocalNode.deliver env net) x).st, (r.arrive (LocalNode.deliver env net) x).alive,
          old ++ ((deviceOf r.st).actual x.bytes x.src).2.1⟩ := by
        unfold RefRun.arrive
        rw [if_pos ha, e, k1, k2]
      have hm : r.arrivals (LocalNode.deliver env net) (x :: xs) = (r.arrive (LocalNode.deliver env net) x).arrivals (LocalNode.deliver env net) xs := rfl
      have hm' : (⟨deviceOf r.st, r.alive, old⟩ : RefRun).arrivals (x :: xs) = ((⟨deviceOf r.st, r.alive, old⟩ : RefRun).arrive x).arrivals xs := rfl
      rw [hm, hm', e']
      obtain ⟨i1, i2, new, i3, i4⟩ := ih (r.arrive (LocalNode.deliver env net) x) (old ++ ((deviceOf r.st).actual x.bytes x.src).2.1)
        (by rw [e]; exact j2) (by rw [e]; exact j3) (by rw [e]; exact j4)
      refine ⟨i1, i2, ((deviceOf r.st).actual x.bytes x.src).2.1 ++ new, by rw [i3, List.append_assoc], ?_⟩
      rw [i4]
      have : (r.arrive (LocalNode.deliver env net) x).st.mgr.log = r.st.mgr.log ++ ((deviceOf r.st).actual x.bytes x.src).2.1.map fun s => (s, (s.bytes.length : Int)) := by
        rw [e]; exact k3
      rw [this, List.map_append, List.append_assoc]
    · have e : r.arrive (LocalNode.deliver env net) x = r := by unfold Running.arrive; rw [if_neg ha]
      have e' : (⟨deviceOf r.st, r.alive, old⟩ : RefRun).arrive x = ⟨deviceOf r.st, r.alive, old⟩ := by unfold RefRun.arrive; rw [if_neg ha]
      have hm : r.arrivals (LocalNode.deliver env net) (x :: xs) = (r.arrive (LocalNode.deliver env net) x).arrivals (LocalNode.deliver env net) xs := rfl
      have hm' : (⟨deviceOf r.st, r.alive, old⟩ : RefRun).arrivals (x :: xs) = ((⟨deviceOf r.st, r.alive, old⟩ : RefRun).arrive x).arrivals xs := rfl
      rw [hm, hm', e, e']
      exact ih r old h1 h2 h3

theorem thing_standard (t : Thing) (m : Msg) (h : ¬ t.Differs m) : t.actual m = ((t.standard m).1, (t.standard m).2, true) := by
  unfold Thing.Differs at h
  simp only [not_or, not_and, not_exists] at h
  obtain ⟨h1, h2, h3, h4, h5, h6⟩ := h
  have hback : ∀ is : List PProp, (∀ i ∈ is, ¬ t.knows i.code = false) → t.refused is = t.unwritten is := by
    intro is hk
    unfold Thing.refused Thing.unwritten
    apply List.map_congr_left
    intro i hi
    have : t.knows i.code = true := by simpa using hk i hi
    rw [this]
    cases t.canSet i.code <;> rfl
  have hset : ∀ c, t.canSet c = true → ¬ t.knows c = false := by
    intro c
    unfold Thing.canSet Thing.knows isWritable
    cases t.props c <;> simp
  unfold Thing.actual Thing.standard
  simp only []
  rw [if_neg h1]
  by_cases c0 : m.esv = 0x60
  · rw [if_pos c0, if_pos c0, hback _ (h5 c0)]
  rw [if_neg c0, if_neg c0]
  by_cases c1 : m.esv = 0x61
  · have ht : t.canSetAll m.props = true := by simpa using h4 c1
    rw [if_pos c1, if_pos c1, hback _ (fun i hi => hset _ (List.all_eq_true.mp ht i hi)), ht]
    rfl
  rw [if_neg c1, if_neg c1]
  by_cases c2 : m.esv = 0x62
  · rw [if_pos c2, if_pos c2]
  rw [if_neg c2, if_neg c2]
  by_cases c3 : m.esv = 0x63
  · have hp : m.props = [] := by simpa using h2 c3
    rw [if_pos c3, if_pos c3, hp]
    rfl
  rw [if_neg c3, if_neg c3]
  by_cases c6 : m.esv = 0x6E
  · have hk := h6 c6
    rw [if_pos c6, if_pos c6, if_pos (List.all_eq_true.mpr fun i hi => by simpa using hk.2 i hi), hback _ hk.1]
  rw [if_neg c6, if_neg c6]
  by_cases c7 : m.esv = 0x74
  · have hp : m.props = [] := by simpa using h3 c7
    rw [if_pos c7, if_pos c7, hp]
    rfl
  rw [if_neg c7, if_neg c7]

theorem standard_silent (t : Thing) (m : Msg) (h : isRequestEsv m.esv = false) : t.standard m = (t, none) := by
  unfold isRequestEsv at h
  simp only [decide_eq_false_iff_not, List.mem_cons, List.not_mem_nil, or_false, not_or] at h
  unfold Thing.standard
  simp [h]

theorem actual_silent (t : Thing) (m : Msg) (h : isRequestEsv m.esv = false) : t.actual m = (t, none, true) := by
  unfold isRequestEsv at h
  simp only [decide_eq_false_iff_not, List.mem_cons, List.not_mem_nil, or_false, not_or] at h
  unfold Thing.actual
  simp [h]

theorem setThing_same (D : RefDevice) (c : Int) (t : Thing) (h : D.things c = some t) : D.setThing c t = D := by
  refine device_ext (fun x => ?_) rfl rfl rfl
  show (if x = c then some t else D.things x) = _
  split
  · rename_i e; rw [e, h]
  · rfl

theorem actual_head (t : Thing) (m r : Msg) (h : (t.actual m).2.1 = some r) : r.tid = m.tid := by
  unfold Thing.actual at h
  simp only [] at h
  split at h
  · cases h
  · repeat' split at h
    all_goals (cases h)
    all_goals rfl

theorem device_standard (D : RefDevice) (d : Bytes) (a : Addr) (h : ¬ D.Differs d) : D.actual d a = ((D.standard d a).1, (D.standard d a).2, true) := by
  unfold RefDevice.Differs at h
  simp only [not_or, not_exists, not_and] at h
  obtain ⟨h1, h2, h3⟩ := h
  unfold RefDevice.actual RefDevice.standard
  rw [List.take_of_length_le (by omega)]
  cases hr : readMsg d with
  | none => exact absurd hr h2
  | some m =>
    simp only []
    by_cases hq : isRequestEsv m.esv = true
    · obtain ⟨g1, g2⟩ := h3 m hr hq
      unfold RefDevice.targets
      rw [if_neg g1]
      simp only [List.foldl_cons, List.foldl_nil]
      unfold RefDevice.standardAt
      simp only []
      cases ht : D.things m.deoj with
      | none => rfl
      | some t =>
        obtain ⟨k1, k2, k3⟩ := g2 t ht
        simp only []
        have hst := thing_standard t m k3
        have hsame : ({ m with deoj := m.deoj } : Msg) = m := rfl
        rw [hst]
        simp only [List.nil_append]
        cases hres : (t.standard m).2 with
        | none => rfl
        | some r =>
          simp only []
          have htid : r.tid = m.tid := actual_head t m r (by rw [hst]; exact hres)
          have hctl : (D.setThing m.deoj (t.standard m).1).ctl = false := by
            show D.ctl = false
            simpa using k2
          rw [hctl]
          simp only [Bool.false_eq_true, if_false]
          rw [if_neg (by rw [htid]; exact k1)]
          rfl
    · have hq : isRequestEsv m.esv = false := by simpa using hq
      have hfold : ∀ l : List Int, l.foldl (RefDevice.standardAt m a) (D, []) = (D, []) := by
        intro l
        induction l with
        | nil => rfl
        | cons c l ih =>
          have e : RefDevice.standardAt m a (D, []) c = (D, []) := by
            unfold RefDevice.standardAt
            cases ht : D.things c with
            | none => simp only [ht]
            | some t =>
              simp only [ht]
              rw [standard_silent t { m with deoj := c } hq]
              simp only [List.append_nil]
              rw [setThing_same D c t ht]
          rw [List.foldl_cons, e]
          exact ih
      rw [hfold]
      cases ht : D.things m.deoj with
      | none => rfl
      | some t =>
        simp only []
        rw [actual_silent t m hq]
        simp only []
        rw [setThing_same D m.deoj t ht]

/-- C147 (the part that holds). As long as nothing arrives that is in the list `RefDevice.Differs`, a device does exactly what the standard says: every write is done, every answer is sent to
the one who asked with the contents prescribed, nothing else is sent, and every thread goes on. -/
theorem C147_standard_partial {ord : List Int → List Int} (hord : ValidOrder ord) (env : Env) (hc : CodeStable env) (net : Net) (hs : NetWorks net) (r : Running LocalNode)
    (hr : Reachable ord r.st) (hp : PlainNode env r.st) (hw : CanSend r.st.mgr) (hal : ∀ i, r.alive i = true) (xs : List Arrival) (hu : (deviceOf r.st).Usual xs) :
    let r' := r.arrivals (LocalNode.deliver env net) xs
    let D := (deviceOf r.st).standards xs
    deviceOf r'.st = D.1 ∧ (∀ i, r'.alive i = true) ∧ r'.st.mgr.log = r.st.mgr.log ++ D.2.map fun s => (s, (s.bytes.length : Int)) := by
  intro r' D
  have key : ∀ (xs : List Arrival) (A : RefDevice) (alive : Nat → Bool) (old : List Sent), (∀ i, alive i = true) → A.Usual xs →
      (⟨A, alive, old⟩ : RefRun).arrivals xs = ⟨(xs.foldl (fun q x => ((q.1.standard x.bytes x.src).1, q.2 ++ (q.1.standard x.bytes x.src).2)) (A, old)).1, alive,
        (xs.foldl (fun q x => ((q.1.standard x.bytes x.src).1, q.2 ++ (q.1.standard x.bytes x.src).2)) (A, old)).2⟩ := by
    intro xs
    induction xs with
    | nil => intro A alive old _ _; rfl
    | cons x xs ih =>
      intro A alive old hal hu
      have e : (⟨A, alive, old⟩ : RefRun).arrive x = ⟨(A.standard x.bytes x.src).1, alive, old ++ (A.standard x.bytes x.src).2⟩ := by
        unfold RefRun.arrive
        rw [if_pos (hal _)]
        simp only [device_standard A x.bytes x.src hu.1, RefRun.mk.injEq, true_and, and_true]
        funext i
        split
        · exact (hal i).symm
        · rfl
      show ((⟨A, alive, old⟩ : RefRun).arrive x).arrivals xs = _
      rw [e, ih _ alive _ hal hu.2]
      rfl
  obtain ⟨h1, h2, new, h3, h4⟩ := C147_machine_partial hord env hc net hs xs r [] hr hp hw
  have hk := key xs (deviceOf r.st) r.alive [] hal hu
  rw [hk] at h1 h2 h3
  simp only [List.nil_append] at h3
  refine ⟨h1, fun i => ?_, ?_⟩
  · show (r.arrivals (LocalNode.deliver env net) xs).alive i = true
    rw [h2]; exact hal i
  · show (r.arrivals (LocalNode.deliver env net) xs).st.mgr.log = _
    rw [h4, ← h3]
    rfl

/-- C147 (the part that holds). From outside there is nothing else: two devices with the same objects, interfaces and last transaction number cannot be told apart by any datagrams. -/
theorem C147_same_partial {ord : List Int → List Int} (hord : ValidOrder ord) (env env' : Env) (hc : CodeStable env) (hc' : CodeStable env') (net net' : Net) (hs : NetWorks net) (hs' : NetWorks net')
    (r s : Running LocalNode) (hr : Reachable ord r.st) (hr' : Reachable ord s.st) (hp : PlainNode env r.st) (hp' : PlainNode env' s.st) (hw : CanSend r.st.mgr) (hw' : CanSend s.st.mgr)
    (h : deviceOf r.st = deviceOf s.st) (hal : r.alive = s.alive) (xs : List Arrival) :
    ∃ new, (r.arrivals (LocalNode.deliver env net) xs).st.mgr.log = r.st.mgr.log ++ new ∧ (s.arrivals (LocalNode.deliver env' net') xs).st.mgr.log = s.st.mgr.log ++ new ∧
      (r.arrivals (LocalNode.deliver env net) xs).alive = (s.arrivals (LocalNode.deliver env' net') xs).alive := by
  obtain ⟨-, h2, new, h3, h4⟩ := C147_machine_partial hord env hc net hs xs r [] hr hp hw
  obtain ⟨-, h2', new', h3', h4'⟩ := C147_machine_partial hord env' hc' net' hs' xs s [] hr' hp' hw'
  rw [← h, ← hal] at h2' h3'
  have e : new = new' := List.append_cancel_left (h3.symm.trans h3')
  rw [← e] at h4'
  exact ⟨_, h4, h4', by rw [h2, h2']⟩

theorem exRunning_reach : Reachable List.dedup exRunning :=
  ⟨_, _, _, by intro op h; rcases List.mem_cons.mp h with rfl | h; trivial; rw [List.mem_singleton.mp h]; trivial, rfl⟩

def exAsker : Addr := ("10.0.0.9", 3610)

/-- A request to the device. -/
def exTo (esv : Int) (props : List PProp) (tid : Int := 5) (deoj : Int := 0x029101) : Msg := { tid := tid, seoj := 0x05FF01, deoj := deoj, esv := esv, props := props }

/-- Datagrams a device does not treat as the standard says: a write with confirmation to a property that may only be read; one to a property that is not there, without; a request for an
announcement; an announcement to be confirmed; a write-read request with a property that is not there; a read of all instances of a class; a read with transaction number 0. -/
def exOdd : List Msg :=
  [exTo 0x61 [⟨0x81, [1]⟩], exTo 0x60 [⟨0xC0, [1]⟩], exTo 0x63 [⟨0x80, []⟩], exTo 0x74 [⟨0x80, [0x30]⟩],
   { exTo 0x6E [] with setProps := [⟨0x80, [0x31]⟩], getProps := [⟨0xC0, []⟩] }, exTo 0x62 [⟨0x80, []⟩] 5 0x029100, exTo 0x62 [⟨0x80, []⟩] 0]

/-- C147 (violated). Each of them is a message anyone may send; none is answered by a device as it should be. -/
theorem C147_standard_false : ∀ m ∈ exOdd, Encodable m ∧
    let r := (⟨exRunning, fun _ => true⟩ : Running LocalNode).arrive (LocalNode.deliver exEnv okNet) ⟨0, encode m, exAsker⟩
    r.st.mgr.log ≠ exRunning.mgr.log ++ ((deviceOf exRunning).standard (encode m) exAsker).2.map fun s => (s, (s.bytes.length : Int)) := by
  intro m hm
  have hall : exOdd.all (fun m => decide (Encodable m) && decide (((deviceOf exRunning).actual (encode m) exAsker).2.1 ≠ ((deviceOf exRunning).standard (encode m) exAsker).2)) = true := by
    decide +kernel
  have h := List.all_eq_true.mp hall m hm
  simp only [Bool.and_eq_true, decide_eq_true_eq] at h
  refine ⟨h.1, ?_⟩
  intro r e
  obtain ⟨-, -, new, h3, h4⟩ := C147_machine_partial (fun l => ⟨l.nodup_dedup, fun _ => List.mem_dedup⟩) exEnv exEnv_stable okNet (fun _ _ _ _ => rfl)
    [⟨0, encode m, exAsker⟩] ⟨exRunning, fun _ => true⟩ [] exRunning_reach exRunning_plain exRunning_own.2
  have e2 := List.append_cancel_left (h4.symm.trans e)
  have hinj := List.map_injective_iff.mpr (fun (a b : Sent) (h : (a, (a.bytes.length : Int)) = (b, (b.bytes.length : Int))) => congrArg Prod.fst h) e2
  have h5 : ([] : List Sent) ++ ((deviceOf exRunning).actual (encode m) exAsker).2.1 = [] ++ new := h3
  exact h.2 ((List.append_cancel_left h5).trans hinj)

/-- C147 (violated). Nor does a controller answer as the object that was asked. -/
theorem C147_controller_false : ∃ (D : RefDevice) (m : Msg), Encodable m ∧ D = deviceOf (runOps List.dedup (LocalNode.new List.dedup ⟨[], 0, 0⟩ true).1 [.add exObj, .start okNet none]) ∧
    (D.actual (encode m) exAsker).2.1 ≠ (D.standard (encode m) exAsker).2 :=
  ⟨_, exTo 0x62 [⟨0x80, []⟩], by decide, rfl, by decide +kernel⟩

/-- a sufficient condition for a message not to be among those -/
theorem not_differs (D : RefDevice) (m : Msg) (h1 : Encodable m) (h2 : m = onWire m) (h3 : (encode m).length ≤ 1024)
    (h4 : ((D.things m.deoj).all fun t => t.serves && (decide (m.esv = 0x62) || (decide (m.esv = 0x61) && t.canSetAll m.props) || (decide (m.esv = 0x60) && m.props.all fun i => t.knows i.code))) = true)
    (h5 : m.deoj % 256 ≠ 0) (h6 : m.tid ≠ 0) (h7 : D.ctl = false) : ¬ D.Differs (encode m) := by
  have hr : readMsg (encode m) = some m := by
    have := readMsg_enc m h1 []
    rwa [List.append_nil, ← h2] at this
  rintro (h | h | ⟨m', k1, -, k2⟩)
  · omega
  · rw [hr] at h; cases h
  · rw [hr] at k1
    injection k1 with k1
    rw [← k1] at k2
    rcases k2 with k2 | ⟨t, kt, k2⟩
    · exact h5 k2
    · rw [kt] at h4
      simp only [Option.all_some, Bool.and_eq_true, Bool.or_eq_true, decide_eq_true_eq] at h4
      rcases k2 with k2 | k2 | k2
      · exact h6 k2
      · rw [h7] at k2; cases k2
      · unfold Thing.Differs at k2
        obtain ⟨g1, g2⟩ := h4
        rcases k2 with k2 | k2 | k2 | k2 | k2 | k2
        · rw [g1] at k2; cases k2
        · omega
        · omega
        · rcases g2 with (g2 | g2) | g2
          · omega
          · rw [g2.2] at k2; cases k2.2
          · omega
        · rcases g2 with (g2 | g2) | g2
          · omega
          · omega
          · obtain ⟨-, i, hi, hk⟩ := k2
            have := List.all_eq_true.mp g2.2 i hi
            rw [hk] at this
            cases this
        · omega

theorem usual_cons (D : RefDevice) (x : Arrival) (xs : List Arrival) (h : ¬ D.Differs x.bytes) (h' : (D.standard x.bytes x.src).1.Usual xs) : D.Usual (x :: xs) := ⟨h, h'⟩

/-- a confirmed write, a read of two properties of which one may not be read -/
def exUsual : List Arrival :=
  [⟨0, encode (exTo 0x61 [⟨0x80, [0x31]⟩]), exAsker⟩, ⟨1, encode (exTo 0x62 [⟨0x80, []⟩, ⟨0xB0, []⟩]), exAsker⟩]

theorem exUsual_usual : (deviceOf exRunning).Usual exUsual := by
  refine usual_cons _ _ _ ?_ (usual_cons _ _ _ ?_ trivial)
  · exact not_differs _ (exTo 0x61 [⟨0x80, [0x31]⟩]) (by decide) (by decide) (by decide) (by decide +kernel) (by decide) (by decide) (by decide +kernel)
  · generalize hD : ((deviceOf exRunning).standard _ _).1 = D
    have h4 : ((((deviceOf exRunning).standard (encode (exTo 0x61 [⟨0x80, [0x31]⟩])) exAsker).1.things 0x029101).all fun t => t.serves) = true := by decide +kernel
    have h7 : ((deviceOf exRunning).standard (encode (exTo 0x61 [⟨0x80, [0x31]⟩])) exAsker).1.ctl = false := by decide +kernel
    rw [show ((deviceOf exRunning).standard (encode (exTo 0x61 [⟨0x80, [0x31]⟩])) exAsker).1 = D from hD] at h4 h7
    exact not_differs D (exTo 0x62 [⟨0x80, []⟩, ⟨0xB0, []⟩]) (by decide) (by decide) (by decide)
      (by show ((D.things 0x029101).all fun t => t.serves && _) = true
          cases hx : D.things 0x029101 with
          | none => rfl
          | some t => rw [hx] at h4; simp only [Option.all_some] at h4 ⊢; rw [h4]; rfl) (by decide) (by decide) h7

/-- The hypotheses of `C147_standard_partial` are met by a device to which someone writes a property with confirmation and reads two, of which one may not be read; what it sends is not nothing. -/
example : Reachable List.dedup exRunning ∧ PlainNode exEnv exRunning ∧ CanSend exRunning.mgr ∧ CodeStable exEnv ∧ NetWorks okNet ∧ (deviceOf exRunning).Usual exUsual ∧
    ((deviceOf exRunning).standards exUsual).2.map (fun s => (s.dest, s.bytes)) =
      [(exAsker, encode { tid := 5, seoj := 0x029101, deoj := 0x05FF01, esv := 0x71, props := [⟨0x80, []⟩] }),
       (exAsker, encode { tid := 5, seoj := 0x029101, deoj := 0x05FF01, esv := 0x52, props := [⟨0x80, [0x31]⟩, ⟨0xB0, []⟩] })] :=
  ⟨exRunning_reach, exRunning_plain, exRunning_own.2, exEnv_stable, fun _ _ _ _ => rfl, exUsual_usual, by decide +kernel⟩

end Uecho
