/- C69: what a single datagram can do to a running node. -/
import Verif.Lemmas.Running
import Verif.Props.EndToEnd

namespace Uecho
open Spec

/-- What arrives at a thread that has ended is as if it had not been sent. -/
theorem dead_ignored {σ : Type} (deliver : σ → Msg → σ × Option Exc) (i : Nat) (xs : List Arrival) : ∀ r : Running σ, r.alive i = false →
    r.arrivals deliver xs = r.arrivals deliver (xs.filter fun x => decide (x.thread ≠ i)) := by
  induction xs with
  | nil => intro r _; rfl
  | cons x xs ih =>
    intro r h
    by_cases hx : x.thread = i
    · have e1 : r.arrive deliver x = r := by
        unfold Running.arrive
        rw [hx, h]
        rfl
      rw [List.filter_cons_of_neg (by simp [hx])]
      show (r.arrive deliver x).arrivals deliver xs = _
      rw [e1]
      exact ih r h
    · rw [List.filter_cons_of_pos (by simp [hx])]
      show (r.arrive deliver x).arrivals deliver xs = (r.arrive deliver x).arrivals deliver _
      apply ih
      unfold Running.arrive
      split
      · simp only []
        rw [if_neg (fun e => hx e.symm)]
        exact h
      · exact h

/-- C69 (violated). One byte: after it nothing that arrives at the same socket has any effect, whatever the
receiver is and whatever arrives. -/
theorem C69_one_byte_false {σ : Type} (deliver : σ → Msg → σ × Option Exc) (r : Running σ) (i : Nat) (a : Addr) (later : List Arrival) (h : ∀ x ∈ later, x.thread = i) :
    (r.arrivals deliver (⟨i, [0x10], a⟩ :: later)).st = r.st := by
  show ((r.arrive deliver ⟨i, [0x10], a⟩).arrivals deliver later).st = _
  have h1 : (r.arrive deliver ⟨i, [0x10], a⟩).alive i = false ∧ (r.arrive deliver ⟨i, [0x10], a⟩).st = r.st := by
    unfold Running.arrive
    simp only []
    by_cases ha : r.alive i = true
    · rw [if_pos ha]
      have : recvOne deliver r.st [0x10] a = (r.st, false) := rfl
      rw [this]
      exact ⟨if_pos rfl, rfl⟩
    · rw [if_neg ha]
      exact ⟨by simpa using ha, rfl⟩
  rw [dead_ignored deliver i later _ h1.1, List.filter_eq_nil_iff.mpr (by intro x hx; simp [h x hx])]
  exact h1.2

/-- A well-formed request: write nothing, read property 0xFF of the node profile. -/
def exUnknownGet : Msg := { tid := 1, seoj := 0x0EF001, deoj := 0x0EF001, esv := 0x6E, getProps := [{ code := 0xFF }] }

/-- C69 (violated). Any node, with any history, can be disabled so by one well-formed request to its node
profile (as long as that is still its own, and its observers do not raise). -/
theorem C69_write_read_false {ord : List Int → List Int} (hord : ValidOrder ord) {n : LocalNode} (hr : Reachable ord n) (hown : OwnProfile n)
    (env : Env) (net : Net) (hq : ∀ m, Quiet env n.profile m) (alive : Nat → Bool) (i : Nat) (a : Addr) (later : List Arrival) (h : ∀ x ∈ later, x.thread = i) :
    FitsDatagram exUnknownGet ∧
    let n' := ((⟨n, alive⟩ : Running LocalNode).arrive (LocalNode.deliver env net) ⟨i, encode exUnknownGet, a⟩)
    n'.alive i = false ∧ n'.st.mgr.log = n.mgr.log ∧ (n'.arrivals (LocalNode.deliver env net) later).st = n'.st := by
  refine ⟨by decide +kernel, ?_⟩
  intro n'
  have hinv := reachable_inv hord hr
  have hd : Decodes (encode exUnknownGet) a { exUnknownGet with fromAddr := some a } := decodes_encode exUnknownGet (by decide) (by decide +kernel) a
  obtain ⟨hm, hrec, -, -⟩ := received_decoded hd
  have hunk : lookup n.profile.props 0xFF = none := by
    have hp := hinv.prof.props 0xFF
    have hg : (deviceProp 0x0E 0xF0 0xFF).map OProp.attrGet = none := by decide +kernel
    rw [← hp] at hg
    cases hl : lookup n.profile.props 0xFF with
    | none => rfl
    | some p => rw [hl] at hg; cases hg
  have hres : (n.profile.messageReceived env { exUnknownGet with fromAddr := some a }).result = .error .attributeError := by
    rw [messageReceived_quiet env n.profile _ (hq _),
      handle_write_read_unknown env n.profile _ hinv.prof.wf hinv.prof.handler rfl ⟨{ code := 0xFF }, by simp [exUnknownGet], hunk⟩]
  have hdel : ∃ x, LocalNode.deliver env net n { exUnknownGet with fromAddr := some a } = (x, some .attributeError) ∧ x.mgr.log = n.mgr.log := by
    unfold LocalNode.deliver
    rw [messageReceived_eq env net n _ hm, hrec, show ({ exUnknownGet with fromAddr := some a } : Msg).deoj % 2 ^ 24 = 0x0EF001 from rfl, hown]
    simp only [LocalNode.deref, LocalNode.putBack]
    rw [hres]
    exact ⟨_, rfl, rfl⟩
  obtain ⟨x, hx, hlog⟩ := hdel
  have hn' : n'.alive i = false ∧ n'.st.mgr.log = n.mgr.log := by
    show ((⟨n, alive⟩ : Running LocalNode).arrive (LocalNode.deliver env net) ⟨i, encode exUnknownGet, a⟩).alive i = false ∧
      ((⟨n, alive⟩ : Running LocalNode).arrive (LocalNode.deliver env net) ⟨i, encode exUnknownGet, a⟩).st.mgr.log = n.mgr.log
    unfold Running.arrive
    simp only []
    by_cases ha : alive i = true
    · rw [if_pos ha, recvOne_ok _ n _ a _ hd, hx]
      exact ⟨if_pos rfl, hlog⟩
    · rw [if_neg ha]
      exact ⟨by simpa using ha, rfl⟩
  refine ⟨hn'.1, hn'.2, ?_⟩
  rw [dead_ignored _ i later _ hn'.1, List.filter_eq_nil_iff.mpr (by intro y hy; simp [h y hy])]
  rfl

/-- C69 (the part that holds). The datagrams that end a thread of a node without user code that raises are
exactly those that are not a message and the write-read requests that get an unknown property; they end no
other thread. -/
theorem C69_exactly_partial {ord : List Int → List Int} (hord : ValidOrder ord) (r : Running LocalNode) (hr : Reachable ord r.st) (env : Env) (hc : CodeStable env)
    (hp : PlainNode env r.st) (net : Net) (hs : NetWorks net) (hw : CanSend r.st.mgr) (x : Arrival) :
    (r.alive x.thread = true → ((r.arrive (LocalNode.deliver env net) x).alive x.thread = true ↔
      ∃ m, Decodes x.bytes x.src m ∧ ¬ (m.esv = 0x6E ∧ ∃ o, r.st.getObject (.int m.deoj) = some o ∧ o.handler = .self_ ∧ ∃ i ∈ m.getProps, lookup o.props i.code = none))) ∧
    ∀ i, i ≠ x.thread → (r.arrive (LocalNode.deliver env net) x).alive i = r.alive i := by
  obtain ⟨h1, -⟩ := plain_datagram hord hr hc hp net hs hw x.bytes x.src
  refine ⟨fun ha => ?_, fun i hi => ?_⟩
  · unfold Running.arrive
    rw [if_pos ha]
    simp only [if_true]
    rw [h1]
    unfold Harmful UnknownGet
    constructor
    · intro h
      by_contra hcon
      apply h
      intro m hm
      by_contra hu
      exact hcon ⟨m, hm, hu⟩
    · rintro ⟨m, hm, hu⟩ h
      exact hu (h m hm)
  · unfold Running.arrive
    split
    · exact if_neg hi
    · rfl

theorem arrivals_inv {ord : List Int → List Int} (hord : ValidOrder ord) (env : Env) (hc : CodeStable env) (net : Net) (hs : NetWorks net) (xs : List Arrival) :
    ∀ r : Running LocalNode, Reachable ord r.st → PlainNode env r.st → CanSend r.st.mgr → (∀ x ∈ xs, ¬ Harmful r.st x.bytes x.src) →
      let r' := r.arrivals (LocalNode.deliver env net) xs
      r'.alive = r.alive ∧ Reachable ord r'.st ∧ PlainNode env r'.st ∧ CanSend r'.st.mgr := by
  induction xs with
  | nil => intro r h1 h2 h3 _; exact ⟨rfl, h1, h2, h3⟩
  | cons x xs ih =>
    intro r h1 h2 h3 h4
    obtain ⟨k1, k2, k3, k4, k5⟩ := plain_datagram hord h1 hc h2 net hs h3 x.bytes x.src
    by_cases ha : r.alive x.thread = true
    · have e : r.arrive (LocalNode.deliver env net) x = ⟨(recvOne (LocalNode.deliver env net) r.st x.bytes x.src).1, r.alive⟩ := by
        unfold Running.arrive
        rw [if_pos ha]
        simp only [Running.mk.injEq, true_and]
        funext i
        split
        · rename_i e
          rw [e, ha, k1]
          exact h4 x List.mem_cons_self
        · rfl
      have hc : r.arrivals (LocalNode.deliver env net) (x :: xs) = (r.arrive (LocalNode.deliver env net) x).arrivals (LocalNode.deliver env net) xs := rfl
      rw [hc, e]
      exact ih ⟨(recvOne (LocalNode.deliver env net) r.st x.bytes x.src).1, r.alive⟩ k2 k3 k4
        (fun y hy hh => h4 y (List.mem_cons_of_mem _ hy) ((k5 _ _).mp hh))
    · have e : r.arrive (LocalNode.deliver env net) x = r := by
        unfold Running.arrive
        rw [if_neg ha]
      have hc : r.arrivals (LocalNode.deliver env net) (x :: xs) = (r.arrive (LocalNode.deliver env net) x).arrivals (LocalNode.deliver env net) xs := rfl
      rw [hc, e]
      exact ih r h1 h2 h3 (fun y hy => h4 y (List.mem_cons_of_mem _ hy))

/-- C69 (the part that holds). After any number of other datagrams, from anybody, at any of its sockets, every
thread of the node is running, and the next request for which the addressed object has an answer is answered
with one datagram to its sender. What is missing for C69 are the datagrams of `C69_exactly_partial`. -/
theorem C69_goes_on_partial {ord : List Int → List Int} (hord : ValidOrder ord) (r : Running LocalNode) (hr : Reachable ord r.st) (env : Env) (hc : CodeStable env)
    (hp : PlainNode env r.st) (net : Net) (hs : NetWorks net) (hw : CanSend r.st.mgr) (xs : List Arrival) (hx : ∀ x ∈ xs, ¬ Harmful r.st x.bytes x.src) :
    let r' := r.arrivals (LocalNode.deliver env net) xs
    r'.alive = r.alive ∧
    ∀ (x : Arrival) (m : Msg) (o : Obj) (res : Msg), r.alive x.thread = true → Decodes x.bytes x.src m → r'.st.getObject (.int m.deoj) = some o →
      (o.messageReceived env m).result = .ok (some res) → ¬ (res.esv = 0x73 ∨ res.esv = 0x74) →
      (r'.arrive (LocalNode.deliver env net) x).alive = r.alive ∧
      ∃ j t, (r'.arrive (LocalNode.deliver env net) x).st.mgr.log = r'.st.mgr.log ++
        [(⟨j, x.src, encode { res with tid := t, seoj := if r'.st.controller = true then 0x0EF001 else res.seoj }⟩,
          ((encode { res with tid := t, seoj := if r'.st.controller = true then 0x0EF001 else res.seoj }).length : Int))] ∧ (res.tid ≠ 0 → t = res.tid) := by
  intro r'
  obtain ⟨h1, h2, h3, h4⟩ := arrivals_inv hord env hc net hs xs r hr hp hw hx
  refine ⟨h1, ?_⟩
  intro x m o res halive hd ho hres hn
  have halive' : r'.alive x.thread = true := by rw [h1]; exact halive
  obtain ⟨k1, -⟩ := plain_node hord h2 hc h3 net hs h4 x.bytes x.src m hd
  obtain ⟨hm, hrec, ha, hdr⟩ := received_decoded hd
  have hno : ¬ UnknownGet r'.st m := by
    rintro ⟨e, o', ho', hh, hu⟩
    rw [ho] at ho'
    injection ho' with ho'
    subst ho'
    have := (plain_receive env o (h3 _ _ ho) m hm).2.2.1.mpr ⟨e, hh, hu⟩
    exact this ⟨_, hres⟩
  have hok := k1.mpr hno
  have hnot : ESV.isNotification res.esv = false := by
    unfold ESV.isNotification ESV.NOTIFICATION ESV.NOTIFICATION_RESPONSE_REQUIRED
    rw [if_neg (by omega), if_neg (by omega)]
  obtain ⟨s, hg, hso⟩ := Option.map_eq_some_iff.mp ho
  change Dict.get? r'.st.node.objects m.deoj = some s at hg
  have heq := messageReceived_eq env net r'.st m hm
  rw [Int.emod_eq_of_lt hdr.1 hdr.2, hg] at heq
  simp only [] at heq
  rw [hso, hrec, hres] at heq
  simp only [] at heq
  have hmgr : (r'.st.putBack m.deoj s (o.messageReceived env m).obj).mgr = r'.st.mgr ∧
      (r'.st.putBack m.deoj s (o.messageReceived env m).obj).controller = r'.st.controller := by cases s <;> exact ⟨rfl, rfl⟩
  obtain ⟨i, t, j1, j2, j3, j4⟩ := answer_sent net (r'.st.putBack m.deoj s (o.messageReceived env m).obj) m res x.src hnot ha
    ((plain_receive env o (h3 _ _ ho) m hm).2.2.2 res hres) (by rw [hmgr.1]; exact h4) hs
  have hout : ∀ t, ({ outgoing (r'.st.putBack m.deoj s (o.messageReceived env m).obj) res with tid := t } : Msg) =
      { res with tid := t, seoj := if r'.st.controller = true then 0x0EF001 else res.seoj } := by
    intro t
    unfold outgoing
    rw [hmgr.2]
    cases r'.st.controller <;> rfl
  rw [hout, hmgr.1] at j2
  have e : r'.arrive (LocalNode.deliver env net) x = ⟨(r'.st.messageReceived env net m).1, r.alive⟩ := by
    unfold Running.arrive
    rw [if_pos halive', recvOne_ok _ r'.st _ _ m hd, hok]
    simp only [Option.isNone_none, Running.mk.injEq]
    refine ⟨?_, ?_⟩
    · unfold LocalNode.deliver
      rcases r'.st.messageReceived env net m with ⟨z, u | u⟩ <;> rfl
    · funext i
      split
      · rename_i e
        rw [e, halive]
      · rw [h1]
  rw [e]
  refine ⟨rfl, i, t, ?_, j3⟩
  rw [heq]
  exact j2

/-! ### The hypotheses can be met -/

theorem lookup_length (l : List (Int × OProp)) (k : Nat) (h : l.all (fun x => decide (x.2.data.length ≤ k)) = true) (c : Int) (p : OProp) (hp : lookup l c = some p) :
    p.data.length ≤ k := by
  induction l with
  | nil => cases hp
  | cons x l ih =>
    rw [List.all_cons, Bool.and_eq_true] at h
    unfold lookup at hp
    split at hp
    · injection hp with hp
      rw [← hp]
      exact of_decide_eq_true h.1
    · exact ih h.2 hp

/-- a started node with one device -/
def exRunning : LocalNode := runOps List.dedup (LocalNode.new List.dedup ⟨[], 0, 0⟩ false).1 [.add exObj, .start okNet none]

theorem exRunning_plain : PlainNode exEnv exRunning := by
  have h : exRunning.node.objects.all (fun s => decide (WellFormed (exRunning.deref s.2)) && decide ((exRunning.deref s.2).handler = .self_) &&
      (exRunning.deref s.2).props.all (fun x => decide (x.2.data.length ≤ 255))) = true := by decide +kernel
  intro c o ho
  obtain ⟨s, hg, rfl⟩ := Option.map_eq_some_iff.mp ho
  have := List.all_eq_true.mp h (c, s) (Dict.mem_of_get? _ _ _ hg)
  simp only [Bool.and_eq_true, decide_eq_true_eq] at this
  exact ⟨this.1.1, .inl this.1.2, fun _ _ _ => rfl, fun c p => lookup_length _ _ this.2 c p⟩

theorem exRunning_own : OwnProfile exRunning ∧ CanSend exRunning.mgr := by
  have h : ((Dict.get? exRunning.node.objects 0x0EF001).map fun | .profile => true | _ => false) = some true ∧ (working exRunning.mgr.servers).isEmpty = false := by
    decide +kernel
  constructor
  · unfold OwnProfile
    obtain ⟨s, h1, h2⟩ := Option.map_eq_some_iff.mp h.1
    rw [h1]
    cases s with
    | profile => rfl
    | user o => cases h2
  · intro e
    rw [e] at h
    cases h.2

example : Reachable List.dedup exRunning ∧ PlainNode exEnv exRunning ∧ CanSend exRunning.mgr ∧ CodeStable exEnv ∧ NetWorks okNet ∧ OwnProfile exRunning ∧
    (∀ m, Quiet exEnv exRunning.profile m) :=
  ⟨⟨_, _, _, by intro op h; rcases List.mem_cons.mp h with rfl | h; trivial; rw [List.mem_singleton.mp h]; trivial, rfl⟩, exRunning_plain,
    exRunning_own.2, exEnv_stable, fun _ _ _ _ => rfl, exRunning_own.1, fun _ _ _ => rfl⟩

/-- A request that is not harmful, and one that is. -/
example (a : Addr) : ¬ Harmful exRunning (encode { ReadRequest 0x029101 with tid := 5, props := [{ code := 0x80 }] }) a ∧ Harmful exRunning (encode exUnknownGet) a := by
  constructor
  · intro h
    have := h _ (decodes_encode { ReadRequest 0x029101 with tid := 5, props := [{ code := 0x80 }] } (by decide) (by decide +kernel) a)
    exact absurd this.1 (show (0x62 : Int) ≠ 0x6E by decide)
  · intro m hm
    rw [decodes_unique hm (decodes_encode exUnknownGet (by decide) (by decide +kernel) a)]
    have h : exRunning.profile.handler = .self_ ∧ lookup exRunning.profile.props 0xFF = none := by
      have : exRunning.profile.handler = .self_ ∧ (lookup exRunning.profile.props 0xFF).isNone = true := by decide +kernel
      exact ⟨this.1, Option.isNone_iff_eq_none.mp this.2⟩
    exact ⟨rfl, exRunning.profile, congrArg (Option.map exRunning.deref) exRunning_own.1, h.1, { code := 0xFF }, List.mem_singleton.mpr rfl, h.2⟩

end Uecho
