/- C155, C156: what is told of a node was so. -/
import Verif.Lemmas.Once
import Verif.Props.Polite

namespace Uecho
open Spec

/-- The node at an address, device or controller, holds these data in a property of an object. -/
def RealHolds (N : RealNet) (ip : String) (o c : Int) (b : Bytes) : Prop :=
  (∃ r e, N.devices ip = some r ∧ nodeEntry r.st o c = some e ∧ e.data = b) ∨ ∃ r e, N.controllers ip = some r ∧ nodeEntry r.st.ln o c = some e ∧ e.data = b

theorem realHolds_iff (N : RealNet) (ip : String) (o c : Int) (b : Bytes) : (homeOf N).Holds ip o c b ↔ RealHolds N ip o c b := by
  constructor
  · rintro (⟨R, e, h1, h2, h3⟩ | ⟨R, e, h1, h2, h3⟩)
    · obtain ⟨r, hr, rfl⟩ := home_devices h1
      exact .inl ⟨r, e, hr, by rw [nodeEntry_eq]; exact h2, h3⟩
    · obtain ⟨r, hr, rfl⟩ := home_controllers h1
      exact .inr ⟨r, e, hr, by rw [nodeEntry_eq]; exact h2, h3⟩
  · rintro (⟨r, e, h1, h2, h3⟩ | ⟨r, e, h1, h2, h3⟩)
    · exact .inl ⟨runOf r, e, by show (N.devices ip).map runOf = _; rw [h1]; rfl, by rw [nodeEntry_eq] at h2; exact h2, h3⟩
    · exact .inr ⟨ctlRunOf r, e, by show (N.controllers ip).map ctlRunOf = _; rw [h1]; rfl, by rw [nodeEntry_eq] at h2; exact h2, h3⟩

/-- A device and no controller is at this address. -/
def DeviceOnly (N : RealNet) (ip : String) : Prop := N.controllers ip = none ∧ ∀ r, N.devices ip = some r → r.st.controller = false

/-- C155, for networks that are somewhere in their history. -/
theorem fresh_fit {ord : List Int → List Int} (hord : ValidOrder ord) (env : Env) (hc : CodeStable env) (cenv : CEnv) (hcalm : Calm cenv) (net : Net) (hs : NetWorks net)
    (N : RealNet) (h : NetFit ord env N) (hno : N.controllers "224.0.23.0" = none) (ip : String) (t : Int)
    (hquiet : ∀ dst m, dst = ip ∨ dst = "224.0.23.0" → N.Said sentBy sentByCtl dst m → Tells m → m.tid ≠ t) (hnew : ∀ r m, N.controllers ip = some r → r.st.last.response = some m → Tells m → m.tid ≠ t)
    (es : List Incident) (hf : ∀ e ∈ es, e.Fair) (hmay : N.May (nodeUse env net) (ctlUse ord env cenv net) sentBy sentByCtl es) (hh : RefNet.Honestly (freshData ord) (homeOf N) es) :
    ∀ r m, (N.run (nodeUse env net) (ctlUse ord env cenv net) es).1.controllers ip = some r → r.st.last.response = some m → Tells m → m.tid = t →
      ∃ a, m.fromAddr = some a ∧ ∀ i ∈ m.props,
        (∃ k o, RealHolds (N.run (nodeUse env net) (ctlUse ord env cenv net) (es.take k)).1 a.1 o i.code i.data) ∧
        (DeviceOnly N a.1 → ∃ k, RealHolds (N.run (nodeUse env net) (ctlUse ord env cenv net) (es.take k)).1 a.1 m.seoj i.code i.data) := by
  intro r m hr hm ht htid
  obtain ⟨k1, -, k3⟩ := home_run hord hc hcalm net hs es N h hf
  let H : String → Int → Int → Bytes → Prop := fun x o c b => ∃ k, RealHolds (N.run (nodeUse env net) (ctlUse ord env cenv net) (es.take k)).1 x o c b
  let O : Int → Prop := fun _ => True
  let Sel : String → Int → Prop := fun dst t' => (dst = ip ∨ dst = everyone) ∧ t' = t
  have hn : ∀ k, Noted H ((homeOf N).run RefRun.use (RefCtlRun.use (freshData ord)) (es.take k)).1 := by
    intro k x o c b hx
    have := (home_run hord hc hcalm net hs (es.take k) N h fun e he => hf e (List.mem_of_mem_take he)).1
    rw [← this, realHolds_iff] at hx
    exact ⟨k, hx⟩
  have hsent : ∀ ip' s, ((∃ r, N.devices ip' = some r ∧ s ∈ sentBy r) ∨ ∃ r, N.controllers ip' = some r ∧ s ∈ sentByCtl r) → TrueSent H O Sel (DeviceOnly N) ip' s := by
    intro ip' s hs' m hm
    refine ⟨fun _ => trivial, fun hsel ht => ?_⟩
    exact absurd hsel.2 (hquiet s.dest.1 m hsel.1 ⟨ip', s, hs', rfl, hm⟩ ht)
  have h0 : AllTrue H O Sel (DeviceOnly N) (freshData ord) (homeOf N) := by
    refine ⟨fun ip' R hR => ?_, fun ip' R hR => ?_⟩
    · obtain ⟨r, hr, rfl⟩ := home_devices hR
      exact ⟨plain_short (h.dev ip' r hr).plain, fun hp => hp.2 r hr, fun s hs' => hsent ip' s (.inl ⟨r, hr, hs'⟩)⟩
    · obtain ⟨r', hr', rfl⟩ := home_controllers hR
      have hsome : ¬ ∀ dst t', Sel dst t' := by
        intro hall
        have h1 := (hall everyone t).2
        have h2 := (hall everyone (t + 1)).2
        omega
      refine ⟨plain_short (h.ctl ip' r' hr').fit.plain, (fun hp => by have := hp.1; rw [hr'] at this; cases this), ⟨fun hall => absurd hall hsome, fun hall => absurd hall hsome, ?_⟩,
        fun s hs' => hsent ip' s (.inr ⟨r', hr', hs'⟩)⟩
      intro m' hm' hsel ht'
      have hip : ip' = ip ∨ ip' = everyone := hsel.1
      rcases hip with hip | hip
      · rw [hip] at hr'
        exact absurd hsel.2 (hnew r' m' hr' hm' ht')
      · rw [hip] at hr'
        have hr' : N.controllers "224.0.23.0" = some r' := hr'
        rw [hno] at hr'; cases hr'
  have hend := true_run (H := H) (O := O) (Sel := Sel) (Pure := DeviceOnly N) (fun dst t' hsel => ⟨.inr rfl, hsel.2⟩) trivial es (homeOf N) h0 hn hf
    (honest_uses es (homeOf N) hh hn fun e he dst m hs => ⟨fun _ => trivial, fun _ => trivial⟩) (k3.mp hmay)
  rw [← k1] at hend
  obtain ⟨a, ha, htrue⟩ := (hend.ctl ip (ctlRunOf r) (by show ((N.run (nodeUse env net) (ctlUse ord env cenv net) es).1.controllers ip).map ctlRunOf = _; rw [hr]; rfl)).2.2.1.answer m hm
    ⟨.inl rfl, htid⟩ ht
  refine ⟨a, ha, fun i hi => ?_⟩
  obtain ⟨⟨o, -, k, hk⟩, j2⟩ := htrue ht i hi
  exact ⟨⟨k, o, hk⟩, j2⟩

/-- C155. What the answer to a read says was so since it was asked: in a closed network, if no answer and no announcement with number `t` to the controller at `ip`, or to everyone, is under way when
the controller asks, then each value in the response with this number that the controller ends up with is one the node it came from has held since, and if this is a device, in the very object that
the response is from. It does not matter who else reads, writes, announces or searches meanwhile, and what is lost, repeated or delayed. -/
theorem C155_fresh {ord : List Int → List Int} (hord : ValidOrder ord) (env : Env) (hc : CodeStable env) (cenv : CEnv) (hcalm : Calm cenv) (net : Net) (hs : NetWorks net)
    (N : RealNet) (h : Built ord env N) (hno : N.controllers "224.0.23.0" = none) (ip : String) (t : Int)
    (hquiet : ∀ dst m, dst = ip ∨ dst = "224.0.23.0" → N.Said sentBy sentByCtl dst m → Tells m → m.tid ≠ t) (hnew : ∀ r m, N.controllers ip = some r → r.st.last.response = some m → Tells m → m.tid ≠ t)
    (es : List Incident) (hf : ∀ e ∈ es, e.Fair) (hmay : N.May (nodeUse env net) (ctlUse ord env cenv net) sentBy sentByCtl es) (hh : RefNet.Honestly (freshData ord) (homeOf N) es) :
    ∀ r m, (N.run (nodeUse env net) (ctlUse ord env cenv net) es).1.controllers ip = some r → r.st.last.response = some m → Tells m → m.tid = t →
      ∃ a, m.fromAddr = some a ∧ ∀ i ∈ m.props,
        (∃ k o, RealHolds (N.run (nodeUse env net) (ctlUse ord env cenv net) (es.take k)).1 a.1 o i.code i.data) ∧
        (DeviceOnly N a.1 → ∃ k, RealHolds (N.run (nodeUse env net) (ctlUse ord env cenv net) (es.take k)).1 a.1 m.seoj i.code i.data) :=
  fresh_fit hord env hc cenv hcalm net hs N (built_fit hord h) hno ip t hquiet hnew es hf hmay hh

/-! ### C156 -/

/-- A network that was just started: nothing was sent but searches, and no controller knows or has told anything. -/
def JustStarted (N : RealNet) : Prop :=
  OnlySearches N ∧ ∀ ip r, N.controllers ip = some r → r.st.found = [] ∧ (controllerOf r.st).told = [] ∧ r.st.last.response = none

/-- C156, for programs that talk with and about objects in `O` only. In a closed network that was just started every value a controller shows, or tells its listeners, of a property of a node is
what such a property holds that was never heard of, or one that some object in `O` of the node has held in that property. With the node profile alone in `O` it is the object it is shown for. -/
theorem C156_was_so_partial {ord : List Int → List Int} (hord : ValidOrder ord) (env : Env) (hc : CodeStable env) (cenv : CEnv) (hcalm : Calm cenv) (net : Net) (hs : NetWorks net)
    (N : RealNet) (h : Built ord env N) (hstart : JustStarted N) (O : Int → Prop) (hprof : O 0x0EF001)
    (es : List Incident) (hf : ∀ e ∈ es, e.Fair) (hmay : N.May (nodeUse env net) (ctlUse ord env cenv net) sentBy sentByCtl es) (hh : RefNet.Honestly (freshData ord) (homeOf N) es)
    (hO : ∀ e ∈ es, e.About O) :
    ∀ ip r, (N.run (nodeUse env net) (ctlUse ord env cenv net) es).1.controllers ip = some r →
      (∀ x X o c b, Dict.get? r.st.found x = some X → (nodeOf X).data o c = some b →
        freshData ord o c = some b ∨ (o = 0x0EF001 ∧ ∃ k o', O o' ∧ RealHolds (N.run (nodeUse env net) (ctlUse ord env cenv net) (es.take k)).1 x o' c b)) ∧
      ∀ l x o c b, (l, Told.propertyUpdated x o c b) ∈ toldAll r.st →
        o = 0x0EF001 ∧ ∃ k o', O o' ∧ RealHolds (N.run (nodeUse env net) (ctlUse ord env cenv net) (es.take k)).1 x o' c b := by
  intro ip r hr
  obtain ⟨k1, -, k3⟩ := C150_network hord env hc cenv hcalm net hs N h es hf
  let H : String → Int → Int → Bytes → Prop := fun x o c b => ∃ k, RealHolds (N.run (nodeUse env net) (ctlUse ord env cenv net) (es.take k)).1 x o c b
  let Sel : String → Int → Prop := fun _ _ => True
  have hn : ∀ k, Noted H ((homeOf N).run RefRun.use (RefCtlRun.use (freshData ord)) (es.take k)).1 := by
    intro k x o c b hx
    have := (C150_network hord env hc cenv hcalm net hs N h (es.take k) fun e he => hf e (List.mem_of_mem_take he)).1
    rw [← this, realHolds_iff] at hx
    exact ⟨k, hx⟩
  have hsent : ∀ ip' s, ((∃ r, N.devices ip' = some r ∧ s ∈ sentBy r) ∨ ∃ r, N.controllers ip' = some r ∧ s ∈ sentByCtl r) → TrueSent H O Sel (fun _ => False) ip' s := by
    intro ip' s hs' m hm
    obtain ⟨-, m', hm', hsearch⟩ := hstart.1 ip' s hs'
    rw [hm] at hm'
    injection hm' with hm'
    subst hm'
    obtain ⟨j1, -, j3, -⟩ := search_is hsearch
    refine ⟨fun _ => by rw [j3]; exact hprof, fun _ ht => ?_⟩
    unfold Tells at ht
    rw [j1] at ht
    exact absurd ht (by decide)
  have h0 : AllTrue H O Sel (fun _ => False) (freshData ord) (homeOf N) := by
    refine ⟨fun ip' R hR => ?_, fun ip' R hR => ?_⟩
    · obtain ⟨r, hr, rfl⟩ := home_devices hR
      exact ⟨plain_short (h.dev ip' r hr).2.1, fun hp => hp.elim, fun s hs' => hsent ip' s (.inl ⟨r, hr, hs'⟩)⟩
    · obtain ⟨r', hr', rfl⟩ := home_controllers hR
      obtain ⟨j1, j2, j3⟩ := hstart.2 ip' r' hr'
      refine ⟨plain_short (h.ctl ip' r' hr').2.1, id, ⟨?_, ?_, ?_⟩, fun s hs' => hsent ip' s (.inr ⟨r', hr', hs'⟩)⟩
      · intro _ x X o c b hx
        have hx : (Dict.get? r'.st.found x).map nodeOf = some X := hx
        rw [j1] at hx
        cases hx
      · intro _ l x o c b hx
        have hx : (l, Told.propertyUpdated x o c b) ∈ (controllerOf r'.st).told := hx
        rw [j2] at hx
        cases hx
      · intro m hm
        have hm : r'.st.last.response = some m := hm
        rw [j3] at hm
        cases hm
  have hend := true_run (H := H) (O := O) (Sel := Sel) (Pure := fun _ => False) (fun _ _ _ => trivial) hprof es (homeOf N) h0 hn hf (honest_uses es (homeOf N) hh hn hO) (k3.mp hmay)
  rw [← k1] at hend
  obtain ⟨-, -, hC, -⟩ := hend.ctl ip (ctlRunOf r) (by show ((N.run (nodeUse env net) (ctlUse ord env cenv net) es).1.controllers ip).map ctlRunOf = _; rw [hr]; rfl)
  refine ⟨fun x X o c b hx hb => ?_, fun l x o c b hx => ?_⟩
  · rcases hC.shown (fun _ _ => trivial) x (nodeOf X) o c b (by show (Dict.get? r.st.found x).map nodeOf = _; rw [hx]; rfl) hb with k | ⟨k, o', j1, kk, j2⟩
    · exact .inl k
    · exact .inr ⟨k, kk, o', j1, j2⟩
  · obtain ⟨k, o', j1, kk, j2⟩ := hC.told (fun _ _ => trivial) l x o c b hx
    exact ⟨k, kk, o', j1, j2⟩

/-- C156 is false beyond that: whatever is asked and whatever arrives, from within the network or not, a controller never learns a value of an object other than the node profile. It shows of each
what it supposed when it found it. -/
theorem C156_nothing_learned_false {ord : List Int → List Int} (hord : ValidOrder ord) (env : Env) (hc : CodeStable env) (cenv : CEnv) (hcalm : Calm cenv) (net : Net) (hs : NetWorks net)
    (N : RealNet) (h : Built ord env N) (hstart : ∀ ip r, N.controllers ip = some r → r.st.found = [] ∧ (controllerOf r.st).told = [] ∧ r.st.last.response = none)
    (es : List Incident) (hf : ∀ e ∈ es, e.Fair) :
    ∀ ip r, (N.run (nodeUse env net) (ctlUse ord env cenv net) es).1.controllers ip = some r →
      (∀ x X o c b, Dict.get? r.st.found x = some X → (nodeOf X).data o c = some b → o ≠ 0x0EF001 → freshData ord o c = some b) ∧
      ∀ l x o c b, (l, Told.propertyUpdated x o c b) ∈ toldAll r.st → o = 0x0EF001 := by
  intro ip r hr
  obtain ⟨k1, -, -⟩ := C150_network hord env hc cenv hcalm net hs N h es hf
  have h0 : ∀ ip R, (homeOf N).controllers ip = some R → Supposes (freshData ord) R.ctl := by
    intro ip' R hR
    obtain ⟨r', hr', rfl⟩ := home_controllers hR
    obtain ⟨j1, j2, j3⟩ := hstart ip' r' hr'
    refine ⟨?_, ?_, ?_⟩
    · intro _ x X o c b hx
      have hx : (Dict.get? r'.st.found x).map nodeOf = some X := hx
      rw [j1] at hx
      cases hx
    · intro _ l x o c b hx
      have hx : (l, Told.propertyUpdated x o c b) ∈ (controllerOf r'.st).told := hx
      rw [j2] at hx
      cases hx
    · intro m hm
      have hm : r'.st.last.response = some m := hm
      rw [j3] at hm
      cases hm
  have hend := supposes_run es (homeOf N) h0
  rw [← k1] at hend
  have hC := hend ip (ctlRunOf r) (by show ((N.run (nodeUse env net) (ctlUse ord env cenv net) es).1.controllers ip).map ctlRunOf = _; rw [hr]; rfl)
  refine ⟨fun x X o c b hx hb ho => ?_, fun l x o c b hx => (hC.told (fun _ _ => trivial) l x o c b hx).1⟩
  rcases hC.shown (fun _ _ => trivial) x (nodeOf X) o c b (by show (Dict.get? r.st.found x).map nodeOf = _; rw [hx]; rfl) hb with k | ⟨k, -⟩
  · exact k
  · exact absurd k ho

/-! ### An evening -/

/-- The light is switched on; the controller searches and the light answers; the controller asks the light for its state; it answers. -/
def exLamp : List Incident := [
  .device "10.0.0.9" (.store 0x029101 0x80 [0x31]),
  .controller "10.0.0.2" .search,
  .device "10.0.0.9" (.arrive ⟨0, [0x10, 0x81, 0, 2, 0x0E, 0xF0, 1, 0x0E, 0xF0, 1, 0x62, 1, 0xD6, 0], ("10.0.0.2", 3610)⟩),
  .controller "10.0.0.2" (.device (.arrive ⟨0, [0x10, 0x81, 0, 2, 0x0E, 0xF0, 1, 0x0E, 0xF0, 1, 0x72, 1, 0xD6, 4, 1, 2, 0x91, 1], ("10.0.0.9", 3610)⟩)),
  .controller "10.0.0.2" (.post { deoj := 0x029101, esv := 0x62, props := [{ code := 0x80 }] } (.str "10.0.0.9")),
  .device "10.0.0.9" (.arrive ⟨0, [0x10, 0x81, 0, 3, 0x0E, 0xF0, 1, 2, 0x91, 1, 0x62, 1, 0x80, 0], ("10.0.0.2", 3610)⟩),
  .controller "10.0.0.2" (.device (.arrive ⟨0, [0x10, 0x81, 0, 3, 2, 0x91, 1, 0x0E, 0xF0, 1, 0x72, 1, 0x80, 1, 0x31], ("10.0.0.9", 3610)⟩))]

theorem exLamp_fair : ∀ e ∈ exLamp, e.Fair := by
  intro e he
  simp only [exLamp, List.mem_cons, List.not_mem_nil, or_false] at he
  rcases he with rfl | rfl | rfl | rfl | rfl | rfl | rfl
  · exact ⟨by decide, by decide⟩
  all_goals trivial

theorem exLamp_honest : RefNet.Honestly (freshData List.dedup) (homeOf exHome) exLamp := by
  refine ⟨?_, ?_, ?_, ?_, ?_, ?_, ?_, trivial⟩ <;> intro dst m hm
  · cases hm
  · injection hm with hm
    injection hm with _ hm
    intro ht
    rw [← hm] at ht
    exact absurd (show (0x62 : Int) = 0x72 ∨ (0x62 : Int) = 0x73 from ht) (by decide)
  · cases hm
  · cases hm
  · injection hm with hm
    injection hm with _ hm
    intro ht
    rw [← hm] at ht
    exact absurd (show (0x62 : Int) = 0x72 ∨ (0x62 : Int) = 0x73 from ht) (by decide)
  · cases hm
  · cases hm

/- What one would like to know of this evening: it may happen; the response with number 3 says that the light is on; the controller shows this of the node profile of the light, which never held it,
and nothing of the light. -/
set_option synthInstance.maxSize 1000 in
theorem exLamp_ends : (mayB (freshData List.dedup) (homeOf exHome) exLamp &&
    decide ((((homeOf exHome).run RefRun.use (RefCtlRun.use (freshData List.dedup)) exLamp).1.controllers "10.0.0.2").map
      (fun R => R.ctl.answer.map fun m => (m.tid, m.seoj, m.esv, m.props.map PProp.data)) = some (some (3, 0x029101, 0x72, [[0x31]]))) &&
    decide ((((homeOf exHome).run RefRun.use (RefCtlRun.use (freshData List.dedup)) exLamp).1.controllers "10.0.0.2").map
      (fun R => (R.ctl.node "10.0.0.9").map fun X => (X.data 0x0EF001 0x80, X.data 0x029101 0x80)) = some (some (some [0x31], some []))) &&
    (List.range 8).all fun k => decide ((((homeOf exHome).run RefRun.use (RefCtlRun.use (freshData List.dedup)) (exLamp.take k)).1.devices "10.0.0.9").map
      (fun R => (R.dev.entry 0x0EF001 0x80).map Entry.data) = some (some [0x30])) &&
      (((homeOf exHome).run RefRun.use (RefCtlRun.use (freshData List.dedup)) (exLamp.take k)).1.controllers "10.0.0.9").isNone) = true := by
  decide +kernel

theorem exHome_alone {r : Running Ctl} {ip : String} (h : exHome.controllers ip = some r) : ip = "10.0.0.2" ∧ r = ⟨exSeeing, fun _ => true⟩ := by
  have h : (if ip = "10.0.0.2" then some (⟨exSeeing, fun _ => true⟩ : Running Ctl) else none) = some r := h
  split at h
  · rename_i e; injection h with h; exact ⟨e, h.symm⟩
  · cases h

theorem exHome_searches : OnlySearches exHome := by
  have key : (((sentBy ⟨exRunning, fun _ => true⟩) ++ sentByCtl ⟨exSeeing, fun _ => true⟩).all fun s => decide (s.dest.1 = "224.0.23.0") &&
      (readMsg (s.bytes.take 1024)).any fun m => decide (m = { theSearch with tid := m.tid })) = true := by
    decide +kernel
  intro ip s hs
  have hmem : s ∈ (sentBy ⟨exRunning, fun _ => true⟩) ++ sentByCtl ⟨exSeeing, fun _ => true⟩ := by
    rcases hs with ⟨r, h1, h2⟩ | ⟨r, h1, h2⟩
    · have h1 : (if ip = "10.0.0.9" then some (⟨exRunning, fun _ => true⟩ : Running LocalNode) else none) = some r := h1
      split at h1
      · injection h1 with h1; rw [← h1] at h2; exact List.mem_append_left _ h2
      · cases h1
    · obtain ⟨-, rfl⟩ := exHome_alone h1
      exact List.mem_append_right _ h2
  have := List.all_eq_true.mp key s hmem
  rw [Bool.and_eq_true, decide_eq_true_eq] at this
  refine ⟨this.1, ?_⟩
  cases hr : readMsg (s.bytes.take 1024) with
  | none => rw [hr] at this; cases this.2
  | some m =>
    rw [hr] at this
    have h2 : decide (m = { theSearch with tid := m.tid }) = true := this.2
    have h3 : m = { theSearch with tid := m.tid } := of_decide_eq_true h2
    exact ⟨m, rfl, h3⟩

theorem exHome_started : JustStarted exHome := by
  refine ⟨exHome_searches, fun ip r h => ?_⟩
  obtain ⟨-, rfl⟩ := exHome_alone h
  have key : (exSeeing.found.isEmpty && (controllerOf exSeeing).told.isEmpty && exSeeing.last.response.isNone) = true := by decide +kernel
  rw [Bool.and_eq_true, Bool.and_eq_true] at key
  refine ⟨List.isEmpty_iff.mp key.1.1, List.isEmpty_iff.mp key.1.2, ?_⟩
  exact Option.isNone_iff_eq_none.mp key.2

/-- The hypotheses of `C155_fresh`: this evening, with the question numbered 3. The response says that the light is on. -/
example : Built List.dedup exEnv exHome ∧ (exHome.controllers "224.0.23.0").isNone = true ∧
    (∀ dst m, dst = "10.0.0.2" ∨ dst = "224.0.23.0" → exHome.Said sentBy sentByCtl dst m → Tells m → m.tid ≠ 3) ∧
    (∀ r m, exHome.controllers "10.0.0.2" = some r → r.st.last.response = some m → Tells m → m.tid ≠ 3) ∧
    (∀ e ∈ exLamp, e.Fair) ∧ exHome.May (nodeUse exEnv okNet) (ctlUse List.dedup exEnv calmEnv okNet) sentBy sentByCtl exLamp ∧ RefNet.Honestly (freshData List.dedup) (homeOf exHome) exLamp ∧
    ((exHome.run (nodeUse exEnv okNet) (ctlUse List.dedup exEnv calmEnv okNet) exLamp).1.controllers "10.0.0.2").map
      (fun r => r.st.last.response.map fun m => (m.tid, m.seoj, m.esv, m.props.map PProp.data)) = some (some (3, 0x029101, 0x72, [[0x31]])) := by
  have hord : ValidOrder List.dedup := fun l => ⟨l.nodup_dedup, fun _ => List.mem_dedup⟩
  obtain ⟨k1, -, k3⟩ := C150_network hord exEnv exEnv_stable calmEnv calmEnv_calm okNet (fun _ _ _ _ => rfl) exHome exHome_built exLamp exLamp_fair
  have hall := exLamp_ends
  simp only [Bool.and_eq_true, decide_eq_true_eq] at hall
  refine ⟨exHome_built, by decide +kernel, ?_, ?_, exLamp_fair, k3.mpr (mayB_spec _ _ _ hall.1.1.1), exLamp_honest, ?_⟩
  · rintro dst m - ⟨ip, s, hs, -, hm⟩ ht
    obtain ⟨-, m', hm', hsearch⟩ := exHome_searches ip s hs
    rw [hm] at hm'
    injection hm' with hm'
    subst hm'
    unfold Tells at ht
    rw [(search_is hsearch).1] at ht
    exact absurd ht (by decide)
  · intro r m h1 h2
    rw [(exHome_started.2 _ r h1).2.2] at h2
    cases h2
  · have h2 := hall.1.1.2
    rw [← k1] at h2
    generalize (exHome.run (nodeUse exEnv okNet) (ctlUse List.dedup exEnv calmEnv okNet) exLamp).1 = M at h2
    have h2 : ((M.controllers "10.0.0.2").map ctlRunOf).map (fun R => R.ctl.answer.map fun m => (m.tid, m.seoj, m.esv, m.props.map PProp.data)) = _ := h2
    rw [Option.map_map] at h2
    exact h2

/-- C156 is false: after this evening the controller shows of the node profile of the light that it is on, which it never was; of the light it shows nothing. -/
theorem C156_wrong_object_false :
    JustStarted exHome ∧ exHome.May (nodeUse exEnv okNet) (ctlUse List.dedup exEnv calmEnv okNet) sentBy sentByCtl exLamp ∧
    RefNet.Honestly (freshData List.dedup) (homeOf exHome) exLamp ∧
    ((exHome.run (nodeUse exEnv okNet) (ctlUse List.dedup exEnv calmEnv okNet) exLamp).1.controllers "10.0.0.2").map
      (fun r => (Dict.get? r.st.found "10.0.0.9").map fun X => ((nodeOf X).data 0x0EF001 0x80, (nodeOf X).data 0x029101 0x80)) = some (some (some [0x31], some [])) ∧
    ∀ k, ¬ RealHolds (exHome.run (nodeUse exEnv okNet) (ctlUse List.dedup exEnv calmEnv okNet) (exLamp.take k)).1 "10.0.0.9" 0x0EF001 0x80 [0x31] := by
  have hord : ValidOrder List.dedup := fun l => ⟨l.nodup_dedup, fun _ => List.mem_dedup⟩
  obtain ⟨k1, -, k3⟩ := C150_network hord exEnv exEnv_stable calmEnv calmEnv_calm okNet (fun _ _ _ _ => rfl) exHome exHome_built exLamp exLamp_fair
  have hall := exLamp_ends
  simp only [Bool.and_eq_true, decide_eq_true_eq] at hall
  refine ⟨exHome_started, k3.mpr (mayB_spec _ _ _ hall.1.1.1), exLamp_honest, ?_, ?_⟩
  · have h2 := hall.1.2
    rw [← k1] at h2
    generalize (exHome.run (nodeUse exEnv okNet) (ctlUse List.dedup exEnv calmEnv okNet) exLamp).1 = M at h2
    have h2 : ((M.controllers "10.0.0.2").map ctlRunOf).map (fun R => (R.ctl.node "10.0.0.9").map fun X => (X.data 0x0EF001 0x80, X.data 0x029101 0x80)) = _ := h2
    rw [Option.map_map] at h2
    rw [← h2]
    refine congrArg (fun f => (M.controllers "10.0.0.2").map f) (funext fun r => ?_)
    show _ = ((Dict.get? r.st.found "10.0.0.9").map nodeOf).map _
    rw [Option.map_map]
    rfl
  · intro k hk
    obtain ⟨k', hk', hlt⟩ : ∃ k', exLamp.take k = exLamp.take k' ∧ k' < 8 := by
      by_cases h : k < 8
      · exact ⟨k, rfl, h⟩
      · refine ⟨7, ?_, by decide⟩
        rw [List.take_of_length_le (show exLamp.length ≤ k from by show 7 ≤ k; omega)]
        rfl
    rw [hk'] at hk
    have hcalm := List.all_eq_true.mp hall.2 k' (List.mem_range.mpr hlt)
    rw [Bool.and_eq_true, decide_eq_true_eq] at hcalm
    have h1 := (C150_network hord exEnv exEnv_stable calmEnv calmEnv_calm okNet (fun _ _ _ _ => rfl) exHome exHome_built (exLamp.take k') fun e he => exLamp_fair e (List.mem_of_mem_take he)).1
    rw [← realHolds_iff, h1] at hk
    generalize ((homeOf exHome).run RefRun.use (RefCtlRun.use (freshData List.dedup)) (exLamp.take k')) = Q at hk hcalm
    obtain ⟨hq1, hq2⟩ := hcalm
    rcases hk with ⟨R, e, j1, j2, j3⟩ | ⟨R, e, j1, -, -⟩
    · rw [j1] at hq1
      injection hq1 with hq1
      have hq1 : (R.dev.entry 0x0EF001 0x80).map Entry.data = some [0x30] := hq1
      rw [j2] at hq1
      injection hq1 with hq1
      rw [j3] at hq1
      exact absurd hq1 (by decide)
    · rw [j1] at hq2
      cases hq2

/-- The hypotheses of `C156_was_so_partial`: the same evening, about the profile and the light; and its first part, about the profile alone. -/
example : Built List.dedup exEnv exHome ∧ JustStarted exHome ∧ (∀ e ∈ exLamp, e.About fun o => o = 0x0EF001 ∨ o = 0x029101) ∧ ∀ e ∈ exLamp.take 4, e.About fun o => o = 0x0EF001 := by
  refine ⟨exHome_built, exHome_started, fun e he dst m hm => ?_, fun e he dst m hm => ?_⟩
  · simp only [exLamp, List.mem_cons, List.not_mem_nil, or_false] at he
    rcases he with rfl | rfl | rfl | rfl | rfl | rfl | rfl
    · cases hm
    · injection hm with hm
      injection hm with _ hm
      rw [← hm]
      exact ⟨fun _ => .inl rfl, fun _ => .inl rfl⟩
    · cases hm
    · cases hm
    · injection hm with hm
      injection hm with _ hm
      rw [← hm]
      exact ⟨fun _ => .inr rfl, fun ht => absurd (show (0x62 : Int) = 0x72 ∨ (0x62 : Int) = 0x73 from ht) (by decide)⟩
    · cases hm
    · cases hm
  · simp only [exLamp, List.take_succ_cons, List.take_zero, List.mem_cons, List.not_mem_nil, or_false] at he
    rcases he with rfl | rfl | rfl | rfl
    · cases hm
    · injection hm with hm
      injection hm with _ hm
      rw [← hm]
      exact ⟨fun _ => rfl, fun _ => rfl⟩
    · cases hm
    · cases hm

end Uecho
