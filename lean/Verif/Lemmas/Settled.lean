/- Lemmas for C157 and C158: what is asked is answered, unless something is lost. -/
import Verif.Spec.Settled
import Verif.Lemmas.Once

namespace Uecho
open Spec

/-! ### Devices that answer -/

/-- The device can send, and has the object, in service, with these properties to be read. -/
def Attends (o : Int) (cs : List Int) (D : RefDevice) : Prop := D.ifs ≠ [] ∧ ∃ t, D.things o = some t ∧ t.serves = true ∧ ∀ c ∈ cs, t.canGet c = true

theorem attends_thing {t : Thing} (m : Msg) {cs : List Int} (h1 : t.serves = true) (h2 : ∀ c ∈ cs, t.canGet c = true) :
    (t.actual m).1.serves = true ∧ ∀ c ∈ cs, (t.actual m).1.canGet c = true := by
  rcases thing_after t m with h | ⟨-, h⟩ | ⟨-, h⟩
  · rw [h]; exact ⟨h1, h2⟩
  · rw [h, puts_serves]; exact ⟨h1, fun c hc => by rw [puts_canGet]; exact h2 c hc⟩
  · rw [h, puts_serves]; exact ⟨h1, fun c hc => by rw [puts_canGet]; exact h2 c hc⟩

theorem attends_actual {o : Int} {cs : List Int} {D : RefDevice} (h : Attends o cs D) (d : Bytes) (a : Addr) : Attends o cs (D.actual d a).1 := by
  rcases actual_cases D d a with ⟨e, -⟩ | ⟨m, t, k, -, ht, e, -⟩
  · rw [e]; exact h
  · rw [e]
    obtain ⟨h1, t0, h2, h3, h4⟩ := h
    refine ⟨h1, ?_⟩
    by_cases ho : o = m.deoj
    · rw [ho] at h2
      rw [h2] at ht
      injection ht with ht
      subst ht
      obtain ⟨j1, j2⟩ := attends_thing m h3 h4
      exact ⟨_, if_pos ho, j1, j2⟩
    · exact ⟨t0, by show (if o = m.deoj then _ else D.things o) = _; rw [if_neg ho]; exact h2, h3, h4⟩

theorem attends_store {o : Int} {cs : List Int} {D : RefDevice} (h : Attends o cs D) (o' c : Int) (b : Bytes) : Attends o cs (D.store o' c b) := by
  unfold RefDevice.store
  cases ht : D.things o' with
  | none => exact h
  | some t =>
    obtain ⟨h1, t0, h2, h3, h4⟩ := h
    refine ⟨h1, ?_⟩
    by_cases ho : o = o'
    · rw [ho] at h2
      rw [h2] at ht
      injection ht with ht
      subst ht
      refine ⟨_, if_pos ho, h3, fun c' hc' => ?_⟩
      have := h4 c' hc'
      unfold Thing.canGet at *
      simp only []
      split
      · cases hp : t0.props c' with
        | none => rw [hp] at this; cases this
        | some e => rw [hp] at this; exact this
      · exact this
    · exact ⟨t0, by show (if o = o' then _ else D.things o) = _; rw [if_neg ho]; exact h2, h3, h4⟩

theorem attends_use {o : Int} {cs : List Int} {R : RefRun} (h : Attends o cs R.dev) (u : Use) : Attends o cs (R.use u).1.dev := by
  cases u with
  | arrive x =>
    show Attends o cs (R.arrive x).dev
    unfold RefRun.arrive
    split
    · exact attends_actual h _ _
    · exact h
  | announce m => show Attends o cs (R.dev.announce m).1; rw [announce_counts]; exact h
  | send m a => show Attends o cs (R.dev.send m a).1; rw [send_counts]; exact h
  | store o' c b => exact attends_store h _ _ _

/-- A request with an answer in any case. -/
def Wants (m : Msg) : Prop := m.esv = 0x61 ∨ m.esv = 0x62

/-- It is answered. -/
theorem attends_answers {o : Int} {cs : List Int} {D : RefDevice} (h : Attends o cs D) {d : Bytes} {a : Addr} {m : Msg} (hr : readMsg (d.take 1024) = some m) (hw : Wants m) (ho : m.deoj = o)
    (ht : m.tid ≠ 0) (hshort : Short D) :
    ∃ s ∈ (D.actual d a).2.1, s.dest = a ∧ ∀ w, readMsg (s.bytes.take 1024) = some w →
      w.tid = m.tid ∧ isRequestEsv w.esv = false ∧ (m.esv = 0x62 → (∀ i ∈ m.props, i.code ∈ cs) → w.esv = 0x72) := by
  obtain ⟨h1, t, h2, h3, h4⟩ := h
  have hst : ShortThing t := by
    intro c e hce
    exact hshort o c e (by unfold RefDevice.entry; rw [h2]; exact hce)
  have hans : ∃ r, (t.actual m).2.1 = some r ∧ r.tid = m.tid ∧ r.esv ≠ 0x73 ∧ isRequestEsv r.esv = false ∧ (m.esv = 0x62 → (∀ i ∈ m.props, i.code ∈ cs) → r.esv = 0x72) := by
    unfold Thing.actual
    rw [if_neg (by rw [h3]; decide)]
    rcases hw with hw | hw
    · rw [if_neg (by rw [hw]; decide), if_pos hw]
      refine ⟨_, rfl, rfl, ?_, ?_, ?_⟩
      · simp only []
        split <;> decide
      · simp only []
        split <;> decide
      · intro h; rw [hw] at h; exact absurd h (by decide)
    · rw [if_neg (by rw [hw]; decide), if_neg (by rw [hw]; decide), if_pos hw]
      refine ⟨_, rfl, rfl, ?_, ?_, ?_⟩
      · simp only []
        split <;> decide
      · simp only []
        split <;> decide
      · intro _ hall
        have : t.canGetAll m.props = true := List.all_eq_true.mpr fun i hi => h4 _ (hall i hi)
        simp only [this, if_true]
  obtain ⟨r, k1, k2, k3, k4, k5⟩ := hans
  obtain ⟨henc, -⟩ := thing_reply hst (readMsg_sound _ _ hr).1 k1
  obtain ⟨i, is, hifs⟩ := List.exists_cons_of_ne_nil h1
  have hm16 : m.tid % 65536 = m.tid := (congrArg Msg.tid (readMsg_sound _ _ hr).2.1).symm
  unfold RefDevice.actual
  rw [hr]
  simp only [ho, h2, k1]
  have key : ∀ so, ∃ s ∈ (D.setThing o (t.actual m).1).sends { r with seoj := so } a, s.dest = a ∧ ∀ w, readMsg (s.bytes.take 1024) = some w →
      w.tid = m.tid ∧ isRequestEsv w.esv = false ∧ (m.esv = 0x62 → (∀ i ∈ m.props, i.code ∈ cs) → w.esv = 0x72) := by
    intro so
    unfold RefDevice.sends
    rw [if_neg (show ({ r with seoj := so } : Msg).esv ≠ 0x73 from k3)]
    refine ⟨⟨i, a, encode { r with seoj := so }⟩, ?_, rfl, ?_⟩
    · show _ ∈ (D.ifs.take 1).map _
      rw [hifs]
      exact List.mem_cons_self ..
    · intro w hw
      rw [read_written (w := { r with seoj := so }) henc hw]
      exact ⟨by show r.tid % 65536 = _; rw [k2, hm16], k4, k5⟩
  have hctl : (D.setThing o (t.actual m).1).ctl = D.ctl := rfl
  have htid : r.tid ≠ 0 := by rw [k2]; exact ht
  rw [hctl]
  by_cases hc : D.ctl = true
  · rw [if_pos hc, if_neg (show ({ r with seoj := 0x0EF001 } : Msg).tid ≠ 0 from htid)]
    exact key _
  · rw [if_neg hc, if_neg htid]
    exact key r.seoj

/-! ### Controllers that wait -/

/-- The controller waits for an answer to request number `t`, or has it. -/
def Awaits (t : Int) (C : RefController) : Prop := C.asked = some t ∧ ∀ m, C.answer = some m → m.tid = t

theorem answered_awaits {t : Int} {C : RefController} (h : Awaits t C) (m : Msg) : Awaits t (C.answered m) ∧ (C.answer ≠ none → (C.answered m).answer ≠ none) ∧ (m.tid = t → (C.answered m).answer ≠ none) := by
  unfold RefController.answered
  split
  · rename_i hc
    refine ⟨⟨h.1, ?_⟩, fun h => ?_, fun _ => by simp⟩
    · intro m' h'
      injection h' with h'
      rw [← h']
      have := hc.1
      rw [h.1] at this
      injection this with this
      exact this.symm
    · simp
  · rename_i hc
    refine ⟨h, id, fun ht e => hc ⟨by rw [h.1, ht], e⟩⟩

theorem list_waits (fresh : Int → Int → Option Bytes) (C : RefController) (a : Addr) (m : Msg) : (C.actualList fresh a m).asked = C.asked ∧ (C.actualList fresh a m).answer = C.answer := by
  unfold RefController.actualList
  split
  · split <;> exact ⟨rfl, rfl⟩
  · exact ⟨rfl, rfl⟩

theorem report_waits (C : RefController) (ip : String) (N : RefNode) (o : Int) (t : Told) (is : List PProp) : (C.report ip N o t is).asked = C.asked ∧ (C.report ip N o t is).answer = C.answer := by
  unfold RefController.report
  split <;> exact ⟨rfl, rfl⟩

theorem awaits_of {t : Int} {C C' : RefController} (h : C'.asked = C.asked ∧ C'.answer = C.answer) (hw : Awaits t C) : Awaits t C' := by
  unfold Awaits
  rw [h.1, h.2]
  exact hw

/-- A controller that reads a datagram goes on waiting, and keeps the answer it has. -/
theorem actual_awaits (fresh : Int → Int → Option Bytes) {t : Int} {C : RefController} (h : Awaits t C) (d : Bytes) (a : Addr) :
    Awaits t (C.actual fresh d a).1 ∧ (C.answer ≠ none → (C.actual fresh d a).1.answer ≠ none) := by
  unfold RefController.actual
  cases hr : readMsg (d.take 1024) with
  | none => exact ⟨h, id⟩
  | some m =>
    simp only []
    split
    · exact ⟨h, id⟩
    split
    · exact ⟨h, id⟩
    simp only []
    have hl := list_waits fresh C a m
    have hw := awaits_of hl h
    rw [← hl.2]
    generalize C.actualList fresh a m = C' at *
    unfold RefController.actualReport
    split
    · split
      · exact ⟨hw, id⟩
      · rename_i N _
        have hrep := report_waits C' a.1 N m.deoj (.nodeAdd a.1) m.props
        obtain ⟨k1, k2, -⟩ := answered_awaits (awaits_of hrep hw) { m with fromAddr := some a }
        rw [hrep.2] at k2
        exact ⟨k1, k2⟩
    · obtain ⟨k1, k2, -⟩ := answered_awaits hw { m with fromAddr := some a }
      exact ⟨k1, k2⟩

/-- A message that is no request and does not end the thread is taken for the answer, if it has the number; one that tells values is from a node known then. -/
theorem actual_answered (fresh : Int → Int → Option Bytes) {t : Int} {C : RefController} {d : Bytes} {a : Addr} {m : Msg} (hr : readMsg (d.take 1024) = some m) (hreq : isRequestEsv m.esv = false)
    (hlive : (C.actual fresh d a).2.2 = true) :
    (Awaits t C → m.tid = t → (C.actual fresh d a).1.answer ≠ none) ∧ (m.esv = 0x72 → (C.actual fresh d a).1.node a.1 ≠ none) := by
  unfold RefController.actual at hlive ⊢
  rw [hr] at hlive ⊢
  simp only [] at hlive ⊢
  rw [if_neg (by rw [hreq]; decide)] at hlive ⊢
  split at hlive
  · cases hlive
  rename_i hbad
  rw [if_neg hbad]
  simp only [] at hlive ⊢
  refine ⟨fun h ht => ?_, fun h72 => ?_⟩
  · have hw := awaits_of (list_waits fresh C a m) h
    generalize C.actualList fresh a m = C' at *
    unfold RefController.actualReport at hlive ⊢
    split at hlive
    · rename_i hesv
      rw [if_pos hesv]
      split at hlive
      · cases hlive
      · rename_i N hN
        simp only [hN]
        exact (answered_awaits (awaits_of (report_waits C' a.1 N m.deoj (.nodeAdd a.1) m.props) hw) { m with fromAddr := some a }).2.2 ht
    · rename_i hesv
      rw [if_neg hesv]
      exact (answered_awaits hw { m with fromAddr := some a }).2.2 ht
  · generalize C.actualList fresh a m = C' at *
    apply actualReport_knows
    unfold RefController.actualReport at hlive
    rw [if_pos (.inl h72)] at hlive
    intro e
    rw [e] at hlive
    cases hlive

theorem awaits_use (fresh : Int → Int → Option Bytes) {t : Int} {R : RefCtlRun} (h : Awaits t R.ctl) {u : CtlUse} (hu : ∀ m d, u ≠ .post m d) :
    Awaits t (R.use fresh u).1.ctl ∧ (R.ctl.answer ≠ none → (R.use fresh u).1.ctl.answer ≠ none) := by
  cases u with
  | device u =>
    cases u with
    | arrive x =>
      show Awaits t (R.arrive fresh x).ctl ∧ (R.ctl.answer ≠ none → (R.arrive fresh x).ctl.answer ≠ none)
      unfold RefCtlRun.arrive
      split
      · exact actual_awaits fresh h _ _
      · exact ⟨h, id⟩
    | announce m => exact ⟨h, id⟩
    | send m a => exact ⟨h, id⟩
    | store o c b => exact ⟨h, id⟩
  | sendTo m d => exact ⟨h, id⟩
  | post m d => exact absurd rfl (hu m d)
  | search => exact ⟨h, id⟩
  | listen l => exact ⟨h, id⟩
  | unlisten l =>
    simp only [RefCtlRun.use]
    split <;> exact ⟨h, id⟩

theorem knows_use (fresh : Int → Int → Option Bytes) {R : RefCtlRun} {x : String} (h : R.ctl.node x ≠ none) (u : CtlUse) : (R.use fresh u).1.ctl.node x ≠ none := by
  cases u with
  | device u =>
    cases u with
    | arrive y =>
      show (R.arrive fresh y).ctl.node x ≠ none
      unfold RefCtlRun.arrive
      split
      · exact actual_knows fresh R.ctl _ _ x h
      · exact h
    | announce m => exact h
    | send m a => exact h
    | store o c b => exact h
  | sendTo m d => exact h
  | post m d => exact h
  | search => exact h
  | listen l => exact h
  | unlisten l =>
    simp only [RefCtlRun.use]
    split <;> exact h

/-! ### Networks -/

section
variable (fresh : Int → Int → Option Bytes)

theorem well_step {N : RefNet} (h : AllWell N) {e : Incident} (hf : e.Fair) (hp : RefNet.Polite N e) (hr : N.Real RefRun.sent RefCtlRun.sent e) :
    AllWell (Home.step RefRun.use (RefCtlRun.use fresh) N e).1 := by
  cases e with
  | device ip u => exact well_device h fresh ip u hf hp hr
  | controller ip u => exact well_controller h fresh ip u hf hp hr

/-- What is at an address is used or left alone. -/
theorem step_ctl {N : RefNet} {ip : String} {R : RefCtlRun} (hR : N.controllers ip = some R) (e : Incident) :
    (Home.step RefRun.use (RefCtlRun.use fresh) N e).1.controllers ip = some R ∨
    ∃ u, e = .controller ip u ∧ (Home.step RefRun.use (RefCtlRun.use fresh) N e).1.controllers ip = some (R.use fresh u).1 := by
  cases e with
  | device ip' u =>
    left
    cases hd : N.devices ip' with
    | none => simp only [Home.step, hd]; exact hR
    | some r => simp only [Home.step, hd]; exact hR
  | controller ip' u =>
    by_cases h : ip' = ip
    · subst h
      right
      refine ⟨u, rfl, ?_⟩
      simp only [Home.step, hR, if_true]
    · left
      cases hd : N.controllers ip' with
      | none => simp only [Home.step, hd]; exact hR
      | some r =>
        simp only [Home.step, hd]
        show (if ip = ip' then _ else N.controllers ip) = _
        rw [if_neg (fun e => h e.symm)]
        exact hR

theorem step_dev {N : RefNet} {ip : String} {R : RefRun} (hR : N.devices ip = some R) (e : Incident) :
    (Home.step RefRun.use (RefCtlRun.use fresh) N e).1.devices ip = some R ∨
    ∃ u, e = .device ip u ∧ (Home.step RefRun.use (RefCtlRun.use fresh) N e).1.devices ip = some (R.use u).1 := by
  cases e with
  | controller ip' u =>
    left
    cases hd : N.controllers ip' with
    | none => simp only [Home.step, hd]; exact hR
    | some r => simp only [Home.step, hd]; exact hR
  | device ip' u =>
    by_cases h : ip' = ip
    · subst h
      right
      refine ⟨u, rfl, ?_⟩
      simp only [Home.step, hR, if_true]
    · left
      cases hd : N.devices ip' with
      | none => simp only [Home.step, hd]; exact hR
      | some r =>
        simp only [Home.step, hd]
        show (if ip = ip' then _ else N.devices ip) = _
        rw [if_neg (fun e => h e.symm)]
        exact hR

end

/-- An answer that arrives while it is waited for is there in the end. -/
theorem lossless_answer (fresh : Int → Int → Option Bytes) (ip : String) (t : Int) (es : List Incident) :
    ∀ (N : RefNet) (R : RefCtlRun), AllWell N → (∀ e ∈ es, e.Fair) → RefNet.Politely fresh N es → N.May RefRun.use (RefCtlRun.use fresh) RefRun.sent RefCtlRun.sent es →
    N.controllers ip = some R → Awaits t R.ctl → (∀ e ∈ es, ¬ e.asksAt ip) →
    ∃ R', (N.run RefRun.use (RefCtlRun.use fresh) es).1.controllers ip = some R' ∧ Awaits t R'.ctl ∧ (R.ctl.answer ≠ none → R'.ctl.answer ≠ none) ∧
      ∀ y m, Incident.controller ip (.device (.arrive y)) ∈ es → readMsg (y.bytes.take 1024) = some m → isRequestEsv m.esv = false → m.tid = t → R'.ctl.answer ≠ none := by
  induction es with
  | nil =>
    intro N R _ _ _ _ hR hw _
    exact ⟨R, hR, hw, id, fun y m hy => by cases hy⟩
  | cons e es ih =>
    intro N R hwell hf hp hm hR hw hno
    have hwell' := well_step fresh hwell (hf _ (List.mem_cons_self ..)) hp.1 hm.1
    have hf' : ∀ x ∈ es, x.Fair := fun x hx => hf x (List.mem_cons_of_mem _ hx)
    have hno' : ∀ x ∈ es, ¬ x.asksAt ip := fun x hx => hno x (List.mem_cons_of_mem _ hx)
    rcases step_ctl fresh hR e with h | ⟨u, rfl, h⟩
    · obtain ⟨R', k1, k2, k3, k4⟩ := ih _ R hwell' hf' hp.2 hm.2 h hw hno'
      refine ⟨R', k1, k2, k3, fun y m hy hr hq ht => ?_⟩
      rcases List.mem_cons.mp hy with rfl | hy
      · obtain ⟨j1, -, -, -⟩ := hwell.ctl ip R hR
        have hlive := ((hwell'.ctl ip R h).1 y.thread)
        have h2 : (Home.step RefRun.use (RefCtlRun.use fresh) N (.controller ip (.device (.arrive y)))).1.controllers ip = some (R.use fresh (.device (.arrive y))).1 := by
          simp only [Home.step, hR, if_true]
        rw [h] at h2
        injection h2 with h2
        have h2 : R = R.arrive fresh y := h2
        apply k3
        rw [h2]
        rw [h2] at hlive
        unfold RefCtlRun.arrive at hlive ⊢
        rw [if_pos (j1 _)] at hlive ⊢
        simp only [if_true] at hlive
        exact (actual_answered fresh hr hq hlive).1 hw ht
      · exact k4 y m hy hr hq ht
    · have hu : ∀ m d, u ≠ .post m d := by
        rintro m d rfl
        exact hno _ (List.mem_cons_self ..) rfl
      obtain ⟨w1, w2⟩ := awaits_use fresh hw hu
      obtain ⟨R', k1, k2, k3, k4⟩ := ih _ _ hwell' hf' hp.2 hm.2 h w1 hno'
      refine ⟨R', k1, k2, fun hn => k3 (w2 hn), fun y m hy hr hq ht => ?_⟩
      rcases List.mem_cons.mp hy with e | hy
      · injection e with _ e
        subst e
        obtain ⟨j1, -, -, -⟩ := hwell.ctl ip R hR
        have hlive := ((hwell'.ctl ip _ h).1 y.thread)
        apply k3
        show (R.arrive fresh y).ctl.answer ≠ none
        have hlive : (R.arrive fresh y).alive y.thread = true := hlive
        unfold RefCtlRun.arrive at hlive ⊢
        rw [if_pos (j1 _)] at hlive ⊢
        simp only [if_true] at hlive
        exact (actual_answered fresh hr hq hlive).1 hw ht
      · exact k4 y m hy hr hq ht

/-- A node whose answer arrives is known in the end. -/
theorem lossless_list (fresh : Int → Int → Option Bytes) (ip : String) (es : List Incident) :
    ∀ (N : RefNet) (R : RefCtlRun), AllWell N → (∀ e ∈ es, e.Fair) → RefNet.Politely fresh N es → N.May RefRun.use (RefCtlRun.use fresh) RefRun.sent RefCtlRun.sent es →
    N.controllers ip = some R →
    ∃ R', (N.run RefRun.use (RefCtlRun.use fresh) es).1.controllers ip = some R' ∧ (∀ x, R.ctl.node x ≠ none → R'.ctl.node x ≠ none) ∧
      ∀ y m, Incident.controller ip (.device (.arrive y)) ∈ es → readMsg (y.bytes.take 1024) = some m → m.esv = 0x72 → R'.ctl.node y.src.1 ≠ none := by
  induction es with
  | nil =>
    intro N R _ _ _ _ hR
    exact ⟨R, hR, fun _ h => h, fun y m hy => by cases hy⟩
  | cons e es ih =>
    intro N R hwell hf hp hm hR
    have hwell' := well_step fresh hwell (hf _ (List.mem_cons_self ..)) hp.1 hm.1
    have hf' : ∀ x ∈ es, x.Fair := fun x hx => hf x (List.mem_cons_of_mem _ hx)
    have hnew : ∃ R1, (Home.step RefRun.use (RefCtlRun.use fresh) N e).1.controllers ip = some R1 ∧ (∀ x, R.ctl.node x ≠ none → R1.ctl.node x ≠ none) ∧
        ∀ y, e = .controller ip (.device (.arrive y)) → R1 = R.arrive fresh y := by
      rcases step_ctl fresh hR e with h | ⟨u, rfl, h⟩
      · refine ⟨R, h, fun _ h => h, ?_⟩
        rintro y rfl
        have h2 : (Home.step RefRun.use (RefCtlRun.use fresh) N (.controller ip (.device (.arrive y)))).1.controllers ip = some (R.use fresh (.device (.arrive y))).1 := by
          simp only [Home.step, hR, if_true]
        rw [h] at h2
        injection h2
      · refine ⟨_, h, fun x hx => knows_use fresh hx u, ?_⟩
        intro y e
        injection e with _ e
        rw [e]
        rfl
    obtain ⟨R1, g1, g2, g3⟩ := hnew
    obtain ⟨R', k1, k2, k3⟩ := ih _ R1 hwell' hf' hp.2 hm.2 g1
    refine ⟨R', k1, fun x hx => k2 x (g2 x hx), fun y m hy hr h72 => ?_⟩
    rcases List.mem_cons.mp hy with e | hy
    · have hR1 := g3 y e.symm
      obtain ⟨j1, -, -, -⟩ := hwell.ctl ip R hR
      have hlive := ((hwell'.ctl ip _ g1).1 y.thread)
      apply k2
      rw [hR1] at hlive ⊢
      unfold RefCtlRun.arrive at hlive ⊢
      rw [if_pos (j1 _)] at hlive ⊢
      simp only [if_true] at hlive
      exact (actual_answered (t := 0) fresh hr (by rw [h72]; decide) hlive).2 h72
    · exact k3 y m hy hr h72

/-- A request that arrives is answered, and the answer arrives. -/
theorem lossless_request (fresh : Int → Int → Option Bytes) (ip dst : String) (o : Int) (cs : List Int) (q : Msg) (hq : Wants q) (ho : q.deoj = o) (ht : q.tid ≠ 0) (x : Arrival) (hx : x.src.1 = ip)
    (hr : readMsg (x.bytes.take 1024) = some q) (es : List Incident) :
    ∀ (N : RefNet) (R : RefCtlRun) (D : RefRun), AllWell N → (∀ e ∈ es, e.Fair) → RefNet.Politely fresh N es → N.May RefRun.use (RefCtlRun.use fresh) RefRun.sent RefCtlRun.sent es →
    N.Lossless RefRun.use (RefCtlRun.use fresh) RefRun.sent RefCtlRun.sent es → N.controllers ip = some R → N.devices dst = some D → Attends o cs D.dev → Incident.device dst (.arrive x) ∈ es →
    ∃ y m, Incident.controller ip (.device (.arrive y)) ∈ es ∧ y.src.1 = dst ∧ readMsg (y.bytes.take 1024) = some m ∧ isRequestEsv m.esv = false ∧ m.tid = q.tid ∧
      (q.esv = 0x62 → (∀ i ∈ q.props, i.code ∈ cs) → m.esv = 0x72) := by
  induction es with
  | nil => intro N R D _ _ _ _ _ _ _ _ h; cases h
  | cons e es ih =>
    intro N R D hwell hf hp hm hl hR hD hat hmem
    have hwell' := well_step fresh hwell (hf _ (List.mem_cons_self ..)) hp.1 hm.1
    have hf' : ∀ x ∈ es, x.Fair := fun x hx => hf x (List.mem_cons_of_mem _ hx)
    by_cases hin : Incident.device dst (.arrive x) ∈ es
    · obtain ⟨R1, hR1⟩ : ∃ R1, (Home.step RefRun.use (RefCtlRun.use fresh) N e).1.controllers ip = some R1 := by
        rcases step_ctl fresh hR e with h | ⟨u, -, h⟩ <;> exact ⟨_, h⟩
      obtain ⟨D1, hD1, hat1⟩ : ∃ D1, (Home.step RefRun.use (RefCtlRun.use fresh) N e).1.devices dst = some D1 ∧ Attends o cs D1.dev := by
        rcases step_dev fresh hD e with h | ⟨u, -, h⟩
        · exact ⟨_, h, hat⟩
        · exact ⟨_, h, attends_use hat u⟩
      obtain ⟨y, m, k1, k2⟩ := ih _ R1 D1 hwell' hf' hp.2 hm.2 hl.2 hR1 hD1 hat1 hin
      exact ⟨y, m, List.mem_cons_of_mem _ k1, k2⟩
    · rcases List.mem_cons.mp hmem with he | hmem
      swap
      · exact absurd hmem hin
      subst he
      obtain ⟨j1, ⟨j2, -⟩, -⟩ := hwell.dev dst D hD
      obtain ⟨s, hs, hs1, hs2⟩ := attends_answers (a := x.src) hat hr hq ho ht j2
      have hD' : (Home.step RefRun.use (RefCtlRun.use fresh) N (.device dst (.arrive x))).1.devices dst = some (D.arrive x) := by
        simp only [Home.step, hD, if_true]
        rfl
      have hsent : (D.arrive x).sent = D.sent ++ (D.dev.actual x.bytes x.src).2.1 := by
        unfold RefRun.arrive
        rw [if_pos (j1 _)]
      have hem : N.Emits RefRun.use (RefCtlRun.use fresh) RefRun.sent RefCtlRun.sent (.device dst (.arrive x)) dst ip s.bytes := by
        refine ⟨s, .inl ⟨D, _, hD, hD', ?_⟩, rfl, .inl (by rw [hs1, hx])⟩
        rw [hsent, List.drop_left]
        exact hs
      obtain ⟨y, y1, y2, y3⟩ := (hl.1 dst ip s.bytes hem).2 (by rw [hR]; simp)
      obtain ⟨m, hmr, -⟩ := (hwell'.dev dst _ hD').2.2 s (by rw [hsent]; exact List.mem_append_right _ hs)
      obtain ⟨g1, g2, g3⟩ := hs2 m hmr
      exact ⟨y, m, List.mem_cons_of_mem _ y1, y3, by rw [y2]; exact hmr, g2, g1, g3⟩

/-! ### Instance lists -/

/-- The codes in the data of an instance list. -/
def codesIn : Bytes → List Int
  | [] => []
  | b :: rest => listedCodes b.toNat rest

/-- Only the device is at `dst`; its profile holds this list; all lists it has sent are this one; and controllers that know it know these objects. -/
structure ListsTrue (dst : String) (L : Bytes) (N : RefNet) : Prop where
  alone : N.controllers dst = none
  dev : ∀ R, N.devices dst = some R → (∃ e, R.dev.entry 0x0EF001 0xD6 = some e ∧ e.data = L) ∧ R.dev.ctl = false ∧
    ∀ s ∈ R.sent, ∀ m, readMsg (s.bytes.take 1024) = some m → m.esv = 0x72 → m.seoj = 0x0EF001 → ∀ i ∈ m.props, i.code = 0xD6 → i.data = L
  ctl : ∀ ip R n, N.controllers ip = some R → R.ctl.node dst = some n → n.objs = addCodes [0x0EF001] (codesIn L)

theorem actual_objs (fresh : Int → Int → Option Bytes) {C : RefController} {d : Bytes} {a : Addr} {dst : String} {l : List Int} (h : ∀ n, C.node dst = some n → n.objs = l)
    (hm : a.1 = dst → ∀ m, readMsg (d.take 1024) = some m → m.esv = 0x72 ∨ m.esv = 0x73 → ∀ l', instanceListOf m = .codes l' → addCodes [0x0EF001] l' = l) :
    ∀ n, (C.actual fresh d a).1.node dst = some n → n.objs = l := by
  unfold RefController.actual
  cases hr : readMsg (d.take 1024) with
  | none => exact h
  | some m =>
    simp only []
    split
    · exact h
    split
    · exact h
    simp only []
    have hl : ∀ n, (C.actualList fresh a m).node dst = some n → n.objs = l := by
      unfold RefController.actualList
      split
      swap
      · exact h
      rename_i hesv
      split
      swap
      · exact h
      rename_i l' hl'
      intro n hn
      have hn : (if dst = a.1 then some (RefController.listed fresh a l') else C.node dst) = some n := hn
      split at hn
      · rename_i ha
        injection hn with hn
        rw [← hn]
        exact hm ha.symm m hr hesv l' hl'
      · exact h n hn
    generalize C.actualList fresh a m = C' at hl
    unfold RefController.actualReport
    split
    swap
    · rw [answered_node]; exact hl
    split
    · exact hl
    rename_i N hN
    rw [answered_node]
    unfold RefController.report
    split
    swap
    · exact hl
    intro n hn
    have hn : (if dst = a.1 then some { N with data := fun o' => if o' = m.deoj then putsData (N.data m.deoj) m.props else N.data o' } else C'.node dst) = some n := hn
    split at hn
    · rename_i ha
      injection hn with hn
      rw [← hn]
      exact hl N (by rw [ha]; exact hN)
    · exact hl n hn

/-- What a device sends in answer, as far as lists go. -/
theorem lists_reply {D : RefDevice} {L : Bytes} (hs : Short D) (hc : D.ctl = false) {e : Entry} (he : D.entry 0x0EF001 0xD6 = some e) (hL : e.data = L) (d : Bytes) (a : Addr) :
    ∀ s ∈ (D.actual d a).2.1, ∀ m, readMsg (s.bytes.take 1024) = some m → m.esv = 0x72 → m.seoj = 0x0EF001 → ∀ i ∈ m.props, i.code = 0xD6 → i.data = L := by
  intro s hsd w hw h72 hseoj i hi hcode
  obtain ⟨m, t, r, so, k, h1, h2, h3, h4, h5⟩ := actual_from D d a s hsd
  obtain ⟨-, k2⟩ := thing_tells h3
  have hst : ShortThing t := by
    intro c e hce
    exact hs m.deoj c e (by unfold RefDevice.entry; rw [h2]; exact hce)
  have henc := (thing_reply hst (readMsg_sound _ _ h1).1 h3).1
  rw [h4] at hw
  have hww := read_written (w := { r with seoj := so, tid := k }) henc hw
  rw [hww] at h72 hseoj hi
  have h72 : r.esv = 0x72 := h72
  obtain ⟨-, j2, j3⟩ := k2 (.inl h72)
  have hseoj : so % 2 ^ 24 = 0x0EF001 := hseoj
  rw [h5 hc, j2, wire_idem h1] at hseoj
  have hi : i ∈ r.props := by
    simp only [onWire] at hi
    split at hi
    · cases hi
    · exact hi
  obtain ⟨e', he', hd⟩ := j3 i hi
  have : D.entry 0x0EF001 0xD6 = some e' := by
    unfold RefDevice.entry
    rw [← hseoj, h2, ← hcode]
    exact he'
  rw [he] at this
  injection this with this
  rw [← hd, ← this, hL]

theorem lists_step (fresh : Int → Int → Option Bytes) {dst : String} {L : Bytes} {N : RefNet} (h : ListsTrue dst L N) (hwell : AllWell N) {e : Incident} (hf : e.Fair) (hp : RefNet.Polite N e)
    (hr : N.Real RefRun.sent RefCtlRun.sent e) : ListsTrue dst L (N.step RefRun.use (RefCtlRun.use fresh) e).1 := by
  cases e with
  | device ip u =>
    cases hd : N.devices ip with
    | none => simp only [Home.step, hd]; exact h
    | some R =>
      simp only [Home.step, hd]
      refine ⟨h.alone, ?_, h.ctl⟩
      intro R' hR'
      have hR' : (if dst = ip then some (R.use u).1 else N.devices dst) = some R' := hR'
      split at hR'
      swap
      · exact h.dev R' hR'
      rename_i hip
      injection hR' with hR'
      rw [← hR']
      rw [← hip] at hd hp
      obtain ⟨⟨e0, h1, h2⟩, h3, h4⟩ := h.dev R hd
      obtain ⟨w1, ⟨w2, w3⟩, -⟩ := hwell.dev _ R hd
      cases u with
      | arrive x =>
        show (∃ e, (R.arrive x).dev.entry 0x0EF001 0xD6 = some e ∧ e.data = L) ∧ (R.arrive x).dev.ctl = false ∧ ∀ s ∈ (R.arrive x).sent, _
        unfold RefRun.arrive
        rw [if_pos (w1 _)]
        refine ⟨?_, by show (R.dev.actual x.bytes x.src).1.ctl = false; rw [actual_ctl]; exact h3, ?_⟩
        · rcases actual_entry R.dev x.bytes x.src 0x0EF001 0xD6 with k | ⟨m, e1, e2, -, k1, k2, -, -, -, k3⟩
          · exact ⟨e0, by rw [← h1]; exact k, h2⟩
          · rw [h1] at k1
            injection k1 with k1
            subst k1
            refine ⟨e2, k2, ?_⟩
            rcases k3 with k3 | ⟨k3, -⟩
            · rw [k3]; exact h2
            · rw [(w3 e0 h1).1] at k3; cases k3
        · intro s hs
          rcases List.mem_append.mp hs with hs | hs
          · exact h4 s hs
          · exact lists_reply w2 h3 h1 h2 _ _ s hs
      | announce m => exact absurd hp id
      | send m a =>
        show (∃ e, (R.dev.send m a).1.entry 0x0EF001 0xD6 = some e ∧ e.data = L) ∧ (R.dev.send m a).1.ctl = false ∧ ∀ s ∈ R.sent ++ (R.dev.send m a).2.1, _
        rw [send_counts]
        refine ⟨⟨e0, h1, h2⟩, h3, fun s hs => ?_⟩
        rcases List.mem_append.mp hs with hs | hs
        · exact h4 s hs
        · intro w hw h72
          cases a with
          | none => cases hs
          | some a =>
            obtain ⟨-, ⟨p1, -⟩, -⟩ := hp
            unfold RefDevice.send at hs
            by_cases he : Encodable m
            · simp only [if_pos he] at hs
              obtain ⟨i, -, rfl⟩ := List.mem_map.mp hs
              rw [read_written (w := R.dev.stamped m) he hw] at h72
              have h72 : m.esv = 0x72 := h72
              omega
            · simp only [if_neg he] at hs
              cases hs
      | store o c b =>
        refine ⟨⟨e0, ?_, h2⟩, ?_, h4⟩
        · show (R.dev.store o c b).entry 0x0EF001 0xD6 = some e0
          rw [entry_store, if_neg (fun k => hf.1 k.1.symm)]
          exact h1
        · show (R.dev.store o c b).ctl = false
          rw [← h3]; unfold RefDevice.store; split <;> rfl
  | controller ip u =>
    cases hd : N.controllers ip with
    | none => simp only [Home.step, hd]; exact h
    | some R =>
      simp only [Home.step, hd]
      refine ⟨?_, h.dev, ?_⟩
      · show (if dst = ip then _ else N.controllers dst) = none
        rw [if_neg (by rintro rfl; rw [h.alone] at hd; cases hd)]
        exact h.alone
      intro ip' R' n hR' hn
      have hR' : (if ip' = ip then some (R.use fresh u).1 else N.controllers ip') = some R' := hR'
      split at hR'
      swap
      · exact h.ctl ip' R' n hR' hn
      injection hR' with hR'
      rw [← hR'] at hn
      have hold : ∀ n, R.ctl.node dst = some n → n.objs = addCodes [0x0EF001] (codesIn L) := fun n hn => h.ctl ip R n hd hn
      cases u with
      | device u =>
        cases u with
        | arrive x =>
          have hn : (R.arrive fresh x).ctl.node dst = some n := hn
          unfold RefCtlRun.arrive at hn
          split at hn
          swap
          · exact hold n hn
          refine actual_objs fresh hold ?_ n hn
          intro hsrc m hm hesv l hl
          obtain ⟨s, k1, k2, k3⟩ := hr
          rw [hsrc] at k1
          rcases k1 with ⟨r, k1, k4⟩ | ⟨r, k1, -⟩
          swap
          · rw [h.alone] at k1; cases k1
          obtain ⟨-, -, h4⟩ := h.dev r k1
          obtain ⟨m', hm', ht⟩ := (hwell.dev dst r k1).2.2 s k4
          rw [← k2, hm'] at hm
          injection hm with hm
          subst hm
          have h7 : m'.esv = 0x72 := by
            rcases ht with (⟨t, -⟩ | ⟨⟨t, -⟩, -⟩) | ⟨t, -⟩
            · rw [(search_is t).1] at hesv; omega
            · omega
            · omega
          rcases ht with (⟨t, -⟩ | ⟨⟨t, -⟩, -⟩) | ⟨-, t1, t2⟩
          · rw [(search_is t).1] at h7; omega
          · omega
          have hdest : s.dest.1 = ip := by
            rcases k3 with k3 | k3
            · exact k3
            · exact absurd k3 t1
          obtain ⟨-, t3⟩ := t2 h7 R (by rw [hdest]; exact hd)
          rcases t3 with ⟨-, t4, t5⟩ | ⟨t3, -⟩
          swap
          · rw [t3] at hl; cases hl
          have hdata := h4 s k4 m' hm' h7 t4
          unfold instanceListOf at hl
          cases hp' : m'.props with
          | nil => rw [hp'] at hl; cases hl
          | cons i is =>
            have hi : i ∈ m'.props := by rw [hp']; exact List.mem_cons_self ..
            have hiL := hdata i hi (t5 i hi)
            rw [hp'] at hl
            simp only [] at hl
            rw [if_pos (.inr (t5 i hi)), hiL] at hl
            cases L with
            | nil => cases hl
            | cons b rest =>
              simp only [] at hl
              split at hl
              · cases hl
              · injection hl with hl
                rw [← hl]; rfl
        | announce m => exact hold n hn
        | send m a => exact hold n hn
        | store o c b => exact hold n hn
      | sendTo m d => exact hold n hn
      | post m d => exact hold n hn
      | search => exact hold n hn
      | listen l => exact hold n hn
      | unlisten l =>
        simp only [RefCtlRun.use] at hn
        split at hn <;> exact hold n hn

theorem lists_run (fresh : Int → Int → Option Bytes) {dst : String} {L : Bytes} (es : List Incident) : ∀ N : RefNet, ListsTrue dst L N → AllWell N → (∀ e ∈ es, e.Fair) →
    RefNet.Politely fresh N es → N.May RefRun.use (RefCtlRun.use fresh) RefRun.sent RefCtlRun.sent es → ListsTrue dst L (N.run RefRun.use (RefCtlRun.use fresh) es).1 := by
  induction es with
  | nil => intro N h _ _ _ _; exact h
  | cons e es ih =>
    intro N h hw hf hp hm
    have hfe := hf _ (List.mem_cons_self ..)
    exact ih _ (lists_step fresh h hw hfe hp.1 hm.1) (well_step fresh hw hfe hp.1 hm.1) (fun x hx => hf x (List.mem_cons_of_mem _ hx)) hp.2 hm.2

end Uecho
