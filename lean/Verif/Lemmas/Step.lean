/- Lemmas for C161 and C162: each answer is that of one step of the object asked. -/
import Verif.Spec.Step
import Verif.Lemmas.Done

namespace Uecho
open Spec

/-! ### Objects -/

theorem puts_written (t : Thing) (is : List PProp) : Written t.props (t.puts is).props is := by
  rintro c b hl ⟨e, he, hw⟩
  refine ⟨{ e with data := b }, ?_, rfl⟩
  rw [puts_props, he, hl]
  simp only [Option.map_some, hw, if_true, Option.getD_some]

theorem values_shown (t : Thing) (is : List PProp) : Shown t.props (t.values is) := by
  intro i hi e he hr
  obtain ⟨j, -, rfl⟩ := List.mem_map.mp hi
  have he : t.props j.code = some e := he
  show t.value j.code = e.data
  unfold Thing.value
  rw [he]
  simp only [hr, if_true]

theorem not_all_set {t : Thing} {is : List PProp} (h : ¬ t.canSetAll is = true) : ∃ i ∈ is, ¬ MayWrite t.props i.code := by
  have : ¬ ∀ i ∈ is, t.canSet i.code = true := fun k => h (List.all_eq_true.mpr k)
  simp only [not_forall] at this
  obtain ⟨i, hi, hn⟩ := this
  refine ⟨i, hi, ?_⟩
  rintro ⟨e, he, hw⟩
  apply hn
  unfold Thing.canSet
  rw [he]; exact hw

theorem not_all_get {t : Thing} {is : List PProp} (h : ¬ t.canGetAll is = true) : ∃ i ∈ is, ¬ MayRead t.props i.code := by
  have : ¬ ∀ i ∈ is, t.canGet i.code = true := fun k => h (List.all_eq_true.mpr k)
  simp only [not_forall] at this
  obtain ⟨i, hi, hn⟩ := this
  refine ⟨i, hi, ?_⟩
  rintro ⟨e, he, hw⟩
  apply hn
  unfold Thing.canGet
  rw [he]; exact hw

/-- What an object that answers a read shows. -/
theorem thing_snapshot {t : Thing} {m r : Msg} (h : (t.actual m).2.1 = some r) (hc : r.esv = 0x72) : Snapshot t.props m r := by
  unfold Thing.actual at h
  simp only [] at h
  split at h
  · cases h
  split at h
  · split at h
    · cases h
    · cases h; exact absurd hc (show ¬ ((0x50 : Int) = 0x72) by decide)
  split at h
  · cases h
    simp only [] at hc
    split at hc <;> exact absurd hc (by decide)
  split at h
  · rename_i h62
    cases h
    simp only [] at hc
    split at hc
    swap
    · exact absurd hc (by decide)
    rename_i hall
    refine ⟨if_pos hall, h62, values_codes _ _, fun i hi => ?_⟩
    obtain ⟨j, hj, rfl⟩ := List.mem_map.mp hi
    have hg := List.all_eq_true.mp hall j hj
    unfold Thing.canGet at hg
    cases hp : t.props j.code with
    | none => rw [hp] at hg; cases hg
    | some e =>
      rw [hp] at hg
      have hg : e.readable = true := hg
      refine ⟨e, rfl, hg, ?_⟩
      simp only [Thing.value, hp, hg, if_true]
  split at h
  · cases h
    simp only [] at hc
    split at hc <;> exact absurd hc (by decide)
  split at h
  · split at h
    · cases h
      simp only [] at hc
      split at hc <;> exact absurd hc (by decide)
    · cases h
  split at h
  · split at h
    · cases h; exact absurd hc (show ¬ ((0x7A : Int) = 0x72) by decide)
    · cases h
  · cases h

/-- What an object that refuses has done. -/
theorem thing_refuses {t : Thing} {m r : Msg} (h : (t.actual m).2.1 = some r) (hc : r.esv = 0x50 ∨ r.esv = 0x52 ∨ r.esv = 0x5E) : Justified t.props (t.actual m).1.props m r := by
  unfold Thing.actual at h ⊢
  simp only [] at h ⊢
  split at h
  · cases h
  rename_i hserves
  rw [if_neg hserves]
  split at h
  · rename_i h60
    rw [if_pos h60]
    split at h
    · cases h
    · rename_i hall
      cases h
      exact .inl ⟨rfl, .inl h60, refused_codes _ _, not_all_set hall, puts_written _ _⟩
  rename_i h60
  rw [if_neg h60]
  split at h
  · rename_i h61
    rw [if_pos h61]
    cases h
    by_cases hall : t.canSetAll m.props = true
    · simp only [if_pos hall] at hc
      exact absurd hc (by decide)
    · exact .inl ⟨if_neg hall, .inr h61, refused_codes _ _, not_all_set hall, puts_written _ _⟩
  rename_i h61
  rw [if_neg h61]
  split at h
  · rename_i h62
    rw [if_pos h62]
    cases h
    by_cases hall : t.canGetAll m.props = true
    · simp only [if_pos hall] at hc
      exact absurd hc (by decide)
    · exact .inr (.inl ⟨if_neg hall, h62, values_codes _ _, not_all_get hall, values_shown _ _, rfl⟩)
  rename_i h62
  rw [if_neg h62]
  split at h
  · cases h
    simp only [] at hc
    split at hc <;> exact absurd hc (by decide)
  rename_i h63
  rw [if_neg h63]
  split at h
  · rename_i h6E
    rw [if_pos h6E]
    split at h
    swap
    · cases h
    rename_i hk
    rw [if_pos hk]
    cases h
    by_cases hall : (t.canSetAll m.setProps && t.canGetAll m.getProps) = true
    · simp only [if_pos hall] at hc
      exact absurd hc (by decide)
    · refine .inr (.inr ⟨if_neg hall, h6E, refused_codes _ _, values_codes _ _, ?_, puts_written _ _, values_shown _ _⟩)
      by_cases h1 : t.canSetAll m.setProps = true
      · rw [h1, Bool.true_and] at hall
        exact .inr (not_all_get hall)
      · exact .inl (not_all_set h1)
  rename_i h6E
  rw [if_neg h6E]
  split at h
  · split at h
    · cases h; exact absurd hc (show ¬ ((0x7A : Int) = 0x50 ∨ (0x7A : Int) = 0x52 ∨ (0x7A : Int) = 0x5E) by decide)
    · cases h
  · cases h

theorem actual_read (t : Thing) {m : Msg} (h : m.esv = 0x62) : (t.actual m).1 = t := by
  unfold Thing.actual
  simp only [h, show ¬ ((0x62 : Int) = 0x60) by decide, show ¬ ((0x62 : Int) = 0x61) by decide, if_true, if_false]
  split <;> rfl

theorem snapshot_wire {p : Int → Option Entry} {w r : Msg} {so k : Int} (h : Snapshot p w r) : Snapshot p w (onWire { r with seoj := so, tid := k }) := by
  have : ¬ TwoSections r.esv := by rw [h.1]; decide
  unfold Snapshot
  simp only [onWire, if_neg this]
  exact h

theorem justified_wire {p p' : Int → Option Entry} {w r : Msg} {so k : Int} (h : Justified p p' w r) : Justified p p' w (onWire { r with seoj := so, tid := k }) := by
  unfold Justified at h ⊢
  rcases h with h | h | h
  · have : ¬ TwoSections r.esv := by rw [h.1]; decide
    simp only [onWire, if_neg this]
    exact .inl h
  · have : ¬ TwoSections r.esv := by rw [h.1]; decide
    simp only [onWire, if_neg this]
    exact .inr (.inl h)
  · have : TwoSections r.esv := by rw [h.1]; decide
    simp only [onWire, if_pos this]
    exact .inr (.inr h)

/-! ### Devices -/

/-- Whom an answer answers. -/
theorem reply_head {t : Thing} {m r : Msg} (h : (t.actual m).2.1 = some r) : r.tid = m.tid ∧ r.seoj = m.deoj ∧ r.deoj = m.seoj := by
  unfold Thing.actual at h
  simp only [] at h
  repeat' split at h
  all_goals cases h
  all_goals exact ⟨rfl, rfl, rfl⟩

/-- What a device sends in answer goes to the one who asked, and is what the object asked says. -/
theorem device_steps {D : RefDevice} (hs : Short D) (d : Bytes) (a : Addr) : ∀ s ∈ (D.actual d a).2.1, ∀ r, readMsg (s.bytes.take 1024) = some r → Replies r →
    s.dest = a ∧ ∃ m, readMsg (d.take 1024) = some m ∧ OneStep D (D.actual d a).1 m r := by
  intro s hsd w hw hc
  have sends : ∀ (D : RefDevice) (r : Msg) (a : Addr), ∀ s ∈ D.sends r a, s.bytes = encode r ∧ (r.esv ≠ 0x73 → s.dest = a) := by
    intro D r a s hs
    unfold RefDevice.sends at hs
    split at hs
    · rename_i h
      obtain ⟨i, -, rfl⟩ := List.mem_map.mp hs; exact ⟨rfl, fun h' => absurd h h'⟩
    · obtain ⟨i, -, rfl⟩ := List.mem_map.mp hs; exact ⟨rfl, fun _ => rfl⟩
  unfold RefDevice.actual at hsd ⊢
  cases hr : readMsg (d.take 1024) with
  | none => rw [hr] at hsd; cases hsd
  | some m =>
    rw [hr] at hsd
    simp only [] at hsd ⊢
    cases ht : D.things m.deoj with
    | none => rw [ht] at hsd; cases hsd
    | some t =>
      rw [ht] at hsd
      simp only [] at hsd ⊢
      cases hq : (t.actual m).2.1 with
      | none => rw [hq] at hsd; cases hsd
      | some r =>
        rw [hq] at hsd
        simp only [] at hsd ⊢
        have hst : ShortThing t := by
          intro c e hce
          exact hs m.deoj c e (by unfold RefDevice.entry; rw [ht]; exact hce)
        have henc := (thing_reply hst (readMsg_sound _ _ hr).1 hq).1
        obtain ⟨e1, e2, -⟩ := reply_head hq
        have go : ∀ (so k x : Int) (D' : RefDevice), s.bytes = encode { r with seoj := so, tid := k } → (k = r.tid ∨ r.tid = 0) → (D.ctl = false → so = r.seoj) →
            D' = { D.setThing m.deoj (t.actual m).1 with tid := x } → (r.esv ≠ 0x73 → s.dest = a) →
            s.dest = a ∧ ∃ m', some m = some m' ∧ OneStep D D' m' w := by
          intro so k x D' hb hk hso hD hdest
          rw [hb] at hw
          have hw' := read_written (w := { r with seoj := so, tid := k }) henc hw
          have hc' : Replies r := by rw [hw'] at hc; exact hc
          refine ⟨hdest ?_, m, rfl, t, r, so, k, ht, ?_, hq, hw', by rw [e1] at hk; exact hk, by rw [e2] at hso; exact hso⟩
          · intro h73
            unfold Replies at hc'
            rw [h73] at hc'
            exact absurd hc' (by decide)
          · rw [hD]; exact if_pos rfl
        by_cases hctl : D.ctl = true
        · have hctl' : (D.setThing m.deoj (t.actual m).1).ctl = true := hctl
          have hno : D.ctl = false → ∀ x y : Int, x = y := by intro h; rw [hctl] at h; cases h
          rw [if_pos hctl'] at hsd ⊢
          by_cases h0 : r.tid = 0
          · simp only [if_pos h0] at hsd ⊢
            exact go _ _ _ _ (sends _ _ _ s hsd).1 (.inr h0) (fun h => hno h _ _) rfl (sends _ _ _ s hsd).2
          · simp only [if_neg h0] at hsd ⊢
            exact go _ _ D.tid _ (sends _ _ _ s hsd).1 (.inl rfl) (fun h => hno h _ _) rfl (sends _ _ _ s hsd).2
        · have hctl' : ¬ (D.setThing m.deoj (t.actual m).1).ctl = true := hctl
          rw [if_neg hctl'] at hsd ⊢
          by_cases h0 : r.tid = 0
          · simp only [if_pos h0] at hsd ⊢
            exact go r.seoj _ _ _ (sends _ _ _ s hsd).1 (.inr h0) (fun _ => rfl) rfl (sends _ _ _ s hsd).2
          · simp only [if_neg h0] at hsd ⊢
            exact go r.seoj r.tid D.tid _ (sends _ _ _ s hsd).1 (.inl rfl) (fun _ => rfl) rfl (sends _ _ _ s hsd).2

/-! ### Networks -/

section
variable (K : String → String → Msg → Msg → Prop) (Sel : String → Int → Prop)

/-- What a datagram from `src` answers is on record, as served at `src` for the one it is sent to. -/
def StepSent (src : String) (s : Sent) : Prop := ∀ m, readMsg (s.bytes.take 1024) = some m → Sel s.dest.1 m.tid → Replies m → ∃ w, K src s.dest.1 w m

/-- So is the answer the controller at `ip` has. -/
def StepAnswer (ip : String) (C : RefController) : Prop := ∀ m, C.answer = some m → Sel ip m.tid → Replies m →
  ∃ a m0 dst w, m = { m0 with fromAddr := some a } ∧ (dst = ip ∨ dst = everyone) ∧ K a.1 dst w m0

structure AllStep (N : RefNet) : Prop where
  dev : ∀ ip R, N.devices ip = some R → Short R.dev ∧ ∀ s ∈ R.sent, StepSent K Sel ip s
  ctl : ∀ ip R, N.controllers ip = some R → Short R.ctl.dev ∧ StepAnswer K Sel ip R.ctl ∧ ∀ s ∈ R.sent, StepSent K Sel ip s

/-- What is served from one moment to the next, of what was sent before, is put on record. -/
def Stepped (N N' : RefNet) : Prop :=
  ∀ src dst b w r, N.Carried RefRun.sent RefCtlRun.sent dst src b → readMsg (b.take 1024) = some w → RefNet.Serves N N' src w r → K src dst w r

end

variable {K : String → String → Msg → Msg → Prop} {Sel : String → Int → Prop}

theorem step_said {ip : String} {m : Msg} (hm : ¬ Replies m) (henc : Encodable m) {so k : Int} (s : Sent) (hb : s.bytes = encode { m with seoj := so, tid := k }) : StepSent K Sel ip s := by
  intro w hw _ hc
  rw [hb] at hw
  rw [read_written (w := { m with seoj := so, tid := k }) henc hw] at hc
  exact absurd hc hm

theorem step_announce {ip : String} (D : RefDevice) {m : Msg} (hm : ¬ Replies m) : ∀ s ∈ (D.announce m).2.1, StepSent K Sel ip s := by
  intro s hs
  unfold RefDevice.announce at hs
  by_cases he : Encodable m
  · rw [if_pos he] at hs
    obtain ⟨i, -, rfl⟩ := List.mem_map.mp hs
    exact step_said hm he _ rfl
  · rw [if_neg he] at hs; cases hs

theorem step_send {ip : String} (D : RefDevice) {m : Msg} (a : Option Addr) (hm : ∀ x, a = some x → ¬ Replies m) : ∀ s ∈ (D.send m a).2.1, StepSent K Sel ip s := by
  intro s hs
  cases a with
  | none => cases hs
  | some a =>
    unfold RefDevice.send at hs
    by_cases he : Encodable m
    · simp only [if_pos he] at hs
      obtain ⟨i, -, rfl⟩ := List.mem_map.mp hs
      exact step_said (hm a rfl) he _ rfl
    · simp only [if_neg he] at hs
      cases hs

theorem step_of_carried {N : RefNet} (h : AllStep K Sel N) {src ip : String} {b : Bytes} (hc : N.Carried RefRun.sent RefCtlRun.sent src ip b) (hsel : ∀ dst t, Sel dst t → Sel everyone t) :
    ∀ m, readMsg (b.take 1024) = some m → Sel ip m.tid → Replies m → ∃ dst w, (dst = ip ∨ dst = everyone) ∧ K src dst w m := by
  intro m hm hs hcf
  obtain ⟨s, h1, rfl, h2⟩ := hc
  have hf : StepSent K Sel src s := by
    rcases h1 with ⟨r, hr, hs'⟩ | ⟨r, hr, hs'⟩
    · exact (h.dev src r hr).2 s hs'
    · exact (h.ctl src r hr).2.2 s hs'
  have hs' : Sel s.dest.1 m.tid := by
    rcases h2 with h2 | h2
    · rw [h2]; exact hs
    · rw [h2]; exact hsel _ _ hs
  obtain ⟨w, hw⟩ := hf m hm hs' hcf
  exact ⟨_, w, h2, hw⟩

theorem step_answered {ip : String} {C : RefController} (h : StepAnswer K Sel ip C) {a : Addr} {m : Msg} (hm : Sel ip m.tid → Replies m → ∃ dst w, (dst = ip ∨ dst = everyone) ∧ K a.1 dst w m) :
    StepAnswer K Sel ip (C.answered { m with fromAddr := some a }) := by
  unfold RefController.answered
  split
  · intro m' h' hsel hc
    injection h' with h'
    rw [← h'] at hsel hc ⊢
    obtain ⟨dst, w, j1, j2⟩ := hm hsel hc
    exact ⟨a, m, dst, w, rfl, j1, j2⟩
  · exact h

theorem step_actual {ip : String} {fresh : Int → Int → Option Bytes} {C : RefController} (h : StepAnswer K Sel ip C) {d : Bytes} {a : Addr}
    (hm : ∀ m, readMsg (d.take 1024) = some m → Sel ip m.tid → Replies m → ∃ dst w, (dst = ip ∨ dst = everyone) ∧ K a.1 dst w m) : StepAnswer K Sel ip (C.actual fresh d a).1 := by
  have hsame : ∀ {C C' : RefController}, C'.answer = C.answer → StepAnswer K Sel ip C → StepAnswer K Sel ip C' := by
    intro C C' he h m hm
    rw [he] at hm
    exact h m hm
  unfold RefController.actual
  cases hr : readMsg (d.take 1024) with
  | none => exact h
  | some m =>
    simp only []
    split
    · exact h
    split
    · exact h
    simp only []
    have hl := hsame (list_waits fresh C a m).2 h
    generalize C.actualList fresh a m = C' at hl
    unfold RefController.actualReport
    split
    swap
    · exact step_answered hl (hm m hr)
    split
    · exact hl
    · exact step_answered (hsame (report_waits _ _ _ _ _ _).2 hl) (hm m hr)

theorem step_device {N : RefNet} {fresh : Int → Int → Option Bytes} (h : AllStep K Sel N) (ip : String) (u : Use) (hf : u.Fair)
    (hu : ∀ dst m, u.says = some (dst, m) → ¬ Replies m) (hreal : N.Real RefRun.sent RefCtlRun.sent (.device ip u))
    (hrec : Stepped K N (N.step RefRun.use (RefCtlRun.use fresh) (.device ip u)).1) : AllStep K Sel (N.step RefRun.use (RefCtlRun.use fresh) (.device ip u)).1 := by
  cases hd : N.devices ip with
  | none => simp only [Home.step, hd]; exact h
  | some R =>
    simp only [Home.step, hd] at hrec ⊢
    obtain ⟨h1, h3⟩ := h.dev ip R hd
    have app : ∀ l : List Sent, (∀ s ∈ l, StepSent K Sel ip s) → ∀ s ∈ R.sent ++ l, StepSent K Sel ip s := by
      intro l hl s h
      rcases List.mem_append.mp h with h | h
      · exact h3 s h
      · exact hl s h
    have new : Short (R.use u).1.dev ∧ ∀ s ∈ (R.use u).1.sent, StepSent K Sel ip s := by
      cases u with
      | arrive x =>
        show Short (R.arrive x).dev ∧ ∀ s ∈ (R.arrive x).sent, StepSent K Sel ip s
        have hnow : (if ip = ip then some (R.use (.arrive x)).1 else N.devices ip) = some (R.arrive x) := if_pos rfl
        have hown := fun w r q => hrec ip x.src.1 x.bytes w r hreal q
        unfold RefRun.arrive at hnow ⊢
        split
        · rename_i ha
          rw [if_pos ha] at hnow
          refine ⟨actual_short h1 _ _, app _ ?_⟩
          intro s hs r hr _ hc
          obtain ⟨j1, m, j2, j3⟩ := device_steps h1 x.bytes x.src s hs r hr hc
          rw [j1]
          exact ⟨m, hown m r j2 (.inl ⟨_, _, hd, hnow, j3⟩)⟩
        · exact ⟨h1, h3⟩
      | announce m =>
        refine ⟨?_, app _ (step_announce _ (hu none m rfl))⟩
        show Short (R.dev.announce m).1
        rw [announce_counts]; exact h1
      | send m a =>
        refine ⟨?_, app _ (step_send _ _ fun x hx => hu (some x.1) m (by rw [hx]; rfl))⟩
        show Short (R.dev.send m a).1
        rw [send_counts]; exact h1
      | store o c b => exact ⟨store_short h1 hf.2, h3⟩
    refine ⟨fun ip' R' h' => ?_, h.ctl⟩
    simp only [] at h'
    split at h'
    · rename_i e; injection h' with h'; rw [← h', e]; exact new
    · exact h.dev ip' R' h'

theorem step_controller {N : RefNet} {fresh : Int → Int → Option Bytes} (hsel : ∀ dst t, Sel dst t → Sel everyone t) (h : AllStep K Sel N) (ip : String) (u : CtlUse) (hf : u.Fair)
    (hu : ∀ dst m, u.says = some (dst, m) → ¬ Replies m) (hreal : N.Real RefRun.sent RefCtlRun.sent (.controller ip u))
    (hrec : Stepped K N (N.step RefRun.use (RefCtlRun.use fresh) (.controller ip u)).1) : AllStep K Sel (N.step RefRun.use (RefCtlRun.use fresh) (.controller ip u)).1 := by
  cases hd : N.controllers ip with
  | none => simp only [Home.step, hd]; exact h
  | some R =>
    simp only [Home.step, hd] at hrec ⊢
    obtain ⟨h1, hc, h3⟩ := h.ctl ip R hd
    have app : ∀ l : List Sent, (∀ s ∈ l, StepSent K Sel ip s) → ∀ s ∈ R.sent ++ l, StepSent K Sel ip s := by
      intro l hl s h
      rcases List.mem_append.mp h with h | h
      · exact h3 s h
      · exact hl s h
    have hann : ∀ m, ¬ Replies m → Short (R.onDevice (R.ctl.dev.announce m)).1.ctl.dev ∧ StepAnswer K Sel ip (R.onDevice (R.ctl.dev.announce m)).1.ctl ∧
        ∀ s ∈ (R.onDevice (R.ctl.dev.announce m)).1.sent, StepSent K Sel ip s := by
      intro m hm
      refine ⟨?_, hc, app _ (step_announce _ hm)⟩
      show Short (R.ctl.dev.announce m).1
      rw [announce_counts]; exact h1
    have hsend : ∀ m a, (∀ x, a = some x → ¬ Replies m) → Short (R.onDevice (R.ctl.dev.send m a)).1.ctl.dev ∧ StepAnswer K Sel ip (R.onDevice (R.ctl.dev.send m a)).1.ctl ∧
        ∀ s ∈ (R.onDevice (R.ctl.dev.send m a)).1.sent, StepSent K Sel ip s := by
      intro m a hm
      refine ⟨?_, hc, app _ (step_send _ _ hm)⟩
      show Short (R.ctl.dev.send m a).1
      rw [send_counts]; exact h1
    have new : Short (R.use fresh u).1.ctl.dev ∧ StepAnswer K Sel ip (R.use fresh u).1.ctl ∧ ∀ s ∈ (R.use fresh u).1.sent, StepSent K Sel ip s := by
      cases u with
      | device u =>
        cases u with
        | arrive x =>
          show Short (R.arrive fresh x).ctl.dev ∧ StepAnswer K Sel ip (R.arrive fresh x).ctl ∧ ∀ s ∈ (R.arrive fresh x).sent, StepSent K Sel ip s
          have hnow : (if ip = ip then some (R.use fresh (.device (.arrive x))).1 else N.controllers ip) = some (R.arrive fresh x) := if_pos rfl
          have hown := fun w r q => hrec ip x.src.1 x.bytes w r hreal q
          unfold RefCtlRun.arrive at hnow ⊢
          split
          swap
          · exact ⟨h1, hc, h3⟩
          rename_i ha
          rw [if_pos ha] at hnow
          refine ⟨?_, step_actual hc (step_of_carried h hreal hsel), app _ ?_⟩
          · show Short (R.ctl.actual fresh x.bytes x.src).1.dev
            rcases ctl_cases fresh R.ctl x.bytes x.src with e | ⟨-, e | ⟨m, -, e⟩⟩
            · rw [e]; exact actual_short h1 _ _
            · rw [e]; exact h1
            · rw [e, actualReport_dev, actualList_dev]; exact h1
          · show ∀ s ∈ (R.ctl.actual fresh x.bytes x.src).2.1, StepSent K Sel ip s
            rcases ctl_cases fresh R.ctl x.bytes x.src with e | ⟨e, -⟩
            · rw [e] at hnow ⊢
              intro s hs r hr _ hcf
              obtain ⟨j1, m, j2, j3⟩ := device_steps h1 x.bytes x.src s hs r hr hcf
              rw [j1]
              exact ⟨m, hown m r j2 (.inr ⟨_, _, hd, hnow, j3⟩)⟩
            · rw [e]; intro s hs; cases hs
        | announce m => exact hann m (hu none m rfl)
        | send m a => exact hsend m a fun x hx => hu (some x.1) m (by rw [hx]; rfl)
        | store o c b => exact ⟨store_short h1 hf.2, hc, h3⟩
      | sendTo m d => exact hsend m _ fun x hx => hu (some x.1) m (by show (whereTo d).map _ = _; rw [hx]; rfl)
      | post m d =>
        obtain ⟨k1, -, k3⟩ := hsend m (whereTo d) fun x hx => hu (some x.1) m (by show (whereTo d).map _ = _; rw [hx]; rfl)
        exact ⟨k1, (by intro m hm; cases hm), k3⟩
      | search => exact hann theSearch fun h => absurd (show (0x62 : Int) ∈ [(0x50 : Int), 0x51, 0x52, 0x53, 0x5E, 0x71, 0x72, 0x7A, 0x7E] from h) (by decide)
      | listen l => exact ⟨h1, hc, h3⟩
      | unlisten l =>
        simp only [RefCtlRun.use]
        split
        · exact ⟨h1, hc, h3⟩
        · exact ⟨h1, hc, h3⟩
    refine ⟨h.dev, fun ip' R' h' => ?_⟩
    simp only [] at h'
    split at h'
    · rename_i e; injection h' with h'; rw [← h', e]; exact new
    · exact h.ctl ip' R' h'

/-- If all that is served is put on record, everything answered was. -/
theorem step_run {fresh : Int → Int → Option Bytes} (hsel : ∀ dst t, Sel dst t → Sel everyone t) (es : List Incident) : ∀ N : RefNet, AllStep K Sel N →
    (∀ k, k < es.length → Stepped K (N.run RefRun.use (RefCtlRun.use fresh) (es.take k)).1 (N.run RefRun.use (RefCtlRun.use fresh) (es.take (k + 1))).1) → (∀ e ∈ es, e.Fair) →
    (∀ e ∈ es, ∀ dst m, e.says = some (dst, m) → ¬ Replies m) → N.May RefRun.use (RefCtlRun.use fresh) RefRun.sent RefCtlRun.sent es →
    AllStep K Sel (N.run RefRun.use (RefCtlRun.use fresh) es).1 := by
  induction es with
  | nil => intro N h _ _ _ _; exact h
  | cons e es ih =>
    intro N h hn hf hu hm
    refine ih _ ?_ (fun k hk => hn (k + 1) (Nat.succ_lt_succ hk)) (fun x hx => hf x (List.mem_cons_of_mem _ hx)) (fun x hx => hu x (List.mem_cons_of_mem _ hx)) hm.2
    cases e with
    | device ip u => exact step_device h ip u (hf _ (List.mem_cons_self ..)) (hu _ (List.mem_cons_self ..)) hm.1 (hn 0 (Nat.succ_pos _))
    | controller ip u => exact step_controller hsel h ip u (hf _ (List.mem_cons_self ..)) (hu _ (List.mem_cons_self ..)) hm.1 (hn 0 (Nat.succ_pos _))

end Uecho
