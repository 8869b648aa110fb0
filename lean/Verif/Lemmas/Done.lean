/- Lemmas for C159: what is confirmed was done. -/
import Verif.Spec.Done
import Verif.Lemmas.Once
import Verif.Lemmas.Settled

namespace Uecho
open Spec

/-! ### Objects -/

theorem lastOf_none (is : List PProp) (c : Int) (h : lastOf is c = none) : ∀ i ∈ is, i.code ≠ c := by
  induction is with
  | nil => intro i hi; cases hi
  | cons i is ih =>
    unfold lastOf at h
    cases hl : lastOf is c with
    | some b => rw [hl] at h; cases h
    | none =>
      rw [hl] at h
      simp only [] at h
      intro j hj
      rcases List.mem_cons.mp hj with rfl | hj
      · intro hc; rw [if_pos hc] at h; cases h
      · exact ih hl j hj

theorem put_canSet (t : Thing) (i : PProp) (c : Int) : (t.put i).canSet c = t.canSet c := by
  show isWritable (if c = i.code then _ else _) = isWritable (t.props c)
  split
  · cases t.props c with
    | none => rfl
    | some e =>
      show (if e.writable = true then ({ e with data := i.data } : Entry) else e).writable = e.writable
      split <;> rfl
  · rfl

theorem puts_last (is : List PProp) : ∀ (t : Thing), t.canSetAll is = true → ∀ c b, lastOf is c = some b → ∃ e, (t.puts is).props c = some e ∧ e.data = b := by
  induction is with
  | nil => intro t _ c b h; cases h
  | cons i is ih =>
    intro t hall c b h
    have hall : (t.canSet i.code && t.canSetAll is) = true := hall
    rw [Bool.and_eq_true] at hall
    have hrest : (t.put i).canSetAll is = true := by
      unfold Thing.canSetAll at *
      rw [List.all_eq_true] at *
      intro j hj
      rw [put_canSet]
      exact hall.2 j hj
    unfold lastOf at h
    cases hl : lastOf is c with
    | some b' =>
      rw [hl] at h
      injection h with h
      subst h
      exact ih (t.put i) hrest c b' hl
    | none =>
      rw [hl] at h
      simp only [] at h
      split at h
      swap
      · cases h
      rename_i hc
      injection h with h
      have : (t.puts (i :: is)).props c = (t.put i).props c := puts_other is (t.put i) c (lastOf_none is c hl)
      rw [this]
      show ∃ e : Entry, (if c = i.code then _ else _) = some e ∧ e.data = b
      rw [if_pos hc.symm]
      have hw := hall.1
      rw [hc] at hw
      unfold Thing.canSet at hw
      cases hp : t.props c with
      | none => rw [hp] at hw; cases hw
      | some e =>
        rw [hp] at hw
        have hw : e.writable = true := hw
        exact ⟨_, rfl, by simp only [hw, if_true]; exact h⟩

theorem puts_canGet_same (is : List PProp) : ∀ (t : Thing) (c : Int), (t.puts is).canGet c = t.canGet c := by
  induction is with
  | nil => intro t c; rfl
  | cons i is ih =>
    intro t c
    show ((t.put i).puts is).canGet c = _
    rw [ih]
    show isReadable (if c = i.code then _ else _) = isReadable (t.props c)
    split
    · cases t.props c with
      | none => rfl
      | some e =>
        show (if e.writable = true then ({ e with data := i.data } : Entry) else e).readable = e.readable
        split <;> rfl
    · rfl

theorem refused_codes (t : Thing) (is : List PProp) : (t.refused is).map PProp.code = is.map PProp.code := by
  unfold Thing.refused; rw [List.map_map]; rfl

theorem values_codes (t : Thing) (is : List PProp) : (t.values is).map PProp.code = is.map PProp.code := by
  unfold Thing.values; rw [List.map_map]; rfl

/-- What an object confirms it has done. -/
theorem thing_does {t : Thing} {m r : Msg} (h : (t.actual m).2.1 = some r) (hc : Confirms r) : Did (t.actual m).1.props m r ∧ r.seoj = m.deoj ∧ r.tid = m.tid := by
  unfold Thing.actual at h ⊢
  simp only [] at h ⊢
  split at h
  · cases h
  rename_i hserves
  rw [if_neg hserves]
  split at h
  · split at h
    · cases h
    · injection h with h
      subst h
      exact absurd (show (0x50 : Int) = 0x71 ∨ (0x50 : Int) = 0x7E from hc) (by decide)
  rename_i h60
  rw [if_neg h60]
  split at h
  · rename_i h61
    rw [if_pos h61]
    injection h with h
    subst h
    by_cases hall : t.canSetAll m.props = true
    · exact ⟨⟨.inl rfl, rfl, .inl ⟨h61, if_pos hall, refused_codes _ _, puts_last _ t hall⟩⟩, rfl, rfl⟩
    · have hc : (if t.canSetAll m.props = true then (0x71 : Int) else 0x50) = 0x71 ∨ (if t.canSetAll m.props = true then (0x71 : Int) else 0x50) = 0x7E := hc
      rw [if_neg hall] at hc
      exact absurd hc (by decide)
  rename_i h61
  rw [if_neg h61]
  split at h
  · injection h with h
    subst h
    simp only [Confirms] at hc
    split at hc
    · exact absurd hc (by decide)
    · exact absurd hc (by decide)
  rename_i h62
  rw [if_neg h62]
  split at h
  · injection h with h
    subst h
    simp only [Confirms] at hc
    split at hc
    · exact absurd hc (by decide)
    · exact absurd hc (by decide)
  rename_i h63
  rw [if_neg h63]
  split at h
  · rename_i h6E
    rw [if_pos h6E]
    split at h
    swap
    · cases h
    rename_i hk
    rw [if_pos hk]
    injection h with h
    subst h
    simp only [Confirms] at hc
    split at hc
    swap
    · exact absurd hc (by decide)
    rename_i hall
    have hall' := hall
    rw [Bool.and_eq_true] at hall'
    refine ⟨⟨.inl rfl, rfl, .inr ⟨h6E, if_pos hall, refused_codes _ _, values_codes _ _, puts_last _ t hall'.1, fun i hi => ?_⟩⟩, rfl, rfl⟩
    obtain ⟨j, hj, rfl⟩ := List.mem_map.mp hi
    have hg : (t.puts m.setProps).canGet j.code = true := by
      rw [puts_canGet_same]
      exact List.all_eq_true.mp hall'.2 j hj
    simp only [Thing.value]
    unfold Thing.canGet at hg
    cases hp : (t.puts m.setProps).props j.code with
    | none => rw [hp] at hg; cases hg
    | some e =>
      rw [hp] at hg
      have hg : e.readable = true := hg
      exact ⟨e, rfl, by simp only [hg, if_true]⟩
  rename_i h6E
  rw [if_neg h6E]
  split at h
  · split at h
    · injection h with h
      subst h
      exact absurd (show (0x7A : Int) = 0x71 ∨ (0x7A : Int) = 0x7E from hc) (by decide)
    · cases h
  · cases h

theorem did_wire {p : Int → Option Entry} {w r : Msg} {so k : Int} (h : Did p w r) (hk : k % 2 ^ 16 = w.tid ∨ w.tid = 0) (hs : w.seoj % 2 ^ 24 = w.seoj) : Did p w (onWire { r with seoj := so, tid := k }) := by
  refine ⟨hk, by show r.deoj % 2 ^ 24 = _; rw [h.to_, hs], ?_⟩
  rcases h.does with ⟨h1, h2, h3⟩ | ⟨h1, h2, h3⟩
  · refine .inl ⟨h1, h2, ?_⟩
    have : ¬ TwoSections r.esv := by rw [h2]; decide
    simp only [onWire, if_neg this]
    exact h3
  · refine .inr ⟨h1, h2, ?_⟩
    have : TwoSections r.esv := by rw [h2]; decide
    simp only [onWire, if_pos this]
    exact h3

/-! ### Devices -/

/-- What a device sends in confirmation goes to the one who asked, and is so. -/
theorem device_does {D : RefDevice} (hs : Short D) (d : Bytes) (a : Addr) : ∀ s ∈ (D.actual d a).2.1, ∀ r, readMsg (s.bytes.take 1024) = some r → Confirms r →
    s.dest = a ∧ ∃ m, readMsg (d.take 1024) = some m ∧ Did ((D.actual d a).1.entry m.deoj) m r ∧ ((D.actual d a).1.ctl = false → r.seoj = m.deoj) := by
  intro s hsd w hw hc
  have sends : ∀ (D : RefDevice) (r : Msg) (a : Addr), ∀ s ∈ D.sends r a, s.bytes = encode r ∧ (r.esv ≠ 0x73 → s.dest = a) := by
    intro D r a s hs
    unfold RefDevice.sends at hs
    split at hs
    · rename_i h
      obtain ⟨i, -, rfl⟩ := List.mem_map.mp hs; exact ⟨rfl, fun h' => absurd h h'⟩
    · obtain ⟨i, -, rfl⟩ := List.mem_map.mp hs; exact ⟨rfl, fun _ => rfl⟩
  unfold RefDevice.actual at hsd ⊢
  cases hr : readMsg (d.take 1024) with
  | none => rw [hr] at hsd; cases hsd
  | some m =>
    rw [hr] at hsd
    simp only [] at hsd ⊢
    cases ht : D.things m.deoj with
    | none => rw [ht] at hsd; cases hsd
    | some t =>
      rw [ht] at hsd
      simp only [] at hsd ⊢
      cases hq : (t.actual m).2.1 with
      | none => rw [hq] at hsd; cases hsd
      | some r =>
        rw [hq] at hsd
        simp only [] at hsd ⊢
        have hst : ShortThing t := by
          intro c e hce
          exact hs m.deoj c e (by unfold RefDevice.entry; rw [ht]; exact hce)
        have henc := (thing_reply hst (readMsg_sound _ _ hr).1 hq).1
        have hwire := (readMsg_sound _ _ hr).2.1
        have hseoj : m.seoj % 2 ^ 24 = m.seoj := (congrArg Msg.seoj hwire).symm
        have hdeoj : m.deoj % 2 ^ 24 = m.deoj := (congrArg Msg.deoj hwire).symm
        have htid : m.tid % 2 ^ 16 = m.tid := (congrArg Msg.tid hwire).symm
        have go : ∀ (so k x : Int) (D' : RefDevice), s.bytes = encode { r with seoj := so, tid := k } → (k = r.tid ∨ r.tid = 0) → (D.ctl = false → so = r.seoj) →
            D' = { D.setThing m.deoj (t.actual m).1 with tid := x } → (r.esv ≠ 0x73 → s.dest = a) →
            s.dest = a ∧ ∃ m', some m = some m' ∧ Did (D'.entry m'.deoj) m' w ∧ (D'.ctl = false → w.seoj = m'.deoj) := by
          intro so k x D' hb hk hso hD hdest
          rw [hb] at hw
          have hw' := read_written (w := { r with seoj := so, tid := k }) henc hw
          have hc' : Confirms r := by rw [hw'] at hc; exact hc
          obtain ⟨j1, j2, j3⟩ := thing_does hq hc'
          refine ⟨hdest ?_, m, rfl, ?_, ?_⟩
          · intro h73
            have hc' : r.esv = 0x71 ∨ r.esv = 0x7E := hc'
            rw [h73] at hc'
            exact absurd hc' (by decide)
          · rw [hw']
            have he : D'.entry m.deoj = (t.actual m).1.props := by
              funext c
              rw [hD, entry_set, if_pos rfl]
            rw [he]
            refine did_wire j1 ?_ hseoj
            rw [j3] at hk
            rcases hk with hk | hk
            · rw [hk]; exact .inl htid
            · exact .inr hk
          · intro hctl
            rw [hw']
            show so % 2 ^ 24 = m.deoj
            rw [hso (by rw [hD] at hctl; exact hctl), j2, hdeoj]
        by_cases hctl : D.ctl = true
        · have hctl' : (D.setThing m.deoj (t.actual m).1).ctl = true := hctl
          have hno : D.ctl = false → ∀ x y : Int, x = y := by intro h; rw [hctl] at h; cases h
          rw [if_pos hctl'] at hsd ⊢
          by_cases h0 : r.tid = 0
          · simp only [if_pos h0] at hsd ⊢
            exact go _ _ _ _ (sends _ _ _ s hsd).1 (.inr h0) (fun h => hno h _ _) rfl (sends _ _ _ s hsd).2
          · simp only [if_neg h0] at hsd ⊢
            exact go _ _ D.tid _ (sends _ _ _ s hsd).1 (.inl rfl) (fun h => hno h _ _) rfl (sends _ _ _ s hsd).2
        · have hctl' : ¬ (D.setThing m.deoj (t.actual m).1).ctl = true := hctl
          rw [if_neg hctl'] at hsd ⊢
          by_cases h0 : r.tid = 0
          · simp only [if_pos h0] at hsd ⊢
            exact go r.seoj _ _ _ (sends _ _ _ s hsd).1 (.inr h0) (fun _ => rfl) rfl (sends _ _ _ s hsd).2
          · simp only [if_neg h0] at hsd ⊢
            exact go r.seoj r.tid D.tid _ (sends _ _ _ s hsd).1 (.inl rfl) (fun _ => rfl) rfl (sends _ _ _ s hsd).2

/-! ### Networks -/

section
variable (K : String → String → Msg → Msg → Prop) (Sel : String → Int → Prop)

/-- What a datagram from `src` confirms is on record, as done at `src` for the one it is sent to. -/
def DoneSent (src : String) (s : Sent) : Prop := ∀ m, readMsg (s.bytes.take 1024) = some m → Sel s.dest.1 m.tid → Confirms m → ∃ w, K src s.dest.1 w m

/-- So is what the answer of the controller at `ip` confirms. -/
def DoneAnswer (ip : String) (C : RefController) : Prop := ∀ m, C.answer = some m → Sel ip m.tid → Confirms m →
  ∃ a m0 dst w, m = { m0 with fromAddr := some a } ∧ (dst = ip ∨ dst = everyone) ∧ K a.1 dst w m0

structure AllDone (N : RefNet) : Prop where
  dev : ∀ ip R, N.devices ip = some R → Short R.dev ∧ ∀ s ∈ R.sent, DoneSent K Sel ip s
  ctl : ∀ ip R, N.controllers ip = some R → Short R.ctl.dev ∧ DoneAnswer K Sel ip R.ctl ∧ ∀ s ∈ R.sent, DoneSent K Sel ip s

/-- What is done from one moment to the next, of what was sent before, is put on record. -/
def Recorded (N N' : RefNet) : Prop :=
  ∀ src dst b w r, N.Carried RefRun.sent RefCtlRun.sent dst src b → readMsg (b.take 1024) = some w → N'.HasDone src w r → K src dst w r

end

variable {K : String → String → Msg → Msg → Prop} {Sel : String → Int → Prop}

theorem done_said {ip : String} {m : Msg} (hm : ¬ Confirms m) (henc : Encodable m) {so k : Int} (s : Sent) (hb : s.bytes = encode { m with seoj := so, tid := k }) : DoneSent K Sel ip s := by
  intro w hw _ hc
  rw [hb] at hw
  rw [read_written (w := { m with seoj := so, tid := k }) henc hw] at hc
  exact absurd hc hm

theorem done_announce {ip : String} (D : RefDevice) {m : Msg} (hm : ¬ Confirms m) : ∀ s ∈ (D.announce m).2.1, DoneSent K Sel ip s := by
  intro s hs
  unfold RefDevice.announce at hs
  by_cases he : Encodable m
  · rw [if_pos he] at hs
    obtain ⟨i, -, rfl⟩ := List.mem_map.mp hs
    exact done_said hm he _ rfl
  · rw [if_neg he] at hs; cases hs

theorem done_send {ip : String} (D : RefDevice) {m : Msg} (a : Option Addr) (hm : ∀ x, a = some x → ¬ Confirms m) : ∀ s ∈ (D.send m a).2.1, DoneSent K Sel ip s := by
  intro s hs
  cases a with
  | none => cases hs
  | some a =>
    unfold RefDevice.send at hs
    by_cases he : Encodable m
    · simp only [if_pos he] at hs
      obtain ⟨i, -, rfl⟩ := List.mem_map.mp hs
      exact done_said (hm a rfl) he _ rfl
    · simp only [if_neg he] at hs
      cases hs

theorem done_of_carried {N : RefNet} (h : AllDone K Sel N) {src ip : String} {b : Bytes} (hc : N.Carried RefRun.sent RefCtlRun.sent src ip b) (hsel : ∀ dst t, Sel dst t → Sel everyone t) :
    ∀ m, readMsg (b.take 1024) = some m → Sel ip m.tid → Confirms m → ∃ dst w, (dst = ip ∨ dst = everyone) ∧ K src dst w m := by
  intro m hm hs hcf
  obtain ⟨s, h1, rfl, h2⟩ := hc
  have hf : DoneSent K Sel src s := by
    rcases h1 with ⟨r, hr, hs'⟩ | ⟨r, hr, hs'⟩
    · exact (h.dev src r hr).2 s hs'
    · exact (h.ctl src r hr).2.2 s hs'
  have hs' : Sel s.dest.1 m.tid := by
    rcases h2 with h2 | h2
    · rw [h2]; exact hs
    · rw [h2]; exact hsel _ _ hs
  obtain ⟨w, hw⟩ := hf m hm hs' hcf
  exact ⟨_, w, h2, hw⟩

theorem done_answered {ip : String} {C : RefController} (h : DoneAnswer K Sel ip C) {a : Addr} {m : Msg} (hm : Sel ip m.tid → Confirms m → ∃ dst w, (dst = ip ∨ dst = everyone) ∧ K a.1 dst w m) :
    DoneAnswer K Sel ip (C.answered { m with fromAddr := some a }) := by
  unfold RefController.answered
  split
  · intro m' h' hsel hc
    injection h' with h'
    rw [← h'] at hsel hc ⊢
    obtain ⟨dst, w, j1, j2⟩ := hm hsel hc
    exact ⟨a, m, dst, w, rfl, j1, j2⟩
  · exact h

theorem done_actual {ip : String} {fresh : Int → Int → Option Bytes} {C : RefController} (h : DoneAnswer K Sel ip C) {d : Bytes} {a : Addr}
    (hm : ∀ m, readMsg (d.take 1024) = some m → Sel ip m.tid → Confirms m → ∃ dst w, (dst = ip ∨ dst = everyone) ∧ K a.1 dst w m) : DoneAnswer K Sel ip (C.actual fresh d a).1 := by
  have hsame : ∀ {C C' : RefController}, C'.answer = C.answer → DoneAnswer K Sel ip C → DoneAnswer K Sel ip C' := by
    intro C C' he h m hm
    rw [he] at hm
    exact h m hm
  unfold RefController.actual
  cases hr : readMsg (d.take 1024) with
  | none => exact h
  | some m =>
    simp only []
    split
    · exact h
    split
    · exact h
    simp only []
    have hl := hsame (list_waits fresh C a m).2 h
    generalize C.actualList fresh a m = C' at hl
    unfold RefController.actualReport
    split
    swap
    · exact done_answered hl (hm m hr)
    split
    · exact hl
    · exact done_answered (hsame (report_waits _ _ _ _ _ _).2 hl) (hm m hr)

theorem done_device {N : RefNet} {fresh : Int → Int → Option Bytes} (h : AllDone K Sel N) (ip : String) (u : Use) (hf : u.Fair)
    (hu : ∀ dst m, u.says = some (dst, m) → ¬ Confirms m) (hreal : N.Real RefRun.sent RefCtlRun.sent (.device ip u))
    (hrec : Recorded K N (N.step RefRun.use (RefCtlRun.use fresh) (.device ip u)).1) : AllDone K Sel (N.step RefRun.use (RefCtlRun.use fresh) (.device ip u)).1 := by
  cases hd : N.devices ip with
  | none => simp only [Home.step, hd]; exact h
  | some R =>
    simp only [Home.step, hd] at hrec ⊢
    obtain ⟨h1, h3⟩ := h.dev ip R hd
    have app : ∀ l : List Sent, (∀ s ∈ l, DoneSent K Sel ip s) → ∀ s ∈ R.sent ++ l, DoneSent K Sel ip s := by
      intro l hl s h
      rcases List.mem_append.mp h with h | h
      · exact h3 s h
      · exact hl s h
    have new : Short (R.use u).1.dev ∧ ∀ s ∈ (R.use u).1.sent, DoneSent K Sel ip s := by
      cases u with
      | arrive x =>
        show Short (R.arrive x).dev ∧ ∀ s ∈ (R.arrive x).sent, DoneSent K Sel ip s
        have hnow : (if ip = ip then some (R.use (.arrive x)).1 else N.devices ip) = some (R.arrive x) := if_pos rfl
        have hown := fun w r q => hrec ip x.src.1 x.bytes w r hreal q
        unfold RefRun.arrive at hnow ⊢
        split
        · rename_i ha
          rw [if_pos ha] at hnow
          refine ⟨actual_short h1 _ _, app _ ?_⟩
          intro s hs r hr _ hc
          obtain ⟨j1, m, j2, j3, j4⟩ := device_does h1 x.bytes x.src s hs r hr hc
          rw [j1]
          exact ⟨m, hown m r j2 ⟨_, .inl ⟨_, hnow, rfl⟩, j3, j4⟩⟩
        · exact ⟨h1, h3⟩
      | announce m =>
        refine ⟨?_, app _ (done_announce _ (hu none m rfl))⟩
        show Short (R.dev.announce m).1
        rw [announce_counts]; exact h1
      | send m a =>
        refine ⟨?_, app _ (done_send _ _ fun x hx => hu (some x.1) m (by rw [hx]; rfl))⟩
        show Short (R.dev.send m a).1
        rw [send_counts]; exact h1
      | store o c b => exact ⟨store_short h1 hf.2, h3⟩
    refine ⟨fun ip' R' h' => ?_, h.ctl⟩
    simp only [] at h'
    split at h'
    · rename_i e; injection h' with h'; rw [← h', e]; exact new
    · exact h.dev ip' R' h'

theorem done_controller {N : RefNet} {fresh : Int → Int → Option Bytes} (hsel : ∀ dst t, Sel dst t → Sel everyone t) (h : AllDone K Sel N) (ip : String) (u : CtlUse) (hf : u.Fair)
    (hu : ∀ dst m, u.says = some (dst, m) → ¬ Confirms m) (hreal : N.Real RefRun.sent RefCtlRun.sent (.controller ip u))
    (hrec : Recorded K N (N.step RefRun.use (RefCtlRun.use fresh) (.controller ip u)).1) : AllDone K Sel (N.step RefRun.use (RefCtlRun.use fresh) (.controller ip u)).1 := by
  cases hd : N.controllers ip with
  | none => simp only [Home.step, hd]; exact h
  | some R =>
    simp only [Home.step, hd] at hrec ⊢
    obtain ⟨h1, hc, h3⟩ := h.ctl ip R hd
    have app : ∀ l : List Sent, (∀ s ∈ l, DoneSent K Sel ip s) → ∀ s ∈ R.sent ++ l, DoneSent K Sel ip s := by
      intro l hl s h
      rcases List.mem_append.mp h with h | h
      · exact h3 s h
      · exact hl s h
    have hann : ∀ m, ¬ Confirms m → Short (R.onDevice (R.ctl.dev.announce m)).1.ctl.dev ∧ DoneAnswer K Sel ip (R.onDevice (R.ctl.dev.announce m)).1.ctl ∧
        ∀ s ∈ (R.onDevice (R.ctl.dev.announce m)).1.sent, DoneSent K Sel ip s := by
      intro m hm
      refine ⟨?_, hc, app _ (done_announce _ hm)⟩
      show Short (R.ctl.dev.announce m).1
      rw [announce_counts]; exact h1
    have hsend : ∀ m a, (∀ x, a = some x → ¬ Confirms m) → Short (R.onDevice (R.ctl.dev.send m a)).1.ctl.dev ∧ DoneAnswer K Sel ip (R.onDevice (R.ctl.dev.send m a)).1.ctl ∧
        ∀ s ∈ (R.onDevice (R.ctl.dev.send m a)).1.sent, DoneSent K Sel ip s := by
      intro m a hm
      refine ⟨?_, hc, app _ (done_send _ _ hm)⟩
      show Short (R.ctl.dev.send m a).1
      rw [send_counts]; exact h1
    have new : Short (R.use fresh u).1.ctl.dev ∧ DoneAnswer K Sel ip (R.use fresh u).1.ctl ∧ ∀ s ∈ (R.use fresh u).1.sent, DoneSent K Sel ip s := by
      cases u with
      | device u =>
        cases u with
        | arrive x =>
          show Short (R.arrive fresh x).ctl.dev ∧ DoneAnswer K Sel ip (R.arrive fresh x).ctl ∧ ∀ s ∈ (R.arrive fresh x).sent, DoneSent K Sel ip s
          have hnow : (if ip = ip then some (R.use fresh (.device (.arrive x))).1 else N.controllers ip) = some (R.arrive fresh x) := if_pos rfl
          have hown := fun w r q => hrec ip x.src.1 x.bytes w r hreal q
          unfold RefCtlRun.arrive at hnow ⊢
          split
          swap
          · exact ⟨h1, hc, h3⟩
          rename_i ha
          rw [if_pos ha] at hnow
          refine ⟨?_, done_actual hc (done_of_carried h hreal hsel), app _ ?_⟩
          · show Short (R.ctl.actual fresh x.bytes x.src).1.dev
            rcases ctl_cases fresh R.ctl x.bytes x.src with e | ⟨-, e | ⟨m, -, e⟩⟩
            · rw [e]; exact actual_short h1 _ _
            · rw [e]; exact h1
            · rw [e, actualReport_dev, actualList_dev]; exact h1
          · show ∀ s ∈ (R.ctl.actual fresh x.bytes x.src).2.1, DoneSent K Sel ip s
            rcases ctl_cases fresh R.ctl x.bytes x.src with e | ⟨e, -⟩
            · rw [e] at hnow ⊢
              intro s hs r hr _ hcf
              obtain ⟨j1, m, j2, j3, j4⟩ := device_does h1 x.bytes x.src s hs r hr hcf
              rw [j1]
              exact ⟨m, hown m r j2 ⟨_, .inr ⟨_, hnow, rfl⟩, j3, j4⟩⟩
            · rw [e]; intro s hs; cases hs
        | announce m => exact hann m (hu none m rfl)
        | send m a => exact hsend m a fun x hx => hu (some x.1) m (by rw [hx]; rfl)
        | store o c b => exact ⟨store_short h1 hf.2, hc, h3⟩
      | sendTo m d => exact hsend m _ fun x hx => hu (some x.1) m (by show (whereTo d).map _ = _; rw [hx]; rfl)
      | post m d =>
        obtain ⟨k1, -, k3⟩ := hsend m (whereTo d) fun x hx => hu (some x.1) m (by show (whereTo d).map _ = _; rw [hx]; rfl)
        exact ⟨k1, (by intro m hm; cases hm), k3⟩
      | search => exact hann theSearch fun h => absurd (show (0x62 : Int) = 0x71 ∨ (0x62 : Int) = 0x7E from h) (by decide)
      | listen l => exact ⟨h1, hc, h3⟩
      | unlisten l =>
        simp only [RefCtlRun.use]
        split
        · exact ⟨h1, hc, h3⟩
        · exact ⟨h1, hc, h3⟩
    refine ⟨h.dev, fun ip' R' h' => ?_⟩
    simp only [] at h'
    split at h'
    · rename_i e; injection h' with h'; rw [← h', e]; exact new
    · exact h.ctl ip' R' h'

/-- If all that is done is put on record, everything confirmed was. -/
theorem done_run {fresh : Int → Int → Option Bytes} (hsel : ∀ dst t, Sel dst t → Sel everyone t) (es : List Incident) : ∀ N : RefNet, AllDone K Sel N →
    (∀ k, k < es.length → Recorded K (N.run RefRun.use (RefCtlRun.use fresh) (es.take k)).1 (N.run RefRun.use (RefCtlRun.use fresh) (es.take (k + 1))).1) → (∀ e ∈ es, e.Fair) →
    (∀ e ∈ es, ∀ dst m, e.says = some (dst, m) → ¬ Confirms m) → N.May RefRun.use (RefCtlRun.use fresh) RefRun.sent RefCtlRun.sent es →
    AllDone K Sel (N.run RefRun.use (RefCtlRun.use fresh) es).1 := by
  induction es with
  | nil => intro N h _ _ _ _; exact h
  | cons e es ih =>
    intro N h hn hf hu hm
    refine ih _ ?_ (fun k hk => hn (k + 1) (Nat.succ_lt_succ hk)) (fun x hx => hf x (List.mem_cons_of_mem _ hx)) (fun x hx => hu x (List.mem_cons_of_mem _ hx)) hm.2
    cases e with
    | device ip u => exact done_device h ip u (hf _ (List.mem_cons_self ..)) (hu _ (List.mem_cons_self ..)) hm.1 (hn 0 (Nat.succ_pos _))
    | controller ip u => exact done_controller hsel h ip u (hf _ (List.mem_cons_self ..)) (hu _ (List.mem_cons_self ..)) hm.1 (hn 0 (Nat.succ_pos _))

/-- Nobody moves in. -/
theorem home_nobody {δ κ : Type} (onD : δ → Use → δ × Given) (onC : κ → CtlUse → κ × Given) (ip : String) (es : List Incident) : ∀ N : Home δ κ, N.devices ip = none → N.controllers ip = none →
    (N.run onD onC es).1.devices ip = none ∧ (N.run onD onC es).1.controllers ip = none := by
  induction es with
  | nil => intro N h1 h2; exact ⟨h1, h2⟩
  | cons e es ih =>
    intro N h1 h2
    have : (N.step onD onC e).1.devices ip = none ∧ (N.step onD onC e).1.controllers ip = none := by
      cases e with
      | device x u =>
        cases hd : N.devices x with
        | none => simp only [Home.step, hd]; exact ⟨h1, h2⟩
        | some R =>
          simp only [Home.step, hd]
          refine ⟨?_, h2⟩
          split
          · rename_i he; rw [he] at h1; rw [h1] at hd; cases hd
          · exact h1
      | controller x u =>
        cases hd : N.controllers x with
        | none => simp only [Home.step, hd]; exact ⟨h1, h2⟩
        | some R =>
          simp only [Home.step, hd]
          refine ⟨h1, ?_⟩
          split
          · rename_i he; rw [he] at h2; rw [h2] at hd; cases hd
          · exact h2
    exact ih _ this.1 this.2

end Uecho
