/- Lemmas for C154: what is on its way in a polite network, and that it harms nobody. -/
import Verif.Spec.Polite
import Verif.Lemmas.Closed
import Verif.Lemmas.Length

namespace Uecho
open Spec

/-- An instance list that can be read. -/
def ListData (d : Bytes) : Prop := ∃ b rest, d = b :: rest ∧ 3 * b.toNat ≤ rest.length

/-- A device whose data fit a message and whose profile has an instance list nobody may write. -/
def Orderly (D : RefDevice) : Prop := Short D ∧ ∀ e, D.entry 0x0EF001 0xD6 = some e → e.writable = false ∧ ListData e.data

/-- A request on its way from `src` to `dst`. -/
def Wondering (N : RefNet) (src dst : String) (m : Msg) : Prop :=
  (Searches m ∧ dst = everyone) ∨
  (ShortRequest m ∧ dst ≠ everyone ∧ ∀ R, N.controllers src = some R → m.seoj = 0x0EF001 ∧ (∀ i ∈ m.props, i.code ≠ 0xD5 ∧ i.code ≠ 0xD6) ∧ R.ctl.node dst ≠ none)

/-- An answer on its way from `src` to `dst`. -/
def Replying (N : RefNet) (src dst : String) (m : Msg) : Prop :=
  (m.esv = 0x71 ∨ m.esv = 0x72 ∨ m.esv = 0x50 ∨ m.esv = 0x52) ∧ dst ≠ everyone ∧
  (m.esv = 0x72 → ∀ R, N.controllers dst = some R → m.deoj = 0x0EF001 ∧
    (((∃ l, instanceListOf m = .codes l) ∧ m.seoj = 0x0EF001 ∧ ∀ i ∈ m.props, i.code = 0xD6) ∨ (instanceListOf m = .notAList ∧ R.ctl.node src ≠ none)))

def Tame (N : RefNet) (src : String) (s : Sent) : Prop := ∃ m, readMsg (s.bytes.take 1024) = some m ∧ (Wondering N src s.dest.1 m ∨ Replying N src s.dest.1 m)

/-- Controllers stay, and know what they knew. -/
def Grows (N N' : RefNet) : Prop := ∀ ip R', N'.controllers ip = some R' → ∃ R, N.controllers ip = some R ∧ ∀ x, R.ctl.node x ≠ none → R'.ctl.node x ≠ none

theorem Grows.refl (N : RefNet) : Grows N N := fun _ R' h => ⟨R', h, fun _ h => h⟩

theorem tame_grows {N N' : RefNet} (h : Grows N N') {src : String} {s : Sent} (ht : Tame N src s) : Tame N' src s := by
  obtain ⟨m, hr, h1 | h1⟩ := ht
  · refine ⟨m, hr, .inl ?_⟩
    rcases h1 with h1 | ⟨h1, h2, h3⟩
    · exact .inl h1
    · refine .inr ⟨h1, h2, fun R' hR' => ?_⟩
      obtain ⟨R, hR, hk⟩ := h src R' hR'
      obtain ⟨k1, k2, k3⟩ := h3 R hR
      exact ⟨k1, k2, hk _ k3⟩
  · obtain ⟨h1, h2, h3⟩ := h1
    refine ⟨m, hr, .inr ⟨h1, h2, fun he R' hR' => ?_⟩⟩
    obtain ⟨R, hR, hk⟩ := h _ R' hR'
    obtain ⟨k1, k2⟩ := h3 he R hR
    refine ⟨k1, ?_⟩
    rcases k2 with k2 | ⟨k2, k3⟩
    · exact .inl k2
    · exact .inr ⟨k2, hk _ k3⟩

theorem orderly_actual {D : RefDevice} (h : Orderly D) (d : Bytes) (a : Addr) : Orderly (D.actual d a).1 := by
  refine ⟨actual_short h.1 d a, fun e he => ?_⟩
  rcases actual_entry D d a 0x0EF001 0xD6 with k | ⟨m, e0, e', -, k1, k2, -, -, k3, k4⟩
  · rw [k] at he; exact h.2 e he
  · rw [k2] at he
    injection he with he
    subst he
    obtain ⟨j1, j2⟩ := h.2 e0 k1
    refine ⟨by rw [k3]; exact j1, ?_⟩
    rcases k4 with k4 | ⟨k4, -⟩
    · rw [k4]; exact j2
    · rw [j1] at k4; cases k4

theorem orderly_store {D : RefDevice} (h : Orderly D) {o c : Int} {b : Bytes} (ho : o ≠ 0x0EF001) (hb : b.length ≤ 255) : Orderly (D.store o c b) := by
  refine ⟨?_, fun e he => ?_⟩
  · intro o' c' e he
    rw [entry_store] at he
    split at he
    · obtain ⟨e0, -, rfl⟩ := Option.map_eq_some_iff.mp he
      show b.length < 256
      omega
    · exact h.1 o' c' e he
  · rw [entry_store, if_neg (fun k => ho k.1.symm)] at he
    exact h.2 e he

/-- A message that fits is read as it was written. -/
theorem read_back {w : Msg} (hw : Encodable w) (ht : ¬ TwoSections w.esv) (hi : w.props.length ≤ 3) : readMsg ((encode w).take 1024) = some (onWire w) := by
  have hl : (encode w).length ≤ 1024 := by
    obtain ⟨-, h⟩ := hw
    rw [if_neg ht] at h
    have h1 := sum_bound w.props fun p hp => by have := (h.2 p hp).2.2; omega
    rw [encode_length]
    unfold encBody
    rw [if_neg ht, encSection_length]
    omega
  rw [List.take_of_length_le hl]
  have h := readMsg_enc w hw []
  rwa [List.append_nil] at h

/-- What an object answers to a request to read or write. -/
theorem thing_answer {t : Thing} {m r : Msg} (he : m.esv = 0x60 ∨ m.esv = 0x61 ∨ m.esv = 0x62) (h : (t.actual m).2.1 = some r) :
    r.deoj = m.seoj ∧ (r.esv = 0x71 ∨ r.esv = 0x72 ∨ r.esv = 0x50 ∨ r.esv = 0x52) ∧ r.props.length = m.props.length ∧ r.setProps = [] ∧ r.getProps = [] ∧
    (r.esv = 0x72 → m.esv = 0x62 ∧ t.canGetAll m.props = true ∧ r.props = t.values m.props ∧ r.seoj = m.deoj) := by
  unfold Thing.actual at h
  simp only [] at h
  split at h
  · cases h
  split at h
  · split at h
    · cases h
    · injection h with h
      subst h
      exact ⟨rfl, .inr (.inr (.inl rfl)), by simp [Thing.refused], rfl, rfl, fun h => absurd (show (0x50 : Int) = 0x72 from h) (by decide)⟩
  split at h
  · injection h with h
    subst h
    refine ⟨rfl, ?_, by simp [Thing.refused], rfl, rfl, ?_⟩
    · simp only []
      split
      · exact .inl rfl
      · exact .inr (.inr (.inl rfl))
    · simp only []
      split
      · intro h; exact absurd h (by decide)
      · intro h; exact absurd h (by decide)
  split at h
  · rename_i h62
    injection h with h
    subst h
    refine ⟨rfl, ?_, by simp [Thing.values], rfl, rfl, ?_⟩
    · simp only []
      split
      · exact .inr (.inl rfl)
      · exact .inr (.inr (.inr rfl))
    · simp only []
      split
      · rename_i hc
        exact fun _ => ⟨h62, hc, trivial, trivial⟩
      · intro h; exact absurd h (by decide)
  · rename_i k1 k2 k3
    rcases he with he | he | he
    · exact absurd he k1
    · exact absurd he k2
    · exact absurd he k3

theorem thing_lives {t : Thing} {m : Msg} (he : m.esv ≠ 0x6E) : (t.actual m).2.2 = true := by
  unfold Thing.actual
  simp only [if_neg he]
  repeat' split
  all_goals rfl

theorem thing_silent {t : Thing} {m : Msg} (he : m.esv = 0x71 ∨ m.esv = 0x72 ∨ m.esv = 0x50 ∨ m.esv = 0x52) : (t.actual m).2.1 = none := by
  have h : m.esv ≠ 0x60 ∧ m.esv ≠ 0x61 ∧ m.esv ≠ 0x62 ∧ m.esv ≠ 0x63 ∧ m.esv ≠ 0x6E ∧ m.esv ≠ 0x74 := by omega
  unfold Thing.actual
  simp only [if_neg h.1, if_neg h.2.1, if_neg h.2.2.1, if_neg h.2.2.2.1, if_neg h.2.2.2.2.1, if_neg h.2.2.2.2.2]
  split <;> rfl

theorem search_is {m : Msg} (h : Searches m) : m.esv = 0x62 ∧ m.seoj = 0x0EF001 ∧ m.deoj = 0x0EF001 ∧ m.props = [{ code := 0xD6 }] :=
  ⟨congrArg Msg.esv h, congrArg Msg.seoj h, congrArg Msg.deoj h, congrArg Msg.props h⟩

/-- A device and something on its way to it: its thread stays, and so does the order. -/
theorem tame_device {N : RefNet} {src ip : String} {D : RefDevice} {d : Bytes} {a : Addr} {m : Msg} (hq : Orderly D) (hsrc : a.1 = src) (hev : src ≠ everyone)
    (hr : readMsg (d.take 1024) = some m) (hm : ∃ dst, (dst = ip ∨ dst = everyone) ∧ (Wondering N src dst m ∨ Replying N src dst m)) :
    (D.actual d a).2.2 = true ∧ ∀ s ∈ (D.actual d a).2.1, Tame N ip s := by
  obtain ⟨dst, hdst, hm⟩ := hm
  have hesv : m.esv ≠ 0x6E := by
    rcases hm with (⟨h, -⟩ | ⟨⟨h, -⟩, -⟩) | ⟨h, -⟩
    · rw [(search_is h).1]; decide
    · omega
    · omega
  have hshort : Encodable m := (readMsg_sound _ _ hr).1
  unfold RefDevice.actual
  rw [hr]
  simp only []
  cases ht : D.things m.deoj with
  | none => exact ⟨rfl, by intro s hs; cases hs⟩
  | some t =>
    simp only []
    cases hrep : (t.actual m).2.1 with
    | none => exact ⟨thing_lives hesv, by intro s hs; cases hs⟩
    | some r =>
      have hst : ShortThing t := by
        intro c e hce
        exact hq.1 m.deoj c e (by unfold RefDevice.entry; rw [ht]; exact hce)
      obtain ⟨hen, -⟩ := thing_reply hst hshort hrep
      have hask : m.esv = 0x60 ∨ m.esv = 0x61 ∨ m.esv = 0x62 := by
        rcases hm with (⟨h, -⟩ | ⟨⟨h, -⟩, -⟩) | ⟨h, -⟩
        · exact .inr (.inr (search_is h).1)
        · exact h
        · rw [thing_silent h] at hrep; cases hrep
      have hlen : m.props.length ≤ 3 := by
        rcases hm with (⟨h, -⟩ | ⟨⟨-, h⟩, -⟩) | ⟨h, -⟩
        · rw [(search_is h).2.2.2]; decide
        · exact h
        · omega
      obtain ⟨r1, r2, r3, r4, r5, r6⟩ := thing_answer hask hrep
      have hseoj : m.seoj % 2 ^ 24 = m.seoj := (congrArg Msg.seoj (readMsg_sound _ _ hr).2.1).symm
      have h73 : r.esv ≠ 0x73 := by rcases r2 with k | k | k | k <;> rw [k] <;> decide
      have key : ∀ so k, (so = 0x0EF001 ∨ so = r.seoj) → ∀ s ∈ (D.setThing m.deoj (t.actual m).1).sends { r with seoj := so, tid := k } a, Tame N ip s := by
        intro so k hso s hs
        unfold RefDevice.sends at hs
        rw [if_neg h73] at hs
        obtain ⟨i, -, rfl⟩ := List.mem_map.mp hs
        have hen' : Encodable { r with seoj := so, tid := k } := hen
        refine ⟨_, read_back hen' (by show ¬ TwoSections r.esv; rcases r2 with k | k | k | k <;> rw [k] <;> decide) (by show r.props.length ≤ 3; rw [r3]; exact hlen), .inr ⟨r2, by show a.1 ≠ _; rw [hsrc]; exact hev, ?_⟩⟩
        intro h72 R hR
        have hR : N.controllers a.1 = some R := hR
        rw [hsrc] at hR
        have h72 : r.esv = 0x72 := h72
        obtain ⟨q1, q2, q3, q4⟩ := r6 h72
        have hnt : ¬ TwoSections r.esv := by rw [h72]; decide
        have hprops : (onWire { r with seoj := so, tid := k }).props = t.values m.props := by
          show (if TwoSections r.esv then [] else r.props) = _
          rw [if_neg hnt, q3]
        have hdeoj : (onWire { r with seoj := so, tid := k }).deoj = m.seoj := by
          show r.deoj % 2 ^ 24 = _
          rw [r1, hseoj]
        rcases hm with (⟨h, -⟩ | ⟨-, hne, h⟩) | ⟨h, -⟩
        · obtain ⟨-, hs, hd, hp⟩ := search_is h
          refine ⟨by rw [hdeoj, hs], .inl ⟨?_, ?_, ?_⟩⟩
          rotate_left
          · show so % 2 ^ 24 = _
            rcases hso with e | e
            · rw [e]; rfl
            · rw [e, q4, hd]; rfl
          · intro i hi
            rw [hprops, hp] at hi
            rw [List.mem_singleton.mp hi]
          have hcan : t.canGet 0xD6 = true := by rw [hp] at q2; simpa [Thing.canGetAll] using q2
          unfold Thing.canGet at hcan
          cases he : t.props 0xD6 with
          | none => rw [he] at hcan; cases hcan
          | some e =>
            rw [he] at hcan
            have hent : D.entry 0x0EF001 0xD6 = some e := by unfold RefDevice.entry; rw [← hd, ht]; exact he
            obtain ⟨-, b, rest, hl1, hl2⟩ := hq.2 e hent
            have hval : t.value 0xD6 = b :: rest := by
              unfold Thing.value
              rw [he]
              have : e.readable = true := hcan
              simp only [this, if_true]
              exact hl1
            refine ⟨listedCodes b.toNat rest, ?_⟩
            unfold instanceListOf
            rw [hprops, hp]
            show (if (0xD6 : Int) = 0xD5 ∨ (0xD6 : Int) = 0xD6 then match t.value 0xD6 with
              | [] => ListRead.empty
              | b :: rest => if rest.length < 3 * b.toNat then .short else .codes (listedCodes b.toNat rest) else .notAList) = _
            rw [if_pos (.inr rfl), hval]
            show (if rest.length < 3 * b.toNat then ListRead.short else .codes (listedCodes b.toNat rest)) = _
            rw [if_neg (by omega)]
        · obtain ⟨j1, j2, j3⟩ := h R hR
          refine ⟨by rw [hdeoj, j1], .inr ⟨?_, ?_⟩⟩
          · unfold instanceListOf
            rw [hprops]
            cases hmp : m.props with
            | nil => rfl
            | cons i is =>
              obtain ⟨u1, u2⟩ := j2 i (by rw [hmp]; exact List.mem_cons_self ..)
              show (if i.code = 0xD5 ∨ i.code = 0xD6 then _ else _) = _
              rw [if_neg (by rintro (u | u); exact u1 u; exact u2 u)]
          · rcases hdst with rfl | hdst
            · exact j3
            · exact absurd hdst hne
        · omega
      simp only []
      have hctl : (D.setThing m.deoj (t.actual m).1).ctl = D.ctl := rfl
      by_cases hc : D.ctl = true
      · simp only [hctl, if_pos hc]
        split
        · exact ⟨thing_lives hesv, key _ _ (.inl rfl)⟩
        · exact ⟨thing_lives hesv, key _ _ (.inl rfl)⟩
      · simp only [hctl, if_neg hc]
        split
        · exact ⟨thing_lives hesv, key _ _ (.inr rfl)⟩
        · exact ⟨thing_lives hesv, key _ _ (.inr rfl)⟩

theorem actual_ctl (D : RefDevice) (d : Bytes) (a : Addr) : (D.actual d a).1.ctl = D.ctl := by
  rcases actual_cases D d a with ⟨h, -⟩ | ⟨m, t, k, -, -, h, -⟩ <;> rw [h] <;> rfl

theorem list_knows (fresh : Int → Int → Option Bytes) (C : RefController) (a : Addr) (m : Msg) (x : String) (h : C.node x ≠ none) : (C.actualList fresh a m).node x ≠ none := by
  unfold RefController.actualList
  split
  · split
    · show (if x = a.1 then some _ else C.node x) ≠ none
      split
      · simp
      · exact h
    · exact h
  · exact h

theorem answered_node (C : RefController) (m : Msg) : (C.answered m).node = C.node := by unfold RefController.answered; split <;> rfl

theorem report_knows (C : RefController) (ip : String) (N : RefNode) (o : Int) (t : Told) (is : List PProp) (x : String) (h : C.node x ≠ none) : (C.report ip N o t is).node x ≠ none := by
  unfold RefController.report
  split
  · show (if x = ip then some _ else C.node x) ≠ none
    split
    · simp
    · exact h
  · exact h

theorem actualReport_knows (C : RefController) (a : Addr) (m : Msg) (x : String) (h : C.node x ≠ none) : (C.actualReport a m).1.node x ≠ none := by
  unfold RefController.actualReport
  split
  · split
    · exact h
    · rw [answered_node]; exact report_knows _ _ _ _ _ _ x h
  · rw [answered_node]; exact h

/-- A controller forgets nobody. -/
theorem actual_knows (fresh : Int → Int → Option Bytes) (C : RefController) (d : Bytes) (a : Addr) (x : String) (h : C.node x ≠ none) : (C.actual fresh d a).1.node x ≠ none := by
  unfold RefController.actual
  split
  · exact h
  · split
    · exact h
    split
    · exact h
    · exact actualReport_knows _ a _ x (list_knows fresh C a _ x h)

/-- A controller and something on its way to it. -/
theorem tame_controller {N : RefNet} (fresh : Int → Int → Option Bytes) {src ip : String} {R : RefCtlRun} (hR : N.controllers ip = some R) {d : Bytes} {a : Addr} {m : Msg} (hq : Orderly R.ctl.dev)
    (hsrc : a.1 = src) (hev : src ≠ everyone) (hr : readMsg (d.take 1024) = some m) (hm : ∃ dst, (dst = ip ∨ dst = everyone) ∧ (Wondering N src dst m ∨ Replying N src dst m)) :
    (R.ctl.actual fresh d a).2.2 = true ∧ ∀ s ∈ (R.ctl.actual fresh d a).2.1, Tame N ip s := by
  obtain ⟨k1, k2⟩ := tame_device hq hsrc hev hr hm
  unfold RefController.actual
  rw [hr]
  simp only []
  by_cases hreq : isRequestEsv m.esv = true
  · rw [if_pos hreq]
    exact ⟨k1, k2⟩
  rw [if_neg hreq]
  have hans : Replying N src ip m := by
    obtain ⟨dst, hdst, hm⟩ := hm
    rcases hm with (⟨h, -⟩ | ⟨⟨h, -⟩, -⟩) | h
    · rw [(search_is h).1] at hreq; exact absurd rfl hreq
    · rcases h with h | h | h <;> rw [h] at hreq <;> exact absurd rfl hreq
    · rcases hdst with rfl | hdst
      · exact h
      · exact absurd hdst h.2.1
  obtain ⟨h1, h2, h3⟩ := hans
  by_cases h72 : m.esv = 0x72
  · obtain ⟨j1, j2⟩ := h3 h72 R hR
    rw [if_neg (by
      rintro ⟨-, k | k⟩
      · exact k j1
      · rcases j2 with ⟨⟨l, j2⟩, -⟩ | ⟨j2, -⟩ <;> rw [k] at j2 <;> cases j2)]
    refine ⟨?_, by intro s hs; cases hs⟩
    show ((R.ctl.actualList fresh a m).actualReport a m).2 = true
    have hk : (R.ctl.actualList fresh a m).node a.1 ≠ none := by
      rcases j2 with ⟨⟨l, j2⟩, -⟩ | ⟨-, j3⟩
      · unfold RefController.actualList
        rw [if_pos (.inl h72), j2]
        show (if a.1 = a.1 then some _ else R.ctl.node a.1) ≠ none
        simp
      · rw [← hsrc] at j3
        exact list_knows fresh R.ctl a m _ j3
    unfold RefController.actualReport
    rw [if_pos (.inl h72)]
    split
    · rename_i e; exact absurd e hk
    · rfl
  · rw [if_neg (by rintro ⟨k, -⟩; omega)]
    refine ⟨?_, by intro s hs; cases hs⟩
    show ((R.ctl.actualList fresh a m).actualReport a m).2 = true
    unfold RefController.actualReport
    rw [if_neg (by omega)]

/-- All is well: every thread is there, profiles list instances, and everything on its way is tame. -/
structure AllWell (N : RefNet) : Prop where
  dev : ∀ ip R, N.devices ip = some R → (∀ i, R.alive i = true) ∧ Orderly R.dev ∧ ∀ s ∈ R.sent, Tame N ip s
  ctl : ∀ ip R, N.controllers ip = some R → (∀ i, R.alive i = true) ∧ Orderly R.ctl.dev ∧ R.ctl.dev.ctl = true ∧ ∀ s ∈ R.sent, Tame N ip s
  nobody : N.devices everyone = none ∧ N.controllers everyone = none

theorem tame_of_carried {N : RefNet} (h : AllWell N) {src ip : String} {b : Bytes} (hc : N.Carried RefRun.sent RefCtlRun.sent src ip b) :
    src ≠ everyone ∧ ∃ m, readMsg (b.take 1024) = some m ∧ ∃ dst, (dst = ip ∨ dst = everyone) ∧ (Wondering N src dst m ∨ Replying N src dst m) := by
  obtain ⟨s, h1, rfl, h2⟩ := hc
  have ht : src ≠ everyone ∧ Tame N src s := by
    rcases h1 with ⟨r, hr, hs⟩ | ⟨r, hr, hs⟩
    · exact ⟨(by rintro rfl; rw [h.nobody.1] at hr; cases hr), (h.dev src r hr).2.2 s hs⟩
    · exact ⟨(by rintro rfl; rw [h.nobody.2] at hr; cases hr), (h.ctl src r hr).2.2.2 s hs⟩
  obtain ⟨h0, m, hr, hm⟩ := ht
  exact ⟨h0, m, hr, s.dest.1, h2, hm⟩

/-- A short request that was sent. -/
theorem tame_send {N : RefNet} {ip : String} (D : RefDevice) (m : Msg) (a : Option Addr)
    (h : ∀ x, a = some x → ShortRequest m ∧ x.1 ≠ everyone ∧ ∀ R, N.controllers ip = some R → D.ctl = true ∧ (∀ i ∈ m.props, i.code ≠ 0xD5 ∧ i.code ≠ 0xD6) ∧ R.ctl.node x.1 ≠ none) :
    ∀ s ∈ (D.send m a).2.1, Tame N ip s := by
  intro s hs
  cases a with
  | none => cases hs
  | some x =>
    unfold RefDevice.send at hs
    by_cases he : Encodable m
    · simp only [if_pos he] at hs
      obtain ⟨i, -, rfl⟩ := List.mem_map.mp hs
      obtain ⟨⟨h1, h2⟩, h3, h4⟩ := h x rfl
      have hnt : ¬ TwoSections m.esv := by rcases h1 with k | k | k <;> rw [k] <;> decide
      have hprops : (onWire (D.stamped m)).props = m.props := by show (if TwoSections m.esv then [] else m.props) = _; rw [if_neg hnt]
      refine ⟨_, read_back (w := D.stamped m) he hnt h2, .inl (.inr ⟨⟨h1, by rw [hprops]; exact h2⟩, h3, fun R hR => ?_⟩)⟩
      obtain ⟨j1, j2, j3⟩ := h4 R hR
      refine ⟨?_, by rw [hprops]; exact j2, j3⟩
      show (if D.ctl = true then 0x0EF001 else m.seoj) % 2 ^ 24 = _
      rw [if_pos j1]
      rfl
    · simp only [if_neg he] at hs
      cases hs

theorem tame_search {N : RefNet} {ip : String} (D : RefDevice) (hc : D.ctl = true) : ∀ s ∈ (D.announce theSearch).2.1, Tame N ip s := by
  intro s hs
  unfold RefDevice.announce at hs
  have he : Encodable theSearch := by decide
  rw [if_pos he] at hs
  obtain ⟨i, -, rfl⟩ := List.mem_map.mp hs
  refine ⟨_, read_back (w := D.stamped theSearch) he (show ¬ TwoSections theSearch.esv by decide) (show theSearch.props.length ≤ 3 by decide), .inl (.inl ⟨?_, rfl⟩)⟩
  unfold Searches onWire RefDevice.stamped
  rw [if_pos hc]
  rfl

theorem well_device {N : RefNet} (h : AllWell N) (fresh : Int → Int → Option Bytes) (ip : String) (u : Use) (hf : u.Fair) (hp : RefNet.Polite N (.device ip u))
    (hreal : N.Real RefRun.sent RefCtlRun.sent (.device ip u)) : AllWell (N.step RefRun.use (RefCtlRun.use fresh) (.device ip u)).1 := by
  cases hd : N.devices ip with
  | none => simp only [Home.step, hd]; exact h
  | some R =>
    simp only [Home.step, hd]
    obtain ⟨h1, h2, h3⟩ := h.dev ip R hd
    have hg : Grows N { N with devices := fun ip' => if ip' = ip then some (R.use u).1 else N.devices ip' } := Grows.refl N
    have new : (∀ i, (R.use u).1.alive i = true) ∧ Orderly (R.use u).1.dev ∧ ∀ s ∈ (R.use u).1.sent, Tame N ip s := by
      have app : ∀ l : List Sent, (∀ s ∈ l, Tame N ip s) → ∀ s ∈ R.sent ++ l, Tame N ip s := by
        intro l hl s h
        rcases List.mem_append.mp h with h | h
        · exact h3 s h
        · exact hl s h
      cases u with
      | arrive x =>
        obtain ⟨c0, m, c1, c2⟩ := tame_of_carried h hreal
        obtain ⟨k1, k2⟩ := tame_device (a := x.src) h2 rfl c0 c1 c2
        show (∀ i, (R.arrive x).alive i = true) ∧ Orderly (R.arrive x).dev ∧ ∀ s ∈ (R.arrive x).sent, Tame N ip s
        unfold RefRun.arrive
        rw [if_pos (h1 _)]
        refine ⟨fun i => ?_, orderly_actual h2 _ _, app _ k2⟩
        simp only []
        split
        · exact k1
        · exact h1 i
      | announce m => exact absurd hp id
      | send m a =>
        refine ⟨h1, ?_, app _ (tame_send R.dev m a ?_)⟩
        · show Orderly (R.dev.send m a).1
          rw [send_counts]
          exact h2
        · rintro x rfl
          obtain ⟨p1, p2, p3⟩ := hp
          exact ⟨p2, p3, fun R' hR' => by rw [p1] at hR'; cases hR'⟩
      | store o c b => exact ⟨h1, orderly_store h2 hf.1 hf.2, h3⟩
    refine ⟨fun ip' R' h' => ?_, fun ip' R' h' => ?_, ?_, h.nobody.2⟩
    · simp only [] at h'
      split at h'
      · rename_i e
        injection h' with h'
        rw [← h', e]
        exact ⟨new.1, new.2.1, fun s hs => tame_grows hg (new.2.2 s hs)⟩
      · obtain ⟨j1, j2, j3⟩ := h.dev ip' R' h'
        exact ⟨j1, j2, fun s hs => tame_grows hg (j3 s hs)⟩
    · obtain ⟨j1, j2, j3, j4⟩ := h.ctl ip' R' h'
      exact ⟨j1, j2, j3, fun s hs => tame_grows hg (j4 s hs)⟩
    · show (if everyone = ip then _ else N.devices everyone) = none
      rw [if_neg (by rintro rfl; rw [h.nobody.1] at hd; cases hd)]
      exact h.nobody.1

theorem well_controller {N : RefNet} (h : AllWell N) (fresh : Int → Int → Option Bytes) (ip : String) (u : CtlUse) (hf : u.Fair) (hp : RefNet.Polite N (.controller ip u))
    (hreal : N.Real RefRun.sent RefCtlRun.sent (.controller ip u)) : AllWell (N.step RefRun.use (RefCtlRun.use fresh) (.controller ip u)).1 := by
  cases hd : N.controllers ip with
  | none => simp only [Home.step, hd]; exact h
  | some R =>
    simp only [Home.step, hd]
    obtain ⟨h1, h2, hctl, h3⟩ := h.ctl ip R hd
    have app : ∀ l : List Sent, (∀ s ∈ l, Tame N ip s) → ∀ s ∈ R.sent ++ l, Tame N ip s := by
      intro l hl s h
      rcases List.mem_append.mp h with h | h
      · exact h3 s h
      · exact hl s h
    have hsend : ∀ m a, (∀ x, a = some x → ShortRequest m ∧ (∀ i ∈ m.props, i.code ≠ 0xD5 ∧ i.code ≠ 0xD6) ∧ x.1 ≠ "224.0.23.0" ∧ RefNet.Knows N ip x.1) →
        (∀ i, (R.onDevice (R.ctl.dev.send m a)).1.alive i = true) ∧ Orderly (R.onDevice (R.ctl.dev.send m a)).1.ctl.dev ∧ (R.onDevice (R.ctl.dev.send m a)).1.ctl.dev.ctl = true ∧
        (∀ x, R.ctl.node x ≠ none → (R.onDevice (R.ctl.dev.send m a)).1.ctl.node x ≠ none) ∧ ∀ s ∈ (R.onDevice (R.ctl.dev.send m a)).1.sent, Tame N ip s := by
      intro m a hma
      refine ⟨h1, ?_, ?_, fun _ h => h, app _ (tame_send R.ctl.dev m a ?_)⟩
      · show Orderly (R.ctl.dev.send m a).1
        rw [send_counts]; exact h2
      · show (R.ctl.dev.send m a).1.ctl = true
        rw [send_counts]; exact hctl
      · intro x hx
        obtain ⟨p1, p2, p3, p4⟩ := hma x hx
        exact ⟨p1, p3, fun R' hR' => ⟨hctl, p2, p4 R' hR'⟩⟩
    have new : (∀ i, (R.use fresh u).1.alive i = true) ∧ Orderly (R.use fresh u).1.ctl.dev ∧ (R.use fresh u).1.ctl.dev.ctl = true ∧
        (∀ x, R.ctl.node x ≠ none → (R.use fresh u).1.ctl.node x ≠ none) ∧ ∀ s ∈ (R.use fresh u).1.sent, Tame N ip s := by
      cases u with
      | device u =>
        cases u with
        | arrive x =>
          obtain ⟨c0, m, c1, c2⟩ := tame_of_carried h hreal
          obtain ⟨k1, k2⟩ := tame_controller (a := x.src) fresh hd h2 rfl c0 c1 c2
          have hdev : Orderly (R.ctl.actual fresh x.bytes x.src).1.dev ∧ (R.ctl.actual fresh x.bytes x.src).1.dev.ctl = true := by
            rcases ctl_cases fresh R.ctl x.bytes x.src with e | ⟨-, e | ⟨m, -, e⟩⟩
            · rw [e]; exact ⟨orderly_actual h2 _ _, by show (R.ctl.dev.actual _ _).1.ctl = true; rw [actual_ctl]; exact hctl⟩
            · rw [e]; exact ⟨h2, hctl⟩
            · rw [e, actualReport_dev, actualList_dev]; exact ⟨h2, hctl⟩
          show (∀ i, (R.arrive fresh x).alive i = true) ∧ Orderly (R.arrive fresh x).ctl.dev ∧ (R.arrive fresh x).ctl.dev.ctl = true ∧
            (∀ y, R.ctl.node y ≠ none → (R.arrive fresh x).ctl.node y ≠ none) ∧ ∀ s ∈ (R.arrive fresh x).sent, Tame N ip s
          unfold RefCtlRun.arrive
          rw [if_pos (h1 _)]
          refine ⟨fun i => ?_, hdev.1, hdev.2, fun y hy => actual_knows fresh R.ctl _ _ y hy, app _ k2⟩
          simp only []
          split
          · exact k1
          · exact h1 i
        | announce m => exact absurd hp id
        | send m a => exact hsend m a (by rintro x rfl; exact hp)
        | store o c b => exact ⟨h1, orderly_store h2 hf.1 hf.2, by show (R.ctl.dev.store o c b).ctl = true; rw [← hctl]; unfold RefDevice.store; split <;> rfl, fun _ h => h, h3⟩
      | sendTo m d => exact hsend m _ hp
      | post m d => exact hsend m _ hp
      | search =>
        refine ⟨h1, ?_, ?_, fun _ h => h, app _ (tame_search R.ctl.dev hctl)⟩
        · show Orderly (R.ctl.dev.announce theSearch).1
          rw [announce_counts]; exact h2
        · show (R.ctl.dev.announce theSearch).1.ctl = true
          rw [announce_counts]; exact hctl
      | listen l => exact ⟨h1, h2, hctl, fun _ h => h, h3⟩
      | unlisten l =>
        simp only [RefCtlRun.use]
        split <;> exact ⟨h1, h2, hctl, fun _ h => h, h3⟩
    have hg : Grows N { N with controllers := fun ip' => if ip' = ip then some (R.use fresh u).1 else N.controllers ip' } := by
      intro ip' R' h'
      have h' : (if ip' = ip then some (R.use fresh u).1 else N.controllers ip') = some R' := h'
      split at h'
      · rename_i e
        injection h' with h'
        rw [← h', e]
        exact ⟨R, hd, new.2.2.2.1⟩
      · exact ⟨R', h', fun _ h => h⟩
    refine ⟨fun ip' R' h' => ?_, fun ip' R' h' => ?_, h.nobody.1, ?_⟩
    · obtain ⟨j1, j2, j3⟩ := h.dev ip' R' h'
      exact ⟨j1, j2, fun s hs => tame_grows hg (j3 s hs)⟩
    · simp only [] at h'
      split at h'
      · rename_i e
        injection h' with h'
        rw [← h', e]
        exact ⟨new.1, new.2.1, new.2.2.1, fun s hs => tame_grows hg (new.2.2.2.2 s hs)⟩
      · obtain ⟨j1, j2, j3, j4⟩ := h.ctl ip' R' h'
        exact ⟨j1, j2, j3, fun s hs => tame_grows hg (j4 s hs)⟩
    · show (if everyone = ip then _ else N.controllers everyone) = none
      rw [if_neg (by rintro rfl; rw [h.nobody.2] at hd; cases hd)]
      exact h.nobody.2

theorem well_run (fresh : Int → Int → Option Bytes) (es : List Incident) : ∀ N : RefNet, AllWell N → (∀ e ∈ es, e.Fair) → RefNet.Politely fresh N es →
    N.May RefRun.use (RefCtlRun.use fresh) RefRun.sent RefCtlRun.sent es → AllWell (N.run RefRun.use (RefCtlRun.use fresh) es).1 := by
  induction es with
  | nil => intro N h _ _ _; exact h
  | cons e es ih =>
    intro N h hf hp hm
    refine ih _ ?_ (fun x hx => hf x (List.mem_cons_of_mem _ hx)) hp.2 hm.2
    cases e with
    | device ip u => exact well_device h fresh ip u (hf _ (List.mem_cons_self ..)) hp.1 hm.1
    | controller ip u => exact well_controller h fresh ip u (hf _ (List.mem_cons_self ..)) hp.1 hm.1

end Uecho
