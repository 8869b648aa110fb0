/- Lemmas for C155 and C156: values that are told were held. -/
import Verif.Spec.Once
import Verif.Lemmas.Polite
import Verif.Props.Closed

namespace Uecho
open Spec

/-! ### Objects -/

/-- An answer that tells values tells those the object holds; no answer is a request. -/
theorem thing_tells {t : Thing} {m r : Msg} (h : (t.actual m).2.1 = some r) :
    isRequestEsv r.esv = false ∧ (Tells r → isRequestEsv m.esv = true ∧ r.seoj = m.deoj ∧ ∀ i ∈ r.props, ∃ e, t.props i.code = some e ∧ e.data = i.data) := by
  unfold Thing.actual at h
  simp only [] at h
  split at h
  · cases h
  split at h
  · split at h
    · cases h
    · injection h with h
      subst h
      exact ⟨rfl, fun h => absurd (show (0x50 : Int) = 0x72 ∨ (0x50 : Int) = 0x73 from h) (by decide)⟩
  split at h
  · injection h with h
    subst h
    simp only [Tells]
    split
    · exact ⟨by decide, fun h => absurd h (by decide)⟩
    · exact ⟨by decide, fun h => absurd h (by decide)⟩
  split at h
  · rename_i h62
    injection h with h
    subst h
    simp only [Tells]
    split
    · rename_i hall
      refine ⟨by decide, fun _ => ⟨by rw [h62]; decide, trivial, fun i hi => ?_⟩⟩
      obtain ⟨j, hj, rfl⟩ := List.mem_map.mp hi
      have hg : t.canGet j.code = true := List.all_eq_true.mp hall j hj
      simp only [Thing.canGet, Thing.value] at *
      cases hp : t.props j.code with
      | none => rw [hp] at hg; cases hg
      | some e =>
        rw [hp] at hg
        have hg : e.readable = true := hg
        exact ⟨e, rfl, by simp only [hg, if_true]⟩
    · exact ⟨by decide, fun h => absurd h (by decide)⟩
  split at h
  · rename_i h63
    injection h with h
    subst h
    simp only [Tells]
    split
    · rename_i hnil
      refine ⟨by decide, fun _ => ⟨by rw [h63]; decide, trivial, fun i hi => ?_⟩⟩
      rw [hnil] at hi
      cases hi
    · exact ⟨by decide, fun h => absurd h (by decide)⟩
  split at h
  · split at h
    · injection h with h
      subst h
      simp only [Tells]
      split
      · exact ⟨by decide, fun h => absurd h (by decide)⟩
      · exact ⟨by decide, fun h => absurd h (by decide)⟩
    · cases h
  split at h
  · split at h
    · injection h with h
      subst h
      exact ⟨rfl, fun h => absurd (show (0x7A : Int) = 0x72 ∨ (0x7A : Int) = 0x73 from h) (by decide)⟩
    · cases h
  · cases h

/-- What a device sends in answer, if it is no controller, is from the object asked. -/
theorem actual_from (D : RefDevice) (d : Bytes) (a : Addr) : ∀ s ∈ (D.actual d a).2.1, ∃ m t r so k, readMsg (d.take 1024) = some m ∧ D.things m.deoj = some t ∧ (t.actual m).2.1 = some r ∧
    s.bytes = encode { r with seoj := so, tid := k } ∧ (D.ctl = false → so = r.seoj) := by
  have sends : ∀ (D : RefDevice) (r : Msg) (a : Addr), ∀ s ∈ D.sends r a, s.bytes = encode r := by
    intro D r a s hs
    unfold RefDevice.sends at hs
    split at hs <;> (obtain ⟨i, -, rfl⟩ := List.mem_map.mp hs; rfl)
  intro s hs
  unfold RefDevice.actual at hs
  cases hr : readMsg (d.take 1024) with
  | none => rw [hr] at hs; cases hs
  | some m =>
    rw [hr] at hs
    simp only [] at hs
    cases ht : D.things m.deoj with
    | none => rw [ht] at hs; cases hs
    | some t =>
      rw [ht] at hs
      simp only [] at hs
      cases hq : (t.actual m).2.1 with
      | none => rw [hq] at hs; cases hs
      | some r =>
        rw [hq] at hs
        simp only [] at hs
        by_cases hctl : D.ctl = true
        · rw [if_pos (show (D.setThing m.deoj (t.actual m).1).ctl = true from hctl)] at hs
          have hno : D.ctl = false → ∀ x y : Int, x = y := by intro h; rw [hctl] at h; cases h
          by_cases h0 : r.tid = 0
          · simp only [if_pos h0] at hs
            exact ⟨m, t, r, _, _, rfl, ht, hq, sends _ _ _ s hs, fun h => hno h _ _⟩
          · simp only [if_neg h0] at hs
            exact ⟨m, t, r, _, _, rfl, ht, hq, sends _ _ _ s hs, fun h => hno h _ _⟩
        · rw [if_neg (show ¬ (D.setThing m.deoj (t.actual m).1).ctl = true from hctl)] at hs
          by_cases h0 : r.tid = 0
          · simp only [if_pos h0] at hs
            exact ⟨m, t, r, r.seoj, _, rfl, ht, hq, sends _ _ _ s hs, fun _ => rfl⟩
          · simp only [if_neg h0] at hs
            exact ⟨m, t, r, r.seoj, r.tid, rfl, ht, hq, sends _ _ _ s hs, fun _ => rfl⟩

/-! ### Messages -/

section
variable (H : String → Int → Int → Bytes → Prop) (O : Int → Prop) (Sel : String → Int → Prop) (Pure : String → Prop) (fresh : Int → Int → Option Bytes)

/-- What a message from `src` tells was held by an object in `O`; if `src` is no controller, by the object the message is from. -/
def ToldTrue (src : String) (m : Msg) : Prop := Tells m → ∀ i ∈ m.props, (∃ o, O o ∧ H src o i.code i.data) ∧ (Pure src → H src m.seoj i.code i.data)

def TrueMsg (src dst : String) (m : Msg) : Prop := (isRequestEsv m.esv = true → O m.deoj) ∧ (Sel dst m.tid → ToldTrue H O Pure src m)

def TrueSent (src : String) (s : Sent) : Prop := ∀ m, readMsg (s.bytes.take 1024) = some m → TrueMsg H O Sel Pure src s.dest.1 m

/-- Everything a controller shows, told its listeners and got as an answer was held. -/
structure TrueCtl (ip : String) (C : RefController) : Prop where
  shown : (∀ dst t, Sel dst t) → ∀ x N o c b, C.node x = some N → N.data o c = some b → fresh o c = some b ∨ (o = 0x0EF001 ∧ ∃ o', O o' ∧ H x o' c b)
  told : (∀ dst t, Sel dst t) → ∀ l x o c b, (l, Told.propertyUpdated x o c b) ∈ C.told → o = 0x0EF001 ∧ ∃ o', O o' ∧ H x o' c b
  answer : ∀ m, C.answer = some m → Sel ip m.tid → Tells m → ∃ a, m.fromAddr = some a ∧ ToldTrue H O Pure a.1 m

structure AllTrue (N : RefNet) : Prop where
  dev : ∀ ip R, N.devices ip = some R → Short R.dev ∧ (Pure ip → R.dev.ctl = false) ∧ ∀ s ∈ R.sent, TrueSent H O Sel Pure ip s
  ctl : ∀ ip R, N.controllers ip = some R → Short R.ctl.dev ∧ ¬ Pure ip ∧ TrueCtl H O Sel Pure fresh ip R.ctl ∧ ∀ s ∈ R.sent, TrueSent H O Sel Pure ip s

/-- All that is held is noted. -/
def Noted (N : RefNet) : Prop := ∀ ip o c b, N.Holds ip o c b → H ip o c b

/-- What a program says is noted, and about objects in `O`. -/
def TrueUse (e : Incident) : Prop := ∀ dst m, e.says = some (dst, m) →
  (isRequestEsv m.esv = true → O (m.deoj % 2 ^ 24)) ∧ (Tells m → O (m.seoj % 2 ^ 24) ∧ ∀ i ∈ m.props, H e.at_ (m.seoj % 2 ^ 24) i.code i.data)

end

variable {H : String → Int → Int → Bytes → Prop} {O : Int → Prop} {Sel : String → Int → Prop} {Pure : String → Prop} {fresh : Int → Int → Option Bytes}

theorem true_of_carried {N : RefNet} (h : AllTrue H O Sel Pure fresh N) {src ip : String} {b : Bytes} (hc : N.Carried RefRun.sent RefCtlRun.sent src ip b) :
    ∀ m, readMsg (b.take 1024) = some m → TrueMsg H O Sel Pure src ip m ∨ TrueMsg H O Sel Pure src everyone m := by
  intro m hm
  obtain ⟨s, h1, rfl, h2⟩ := hc
  have hf : TrueSent H O Sel Pure src s := by
    rcases h1 with ⟨r, hr, hs⟩ | ⟨r, hr, hs⟩
    · exact (h.dev src r hr).2.2 s hs
    · exact (h.ctl src r hr).2.2.2 s hs
  have := hf m hm
  rcases h2 with h2 | h2
  · rw [h2] at this; exact .inl this
  · rw [h2] at this; exact .inr this

theorem wire_idem {m : Msg} {bs : Bytes} (h : readMsg bs = some m) : m.deoj % 2 ^ 24 = m.deoj := by
  have := (readMsg_sound _ _ h).2.1
  exact (congrArg Msg.deoj this).symm

/-- What a device answers is true. -/
theorem true_reply {ip : String} {D : RefDevice} (hs : Short D) (hp : Pure ip → D.ctl = false) (hn : ∀ o c e, D.entry o c = some e → H ip o c e.data) {d : Bytes} {a : Addr}
    (hm : ∀ m, readMsg (d.take 1024) = some m → isRequestEsv m.esv = true → O m.deoj) : ∀ s ∈ (D.actual d a).2.1, TrueSent H O Sel Pure ip s := by
  intro s hsd w hw
  obtain ⟨m, t, r, so, k, h1, h2, h3, h4, h5⟩ := actual_from D d a s hsd
  obtain ⟨k1, k2⟩ := thing_tells h3
  have hst : ShortThing t := by
    intro c e hce
    exact hs m.deoj c e (by unfold RefDevice.entry; rw [h2]; exact hce)
  have henc := (thing_reply hst (readMsg_sound _ _ h1).1 h3).1
  rw [h4] at hw
  rw [read_written (w := { r with seoj := so, tid := k }) henc hw]
  refine ⟨fun h => ?_, fun _ ht i hi => ?_⟩
  · have h : isRequestEsv r.esv = true := h
    rw [k1] at h; cases h
  · obtain ⟨j1, j2, j3⟩ := k2 ht
    have hi : i ∈ r.props := by
      simp only [onWire] at hi
      split at hi
      · cases hi
      · exact hi
    obtain ⟨e, he, hd⟩ := j3 i hi
    have hheld : H ip m.deoj i.code i.data := by
      rw [← hd]
      exact hn _ _ _ (by unfold RefDevice.entry; rw [h2]; exact he)
    refine ⟨⟨_, hm m h1 j1, hheld⟩, fun hpure => ?_⟩
    show H ip (so % 2 ^ 24) i.code i.data
    rw [h5 (hp hpure), j2, wire_idem h1]
    exact hheld

/-- What a program says is true. -/
theorem true_said {ip : String} {m : Msg} (henc : Encodable m) {so k : Int} (hso : Pure ip → so = m.seoj)
    (hu : (isRequestEsv m.esv = true → O (m.deoj % 2 ^ 24)) ∧ (Tells m → O (m.seoj % 2 ^ 24) ∧ ∀ i ∈ m.props, H ip (m.seoj % 2 ^ 24) i.code i.data)) (s : Sent)
    (hb : s.bytes = encode { m with seoj := so, tid := k }) : TrueSent H O Sel Pure ip s := by
  intro w hw
  rw [hb] at hw
  rw [read_written (w := { m with seoj := so, tid := k }) henc hw]
  refine ⟨fun h => hu.1 h, fun _ ht i hi => ?_⟩
  obtain ⟨j1, j2⟩ := hu.2 ht
  have hi : i ∈ m.props := by
    simp only [onWire] at hi
    split at hi
    · cases hi
    · exact hi
  refine ⟨⟨_, j1, j2 i hi⟩, fun hp => ?_⟩
  show H ip (so % 2 ^ 24) i.code i.data
  rw [hso hp]
  exact j2 i hi

theorem true_announce {ip : String} {D : RefDevice} (hp : Pure ip → D.ctl = false) {m : Msg}
    (hu : (isRequestEsv m.esv = true → O (m.deoj % 2 ^ 24)) ∧ (Tells m → O (m.seoj % 2 ^ 24) ∧ ∀ i ∈ m.props, H ip (m.seoj % 2 ^ 24) i.code i.data)) :
    ∀ s ∈ (D.announce m).2.1, TrueSent H O Sel Pure ip s := by
  intro s hs
  unfold RefDevice.announce at hs
  by_cases he : Encodable m
  · rw [if_pos he] at hs
    obtain ⟨i, -, rfl⟩ := List.mem_map.mp hs
    refine true_said he (so := if D.ctl then 0x0EF001 else m.seoj) (k := if m.tid = 0 then RefDevice.chosenTid D.tid else m.tid) ?_ hu _ rfl
    intro h; rw [hp h]; rfl
  · rw [if_neg he] at hs; cases hs

theorem true_send {ip : String} {D : RefDevice} (hp : Pure ip → D.ctl = false) {m : Msg} {a : Option Addr}
    (hu : ∀ x, a = some x → (isRequestEsv m.esv = true → O (m.deoj % 2 ^ 24)) ∧ (Tells m → O (m.seoj % 2 ^ 24) ∧ ∀ i ∈ m.props, H ip (m.seoj % 2 ^ 24) i.code i.data)) :
    ∀ s ∈ (D.send m a).2.1, TrueSent H O Sel Pure ip s := by
  intro s hs
  cases a with
  | none => cases hs
  | some a =>
    unfold RefDevice.send at hs
    by_cases he : Encodable m
    · simp only [if_pos he] at hs
      obtain ⟨i, -, rfl⟩ := List.mem_map.mp hs
      refine true_said he (so := if D.ctl then 0x0EF001 else m.seoj) (k := if m.tid = 0 then RefDevice.chosenTid D.tid else m.tid) ?_ (hu a rfl) _ rfl
      intro h; rw [hp h]; rfl
    · simp only [if_neg he] at hs
      cases hs

/-! ### Controllers -/

theorem putsData_cases (is : List PProp) : ∀ (data : Int → Option Bytes) (c : Int) (b : Bytes), putsData data is c = some b → data c = some b ∨ ∃ i ∈ is, i.code = c ∧ i.data = b := by
  induction is with
  | nil => intro data c b h; exact .inl h
  | cons i is ih =>
    intro data c b h
    rcases ih (putData data i) c b h with h | ⟨j, hj, h⟩
    · unfold putData at h
      split at h
      · rename_i hc
        obtain ⟨x, -, hx⟩ := Option.map_eq_some_iff.mp h
        exact .inr ⟨i, List.mem_cons_self .., hc.symm, hx⟩
      · exact .inl h
    · exact .inr ⟨j, List.mem_cons_of_mem _ hj, h⟩

theorem true_list {ip : String} {C : RefController} (h : TrueCtl H O Sel Pure fresh ip C) (a : Addr) (m : Msg) : TrueCtl H O Sel Pure fresh ip (C.actualList fresh a m) := by
  unfold RefController.actualList
  split
  swap
  · exact h
  split
  swap
  · exact h
  rename_i l _
  refine ⟨?_, ?_, h.answer⟩
  · intro hall x N o c b hN hb
    have hN : (if x = a.1 then some (RefController.listed fresh a l) else C.node x) = some N := hN
    split at hN
    · injection hN with hN
      rw [← hN] at hb
      have hb : (if o ∈ addCodes [0x0EF001] l then fresh o else fun _ => none) c = some b := hb
      split at hb
      · exact .inl hb
      · cases hb
    · exact h.shown hall x N o c b hN hb
  · intro hall l' x o c b hm
    rcases List.mem_append.mp hm with hm | hm
    · exact h.told hall l' x o c b hm
    · have := told_mem hm
      cases this

theorem true_answered {ip : String} {C : RefController} (h : TrueCtl H O Sel Pure fresh ip C) {a : Addr} {m : Msg} (hm : Sel ip m.tid → ToldTrue H O Pure a.1 m) :
    TrueCtl H O Sel Pure fresh ip (C.answered { m with fromAddr := some a }) := by
  unfold RefController.answered
  split
  · refine ⟨h.shown, h.told, ?_⟩
    intro m' h' hsel _
    injection h' with h'
    rw [← h'] at hsel ⊢
    exact ⟨a, rfl, fun ht i hi => hm hsel ht i hi⟩
  · exact h

theorem true_report {ip : String} {C : RefController} (h : TrueCtl H O Sel Pure fresh ip C) {x : String} {N : RefNode} (hN : C.node x = some N) (is : List PProp)
    (hi : (∀ dst t, Sel dst t) → ∀ i ∈ is, ∃ o', O o' ∧ H x o' i.code i.data) : TrueCtl H O Sel Pure fresh ip (C.report x N 0x0EF001 (.nodeAdd x) is) := by
  unfold RefController.report
  split
  swap
  · exact h
  refine ⟨?_, ?_, h.answer⟩
  · intro hall x' N' o' c b h1 h2
    have h1 : (if x' = x then some { N with data := fun o' => if o' = 0x0EF001 then putsData (N.data 0x0EF001) is else N.data o' } else C.node x') = some N' := h1
    split at h1
    · rename_i hx
      injection h1 with h1
      rw [← h1] at h2
      have h2 : (if o' = 0x0EF001 then putsData (N.data 0x0EF001) is else N.data o') c = some b := h2
      split at h2
      · rename_i ho
        rcases putsData_cases is _ c b h2 with h2 | ⟨i, hi1, rfl, rfl⟩
        · rw [hx, ho]
          exact h.shown hall x N 0x0EF001 c b hN h2
        · obtain ⟨o'', k1, k2⟩ := hi hall i hi1
          exact .inr ⟨ho, o'', k1, by rw [hx]; exact k2⟩
      · rw [hx]; exact h.shown hall x N o' c b hN h2
    · exact h.shown hall x' N' o' c b h1 h2
  · intro hall l x' o' c b hm
    rcases List.mem_append.mp hm with hm | hm
    · rcases List.mem_append.mp hm with hm | hm
      · exact h.told hall l x' o' c b hm
      · obtain ⟨i, hi1, hi2⟩ := List.mem_flatMap.mp hm
        have := told_mem hi2
        injection this with e1 e2 e3 e4
        subst e1; subst e3; subst e4
        exact ⟨e2, hi hall i (newsIn_mem is _ i hi1)⟩
    · split at hm
      · cases hm
      · rcases List.mem_append.mp hm with hm | hm
        · have := told_mem hm; cases this
        · have := told_mem hm; cases this

theorem report_nothing (C : RefController) (x : String) (N : RefNode) (o : Int) (t : Told) (hN : C.node x = some N) : C.report x N o t [] = C := by
  unfold RefController.report
  split
  · have h1 : (fun o' => if o' = o then putsData (N.data o) [] else N.data o') = N.data := by
      funext o'
      split
      · rename_i h; rw [h]; rfl
      · rfl
    have h2 : (fun ip' => if ip' = x then some N else C.node ip') = C.node := by
      funext y
      split
      · rename_i h; rw [h, hN]
      · rfl
    simp only [RefController.setNode, RefController.tellNews, newsIn, h1]
    simp only [h2, List.flatMap_nil, List.append_nil, if_true]
  · rfl

theorem true_actual {ip : String} {C : RefController} (hsel : ∀ dst t, Sel dst t → Sel everyone t) (h : TrueCtl H O Sel Pure fresh ip C) {d : Bytes} {a : Addr}
    (hm : ∀ m, readMsg (d.take 1024) = some m → TrueMsg H O Sel Pure a.1 ip m ∨ TrueMsg H O Sel Pure a.1 everyone m) :
    TrueCtl H O Sel Pure fresh ip (C.actual fresh d a).1 := by
  unfold RefController.actual
  cases hr : readMsg (d.take 1024) with
  | none => exact h
  | some m =>
    simp only []
    split
    · exact ⟨h.shown, h.told, h.answer⟩
    split
    · exact h
    rename_i hreq hbad
    have htrue : Sel ip m.tid → ToldTrue H O Pure a.1 m := by
      intro hs
      rcases hm m hr with k | k
      · exact k.2 hs
      · exact k.2 (hsel _ _ hs)
    have hall : (∀ dst t, Sel dst t) → ToldTrue H O Pure a.1 m := fun h => htrue (h _ _)
    simp only []
    have hl := true_list h a m
    generalize C.actualList fresh a m = C' at hl
    unfold RefController.actualReport
    split
    swap
    · exact true_answered hl htrue
    rename_i hesv
    split
    · exact hl
    rename_i N hN
    refine true_answered ?_ htrue
    by_cases h7e : m.esv = 0x7E
    · have hp : m.props = [] := by
        have := congrArg Msg.props (readMsg_sound _ _ hr).2.1
        simp only [onWire] at this
        rw [if_pos (show TwoSections m.esv from .inr (.inl h7e))] at this
        exact this
      rw [hp, report_nothing _ _ _ _ _ hN]
      exact hl
    · have ht : Tells m := by
        rcases hesv with k | k | k
        · exact .inl k
        · exact .inr k
        · exact absurd k h7e
      have hd : m.deoj = 0x0EF001 := by
        by_contra hne
        exact hbad ⟨ht, .inl hne⟩
      rw [hd]
      exact true_report hl hN _ fun hs i hi => (hall hs ht i hi).1

/-! ### Networks -/

theorem true_device {N : RefNet} (h : AllTrue H O Sel Pure fresh N) (hn : Noted H N) (ip : String) (u : Use) (hf : u.Fair) (hu : TrueUse H O (.device ip u))
    (hreal : N.Real RefRun.sent RefCtlRun.sent (.device ip u)) : AllTrue H O Sel Pure fresh (N.step RefRun.use (RefCtlRun.use fresh) (.device ip u)).1 := by
  cases hd : N.devices ip with
  | none => simp only [Home.step, hd]; exact h
  | some R =>
    simp only [Home.step, hd]
    obtain ⟨h1, h2, h3⟩ := h.dev ip R hd
    have app : ∀ l : List Sent, (∀ s ∈ l, TrueSent H O Sel Pure ip s) → ∀ s ∈ R.sent ++ l, TrueSent H O Sel Pure ip s := by
      intro l hl s h
      rcases List.mem_append.mp h with h | h
      · exact h3 s h
      · exact hl s h
    have new : Short (R.use u).1.dev ∧ (Pure ip → (R.use u).1.dev.ctl = false) ∧ ∀ s ∈ (R.use u).1.sent, TrueSent H O Sel Pure ip s := by
      cases u with
      | arrive x =>
        show Short (R.arrive x).dev ∧ (Pure ip → (R.arrive x).dev.ctl = false) ∧ ∀ s ∈ (R.arrive x).sent, TrueSent H O Sel Pure ip s
        unfold RefRun.arrive
        split
        · refine ⟨actual_short h1 _ _, fun hp => ?_, app _ ?_⟩
          · show (R.dev.actual x.bytes x.src).1.ctl = false
            rw [actual_ctl]; exact h2 hp
          · refine true_reply h1 h2 (fun o c e he => hn ip o c _ (.inl ⟨R, e, hd, he, rfl⟩)) ?_
            intro m hm
            rcases true_of_carried h hreal m hm with k | k
            · exact k.1
            · exact k.1
        · exact ⟨h1, h2, h3⟩
      | announce m =>
        refine ⟨?_, ?_, app _ (true_announce h2 (hu none m rfl))⟩
        · show Short (R.dev.announce m).1
          rw [announce_counts]; exact h1
        · show Pure ip → (R.dev.announce m).1.ctl = false
          rw [announce_counts]; exact h2
      | send m a =>
        refine ⟨?_, ?_, app _ (true_send h2 fun x hx => hu (some x.1) m (by rw [hx]; rfl))⟩
        · show Short (R.dev.send m a).1
          rw [send_counts]; exact h1
        · show Pure ip → (R.dev.send m a).1.ctl = false
          rw [send_counts]; exact h2
      | store o c b =>
        refine ⟨store_short h1 hf.2, fun hp => ?_, h3⟩
        rw [← h2 hp]
        show (R.dev.store o c b).ctl = _
        unfold RefDevice.store; split <;> rfl
    refine ⟨fun ip' R' h' => ?_, h.ctl⟩
    simp only [] at h'
    split at h'
    · rename_i e; injection h' with h'; rw [← h', e]; exact new
    · exact h.dev ip' R' h'

theorem true_controller {N : RefNet} (hsel : ∀ dst t, Sel dst t → Sel everyone t) (hprof : O 0x0EF001) (h : AllTrue H O Sel Pure fresh N) (hn : Noted H N) (ip : String) (u : CtlUse)
    (hf : u.Fair) (hu : TrueUse H O (.controller ip u)) (hreal : N.Real RefRun.sent RefCtlRun.sent (.controller ip u)) :
    AllTrue H O Sel Pure fresh (N.step RefRun.use (RefCtlRun.use fresh) (.controller ip u)).1 := by
  cases hd : N.controllers ip with
  | none => simp only [Home.step, hd]; exact h
  | some R =>
    simp only [Home.step, hd]
    obtain ⟨h1, h2, hc, h3⟩ := h.ctl ip R hd
    have hp : Pure ip → R.ctl.dev.ctl = false := fun k => absurd k h2
    have app : ∀ l : List Sent, (∀ s ∈ l, TrueSent H O Sel Pure ip s) → ∀ s ∈ R.sent ++ l, TrueSent H O Sel Pure ip s := by
      intro l hl s h
      rcases List.mem_append.mp h with h | h
      · exact h3 s h
      · exact hl s h
    have hsame : ∀ D : RefDevice, TrueCtl H O Sel Pure fresh ip { R.ctl with dev := D } := fun D => ⟨hc.shown, hc.told, hc.answer⟩
    have hann : ∀ m, ((isRequestEsv m.esv = true → O (m.deoj % 2 ^ 24)) ∧ (Tells m → O (m.seoj % 2 ^ 24) ∧ ∀ i ∈ m.props, H ip (m.seoj % 2 ^ 24) i.code i.data)) →
        Short (R.onDevice (R.ctl.dev.announce m)).1.ctl.dev ∧ TrueCtl H O Sel Pure fresh ip (R.onDevice (R.ctl.dev.announce m)).1.ctl ∧
        ∀ s ∈ (R.onDevice (R.ctl.dev.announce m)).1.sent, TrueSent H O Sel Pure ip s := by
      intro m hm
      refine ⟨?_, hsame _, app _ (true_announce hp hm)⟩
      show Short (R.ctl.dev.announce m).1
      rw [announce_counts]; exact h1
    have hsend : ∀ m a, (∀ x, a = some x → (isRequestEsv m.esv = true → O (m.deoj % 2 ^ 24)) ∧ (Tells m → O (m.seoj % 2 ^ 24) ∧ ∀ i ∈ m.props, H ip (m.seoj % 2 ^ 24) i.code i.data)) →
        Short (R.onDevice (R.ctl.dev.send m a)).1.ctl.dev ∧ TrueCtl H O Sel Pure fresh ip (R.onDevice (R.ctl.dev.send m a)).1.ctl ∧
        ∀ s ∈ (R.onDevice (R.ctl.dev.send m a)).1.sent, TrueSent H O Sel Pure ip s := by
      intro m a hm
      refine ⟨?_, hsame _, app _ (true_send hp hm)⟩
      show Short (R.ctl.dev.send m a).1
      rw [send_counts]; exact h1
    have new : Short (R.use fresh u).1.ctl.dev ∧ TrueCtl H O Sel Pure fresh ip (R.use fresh u).1.ctl ∧ ∀ s ∈ (R.use fresh u).1.sent, TrueSent H O Sel Pure ip s := by
      cases u with
      | device u =>
        cases u with
        | arrive x =>
          show Short (R.arrive fresh x).ctl.dev ∧ TrueCtl H O Sel Pure fresh ip (R.arrive fresh x).ctl ∧ ∀ s ∈ (R.arrive fresh x).sent, TrueSent H O Sel Pure ip s
          unfold RefCtlRun.arrive
          split
          swap
          · exact ⟨h1, hc, h3⟩
          have htrue := true_of_carried h hreal
          refine ⟨?_, true_actual hsel hc htrue, app _ ?_⟩
          · show Short (R.ctl.actual fresh x.bytes x.src).1.dev
            rcases ctl_cases fresh R.ctl x.bytes x.src with e | ⟨-, e | ⟨m, -, e⟩⟩
            · rw [e]; exact actual_short h1 _ _
            · rw [e]; exact h1
            · rw [e, actualReport_dev, actualList_dev]; exact h1
          · show ∀ s ∈ (R.ctl.actual fresh x.bytes x.src).2.1, TrueSent H O Sel Pure ip s
            rcases ctl_cases fresh R.ctl x.bytes x.src with e | ⟨e, -⟩
            · rw [e]
              refine true_reply h1 hp (fun o c e he => hn ip o c _ (.inr ⟨R, e, hd, he, rfl⟩)) ?_
              intro m hm
              rcases htrue m hm with k | k
              · exact k.1
              · exact k.1
            · rw [e]; intro s hs; cases hs
        | announce m => exact hann m (hu none m rfl)
        | send m a => exact hsend m a fun x hx => hu (some x.1) m (by rw [hx]; rfl)
        | store o c b => exact ⟨store_short h1 hf.2, hsame _, h3⟩
      | sendTo m d => exact hsend m _ fun x hx => hu (some x.1) m (by show (whereTo d).map _ = _; rw [hx]; rfl)
      | post m d =>
        obtain ⟨k1, k2, k3⟩ := hsend m (whereTo d) fun x hx => hu (some x.1) m (by show (whereTo d).map _ = _; rw [hx]; rfl)
        exact ⟨k1, ⟨k2.shown, k2.told, by intro m hm; cases hm⟩, k3⟩
      | search => exact hann theSearch ⟨fun _ => hprof, fun h => absurd (show (0x62 : Int) = 0x72 ∨ (0x62 : Int) = 0x73 from h) (by decide)⟩
      | listen l => exact ⟨h1, ⟨hc.shown, hc.told, hc.answer⟩, h3⟩
      | unlisten l =>
        simp only [RefCtlRun.use]
        split
        · exact ⟨h1, ⟨hc.shown, hc.told, hc.answer⟩, h3⟩
        · exact ⟨h1, hc, h3⟩
    refine ⟨h.dev, fun ip' R' h' => ?_⟩
    simp only [] at h'
    split at h'
    · rename_i e; injection h' with h'; rw [← h', e]; exact ⟨new.1, h2, new.2.1, new.2.2⟩
    · exact h.ctl ip' R' h'

/-- If all that is held at any time is noted, everything told was noted. -/
theorem true_run (hsel : ∀ dst t, Sel dst t → Sel everyone t) (hprof : O 0x0EF001) (es : List Incident) : ∀ N : RefNet, AllTrue H O Sel Pure fresh N →
    (∀ k, Noted H (N.run RefRun.use (RefCtlRun.use fresh) (es.take k)).1) → (∀ e ∈ es, e.Fair) → (∀ e ∈ es, TrueUse H O e) →
    N.May RefRun.use (RefCtlRun.use fresh) RefRun.sent RefCtlRun.sent es → AllTrue H O Sel Pure fresh (N.run RefRun.use (RefCtlRun.use fresh) es).1 := by
  induction es with
  | nil => intro N h _ _ _ _; exact h
  | cons e es ih =>
    intro N h hn hf hu hm
    refine ih _ ?_ (fun k => hn (k + 1)) (fun x hx => hf x (List.mem_cons_of_mem _ hx)) (fun x hx => hu x (List.mem_cons_of_mem _ hx)) hm.2
    cases e with
    | device ip u => exact true_device h (hn 0) ip u (hf _ (List.mem_cons_self ..)) (hu _ (List.mem_cons_self ..)) hm.1
    | controller ip u => exact true_controller hsel hprof h (hn 0) ip u (hf _ (List.mem_cons_self ..)) (hu _ (List.mem_cons_self ..)) hm.1

/-- What honest programs say is noted. -/
theorem honest_uses {H : String → Int → Int → Bytes → Prop} {O : Int → Prop} {fresh : Int → Int → Option Bytes} (es : List Incident) : ∀ N : RefNet, RefNet.Honestly fresh N es →
    (∀ k, Noted H (N.run RefRun.use (RefCtlRun.use fresh) (es.take k)).1) → (∀ e ∈ es, e.About O) → ∀ e ∈ es, TrueUse H O e := by
  induction es with
  | nil => intro N _ _ _ e he; cases he
  | cons e es ih =>
    intro N hh hn ho x hx
    rcases List.mem_cons.mp hx with rfl | hx
    · intro dst m hs
      obtain ⟨k1, k2⟩ := ho x (List.mem_cons_self ..) dst m hs
      exact ⟨k1, fun ht => ⟨k2 ht, fun i hi => hn 0 _ _ _ _ (hh.1 dst m hs ht i hi)⟩⟩
    · exact ih _ hh.2 (fun k => hn (k + 1)) (fun x hx => ho x (List.mem_cons_of_mem _ hx)) x hx

/-! ### Whatever arrives -/

/-- What a controller shows of objects other than node profiles is what it supposes of them. -/
def Supposes (fresh : Int → Int → Option Bytes) (C : RefController) : Prop := TrueCtl (fun _ _ _ _ => True) (fun _ => True) (fun _ _ => True) (fun _ => False) fresh "" C

theorem supposes_use {fresh : Int → Int → Option Bytes} (R : RefCtlRun) (u : CtlUse) (h : Supposes fresh R.ctl) : Supposes fresh (R.use fresh u).1.ctl := by
  have hsame : ∀ D : RefDevice, Supposes fresh { R.ctl with dev := D } := fun D => ⟨h.shown, h.told, h.answer⟩
  cases u with
  | device u =>
    cases u with
    | arrive x =>
      show Supposes fresh (R.arrive fresh x).ctl
      unfold RefCtlRun.arrive
      split
      · exact true_actual (fun _ _ _ => trivial) h fun m _ => .inl ⟨fun _ => trivial, fun _ _ i _ => ⟨⟨0, trivial, trivial⟩, fun k => k.elim⟩⟩
      · exact h
    | announce m => exact hsame _
    | send m a => exact hsame _
    | store o c b => exact hsame _
  | sendTo m d => exact hsame _
  | post m d => exact ⟨h.shown, h.told, by intro m hm; cases hm⟩
  | search => exact hsame _
  | listen l => exact ⟨h.shown, h.told, h.answer⟩
  | unlisten l =>
    simp only [RefCtlRun.use]
    split
    · exact ⟨h.shown, h.told, h.answer⟩
    · exact h

theorem supposes_run {fresh : Int → Int → Option Bytes} (es : List Incident) : ∀ N : RefNet, (∀ ip R, N.controllers ip = some R → Supposes fresh R.ctl) →
    ∀ ip R, (N.run RefRun.use (RefCtlRun.use fresh) es).1.controllers ip = some R → Supposes fresh R.ctl := by
  induction es with
  | nil => intro N h; exact h
  | cons e es ih =>
    intro N h
    refine ih _ ?_
    cases e with
    | device ip u =>
      cases hd : N.devices ip with
      | none => simp only [Home.step, hd]; exact h
      | some R => simp only [Home.step, hd]; exact h
    | controller ip u =>
      cases hd : N.controllers ip with
      | none => simp only [Home.step, hd]; exact h
      | some R =>
        simp only [Home.step, hd]
        intro ip' R' h'
        split at h'
        · injection h' with h'; rw [← h']; exact supposes_use R u (h ip R hd)
        · exact h ip' R' h'

end Uecho
