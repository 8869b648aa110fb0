/- One call of `post_message`, begun while no message is being handled, among any number of receiving and
sending threads. -/
import Verif.Model.Post

namespace Uecho.Conc

@[simp] theorem upd_same {α : Type} (f : Nat → α) (k : Nat) (v : α) : upd f k v k = v := if_pos rfl
theorem upd_other {α : Type} (f : Nat → α) (k : Nat) (v : α) (i : Nat) (h : i ≠ k) : upd f k v i = f i := if_neg h

/-- A message that answers the request: it has its TID, which is not 0; `pos` holds of the messages received. -/
def Match (pos : Msg → Prop) (tq : Int) (m : Msg) : Prop := (m.tid = tq ∧ tq ≠ 0) ∧ pos m

/-- Where the posting thread can be. -/
def PosterOK (pos : Msg → Prop) (n q : Nat) (sl : Slot) (tq : Int) : PC → Prop
  | .load1 q' => q' = q ∧ sl.req = none
  | .setReq q' s => q' = q ∧ s = n ∧ sl.req = none
  | .chk w q' => w = true ∧ q' = q ∧ sl.req = some q
  | .ld w q' => w = true ∧ q' = q ∧ sl.req = some q ∧ tq = 0
  | .st w q' _ => w = true ∧ q' = q ∧ sl.req = some q ∧ tq = 0
  | .cmp w q' => w = true ∧ q' = q ∧ sl.req = some q ∧ tq = 0
  | .rst w q' => w = true ∧ q' = q ∧ sl.req = some q ∧ tq = 0
  | .ret w q' => w = true ∧ q' = q ∧ sl.req = some q ∧ tq = 0
  | .set w q' _ => w = true ∧ q' = q ∧ sl.req = some q ∧ tq = 0
  | .out w q' => w = true ∧ q' = q ∧ sl.req = some q
  | .acq q' => q' = q ∧ sl.req = some q
  | .wt q' => q' = q ∧ sl.req = some q
  | .waiting q' => q' = q ∧ sl.req = some q
  | .reacq q' => q' = q ∧ sl.req = some q
  | .rel q' => q' = q ∧ sl.req = some q
  | .load2 q' => q' = q ∧ sl.req = some q
  | .rd q' s => q' = q ∧ s = n ∧ sl.req = some q
  | .done q' r => q' = q ∧ sl.req = some q ∧ ∀ m, r = some m → Match pos tq m
  | .raised => sl.req = some q
  | _ => False

/-- Where the other threads can be; `pos` holds of the messages received. -/
def OtherOK (pos : Msg → Prop) (n q : Nat) (sl : Slot) (tq : Int) : PC → Prop
  | .idle => True
  | .done _ _ => True
  | .raised => True
  | .chk w q' => w = false ∧ q' ≠ q
  | .ld w q' => w = false ∧ q' ≠ q
  | .st w q' _ => w = false ∧ q' ≠ q
  | .cmp w q' => w = false ∧ q' ≠ q
  | .rst w q' => w = false ∧ q' ≠ q
  | .ret w q' => w = false ∧ q' ≠ q
  | .set w q' _ => w = false ∧ q' ≠ q
  | .out w q' => w = false ∧ q' ≠ q
  | .r0 m => pos m
  | .r1 m s => pos m ∧ s = n
  | .r2 m s => pos m ∧ s = n ∧ sl.req = some q
  | .r3 m => pos m ∧ sl.req = some q
  | .r4 m s => pos m ∧ s = n ∧ sl.req = some q
  | .r5 m q' => pos m ∧ q' = q
  | .r6 m => Match pos tq m
  | .r7 m s => Match pos tq m ∧ s = n
  | .r8 _ => True
  | .r9 _ => True
  | .r10 _ => True
  | _ => False

/-- The TID of the request, once it is not 0, stays; the request, once set, stays. -/
structure Mono (q : Nat) (sl sl' : Slot) (tq tq' : Int) : Prop where
  req : sl.req = some q → sl'.req = some q
  tid : tq ≠ 0 → tq' = tq

theorem Match.mono {pos : Msg → Prop} {q : Nat} {sl sl' : Slot} {tq tq' : Int} (h : Mono q sl sl' tq tq') {m : Msg} (hm : Match pos tq m) : Match pos tq' m := by
  have := h.tid hm.1.2
  exact ⟨⟨hm.1.1.trans this.symm, this ▸ hm.1.2⟩, hm.2⟩

theorem OtherOK.mono {pos : Msg → Prop} {n q : Nat} {sl sl' : Slot} {tq tq' : Int} (h : Mono q sl sl' tq tq') {p : PC}
    (hp : OtherOK pos n q sl tq p) : OtherOK pos n q sl' tq' p := by
  cases p <;> simp only [OtherOK] at hp ⊢ <;> try exact hp
  · exact ⟨hp.1, hp.2.1, h.req hp.2.2⟩
  · exact ⟨hp.1, h.req hp.2⟩
  · exact ⟨hp.1, hp.2.1, h.req hp.2.2⟩
  · exact hp.mono h
  · exact ⟨hp.1.mono h, hp.2⟩

/-- What other threads do changes at most the response, and not the request's TID. -/
theorem PosterOK.keep {pos : Msg → Prop} {n q : Nat} {sl sl' : Slot} {tq : Int} (h : sl'.req = sl.req) {p : PC}
    (hp : PosterOK pos n q sl tq p) : PosterOK pos n q sl' tq p := by
  cases p <;> simp only [PosterOK, h] at hp ⊢ <;> exact hp

structure Inv (pos : Msg → Prop) (i q n : Nat) (t0 : Int) (s : Sys) : Prop where
  last : s.last = n
  tid : t0 ≠ 0 → s.tid q = t0
  poster : PosterOK pos n q (s.slots n) (s.tid q) (s.pc i)
  others : ∀ t, t ≠ i → OtherOK pos n q (s.slots n) (s.tid q) (s.pc t)
  resp : ∀ m, (s.slots n).resp = some m → Match pos (s.tid q) m

/-- What may happen besides the post: no other post, no sending of the same message object; the posting
thread does nothing else; what is received has a TID other than 0 unless the request has its TID already. -/
def Fits (i q : Nat) (pos : Msg → Prop) : Nat × Act → Prop
  | (_, .post _) => False
  | (t, .send q') => t ≠ i ∧ q' ≠ q
  | (t, .recv m) => t ≠ i ∧ pos m
  | _ => True

theorem inv_step_poster {pos : Msg → Prop} {i q n : Nat} {t0 : Int} {s s' : Sys} (hi : Inv pos i q n t0 s) (a : Act) (hf : Fits i q pos (i, a))
    (h : s.step i a = some s') : Inv pos i q n t0 s' := by
  obtain ⟨h1, h2, h3, h4, h5⟩ := hi
  -- a step that leaves slots, TIDs and the last slot alone
  have easy : ∀ (s' : Sys) (p : PC), s'.pc = upd s.pc i p → s'.slots = s.slots → s'.tid = s.tid → s'.last = s.last →
      PosterOK pos n q (s.slots n) (s.tid q) p → Inv pos i q n t0 s' := by
    intro s' p e1 e2 e3 e4 hp
    refine ⟨e4.trans h1, ?_, ?_, ?_, ?_⟩
    · rw [e3]; exact h2
    · rw [e1, e2, e3, upd_same]; exact hp
    · intro t ht
      rw [e1, e2, e3, upd_other _ _ _ _ ht]
      exact h4 t ht
    · rw [e2, e3]; exact h5
  have hb : ∀ b w q', w = true ∧ q' = q ∧ (s.slots n).req = some q → PosterOK pos n q (s.slots n) (s.tid q) (Sys.sentTo w q' b) := by
    rintro b w q' ⟨rfl, rfl, hr⟩
    unfold Sys.sentTo
    cases b
    · exact ⟨rfl, hr, fun m hm => by cases hm⟩
    · exact ⟨rfl, hr⟩
  cases a with
  | post q' => exact absurd hf id
  | send q' => exact absurd rfl hf.1
  | recv m => exact absurd rfl hf.1
  | sent =>
    simp only [Sys.step] at h
    split at h
    · rename_i w q' hp
      rw [hp] at h3
      cases h
      exact easy _ _ rfl rfl rfl rfl (hb _ _ _ h3)
    · cases h
  | refused =>
    simp only [Sys.step] at h
    split at h
    · rename_i w q' hp
      rw [hp] at h3
      cases h
      exact easy _ _ rfl rfl rfl rfl (hb _ _ _ h3)
    · cases h
  | sendRaises =>
    simp only [Sys.step] at h
    split at h
    · rename_i w q' hp
      rw [hp] at h3
      cases h
      exact easy _ .raised rfl rfl rfl rfl h3.2.2
    · cases h
  | timeout =>
    simp only [Sys.step] at h
    split at h
    · rename_i q' hp
      rw [hp] at h3
      cases h
      exact easy _ (.reacq q') rfl rfl rfl rfl h3
    · cases h
  | run =>
    simp only [Sys.step] at h
    generalize hp : s.pc i = p at h h3
    cases p <;> simp only [Sys.goOn, PosterOK] at h h3 <;> try (exact absurd h3 id)
    case load1 q' => cases h; exact easy _ (.setReq q' s.last) rfl rfl rfl rfl ⟨h3.1, h1, h3.2⟩
    case setReq q' n' =>
      cases h
      obtain ⟨rfl, rfl, hr⟩ := h3
      have hm : Mono q' (s.slots n') { s.slots n' with req := some q' } (s.tid q') (s.tid q') := ⟨fun _ => rfl, fun _ => rfl⟩
      refine ⟨h1, h2, ?_, ?_, ?_⟩
      · simp [Sys.goto, PosterOK]
      · intro t ht
        simp only [Sys.goto, upd_same]
        rw [upd_other _ _ _ _ ht]
        exact (h4 t ht).mono hm
      · intro m hm'
        simp only [Sys.goto, upd_same] at hm'
        exact h5 m hm'
    case chk w q' =>
      cases h
      refine easy _ _ rfl rfl rfl rfl ?_
      obtain ⟨hw, rfl, hr⟩ := h3
      split
      · rename_i e; exact ⟨hw, rfl, hr, e⟩
      · exact ⟨hw, rfl, hr⟩
    case ld w q' => cases h; exact easy _ (.st w q' s.counter) rfl rfl rfl rfl h3
    case st w q' v => cases h; exact easy _ (.cmp w q') rfl rfl rfl rfl h3
    case cmp w q' =>
      cases h
      refine easy _ _ rfl rfl rfl rfl ?_
      split
      · exact h3
      · exact h3
    case rst w q' => cases h; exact easy _ (.ret w q') rfl rfl rfl rfl h3
    case ret w q' => cases h; exact easy _ (.set w q' s.counter) rfl rfl rfl rfl h3
    case set w q' v =>
      cases h
      obtain ⟨hw, rfl, hr, h0⟩ := h3
      have hm : Mono q' (s.slots n) (s.slots n) (s.tid q') v := ⟨fun h => h, fun h => absurd h0 h⟩
      refine ⟨h1, ?_, ?_, ?_, ?_⟩
      · intro ht
        exact absurd ((h2 ht).symm.trans h0) ht
      · simp [Sys.goto, PosterOK, hw, hr]
      · intro t ht
        simp only [Sys.goto, upd_same]
        rw [upd_other _ _ _ _ ht]
        exact (h4 t ht).mono hm
      · intro m hm'
        exact absurd h0 (h5 m hm').1.2
    case acq q' =>
      split at h
      · cases h; exact easy _ (.wt q') rfl rfl rfl rfl h3
      · cases h
    case wt q' => cases h; exact easy _ (.waiting q') rfl rfl rfl rfl h3
    case waiting q' =>
      split at h
      · cases h
      · cases h; exact easy _ (.reacq q') rfl rfl rfl rfl h3
    case reacq q' =>
      split at h
      · cases h; exact easy _ (.rel q') rfl rfl rfl rfl h3
      · cases h
    case rel q' => cases h; exact easy _ (.load2 q') rfl rfl rfl rfl h3
    case load2 q' => cases h; exact easy _ (.rd q' s.last) rfl rfl rfl rfl ⟨h3.1, h1, h3.2⟩
    case rd q' n' =>
      cases h
      obtain ⟨rfl, rfl, hr⟩ := h3
      exact easy _ (.done q' (s.slots n').resp) rfl rfl rfl rfl ⟨rfl, hr, h5⟩
    all_goals cases h

theorem inv_step_other {pos : Msg → Prop} {i q n : Nat} {t0 : Int} (hpos : ∀ m, pos m → t0 ≠ 0 ∨ m.tid ≠ 0)
    {s s' : Sys} (hi : Inv pos i q n t0 s) (t : Nat) (ht : t ≠ i) (a : Act)
    (hf : Fits i q pos (t, a)) (h : s.step t a = some s') : Inv pos i q n t0 s' := by
  obtain ⟨h1, h2, h3, h4, h5⟩ := hi
  have h6 := h4 t ht
  have easy : ∀ (s' : Sys) (p : PC), s'.pc = upd s.pc t p → s'.slots = s.slots → s'.tid q = s.tid q → s'.last = s.last →
      OtherOK pos n q (s.slots n) (s.tid q) p → Inv pos i q n t0 s' := by
    intro s' p e1 e2 e3 e4 hp
    refine ⟨e4.trans h1, ?_, ?_, ?_, ?_⟩
    · rw [e3]; exact h2
    · rw [e1, e2, e3, upd_other _ _ _ _ ht.symm]; exact h3
    · intro u hu
      rw [e1, e2, e3]
      by_cases hut : u = t
      · rw [hut, upd_same]; exact hp
      · rw [upd_other _ _ _ _ hut]; exact h4 u hu
    · rw [e2, e3]; exact h5
  cases a with
  | post q' => exact absurd hf id
  | send q' =>
    simp only [Sys.step] at h
    split at h
    · cases h; exact easy _ (.chk false q') rfl rfl rfl rfl ⟨rfl, hf.2⟩
    · cases h
  | recv m =>
    simp only [Sys.step] at h
    split at h
    · cases h; exact easy _ (.r0 m) rfl rfl rfl rfl hf.2
    · cases h
  | sent =>
    simp only [Sys.step] at h
    split at h
    · rename_i w q' hp
      rw [hp] at h6
      cases h
      refine easy _ _ rfl rfl rfl rfl ?_
      rw [h6.1]; exact trivial
    · cases h
  | refused =>
    simp only [Sys.step] at h
    split at h
    · rename_i w q' hp
      rw [hp] at h6
      cases h
      refine easy _ _ rfl rfl rfl rfl ?_
      rw [h6.1]; exact trivial
    · cases h
  | sendRaises =>
    simp only [Sys.step] at h
    split at h
    · cases h; exact easy _ .raised rfl rfl rfl rfl trivial
    · cases h
  | timeout =>
    simp only [Sys.step] at h
    split at h
    · rename_i q' hp
      rw [hp] at h6
      exact absurd h6 id
    · cases h
  | run =>
    simp only [Sys.step] at h
    generalize hp : s.pc t = p at h h6
    cases p <;> simp only [Sys.goOn, OtherOK] at h h6 <;> try (exact absurd h6 id)
    case chk w q' =>
      cases h
      refine easy _ _ rfl rfl rfl rfl ?_
      split
      · exact h6
      · exact h6
    case ld w q' => cases h; exact easy _ (.st w q' s.counter) rfl rfl rfl rfl h6
    case st w q' v => cases h; exact easy _ (.cmp w q') rfl rfl rfl rfl h6
    case cmp w q' =>
      cases h
      refine easy _ _ rfl rfl rfl rfl ?_
      split
      · exact h6
      · exact h6
    case rst w q' => cases h; exact easy _ (.ret w q') rfl rfl rfl rfl h6
    case ret w q' => cases h; exact easy _ (.set w q' s.counter) rfl rfl rfl rfl h6
    case set w q' v =>
      cases h
      exact easy _ (.out w q') rfl rfl (upd_other _ _ _ _ h6.2.symm) rfl h6
    case r0 m => cases h; exact easy _ (.r1 m s.last) rfl rfl rfl rfl ⟨h6, h1⟩
    case r1 m n' =>
      cases h
      obtain ⟨h6, rfl⟩ := h6
      refine easy _ _ rfl rfl rfl rfl ?_
      have hreq : ∀ q'', (s.slots n').req = some q'' → (s.slots n').req = some q := by
        intro q'' e
        have := h3
        generalize s.pc i = p at this
        cases p <;> simp only [PosterOK, e] at this ⊢ <;> simp_all
      split
      · trivial
      · rename_i q'' e; exact ⟨h6, rfl, hreq q'' e⟩
    case r2 m n' =>
      cases h
      obtain ⟨h6, rfl, hr⟩ := h6
      refine easy _ _ rfl rfl rfl rfl ?_
      split
      · exact ⟨h6, hr⟩
      · trivial
    case r3 m => cases h; exact easy _ (.r4 m s.last) rfl rfl rfl rfl ⟨h6.1, h1, h6.2⟩
    case r4 m n' =>
      cases h
      obtain ⟨h6, rfl, hr⟩ := h6
      refine easy _ _ rfl rfl rfl rfl ?_
      rw [hr]
      exact ⟨h6, rfl⟩
    case r5 m q' =>
      cases h
      obtain ⟨h6, rfl⟩ := h6
      refine easy _ _ rfl rfl rfl rfl ?_
      split
      · trivial
      · rename_i e
        have e : s.tid q' = m.tid := not_not.mp e
        refine ⟨⟨e.symm, ?_⟩, h6⟩
        rcases hpos m h6 with h0 | h0
        · rw [h2 h0]; exact h0
        · rw [e]; exact h0
    case r6 m => cases h; exact easy _ (.r7 m s.last) rfl rfl rfl rfl ⟨h6, h1⟩
    case r7 m n' =>
      cases h
      obtain ⟨h6, rfl⟩ := h6
      have hm : Mono q (s.slots n') { s.slots n' with resp := some m } (s.tid q) (s.tid q) := ⟨fun h => h, fun _ => rfl⟩
      refine ⟨h1, h2, ?_, ?_, ?_⟩
      · simp only [Sys.goto, upd_same]
        rw [upd_other _ _ _ _ ht.symm]
        exact h3.keep rfl
      · intro u hu
        simp only [Sys.goto, upd_same]
        by_cases hut : u = t
        · rw [hut, upd_same]; trivial
        · rw [upd_other _ _ _ _ hut]; exact (h4 u hu).mono hm
      · intro m' hm'
        simp only [Sys.goto, upd_same] at hm'
        cases hm'
        exact h6
    case r8 m =>
      split at h
      · cases h; exact easy _ (.r9 m) rfl rfl rfl rfl trivial
      · cases h
    case r9 m => cases h; exact easy _ (.r10 m) rfl rfl rfl rfl trivial
    case r10 m => cases h; exact easy _ .idle rfl rfl rfl rfl trivial
    all_goals cases h

theorem inv_exec {pos : Msg → Prop} {i q n : Nat} {t0 : Int} (hpos : ∀ m, pos m → t0 ≠ 0 ∨ m.tid ≠ 0) (l : List (Nat × Act)) :
    ∀ {s s' : Sys}, Inv pos i q n t0 s → (∀ x ∈ l, Fits i q pos x) → s.exec l = some s' → Inv pos i q n t0 s' := by
  induction l with
  | nil => intro s s' hi _ h; cases h; exact hi
  | cons x l ih =>
    intro s s' hi hf h
    obtain ⟨t, a⟩ := x
    unfold Sys.exec at h
    split at h
    · cases h
    · rename_i s1 h1
      refine ih ?_ (fun y hy => hf y (List.mem_cons_of_mem _ hy)) h
      by_cases ht : t = i
      · subst ht
        exact inv_step_poster hi a (hf _ List.mem_cons_self) h1
      · exact inv_step_other hpos hi t ht a (hf _ List.mem_cons_self) h1

/-- A thread that neither posts nor sends the message object q nor handles a message (but for the notification
at the end). -/
def Bystander (q : Nat) (p : PC) : Prop := OtherOK (fun _ => False) 0 q {} 0 p

theorem inv_post {pos : Msg → Prop} {i q : Nat} {s s' : Sys} (hq : ∀ t, t ≠ i → Bystander q (s.pc t)) (h : s.step i (.post q) = some s') :
    Inv pos i q s.next (s.tid q) s' := by
  simp only [Sys.step] at h
  split at h
  · cases h
    refine ⟨rfl, fun _ => rfl, ?_, ?_, ?_⟩
    · simp [Sys.goto, PosterOK]
    · intro t ht
      simp only [Sys.goto, upd_same]
      rw [upd_other _ _ _ _ ht]
      have := hq t ht
      generalize s.pc t = p at this
      unfold Bystander at this
      cases p <;> simp only [OtherOK, Match, ne_eq, not_true, and_false, false_and] at this ⊢ <;> first | exact this | exact absurd this id
    · intro m hm
      simp [Sys.goto] at hm
  · cases h

theorem exec_append (l1 l2 : List (Nat × Act)) : ∀ s : Sys, s.exec (l1 ++ l2) = match s.exec l1 with | none => none | some s' => s'.exec l2 := by
  induction l1 with
  | nil => intro s; rfl
  | cons x l1 ih =>
    intro s
    obtain ⟨t, a⟩ := x
    rw [List.cons_append, Sys.exec, Sys.exec]
    cases s.step t a with
    | none => rfl
    | some s1 => exact ih s1

/-- The request has got its TID; the post has neither returned nor failed. -/
def Ready : PC → Prop
  | .out _ _ => True
  | .acq _ => True
  | .wt _ => True
  | .waiting _ => True
  | .reacq _ => True
  | .rel _ => True
  | .load2 _ => True
  | .rd _ _ => True
  | _ => False

/-- The same, or the post is over. -/
def Late : PC → Prop
  | .done _ _ => True
  | .raised => True
  | p => Ready p

/-- What a step of the posting thread does once the request has its TID. -/
theorem late_poster {pos : Msg → Prop} {i q n : Nat} {t0 : Int} {s s' : Sys} (hi : Inv pos i q n t0 s) (hl : Late (s.pc i)) (a : Act)
    (hf : Fits i q pos (i, a)) (h : s.step i a = some s') :
    Late (s'.pc i) ∧ s'.tid = s.tid ∧ s'.slots = s.slots ∧ (∀ t, t ≠ i → s'.pc t = s.pc t) ∧
    (∀ q' r, s'.pc i = .done q' r → r = (s.slots n).resp ∨ a = .refused) := by
  have hp := hi.poster
  have easy : ∀ (s' : Sys) (p : PC), s'.pc = upd s.pc i p → s'.slots = s.slots → s'.tid = s.tid → Late p →
      (∀ q' r, p = .done q' r → r = (s.slots n).resp ∨ a = .refused) →
      Late (s'.pc i) ∧ s'.tid = s.tid ∧ s'.slots = s.slots ∧ (∀ t, t ≠ i → s'.pc t = s.pc t) ∧
      (∀ q' r, s'.pc i = .done q' r → r = (s.slots n).resp ∨ a = .refused) := by
    intro s' p e1 e2 e3 e4 e5
    rw [e1, upd_same]
    exact ⟨e4, e3, e2, fun t ht => upd_other _ _ _ _ ht, e5⟩
  cases a with
  | post q' => exact absurd hf id
  | send q' => exact absurd rfl hf.1
  | recv m => exact absurd rfl hf.1
  | sent =>
    simp only [Sys.step] at h
    split at h
    · rename_i w q' hpc
      rw [hpc] at hp
      cases h
      refine easy _ (Sys.sentTo w q' true) rfl rfl rfl ?_ ?_
      · rw [hp.1]; exact trivial
      · rw [hp.1]; intro q'' r e; cases e
    · cases h
  | refused =>
    simp only [Sys.step] at h
    split at h
    · rename_i w q' hpc
      rw [hpc] at hp
      cases h
      refine easy _ (Sys.sentTo w q' false) rfl rfl rfl ?_ ?_
      · rw [hp.1]; exact trivial
      · intro q'' r e; exact Or.inr rfl
    · cases h
  | sendRaises =>
    simp only [Sys.step] at h
    split at h
    · cases h
      exact easy _ .raised rfl rfl rfl trivial (by intro q'' r e; cases e)
    · cases h
  | timeout =>
    simp only [Sys.step] at h
    split at h
    · rename_i q' hpc
      cases h
      exact easy _ (.reacq q') rfl rfl rfl trivial (by intro q'' r e; cases e)
    · cases h
  | run =>
    simp only [Sys.step] at h
    generalize hpc : s.pc i = p at h hp hl
    cases p <;> simp only [Sys.goOn, Late, Ready] at h hl <;> try (exact absurd hl id)
    case acq q' =>
      split at h
      · cases h; exact easy _ (.wt q') rfl rfl rfl trivial (by intro q'' r e; cases e)
      · cases h
    case wt q' => cases h; exact easy _ (.waiting q') rfl rfl rfl trivial (by intro q'' r e; cases e)
    case waiting q' =>
      split at h
      · cases h
      · cases h; exact easy _ (.reacq q') rfl rfl rfl trivial (by intro q'' r e; cases e)
    case reacq q' =>
      split at h
      · cases h; exact easy _ (.rel q') rfl rfl rfl trivial (by intro q'' r e; cases e)
      · cases h
    case rel q' => cases h; exact easy _ (.load2 q') rfl rfl rfl trivial (by intro q'' r e; cases e)
    case load2 q' => cases h; exact easy _ (.rd q' s.last) rfl rfl rfl trivial (by intro q'' r e; cases e)
    case rd q' n' =>
      cases h
      refine easy _ (.done q' (s.slots n').resp) rfl rfl rfl trivial ?_
      intro q'' r e
      cases e
      rw [hp.2.1]
      exact Or.inl rfl
    all_goals cases h

/-- What a step of another thread does to the post. -/
theorem late_other {pos : Msg → Prop} {i q n : Nat} {t0 : Int} {s s' : Sys} (hi : Inv pos i q n t0 s) (t : Nat) (ht : t ≠ i) (a : Act)
    (hf : Fits i q pos (t, a)) (h : s.step t a = some s') :
    s'.pc i = s.pc i ∧ s'.tid q = s.tid q ∧ (∀ u, u ≠ t → s'.pc u = s.pc u) ∧
    ((s'.slots n).resp = (s.slots n).resp ∨ ∃ m, s.pc t = .r7 m n ∧ (s'.slots n).resp = some m) := by
  have hp := hi.others t ht
  have easy : ∀ (s' : Sys) (p : PC), s'.pc = upd s.pc t p → s'.tid q = s.tid q → s'.slots = s.slots →
      s'.pc i = s.pc i ∧ s'.tid q = s.tid q ∧ (∀ u, u ≠ t → s'.pc u = s.pc u) ∧
      ((s'.slots n).resp = (s.slots n).resp ∨ ∃ m, s.pc t = .r7 m n ∧ (s'.slots n).resp = some m) := by
    intro s' p e1 e2 e3
    rw [e1, e3]
    exact ⟨upd_other _ _ _ _ ht.symm, e2, fun u hu => upd_other _ _ _ _ hu, Or.inl rfl⟩
  cases a with
  | post q' => exact absurd hf id
  | send q' =>
    simp only [Sys.step] at h
    split at h
    · cases h; exact easy _ _ rfl rfl rfl
    · cases h
  | recv m =>
    simp only [Sys.step] at h
    split at h
    · cases h; exact easy _ _ rfl rfl rfl
    · cases h
  | sent =>
    simp only [Sys.step] at h
    split at h
    · cases h; exact easy _ _ rfl rfl rfl
    · cases h
  | refused =>
    simp only [Sys.step] at h
    split at h
    · cases h; exact easy _ _ rfl rfl rfl
    · cases h
  | sendRaises =>
    simp only [Sys.step] at h
    split at h
    · cases h; exact easy _ _ rfl rfl rfl
    · cases h
  | timeout =>
    simp only [Sys.step] at h
    split at h
    · cases h; exact easy _ _ rfl rfl rfl
    · cases h
  | run =>
    simp only [Sys.step] at h
    generalize hpc : s.pc t = p at h hp
    cases p <;> simp only [Sys.goOn, OtherOK] at h hp <;> try (exact absurd hp id)
    case set w q' v => cases h; exact hpc ▸ easy _ _ rfl (upd_other _ _ _ _ hp.2.symm) rfl
    case r7 m n' =>
      cases h
      obtain ⟨hp, rfl⟩ := hp
      refine ⟨upd_other _ _ _ _ ht.symm, rfl, fun u hu => upd_other _ _ _ _ hu, Or.inr ⟨m, rfl, ?_⟩⟩
      simp [Sys.goto]
    case r8 m =>
      split at h
      · cases h; exact hpc ▸ easy _ _ rfl rfl rfl
      · cases h
    all_goals first | (cases h; exact hpc ▸ easy _ _ rfl rfl rfl) | cases h

/-- Thread k is handling message m, up to the storing of the response. -/
def Handling (m : Msg) (n q : Nat) : PC → Prop
  | .r0 m' => m' = m
  | .r1 m' s => m' = m ∧ s = n
  | .r2 m' s => m' = m ∧ s = n
  | .r3 m' => m' = m
  | .r4 m' s => m' = m ∧ s = n
  | .r5 m' q' => m' = m ∧ q' = q
  | .r6 m' => m' = m
  | .r7 m' s => m' = m ∧ s = n
  | _ => False

theorem late_req {pos : Msg → Prop} {i q n : Nat} {t0 : Int} {s : Sys} (hi : Inv pos i q n t0 s) (hl : Late (s.pc i)) :
    (s.slots n).req = some q := by
  have hp := hi.poster
  generalize s.pc i = p at hp hl
  cases p <;> simp only [Late, Ready, PosterOK] at hl hp <;> first | exact absurd hl id | exact hp.2.2 | exact hp.2 | exact hp.2.1 | exact hp

/-- The handling goes on until the response is stored; it ends early only if there is a response already. -/
theorem handling_step {pos : Msg → Prop} {i q n : Nat} {t0 : Int} {s s' : Sys} (hi : Inv pos i q n t0 s) (hl : Late (s.pc i))
    (k : Nat) (m : Msg) (hm : s.tid q = m.tid) (hk : Handling m n q (s.pc k)) (a : Act) (h : s.step k a = some s') :
    Handling m n q (s'.pc k) ∨ (s'.slots n).resp = some m ∨ (s'.slots n).resp = (s.slots n).resp ∧ (s.slots n).resp.isSome = true := by
  have hr := late_req hi hl
  generalize hpc : s.pc k = p at hk
  cases p <;> simp only [Handling] at hk <;> try (exact absurd hk id)
  all_goals cases a <;> simp only [Sys.step, hpc, PC.free, Bool.false_eq_true, if_false, Sys.goOn, reduceCtorEq] at h
  case r0.run => cases h; left; simp [Sys.goto, Handling, hk, hi.last]
  case r1.run =>
    obtain ⟨rfl, rfl⟩ := hk
    rw [hr] at h
    cases h; left; simp [Sys.goto, Handling]
  case r2.run =>
    obtain ⟨rfl, rfl⟩ := hk
    cases hre : (s.slots _).resp with
    | none =>
      rw [hre] at h
      cases h; left; simp [Sys.goto, Handling]
    | some x =>
      rw [hre] at h
      cases h; right; right
      exact ⟨hre, rfl⟩
  case r3.run => cases h; left; simp [Sys.goto, Handling, hk, hi.last]
  case r4.run =>
    obtain ⟨rfl, rfl⟩ := hk
    rw [hr] at h
    cases h; left; simp [Sys.goto, Handling]
  case r5.run =>
    obtain ⟨rfl, rfl⟩ := hk
    rw [if_neg (not_not.mpr hm)] at h
    cases h; left; simp [Sys.goto, Handling]
  case r6.run => cases h; left; simp [Sys.goto, Handling, hk, hi.last]
  case r7.run =>
    obtain ⟨rfl, rfl⟩ := hk
    cases h; right; left
    simp [Sys.goto]

theorem Ready.late {p : PC} (h : Ready p) : Late p := by
  cases p <;> simp only [Ready] at h <;> first | exact absurd h id | exact trivial

/-- The post is under way with its TID settled, and `P` holds of the response there is. -/
structure Post2 (pos : Msg → Prop) (i q n : Nat) (t0 tq : Int) (s : Sys) : Prop where
  inv : Inv pos i q n t0 s
  late : Late (s.pc i)
  tid : s.tid q = tq

theorem post2_step {pos : Msg → Prop} {i q n : Nat} {t0 tq : Int} (hpos : ∀ m, pos m → t0 ≠ 0 ∨ m.tid ≠ 0) {s s' : Sys} (h : Post2 pos i q n t0 tq s)
    (t : Nat) (a : Act) (hf : Fits i q pos (t, a)) (he : s.step t a = some s') : Post2 pos i q n t0 tq s' := by
  by_cases ht : t = i
  · subst ht
    obtain ⟨h1, h2, -⟩ := late_poster h.inv h.late a hf he
    exact ⟨inv_step_poster h.inv a hf he, h1, by rw [h2]; exact h.tid⟩
  · obtain ⟨h1, h2, -⟩ := late_other h.inv t ht a hf he
    exact ⟨inv_step_other hpos h.inv t ht a hf he, by rw [h1]; exact h.late, by rw [h2]; exact h.tid⟩

/-- Any property of states kept by all steps of a post under way is kept by schedules. -/
theorem post2_exec {pos : Msg → Prop} {i q n : Nat} {t0 tq : Int} (hpos : ∀ m, pos m → t0 ≠ 0 ∨ m.tid ≠ 0) (P : Sys → Prop) (ok : Nat × Act → Prop)
    (hP : ∀ s s' t a, Post2 pos i q n t0 tq s → P s → Fits i q pos (t, a) → ok (t, a) → s.step t a = some s' → P s')
    (l : List (Nat × Act)) : ∀ {s s' : Sys}, Post2 pos i q n t0 tq s → P s → (∀ x ∈ l, Fits i q pos x) → (∀ x ∈ l, ok x) →
      s.exec l = some s' → Post2 pos i q n t0 tq s' ∧ P s' := by
  induction l with
  | nil => intro s s' h hp _ _ he; cases he; exact ⟨h, hp⟩
  | cons x l ih =>
    intro s s' h hp hf hok he
    obtain ⟨t, a⟩ := x
    unfold Sys.exec at he
    split at he
    · cases he
    · rename_i s1 h1
      exact ih (post2_step hpos h t a (hf _ List.mem_cons_self) h1) (hP s s1 t a h hp (hf _ List.mem_cons_self) (hok _ List.mem_cons_self) h1)
        (fun y hy => hf y (List.mem_cons_of_mem _ hy)) (fun y hy => hok y (List.mem_cons_of_mem _ hy)) he

theorem resp_some_step {pos : Msg → Prop} {i q n : Nat} {t0 tq : Int} {s s' : Sys} (h : Post2 pos i q n t0 tq s)
    (hs : (s.slots n).resp.isSome = true) (t : Nat) (a : Act) (hf : Fits i q pos (t, a)) (he : s.step t a = some s') :
    (s'.slots n).resp.isSome = true := by
  by_cases ht : t = i
  · subst ht
    obtain ⟨-, -, h3, -⟩ := late_poster h.inv h.late a hf he
    rw [h3]; exact hs
  · rcases (late_other h.inv t ht a hf he).2.2.2 with e | ⟨m, -, e⟩
    · rw [e]; exact hs
    · rw [e]; rfl

/-! ### One receiving thread -/

/-- A thread between the beginning of the handling of a message and the storing of the response. -/
def Receiving : PC → Prop
  | .r0 _ => True
  | .r1 _ _ => True
  | .r2 _ _ => True
  | .r3 _ => True
  | .r4 _ _ => True
  | .r5 _ _ => True
  | .r6 _ => True
  | .r7 _ _ => True
  | _ => False

theorem sentTo_not (w : Bool) (q : Nat) (b : Bool) : ¬ Receiving (Sys.sentTo w q b) := by
  cases w <;> cases b <;> exact id

/-- A thread begins to handle a message only by receiving one. -/
theorem not_receiving_step {s s' : Sys} (t : Nat) (a : Act) (h : s.step t a = some s') (u : Nat) (hu : ¬ Receiving (s.pc u))
    (ha : ∀ m, (t, a) ≠ (u, .recv m)) : ¬ Receiving (s'.pc u) := by
  by_cases htu : u = t
  · subst htu
    have easy : ∀ (s' : Sys) (p : PC), s'.pc = upd s.pc u p → ¬ Receiving p → ¬ Receiving (s'.pc u) := by
      intro s' p e1 e2
      rw [e1, upd_same]; exact e2
    cases a with
    | post q =>
      simp only [Sys.step] at h
      split at h
      · cases h; exact easy _ _ rfl id
      · cases h
    | send q =>
      simp only [Sys.step] at h
      split at h
      · cases h; exact easy _ _ rfl id
      · cases h
    | recv m => exact absurd rfl (ha m)
    | sent =>
      simp only [Sys.step] at h
      split at h
      · cases h; exact easy _ _ rfl (sentTo_not _ _ _)
      · cases h
    | refused =>
      simp only [Sys.step] at h
      split at h
      · cases h; exact easy _ _ rfl (sentTo_not _ _ _)
      · cases h
    | sendRaises =>
      simp only [Sys.step] at h
      split at h
      · cases h; exact easy _ _ rfl id
      · cases h
    | timeout =>
      simp only [Sys.step] at h
      split at h
      · cases h; exact easy _ _ rfl id
      · cases h
    | run =>
      simp only [Sys.step] at h
      generalize s.pc u = p at h hu
      cases p <;> simp only [Sys.goOn, Receiving, not_true] at h hu
      all_goals first
        | (cases h; exact easy _ _ rfl id)
        | (cases h; refine easy _ _ rfl ?_; split <;> exact id)
        | (split at h; · cases h; exact easy _ _ rfl id
           · cases h)
        | (split at h; · cases h
           · cases h; exact easy _ _ rfl id)
        | cases h
  · have hpc : s'.pc u = s.pc u := by
      cases a <;> simp only [Sys.step] at h
      case run =>
        generalize s.pc t = p at h
        cases p <;> simp only [Sys.goOn] at h
        all_goals first
          | (cases h; exact upd_other _ _ _ _ htu)
          | (split at h; · cases h; exact upd_other _ _ _ _ htu
             · cases h)
          | (split at h; · cases h
             · cases h; exact upd_other _ _ _ _ htu)
          | cases h
      all_goals
        split at h
        · cases h; exact upd_other _ _ _ _ htu
        · cases h
    rw [hpc]; exact hu

theorem not_receiving_exec (u : Nat) (l : List (Nat × Act)) : ∀ {s s' : Sys}, s.exec l = some s' → ¬ Receiving (s.pc u) →
    (∀ m, (u, Act.recv m) ∉ l) → ¬ Receiving (s'.pc u) := by
  induction l with
  | nil => intro s s' h hu _; cases h; exact hu
  | cons x l ih =>
    intro s s' h hu hl
    obtain ⟨t, a⟩ := x
    unfold Sys.exec at h
    split at h
    · cases h
    · rename_i s1 h1
      refine ih h (not_receiving_step t a h1 u hu ?_) (fun m hm => hl m (List.mem_cons_of_mem _ hm))
      intro m e
      exact hl m (e ▸ List.mem_cons_self)

/-- Past the check whether there is a response. -/
def Storing : PC → Prop
  | .r3 _ => True
  | .r4 _ _ => True
  | .r5 _ _ => True
  | .r6 _ => True
  | .r7 _ _ => True
  | _ => False

theorem Storing.receiving {p : PC} (h : Storing p) : Receiving p := by
  cases p <;> first | exact trivial | exact absurd h id

theorem Handling.receiving {m : Msg} {n q : Nat} {p : PC} (h : Handling m n q p) : Receiving p := by
  cases p <;> first | exact trivial | exact absurd h id

/-- With a response in the slot, nobody begins to store another. -/
theorem storing_step {pos : Msg → Prop} {i q n : Nat} {t0 tq : Int} {s s' : Sys} (hx : Post2 pos i q n t0 tq s) (k : Nat) (hki : k ≠ i)
    (hr : (s.slots n).resp.isSome = true) (hk : ¬ Storing (s.pc k)) (a : Act) (h : s.step k a = some s') : ¬ Storing (s'.pc k) := by
  have hp := hx.inv.others k hki
  by_cases hrec : Receiving (s.pc k)
  · generalize hpc : s.pc k = p at hrec hk hp
    cases p <;> simp only [Receiving, Storing, not_true] at hrec hk
    all_goals cases a <;> simp only [Sys.step, hpc, PC.free, Bool.false_eq_true, if_false, Sys.goOn, reduceCtorEq] at h
    case r0.run m => cases h; simp [Sys.goto, Storing]
    case r1.run m n' =>
      cases h
      simp only [Sys.goto, upd_same]
      split <;> exact id
    case r2.run m n' =>
      obtain ⟨-, rfl, -⟩ := hp
      obtain ⟨x, hx⟩ := Option.isSome_iff_exists.mp hr
      rw [hx] at h
      cases h
      simp [Sys.goto, Storing]
  · by_cases ha : ∃ m, a = .recv m
    · obtain ⟨m, rfl⟩ := ha
      simp only [Sys.step] at h
      split at h
      · cases h; simp [Sys.goto, Storing]
      · cases h
    · intro hs
      exact not_receiving_step k a h k hrec (fun m e => ha ⟨m, by injection e⟩) hs.receiving

/-! ### The lock and the waiting threads -/

/-- A thread that has acquired the condition. -/
def Holds : PC → Prop
  | .wt _ => True
  | .rel _ => True
  | .r9 _ => True
  | .r10 _ => True
  | _ => False

def Waits : PC → Prop
  | .waiting _ => True
  | _ => False

/-- What a step does to the lock and the waiting threads; p is where the thread gets. -/
inductive LockStep (s s' : Sys) (t : Nat) (p : PC) : Prop where
  | plain (h1 : s'.lock = s.lock) (h2 : s'.waiters = s.waiters) (h3 : ¬ Holds (s.pc t)) (h4 : ¬ Holds p) (h5 : Waits (s.pc t) → t ∉ s.waiters) (h6 : ¬ Waits p)
  | acquire (h0 : s.lock = none) (h1 : s'.lock = some t) (h2 : s'.waiters = s.waiters) (h4 : Holds p) (h5 : ¬ Waits (s.pc t)) (h6 : ¬ Waits p)
  | wait (h0 : Holds (s.pc t)) (h1 : s'.lock = none) (h2 : s'.waiters = s.waiters ++ [t]) (h5 : ¬ Waits (s.pc t)) (h4 : ¬ Holds p) (h6 : Waits p)
  | release (h0 : Holds (s.pc t)) (h1 : s'.lock = none) (h2 : s'.waiters = s.waiters) (h5 : ¬ Waits (s.pc t)) (h4 : ¬ Holds p) (h6 : ¬ Waits p)
  | notify (h0 : ∃ m, s.pc t = .r9 m) (h1 : s'.lock = s.lock) (h2 : s'.waiters = s.waiters.tail) (h4 : Holds p) (h6 : ¬ Waits p)
  | timeout (h0 : Waits (s.pc t)) (h1 : s'.lock = s.lock) (h2 : s'.waiters = s.waiters.erase t) (h4 : ¬ Holds p) (h6 : ¬ Waits p)

theorem lock_step {s s' : Sys} (t : Nat) (a : Act) (h : s.step t a = some s') : ∃ p, s'.pc = upd s.pc t p ∧ LockStep s s' t p := by
  have free : ∀ p : PC, p.free = true → ¬ Holds p ∧ ¬ Waits p := by
    intro p hp
    cases p <;> simp [PC.free] at hp <;> exact ⟨id, id⟩
  cases a with
  | post q =>
    simp only [Sys.step] at h
    split at h
    · rename_i hf
      cases h
      exact ⟨_, rfl, .plain rfl rfl (free _ hf).1 id (fun hw => absurd hw (free _ hf).2) id⟩
    · cases h
  | send q =>
    simp only [Sys.step] at h
    split at h
    · rename_i hf
      cases h
      exact ⟨_, rfl, .plain rfl rfl (free _ hf).1 id (fun hw => absurd hw (free _ hf).2) id⟩
    · cases h
  | recv m =>
    simp only [Sys.step] at h
    split at h
    · rename_i hf
      cases h
      refine ⟨_, rfl, .plain rfl rfl ?_ id ?_ id⟩ <;> rw [hf]
      · exact id
      · exact fun hw => absurd hw id
    · cases h
  | sent =>
    simp only [Sys.step] at h
    split at h
    · rename_i w q hf
      cases h
      refine ⟨_, rfl, .plain rfl rfl ?_ ?_ ?_ ?_⟩
      · rw [hf]; exact id
      · cases w <;> exact id
      · rw [hf]; exact fun hw => absurd hw id
      · cases w <;> exact id
    · cases h
  | refused =>
    simp only [Sys.step] at h
    split at h
    · rename_i w q hf
      cases h
      refine ⟨_, rfl, .plain rfl rfl ?_ ?_ ?_ ?_⟩
      · rw [hf]; exact id
      · cases w <;> exact id
      · rw [hf]; exact fun hw => absurd hw id
      · cases w <;> exact id
    · cases h
  | sendRaises =>
    simp only [Sys.step] at h
    split at h
    · rename_i w q hf
      cases h
      refine ⟨_, rfl, .plain rfl rfl ?_ id ?_ id⟩ <;> rw [hf]
      · exact id
      · exact fun hw => absurd hw id
    · cases h
  | timeout =>
    simp only [Sys.step] at h
    split at h
    · rename_i q hf
      cases h
      exact ⟨_, rfl, .timeout (by rw [hf]; exact trivial) rfl rfl id id⟩
    · cases h
  | run =>
    simp only [Sys.step] at h
    generalize hpc : s.pc t = pc at h
    cases pc <;> simp only [Sys.goOn] at h
    case acq q =>
      split at h
      · rename_i hl; cases h; exact ⟨_, rfl, .acquire hl rfl rfl trivial (by rw [hpc]; exact id) id⟩
      · cases h
    case reacq q =>
      split at h
      · rename_i hl; cases h; exact ⟨_, rfl, .acquire hl rfl rfl trivial (by rw [hpc]; exact id) id⟩
      · cases h
    case r8 m =>
      split at h
      · rename_i hl; cases h; exact ⟨_, rfl, .acquire hl rfl rfl trivial (by rw [hpc]; exact id) id⟩
      · cases h
    case wt q => cases h; exact ⟨_, rfl, .wait (by rw [hpc]; exact trivial) rfl rfl (by rw [hpc]; exact id) id trivial⟩
    case rel q => cases h; exact ⟨_, rfl, .release (by rw [hpc]; exact trivial) rfl rfl (by rw [hpc]; exact id) id id⟩
    case r10 m => cases h; exact ⟨_, rfl, .release (by rw [hpc]; exact trivial) rfl rfl (by rw [hpc]; exact id) id id⟩
    case r9 m => cases h; exact ⟨_, rfl, .notify ⟨m, hpc⟩ rfl rfl trivial id⟩
    case waiting q =>
      split at h
      · cases h
      · rename_i hl
        cases h; exact ⟨_, rfl, .plain rfl rfl (by rw [hpc]; exact id) id (fun _ => hl) id⟩
    all_goals cases h
    all_goals refine ⟨_, rfl, .plain rfl rfl (by rw [hpc]; exact id) ?_ (by rw [hpc]; exact fun hw => absurd hw id) ?_⟩
    all_goals first | exact id | (split <;> exact id)

/-- The condition is held by the thread that acquired it; a thread waits once, and only in `wait`. -/
structure Sane (s : Sys) : Prop where
  holds : ∀ t, s.lock = some t ↔ Holds (s.pc t)
  nodup : s.waiters.Nodup
  waits : ∀ t ∈ s.waiters, Waits (s.pc t)

theorem sane_step {s s' : Sys} (t : Nat) (a : Act) (hs : Sane s) (h : s.step t a = some s') : Sane s' := by
  obtain ⟨p, hp, hl⟩ := lock_step t a h
  have hpt : s'.pc t = p := by rw [hp, upd_same]
  have hpu : ∀ u, u ≠ t → s'.pc u = s.pc u := fun u hu => by rw [hp, upd_other _ _ _ _ hu]
  cases hl with
  | plain h1 h2 h3 h4 h5 h6 =>
    refine ⟨?_, by rw [h2]; exact hs.nodup, ?_⟩
    · intro u
      by_cases hu : u = t
      · rw [hu, hpt, h1, hs.holds t]; exact ⟨fun x => absurd x h3, fun x => absurd x h4⟩
      · rw [hpu u hu, h1]; exact hs.holds u
    · intro u hu
      rw [h2] at hu
      have hut : u ≠ t := by rintro rfl; exact h5 (hs.waits u hu) hu
      rw [hpu u hut]; exact hs.waits u hu
  | acquire h0 h1 h2 h4 h5 h6 =>
    refine ⟨?_, by rw [h2]; exact hs.nodup, ?_⟩
    · intro u
      by_cases hu : u = t
      · rw [hu, hpt, h1]; exact ⟨fun _ => h4, fun _ => rfl⟩
      · rw [hpu u hu, h1, ← hs.holds u, h0]
        exact ⟨fun x => absurd (Option.some.inj x).symm hu, fun x => by cases x⟩
    · intro u hu
      rw [h2] at hu
      have hut : u ≠ t := by rintro rfl; exact h5 (hs.waits u hu)
      rw [hpu u hut]; exact hs.waits u hu
  | wait h0 h1 h2 h5 h4 h6 =>
    have ht : t ∉ s.waiters := fun hm => h5 (hs.waits t hm)
    refine ⟨?_, ?_, ?_⟩
    · intro u
      by_cases hu : u = t
      · rw [hu, hpt, h1]; exact ⟨fun x => (by cases x), fun x => absurd x h4⟩
      · rw [hpu u hu, h1, ← hs.holds u, (hs.holds t).mpr h0]
        exact ⟨fun x => (by cases x), fun x => absurd (Option.some.inj x).symm hu⟩
    · rw [h2, List.nodup_append]
      refine ⟨hs.nodup, by simp, ?_⟩
      intro a ha b hb
      rw [List.mem_singleton] at hb
      rintro rfl
      exact ht (hb ▸ ha)
    · intro u hu
      by_cases hut : u = t
      · rw [hut, hpt]; exact h6
      · rw [hpu u hut]
        rw [h2, List.mem_append, List.mem_singleton] at hu
        exact hs.waits u (hu.resolve_right hut)
  | release h0 h1 h2 h5 h4 h6 =>
    refine ⟨?_, by rw [h2]; exact hs.nodup, ?_⟩
    · intro u
      by_cases hu : u = t
      · rw [hu, hpt, h1]; exact ⟨fun x => (by cases x), fun x => absurd x h4⟩
      · rw [hpu u hu, h1, ← hs.holds u, (hs.holds t).mpr h0]
        exact ⟨fun x => (by cases x), fun x => absurd (Option.some.inj x).symm hu⟩
    · intro u hu
      rw [h2] at hu
      have hut : u ≠ t := by rintro rfl; exact h5 (hs.waits u hu)
      rw [hpu u hut]; exact hs.waits u hu
  | notify h0 h1 h2 h4 h6 =>
    obtain ⟨m, h0⟩ := h0
    refine ⟨?_, by rw [h2]; exact hs.nodup.sublist (List.tail_sublist _), ?_⟩
    · intro u
      by_cases hu : u = t
      · rw [hu, hpt, h1, hs.holds t, h0]; exact ⟨fun _ => h4, fun _ => trivial⟩
      · rw [hpu u hu, h1]; exact hs.holds u
    · intro u hu
      rw [h2] at hu
      have hu := List.mem_of_mem_tail hu
      have hut : u ≠ t := by rintro rfl; have := hs.waits u hu; rw [h0] at this; exact this
      rw [hpu u hut]; exact hs.waits u hu
  | timeout h0 h1 h2 h4 h6 =>
    refine ⟨?_, by rw [h2]; exact hs.nodup.erase _, ?_⟩
    · intro u
      by_cases hu : u = t
      · rw [hu, hpt, h1, hs.holds t]
        refine ⟨fun x => ?_, fun x => absurd x h4⟩
        generalize s.pc t = pt at h0 x
        cases pt <;> first | exact absurd h0 id | exact absurd x id
      · rw [hpu u hu, h1]; exact hs.holds u
    · intro u hu
      rw [h2, hs.nodup.mem_erase_iff] at hu
      rw [hpu u hu.1]; exact hs.waits u hu.2

theorem sane_exec (l : List (Nat × Act)) : ∀ {s s' : Sys}, Sane s → s.exec l = some s' → Sane s' := by
  induction l with
  | nil => intro s s' hs h; cases h; exact hs
  | cons x l ih =>
    intro s s' hs h
    obtain ⟨t, a⟩ := x
    unfold Sys.exec at h
    split at h
    · cases h
    · rename_i s1 h1
      exact ih (sane_step t a hs h1) h

/-- A controller as it is created, with message objects of any TIDs. -/
def start (f : Nat → Int) : Sys := { tid := f }

theorem sane_start (f : Nat → Int) : Sane (start f) :=
  ⟨fun _ => ⟨fun h => (by cases h), fun h => absurd h id⟩, List.nodup_nil, fun _ h => by cases h⟩

/-- A thread to which nothing happens stays where it is. -/
theorem pc_exec (u : Nat) (l : List (Nat × Act)) : ∀ {s s' : Sys}, s.exec l = some s' → (∀ x ∈ l, x.1 ≠ u) → s'.pc u = s.pc u := by
  induction l with
  | nil => intro s s' h _; cases h; rfl
  | cons x l ih =>
    intro s s' h hx
    obtain ⟨t, a⟩ := x
    unfold Sys.exec at h
    split at h
    · cases h
    · rename_i s1 h1
      obtain ⟨p, hp, -⟩ := lock_step t a h1
      rw [ih h (fun y hy => hx y (List.mem_cons_of_mem _ hy)), hp]
      exact upd_other _ _ _ _ (fun e => hx (t, a) List.mem_cons_self e.symm)

end Uecho.Conc
