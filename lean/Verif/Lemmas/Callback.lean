/- Lemmas for C94: a post during which no other thread receives. -/
import Verif.Lemmas.Post

namespace Uecho.Conc

/-- A thread that handles a received message, from line 298 on. -/
def Receives : PC → Prop
  | .r0 _ | .r1 _ _ | .r2 _ _ | .r3 _ | .r4 _ _ | .r5 _ _ | .r6 _ | .r7 _ _ | .r8 _ | .r9 _ | .r10 _ => True
  | _ => False

/-- Thread i is inside `post_message` or returned from it; what it is about to return is the `response` of a
`__PostMessage` not older than number k, or None. -/
def Posting (k : Nat) : PC → Prop
  | .load1 _ | .setReq _ _ | .chk true _ | .ld true _ | .st true _ _ | .cmp true _ | .rst true _ | .ret true _ | .set true _ _ | .out true _ |
    .acq _ | .wt _ | .waiting _ | .reacq _ | .rel _ | .load2 _ | .raised => True
  | .rd _ n => k ≤ n
  | .done _ r => r = none
  | _ => False

structure Deaf (i k : Nat) (s : Sys) : Prop where
  last : k ≤ s.last ∧ s.last < s.next
  slots : ∀ n, k ≤ n → (s.slots n).resp = none
  me : Posting k (s.pc i)
  others : ∀ t, t ≠ i → ¬ Receives (s.pc t)

theorem Deaf.goto {i k : Nat} {s : Sys} (h : Deaf i k s) (t : Nat) (p : PC) (hi : t = i → Posting k p) (ho : t ≠ i → ¬ Receives p) :
    Deaf i k (s.goto t p) := by
  refine ⟨h.last, h.slots, ?_, ?_⟩
  · show Posting k (upd s.pc t p i)
    unfold upd
    split
    · rename_i e; exact hi e.symm
    · exact h.me
  · intro t' ht'
    show ¬ Receives (upd s.pc t p t')
    unfold upd
    split
    · rename_i e; exact ho (e ▸ ht')
    · exact h.others t' ht'

/-- One step in which i does not begin anything new and nobody else receives. -/
theorem Deaf.step {i k : Nat} {s s' : Sys} (h : Deaf i k s) (t : Nat) (a : Act) (hr : ∀ m, a = .recv m → t = i)
    (hn : t = i → ∀ q, a ≠ .post q ∧ a ≠ .send q) (he : s.step t a = some s') : Deaf i k s' := by
  have hme := h.me
  have hot := h.others t
  cases a with
  | post q =>
    have hti : t ≠ i := fun e => (hn e q).1 rfl
    simp only [Sys.step] at he
    split at he
    · cases he
      have h1 : Deaf i k { s with slots := upd s.slots s.next {}, last := s.next, next := s.next + 1 } := by
        refine ⟨⟨by have := h.last; show k ≤ s.next; omega, by show s.next < s.next + 1; omega⟩, ?_, h.me, h.others⟩
        intro n hnk
        show (upd s.slots s.next {} n).resp = none
        unfold upd
        split
        · rfl
        · exact h.slots n hnk
      exact h1.goto t _ (fun e => absurd e hti) (fun _ => id)
    · cases he
  | send q =>
    have hti : t ≠ i := fun e => (hn e q).2 rfl
    simp only [Sys.step] at he
    split at he
    · cases he
      exact h.goto t _ (fun e => absurd e hti) (fun _ => id)
    · cases he
  | recv m =>
    have e := hr m rfl
    subst e
    simp only [Sys.step] at he
    split at he
    · rename_i e
      rw [e] at hme
      exact absurd hme id
    · cases he
  | sent =>
    simp only [Sys.step] at he
    split at he
    · rename_i w q e
      cases he
      refine h.goto t _ (fun x => ?_) (fun _ => ?_)
      · subst x; rw [e] at hme; cases w with
        | false => exact absurd hme id
        | true => trivial
      · cases w <;> exact id
    · cases he
  | refused =>
    simp only [Sys.step] at he
    split at he
    · rename_i w q e
      cases he
      refine h.goto t _ (fun x => ?_) (fun _ => ?_)
      · subst x; rw [e] at hme; cases w with
        | false => exact absurd hme id
        | true => rfl
      · cases w <;> exact id
    · cases he
  | sendRaises =>
    simp only [Sys.step] at he
    split at he
    · cases he
      exact h.goto t _ (fun _ => trivial) (fun _ => id)
    · cases he
  | timeout =>
    simp only [Sys.step] at he
    split at he
    · cases he
      exact Deaf.goto (s := { s with waiters := s.waiters.erase t }) ⟨h.last, h.slots, h.me, h.others⟩ t _ (fun _ => trivial) (fun _ => id)
    · cases he
  | run =>
    simp only [Sys.step] at he
    have key : ∀ (s1 : Sys) (p : PC), (t = i → Posting k p) → (t ≠ i → ¬ Receives p) →
        (s1.last = s.last ∧ s1.next = s.next ∧ (∀ n, (s1.slots n).resp = (s.slots n).resp) ∧ s1.pc = s.pc) → Deaf i k (s1.goto t p) :=
      fun s1 p hp ho ⟨h1, h2, h3, h4⟩ => Deaf.goto (s := s1)
        ⟨by rw [h1, h2]; exact h.last, fun n hk => by rw [h3]; exact h.slots n hk, by rw [h4]; exact h.me, by rw [h4]; exact h.others⟩ t p hp ho
    generalize hp : s.pc t = p at he hot
    have hpi : t = i → Posting k p := by intro e; rw [← hp, e]; exact hme
    cases p with
    | idle => cases he
    | done q r => cases he
    | raised => cases he
    | crashed => cases he
    | out w q => cases he
    | load1 q => cases he; exact h.goto t _ (fun _ => trivial) (fun _ => id)
    | setReq q n =>
      cases he
      refine key _ _ (fun _ => True.intro) (fun _ => id) ⟨rfl, rfl, ?_, rfl⟩
      intro n'
      show (upd s.slots n _ n').resp = _
      unfold upd
      split
      · rename_i e; rw [e]
      · rfl
    | chk w q =>
      cases he
      refine h.goto t _ (fun e => ?_) (fun _ => ?_)
      · have := hpi e; cases w with
        | false => exact absurd this id
        | true => split <;> trivial
      · split <;> exact id
    | ld w q => 
      cases he
      refine h.goto t _ (fun e => ?_) (fun _ => id)
      have := hpi e; cases w with
        | false => exact absurd this id
        | true => trivial
    | st w q v =>
      cases he
      refine key _ _ (fun e => ?_) (fun _ => ?_) ⟨rfl, rfl, fun _ => rfl, rfl⟩
      · have := hpi e; cases w with
        | false => exact absurd this id
        | true => trivial
      · exact id
    | cmp w q =>
      cases he
      refine h.goto t _ (fun e => ?_) (fun _ => ?_)
      · have := hpi e; cases w with
        | false => exact absurd this id
        | true => split <;> trivial
      · split <;> exact id
    | rst w q =>
      cases he
      refine key _ _ (fun e => ?_) (fun _ => ?_) ⟨rfl, rfl, fun _ => rfl, rfl⟩
      · have := hpi e; cases w with
        | false => exact absurd this id
        | true => trivial
      · exact id
    | ret w q =>
      cases he
      refine key _ _ (fun e => ?_) (fun _ => ?_) ⟨rfl, rfl, fun _ => rfl, rfl⟩
      · have := hpi e; cases w with
        | false => exact absurd this id
        | true => trivial
      · exact id
    | set w q v =>
      cases he
      refine key _ _ (fun e => ?_) (fun _ => ?_) ⟨rfl, rfl, fun _ => rfl, rfl⟩
      · have := hpi e; cases w with
        | false => exact absurd this id
        | true => trivial
      · exact id
    | acq q =>
      simp only [Sys.goOn] at he
      split at he
      · cases he; exact key _ _ (fun _ => True.intro) (fun _ => id) ⟨rfl, rfl, fun _ => rfl, rfl⟩
      · cases he
    | wt q => cases he; exact key _ _ (fun _ => True.intro) (fun _ => id) ⟨rfl, rfl, fun _ => rfl, rfl⟩
    | waiting q =>
      simp only [Sys.goOn] at he
      split at he
      · cases he
      · cases he; exact h.goto t _ (fun _ => trivial) (fun _ => id)
    | reacq q =>
      simp only [Sys.goOn] at he
      split at he
      · cases he; exact key _ _ (fun _ => True.intro) (fun _ => id) ⟨rfl, rfl, fun _ => rfl, rfl⟩
      · cases he
    | rel q => cases he; exact key _ _ (fun _ => True.intro) (fun _ => id) ⟨rfl, rfl, fun _ => rfl, rfl⟩
    | load2 q => cases he; exact h.goto t _ (fun _ => h.last.1) (fun _ => id)
    | rd q n => cases he; exact h.goto t _ (fun e => h.slots n (hpi e)) (fun _ => id)
    | r0 m => exact absurd (hpi (by by_contra e; exact hot e trivial)) id
    | r1 m n => exact absurd (hpi (by by_contra e; exact hot e trivial)) id
    | r2 m n => exact absurd (hpi (by by_contra e; exact hot e trivial)) id
    | r3 m => exact absurd (hpi (by by_contra e; exact hot e trivial)) id
    | r4 m n => exact absurd (hpi (by by_contra e; exact hot e trivial)) id
    | r5 m n => exact absurd (hpi (by by_contra e; exact hot e trivial)) id
    | r6 m => exact absurd (hpi (by by_contra e; exact hot e trivial)) id
    | r7 m n => exact absurd (hpi (by by_contra e; exact hot e trivial)) id
    | r8 m => exact absurd (hpi (by by_contra e; exact hot e trivial)) id
    | r9 m => exact absurd (hpi (by by_contra e; exact hot e trivial)) id
    | r10 m => exact absurd (hpi (by by_contra e; exact hot e trivial)) id

theorem Deaf.exec {i k : Nat} (l : List (Nat × Act)) : ∀ {s s' : Sys}, Deaf i k s → (∀ t m, (t, Act.recv m) ∈ l → t = i) →
    (∀ q, (i, Act.post q) ∉ l ∧ (i, Act.send q) ∉ l) → s.exec l = some s' → Deaf i k s' := by
  induction l with
  | nil => intro s s' h _ _ he; cases he; exact h
  | cons x l ih =>
    intro s s' h hr hn he
    obtain ⟨t, a⟩ := x
    unfold Sys.exec at he
    split at he
    · cases he
    · rename_i s1 h1
      refine ih (h.step t a ?_ ?_ h1) (fun t m hm => hr t m (List.mem_cons_of_mem _ hm))
        (fun q => ⟨fun hm => (hn q).1 (List.mem_cons_of_mem _ hm), fun hm => (hn q).2 (List.mem_cons_of_mem _ hm)⟩) he
      · intro m e; subst e; exact hr t m List.mem_cons_self
      · intro e q; subst e; exact ⟨fun x => (hn q).1 (x ▸ List.mem_cons_self), fun x => (hn q).2 (x ▸ List.mem_cons_self)⟩

/-! ### Slots not used yet are empty -/

def Refers (k : Nat) : PC → Prop
  | .setReq _ n | .r7 _ n => n < k
  | _ => True

structure Tidy (s : Sys) : Prop where
  last : s.last < s.next
  slots : ∀ n, s.next ≤ n → s.slots n = {}
  refs : ∀ t, Refers s.next (s.pc t)

theorem Tidy.goto {s : Sys} (h : Tidy s) (t : Nat) (p : PC) (hp : Refers s.next p) : Tidy (s.goto t p) := by
  refine ⟨h.last, h.slots, ?_⟩
  intro t'
  show Refers s.next (upd s.pc t p t')
  unfold upd
  split
  · exact hp
  · exact h.refs t'

theorem Tidy.step {s s' : Sys} (h : Tidy s) (t : Nat) (a : Act) (he : s.step t a = some s') : Tidy s' := by
  have mono : ∀ p, Refers s.next p → Refers (s.next + 1) p := by
    intro p hp
    cases p <;> first | exact Nat.lt_succ_of_lt hp | exact True.intro
  have key : ∀ (s1 : Sys) (p : PC), Refers s.next p → (s1.last = s.last ∧ s1.next = s.next ∧ s1.slots = s.slots ∧ s1.pc = s.pc) → Tidy (s1.goto t p) :=
    fun s1 p hp ⟨h1, h2, h3, h4⟩ => Tidy.goto (s := s1) ⟨by rw [h1, h2]; exact h.last, by rw [h2, h3]; exact h.slots, by rw [h2, h4]; exact h.refs⟩ t p (by rw [h2]; exact hp)
  have put : ∀ (n : Nat) (v : Slot) (p : PC), n < s.next → Refers s.next p → Tidy ({ s with slots := upd s.slots n v }.goto t p) := by
    intro n v p hn hp
    refine Tidy.goto (s := { s with slots := upd s.slots n v }) ⟨h.last, ?_, h.refs⟩ t p hp
    intro n' hn'
    show upd s.slots n v n' = {}
    unfold upd
    split
    · rename_i e
      have : s.next ≤ n' := hn'
      omega
    · exact h.slots n' hn'
  cases a with
  | post q =>
    simp only [Sys.step] at he
    split at he
    · cases he
      refine Tidy.goto (s := { s with slots := upd s.slots s.next {}, last := s.next, next := s.next + 1 }) ⟨Nat.lt_succ_self _, ?_, ?_⟩ t _ True.intro
      · intro n hn
        have hn : s.next + 1 ≤ n := hn
        show upd s.slots s.next {} n = {}
        unfold upd
        split
        · rfl
        · exact h.slots n (by omega)
      · intro t'
        exact mono _ (h.refs t')
    · cases he
  | send q =>
    simp only [Sys.step] at he
    split at he
    · cases he; exact h.goto t _ True.intro
    · cases he
  | recv m =>
    simp only [Sys.step] at he
    split at he
    · cases he; exact h.goto t _ True.intro
    · cases he
  | sent =>
    simp only [Sys.step] at he
    split at he
    · rename_i w q e
      cases he; cases w <;> exact h.goto t _ True.intro
    · cases he
  | refused =>
    simp only [Sys.step] at he
    split at he
    · rename_i w q e
      cases he; cases w <;> exact h.goto t _ True.intro
    · cases he
  | sendRaises =>
    simp only [Sys.step] at he
    split at he
    · cases he; exact h.goto t _ True.intro
    · cases he
  | timeout =>
    simp only [Sys.step] at he
    split at he
    · cases he; exact key _ _ True.intro ⟨rfl, rfl, rfl, rfl⟩
    · cases he
  | run =>
    simp only [Sys.step] at he
    have hp := h.refs t
    generalize s.pc t = p at he hp
    cases p with
    | idle => cases he
    | done q r => cases he
    | raised => cases he
    | crashed => cases he
    | out w q => cases he
    | load1 q => cases he; exact h.goto t _ h.last
    | setReq q n => cases he; exact put n _ _ hp True.intro
    | r6 m => cases he; exact h.goto t _ h.last
    | r7 m n => cases he; exact put n _ _ hp True.intro
    | chk w q => cases he; refine h.goto t _ ?_; split <;> exact True.intro
    | cmp w q => cases he; refine h.goto t _ ?_; split <;> exact True.intro
    | r1 m n => cases he; refine h.goto t _ ?_; split <;> exact True.intro
    | r2 m n => cases he; refine h.goto t _ ?_; split <;> exact True.intro
    | r4 m n => cases he; refine h.goto t _ ?_; split <;> exact True.intro
    | r5 m q => cases he; refine h.goto t _ ?_; split <;> exact True.intro
    | acq q =>
      simp only [Sys.goOn] at he
      split at he
      · cases he; exact key _ _ True.intro ⟨rfl, rfl, rfl, rfl⟩
      · cases he
    | reacq q =>
      simp only [Sys.goOn] at he
      split at he
      · cases he; exact key _ _ True.intro ⟨rfl, rfl, rfl, rfl⟩
      · cases he
    | r8 m =>
      simp only [Sys.goOn] at he
      split at he
      · cases he; exact key _ _ True.intro ⟨rfl, rfl, rfl, rfl⟩
      · cases he
    | waiting q =>
      simp only [Sys.goOn] at he
      split at he
      · cases he
      · cases he; exact h.goto t _ True.intro
    | _ => cases he; exact key _ _ True.intro ⟨rfl, rfl, rfl, rfl⟩

theorem Tidy.exec (l : List (Nat × Act)) : ∀ {s s' : Sys}, Tidy s → s.exec l = some s' → Tidy s' := by
  induction l with
  | nil => intro s s' h he; cases he; exact h
  | cons x l ih =>
    intro s s' h he
    obtain ⟨t, a⟩ := x
    unfold Sys.exec at he
    split at he
    · cases he
    · rename_i s1 h1
      exact ih (h.step t a h1) he

end Uecho.Conc
