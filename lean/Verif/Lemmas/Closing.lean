/- What holds in every state of a server that is stopped while other threads send through it. -/
import Verif.Model.Closing

namespace Uecho.Closing

/-- The server is running; every thread is about to send or about to stop it, but for the receiving thread. -/
structure Begins (receiver : Nat) (s : St) : Prop where
  held : s.held = true
  opened : s.closed = false
  none : s.sent = []
  rcv : s.pc receiver = .recvTest
  others : ∀ i, i ≠ receiver → s.pc i = .sendTest ∨ s.pc i = .stopTest

/-- The thread is in `send_message`. -/
def Sends : Pc → Prop
  | .sendTest | .sendLoad | .sendCall | .sendDone _ => True
  | _ => False

/-- The thread is in `stop`. -/
def Stops : Pc → Prop
  | .stopTest | .stopShut | .stopLoad | .stopClose | .stopClear | .stopJoin | .stopDone _ => True
  | _ => False

/-- The thread is in `run`. -/
def Receives : Pc → Prop
  | .recvTest | .recvLoad | .recvWait | .recvHandle | .recvDone => True
  | _ => False

/-- The thread has closed the socket. -/
def HasClosed : Pc → Prop
  | .stopClear | .stopJoin | .stopDone (.ok true) => True
  | _ => False

/-- The thread has set `self.sock` to None. -/
def HasCleared : Pc → Prop
  | .stopJoin | .stopDone (.ok true) => True
  | _ => False

/-- The thread is in `stop` and has found the socket there. -/
def UnderWay : Pc → Prop
  | .stopShut | .stopLoad | .stopClose | .stopClear | .stopJoin | .stopDone (.ok true) | .stopDone (.error _) => True
  | _ => False

/-- What holds in every state. -/
structure Inv (os : Nat → Except Exc Bool) (receiver : Nat) (s : St) : Prop where
  cleared : s.held = false → ∃ j, HasCleared (s.pc j)
  back : ∀ j, HasCleared (s.pc j) → s.held = false
  closed : s.closed = true ↔ ∃ j, HasClosed (s.pc j)
  joined : ∀ j, s.pc j = .stopDone (.ok true) → s.pc receiver = .recvDone
  sendRes : ∀ i r, s.pc i = .sendDone r → (i ∈ s.sent ∧ r = os i) ∨ (i ∉ s.sent ∧ r = .ok false ∧ s.held = false) ∨
    (i ∉ s.sent ∧ r = .error .attributeError ∧ s.held = false) ∨ (i ∉ s.sent ∧ r = .error .osError ∧ s.closed = true)
  stopRes : ∀ i r, s.pc i = .stopDone r → r = .ok true ∨ (r = .ok false ∧ s.held = false) ∨ (r = .error .attributeError ∧ s.held = false)
  sentDone : ∀ i, i ∈ s.sent → s.pc i = .sendDone (os i)
  once : s.sent.Nodup
  rcv : Receives (s.pc receiver)
  alone : ∀ j, Receives (s.pc j) → j = receiver

theorem goto_self (s : St) (i : Nat) (p : Pc) : (s.goto i p).pc i = p := by simp [St.goto]

theorem goto_other (s : St) {i j : Nat} (p : Pc) (h : j ≠ i) : (s.goto i p).pc j = s.pc j := by simp [St.goto, h]

theorem Begins.inv (os : Nat → Except Exc Bool) {receiver : Nat} {s : St} (h : Begins receiver s) : Inv os receiver s := by
  have hp : ∀ j, s.pc j = .recvTest ∨ s.pc j = .sendTest ∨ s.pc j = .stopTest := by
    intro j
    by_cases e : j = receiver
    · rw [e]; exact Or.inl h.rcv
    · exact Or.inr (h.others j e)
  refine ⟨?_, ?_, ?_, ?_, ?_, ?_, ?_, ?_, ?_, ?_⟩
  · intro e; rw [h.held] at e; cases e
  · intro j hj; rcases hp j with e | e | e <;> rw [e] at hj <;> exact hj.elim
  · rw [h.opened]
    constructor
    · intro e; cases e
    · rintro ⟨j, hj⟩; rcases hp j with e | e | e <;> rw [e] at hj <;> exact hj.elim
  · intro j hj; rcases hp j with e | e | e <;> rw [e] at hj <;> cases hj
  · intro j r hj; rcases hp j with e | e | e <;> rw [e] at hj <;> cases hj
  · intro j r hj; rcases hp j with e | e | e <;> rw [e] at hj <;> cases hj
  · intro i hi; rw [h.none] at hi; cases hi
  · rw [h.none]; exact List.nodup_nil
  · rw [h.rcv]; trivial
  · intro j hj
    by_contra hne
    rcases h.others j hne with e | e <;> rw [e] at hj <;> exact hj.elim

/-- A step that changes only where thread `i` is. -/
theorem Inv.move {os : Nat → Except Exc Bool} {receiver : Nat} {s : St} (h : Inv os receiver s) (i : Nat) (p : Pc)
    (hns : i ∉ s.sent) (hc : HasCleared (s.pc i) → HasCleared p) (hc' : HasCleared p → s.held = false)
    (hd : HasClosed (s.pc i) → HasClosed p) (hd' : HasClosed p → s.closed = true)
    (hj : p = .stopDone (.ok true) → s.pc receiver = .recvDone ∧ i ≠ receiver) (hrr : s.pc i ≠ .recvDone)
    (hr : ∀ r, p = .sendDone r → (r = .ok false ∧ s.held = false) ∨ (r = .error .attributeError ∧ s.held = false) ∨ (r = .error .osError ∧ s.closed = true))
    (ht : ∀ r, p = .stopDone r → r = .ok true ∨ (r = .ok false ∧ s.held = false) ∨ (r = .error .attributeError ∧ s.held = false))
    (hv : Receives p ↔ Receives (s.pc i)) : Inv os receiver (s.goto i p) := by
  have hcase : ∀ j, (j = i ∧ (s.goto i p).pc j = p) ∨ (j ≠ i ∧ (s.goto i p).pc j = s.pc j) := by
    intro j
    by_cases e : j = i
    · left; rw [e]; exact ⟨rfl, goto_self s i p⟩
    · right; exact ⟨e, goto_other s p e⟩
  refine ⟨?_, ?_, ?_, ?_, ?_, ?_, ?_, h.once, ?_, ?_⟩
  · intro e
    obtain ⟨j, k⟩ := h.cleared e
    refine ⟨j, ?_⟩
    rcases hcase j with ⟨ej, e'⟩ | ⟨_, e'⟩ <;> rw [e']
    · rw [ej] at k; exact hc k
    · exact k
  · intro j k
    rcases hcase j with ⟨_, e'⟩ | ⟨_, e'⟩ <;> rw [e'] at k
    · exact hc' k
    · exact h.back j k
  · constructor
    · intro e
      obtain ⟨j, k⟩ := h.closed.mp e
      refine ⟨j, ?_⟩
      rcases hcase j with ⟨ej, e'⟩ | ⟨_, e'⟩ <;> rw [e']
      · rw [ej] at k; exact hd k
      · exact k
    · rintro ⟨j, k⟩
      rcases hcase j with ⟨_, e'⟩ | ⟨_, e'⟩ <;> rw [e'] at k
      · exact hd' k
      · exact h.closed.mpr ⟨j, k⟩
  · intro j k
    have hd : s.pc receiver = .recvDone ∧ receiver ≠ i := by
      rcases hcase j with ⟨_, e'⟩ | ⟨_, e'⟩ <;> rw [e'] at k
      · obtain ⟨a, b⟩ := hj k; exact ⟨a, fun e => b e.symm⟩
      · have := h.joined j k
        exact ⟨this, fun e => hrr (e ▸ this)⟩
    rw [goto_other s p hd.2]
    exact hd.1
  · intro j r k
    rcases hcase j with ⟨ej, e'⟩ | ⟨_, e'⟩ <;> rw [e'] at k
    · rw [ej]
      rcases hr r k with a | a | a
      · exact Or.inr (Or.inl ⟨hns, a⟩)
      · exact Or.inr (Or.inr (Or.inl ⟨hns, a⟩))
      · exact Or.inr (Or.inr (Or.inr ⟨hns, a⟩))
    · exact h.sendRes j r k
  · intro j r k
    rcases hcase j with ⟨_, e'⟩ | ⟨_, e'⟩ <;> rw [e'] at k
    · exact ht r k
    · exact h.stopRes j r k
  · intro j k
    have k : j ∈ s.sent := k
    rcases hcase j with ⟨ej, e'⟩ | ⟨_, e'⟩
    · rw [ej] at k; exact absurd k hns
    · rw [e']; exact h.sentDone j k
  · rcases hcase receiver with ⟨ej, e'⟩ | ⟨_, e'⟩ <;> rw [e']
    · rw [hv, ← ej]; exact h.rcv
    · exact h.rcv
  · intro j k
    rcases hcase j with ⟨ej, e'⟩ | ⟨_, e'⟩ <;> rw [e'] at k
    · rw [ej]; exact h.alone i (hv.mp k)
    · exact h.alone j k

theorem pc_cases (s : St) (i : Nat) (p : Pc) (j : Nat) : (j = i ∧ (s.goto i p).pc j = p) ∨ (j ≠ i ∧ (s.goto i p).pc j = s.pc j) := by
  by_cases e : j = i
  · left; rw [e]; exact ⟨rfl, goto_self s i p⟩
  · right; exact ⟨e, goto_other s p e⟩

/-- `sendto` on an open socket. -/
theorem Inv.sent {os : Nat → Except Exc Bool} {receiver : Nat} {s : St} (h : Inv os receiver s) (i : Nat) (hp : s.pc i = .sendCall) :
    Inv os receiver { s.goto i (.sendDone (os i)) with sent := s.sent ++ [i] } := by
  have hns : i ∉ s.sent := fun k => by have := h.sentDone i k; rw [hp] at this; cases this
  have hcase := pc_cases s i (.sendDone (os i))
  have hri : receiver ≠ i := fun e => by have := h.rcv; rw [e, hp] at this; exact this
  refine ⟨?_, ?_, ?_, ?_, ?_, ?_, ?_, ?_, ?_, ?_⟩
  · intro e
    obtain ⟨j, k⟩ := h.cleared e
    refine ⟨j, ?_⟩
    rcases hcase j with ⟨ej, e'⟩ | ⟨_, e'⟩
    · rw [ej, hp] at k; exact k.elim
    · rw [← e'] at k; exact k
  · intro j k
    have k : HasCleared ((s.goto i (.sendDone (os i))).pc j) := k
    rcases hcase j with ⟨_, e'⟩ | ⟨_, e'⟩ <;> rw [e'] at k
    · exact k.elim
    · exact h.back j k
  · constructor
    · intro e
      obtain ⟨j, k⟩ := h.closed.mp e
      refine ⟨j, ?_⟩
      rcases hcase j with ⟨ej, e'⟩ | ⟨_, e'⟩
      · rw [ej, hp] at k; exact k.elim
      · rw [← e'] at k; exact k
    · rintro ⟨j, k⟩
      have k : HasClosed ((s.goto i (.sendDone (os i))).pc j) := k
      rcases hcase j with ⟨_, e'⟩ | ⟨_, e'⟩ <;> rw [e'] at k
      · exact k.elim
      · exact h.closed.mpr ⟨j, k⟩
  · intro j k
    have k : (s.goto i (.sendDone (os i))).pc j = _ := k
    rcases hcase j with ⟨_, e'⟩ | ⟨_, e'⟩ <;> rw [e'] at k
    · cases k
    · exact (goto_other s _ hri).trans (h.joined j k)
  · intro j r k
    have k : (s.goto i (.sendDone (os i))).pc j = _ := k
    rcases hcase j with ⟨ej, e'⟩ | ⟨ej, e'⟩ <;> rw [e'] at k
    · injection k with k
      left
      exact ⟨by rw [ej]; simp, by rw [ej]; exact k.symm⟩
    · have hm : j ∈ s.sent ++ [i] ↔ j ∈ s.sent := by simp [ej]
      show (j ∈ s.sent ++ [i] ∧ _) ∨ (j ∉ s.sent ++ [i] ∧ _) ∨ (j ∉ s.sent ++ [i] ∧ _) ∨ (j ∉ s.sent ++ [i] ∧ _)
      rw [hm]
      exact h.sendRes j r k
  · intro j r k
    have k : (s.goto i (.sendDone (os i))).pc j = _ := k
    rcases hcase j with ⟨_, e'⟩ | ⟨_, e'⟩ <;> rw [e'] at k
    · cases k
    · exact h.stopRes j r k
  · intro j k
    have k : j ∈ s.sent ++ [i] := k
    show (s.goto i (.sendDone (os i))).pc j = _
    rcases hcase j with ⟨ej, e'⟩ | ⟨ej, e'⟩ <;> rw [e']
    · rw [ej]
    · rcases List.mem_append.mp k with k | k
      · exact h.sentDone j k
      · exact absurd (List.mem_singleton.mp k) ej
  · show (s.sent ++ [i]).Nodup
    rw [List.nodup_append]
    refine ⟨h.once, by simp, ?_⟩
    intro a ha b hb e
    rw [List.mem_singleton] at hb
    rw [e, hb] at ha
    exact hns ha
  · show Receives ((s.goto i (.sendDone (os i))).pc receiver)
    rw [goto_other s _ hri]
    exact h.rcv
  · intro j k
    have k : Receives ((s.goto i (.sendDone (os i))).pc j) := k
    rcases hcase j with ⟨_, e'⟩ | ⟨_, e'⟩ <;> rw [e'] at k
    · exact k.elim
    · exact h.alone j k

/-- `close`. -/
theorem Inv.close {os : Nat → Except Exc Bool} {receiver : Nat} {s : St} (h : Inv os receiver s) (i : Nat) (hp : s.pc i = .stopClose) :
    Inv os receiver { s.goto i .stopClear with closed := true } := by
  have hns : i ∉ s.sent := fun k => by have := h.sentDone i k; rw [hp] at this; cases this
  have hcase := pc_cases s i .stopClear
  have hri : receiver ≠ i := fun e => by have := h.rcv; rw [e, hp] at this; exact this
  refine ⟨?_, ?_, ?_, ?_, ?_, ?_, ?_, h.once, ?_, ?_⟩
  · intro e
    obtain ⟨j, k⟩ := h.cleared e
    refine ⟨j, ?_⟩
    rcases hcase j with ⟨ej, e'⟩ | ⟨_, e'⟩
    · rw [ej, hp] at k; exact k.elim
    · rw [← e'] at k; exact k
  · intro j k
    have k : HasCleared ((s.goto i .stopClear).pc j) := k
    rcases hcase j with ⟨_, e'⟩ | ⟨_, e'⟩ <;> rw [e'] at k
    · exact k.elim
    · exact h.back j k
  · exact ⟨fun _ => ⟨i, by show HasClosed ((s.goto i .stopClear).pc i); rw [goto_self]; trivial⟩, fun _ => rfl⟩
  · intro j k
    have k : (s.goto i .stopClear).pc j = _ := k
    rcases hcase j with ⟨_, e'⟩ | ⟨_, e'⟩ <;> rw [e'] at k
    · cases k
    · exact (goto_other s _ hri).trans (h.joined j k)
  · intro j r k
    have k : (s.goto i .stopClear).pc j = _ := k
    rcases hcase j with ⟨ej, e'⟩ | ⟨ej, e'⟩ <;> rw [e'] at k
    · cases k
    · rcases h.sendRes j r k with a | a | a | a
      · exact Or.inl a
      · exact Or.inr (Or.inl a)
      · exact Or.inr (Or.inr (Or.inl a))
      · exact Or.inr (Or.inr (Or.inr ⟨a.1, a.2.1, rfl⟩))
  · intro j r k
    have k : (s.goto i .stopClear).pc j = _ := k
    rcases hcase j with ⟨_, e'⟩ | ⟨_, e'⟩ <;> rw [e'] at k
    · cases k
    · exact h.stopRes j r k
  · intro j k
    have k : j ∈ s.sent := k
    show (s.goto i .stopClear).pc j = _
    rcases hcase j with ⟨ej, e'⟩ | ⟨ej, e'⟩ <;> rw [e']
    · rw [ej] at k; exact absurd k hns
    · exact h.sentDone j k
  · show Receives ((s.goto i .stopClear).pc receiver)
    rw [goto_other s _ hri]
    exact h.rcv
  · intro j k
    have k : Receives ((s.goto i .stopClear).pc j) := k
    rcases hcase j with ⟨_, e'⟩ | ⟨_, e'⟩ <;> rw [e'] at k
    · exact k.elim
    · exact h.alone j k

/-- `self.sock = None`. -/
theorem Inv.clear {os : Nat → Except Exc Bool} {receiver : Nat} {s : St} (h : Inv os receiver s) (i : Nat) (hp : s.pc i = .stopClear) :
    Inv os receiver { s.goto i .stopJoin with held := false } := by
  have hns : i ∉ s.sent := fun k => by have := h.sentDone i k; rw [hp] at this; cases this
  have hcase := pc_cases s i .stopJoin
  have hri : receiver ≠ i := fun e => by have := h.rcv; rw [e, hp] at this; exact this
  have hcl : s.closed = true := h.closed.mpr ⟨i, by rw [hp]; trivial⟩
  refine ⟨?_, fun _ _ => rfl, ?_, ?_, ?_, ?_, ?_, h.once, ?_, ?_⟩
  · intro _
    exact ⟨i, by show HasCleared ((s.goto i .stopJoin).pc i); rw [goto_self]; trivial⟩
  · exact ⟨fun _ => ⟨i, by show HasClosed ((s.goto i .stopJoin).pc i); rw [goto_self]; trivial⟩, fun _ => hcl⟩
  · intro j k
    have k : (s.goto i .stopJoin).pc j = _ := k
    rcases hcase j with ⟨_, e'⟩ | ⟨_, e'⟩ <;> rw [e'] at k
    · cases k
    · exact (goto_other s _ hri).trans (h.joined j k)
  · intro j r k
    have k : (s.goto i .stopJoin).pc j = _ := k
    rcases hcase j with ⟨ej, e'⟩ | ⟨ej, e'⟩ <;> rw [e'] at k
    · cases k
    · rcases h.sendRes j r k with a | a | a | a
      · exact Or.inl a
      · exact Or.inr (Or.inl ⟨a.1, a.2.1, rfl⟩)
      · exact Or.inr (Or.inr (Or.inl ⟨a.1, a.2.1, rfl⟩))
      · exact Or.inr (Or.inr (Or.inr a))
  · intro j r k
    have k : (s.goto i .stopJoin).pc j = _ := k
    rcases hcase j with ⟨_, e'⟩ | ⟨_, e'⟩ <;> rw [e'] at k
    · cases k
    · rcases h.stopRes j r k with a | a | a
      · exact Or.inl a
      · exact Or.inr (Or.inl ⟨a.1, rfl⟩)
      · exact Or.inr (Or.inr ⟨a.1, rfl⟩)
  · intro j k
    have k : j ∈ s.sent := k
    show (s.goto i .stopJoin).pc j = _
    rcases hcase j with ⟨ej, e'⟩ | ⟨ej, e'⟩ <;> rw [e']
    · rw [ej] at k; exact absurd k hns
    · exact h.sentDone j k
  · show Receives ((s.goto i .stopJoin).pc receiver)
    rw [goto_other s _ hri]
    exact h.rcv
  · intro j k
    have k : Receives ((s.goto i .stopJoin).pc j) := k
    rcases hcase j with ⟨_, e'⟩ | ⟨_, e'⟩ <;> rw [e'] at k
    · exact k.elim
    · exact h.alone j k

theorem Inv.step {os : Nat → Except Exc Bool} {receiver : Nat} {s : St} (h : Inv os receiver s) (e : Ev) : Inv os receiver (Closing.step os receiver s e) := by
  have hns : ∀ i, (∀ r, s.pc i ≠ .sendDone r) → i ∉ s.sent := fun i k hi => k _ (h.sentDone i hi)
  cases e with
  | arrive i =>
    unfold Closing.step
    simp only []
    split
    · rename_i hp
      refine h.move i _ (hns i (by rw [hp.1]; intro r e; cases e)) ?_ ?_ ?_ ?_ ?_ ?_ ?_ ?_ ?_ <;> simp [hp.1, HasCleared, HasClosed, Receives]
    · exact h
  | go i =>
    unfold Closing.step
    simp only []
    split <;> rename_i hp
    · split <;> rename_i hh <;>
        (refine h.move i _ (hns i (by rw [hp]; intro r e; cases e)) ?_ ?_ ?_ ?_ ?_ ?_ ?_ ?_ ?_ <;> simp [hp, HasCleared, HasClosed, Receives]) <;> simpa using hh
    · split <;> rename_i hh <;>
        (refine h.move i _ (hns i (by rw [hp]; intro r e; cases e)) ?_ ?_ ?_ ?_ ?_ ?_ ?_ ?_ ?_ <;> simp [hp, HasCleared, HasClosed, Receives]) <;> simpa using hh
    · split
      · rename_i hh
        (refine h.move i _ (hns i (by rw [hp]; intro r e; cases e)) ?_ ?_ ?_ ?_ ?_ ?_ ?_ ?_ ?_ <;> simp [hp, HasCleared, HasClosed, Receives]) <;> simpa using hh
      · exact h.sent i hp
    · split <;> rename_i hh <;>
        (refine h.move i _ (hns i (by rw [hp]; intro r e; cases e)) ?_ ?_ ?_ ?_ ?_ ?_ ?_ ?_ ?_ <;> simp [hp, HasCleared, HasClosed, Receives]) <;> simpa using hh
    · refine h.move i _ (hns i (by rw [hp]; intro r e; cases e)) ?_ ?_ ?_ ?_ ?_ ?_ ?_ ?_ ?_ <;> simp [hp, HasCleared, HasClosed, Receives]
    · split <;> rename_i hh <;>
        (refine h.move i _ (hns i (by rw [hp]; intro r e; cases e)) ?_ ?_ ?_ ?_ ?_ ?_ ?_ ?_ ?_ <;> simp [hp, HasCleared, HasClosed, Receives]) <;> simpa using hh
    · exact h.close i hp
    · exact h.clear i hp
    · split
      · rename_i hh
        have hri : i ≠ receiver := fun e => by have := h.rcv; rw [← e, hp] at this; exact this
        have hhe := h.back i (by rw [hp]; trivial)
        have hce : s.closed = true := h.closed.mpr ⟨i, by rw [hp]; trivial⟩
        refine h.move i _ (hns i (by rw [hp]; intro r e; cases e)) ?_ ?_ ?_ ?_ ?_ ?_ ?_ ?_ ?_ <;> simp [hp, HasCleared, HasClosed, Receives, hhe, hce, hh, hri]
      · exact h
    · split <;> rename_i hh <;>
        (refine h.move i _ (hns i (by rw [hp]; intro r e; cases e)) ?_ ?_ ?_ ?_ ?_ ?_ ?_ ?_ ?_ <;> simp [hp, HasCleared, HasClosed, Receives])
    · split <;> rename_i hh <;>
        (refine h.move i _ (hns i (by rw [hp]; intro r e; cases e)) ?_ ?_ ?_ ?_ ?_ ?_ ?_ ?_ ?_ <;> simp [hp, HasCleared, HasClosed, Receives])
    · split
      · (refine h.move i _ (hns i (by rw [hp]; intro r e; cases e)) ?_ ?_ ?_ ?_ ?_ ?_ ?_ ?_ ?_ <;> simp [hp, HasCleared, HasClosed, Receives])
      · exact h
    · refine h.move i _ (hns i (by rw [hp]; intro r e; cases e)) ?_ ?_ ?_ ?_ ?_ ?_ ?_ ?_ ?_ <;> simp [hp, HasCleared, HasClosed, Receives]
    all_goals exact h

theorem Inv.run {os : Nat → Except Exc Bool} {receiver : Nat} (es : List Ev) : ∀ {s : St}, Inv os receiver s → Inv os receiver (Closing.run os receiver s es) := by
  induction es with
  | nil => intro s h; exact h
  | cons e es ih => intro s h; exact ih (h.step e)

end Uecho.Closing
