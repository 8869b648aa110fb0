/- C123: a server that is stopped while other threads send through it. -/
import Verif.Lemmas.Closing

namespace Uecho.Closing

/-- C123 (what holds): however a server's threads are interleaved, a `send_message` that is through either handed its message to the operating system, once, and returns or raises what that did,
or sent nothing; the latter only if by then a `stop` had closed the socket. Missing: that it returns False then (`C123_send_false`). -/
theorem C123_send_partial (os : Nat → Except Exc Bool) {receiver : Nat} {s : St} (h : Begins receiver s) (es : List Ev) :
    let s' := run os receiver s es
    s'.sent.Nodup ∧ (∀ i ∈ s'.sent, s'.pc i = .sendDone (os i)) ∧
    ∀ i r, s'.pc i = .sendDone r → (i ∈ s'.sent ∧ r = os i) ∨
      (i ∉ s'.sent ∧ (r = .ok false ∨ r = .error .attributeError ∨ r = .error .osError) ∧ ∃ j, HasClosed (s'.pc j)) := by
  intro s'
  have hi := (h.inv os).run es
  have hcl : s'.held = false → ∃ j, HasClosed (s'.pc j) := by
    intro e
    obtain ⟨j, k⟩ := hi.cleared e
    refine ⟨j, ?_⟩
    revert k
    show HasCleared (s'.pc j) → HasClosed (s'.pc j)
    generalize s'.pc j = p
    intro k
    unfold HasCleared at k
    split at k
    · trivial
    · trivial
    · exact k.elim
  refine ⟨hi.once, hi.sentDone, ?_⟩
  intro i r k
  rcases hi.sendRes i r k with a | ⟨a, b, c⟩ | ⟨a, b, c⟩ | ⟨a, b, c⟩
  · exact Or.inl a
  · exact Or.inr ⟨a, Or.inl b, hcl c⟩
  · exact Or.inr ⟨a, Or.inr (Or.inl b), hcl c⟩
  · exact Or.inr ⟨a, Or.inr (Or.inr b), hi.closed.mp c⟩

/-- Nobody becomes a stopper. -/
theorem stops_step (os : Nat → Except Exc Bool) (receiver : Nat) (s : St) (e : Ev) (j : Nat) : Stops ((step os receiver s e).pc j) ↔ Stops (s.pc j) := by
  have key : ∀ (i : Nat) (p : Pc), (Stops p ↔ Stops (s.pc i)) → (Stops ((s.goto i p).pc j) ↔ Stops (s.pc j)) := by
    intro i p hp
    rcases pc_cases s i p j with ⟨ej, e'⟩ | ⟨_, e'⟩ <;> rw [e']
    rw [ej]; exact hp
  cases e with
  | arrive i =>
    unfold step
    simp only []
    split
    · rename_i hp; exact key i _ (by rw [hp.1]; simp [Stops])
    · rfl
  | go i =>
    unfold step
    simp only []
    split <;> rename_i hp
    all_goals (try (exact key i _ (by rw [hp]; simp [Stops])))
    all_goals first | rfl | (split <;> first | rfl | exact key i _ (by rw [hp]; simp [Stops]))

theorem stops_run (os : Nat → Except Exc Bool) (receiver : Nat) (es : List Ev) : ∀ (s : St) (j : Nat), Stops ((run os receiver s es).pc j) ↔ Stops (s.pc j) := by
  induction es with
  | nil => intro s j; rfl
  | cons e es ih => intro s j; exact (ih (step os receiver s e) j).trans (stops_step os receiver s e j)

theorem hasClosed_stops {p : Pc} (h : HasClosed p) : Stops p := by
  unfold HasClosed at h
  split at h <;> trivial

/-- C123. As long as nobody stops the server every `send_message` returns or raises what the operating system did, and has sent its message. -/
theorem C123_undisturbed_partial (os : Nat → Except Exc Bool) {receiver : Nat} {s : St} (h : Begins receiver s) (hs : ∀ j, ¬ Stops (s.pc j)) (es : List Ev) (i : Nat) (r : Except Exc Bool)
    (hd : (run os receiver s es).pc i = .sendDone r) : r = os i ∧ i ∈ (run os receiver s es).sent := by
  rcases (C123_send_partial os h es).2.2 i r hd with ⟨a, b⟩ | ⟨-, -, j, k⟩
  · exact ⟨b, a⟩
  · exact absurd ((stops_run os receiver es s j).mp (hasClosed_stops k)) (hs j)

theorem closed_step (os : Nat → Except Exc Bool) (receiver : Nat) (s : St) (e : Ev) (hc : s.closed = true) (hh : s.held = false) :
    (step os receiver s e).closed = true ∧ (step os receiver s e).held = false ∧ (step os receiver s e).sent = s.sent := by
  cases e with
  | arrive i =>
    unfold step
    simp only []
    split <;> exact ⟨hc, hh, rfl⟩
  | go i =>
    unfold step
    simp only [hc, hh]
    split
    all_goals first
      | exact ⟨hc, hh, rfl⟩
      | exact ⟨rfl, hh, rfl⟩
      | exact ⟨hc, rfl, rfl⟩
      | (split <;> first | exact ⟨hc, hh, rfl⟩)

/-- Where a thread that has not begun to send is after the socket is gone. -/
theorem late_step (os : Nat → Except Exc Bool) (receiver : Nat) (s : St) (e : Ev) (hh : s.held = false) (i : Nat) (h : s.pc i = .sendTest ∨ s.pc i = .sendDone (.ok false)) :
    (step os receiver s e).pc i = .sendTest ∨ (step os receiver s e).pc i = .sendDone (.ok false) := by
  have key : ∀ (j : Nat) (p : Pc), (j = i → p = .sendDone (.ok false)) → (s.goto j p).pc i = .sendTest ∨ (s.goto j p).pc i = .sendDone (.ok false) := by
    intro j p hp
    rcases pc_cases s j p i with ⟨ej, e'⟩ | ⟨_, e'⟩ <;> rw [e']
    · exact Or.inr (hp ej.symm)
    · exact h
  have hno : ∀ (j : Nat) (q : Pc), s.pc j = q → q ≠ .sendTest → (∀ r, q ≠ .sendDone r) → j ≠ i := by
    intro j q hq h1 h2 e
    rw [e] at hq
    rcases h with h | h <;> rw [h] at hq
    · exact h1 hq.symm
    · exact h2 _ hq.symm
  cases e with
  | arrive j =>
    unfold step
    simp only []
    split
    · rename_i hp; exact key j _ (fun e => absurd e (hno j _ hp.1 (by simp) (by simp)))
    · exact h
  | go j =>
    unfold step
    simp only [hh]
    split <;> rename_i hp
    · exact key j _ (fun _ => rfl)
    all_goals first
      | exact h
      | exact key j _ (fun e => absurd e (hno j _ hp (by simp) (by simp)))
      | (split <;> first | exact h | exact key j _ (fun e => absurd e (hno j _ hp (by simp) (by simp))))

/-- C123. Once a `stop` has returned True, nothing is sent any more, and every `send_message` that begins then returns False. -/
theorem C123_after_partial (os : Nat → Except Exc Bool) {receiver : Nat} {s : St} (h : Begins receiver s) (es : List Ev) (j : Nat) (hj : (run os receiver s es).pc j = .stopDone (.ok true)) (es' : List Ev) :
    let s' := run os receiver s es
    let s'' := run os receiver s' es'
    s''.sent = s'.sent ∧ (s'.pc receiver = .recvDone) ∧ ∀ i, s'.pc i = .sendTest → ∀ r, s''.pc i = .sendDone r → r = .ok false := by
  intro s' s''
  have hi := (h.inv os).run es
  have hh : s'.held = false := hi.back j (by show HasCleared ((run os receiver s es).pc j); rw [hj]; trivial)
  have hc : s'.closed = true := hi.closed.mpr ⟨j, by show HasClosed ((run os receiver s es).pc j); rw [hj]; trivial⟩
  refine ⟨?_, hi.joined j hj, ?_⟩
  · show (run os receiver s' es').sent = s'.sent
    clear s'' hj
    revert hh hc
    generalize s' = t
    induction es' generalizing t with
    | nil => intro _ _; rfl
    | cons e es' ih =>
      intro hh hc
      obtain ⟨h1, h2, h3⟩ := closed_step os receiver t e hc hh
      exact (ih (step os receiver t e) h2 h1).trans h3
  · intro i hs r hr
    have : ∀ t : St, t.held = false → t.closed = true → (t.pc i = .sendTest ∨ t.pc i = .sendDone (.ok false)) →
        ((run os receiver t es').pc i = .sendTest ∨ (run os receiver t es').pc i = .sendDone (.ok false)) := by
      clear hr s''
      induction es' with
      | nil => intro t _ _ h; exact h
      | cons e es' ih =>
        intro t hh hc h
        obtain ⟨h1, h2, -⟩ := closed_step os receiver t e hc hh
        exact ih (step os receiver t e) h2 h1 (late_step os receiver t e hh i h)
    rcases this s' hh hc (Or.inl hs) with k | k
    · have hr : (run os receiver s' es').pc i = .sendDone r := hr
      rw [k] at hr; cases hr
    · have hr : (run os receiver s' es').pc i = .sendDone r := hr
      rw [k] at hr; injection hr with hr; exact hr.symm

/-- C123. A server that one thread stops: the `stop`, once through, has returned True. -/
theorem C123_stop_partial (os : Nat → Except Exc Bool) {receiver : Nat} {s : St} (h : Begins receiver s) (j : Nat) (hone : ∀ i, Stops (s.pc i) → i = j) (es : List Ev) (r : Except Exc Bool)
    (hr : (run os receiver s es).pc j = .stopDone r) : r = .ok true := by
  have hi := (h.inv os).run es
  have key : (run os receiver s es).held = false → r = .ok true := by
    intro e
    obtain ⟨i, k⟩ := hi.cleared e
    have hst : Stops ((run os receiver s es).pc i) := by
      revert k
      generalize (run os receiver s es).pc i = p
      intro k
      unfold HasCleared at k
      split at k <;> trivial
    have hij := hone i ((stops_run os receiver es s i).mp hst)
    rw [hij, hr] at k
    unfold HasCleared at k
    split at k
    · rename_i e; cases e
    · rename_i e; injection e
    · exact k.elim
  rcases hi.stopRes j r hr with a | ⟨-, b⟩ | ⟨-, b⟩
  · exact a
  · exact key b
  · exact key b

/-- C123. If several threads stop the server and one of them is through, one of them succeeds: it has returned True or only waits for the receiving thread. -/
theorem C123_one_wins_partial (os : Nat → Except Exc Bool) {receiver : Nat} {s : St} (h : Begins receiver s) (es : List Ev) (i : Nat) (r : Except Exc Bool)
    (hr : (run os receiver s es).pc i = .stopDone r) :
    (r = .ok true ∨ r = .ok false ∨ r = .error .attributeError) ∧
    ∃ j, (run os receiver s es).pc j = .stopJoin ∨ (run os receiver s es).pc j = .stopDone (.ok true) := by
  have hi := (h.inv os).run es
  have key : (run os receiver s es).held = false → ∃ j, (run os receiver s es).pc j = .stopJoin ∨ (run os receiver s es).pc j = .stopDone (.ok true) := by
    intro e
    obtain ⟨j, k⟩ := hi.cleared e
    refine ⟨j, ?_⟩
    revert k
    generalize (run os receiver s es).pc j = p
    intro k
    unfold HasCleared at k
    split at k
    · exact Or.inl rfl
    · exact Or.inr rfl
    · exact k.elim
  rcases hi.stopRes i r hr with a | ⟨a, b⟩ | ⟨a, b⟩
  · exact ⟨Or.inl a, i, Or.inr (by rw [hr, a])⟩
  · exact ⟨Or.inr (Or.inl a), key b⟩
  · exact ⟨Or.inr (Or.inr a), key b⟩

theorem run_append (os : Nat → Except Exc Bool) (receiver : Nat) (s : St) (a b : List Ev) : run os receiver s (a ++ b) = run os receiver (run os receiver s a) b := by
  unfold run; rw [List.foldl_append]

/-- The receiving thread ends when it is let run after the socket is gone. -/
theorem receiver_ends (os : Nat → Except Exc Bool) (receiver : Nat) (s : St) (hr : Receives (s.pc receiver)) (hc : s.closed = true) (hh : s.held = false) :
    (run os receiver s [.go receiver, .go receiver]).pc receiver = .recvDone ∧ ∀ j, j ≠ receiver → (run os receiver s [.go receiver, .go receiver]).pc j = s.pc j := by
  have other : ∀ (t : St) j, j ≠ receiver → Receives (t.pc receiver) → (step os receiver t (.go receiver)).pc j = t.pc j := by
    intro t j hj hrt
    unfold step
    simp only []
    split <;> rename_i hp <;> rw [hp] at hrt
    all_goals first
      | exact hrt.elim
      | rfl
      | exact goto_other t _ hj
      | (split <;> first | rfl | exact goto_other t _ hj)
  have one : (step os receiver s (.go receiver)).pc receiver = .recvDone ∨ ((step os receiver s (.go receiver)).pc receiver = .recvTest ∧ (step os receiver s (.go receiver)).held = false) := by
    unfold step
    simp only [hc, hh]
    split <;> rename_i hp <;> rw [hp] at hr
    all_goals first
      | exact hr.elim
      | (left; exact goto_self s _ _)
      | (left; exact hp)
      | (right; exact ⟨goto_self s _ _, hh⟩)
  have hrec : Receives ((step os receiver s (.go receiver)).pc receiver) := by
    rcases one with e | ⟨e, -⟩ <;> rw [e] <;> trivial
  refine ⟨?_, ?_⟩
  · show (step os receiver (step os receiver s (.go receiver)) (.go receiver)).pc receiver = _
    generalize step os receiver s (.go receiver) = t at *
    unfold step
    rcases one with e | ⟨e, e2⟩
    · simp only [e]
    · simp only [e, e2]
      exact goto_self t _ _
  · intro j hj
    show (step os receiver (step os receiver s (.go receiver)) (.go receiver)).pc j = _
    rw [other _ j hj hrec, other s j hj hr]

/-- How far a `stop` has got. -/
def rank : Pc → Nat
  | .stopShut => 1
  | .stopLoad => 2
  | .stopClose => 3
  | .stopClear => 4
  | .stopJoin => 5
  | .stopDone _ => 6
  | _ => 0

theorem rank_step (os : Nat → Except Exc Bool) {receiver : Nat} {s : St} (hi : Inv os receiver s) (j : Nat) (hone : ∀ i, Stops (s.pc i) → i = j) (hs : Stops (s.pc j)) :
    min 5 (rank (s.pc j) + 1) ≤ rank ((step os receiver s (.go j)).pc j) := by
  have hheld : rank (s.pc j) < 5 → s.held = true := by
    intro hlt
    by_contra hne
    obtain ⟨i, k⟩ := hi.cleared (by simpa using hne)
    have hst : Stops (s.pc i) := by
      revert k
      generalize s.pc i = p
      intro k
      unfold HasCleared at k
      split at k <;> trivial
    rw [hone i hst] at k
    unfold HasCleared at k
    split at k
    · rename_i e; rw [e] at hlt; simp [rank] at hlt
    · rename_i e; rw [e] at hlt; simp [rank] at hlt
    · exact k.elim
  unfold step
  simp only []
  split <;> rename_i hp <;> rw [hp] at hs hheld
  all_goals first
    | exact hs.elim
    | (have := hheld (by simp [rank]); rw [if_pos this, goto_self, hp]; simp [rank])
    | (show _ ≤ rank ((s.goto j _).pc j); rw [goto_self, hp]; simp [rank])
    | (split <;> first | (rw [goto_self, hp]; simp [rank]; done) | (rw [hp]; simp [rank]; done))
    | (rw [hp]; simp [rank])

/-- C123. No deadlock: when one thread stops the server, then whatever has happened it comes to its end as soon as it is let run, then the receiving thread, and then it again. -/
theorem C123_finishes_partial (os : Nat → Except Exc Bool) {receiver : Nat} {s : St} (h : Begins receiver s) (j : Nat) (hj : s.pc j = .stopTest) (hone : ∀ i, Stops (s.pc i) → i = j) (es : List Ev) :
    (run os receiver s (es ++ (List.replicate 5 (.go j) ++ [.go receiver, .go receiver, .go j]))).pc j = .stopDone (.ok true) := by
  have hjr : j ≠ receiver := fun e => by rw [e, h.rcv] at hj; cases hj
  have hst : ∀ es, Stops ((run os receiver s es).pc j) := fun es => (stops_run os receiver es s j).mpr (by rw [hj]; trivial)
  have hon : ∀ es i, Stops ((run os receiver s es).pc i) → i = j := fun es i k => hone i ((stops_run os receiver es s i).mp k)
  have hrank : ∀ n, min 5 n ≤ rank ((run os receiver s (es ++ List.replicate n (.go j))).pc j) := by
    intro n
    induction n with
    | zero => simp
    | succ n ih =>
      rw [List.replicate_succ', ← List.append_assoc, run_append]
      have := rank_step os ((h.inv os).run (es ++ List.replicate n (.go j))) j (hon _) (hst _)
      show _ ≤ rank ((step os receiver (run os receiver s (es ++ List.replicate n (.go j))) (.go j)).pc j)
      omega
  have h5 := hrank 5
  rw [← List.append_assoc, run_append]
  have hi := (h.inv os).run (es ++ List.replicate 5 (.go j))
  have hs5 := hst (es ++ List.replicate 5 (.go j))
  have hfin : ∀ r, (run os receiver s (es ++ List.replicate 5 (.go j))).pc j = .stopDone r → r = .ok true := fun r hr => C123_stop_partial os h j hone _ r hr
  generalize run os receiver s (es ++ List.replicate 5 (.go j)) = t at *
  have hp : t.pc j = .stopJoin ∨ t.pc j = .stopDone (.ok true) := by
    revert h5 hs5 hfin
    generalize t.pc j = p
    intro hs5 h5 hfin
    cases p <;> simp [rank, Stops] at h5 hs5 ⊢
    exact hfin _ rfl
  have hc : t.closed = true := hi.closed.mpr ⟨j, by rcases hp with e | e <;> rw [e] <;> trivial⟩
  have hh : t.held = false := hi.back j (by rcases hp with e | e <;> rw [e] <;> trivial)
  obtain ⟨r1, r2⟩ := receiver_ends os receiver t hi.rcv hc hh
  show (step os receiver (run os receiver t [.go receiver, .go receiver]) (.go j)).pc j = _
  have r2 := r2 j hjr
  generalize run os receiver t [.go receiver, .go receiver] = u at *
  unfold step
  rcases hp with e | e <;> rw [e] at r2 <;> simp only [r2]
  rw [if_pos r1, goto_self]

/-- C123. A `send_message` that is not interrupted does what the sequential model of the server says (`Manager.serverSend`), unless it meets a `stop` between `close` and `self.sock = None`. -/
theorem C123_uninterrupted_partial (os : Nat → Except Exc Bool) (receiver : Nat) (s : St) (i : Nat) (hi : s.pc i = .sendTest) :
    (run os receiver s [.go i, .go i, .go i]).pc i = .sendDone (if s.held = false then .ok false else if s.closed = true then .error .osError else os i) := by
  have e1 : step os receiver s (.go i) = if s.held then s.goto i .sendLoad else s.goto i (.sendDone (.ok false)) := by
    unfold step; simp only [hi]
  show (step os receiver (step os receiver (step os receiver s (.go i)) (.go i)) (.go i)).pc i = _
  rw [e1]
  by_cases hh : s.held = true
  · rw [if_pos hh, if_neg (by rw [hh]; decide)]
    have e2 : step os receiver (s.goto i .sendLoad) (.go i) = (s.goto i .sendLoad).goto i .sendCall := by
      unfold step; simp only [goto_self]; rw [if_pos (show (s.goto i .sendLoad).held = true from hh)]
    rw [e2]
    unfold step
    simp only [goto_self]
    by_cases hc : s.closed = true
    · rw [if_pos (show ((s.goto i .sendLoad).goto i .sendCall).closed = true from hc), goto_self, if_pos hc]
    · rw [if_neg (show ¬ ((s.goto i .sendLoad).goto i .sendCall).closed = true from hc), if_neg hc]
      exact goto_self _ _ _
  · rw [if_neg hh, if_pos (by simpa using hh)]
    have e2 : ∀ r, step os receiver (s.goto i (.sendDone r)) (.go i) = s.goto i (.sendDone r) := by
      intro r; unfold step; simp only [goto_self]
    rw [e2, e2, goto_self]

/-- Threads 0 (receiving), 1 and the rest sending, 2 stopping. -/
def exStart : St := { pc := fun i => if i = 0 then .recvTest else if i = 2 then .stopTest else .sendTest }
def exTwo : St := { pc := fun i => if i = 0 then .recvTest else .stopTest }

theorem exStart_begins : Begins 0 exStart := ⟨rfl, rfl, rfl, rfl, fun i hi => by
  show (if i = 0 then _ else if i = 2 then _ else _) = _ ∨ _ = _
  rw [if_neg hi]
  by_cases e : i = 2
  · right; show (if i = 0 then _ else if i = 2 then _ else _) = _; rw [if_neg hi, if_pos e]
  · left; rw [if_neg e]⟩

theorem exTwo_begins : Begins 0 exTwo := ⟨rfl, rfl, rfl, rfl, fun i hi => Or.inr (by show (if i = 0 then _ else _) = _; rw [if_neg hi])⟩

/-- C123 is false: a `send_message` interrupted by a `stop` can raise `AttributeError` or `OSError` instead of returning False, although the operating system sends without errors. -/
theorem C123_send_false : ∃ es es' : List Ev, (run (fun _ => .ok true) 0 exStart es).pc 1 = .sendDone (.error .attributeError) ∧
    (run (fun _ => .ok true) 0 exStart es').pc 1 = .sendDone (.error .osError) :=
  ⟨[.go 1, .go 2, .go 2, .go 2, .go 2, .go 2, .go 1], [.go 1, .go 1, .go 2, .go 2, .go 2, .go 2, .go 1], by decide, by decide⟩

/-- C123 is false for `stop`, too: of two threads that stop the server one can be left with an `AttributeError`. -/
theorem C123_stop_false : ∃ es : List Ev, (run (fun _ => .ok true) 0 exTwo es).pc 1 = .stopDone (.error .attributeError) ∧ (run (fun _ => .ok true) 0 exTwo es).pc 2 = .stopDone (.ok true) :=
  ⟨[.go 1, .go 2, .go 2, .go 2, .go 2, .go 2, .go 1, .go 1, .go 0, .go 2], by decide, by decide⟩

example : ∃ es, (run (fun _ => .ok true) 0 exStart es).pc 1 = .sendDone (.ok true) ∧ (run (fun _ => .ok true) 0 exStart es).pc 2 = .stopDone (.ok true) ∧
    (run (fun _ => .ok true) 0 exStart es).sent = [1] ∧ (run (fun _ => .ok true) 0 exStart es).pc 3 = .sendTest :=
  ⟨[.go 0, .go 0, .arrive 0, .go 1, .go 1, .go 2, .go 1, .go 2, .go 2, .go 2, .go 0, .go 0, .go 0, .go 2, .go 2, .go 0, .go 2], by decide⟩

end Uecho.Closing
