/- C96: listeners that are added and removed while listeners are called. -/
import Verif.Model.Listeners
import Verif.Lemmas.Controller
import Mathlib.Data.List.Induction

namespace Uecho.Listen
open Spec

theorem run_cons (s : St) (e : Ev) (es : List Ev) : run s (e :: es) = run (step s e) es := rfl

theorem run_append (s : St) (es fs : List Ev) : run s (es ++ fs) = run (run s es) fs := List.foldl_append ..

/-- Undisturbed, the loop calls who is left and ends. -/
theorem run_ticks (ls : List Nat) : ∀ (rest : List Nat) (pos : Nat) (c : List Nat), ls.drop pos = rest →
    run { listeners := ls, pos := pos, called := c } (List.replicate rest.length .tick) =
      { listeners := ls, pos := pos + rest.length, called := c ++ rest } := by
  intro rest
  induction rest with
  | nil => intro pos c _; simp [run]
  | cons l rest ih =>
    intro pos c h
    have hl : ls[pos]? = some l := by
      have := List.getElem?_drop (xs := ls) (i := pos) (j := 0)
      rw [h] at this
      simpa using this.symm
    have hd : ls.drop (pos + 1) = rest := by
      rw [← List.drop_drop, h]; rfl
    rw [List.length_cons, List.replicate_succ, run_cons]
    have : step { listeners := ls, pos := pos, called := c } .tick = { listeners := ls, pos := pos + 1, called := c ++ [l] } := by
      simp only [step, hl]; rfl
    rw [this, ih _ _ hd, List.append_assoc]
    simp only [List.singleton_append]
    congr 1
    omega

theorem run_end (ls : List Nat) (pos : Nat) (c : List Nat) (h : ls.length ≤ pos) :
    run { listeners := ls, pos := pos, called := c } [.tick] = { listeners := ls, pos := pos, called := c, ended := true } := by
  show step { listeners := ls, pos := pos, called := c } .tick = _
  simp only [step, List.getElem?_eq_none h]
  rfl

/-- Nobody is removed who has been called already. -/
def Careful : St → List Ev → Prop
  | _, [] => True
  | s, e :: es => (∀ l, e = .remove l → l ∉ s.listeners.take s.pos) ∧ Careful (step s e) es

theorem Careful.append {es fs : List Ev} : ∀ {s : St}, Careful s (es ++ fs) → Careful s es ∧ Careful (run s es) fs := by
  induction es with
  | nil => intro s h; exact ⟨trivial, h⟩
  | cons e es ih => intro s h; exact ⟨⟨h.1, (ih h.2).1⟩, (ih h.2).2⟩

theorem erase_take {l : Nat} {ls : List Nat} : ∀ {n : Nat}, l ∉ ls.take n → (ls.erase l).take n = ls.take n := by
  induction ls with
  | nil => intro n _; rfl
  | cons x ls ih =>
    intro n h
    cases n with
    | zero => rfl
    | succ n =>
      rw [List.take_succ_cons, List.mem_cons, not_or] at h
      rw [List.erase_cons_tail (by simpa using Ne.symm h.1), List.take_succ_cons, List.take_succ_cons, ih h.2]

/-- Who has been called are the first `pos` listeners. -/
theorem called_eq (ls : List Nat) (es : List Ev) (h : Careful { listeners := ls } es) (he : (run { listeners := ls } es).ended = false) :
    (run { listeners := ls } es).called = (run { listeners := ls } es).listeners.take (run { listeners := ls } es).pos ∧
    (run { listeners := ls } es).called.length = (run { listeners := ls } es).pos := by
  induction es using List.reverseRecOn with
  | nil => exact ⟨rfl, rfl⟩
  | append_singleton es e ih =>
    rw [run_append] at he ⊢
    obtain ⟨h1, h2, -⟩ := h.append
    generalize hs : run { listeners := ls } es = s at *
    have he' : s.ended = false := by
      cases e with
      | tick =>
        by_contra hc
        have hc : s.ended = true := by simpa using hc
        change (step s .tick).ended = false at he
        simp [step, hc] at he
      | add l => exact he
      | remove l => exact he
    obtain ⟨i1, i2⟩ := ih h1 he'
    have hlen : s.pos ≤ s.listeners.length := by
      have := congrArg List.length i1
      rw [List.length_take] at this
      omega
    cases e with
    | tick =>
      change (step s .tick).ended = false at he
      show (step s .tick).called = (step s .tick).listeners.take (step s .tick).pos ∧ (step s .tick).called.length = (step s .tick).pos
      unfold step at he ⊢
      simp only [he'] at he ⊢
      cases hg : s.listeners[s.pos]? with
      | none => rw [hg] at he; simp at he
      | some l =>
        simp only [Bool.false_eq_true, if_false]
        refine ⟨?_, by simp [i2]⟩
        rw [List.take_add_one, hg, i1]
        rfl
    | add l =>
      show s.called = (s.listeners ++ [l]).take s.pos ∧ s.called.length = s.pos
      rw [List.take_append_of_le_length hlen]
      exact ⟨i1, i2⟩
    | remove l =>
      show s.called = (s.listeners.erase l).take s.pos ∧ s.called.length = s.pos
      rw [erase_take (h2 l rfl)]
      exact ⟨i1, i2⟩

theorem count_listeners (l : Nat) (es : List Ev) : ∀ s : St, Ev.add l ∉ es → Ev.remove l ∉ es → (run s es).listeners.count l = s.listeners.count l := by
  induction es with
  | nil => intro s _ _; rfl
  | cons e es ih =>
    intro s ha hr
    rw [List.mem_cons, not_or] at ha hr
    rw [run_cons, ih _ ha.2 hr.2]
    cases e with
    | tick =>
      simp only [step]
      split
      · rfl
      · split <;> rfl
    | add k =>
      have : k ≠ l := fun e => ha.1 (by rw [e])
      show (s.listeners ++ [k]).count l = _
      rw [List.count_append, List.count_singleton]
      simp [this]
    | remove k =>
      have : k ≠ l := fun e => hr.1 (by rw [e])
      show (s.listeners.erase k).count l = _
      rw [List.count_erase_of_ne this.symm]

/-- C96 (what holds): if listeners are added in any way, and removed only while they have not been called yet, then, when the loop
ends, those have been called who are registered at that moment, in order and once per registration; so whoever was registered when
the loop began and has been left alone has been called as often as registered. Missing: `C96_skipped_false`, `C96_endless_false`. -/
theorem C96_called_partial (ls : List Nat) (es : List Ev) (h : Careful { listeners := ls } es)
    (h0 : (run { listeners := ls } es).ended = false) (h1 : (run { listeners := ls } (es ++ [.tick])).ended = true) :
    (run { listeners := ls } (es ++ [.tick])).called = (run { listeners := ls } es).listeners ∧
    ∀ l, Ev.add l ∉ es → Ev.remove l ∉ es → (run { listeners := ls } (es ++ [.tick])).called.count l = ls.count l := by
  have hc := called_eq ls es h h0
  have hcount := fun l => count_listeners l es { listeners := ls }
  rw [run_append] at h1 ⊢
  generalize run { listeners := ls } es = s at *
  have key : (run s [.tick]).called = s.listeners := by
    change (step s .tick).ended = true at h1
    show (step s .tick).called = _
    unfold step at h1 ⊢
    simp only [h0] at h1 ⊢
    cases hg : s.listeners[s.pos]? with
    | none =>
      simp only [Bool.false_eq_true, if_false]
      rw [hc.1, List.take_of_length_le (List.getElem?_eq_none_iff.mp hg)]
    | some l =>
      rw [hg] at h1
      simp at h1
  rw [key]
  exact ⟨rfl, hcount⟩

/-- The loop of the model of the controller is the undisturbed loop. -/
theorem C96_alone_partial (cenv : CEnv) (h : Calm cenv) (c : Ctl) (call : Call) :
    ∃ s, run { listeners := c.listeners } (List.replicate (c.listeners.length + 1) .tick) = s ∧ s.ended = true ∧
      c.notify cenv call = ({ c with calls := c.calls ++ s.called.map (fun l => (l, c.found, call)) }, none) := by
  refine ⟨_, rfl, ?_⟩
  rw [List.replicate_succ', run_append, run_ticks c.listeners c.listeners 0 [] rfl, run_end _ _ _ (by omega)]
  refine ⟨rfl, ?_⟩
  rw [notify_calm h]
  rfl

/-- Listener 2 adds listener 9 and removes listener 3, which comes later. -/
example : Careful { listeners := [1, 2, 3, 4] } [.tick, .tick, .add 9, .remove 3, .tick, .tick] ∧
    (run { listeners := [1, 2, 3, 4] } [.tick, .tick, .add 9, .remove 3, .tick, .tick]).ended = false ∧
    run { listeners := [1, 2, 3, 4] } [.tick, .tick, .add 9, .remove 3, .tick, .tick, .tick] =
      { listeners := [1, 2, 4, 9], pos := 4, called := [1, 2, 4, 9], ended := true } := by
  refine ⟨⟨by simp, by simp, by simp, ?_, by simp, by simp, trivial⟩, by decide, by decide⟩
  intro l hl
  cases hl
  decide

/-- C96 is false: if a listener removes itself when it is called, the one after it is not called, although it is registered all the
time. -/
theorem C96_skipped_false (xs ys : List Nat) (l k : Nat) (hl : l ∉ xs) :
    let es := List.replicate (xs.length + 1) Ev.tick ++ [.remove l] ++ List.replicate (ys.length + 1) .tick
    run { listeners := xs ++ l :: k :: ys } es =
      { listeners := xs ++ k :: ys, pos := xs.length + 1 + ys.length, called := xs ++ l :: ys, ended := true } ∧
    (k ∉ xs → k ≠ l → k ∉ ys → k ∉ (run { listeners := xs ++ l :: k :: ys } es).called ∧
      ∀ fs, fs <+: es → k ∈ (run { listeners := xs ++ l :: k :: ys } fs).listeners) := by
  intro es
  have h1 : run { listeners := xs ++ l :: k :: ys } (List.replicate (xs.length + 1) Ev.tick) =
      { listeners := xs ++ l :: k :: ys, pos := xs.length + 1, called := xs ++ [l] } := by
    have hx : ∀ (zs rest : List Nat) (pos : Nat) (c : List Nat), (xs ++ l :: k :: ys).drop pos = zs ++ rest →
        run { listeners := xs ++ l :: k :: ys, pos := pos, called := c } (List.replicate zs.length Ev.tick) =
          { listeners := xs ++ l :: k :: ys, pos := pos + zs.length, called := c ++ zs } := by
      intro zs
      induction zs with
      | nil => intro rest pos c _; simp [run]
      | cons z zs ih =>
        intro rest pos c h
        have hz : (xs ++ l :: k :: ys)[pos]? = some z := by
          have := List.getElem?_drop (xs := xs ++ l :: k :: ys) (i := pos) (j := 0)
          rw [h] at this
          simpa using this.symm
        have hd : (xs ++ l :: k :: ys).drop (pos + 1) = zs ++ rest := by
          rw [← List.drop_drop, h]; rfl
        rw [List.length_cons, List.replicate_succ, run_cons]
        have : step { listeners := xs ++ l :: k :: ys, pos := pos, called := c } .tick =
            { listeners := xs ++ l :: k :: ys, pos := pos + 1, called := c ++ [z] } := by
          simp only [step, hz]; rfl
        rw [this, ih rest _ _ hd, List.append_assoc]
        simp only [List.singleton_append]
        congr 1
        omega
    have := hx (xs ++ [l]) (k :: ys) 0 [] (by simp)
    simpa using this
  have herase : (xs ++ l :: k :: ys).erase l = xs ++ k :: ys := by
    rw [List.erase_append_right _ hl, List.erase_cons_head]
  have h2 : run { listeners := xs ++ l :: k :: ys } es =
      { listeners := xs ++ k :: ys, pos := xs.length + 1 + ys.length, called := xs ++ l :: ys, ended := true } := by
    show run _ ((List.replicate (xs.length + 1) Ev.tick ++ [.remove l]) ++ List.replicate (ys.length + 1) .tick) = _
    rw [run_append, run_append, h1]
    have : run { listeners := xs ++ l :: k :: ys, pos := xs.length + 1, called := xs ++ [l] } [.remove l] =
        { listeners := xs ++ k :: ys, pos := xs.length + 1, called := xs ++ [l] } := by
      show ({ listeners := (xs ++ l :: k :: ys).erase l, pos := xs.length + 1, called := xs ++ [l] } : St) = _
      rw [herase]
    rw [this, List.replicate_succ', run_append, run_ticks _ ys _ _ (by
      rw [show xs ++ k :: ys = (xs ++ [k]) ++ ys by simp]
      rw [List.drop_left' (by simp)]), run_end _ _ _ (by simp; omega)]
    simp
  refine ⟨h2, ?_⟩
  intro n1 n2 n3
  rw [h2]
  refine ⟨by simp [n1, n2, n3], ?_⟩
  intro fs hfs
  have nf : ∀ e ∈ es, e = .tick ∨ e = .remove l := by
    intro e he
    rcases List.mem_append.mp he with he | he
    · rcases List.mem_append.mp he with he | he
      · exact Or.inl (List.eq_of_mem_replicate he)
      · exact Or.inr (List.mem_singleton.mp he)
    · exact Or.inl (List.eq_of_mem_replicate he)
  have := count_listeners k fs { listeners := xs ++ l :: k :: ys }
    (fun h => by rcases nf _ (hfs.subset h) with h | h <;> cases h)
    (fun h => by rcases nf _ (hfs.subset h) with h | h
                 · cases h
                 · injection h with h; exact n2 h)
  rw [← List.count_pos_iff, this, List.count_pos_iff]
  simp

/-- C96 is false: if whoever is called adds a listener that does the same, the loop never ends. -/
theorem C96_endless_false (ls : List Nat) (hne : ls ≠ []) (l n : Nat) :
    (run { listeners := ls } (List.replicate n [Ev.tick, .add l]).flatten).ended = false ∧
    (run { listeners := ls } (List.replicate n [Ev.tick, .add l]).flatten).called.length = n := by
  have aux : ∀ (n : Nat) (s : St), s.ended = false → s.pos < s.listeners.length →
      (run s (List.replicate n [Ev.tick, .add l]).flatten).ended = false ∧
      (run s (List.replicate n [Ev.tick, .add l]).flatten).called.length = s.called.length + n := by
    intro n
    induction n with
    | zero => intro s h _; exact ⟨h, rfl⟩
    | succ n ih =>
      intro s h hp
      rw [List.replicate_succ, List.flatten_cons]
      show (run (step (step s .tick) (.add l)) _).ended = false ∧ _ = _
      have : step (step s .tick) (.add l) = { s with listeners := s.listeners ++ [l], pos := s.pos + 1, called := s.called ++ [s.listeners[s.pos]] } := by
        unfold step
        simp only [h, List.getElem?_eq_getElem hp]
        rfl
      have h' := ih (step (step s .tick) (.add l)) (by rw [this]; exact h) (by rw [this]; simp; omega)
      refine ⟨h'.1, h'.2.trans ?_⟩
      rw [this]
      simp only [List.length_append, List.length_singleton]
      omega
  have := aux n { listeners := ls } rfl (List.length_pos_iff.mpr hne)
  exact ⟨this.1, this.2.trans (Nat.zero_add n)⟩

end Uecho.Listen
