/- Property C52: automatic TIDs under concurrent senders. -/
import Verif.Lemmas.Post

namespace Uecho.Conc

/-- A thread within `__next_TID` that has loaded the counter. -/
def InTid : PC → Prop
  | .st _ _ _ => True
  | .cmp _ _ => True
  | .rst _ _ => True
  | .ret _ _ => True
  | _ => False

/-- The value of the counter after k automatic TIDs. -/
def cnt (k : Nat) : Int := if k = 0 then 0 else ((k - 1) % 65535 : Nat) + 1

theorem cnt_succ (k : Nat) : cnt (k + 1) = if 0xFFFF < cnt k + 1 then 1 else cnt k + 1 := by
  unfold cnt
  rw [if_neg (Nat.succ_ne_zero k), Nat.add_sub_cancel]
  by_cases hk : k = 0
  · subst hk; simp
  · rw [if_neg hk]
    obtain ⟨j, rfl⟩ : ∃ j, k = j + 1 := ⟨k - 1, by omega⟩
    rw [Nat.add_sub_cancel]
    split <;> omega

/-- What the counter is while thread pc is within `__next_TID`, after k automatic TIDs. -/
def TidOK (c : Int) (k : Nat) : PC → Prop
  | .st _ _ v => v = cnt k ∧ c = cnt k
  | .cmp _ _ => c = cnt k + 1
  | .rst _ _ => 0xFFFF < cnt k + 1
  | .ret _ _ => c = cnt (k + 1)
  | _ => True

structure TidInv (s : Sys) : Prop where
  assigned : s.assigned = (List.range s.assigned.length).map fun i => cnt (i + 1)
  free : (∀ t, ¬ InTid (s.pc t)) → s.counter = cnt s.assigned.length
  inside : ∀ t, InTid (s.pc t) → TidOK s.counter s.assigned.length (s.pc t)

/-- At most one thread is within `__next_TID`. -/
def Alone (s : Sys) : Prop := ∀ t u, InTid (s.pc t) → InTid (s.pc u) → t = u

theorem tid_step {s s' : Sys} (t : Nat) (a : Act) (hi : TidInv s) (ha : Alone s) (ha' : Alone s') (h : s.step t a = some s') : TidInv s' := by
  -- a step that is outside `__next_TID`
  have outside : ∀ (s' : Sys) (p : PC), s'.pc = upd s.pc t p → s'.counter = s.counter → s'.assigned = s.assigned → ¬ InTid p → ¬ InTid (s.pc t) → TidInv s' := by
    intro s' p e1 e2 e3 n1 n2
    have hiff : ∀ u, InTid (s'.pc u) → InTid (s.pc u) ∧ s'.pc u = s.pc u := by
      intro u hu
      by_cases hut : u = t
      · rw [hut, e1, upd_same] at hu; exact absurd hu n1
      · rw [e1, upd_other _ _ _ _ hut] at hu ⊢; exact ⟨hu, rfl⟩
    refine ⟨by rw [e3]; exact hi.assigned, ?_, ?_⟩
    · intro hn
      rw [e2, e3]
      refine hi.free fun u hu => ?_
      by_cases hut : u = t
      · rw [hut] at hu; exact n2 hu
      · refine hn u ?_
        rw [e1, upd_other _ _ _ _ hut]; exact hu
    · intro u hu
      rw [(hiff u hu).2, e2, e3]
      exact hi.inside u (hiff u hu).1
  -- a step that stays inside
  have within : ∀ (s' : Sys) (p : PC), s'.pc = upd s.pc t p → s'.assigned = s.assigned → InTid p → Alone s' → TidOK s'.counter s.assigned.length p → TidInv s' := by
    intro s' p e1 e3 n1 hal hok
    have ht : InTid (s'.pc t) := by rw [e1, upd_same]; exact n1
    refine ⟨by rw [e3]; exact hi.assigned, fun hn => absurd ht (hn t), ?_⟩
    intro u hu
    have hut := hal u t hu ht
    rw [hut, e1, upd_same, e3]; exact hok
  cases a with
  | post q =>
    simp only [Sys.step] at h
    split at h
    · rename_i hf
      cases h
      exact outside _ _ rfl rfl rfl id (by generalize s.pc t = p at hf; cases p <;> simp [PC.free] at hf <;> exact id)
    · cases h
  | send q =>
    simp only [Sys.step] at h
    split at h
    · rename_i hf
      cases h
      exact outside _ _ rfl rfl rfl id (by generalize s.pc t = p at hf; cases p <;> simp [PC.free] at hf <;> exact id)
    · cases h
  | recv m =>
    simp only [Sys.step] at h
    split at h
    · rename_i hf
      cases h
      exact outside _ _ rfl rfl rfl id (by rw [hf]; exact id)
    · cases h
  | sent =>
    simp only [Sys.step] at h
    split at h
    · rename_i w q hf
      cases h
      exact outside _ _ rfl rfl rfl (by cases w <;> exact id) (by rw [hf]; exact id)
    · cases h
  | refused =>
    simp only [Sys.step] at h
    split at h
    · rename_i w q hf
      cases h
      exact outside _ _ rfl rfl rfl (by cases w <;> exact id) (by rw [hf]; exact id)
    · cases h
  | sendRaises =>
    simp only [Sys.step] at h
    split at h
    · rename_i w q hf
      cases h
      exact outside _ _ rfl rfl rfl id (by rw [hf]; exact id)
    · cases h
  | timeout =>
    simp only [Sys.step] at h
    split at h
    · rename_i q hf
      cases h
      exact outside _ _ rfl rfl rfl id (by rw [hf]; exact id)
    · cases h
  | run =>
    simp only [Sys.step] at h
    have hin := hi.inside t
    generalize hpc : s.pc t = pc at h hin
    cases pc <;> simp only [Sys.goOn] at h
    case ld w q =>
      cases h
      refine within _ _ rfl rfl trivial ha' ?_
      have hc : s.counter = cnt s.assigned.length := by
        refine hi.free fun u hu => ?_
        by_cases hut : u = t
        · rw [hut, hpc] at hu; exact hu
        · have h1 : InTid ((s.goto t (.st w q s.counter)).pc t) := by simp [Sys.goto, InTid]
          have h2 : InTid ((s.goto t (.st w q s.counter)).pc u) := by simp only [Sys.goto]; rw [upd_other _ _ _ _ hut]; exact hu
          exact hut (ha' u t h2 h1)
      exact ⟨hc, hc⟩
    case st w q v =>
      cases h
      exact within _ _ rfl rfl trivial ha' (by
        have := (hin trivial).1
        show v + 1 = _
        rw [this])
    case cmp w q =>
      have hc : s.counter = cnt s.assigned.length + 1 := hin trivial
      cases h
      by_cases hlt : 0xFFFF < s.counter
      · rw [if_pos hlt] at ha' ⊢
        refine within _ _ rfl rfl trivial ha' ?_
        show (0xFFFF : Int) < _
        rw [← hc]; exact hlt
      · rw [if_neg hlt] at ha' ⊢
        refine within _ _ rfl rfl trivial ha' ?_
        show s.counter = _
        rw [cnt_succ, ← hc, if_neg hlt]
    case rst w q =>
      have hc : (0xFFFF : Int) < cnt s.assigned.length + 1 := hin trivial
      cases h
      refine within _ _ rfl rfl trivial ha' ?_
      show (1 : Int) = _
      rw [cnt_succ, if_pos hc]
    case ret w q =>
      have hc : s.counter = cnt (s.assigned.length + 1) := hin trivial
      cases h
      have hnone : ∀ u, ¬ InTid (upd s.pc t (.set w q s.counter) u) := by
        intro u hu
        by_cases hut : u = t
        · rw [hut, upd_same] at hu; exact hu
        · rw [upd_other _ _ _ _ hut] at hu
          exact hut (ha u t hu (by rw [hpc]; exact trivial))
      refine ⟨?_, ?_, fun u hu => absurd hu (hnone u)⟩
      · show s.assigned ++ [s.counter] = _
        simp only [Sys.goto, List.length_append, List.length_cons, List.length_nil, Nat.zero_add]
        rw [List.range_succ, List.map_append, ← hi.assigned, hc]
        rfl
      · intro _
        simp only [Sys.goto, List.length_append, List.length_cons, List.length_nil, Nat.zero_add]
        exact hc
    case acq q =>
      split at h
      · cases h; exact outside _ _ rfl rfl rfl id (by rw [hpc]; exact id)
      · cases h
    case reacq q =>
      split at h
      · cases h; exact outside _ _ rfl rfl rfl id (by rw [hpc]; exact id)
      · cases h
    case r8 m =>
      split at h
      · cases h; exact outside _ _ rfl rfl rfl id (by rw [hpc]; exact id)
      · cases h
    case waiting q =>
      split at h
      · cases h
      · cases h; exact outside _ _ rfl rfl rfl id (by rw [hpc]; exact id)
    all_goals cases h
    all_goals refine outside _ _ rfl rfl rfl ?_ (by rw [hpc]; exact id)
    all_goals first | exact id | (split <;> exact id)

/-- In all states of the execution at most one thread is within `__next_TID`. -/
def Exclusive (s : Sys) (l : List (Nat × Act)) : Prop := ∀ l1 l2 s1, l = l1 ++ l2 → s.exec l1 = some s1 → Alone s1

theorem tid_exec (l : List (Nat × Act)) : ∀ {s s' : Sys}, TidInv s → Exclusive s l → s.exec l = some s' → TidInv s' := by
  induction l with
  | nil => intro s s' hi _ h; cases h; exact hi
  | cons x l ih =>
    intro s s' hi hx h
    obtain ⟨t, a⟩ := x
    unfold Sys.exec at h
    split at h
    · cases h
    · rename_i s1 h1
      have e1 : s.exec [(t, a)] = some s1 := by simp only [Sys.exec, h1]
      refine ih (tid_step t a hi (hx [] _ s rfl rfl) (hx [(t, a)] l s1 rfl e1) h1) ?_ h
      intro l1 l2 s2 hl h2
      refine hx ((t, a) :: l1) l2 s2 (by rw [hl]; rfl) ?_
      simp only [Sys.exec, h1]; exact h2

/-- C52 for executions in which no two threads are within `__next_TID` at the same time: the automatic TIDs are
1, 2, ..., 65535, 1, 2, ... -/
theorem C52_sequence_partial {f : Nat → Int} {s' : Sys} {l : List (Nat × Act)} (hx : Exclusive (start f) l) (h : (start f).exec l = some s') :
    s'.assigned = (List.range s'.assigned.length).map fun (i : Nat) => ((i % 65535 : Nat) : Int) + 1 := by
  have h0 : TidInv (start f) := ⟨rfl, fun _ => rfl, fun t ht => absurd ht id⟩
  have := (tid_exec l h0 hx h).assigned
  exact this

/-- So that among any 65535 consecutive ones no two are the same, and none is 0. -/
theorem C52_exclusive_partial {f : Nat → Int} {s' : Sys} {l : List (Nat × Act)} (hx : Exclusive (start f) l) (h : (start f).exec l = some s')
    (i j : Nat) (hj : j < s'.assigned.length) (hij : i < j) (hd : j < i + 65535) :
    s'.assigned[i]? ≠ s'.assigned[j]? ∧ ∀ v, s'.assigned[i]? = some v → 1 ≤ v ∧ v ≤ 65535 := by
  have hseq := C52_sequence_partial hx h
  generalize s'.assigned.length = n at hj hseq
  rw [hseq]
  have hi : i < n := by omega
  simp only [List.getElem?_map, List.getElem?_range hi, List.getElem?_range hj, Option.map_some]
  refine ⟨?_, ?_⟩
  · intro e
    have := Option.some.inj e
    omega
  · intro v e
    have := Option.some.inj e
    omega

def turns (t n : Nat) : List (Nat × Act) := List.replicate n (t, .run)

/-- Two threads that take turns, with a third waiting to begin: TIDs 1 and 2. -/
example : ∃ s', ({} : Sys).exec ([(0, .send 0), (1, .send 1)] ++ turns 1 1 ++ turns 0 5 ++ turns 1 4) = some s' ∧ s'.assigned = [1, 2] := ⟨_, rfl, rfl⟩

/-- The schedule of the example is exclusive. -/
example : Exclusive (start fun _ => 0) ([(0, .send 0), (1, .send 1)] ++ turns 1 1 ++ turns 0 5 ++ turns 1 4) := by
  have key : ∀ l s1, l <+: ([(0, .send 0), (1, .send 1)] ++ turns 1 1 ++ turns 0 5 ++ turns 1 4) → (start fun _ => 0).exec l = some s1 →
      ∀ t, InTid (s1.pc t) → ∀ u, InTid (s1.pc u) → t = u := by
    intro l s1 hl he
    have hlen : l.length ≤ 12 := by have := hl.length_le; exact this
    have heq := List.prefix_iff_eq_take.mp hl
    have h2 : ∀ t, t ≠ 0 → t ≠ 1 → ¬ InTid (s1.pc t) := by
      intro t h0 h1
      rw [pc_exec t l he]
      · exact id
      · intro x hx
        have := hl.subset hx
        simp only [turns, List.mem_append, List.mem_cons, List.not_mem_nil, or_false, List.mem_replicate] at this
        rcases this with (((rfl | rfl) | ⟨-, rfl⟩) | ⟨-, rfl⟩) | ⟨-, rfl⟩
        all_goals first | exact Ne.symm h0 | exact Ne.symm h1
    have h01 : ¬ (InTid (s1.pc 0) ∧ InTid (s1.pc 1)) := by
      generalize l.length = n at hlen heq
      subst heq
      rcases n with _ | _ | _ | _ | _ | _ | _ | _ | _ | _ | _ | _ | _ | n
      all_goals first | omega | (cases he; simp [InTid, Sys.goto, upd, start])
    intro t ht u hu
    by_cases t0 : t = 0 <;> by_cases u0 : u = 0
    · rw [t0, u0]
    · by_cases u1 : u = 1
      · subst t0 u1; exact absurd ⟨ht, hu⟩ h01
      · exact absurd hu (h2 u u0 u1)
    · by_cases t1 : t = 1
      · subst u0 t1; exact absurd ⟨hu, ht⟩ h01
      · exact absurd ht (h2 t t0 t1)
    · by_cases t1 : t = 1 <;> by_cases u1 : u = 1
      · rw [t1, u1]
      · exact absurd hu (h2 u u0 u1)
      · exact absurd ht (h2 t t0 t1)
      · exact absurd ht (h2 t t0 t1)
  intro l1 l2 s1 hl he t u ht hu
  exact key l1 s1 ⟨l2, hl.symm⟩ he t ht u hu

/-- C52 as stated is false: two threads sending at the same time send their messages with the same TID. -/
theorem C52_same_false : ∃ l s', ({} : Sys).exec l = some s' ∧ s'.pc 0 = .out false 0 ∧ s'.pc 1 = .out false 1 ∧ s'.tid 0 = 1 ∧ s'.tid 1 = 1 :=
  ⟨[(0, .send 0), (1, .send 1)] ++ turns 0 2 ++ turns 1 5 ++ turns 0 4 ++ turns 1 1, _, rfl, rfl, rfl, rfl, rfl⟩

/-- One thread sends the messages 0, 1, ..., k - 1, one after the other. -/
def sendMany : Nat → List (Nat × Act)
  | 0 => []
  | k + 1 => sendMany k ++ ([(0, .send k)] ++ turns 0 6 ++ [(0, .sent)])

theorem sendMany_run (k : Nat) (hk : k ≤ 65535) : ∃ s', (start fun _ => 0).exec (sendMany k) = some s' ∧ s'.counter = k ∧
    (∀ t, s'.pc t = .idle) ∧ ∀ q, k ≤ q → s'.tid q = 0 := by
  induction k with
  | zero => exact ⟨_, rfl, rfl, fun _ => rfl, fun _ _ => rfl⟩
  | succ k ih =>
    obtain ⟨s, e, hc, hp, ht⟩ := ih (by omega)
    have hlt : ¬ (65535 : Int) < (k : Int) + 1 := by omega
    have hrun : s.exec ([(0, .send k)] ++ turns 0 6 ++ [(0, .sent)]) = some
        { s with pc := upd (upd (upd (upd (upd (upd (upd (upd s.pc 0 (.chk false k)) 0 (.ld false k)) 0 (.st false k k)) 0 (.cmp false k)) 0 (.ret false k)) 0 (.set false k (k + 1))) 0 (.out false k)) 0 .idle,
                 counter := k + 1, assigned := s.assigned ++ [(k : Int) + 1], tid := upd s.tid k (k + 1) } := by
      simp [turns, List.replicate, Sys.exec, Sys.step, Sys.goto, Sys.goOn, hp, PC.free, ht k (Nat.le_refl k), hc, hlt, Sys.sentTo]
    refine ⟨_, (by simp only [sendMany]; rw [exec_append, e]; exact hrun), ?_⟩
    · refine ⟨by simp, ?_, ?_⟩
      · intro t
        by_cases h0 : t = 0
        · subst h0; simp
        · simp only [upd_other _ _ _ _ h0]; exact hp t
      · intro q hq
        simp only []
        rw [upd_other _ _ _ _ (by omega)]
        exact ht q (by omega)

/-- Worse, the TID can be 65536, which is none: its encoding in two bytes is 0. -/
theorem C52_overflow_false : ∃ l s', (start fun _ => 0).exec l = some s' ∧ s'.pc 1 = .out false 100000 ∧ s'.tid 100000 = 65536 := by
  obtain ⟨s, e, hc, hp, ht⟩ := sendMany_run 65534 (by omega)
  have hrun : ∃ s', s.exec ([(1, .send 100000)] ++ turns 1 4 ++ [(0, .send 100001)] ++ turns 0 3 ++ turns 1 2) = some s' ∧
      s'.pc 1 = .out false 100000 ∧ s'.tid 100000 = 65536 := by
    have : s.exec ([(1, .send 100000)] ++ turns 1 4 ++ [(0, .send 100001)] ++ turns 0 3 ++ turns 1 2) = some
        { s with
          pc := upd (upd (upd (upd (upd (upd (upd (upd (upd (upd (upd s.pc 1 (.chk false 100000)) 1 (.ld false 100000)) 1 (.st false 100000 65534)) 1
            (.cmp false 100000)) 1 (.ret false 100000)) 0 (.chk false 100001)) 0 (.ld false 100001)) 0 (.st false 100001 65535)) 0
            (.cmp false 100001)) 1 (.set false 100000 65536)) 1 (.out false 100000),
          counter := 65536, assigned := s.assigned ++ [65536], tid := upd s.tid 100000 65536 } := by
      simp [turns, List.replicate, Sys.exec, Sys.step, Sys.goto, Sys.goOn, hp, PC.free, ht 100000 (by omega), ht 100001 (by omega), hc, upd]
    refine ⟨_, this, ?_, ?_⟩
    · simp
    · simp
  obtain ⟨s', h1, h2⟩ := hrun
  refine ⟨sendMany 65534 ++ ([(1, .send 100000)] ++ turns 1 4 ++ [(0, .send 100001)] ++ turns 0 3 ++ turns 1 2), s', ?_, h2⟩
  rw [exec_append, e]
  exact h1

end Uecho.Conc
