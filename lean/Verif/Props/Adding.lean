/- C124: objects added by several threads at once. -/
import Verif.Lemmas.Adding
import Verif.Spec.Adding

namespace Uecho.Adding
open Spec

theorem describes_writes (l : List Int) {p : PProp} (hp : p ∈ writes l) : DescribesCodes p.code p.data l := by
  obtain ⟨m, hm, hw⟩ := writes_eq l
  have one : ∀ v : Int, beDigits v 1 = [byteOf v] := by
    intro v; rw [← fromInt_eq_beDigits, fromInt_succ]; simp [fromInt]
  rw [hw] at hp
  simp only [List.mem_cons, List.not_mem_nil, or_false] at hp
  rcases hp with rfl | rfl | rfl | rfl | rfl <;> simp [DescribesCodes, one]
  exact ⟨m, hm, rfl⟩

theorem describing_writes (l : List Int) (c : Int) : (∃ p ∈ writes l, p.code = c) ↔ Describing c := by
  obtain ⟨m, -, hw⟩ := writes_eq l
  rw [hw]
  simp only [List.mem_cons, List.not_mem_nil, or_false, exists_eq_or_imp, exists_eq_left, Describing]
  constructor
  · rintro (h | h | h | h | h) <;> simp [← h]
  · rintro (h | h | h | h | h) <;> simp [h]

/-- C124 (what holds). Whatever the threads do, at every moment each of the five properties describes the objects the node had at some earlier moment of the run, as a whole.
Missing: that they describe those it has once all `add_object` have returned (`C124_lost_false`), and that the five agree with each other (`C124_torn_false`). -/
theorem C124_lists_partial (es : List Ev) (pc : Int) (hpc : Describing pc) :
    ∃ fs, fs <+: es ∧ DescribesCodes pc ((run start es).data pc) (Dict.keys (run start fs).table) := by
  obtain ⟨l, hl, p, hp, hc, hd⟩ := (run_inv es).data pc ((describing_writes _ pc).mpr hpc)
  obtain ⟨fs, hfs, hk⟩ := was_moment es l hl
  refine ⟨fs, hfs, ?_⟩
  rw [hk, ← hd, ← hc]
  exact describes_writes l hp

/-- C124 (what holds). `add_object` of a thread that is not interrupted, called at any moment whatever other threads are in the middle of, returns True; the table has the object, and all
five properties describe the whole table. In particular objects added one after the other are all described. -/
theorem C124_alone_partial (es : List Ev) (i : Nat) (c : Int) (k : Nat) (h : (run start es).pc i = .idle ∨ ∃ r, (run start es).pc i = .done r) (n : Nat)
    (hn : (run start es).table.length + 11 ≤ n) :
    let s := run start (es ++ .call i c k :: List.replicate n (.go i))
    s.pc i = .done (.ok true) ∧ s.table = Dict.set (run start es).table c k ∧ (∀ j, j ≠ i → s.pc j = (run start es).pc j) ∧
      ∀ pc, Describing pc → DescribesCodes pc (s.data pc) (Dict.keys s.table) := by
  intro s
  have hlen : (Dict.set (run start es).table c k).length + 10 ≤ n := by
    have := congrArg List.length (Dict.keys_set (run start es).table c k)
    have e : ∀ d : Dict Int Nat, (Dict.keys d).length = d.length := fun d => by simp [Dict.keys]
    rw [e] at this
    split at this <;> (try rw [List.length_append]  at this) <;> rw [e] at this <;> (try simp only [List.length_cons, List.length_nil] at this) <;> omega
  obtain ⟨d, hd, hw⟩ := add_alone (run start es) i c k h n hlen
  have hs : s = _ := (run_append start es _).trans hd
  rw [hs]
  refine ⟨goto_self _ _ _, rfl, fun j hj => goto_other _ _ hj, ?_⟩
  intro pc hpc
  obtain ⟨p, hp, hc⟩ := (describing_writes (Dict.keys (Dict.set (run start es).table c k)) pc).mpr hpc
  show DescribesCodes pc (d pc) _
  rw [← hc, hw p hp]
  exact describes_writes _ hp

/-- Where the objects in the table come from. -/
theorem added_from (es : List Ev) : (∀ x ∈ (run start es).added, x = (0x0EF001, 0) ∨ ∃ j, .call j x.1 x.2 ∈ es) ∧
    ∀ i c k, (run start es).pc i = .store c k → ∃ j, .call j c k ∈ es := by
  induction es using List.reverseRecOn with
  | nil => exact ⟨fun x hx => Or.inl (by simpa [run, start] using hx), fun i c k h => by cases h⟩
  | append_singleton es e ih =>
    rw [run_append]
    show (∀ x ∈ (step (run start es) e).added, _) ∧ ∀ i c k, (step (run start es) e).pc i = _ → _
    generalize run start es = s at ih
    obtain ⟨h1, h2⟩ := ih
    have h1' : ∀ x ∈ s.added, x = (0x0EF001, 0) ∨ ∃ j, .call j x.1 x.2 ∈ es ++ [e] := by
      intro x hx
      rcases h1 x hx with h | ⟨j, h⟩
      · exact Or.inl h
      · exact Or.inr ⟨j, by simp [h]⟩
    have h2' : ∀ i c k, s.pc i = .store c k → ∃ j, .call j c k ∈ es ++ [e] := by
      intro i c k h
      obtain ⟨j, h⟩ := h2 i c k h
      exact ⟨j, by simp [h]⟩
    have key : ∀ (i : Nat) (p : Pc), (∀ c k, p = .store c k → ∃ j, .call j c k ∈ es ++ [e]) →
        ∀ j c k, (s.goto i p).pc j = .store c k → ∃ j, .call j c k ∈ es ++ [e] := by
      intro i p hp j c k h
      by_cases hj : j = i
      · subst hj; rw [goto_self] at h; exact hp c k h
      · rw [goto_other _ _ hj] at h; exact h2' j c k h
    cases e with
    | call i c k =>
      by_cases hp : s.pc i = .idle ∨ ∃ r, s.pc i = .done r
      · rw [step_call hp]
        exact ⟨h1', key i _ (by intro c' k' h; injection h with a b; subst a; subst b; exact ⟨i, by simp⟩)⟩
      · rw [step_busy hp]; exact ⟨h1', h2'⟩
    | go i =>
      cases hp : s.pc i with
      | idle => rw [step_idle (Or.inl hp)]; exact ⟨h1', h2'⟩
      | done r => rw [step_idle (Or.inr ⟨r, hp⟩)]; exact ⟨h1', h2'⟩
      | store c k =>
        rw [step_store hp]
        refine ⟨?_, key i _ (by intro c' k' h; cases h)⟩
        intro x hx
        rcases List.mem_append.mp hx with hx | hx
        · exact h1' x hx
        · rw [List.mem_singleton] at hx
          subst hx
          exact Or.inr (h2' i c k hp)
      | loop r =>
        cases r with
        | fresh => rw [step_loop hp id]; exact ⟨h1', key i _ (by intro c' k' h; cases h)⟩
        | inside pos used acc => rw [step_loop hp id]; exact ⟨h1', key i _ (by intro c' k' h; cases h)⟩
        | returned l => rw [step_returned hp]; exact ⟨h1', key i _ (by intro c' k' h; cases h)⟩
        | raised e => rw [step_raised hp]; exact ⟨h1', key i _ (by intro c' k' h; cases h)⟩
      | write t =>
        cases t with
        | nil => rw [step_written hp]; exact ⟨h1', key i _ (by intro c' k' h; cases h)⟩
        | cons p ps => rw [step_write hp]; exact ⟨h1', key i _ (by intro c' k' h; cases h)⟩

/-- A store is not forgotten. -/
theorem pending_kept (i : Nat) (c : Int) (k : Nat) (fs : List Ev) : ∀ s : St, (s.pc i = .store c k ∨ c ∈ Dict.keys s.table) →
    ((run s fs).pc i = .store c k ∨ c ∈ Dict.keys (run s fs).table) := by
  induction fs with
  | nil => intro s h; exact h
  | cons e fs ih =>
    intro s h
    rw [run_cons]
    apply ih
    have keep : c ∈ Dict.keys s.table → c ∈ Dict.keys (step s e).table := by
      intro hc
      rcases step_table s e with h | ⟨c', k', h⟩
      · rw [h]; exact hc
      · rw [h]; exact (keys_prefix _ _ _).subset hc
    rcases h with h | h
    · cases e with
      | call j c' k' =>
        left
        by_cases hp : s.pc j = .idle ∨ ∃ r, s.pc j = .done r
        · have hj : i ≠ j := by
            rintro rfl
            rcases hp with hp | ⟨r, hp⟩ <;> rw [h] at hp <;> cases hp
          rw [step_call hp, goto_other _ _ hj]; exact h
        · rw [step_busy hp]; exact h
      | go j =>
        by_cases hj : i = j
        · subst hj
          right
          rw [step_store h]
          show c ∈ Dict.keys (Dict.set s.table c k)
          rw [Dict.keys_set]
          split
          · assumption
          · simp
        · left
          cases hp : s.pc j with
          | idle => rw [step_idle (Or.inl hp)]; exact h
          | done r => rw [step_idle (Or.inr ⟨r, hp⟩)]; exact h
          | store c k => rw [step_store hp]; exact (goto_other s _ hj).trans h
          | loop r =>
            cases r with
            | fresh => rw [step_loop hp id]; exact (goto_other s _ hj).trans h
            | inside pos used acc => rw [step_loop hp id]; exact (goto_other s _ hj).trans h
            | returned l => rw [step_returned hp]; exact (goto_other s _ hj).trans h
            | raised e => rw [step_raised hp]; exact (goto_other s _ hj).trans h
          | write t =>
            cases t with
            | nil => rw [step_written hp]; exact (goto_other s _ hj).trans h
            | cons p ps => rw [step_write hp]; exact (goto_other s _ hj).trans h
    · exact Or.inr (keep h)

/-- The value under a key that was stored last. -/
theorem get_added (l : List (Int × Nat)) (c : Int) (k : Nat) (h : Dict.get? (l.foldl (fun d x => Dict.set d x.1 x.2) []) c = some k) : (c, k) ∈ l := by
  induction l using List.reverseRecOn with
  | nil => simp at h
  | append_singleton l x ih =>
    rw [List.foldl_append] at h
    simp only [List.foldl_cons, List.foldl_nil] at h
    rw [Dict.get?_set] at h
    split at h
    · rename_i e
      injection h with h
      subst h
      subst e
      simp
    · exact List.mem_append_left _ (ih h)

/-- C124 (what holds). Once an `add_object` is through, whether it returned or raised, and from then on, the node finds an object under its code, namely one some thread has added under
that code: the added one itself if nobody adds another with the same code. Missing: that it does not raise (`C124_raises_false`). -/
theorem C124_table_partial (es fs : List Ev) (i : Nat) (c : Int) (k : Nat) (r : Except Exc Bool)
    (h : (run start es).pc i = .idle ∨ ∃ r, (run start es).pc i = .done r)
    (hd : (run start (es ++ .call i c k :: fs)).pc i = .done r) :
    (r = .ok true ∨ r = .error .runtimeError) ∧
    (∃ k', Dict.get? (run start (es ++ .call i c k :: fs)).table c = some k' ∧ ((c, k') = (0x0EF001, 0) ∨ ∃ j, .call j c k' ∈ es ++ .call i c k :: fs)) ∧
    (c ≠ 0x0EF001 → (∀ j k', .call j c k' ∈ es ++ .call i c k :: fs → k' = k) → Dict.get? (run start (es ++ .call i c k :: fs)).table c = some k) := by
  have hin := run_inv (es ++ .call i c k :: fs)
  have hmem : c ∈ Dict.keys (run start (es ++ .call i c k :: fs)).table := by
    rcases pending_kept i c k fs (step (run start es) (.call i c k)) (Or.inl (by rw [step_call h]; exact goto_self _ _ _)) with hp | hp
    · rw [run_append, run_cons, hp] at hd; cases hd
    · rw [run_append, run_cons]; exact hp
  have hfrom := (added_from (es ++ .call i c k :: fs)).1
  generalize hS : run start (es ++ .call i c k :: fs) = S at *
  have hp := hin.pcs i
  rw [hd] at hp
  obtain ⟨k', hk'⟩ := Option.isSome_iff_exists.mp ((Dict.get?_isSome_iff S.table c).mpr hmem)
  have hmemA : (c, k') ∈ S.added := get_added S.added c k' (by rw [← hin.table]; exact hk')
  have hx := hfrom _ hmemA
  refine ⟨hp, ⟨k', hk', hx⟩, ?_⟩
  intro hc hall
  rcases hx with hx | ⟨j, hx⟩
  · injection hx with hx _; exact absurd hx hc
  · rw [hk', hall j k' hx]

/-! ### What fails, and examples -/

/-- Thread `i` goes on `n` times. -/
def gos (i n : Nat) : List Ev := List.replicate n (.go i)

/-- A thread has made its list of objects when another adds one; it writes the list afterwards. -/
def lostRun : List Ev := [.call 1 0x013001 1, .call 2 0x029001 2] ++ gos 1 5 ++ gos 2 14 ++ gos 1 7

/-- C124 (what fails). Two threads add an object each, both `add_object` return True and no thread is in one any more; the node has both objects, but its instance list has only one
of them, and a controller will never know of the other. -/
theorem C124_lost_false : (run start lostRun).pc 1 = .done (.ok true) ∧ (run start lostRun).pc 2 = .done (.ok true) ∧
    Dict.keys (run start lostRun).table = [0x0EF001, 0x013001, 0x029001] ∧ (run start lostRun).data 0xD6 = [1, 0x01, 0x30, 0x01] ∧
    ¬ DescribesCodes 0xD6 ((run start lostRun).data 0xD6) (Dict.keys (run start lostRun).table) := by
  have h : Dict.keys (run start lostRun).table = [0x0EF001, 0x013001, 0x029001] ∧ (run start lostRun).data 0xD6 = [1, 0x01, 0x30, 0x01] := by decide +kernel
  refine ⟨rfl, rfl, h.1, h.2, ?_⟩
  rw [h.1, h.2]
  intro hd
  exact absurd (hd.2.2.1 (Or.inr rfl)) (by decide +kernel)

/-- A thread is about to ask for the next object when another adds one. -/
def raisesRun : List Ev := [.call 1 0x013001 1, .call 2 0x029001 2] ++ gos 1 2 ++ gos 2 1 ++ gos 1 2

/-- C124 (what fails). `add_object` can raise `RuntimeError`, with the object in the table and not in the list. -/
theorem C124_raises_false : (run start raisesRun).pc 1 = .done (.error .runtimeError) ∧ Dict.get? (run start raisesRun).table 0x013001 = some 1 ∧
    (run start raisesRun).data 0xD6 = [0] := ⟨rfl, by decide +kernel, by decide +kernel⟩

/-- One thread is in the middle of `add_object`. -/
def tornRun : List Ev := .call 1 0x013001 1 :: gos 1 7

/-- C124 (what fails). A message received while an object is added can find one instance in the number of instances and none in the instance list. -/
theorem C124_torn_false : (run start tornRun).data 0xD3 = [0, 0, 1] ∧ (run start tornRun).data 0xD6 = [0] := by decide +kernel

/-- `C124_alone_partial` in the middle of the failing run: a third thread gets everything right, for now. -/
example : (run start ([.call 1 0x013001 1] ++ gos 1 5)).pc 3 = .idle ∧ (run start ([.call 1 0x013001 1] ++ gos 1 5)).table.length + 11 ≤ 13 ∧
    (run start (([.call 1 0x013001 1] ++ gos 1 5) ++ .call 3 0x029001 2 :: List.replicate 13 (.go 3))).data 0xD6 = [2, 0x01, 0x30, 0x01, 0x02, 0x90, 0x01] :=
  ⟨rfl, by decide +kernel, by decide +kernel⟩

/-- `C124_table_partial` where `add_object` raised. -/
example : (run start []).pc 1 = .idle ∧ (run start ([] ++ .call 1 0x013001 1 :: ([.call 2 0x029001 2] ++ gos 1 2 ++ gos 2 1 ++ gos 1 2))).pc 1 = .done (.error .runtimeError) :=
  ⟨rfl, rfl⟩

end Uecho.Adding
