/- C94: `post_message` in a callback. -/
import Verif.Lemmas.Callback
import Verif.Props.Post

namespace Uecho.Conc

/-- C94 is false. After any past (`l0`), a callback calls `post_message` in thread i, and no other thread handles a message or
receives one before it returns: then it returns None, whatever the other threads do and although the response may wait in the
socket of thread i. -/
theorem C94_own_thread_false {i q : Nat} {tids : Nat → Int} {s s' : Sys} {l0 l : List (Nat × Act)} (h0 : ({ tid := tids } : Sys).exec l0 = some s)
    (hq : ∀ t, t ≠ i → ¬ Receives (s.pc t)) (hr : ∀ t m, (t, Act.recv m) ∈ l → t = i) (hn : ∀ q, (i, Act.post q) ∉ l ∧ (i, Act.send q) ∉ l)
    (he : s.exec ((i, .post q) :: l) = some s') (q' : Nat) (r : Option Msg) (hd : s'.pc i = .done q' r) : r = none := by
  have ht : Tidy s := Tidy.exec l0 (s := { tid := tids }) ⟨Nat.zero_lt_one, fun _ _ => rfl, fun _ => True.intro⟩ h0
  unfold Sys.exec at he
  split at he
  · cases he
  · rename_i s1 h1
    have h0 : Deaf i s.next s1 := by
      simp only [Sys.step] at h1
      split at h1
      · cases h1
        refine ⟨⟨Nat.le_refl _, Nat.lt_succ_self _⟩, ?_, ?_, ?_⟩
        · intro n hk
          show (upd s.slots s.next {} n).resp = none
          unfold upd
          split
          · rfl
          · rw [ht.slots n hk]
        · show Posting s.next (upd s.pc i (.load1 q) i)
          unfold upd; rw [if_pos rfl]; trivial
        · intro t ht
          show ¬ Receives (upd s.pc i (.load1 q) t)
          unfold upd; rw [if_neg ht]; exact hq t ht
      · cases h1
    have := (h0.exec l hr hn he).me
    rw [hd] at this
    exact this

/-- Thread 7 has handled a message and posts from a callback; thread 1 sends meanwhile; the wait times out. -/
example : ∃ s s' r, ({} : Sys).exec ([(7, .recv m5)] ++ runs 7 2) = some s ∧
    s.exec ((7, .post 0) :: (runs 7 2 ++ [(1, .send 1)] ++ runs 1 2 ++ runs 7 6 ++ [(7, .sent)] ++ runs 7 2 ++ [(7, .timeout)] ++ runs 7 4)) = some s' ∧
    s'.pc 7 = .done 0 r := ⟨_, _, _, rfl, rfl, rfl⟩

/-- C94 (what holds): if the response is received by another thread than the posting one, and handled before that returns, a message
with the TID of the request is returned. Missing: `C94_own_thread_false`. -/
theorem C94_other_thread_partial {i q k : Nat} {s s1 s2 s3 : Sys} {l1 l2 l3 : List (Nat × Act)} {m : Msg}
    (h : LonePost i q s (l1 ++ (k, .recv m) :: (l2 ++ l3)))
    (e1 : s.exec ((i, .post q) :: l1) = some s1) (h1 : Ready (s1.pc i)) (hm : m.tid = s1.tid q)
    (e2 : s1.exec ((k, .recv m) :: l2) = some s2) (h2 : Ready (s2.pc i)) (hk : s2.pc k = .idle)
    (e3 : s2.exec l3 = some s3) (hno : (i, Act.refused) ∉ l3) (q' : Nat) (r : Option Msg) (hd : s3.pc i = .done q' r) :
    k ≠ i ∧ r ≠ none := by
  refine ⟨(h.others (k, .recv m) (List.mem_append_right _ List.mem_cons_self)).1, ?_⟩
  obtain ⟨m', hm', -⟩ := C65_returns h e1 h1 hm e2 h2 hk e3 hno q' r hd
  rw [hm']
  exact Option.some_ne_none _

end Uecho.Conc
