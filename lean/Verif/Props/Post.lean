/- Properties C64–C66, C85 and C86: `post_message` among other threads. -/
import Verif.Lemmas.Post

namespace Uecho.Conc

/-- A post of q by thread i that begins when no other thread posts, handles a message or sends q, and what
happens besides it: anything but other posts and other uses of q; received messages do not have TID 0 unless the
request came with a TID. -/
structure LonePost (i q : Nat) (s : Sys) (l : List (Nat × Act)) : Prop where
  quiet : ∀ t, t ≠ i → Bystander q (s.pc t)
  others : ∀ x ∈ l, Fits i q (fun m => s.tid q ≠ 0 ∨ m.tid ≠ 0) x

/-- C64 for a lone post: the message returned was received meanwhile and has the TID of the request. -/
theorem C64_own_partial {i q : Nat} {s s' : Sys} {l : List (Nat × Act)} (h : LonePost i q s l)
    (he : s.exec ((i, .post q) :: l) = some s') (q' : Nat) (m : Msg) (hd : s'.pc i = .done q' (some m)) :
    m.tid = s'.tid q ∧ ∃ t, (t, Act.recv m) ∈ l := by
  unfold Sys.exec at he
  split at he
  · cases he
  · rename_i s1 h1
    have hi := inv_post (pos := fun m => (s.tid q ≠ 0 ∨ m.tid ≠ 0) ∧ ∃ t, (t, Act.recv m) ∈ l) h.quiet h1
    have := inv_exec (fun m hm => hm.1) l hi (fun x hx => by
      have hf := h.others x hx
      obtain ⟨t, a⟩ := x
      cases a <;> simp only [Fits] at hf ⊢ <;> try exact hf
      exact ⟨hf.1, hf.2, t, hx⟩) he
    have hp := this.poster
    rw [hd] at hp
    have hm := hp.2.2 m rfl
    exact ⟨hm.1.1, hm.2.2⟩

/-- C66 for a lone post: no thread that handles a message raises. -/
theorem C66_survive_partial {i q : Nat} {s s' : Sys} {l : List (Nat × Act)} (h : LonePost i q s l)
    (he : s.exec ((i, .post q) :: l) = some s') (t : Nat) : s'.pc t ≠ .crashed := by
  unfold Sys.exec at he
  split at he
  · cases he
  · rename_i s1 h1
    have := inv_exec (fun m hm => hm) l (inv_post h.quiet h1) h.others he
    intro e
    by_cases ht : t = i
    · have hp := this.poster
      rw [← ht, e] at hp
      exact hp
    · have hp := this.others t ht
      rw [e] at hp
      exact hp

/-- Messages with TID 5, 6, 0. -/
def m5 : Msg := { tid := 5, esv := 0x72 }
def m5' : Msg := { tid := 5, esv := 0x71 }
def m6 : Msg := { tid := 6, esv := 0x72 }
def m0 : Msg := { tid := 0, esv := 0x72 }

/-- Message objects 0 and 1 have TID 5 and 6, the others 0. -/
def s56 : Sys := { tid := fun q => if q = 0 then 5 else if q = 1 then 6 else 0 }

def runs (t n : Nat) : List (Nat × Act) := List.replicate n (t, .run)

/-- A successful lone post: sent, waiting, the response comes, woken up. -/
def exPost : List (Nat × Act) :=
  runs 0 3 ++ [(0, .sent)] ++ runs 0 2 ++ [(7, .recv m6), (8, .recv m5)] ++ runs 7 6 ++ runs 8 11 ++ runs 0 5

example : LonePost 0 0 s56 exPost ∧ ∃ s', s56.exec ((0, .post 0) :: exPost) = some s' ∧ s'.pc 0 = .done 0 (some m5) := by
  refine ⟨⟨fun t _ => trivial, ?_⟩, _, rfl, rfl⟩
  intro x hx
  simp only [exPost, runs, List.replicate, List.cons_append, List.nil_append, List.mem_cons, List.not_mem_nil, or_false] at hx
  rcases hx with rfl | rfl | rfl | rfl | rfl | rfl | rfl | rfl | hx
  iterate 6 exact trivial
  · exact ⟨by decide, Or.inl (by decide)⟩
  · exact ⟨by decide, Or.inl (by decide)⟩
  · rcases hx with rfl | rfl | rfl | rfl | rfl | rfl | rfl | rfl | rfl | rfl | rfl | rfl | rfl | rfl | rfl | rfl | rfl | rfl | rfl | rfl | rfl | rfl <;> exact trivial

/-- C64 as stated is false: of two threads posting at the same time, one gets the other's response. -/
theorem C64_two_posters_false : ∃ l s' m, s56.exec l = some s' ∧ s'.pc 0 = .done 0 (some m) ∧ m.tid = 6 ∧ s'.tid 0 = 5 :=
  ⟨[(0, .post 0)] ++ runs 0 3 ++ [(0, .sent)] ++ runs 0 2 ++ [(1, .post 1)] ++ runs 1 3 ++ [(1, .sent)] ++ [(7, .recv m6)] ++ runs 7 11 ++ runs 0 5,
    _, m6, rfl, rfl, rfl, rfl⟩

/-- C64 is false also of a single posting thread: a late response to the post before, being handled while the next
one begins, is returned as its response. -/
theorem C64_late_false : ∃ l s' m, s56.exec l = some s' ∧ (∀ t q, (t, Act.post q) ∈ l → t = 0) ∧
    s'.pc 0 = .done 1 (some m) ∧ m.tid = 5 ∧ s'.tid 1 = 6 := by
  refine ⟨[(0, .post 0)] ++ runs 0 3 ++ [(0, .sent)] ++ runs 0 2 ++ [(7, .recv m5)] ++ runs 7 6 ++ [(0, .timeout)] ++ runs 0 4 ++
    [(0, .post 1)] ++ runs 7 5 ++ runs 0 3 ++ [(0, .sent)] ++ runs 0 2 ++ [(0, .timeout)] ++ runs 0 4, _, m5, rfl, ?_, rfl, rfl, rfl⟩
  intro t q h
  simp [runs] at h
  rcases h with h | h
  · exact h.1
  · exact h.1

/-- C64 is false also of a single post of a message without TID: a message with TID 0 that is handled before the
request gets its TID is returned. -/
theorem C64_zero_false : ∃ l s' m, ({} : Sys).exec l = some s' ∧ (l.filter fun x => match x.2 with | .post _ => true | _ => false).length = 1 ∧
    s'.pc 0 = .done 0 (some m) ∧ m.tid = 0 ∧ s'.tid 0 = 1 :=
  ⟨[(0, .post 0)] ++ runs 0 2 ++ [(7, .recv m0)] ++ runs 7 11 ++ runs 0 6 ++ [(0, .sent)] ++ runs 0 2 ++ [(0, .timeout)] ++ runs 0 4, _, m0,
    rfl, rfl, rfl, rfl, rfl⟩

/-- C66 as stated is false, even with one posting thread: a thread handling a message (any message) that found an
expired post waiting raises when the next post begins. -/
theorem C66_crash_false (m : Msg) : ∃ l s', s56.exec l = some s' ∧ (∀ t q, (t, Act.post q) ∈ l → t = 0) ∧
    (∀ t m', (t, Act.recv m') ∈ l → m' = m) ∧ s'.pc 7 = .crashed := by
  refine ⟨[(0, .post 0)] ++ runs 0 3 ++ [(0, .sent)] ++ runs 0 2 ++ [(0, .timeout)] ++ runs 0 4 ++ [(7, .recv m)] ++ runs 7 3 ++ [(0, .post 1)] ++ runs 7 2,
    _, rfl, ?_, ?_, rfl⟩
  · intro t q h
    simp [runs] at h
    rcases h with h | h
    · exact h.1
    · exact h.1
  · intro t q h
    simp [runs] at h
    exact h.2

/-! ### The response is returned -/

/-- C65. Once the request has its TID (`s1`), a message with this TID is received by a thread; when the thread is
through with it (`s2`), the posting thread has not returned yet, be it sending, about to wait, waiting, or done
waiting. Then, unless sending fails, what is returned is a message with the TID. -/
theorem C65_returns {i q k : Nat} {s s1 s2 s3 : Sys} {l1 l2 l3 : List (Nat × Act)} {m : Msg}
    (h : LonePost i q s (l1 ++ (k, .recv m) :: (l2 ++ l3)))
    (e1 : s.exec ((i, .post q) :: l1) = some s1) (h1 : Ready (s1.pc i)) (hm : m.tid = s1.tid q)
    (e2 : s1.exec ((k, .recv m) :: l2) = some s2) (h2 : Ready (s2.pc i)) (hk : s2.pc k = .idle)
    (e3 : s2.exec l3 = some s3) (hno : (i, Act.refused) ∉ l3) (q' : Nat) (r : Option Msg) (hd : s3.pc i = .done q' r) :
    ∃ m', r = some m' ∧ m'.tid = s1.tid q := by
  have hf1 : ∀ x ∈ l1, Fits i q (fun m => s.tid q ≠ 0 ∨ m.tid ≠ 0) x := fun x hx => h.others x (List.mem_append_left _ hx)
  have hfm := h.others (k, .recv m) (List.mem_append_right _ List.mem_cons_self)
  have hf2 : ∀ x ∈ l2, Fits i q (fun m => s.tid q ≠ 0 ∨ m.tid ≠ 0) x := fun x hx =>
    h.others x (List.mem_append_right _ (List.mem_cons_of_mem _ (List.mem_append_left _ hx)))
  have hf3 : ∀ x ∈ l3, Fits i q (fun m => s.tid q ≠ 0 ∨ m.tid ≠ 0) x := fun x hx =>
    h.others x (List.mem_append_right _ (List.mem_cons_of_mem _ (List.mem_append_right _ hx)))
  unfold Sys.exec at e1
  split at e1
  · cases e1
  · rename_i s0 h0
    have i1 := inv_exec (fun m hm => hm) l1 (inv_post h.quiet h0) hf1 e1
    have p1 : Post2 (fun m => s.tid q ≠ 0 ∨ m.tid ≠ 0) i q s.next (s.tid q) (s1.tid q) s1 := ⟨i1, h1.late, rfl⟩
    unfold Sys.exec at e2
    split at e2
    · cases e2
    · rename_i s1' h1'
      have p1' := post2_step (fun m hm => hm) p1 k (.recv m) hfm h1'
      have hh : Handling m s.next q (s1'.pc k) := by
        simp only [Sys.step] at h1'
        split at h1'
        · cases h1'; simp [Sys.goto, Handling]
        · cases h1'
      obtain ⟨p2, k2⟩ := post2_exec (fun m hm => hm) (fun x => Handling m s.next q (x.pc k) ∨ (x.slots s.next).resp.isSome = true) (fun _ => True)
        (by
          intro x x' t a hx hP hf _ he
          rcases hP with hP | hP
          · by_cases htk : t = k
            · subst htk
              rcases handling_step hx.inv hx.late t m (hx.tid.trans hm.symm) hP a he with hP | hP | ⟨hP, hP'⟩
              · exact Or.inl hP
              · right; rw [hP]; rfl
              · right; rw [hP]; exact hP'
            · left
              by_cases hti : t = i
              · subst hti
                rw [(late_poster hx.inv hx.late a hf he).2.2.2.1 k (fun e => htk e.symm)]
                exact hP
              · rw [(late_other hx.inv t hti a hf he).2.2.1 k (fun e => htk e.symm)]
                exact hP
          · exact Or.inr (resp_some_step hx hP t a hf he))
        l2 p1' (Or.inl hh) hf2 (fun _ _ => trivial) e2
      have k2 : (s2.slots s.next).resp.isSome = true := by
        rcases k2 with k2 | k2
        · rw [hk] at k2; exact absurd k2 id
        · exact k2
      obtain ⟨p3, -, k3⟩ := post2_exec (fun m hm => hm)
        (fun x => (x.slots s.next).resp.isSome = true ∧ ∀ q' r, x.pc i = .done q' r → r.isSome = true) (fun x => x ≠ (i, .refused))
        (by
          intro x x' t a hx hP hf hok he
          refine ⟨resp_some_step hx hP.1 t a hf he, ?_⟩
          by_cases hti : t = i
          · subst hti
            intro q' r hd
            rcases (late_poster hx.inv hx.late a hf he).2.2.2.2 q' r hd with e | e
            · rw [e]; exact hP.1
            · exact absurd (by rw [e]) hok
          · rw [(late_other hx.inv t hti a hf he).1]
            exact hP.2)
        l3 p2 ⟨k2, by intro q' r e; rw [e] at h2; exact absurd h2 id⟩ hf3 (fun x hx e => hno (e ▸ hx)) e3
      obtain ⟨m', hm'⟩ := Option.isSome_iff_exists.mp (k3 q' r hd)
      refine ⟨m', hm', ?_⟩
      have hp := p3.inv.poster
      rw [hd] at hp
      have := (hp.2.2 m' hm').1.1
      rw [this, p3.tid]

/-- The response is handled before the posting thread begins to wait. -/
example : ∃ s1 s2 s3 q' r, LonePost 0 0 s56 (runs 0 3 ++ [(0, .sent)] ++ (7, .recv m5) :: (runs 7 11 ++ (runs 0 2 ++ [(0, .timeout)] ++ runs 0 4))) ∧
    s56.exec ((0, .post 0) :: (runs 0 3 ++ [(0, .sent)])) = some s1 ∧ Ready (s1.pc 0) ∧ m5.tid = s1.tid 0 ∧
    s1.exec ((7, .recv m5) :: runs 7 11) = some s2 ∧ Ready (s2.pc 0) ∧ s2.pc 7 = .idle ∧
    s2.exec (runs 0 2 ++ [(0, .timeout)] ++ runs 0 4) = some s3 ∧ s3.pc 0 = .done q' r := by
  refine ⟨_, _, _, _, _, ⟨fun t _ => trivial, ?_⟩, rfl, trivial, rfl, rfl, trivial, rfl, rfl, rfl⟩
  intro x hx
  simp only [runs, List.replicate, List.cons_append, List.nil_append, List.mem_cons, List.not_mem_nil, or_false] at hx
  rcases hx with rfl | rfl | rfl | rfl | rfl | hx
  iterate 4 exact trivial
  · exact ⟨by decide, Or.inl (by decide)⟩
  · rcases hx with rfl | rfl | rfl | rfl | rfl | rfl | rfl | rfl | rfl | rfl | rfl | rfl | rfl | rfl | rfl | rfl | rfl | rfl <;> exact trivial

/-! ### The first response -/

/-- C85 with a single receiving thread k: if m, with the TID of the request, is received once the request has its TID
and no message with this TID has been received before (since the post began), then m is what is returned,
whatever is received later. -/
theorem C85_first_partial {i q k : Nat} {s s1 s2 s3 : Sys} {l1 l2 l3 : List (Nat × Act)} {m : Msg}
    (h : LonePost i q s (l1 ++ (k, .recv m) :: (l2 ++ l3)))
    (hone : ∀ t m', (t, Act.recv m') ∈ l1 ++ (k, .recv m) :: (l2 ++ l3) → t = k)
    (e1 : s.exec ((i, .post q) :: l1) = some s1) (h1 : Ready (s1.pc i)) (hm : m.tid = s1.tid q)
    (hfirst : ∀ t m', (t, Act.recv m') ∈ l1 → m'.tid ≠ m.tid)
    (e2 : s1.exec ((k, .recv m) :: l2) = some s2) (h2 : Ready (s2.pc i)) (hk : s2.pc k = .idle)
    (e3 : s2.exec l3 = some s3) (hno : (i, Act.refused) ∉ l3) (q' : Nat) (r : Option Msg) (hd : s3.pc i = .done q' r) :
    r = some m := by
  have hf1 : ∀ x ∈ l1, Fits i q (fun m => s.tid q ≠ 0 ∨ m.tid ≠ 0) x := fun x hx => h.others x (List.mem_append_left _ hx)
  have hfm := h.others (k, .recv m) (List.mem_append_right _ List.mem_cons_self)
  have hki : k ≠ i := hfm.1
  have hf2 : ∀ x ∈ l2, Fits i q (fun m => s.tid q ≠ 0 ∨ m.tid ≠ 0) x := fun x hx =>
    h.others x (List.mem_append_right _ (List.mem_cons_of_mem _ (List.mem_append_left _ hx)))
  have hf3 : ∀ x ∈ l3, Fits i q (fun m => s.tid q ≠ 0 ∨ m.tid ≠ 0) x := fun x hx =>
    h.others x (List.mem_append_right _ (List.mem_cons_of_mem _ (List.mem_append_right _ hx)))
  have ho2 : ∀ x ∈ l2, ∀ t m', x = (t, Act.recv m') → t = k := fun x hx t m' e =>
    hone t m' (List.mem_append_right _ (List.mem_cons_of_mem _ (List.mem_append_left _ (e ▸ hx))))
  have ho3 : ∀ x ∈ l3, ∀ t m', x = (t, Act.recv m') → t = k := fun x hx t m' e =>
    hone t m' (List.mem_append_right _ (List.mem_cons_of_mem _ (List.mem_append_right _ (e ▸ hx))))
  -- nobody else receives
  have hnr : ∀ u, u ≠ k → ¬ Receiving (s1.pc u) := by
    intro u hu
    unfold Sys.exec at e1
    split at e1
    · cases e1
    · rename_i s0 h0
      refine not_receiving_exec u l1 e1 ?_ (fun m' hm' => hu (hone u m' (List.mem_append_left _ hm')))
      by_cases hui : u = i
      · subst hui
        have := (inv_post (pos := fun _ => True) h.quiet h0).poster
        intro hr
        generalize s0.pc u = p at this hr
        cases p <;> simp only [Receiving, PosterOK] at this hr
      · refine not_receiving_step i (.post q) h0 u ?_ (fun m' e => by cases e)
        have := h.quiet u hui
        intro hr
        generalize s.pc u = p at this hr
        unfold Bystander at this
        cases p <;> simp only [Receiving, OtherOK, Match, false_and, and_false] at this hr
  -- no response yet
  have hnone : (s1.slots s.next).resp = none := by
    unfold Sys.exec at e1
    split at e1
    · cases e1
    · rename_i s0 h0
      have hi := inv_post (pos := fun m => (s.tid q ≠ 0 ∨ m.tid ≠ 0) ∧ ∃ t, (t, Act.recv m) ∈ l1) h.quiet h0
      have := inv_exec (fun m hm => hm.1) l1 hi (fun x hx => by
        have hf := hf1 x hx
        obtain ⟨t, a⟩ := x
        cases a <;> simp only [Fits] at hf ⊢ <;> try exact hf
        exact ⟨hf.1, hf.2, t, hx⟩) e1
      cases hre : (s1.slots s.next).resp with
      | none => rfl
      | some m' =>
        obtain ⟨⟨x1, -⟩, -, t, x3⟩ := this.resp m' hre
        exact absurd (x1.trans hm.symm) (hfirst t m' x3)
  unfold Sys.exec at e1
  split at e1
  · cases e1
  · rename_i s0 h0
    have i1 := inv_exec (fun m hm => hm) l1 (inv_post h.quiet h0) hf1 e1
    have p1 : Post2 (fun m => s.tid q ≠ 0 ∨ m.tid ≠ 0) i q s.next (s.tid q) (s1.tid q) s1 := ⟨i1, h1.late, rfl⟩
    unfold Sys.exec at e2
    split at e2
    · cases e2
    · rename_i s1' h1'
      have p1' := post2_step (fun m hm => hm) p1 k (.recv m) hfm h1'
      have hh : Handling m s.next q (s1'.pc k) ∧ (s1'.slots s.next).resp = none := by
        simp only [Sys.step] at h1'
        split at h1'
        · cases h1'; exact ⟨by simp [Sys.goto, Handling], hnone⟩
        · cases h1'
      have hnr1 : ∀ u, u ≠ k → ¬ Receiving (s1'.pc u) := fun u hu =>
        not_receiving_step k _ h1' u (hnr u hu) (fun m' e => hu (by injection e with e _; exact e.symm))
      have keep : ∀ x x' t a, Post2 (fun m => s.tid q ≠ 0 ∨ m.tid ≠ 0) i q s.next (s.tid q) (s1.tid q) x →
          ((∀ u, u ≠ k → ¬ Receiving (x.pc u)) ∧ ((Handling m s.next q (x.pc k) ∧ (x.slots s.next).resp = none) ∨
            ((x.slots s.next).resp = some m ∧ ¬ Storing (x.pc k)))) →
          Fits i q (fun m => s.tid q ≠ 0 ∨ m.tid ≠ 0) (t, a) → (∀ t' m', (t, a) = (t', Act.recv m') → t' = k) → x.step t a = some x' →
          ((∀ u, u ≠ k → ¬ Receiving (x'.pc u)) ∧ ((Handling m s.next q (x'.pc k) ∧ (x'.slots s.next).resp = none) ∨
            ((x'.slots s.next).resp = some m ∧ ¬ Storing (x'.pc k)))) := by
        intro x x' t a hx hP hf hok he
        refine ⟨fun u hu => not_receiving_step t a he u (hP.1 u hu) (fun m' e => hu (hok u m' e)), ?_⟩
        -- only k stores
        have hother : t ≠ k → x'.pc k = x.pc k ∧ (x'.slots s.next).resp = (x.slots s.next).resp := by
          intro htk
          by_cases hti : t = i
          · subst hti
            obtain ⟨-, -, z3, z4, -⟩ := late_poster hx.inv hx.late a hf he
            exact ⟨z4 k hki, by rw [z3]⟩
          · obtain ⟨-, -, z3, z4⟩ := late_other hx.inv t hti a hf he
            refine ⟨z3 k (fun e => htk e.symm), ?_⟩
            rcases z4 with z4 | ⟨m', z4, -⟩
            · exact z4
            · exact absurd (by rw [z4]; exact trivial) (hP.1 t htk)
        by_cases htk : t = k
        · subst htk
          rcases hP.2 with ⟨hP1, hP2⟩ | ⟨hP1, hP2⟩
          · have hlo := (late_other hx.inv t hki a hf he).2.2.2
            rcases handling_step hx.inv hx.late t m (hx.tid.trans hm.symm) hP1 a he with z | z | ⟨-, z⟩
            · left
              refine ⟨z, ?_⟩
              rcases hlo with e | ⟨m', e, e'⟩
              · rw [e]; exact hP2
              · exfalso
                rw [e] at hP1
                cases a <;> simp only [Sys.step, e, PC.free, Bool.false_eq_true, if_false, Sys.goOn, reduceCtorEq] at he
                cases he
                simp [Sys.goto, Handling] at z
            · right
              refine ⟨z, ?_⟩
              have hr7 : ∃ m', x.pc t = .r7 m' s.next := by
                rcases hlo with e | ⟨m', e, -⟩
                · rw [e, hP2] at z; cases z
                · exact ⟨m', e⟩
              obtain ⟨m', e⟩ := hr7
              cases a <;> simp only [Sys.step, e, PC.free, Bool.false_eq_true, if_false, Sys.goOn, reduceCtorEq] at he
              cases he
              simp [Sys.goto, Storing]
            · rw [hP2] at z; cases z
          · right
            refine ⟨?_, storing_step hx t hki (by rw [hP1]; rfl) hP2 a he⟩
            rcases (late_other hx.inv t hki a hf he).2.2.2 with e | ⟨m', e, -⟩
            · rw [e]; exact hP1
            · rw [e] at hP2; exact absurd trivial hP2
        · obtain ⟨z1, z2⟩ := hother htk
          rw [z1, z2]
          exact hP.2
      obtain ⟨p2, n2, k2⟩ := post2_exec (fun m hm => hm) _ (fun x => ∀ t' m', x = (t', Act.recv m') → t' = k) keep
        l2 p1' ⟨hnr1, Or.inl hh⟩ hf2 (fun x hx => ho2 x hx) e2
      have k2' : (s2.slots s.next).resp = some m := by
        rcases k2 with ⟨k2, -⟩ | ⟨k2, -⟩
        · rw [hk] at k2; exact absurd k2 id
        · exact k2
      obtain ⟨p3, -, k3⟩ := post2_exec (fun m hm => hm)
        (fun x => ((∀ u, u ≠ k → ¬ Receiving (x.pc u)) ∧ ((x.slots s.next).resp = some m ∧ ¬ Storing (x.pc k))) ∧
          ∀ q' r, x.pc i = .done q' r → r = some m)
        (fun x => x ≠ (i, .refused) ∧ ∀ t' m', x = (t', Act.recv m') → t' = k)
        (by
          intro x x' t a hx hP hf hok he
          have := keep x x' t a hx ⟨hP.1.1, Or.inr hP.1.2⟩ hf hok.2 he
          have hresp : (x'.slots s.next).resp = some m ∧ ¬ Storing (x'.pc k) := by
            rcases this.2 with ⟨-, z⟩ | z
            · have := resp_some_step hx (by rw [hP.1.2.1]; rfl) t a hf he
              rw [z] at this; cases this
            · exact z
          refine ⟨⟨this.1, hresp⟩, ?_⟩
          by_cases hti : t = i
          · subst hti
            intro q' r hd
            rcases (late_poster hx.inv hx.late a hf he).2.2.2.2 q' r hd with e | e
            · rw [e]; exact hP.1.2.1
            · exact absurd (by rw [e]) hok.1
          · rw [(late_other hx.inv t hti a hf he).1]
            exact hP.2)
        l3 p2 ⟨⟨n2, k2', by rw [hk]; exact id⟩, by intro q' r e; rw [e] at h2; exact absurd h2 id⟩ hf3
        (fun x hx => ⟨fun e => hno (e ▸ hx), ho3 x hx⟩) e3
      exact k3 q' r hd

/-- Two responses, one after the other, by the same thread. -/
example : ∃ s1 s2 s3 q' r, LonePost 0 0 s56 (runs 0 3 ++ [(0, .sent)] ++ (7, .recv m5) :: (runs 7 11 ++ ([(7, .recv m5')] ++ runs 7 3 ++ runs 0 2 ++ [(0, .timeout)] ++ runs 0 4))) ∧
    s56.exec ((0, .post 0) :: (runs 0 3 ++ [(0, .sent)])) = some s1 ∧ Ready (s1.pc 0) ∧ m5.tid = s1.tid 0 ∧
    s1.exec ((7, .recv m5) :: runs 7 11) = some s2 ∧ Ready (s2.pc 0) ∧ s2.pc 7 = .idle ∧
    s2.exec ([(7, .recv m5')] ++ runs 7 3 ++ runs 0 2 ++ [(0, .timeout)] ++ runs 0 4) = some s3 ∧ s3.pc 0 = .done q' r := by
  refine ⟨_, _, _, _, _, ⟨fun t _ => trivial, ?_⟩, rfl, trivial, rfl, rfl, trivial, rfl, rfl, rfl⟩
  intro x hx
  simp only [runs, List.replicate, List.cons_append, List.nil_append, List.mem_cons, List.not_mem_nil, or_false] at hx
  rcases hx with rfl | rfl | rfl | rfl | rfl | rfl | rfl | rfl | rfl | rfl | rfl | rfl | rfl | rfl | rfl | rfl | rfl | hx
  iterate 4 exact trivial
  · exact ⟨by decide, Or.inl (by decide)⟩
  iterate 11 exact trivial
  · exact ⟨by decide, Or.inl (by decide)⟩
  · rcases hx with rfl | rfl | rfl | rfl | rfl | rfl | rfl | rfl | rfl | rfl <;> exact trivial

/-- C85 as stated is false: with two receiving threads the first response, completely handled before the post ends, can
be overwritten by a later one. -/
theorem C85_overwritten_false : ∃ l s', s56.exec ([(0, .post 0)] ++ runs 0 3 ++ [(0, .sent)] ++ runs 0 2 ++ [(7, .recv m5)] ++ runs 7 6 ++
      [(8, .recv m5')] ++ runs 8 6 ++ runs 7 5 ++ l) = some s' ∧
    (∃ s1, s56.exec ([(0, .post 0)] ++ runs 0 3 ++ [(0, .sent)] ++ runs 0 2 ++ [(7, .recv m5)] ++ runs 7 6 ++
      [(8, .recv m5')] ++ runs 8 6 ++ runs 7 5) = some s1 ∧ (s1.slots s1.last).resp = some m5 ∧ s1.pc 7 = .idle ∧ s1.pc 0 = .waiting 0) ∧
    s'.pc 0 = .done 0 (some m5') :=
  ⟨runs 8 5 ++ runs 0 5, _, rfl, ⟨_, rfl, rfl, rfl, rfl⟩, rfl⟩

/-! ### Waking up -/

/-- C86 as stated is false: if the response is handled before the posting thread begins to wait, it waits although the
response is there, no thread is going to notify it, and nothing but the timeout makes it go on. -/
theorem C86_lost_false : ∃ l s', s56.exec l = some s' ∧ s'.pc 0 = .waiting 0 ∧ (s'.slots s'.last).resp = some m5 ∧
    (∀ t, t ≠ 0 → s'.pc t = .idle) ∧ ∀ a s'', s'.step 0 a = some s'' → a = .timeout := by
  refine ⟨[(0, .post 0)] ++ runs 0 3 ++ [(0, .sent)] ++ [(7, .recv m5)] ++ runs 7 11 ++ runs 0 2, _, rfl, rfl, rfl, ?_, ?_⟩
  · intro t ht
    by_cases h7 : t = 7
    · subst h7; rfl
    · refine pc_exec (s := s56) t ([(0, .post 0)] ++ runs 0 3 ++ [(0, .sent)] ++ [(7, .recv m5)] ++ runs 7 11 ++ runs 0 2) rfl ?_
      intro x hx
      simp only [runs, List.mem_append, List.mem_singleton, List.mem_replicate] at hx
      rcases hx with (((((rfl | ⟨-, rfl⟩) | rfl) | rfl) | ⟨-, rfl⟩) | ⟨-, rfl⟩)
      all_goals first | exact ht.symm | exact Ne.symm h7
  · intro a s'' h
    cases a with
    | timeout => rfl
    | run => cases h
    | post q => cases h
    | send q => cases h
    | recv m => cases h
    | sent => cases h
    | refused => cases h
    | sendRaises => cases h

/-- The posting thread has been waiting, or has done so. -/
def Waited : PC → Prop
  | .waiting _ => True
  | .reacq _ => True
  | .rel _ => True
  | .load2 _ => True
  | .rd _ _ => True
  | .done _ _ => True
  | .raised => True
  | _ => False

/-- A thread that is about to notify. -/
def Notifying (p : PC) : Prop := ∃ m, p = .r8 m ∨ p = .r9 m

/-- C86 for a lone post that waits before the response is stored: as long as it waits although the response is there,
either it can go on, or a thread is about to notify it and, whoever holds the condition, some other thread
can go on; and the notification makes the posting thread able to go on (below). -/
theorem C86_woken_partial {f : Nat → Int} {i q : Nat} {s s1 s2 : Sys} {l0 l1 l2 : List (Nat × Act)}
    (h0 : (start f).exec l0 = some s) (h : LonePost i q s (l1 ++ l2))
    (e1 : s.exec ((i, .post q) :: l1) = some s1) (hw1 : s1.pc i = .waiting q) (hr1 : (s1.slots s1.last).resp = none)
    (e2 : s1.exec l2 = some s2) (hw2 : s2.pc i = .waiting q) (hr2 : (s2.slots s2.last).resp ≠ none) :
    (∃ x, s2.step i .run = some x) ∨ (∃ k, k ≠ i ∧ Notifying (s2.pc k)) ∧ ∃ k x, k ≠ i ∧ s2.step k .run = some x := by
  have hf1 : ∀ x ∈ l1, Fits i q (fun m => s.tid q ≠ 0 ∨ m.tid ≠ 0) x := fun x hx => h.others x (List.mem_append_left _ hx)
  have hf2 : ∀ x ∈ l2, Fits i q (fun m => s.tid q ≠ 0 ∨ m.tid ≠ 0) x := fun x hx => h.others x (List.mem_append_right _ hx)
  have hsane1 := sane_exec _ (sane_exec _ (sane_start f) h0) e1
  unfold Sys.exec at e1
  split at e1
  · cases e1
  · rename_i s0 he0
    have i1 := inv_exec (fun m hm => hm) l1 (inv_post h.quiet he0) hf1 e1
    have p1 : Post2 (fun m => s.tid q ≠ 0 ∨ m.tid ≠ 0) i q s.next (s.tid q) (s1.tid q) s1 := ⟨i1, by rw [hw1]; exact trivial, rfl⟩
    rw [i1.last] at hr1
    obtain ⟨p2, hs2, -, k2⟩ := post2_exec (fun m hm => hm)
      (fun x => Sane x ∧ Waited (x.pc i) ∧ (Waits (x.pc i) → (x.slots s.next).resp ≠ none → i ∉ x.waiters ∨ ∃ k, k ≠ i ∧ Notifying (x.pc k)))
      (fun _ => True)
      (by
        intro x x' t a hx hP hf _ he
        have hs' := sane_step t a hP.1 he
        obtain ⟨p, hp, hl⟩ := lock_step t a he
        have hpt : x'.pc t = p := by rw [hp, upd_same]
        have hpu : ∀ u, u ≠ t → x'.pc u = x.pc u := fun u hu => by rw [hp, upd_other _ _ _ _ hu]
        refine ⟨hs', ?_⟩
        by_cases hti : t = i
        · -- the posting thread does not come back to waiting
          subst hti
          have hW := hP.2.1
          suffices hh : Waited (x'.pc t) ∧ ¬ Waits (x'.pc t) from ⟨hh.1, fun hw => absurd hw hh.2⟩
          cases a with
          | post q' => exact absurd hf id
          | send q' => exact absurd rfl hf.1
          | recv m => exact absurd rfl hf.1
          | sent =>
            simp only [Sys.step] at he
            split at he
            · rename_i w q' e; rw [e] at hW; exact absurd hW id
            · cases he
          | refused =>
            simp only [Sys.step] at he
            split at he
            · rename_i w q' e; rw [e] at hW; exact absurd hW id
            · cases he
          | sendRaises =>
            simp only [Sys.step] at he
            split at he
            · rename_i w q' e; rw [e] at hW; exact absurd hW id
            · cases he
          | timeout =>
            simp only [Sys.step] at he
            split at he
            · cases he; simp [Sys.goto, Waited, Waits]
            · cases he
          | run =>
            simp only [Sys.step] at he
            generalize x.pc t = pc at he hW
            cases pc <;> simp only [Waited] at hW <;> simp only [Sys.goOn] at he
            all_goals first | cases he | skip
            all_goals first | (split at he <;> cases he) | skip
            all_goals simp [Sys.goto, Waited, Waits]
        · have hpi := hpu i (fun e => hti e.symm)
          rw [hpi]
          refine ⟨hP.2.1, fun hw hr => ?_⟩
          -- at most the posting thread is waiting
          have honly : ∀ u ∈ x.waiters, u = i := by
            intro u hu
            by_contra hne
            have h1 := hP.1.waits u hu
            have h2 := hx.inv.others u hne
            generalize x.pc u = pu at h1 h2
            cases pu <;> first | exact h1 | exact h2
          have hnotify : ∀ k, k ≠ i → Notifying (x.pc k) → i ∉ x'.waiters ∨ ∃ k, k ≠ i ∧ Notifying (x'.pc k) := by
            intro k hk hn
            by_cases hkt : k = t
            · subst hkt
              obtain ⟨m, hn | hn⟩ := hn
              · right
                refine ⟨k, hk, m, Or.inr ?_⟩
                cases a <;> simp only [Sys.step, hn, PC.free, Bool.false_eq_true, if_false, Sys.goOn, reduceCtorEq] at he
                split at he
                · cases he; simp [Sys.goto]
                · cases he
              · left
                cases a <;> simp only [Sys.step, hn, PC.free, Bool.false_eq_true, if_false, Sys.goOn, reduceCtorEq] at he
                cases he
                show i ∉ x.waiters.tail
                have hnd := hP.1.nodup
                generalize x.waiters = ws at honly hnd
                cases ws with
                | nil => simp
                | cons w ws =>
                  have hwi := honly w List.mem_cons_self
                  rw [hwi, List.nodup_cons] at hnd
                  exact hnd.1
            · right
              exact ⟨k, hk, by rw [hpu k hkt]; exact hn⟩
          rcases (late_other hx.inv t hti a hf he).2.2.2 with e | ⟨m, e, -⟩
          · rw [e] at hr
            rcases hP.2.2 hw hr with hn | ⟨k, hk, hn⟩
            · left
              intro hmem
              cases hl with
              | plain h1 h2 => rw [h2] at hmem; exact hn hmem
              | acquire h0 h1 h2 => rw [h2] at hmem; exact hn hmem
              | wait h0 h1 h2 =>
                rw [h2, List.mem_append, List.mem_singleton] at hmem
                rcases hmem with hmem | hmem
                · exact hn hmem
                · exact hti hmem.symm
              | release h0 h1 h2 => rw [h2] at hmem; exact hn hmem
              | notify h0 h1 h2 => rw [h2] at hmem; exact hn (List.mem_of_mem_tail hmem)
              | timeout h0 h1 h2 => rw [h2] at hmem; exact hn (List.mem_of_mem_erase hmem)
            · exact hnotify k hk hn
          · right
            refine ⟨t, hti, m, Or.inl ?_⟩
            cases a <;> simp only [Sys.step, e, PC.free, Bool.false_eq_true, if_false, Sys.goOn, reduceCtorEq] at he
            cases he; simp [Sys.goto])
      l2 p1 ⟨hsane1, by rw [hw1]; exact trivial, fun _ hr => absurd hr1 hr⟩ hf2 (fun _ _ => trivial) e2
    rw [p2.inv.last] at hr2
    rcases k2 (by rw [hw2]; exact trivial) hr2 with hn | ⟨k, hk, hn⟩
    · left
      exact ⟨s2.goto i (.reacq q), by simp only [Sys.step, hw2, Sys.goOn]; rw [if_neg hn]⟩
    · right
      refine ⟨⟨k, hk, hn⟩, ?_⟩
      -- the holder of the condition, or else k
      cases hlock : s2.lock with
      | none =>
        obtain ⟨m, hn | hn⟩ := hn
        · exact ⟨k, _, hk, by simp only [Sys.step, hn, Sys.goOn]; rw [if_pos hlock]⟩
        · exact ⟨k, _, hk, by simp only [Sys.step, hn, Sys.goOn]; rfl⟩
      | some t =>
        have ht := (hs2.holds t).mp hlock
        have hti : t ≠ i := by rintro rfl; rw [hw2] at ht; exact ht
        refine ⟨t, ?_⟩
        generalize hpt : s2.pc t = pt at ht
        cases pt <;> first | exact absurd ht id | exact ⟨_, hti, by simp only [Sys.step, hpt, Sys.goOn]; rfl⟩

/-- The notification: after it the posting thread of a lone post can go on. -/
theorem C86_notified_partial {f : Nat → Int} {i q k : Nat} {s s1 s2 : Sys} {l0 l1 : List (Nat × Act)} {m : Msg}
    (h0 : (start f).exec l0 = some s) (h : LonePost i q s l1)
    (e1 : s.exec ((i, .post q) :: l1) = some s1) (hw : s1.pc i = .waiting q) (hk : s1.pc k = .r9 m)
    (e2 : s1.step k .run = some s2) : ∃ x, s2.step i .run = some x := by
  have hsane := sane_exec _ (sane_exec _ (sane_start f) h0) e1
  unfold Sys.exec at e1
  split at e1
  · cases e1
  · rename_i s0 he0
    have i1 := inv_exec (fun m hm => hm) l1 (inv_post h.quiet he0) h.others e1
    have honly : ∀ u ∈ s1.waiters, u = i := by
      intro u hu
      by_contra hne
      have h1 := hsane.waits u hu
      have h2 := i1.others u hne
      generalize s1.pc u = pu at h1 h2
      cases pu <;> first | exact h1 | exact h2
    have hki : i ≠ k := by rintro rfl; rw [hw] at hk; cases hk
    simp only [Sys.step, hk, Sys.goOn] at e2
    cases e2
    have hpi : ({ s1 with waiters := s1.waiters.tail }.goto k (.r10 m)).pc i = .waiting q := by
      simp only [Sys.goto]
      rw [upd_other _ _ _ _ hki]; exact hw
    refine ⟨({ s1 with waiters := s1.waiters.tail }.goto k (.r10 m)).goto i (.reacq q), ?_⟩
    · simp only [Sys.step, hpi, Sys.goOn]
      rw [if_neg]
      · show i ∉ s1.waiters.tail
        have hnd := hsane.nodup
        generalize s1.waiters = ws at honly hnd
        cases ws with
        | nil => simp
        | cons w ws =>
          have hwi := honly w List.mem_cons_self
          rw [hwi, List.nodup_cons] at hnd
          exact hnd.1

/-- Waiting, the response comes, and it is about to be notified. -/
example : ∃ s1 s2, LonePost 0 0 s56 ((runs 0 3 ++ [(0, .sent)] ++ runs 0 2) ++ ((7, .recv m5) :: runs 7 9)) ∧
    (start s56.tid).exec [] = some s56 ∧ s56.exec ((0, .post 0) :: (runs 0 3 ++ [(0, .sent)] ++ runs 0 2)) = some s1 ∧ s1.pc 0 = .waiting 0 ∧
    (s1.slots s1.last).resp = none ∧ s1.exec ((7, .recv m5) :: runs 7 9) = some s2 ∧ s2.pc 0 = .waiting 0 ∧
    (s2.slots s2.last).resp ≠ none ∧ s2.pc 7 = .r9 m5 := by
  refine ⟨_, _, ⟨fun t _ => trivial, ?_⟩, rfl, rfl, rfl, rfl, rfl, rfl, by exact nofun, rfl⟩
  intro x hx
  simp only [runs, List.replicate, List.cons_append, List.nil_append, List.mem_cons, List.not_mem_nil, or_false] at hx
  rcases hx with rfl | rfl | rfl | rfl | rfl | rfl | rfl | hx
  iterate 6 exact trivial
  · exact ⟨by decide, Or.inl (by decide)⟩
  · rcases hx with rfl | rfl | rfl | rfl | rfl | rfl | rfl | rfl | rfl <;> exact trivial

end Uecho.Conc
