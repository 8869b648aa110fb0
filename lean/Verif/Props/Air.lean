/- C131: controllers and devices on a network that loses, delays, duplicates and reorders datagrams: responses are fresh, and belong to the request. -/
import Verif.Lemmas.Air
import Verif.Props.Session

namespace Uecho
open Spec

/-- C131. Any number of controllers post orders or send them without waiting, the programs of the devices change data, and the network delivers any datagram ever sent at any time,
any number of times or never. The machines then can do what happens, in one way only; no receiving thread ends; the data of the devices is that of the mail's store; and the response a waiting
`post_message` finds is the one the mail has for it. -/
theorem C131_mail {ord : List Int → List Int} (hord : ValidOrder ord) {N : Nat} {K : Nat → Side} {L : Rights} {C : Ctls} {H : Machines} (hp : Prepared ord N K L C H)
    (es : List Ev) (ha : ∀ e ∈ es, L.Allow e) (hf : ({ store := H.store } : Mail).FairAll es) :
    ∃ P, Steps ord N K { C := C, H := H } es P ∧ (∀ P', Steps ord N K { C := C, H := H } es P' → P' = P) ∧ P.alive = true ∧
      P.H.store = (({ store := H.store } : Mail).run es).store ∧
      ∀ i, (({ store := H.store } : Mail).run es).cur i ≠ none →
        P.response i = ((({ store := H.store } : Mail).run es).resp i).map fun x => { x.2 with tid := 0, fromAddr := some (x.1, 3610) } := by
  have main : ∀ (es : List Ev) (X : Mail) (P : Place), Sim ord N K L (fun i => (C i).ln.mgr.tid) X P → (∀ e ∈ es, L.Allow e) → X.FairAll es →
      ∃ Q, Steps ord N K P es Q ∧ (∀ Q', Steps ord N K P es Q' → Q' = Q) ∧ Sim ord N K L (fun i => (C i).ln.mgr.tid) (X.run es) Q := by
    intro es
    induction es with
    | nil =>
      intro X P hs _ _
      refine ⟨P, .nil P, ?_, hs⟩
      intro Q' h
      cases h
      rfl
    | cons e es ih =>
      intro X P hs ha hf
      obtain ⟨Q, h1, h2⟩ := sim_step hord hs e (ha e List.mem_cons_self) hf.1
      obtain ⟨R, h3, h4, h5⟩ := ih _ _ h2 (fun x hx => ha x (List.mem_cons_of_mem _ hx)) hf.2
      refine ⟨R, .cons h1 h3, ?_, h5⟩
      intro Q' h
      cases h with
      | cons k1 k2 =>
        obtain rfl := step_unique hs.ready h1 k1
        exact h4 Q' k2
  obtain ⟨P, h1, h2, h3⟩ := main es { store := H.store } { C := C, H := H }
    ⟨rfl, .nil, fun i => by simp, fun i m h => absurd h (by simp), hp, rfl⟩ ha hf
  refine ⟨P, h1, h2, h3.alive, h3.store, ?_⟩
  intro i hi
  obtain ⟨m, hm⟩ := Option.ne_none_iff_exists'.mp hi
  obtain ⟨q, -, -, h6⟩ := h3.cur i m hm
  unfold Place.response
  rw [h6, Option.map_map]
  rfl

/-! ### What the mail guarantees -/

theorem run_append (X : Mail) (a b : List Ev) : X.run (a ++ b) = (X.run a).run b := List.foldl_append
theorem run_snoc (X : Mail) (a : List Ev) (e : Ev) : X.run (a ++ [e]) = (X.run a).step e := by rw [run_append]; rfl

/-- The answer `a` is one to the last order controller `i` has posted, given by the machine at `ip` when the order, posted before, had reached it. -/
def FreshAt (s : Store) (es : List Ev) (i : Nat) (ip : String) (a : Msg) : Prop :=
  ∃ pre o mid j rest, es = pre ++ Ev.post i o :: (mid ++ Ev.arrive j :: rest) ∧ (∀ o', Ev.post i o' ∉ mid ++ rest) ∧ ip = o.ip ∧
    (({ store := s } : Mail).run (pre ++ Ev.post i o :: mid)).air[j]? = some (.order i ((({ store := s } : Mail).run pre).count i) o) ∧
    (({ store := s } : Mail).run (pre ++ Ev.post i o :: mid)).store.reply o = some a

theorem fresh_snoc {s : Store} {es : List Ev} {i : Nat} {ip : String} {a : Msg} (h : FreshAt s es i ip a) (e : Ev) (he : ∀ o, e ≠ .post i o) : FreshAt s (es ++ [e]) i ip a := by
  obtain ⟨pre, o, mid, j, rest, h1, h2, h3, h4⟩ := h
  refine ⟨pre, o, mid, j, rest ++ [e], by rw [h1]; simp, ?_, h3, h4⟩
  intro o' hm
  rw [← List.append_assoc] at hm
  rcases List.mem_append.mp hm with hm | hm
  · exact h2 o' hm
  · exact he o' (List.mem_singleton.mp hm).symm

/-- The last order controller `i` has posted, by its number. -/
def PostedAs (s : Store) (es : List Ev) (i n : Nat) (o : Order) : Prop :=
  ∃ pre mid, es = pre ++ Ev.post i o :: mid ∧ (∀ o', Ev.post i o' ∉ mid) ∧ (({ store := s } : Mail).run pre).count i = n

theorem posted_snoc {s : Store} {es : List Ev} {i n : Nat} {o : Order} (h : PostedAs s es i n o) (e : Ev) (he : ∀ o, e ≠ .post i o) : PostedAs s (es ++ [e]) i n o := by
  obtain ⟨pre, mid, h1, h2, h3⟩ := h
  refine ⟨pre, mid ++ [e], by rw [h1]; simp, ?_, h3⟩
  intro o' hm
  rcases List.mem_append.mp hm with hm | hm
  · exact h2 o' hm
  · exact he o' (List.mem_singleton.mp hm).symm

structure MailInv (s : Store) (es : List Ev) : Prop where
  orders : ∀ i n o, Letter.order i n o ∈ (({ store := s } : Mail).run es).air → n < (({ store := s } : Mail).run es).count i ∧
    ((({ store := s } : Mail).run es).cur i = some n → PostedAs s es i n o)
  replies : ∀ i n ip a, Letter.reply i n ip a ∈ (({ store := s } : Mail).run es).air → n < (({ store := s } : Mail).run es).count i ∧
    ((({ store := s } : Mail).run es).cur i = some n → FreshAt s es i ip a)
  resp : ∀ i ip a, (({ store := s } : Mail).run es).resp i = some (ip, a) → FreshAt s es i ip a
  cur : ∀ i n, (({ store := s } : Mail).run es).cur i = some n → n < (({ store := s } : Mail).run es).count i

theorem mail_inv (s : Store) (es : List Ev) : MailInv s es := by
  induction es using List.reverseRecOn with
  | nil => exact ⟨fun _ _ _ h => absurd h List.not_mem_nil, fun _ _ _ _ h => absurd h List.not_mem_nil, fun _ _ _ h => absurd h (by simp [Mail.run]), fun _ _ h => absurd h (by simp [Mail.run])⟩
  | append_singleton es e ih =>
    have hrun := run_snoc { store := s } es e
    obtain ⟨h1, h2, h3, h4⟩ := ih
    generalize hX : ({ store := s } : Mail).run es = X at h1 h2 h3 h4 hrun
    cases e with
    | post i o =>
      have hne : ∀ i', i' ≠ i → ∀ o', Ev.post i o ≠ .post i' o' := fun i' hi o' h => hi (by injection h with h; exact h.symm)
      refine ⟨?_, ?_, ?_, ?_⟩
      · intro i' n o' hm
        rw [hrun] at hm ⊢
        simp only [Mail.step, List.mem_append, List.mem_singleton, Letter.order.injEq] at hm ⊢
        by_cases hi : i' = i
        · subst hi
          rw [change_self, change_self]
          rcases hm with hm | ⟨-, rfl, rfl⟩
          · obtain ⟨k1, -⟩ := h1 _ _ _ hm
            refine ⟨by omega, ?_⟩
            intro e
            injection e with e
            omega
          · refine ⟨by omega, fun _ => ⟨es, [], rfl, by simp, by rw [hX]⟩⟩
        · rw [change_other _ _ hi, change_other _ _ hi]
          rcases hm with hm | ⟨e, -⟩
          · obtain ⟨k1, k2⟩ := h1 _ _ _ hm
            exact ⟨k1, fun e => posted_snoc (k2 e) _ (hne i' hi)⟩
          · exact absurd e hi
      · intro i' n ip a hm
        rw [hrun] at hm ⊢
        simp only [Mail.step, List.mem_append, List.mem_singleton, reduceCtorEq, or_false] at hm ⊢
        obtain ⟨k1, k2⟩ := h2 _ _ _ _ hm
        by_cases hi : i' = i
        · subst hi
          rw [change_self, change_self]
          refine ⟨by omega, ?_⟩
          intro e
          injection e with e
          omega
        · rw [change_other _ _ hi, change_other _ _ hi]
          exact ⟨k1, fun e => fresh_snoc (k2 e) _ (hne i' hi)⟩
      · intro i' ip a hr
        rw [hrun] at hr
        simp only [Mail.step] at hr
        by_cases hi : i' = i
        · subst hi
          rw [change_self] at hr
          cases hr
        · rw [change_other _ _ hi] at hr
          exact fresh_snoc (h3 _ _ _ hr) _ (hne i' hi)
      · intro i' n hr
        rw [hrun] at hr ⊢
        simp only [Mail.step] at hr ⊢
        by_cases hi : i' = i
        · subst hi
          rw [change_self] at hr ⊢
          injection hr with hr
          omega
        · rw [change_other _ _ hi] at hr ⊢
          exact h4 _ _ hr
    | send i o =>
      have hne : ∀ i' o', Ev.send i o ≠ .post i' o' := fun i' o' h => by cases h
      refine ⟨?_, ?_, ?_, ?_⟩
      · intro i' n o' hm
        rw [hrun] at hm ⊢
        simp only [Mail.step, List.mem_append, List.mem_singleton, Letter.order.injEq] at hm ⊢
        by_cases hi : i' = i
        · subst hi
          rw [change_self]
          rcases hm with hm | ⟨-, rfl, rfl⟩
          · obtain ⟨k1, k2⟩ := h1 _ _ _ hm
            exact ⟨by omega, fun e => posted_snoc (k2 e) _ (hne _)⟩
          · refine ⟨by omega, ?_⟩
            intro e
            have := h4 _ _ e
            omega
        · rw [change_other _ _ hi]
          rcases hm with hm | ⟨e, -⟩
          · obtain ⟨k1, k2⟩ := h1 _ _ _ hm
            exact ⟨k1, fun e => posted_snoc (k2 e) _ (hne _)⟩
          · exact absurd e hi
      · intro i' n ip a hm
        rw [hrun] at hm ⊢
        simp only [Mail.step, List.mem_append, List.mem_singleton, reduceCtorEq, or_false] at hm ⊢
        obtain ⟨k1, k2⟩ := h2 _ _ _ _ hm
        refine ⟨?_, fun e => fresh_snoc (k2 e) _ (hne _)⟩
        by_cases hi : i' = i
        · subst hi
          rw [change_self]
          omega
        · rw [change_other _ _ hi]
          exact k1
      · intro i' ip a hr
        rw [hrun] at hr
        exact fresh_snoc (h3 _ _ _ hr) _ (hne _)
      · intro i' n hr
        rw [hrun] at hr ⊢
        simp only [Mail.step] at hr ⊢
        have := h4 _ _ hr
        by_cases hi : i' = i
        · subst hi
          rw [change_self]
          omega
        · rw [change_other _ _ hi]
          exact this
    | arrive j =>
      have hne : ∀ i' o', Ev.arrive j ≠ .post i' o' := fun i' o' h => by cases h
      obtain hx | ⟨x, hx⟩ := Option.eq_none_or_eq_some X.air[j]?
      · simp only [Mail.step, hx] at hrun
        refine ⟨?_, ?_, ?_, ?_⟩ <;> rw [hrun]
        · exact fun i' n o' hm => ⟨(h1 _ _ _ hm).1, fun e => posted_snoc ((h1 _ _ _ hm).2 e) _ (hne _)⟩
        · exact fun i' n ip a hm => ⟨(h2 _ _ _ _ hm).1, fun e => fresh_snoc ((h2 _ _ _ _ hm).2 e) _ (hne _)⟩
        · exact fun i' ip a hr => fresh_snoc (h3 _ _ _ hr) _ (hne _)
        · exact h4
      · have hmem : x ∈ X.air := List.mem_of_getElem? hx
        cases x with
        | order i n o =>
          simp only [Mail.step, hx] at hrun
          refine ⟨?_, ?_, ?_, ?_⟩ <;> rw [hrun]
          · intro i' n' o' hm
            have hm : Letter.order i' n' o' ∈ X.air := by
              rcases List.mem_append.mp hm with hm | hm
              · exact hm
              · split at hm
                · cases hm
                · simp at hm
            exact ⟨(h1 _ _ _ hm).1, fun e => posted_snoc ((h1 _ _ _ hm).2 e) _ (hne _)⟩
          · intro i' n' ip a hm
            rcases List.mem_append.mp hm with hm | hm
            · exact ⟨(h2 _ _ _ _ hm).1, fun e => fresh_snoc ((h2 _ _ _ _ hm).2 e) _ (hne _)⟩
            · split at hm
              · cases hm
              · rename_i a' hr
                rw [List.mem_singleton] at hm
                injection hm with e1 e2 e3 e4
                subst e1 e2 e3 e4
                obtain ⟨k1, k2⟩ := h1 _ _ _ hmem
                refine ⟨k1, ?_⟩
                intro e
                obtain ⟨pre, mid, l1, l2, l3⟩ := k2 e
                refine ⟨pre, o, mid, j, [], by rw [l1]; simp, by simpa using l2, rfl, ?_, ?_⟩
                · rw [← l1, hX, l3, hx]
                · rw [← l1, hX, hr]
          · exact fun i' ip a hr => fresh_snoc (h3 _ _ _ hr) _ (hne _)
          · exact h4
        | reply i n ip a =>
          have hair : (X.step (.arrive j)).air = X.air ∧ (X.step (.arrive j)).count = X.count ∧ (X.step (.arrive j)).cur = X.cur := by
            simp only [Mail.step, hx]
            split <;> exact ⟨rfl, rfl, rfl⟩
          refine ⟨?_, ?_, ?_, ?_⟩ <;> rw [hrun]
          · rw [hair.1, hair.2.1, hair.2.2]
            exact fun i' n o' hm => ⟨(h1 _ _ _ hm).1, fun e => posted_snoc ((h1 _ _ _ hm).2 e) _ (hne _)⟩
          · rw [hair.1, hair.2.1, hair.2.2]
            exact fun i' n ip a hm => ⟨(h2 _ _ _ _ hm).1, fun e => fresh_snoc ((h2 _ _ _ _ hm).2 e) _ (hne _)⟩
          · intro i' ip' a' hr
            simp only [Mail.step, hx] at hr
            split at hr
            · rename_i hc
              by_cases hi : i' = i
              · subst hi
                change change X.resp i' _ i' = _ at hr
                rw [change_self] at hr
                obtain ⟨rfl, rfl⟩ := Prod.mk.inj (Option.some.inj hr)
                exact fresh_snoc ((h2 _ _ _ _ hmem).2 hc.1) _ (hne _)
              · change change X.resp i _ i' = _ at hr
                rw [change_other _ _ hi] at hr
                exact fresh_snoc (h3 _ _ _ hr) _ (hne _)
            · exact fresh_snoc (h3 _ _ _ hr) _ (hne _)
          · rw [hair.2.1, hair.2.2]
            exact h4
    | assign ip k c data =>
      have hne : ∀ i' o', Ev.assign ip k c data ≠ .post i' o' := fun i' o' h => by cases h
      refine ⟨?_, ?_, ?_, ?_⟩ <;> rw [hrun]
      · exact fun i' n o' hm => ⟨(h1 _ _ _ hm).1, fun e => posted_snoc ((h1 _ _ _ hm).2 e) _ (hne _)⟩
      · exact fun i' n ip a hm => ⟨(h2 _ _ _ _ hm).1, fun e => fresh_snoc ((h2 _ _ _ _ hm).2 e) _ (hne _)⟩
      · exact fun i' ip a hr => fresh_snoc (h3 _ _ _ hr) _ (hne _)
      · exact h4

/-- C131. The response found is fresh: it was given by the machine the last request was posted to, when that request had reached it, so it shows that machine's data at a moment between the posting and
now. No answer to an earlier request, to a request of another controller or to an order sent without waiting is taken for it. -/
theorem C131_fresh (s : Store) (es : List Ev) (i : Nat) (ip : String) (a : Msg) (h : (({ store := s } : Mail).run es).resp i = some (ip, a)) : FreshAt s es i ip a :=
  (mail_inv s es).resp i ip a h

theorem lastFor_mem (l : List PProp) (c : Int) (d : Bytes) (h : lastFor l c = some d) : ∃ x ∈ l, x.code = c ∧ x.data = d := by
  unfold lastFor at h
  obtain ⟨x, hx, rfl⟩ := Option.map_eq_some_iff.mp h
  obtain ⟨l', hx⟩ := List.getLast?_eq_some_iff.mp hx
  have : x ∈ l.filter (fun i => decide (i.code = c)) := by rw [hx]; simp
  rw [List.mem_filter] at this
  exact ⟨x, this.1, by simpa using this.2, rfl⟩

theorem obey_data (s : Store) (o : Order) (ip : String) (k c : Int) :
    s.obey o ip k c = (s ip k c).map fun e => if e.writable then { e with data := (lastFor (o.writes ip k) c).getD e.data } else e := by
  cases o with
  | ask r =>
    have := C109_last_write s [r] ip k c
    rw [List.flatMap_singleton] at this
    exact this
  | tell ip' k' items =>
    have := C109_last_write s [.write ip' k' items] ip k c
    rw [List.flatMap_singleton] at this
    exact this

/-- C131. Nothing comes from nowhere: the data of a property is what it was at the beginning, what the device's program has assigned, or, where it may be written, what an order of some controller
to this object carries. What exists and what it permits stays. -/
theorem C131_source (s : Store) (es : List Ev) (ip : String) (k c : Int) (e : Entry) (h : (({ store := s } : Mail).run es).store ip k c = some e) :
    ∃ e0, s ip k c = some e0 ∧ e.readable = e0.readable ∧ e.writable = e0.writable ∧
      (e.data = e0.data ∨ Ev.assign ip k c e.data ∈ es ∨
        e0.writable = true ∧ ∃ i o, (Ev.post i o ∈ es ∨ Ev.send i o ∈ es) ∧ ∃ x ∈ o.writes ip k, x.code = c ∧ x.data = e.data) := by
  have hord : ∀ es : List Ev, ∀ i n o, Letter.order i n o ∈ (({ store := s } : Mail).run es).air → Ev.post i o ∈ es ∨ Ev.send i o ∈ es := by
    intro es
    induction es using List.reverseRecOn with
    | nil => intro _ _ _ h; cases h
    | append_singleton es ev ih =>
      intro i n o hm
      rw [run_snoc] at hm
      have old : Letter.order i n o ∈ (({ store := s } : Mail).run es).air → Ev.post i o ∈ es ++ [ev] ∨ Ev.send i o ∈ es ++ [ev] := by
        intro hm
        rcases ih i n o hm with h | h
        · exact Or.inl (List.mem_append_left _ h)
        · exact Or.inr (List.mem_append_left _ h)
      cases ev with
      | post i' o' =>
        simp only [Mail.step, List.mem_append, List.mem_singleton, Letter.order.injEq] at hm
        rcases hm with hm | ⟨rfl, -, rfl⟩
        · exact old hm
        · exact Or.inl (by simp)
      | send i' o' =>
        simp only [Mail.step, List.mem_append, List.mem_singleton, Letter.order.injEq] at hm
        rcases hm with hm | ⟨rfl, -, rfl⟩
        · exact old hm
        · exact Or.inr (by simp)
      | arrive j =>
        simp only [Mail.step] at hm
        split at hm
        · exact old hm
        · rcases List.mem_append.mp hm with hm | hm
          · exact old hm
          · split at hm
            · cases hm
            · simp at hm
        · split at hm <;> exact old hm
      | assign => exact old hm
  induction es using List.reverseRecOn generalizing e with
  | nil => exact ⟨e, h, rfl, rfl, Or.inl rfl⟩
  | append_singleton es ev ih =>
    rw [run_snoc] at h
    have lift : ∀ e1 : Entry, (({ store := s } : Mail).run es).store ip k c = some e1 → e.readable = e1.readable → e.writable = e1.writable →
        (e.data = e1.data ∨ Ev.assign ip k c e.data ∈ es ++ [ev] ∨
          e1.writable = true ∧ ∃ i o, (Ev.post i o ∈ es ++ [ev] ∨ Ev.send i o ∈ es ++ [ev]) ∧ ∃ x ∈ o.writes ip k, x.code = c ∧ x.data = e.data) →
        ∃ e0, s ip k c = some e0 ∧ e.readable = e0.readable ∧ e.writable = e0.writable ∧
          (e.data = e0.data ∨ Ev.assign ip k c e.data ∈ es ++ [ev] ∨
            e0.writable = true ∧ ∃ i o, (Ev.post i o ∈ es ++ [ev] ∨ Ev.send i o ∈ es ++ [ev]) ∧ ∃ x ∈ o.writes ip k, x.code = c ∧ x.data = e.data) := by
      intro e1 h1 h2 h3 h4
      obtain ⟨e0, k1, k2, k3, k4⟩ := ih e1 h1
      refine ⟨e0, k1, h2.trans k2, h3.trans k3, ?_⟩
      rcases h4 with h4 | h4 | ⟨h4, h5⟩
      · rw [h4]
        rcases k4 with k4 | k4 | ⟨k4, i, o, k5, k6⟩
        · exact Or.inl k4
        · exact Or.inr (Or.inl (List.mem_append_left _ k4))
        · refine Or.inr (Or.inr ⟨k4, i, o, ?_, k6⟩)
          rcases k5 with k5 | k5
          · exact Or.inl (List.mem_append_left _ k5)
          · exact Or.inr (List.mem_append_left _ k5)
      · exact Or.inr (Or.inl h4)
      · exact Or.inr (Or.inr ⟨k3.symm.trans h4, h5⟩)
    cases ev with
    | post i o => exact lift e h rfl rfl (Or.inl rfl)
    | send i o => exact lift e h rfl rfl (Or.inl rfl)
    | arrive j =>
      simp only [Mail.step] at h
      split at h
      · exact lift e h rfl rfl (Or.inl rfl)
      · rename_i i n o hx
        simp only [obey_data] at h
        obtain ⟨e1, h1, rfl⟩ := Option.map_eq_some_iff.mp h
        by_cases hw : e1.writable = true
        · rw [if_pos hw] at lift ⊢
          refine lift e1 h1 rfl rfl ?_
          cases hl : lastFor (o.writes ip k) c with
          | none => exact Or.inl rfl
          | some d =>
            obtain ⟨x, x1, x2, x3⟩ := lastFor_mem _ _ _ hl
            refine Or.inr (Or.inr ⟨hw, i, o, ?_, x, x1, x2, x3⟩)
            rcases hord es i n o (List.mem_of_getElem? hx) with h | h
            · exact Or.inl (List.mem_append_left _ h)
            · exact Or.inr (List.mem_append_left _ h)
        · rw [if_neg hw] at lift ⊢
          exact lift e1 h1 rfl rfl (Or.inl rfl)
      · split at h <;> exact lift e h rfl rfl (Or.inl rfl)
    | assign ip' k' c' d =>
      simp only [Mail.step, Store.assign] at h
      by_cases hc : ip = ip' ∧ k = k' ∧ c = c'
      · rw [if_pos hc] at h
        obtain ⟨e1, h1, rfl⟩ := Option.map_eq_some_iff.mp h
        obtain ⟨rfl, rfl, rfl⟩ := hc
        exact lift e1 h1 rfl rfl (Or.inr (Or.inl (by simp)))
      · rw [if_neg hc] at h
        exact lift e h rfl rfl (Or.inl rfl)

/-- Until the controller posts again, what it has posted last stays the same, and a response found stays. Letters are never taken out of the network. -/
theorem mail_keeps (X : Mail) (i : Nat) (es : List Ev) : (∀ o, Ev.post i o ∉ es) →
    (X.run es).cur i = X.cur i ∧ (X.resp i ≠ none → (X.run es).resp i = X.resp i) ∧ ∀ (j : Nat) x, X.air[j]? = some x → (X.run es).air[j]? = some x := by
  induction es using List.reverseRecOn with
  | nil => intro _; exact ⟨rfl, fun _ => rfl, fun _ _ h => h⟩
  | append_singleton es e ih =>
    intro hn
    obtain ⟨h1, h2, h3⟩ := ih (fun o h => hn o (List.mem_append_left _ h))
    rw [run_snoc]
    generalize X.run es = Y at h1 h2 h3
    have ha : ∀ (l : List Letter) (j : Nat) x, X.air[j]? = some x → (Y.air ++ l)[j]? = some x := by
      intro l j x hx
      have := h3 j x hx
      obtain ⟨hl, -⟩ := List.getElem?_eq_some_iff.mp this
      rw [List.getElem?_append_left hl]
      exact this
    cases e with
    | post i' o =>
      have hi : i ≠ i' := by
        rintro rfl
        exact hn o (by simp)
      simp only [Mail.step]
      rw [change_other _ _ hi, change_other _ _ hi]
      exact ⟨h1, h2, ha _⟩
    | send i' o => exact ⟨h1, h2, ha _⟩
    | arrive j =>
      simp only [Mail.step]
      split
      · exact ⟨h1, h2, h3⟩
      · exact ⟨h1, h2, ha _⟩
      · split
        · rename_i i' n ip a hx hc
          refine ⟨h1, ?_, h3⟩
          intro hr
          have h2 := h2 hr
          by_cases hi : i = i'
          · subst hi
            rw [hc.2] at h2
            exact absurd h2.symm hr
          · show change Y.resp i' _ i = _
            rw [change_other _ _ hi]
            exact h2
        · exact ⟨h1, h2, h3⟩
    | assign => exact ⟨h1, h2, h3⟩

/-- C131. If a request that is answered reaches the machine once, and the answer to that reaches the controller, before it posts again, then a response is found: whatever else arrives, and whatever
else is lost. -/
theorem C131_answered (s : Store) (pre mid mid' rest : List Ev) (i : Nat) (o : Order) (j : Nat) (a : Msg)
    (hj : j = (({ store := s } : Mail).run pre).air.length) (ha : (({ store := s } : Mail).run (pre ++ Ev.post i o :: mid)).store.reply o = some a)
    (hn : ∀ o', Ev.post i o' ∉ mid ++ Ev.arrive j :: (mid' ++ Ev.arrive (({ store := s } : Mail).run (pre ++ Ev.post i o :: mid)).air.length :: rest)) :
    ∃ x, (({ store := s } : Mail).run (pre ++ Ev.post i o :: (mid ++ Ev.arrive j :: (mid' ++ Ev.arrive (({ store := s } : Mail).run (pre ++ Ev.post i o :: mid)).air.length :: rest)))).resp i = some x := by
  have hmid : ∀ o', Ev.post i o' ∉ mid := fun o' h => hn o' (by simp [h])
  have hmid' : ∀ o', Ev.post i o' ∉ mid' := fun o' h => hn o' (by simp [h])
  have hrest : ∀ o', Ev.post i o' ∉ rest := fun o' h => hn o' (by simp [h])
  clear hn
  obtain ⟨j', hj'⟩ : ∃ j', j' = (({ store := s } : Mail).run (pre ++ Ev.post i o :: mid)).air.length := ⟨_, rfl⟩
  rw [← hj']
  obtain ⟨X0, hX0⟩ : ∃ X0, X0 = ({ store := s } : Mail).run pre := ⟨_, rfl⟩
  have e0 : ∀ l, ({ store := s } : Mail).run (pre ++ Ev.post i o :: l) = (X0.step (.post i o)).run l := by
    intro l
    rw [run_append, hX0]
    rfl
  rw [e0] at ha hj' ⊢
  rw [← hX0] at hj
  clear e0 hX0
  -- posted
  have p1 : (X0.step (.post i o)).cur i = some (X0.count i) := change_self _ _ _
  have p2 : (X0.step (.post i o)).air[j]? = some (.order i (X0.count i) o) := by rw [hj]; simp [Mail.step]
  generalize X0.step (.post i o) = X1 at p1 p2 ha hj' ⊢
  generalize X0.count i = n at p1 p2
  obtain ⟨q1, -, q3⟩ := mail_keeps X1 i mid hmid
  have q3 := q3 _ _ p2
  rw [p1] at q1
  rw [run_append]
  generalize X1.run mid = X2 at q1 q3 ha hj' ⊢
  -- the order has arrived
  show ∃ x, ((X2.step (.arrive j)).run (mid' ++ _)).resp i = some x
  have r1 : (X2.step (.arrive j)).cur i = some n := by simp only [Mail.step, q3]; exact q1
  have r2 : (X2.step (.arrive j)).air[j']? = some (.reply i n o.ip a) := by
    simp only [Mail.step, q3, ha]
    rw [hj']
    simp
  generalize X2.step (.arrive j) = X3 at r1 r2 ⊢
  obtain ⟨t1, -, t3⟩ := mail_keeps X3 i mid' hmid'
  have t3 := t3 _ _ r2
  rw [r1] at t1
  rw [run_append]
  generalize X3.run mid' = X4 at t1 t3 ⊢
  -- the answer arrives
  show ∃ x, ((X4.step (.arrive j')).run rest).resp i = some x
  have u : (X4.step (.arrive j')).resp i ≠ none := by
    simp only [Mail.step, t3]
    by_cases hr : X4.resp i = none
    · rw [if_pos ⟨t1, hr⟩]
      show change X4.resp i _ i ≠ none
      rw [change_self]
      simp
    · rw [if_neg (fun h => hr h.2)]
      exact hr
  obtain ⟨-, v2, -⟩ := mail_keeps (X4.step (.arrive j')) i rest hrest
  rw [v2 u]
  exact Option.ne_none_iff_exists'.mp u

/-! ### Two controllers, lost, late and repeated datagrams -/

instance (s : Store) (o : Order) : Decidable (s.Takes o) := by
  unfold Store.Takes
  have h1 : Decidable (∀ a, s.reply o = some a → FitsDatagram a ∧ (a.esv = 0x72 → instanceListOf a ≠ .empty)) :=
    match h : s.reply o with
    | none => .isTrue (fun a e => by cases e)
    | some a =>
      have : Decidable (instanceListOf a ≠ .empty) := match h : instanceListOf a with
        | .empty => .isFalse (fun k => k rfl)
        | .notAList => .isTrue (fun k => by cases k)
        | .short => .isTrue (fun k => by cases k)
        | .codes _ => .isTrue (fun k => by cases k)
      if k : FitsDatagram a ∧ (a.esv = 0x72 → instanceListOf a ≠ .empty) then .isTrue (fun b e => by cases e; exact k) else .isFalse (fun e => k (e a rfl))
  have h2 : Decidable (∀ r, o = .ask r → s.Knows r) :=
    match o with
    | .tell .. => .isTrue (fun _ e => by cases e)
    | .ask (.read ..) => .isTrue (fun _ e => by cases e; trivial)
    | .ask (.write ..) => .isTrue (fun _ e => by cases e; trivial)
    | .ask (.writeRead ip k items codes) =>
      if h : ∀ c ∈ codes, (s ip k c).isSome = true then .isTrue (fun _ e => by cases e; exact h) else .isFalse (fun e => h (e _ rfl))
  infer_instance

instance (X : Mail) (e : Ev) : Decidable (X.Fair e) :=
  match e with
  | .post _ o => inferInstanceAs (Decidable (FitsDatagram o.message))
  | .send _ o => inferInstanceAs (Decidable (FitsDatagram o.message))
  | .assign .. => .isTrue trivial
  | .arrive j => by
    show Decidable (match X.air[j]? with
      | none => False
      | some (.order _ _ o) => X.store.Takes o
      | some (.reply i n _ _) => ∀ m, X.cur i = some m → n < m + 65535 ∧ m < n + 65535)
    have hw : ∀ i n, Decidable (∀ m, X.cur i = some m → n < m + 65535 ∧ m < n + 65535) := by
      intro i n
      cases X.cur i with
      | none => exact .isTrue (fun m e => by cases e)
      | some m => exact if k : n < m + 65535 ∧ m < n + 65535 then .isTrue (fun m' e => by cases e; exact k) else .isFalse (fun e => k (e m rfl))
    cases X.air[j]? with
    | none => exact .isFalse id
    | some x =>
      cases x with
      | order _ _ o => exact inferInstanceAs (Decidable (X.store.Takes o))
      | reply i n _ _ => exact hw i n

instance (X : Mail) (es : List Ev) : Decidable (X.FairAll es) := by
  induction es generalizing X with
  | nil => exact .isTrue trivial
  | cons e es ih => exact @instDecidableAnd _ _ _ (ih _)

/-- Stores that agree on what may be ordered. -/
structure Alike (L : Rights) (X Y : Mail) : Prop where
  store : ∀ i ip k, L.order i ip k → ∀ c, X.store ip k c = Y.store ip k c
  rest : X.air = Y.air ∧ X.count = Y.count ∧ X.cur = Y.cur ∧ X.resp = Y.resp
  orders : ∀ i n o, Letter.order i n o ∈ X.air → L.order i o.ip o.obj

theorem alike_order {s s' : Store} {o : Order} (h : ∀ c, s o.ip o.obj c = s' o.ip o.obj c) : s.reply o = s'.reply o ∧ (s.Takes o ↔ s'.Takes o) := by
  have h1 : s.reply o = s'.reply o := by
    cases o with
    | ask r =>
      obtain ⟨a, -⟩ := agree [r] s s' (fun x hx c => by rw [List.mem_singleton.mp hx]; exact h c)
      exact congrArg some (Prod.mk.inj (List.head_eq_of_cons_eq a)).2
    | tell ip k items =>
      have h : ∀ c, s ip k c = s' ip k c := h
      unfold Store.reply Store.allWritten Store.refused
      simp only [h]
  refine ⟨h1, ?_⟩
  unfold Store.Takes
  rw [h1]
  refine and_congr Iff.rfl ?_
  cases o with
  | tell => exact ⟨fun _ _ e => absurd e (by simp), fun _ _ e => absurd e (by simp)⟩
  | ask r =>
    have : s.Knows r ↔ s'.Knows r := by
      cases r with
      | read => exact Iff.rfl
      | write => exact Iff.rfl
      | writeRead ip k items codes =>
        have h : ∀ c, s ip k c = s' ip k c := h
        unfold Store.Knows
        simp only [h]
    exact ⟨fun k r' e => by cases e; exact this.mp (k _ rfl), fun k r' e => by cases e; exact this.mpr (k _ rfl)⟩

theorem alike_step {L : Rights} {X Y : Mail} (h : Alike L X Y) (e : Ev) (ha : L.Allow e) : (X.Fair e ↔ Y.Fair e) ∧ Alike L (X.step e) (Y.step e) := by
  rcases X with ⟨sx, ax, nx, cx, rx⟩
  rcases Y with ⟨sy, ay, ny, cy, ry⟩
  obtain ⟨h1, ⟨h2, h3, h4, h5⟩, h6⟩ := h
  simp only at h1 h2 h3 h4 h5 h6
  subst h2 h3 h4 h5
  cases e with
  | post i o =>
    refine ⟨Iff.rfl, h1, ⟨rfl, rfl, rfl, rfl⟩, ?_⟩
    intro i' n o' hm
    simp only [Mail.step, List.mem_append, List.mem_singleton, Letter.order.injEq] at hm
    rcases hm with hm | ⟨rfl, -, rfl⟩
    · exact h6 _ _ _ hm
    · exact ha
  | send i o =>
    refine ⟨Iff.rfl, h1, ⟨rfl, rfl, rfl, rfl⟩, ?_⟩
    intro i' n o' hm
    simp only [Mail.step, List.mem_append, List.mem_singleton, Letter.order.injEq] at hm
    rcases hm with hm | ⟨rfl, -, rfl⟩
    · exact h6 _ _ _ hm
    · exact ha
  | arrive j =>
    obtain hx | ⟨x, hx⟩ := Option.eq_none_or_eq_some ax[j]?
    · simp only [Mail.Fair, Mail.step, hx]
      exact ⟨trivial, h1, ⟨rfl, rfl, rfl, rfl⟩, h6⟩
    · cases x with
      | order i n o =>
        have hl := h6 _ _ _ (List.mem_of_getElem? hx)
        obtain ⟨k1, k2⟩ := alike_order (o := o) (h1 _ _ _ hl)
        simp only [Mail.Fair, Mail.step, hx]
        refine ⟨k2, ?_, ⟨by simp only [k1], rfl, rfl, rfl⟩, ?_⟩
        · intro i' ip k hl' c
          show sx.obey o ip k c = sy.obey o ip k c
          rw [obey_data, obey_data, h1 _ _ _ hl' c]
        · intro i' n' o' hm
          rcases List.mem_append.mp hm with hm | hm
          · exact h6 _ _ _ hm
          · split at hm
            · cases hm
            · simp at hm
      | reply i n ip a =>
        simp only [Mail.Fair, Mail.step, hx]
        refine ⟨trivial, ?_⟩
        split <;> exact ⟨h1, ⟨rfl, rfl, rfl, rfl⟩, h6⟩
  | assign ip k c d =>
    refine ⟨Iff.rfl, ?_, ⟨rfl, rfl, rfl, rfl⟩, h6⟩
    intro i ip' k' hl c'
    show sx.assign ip k c d ip' k' c' = sy.assign ip k c d ip' k' c'
    unfold Store.assign
    rw [h1 _ _ _ hl c']

theorem alike_run {L : Rights} (es : List Ev) : ∀ {X Y : Mail}, Alike L X Y → (∀ e ∈ es, L.Allow e) → (X.FairAll es ↔ Y.FairAll es) ∧ Alike L (X.run es) (Y.run es) := by
  induction es with
  | nil => intro X Y h _; exact ⟨Iff.rfl, h⟩
  | cons e es ih =>
    intro X Y h ha
    obtain ⟨h1, h2⟩ := alike_step h e (ha e List.mem_cons_self)
    obtain ⟨h3, h4⟩ := ih h2 (fun x hx => ha x (List.mem_cons_of_mem _ hx))
    exact ⟨and_congr h1 h3, h4⟩

/-- Controller 0 asks to switch the light on; controller 1 asks for its state, and its question is answered first (0x30), but that answer is late. It asks again, and its second question is answered
after the switch (0x31). Then the late answer arrives, and is not taken; then the second one, which is. Controller 0 sends 0x41 without waiting; after that its first datagram arrives for the second time. -/
def exEvents : List Ev :=
  [.post 0 (.ask (.write "10.0.0.9" 0x029101 [(0x80, [0x31])])), .post 1 (.ask (.read "10.0.0.9" 0x029101 [0x80])), .arrive 1, .arrive 0,
   .post 1 (.ask (.read "10.0.0.9" 0x029101 [0x80])), .arrive 4, .arrive 2, .arrive 5, .arrive 3,
   .send 0 (.tell "10.0.0.9" 0x029101 [(0x80, [0x41])]), .arrive 6, .assign "10.0.0.9" 0x029101 0x81 [9]]

/-- … and once more the first datagram. -/
def exRepeated : List Ev := exEvents ++ [.arrive 0]

def exRights : Rights := { order := fun i ip k => i < 2 ∧ (ip = "10.0.0.9" ∨ ip = "10.0.0.8") ∧ k = 0x029101, assign := fun ip => ip = "10.0.0.9" }

theorem ex_prepared {ord : List Int → List Int} (hord : ValidOrder ord) : ∃ K C H, Prepared ord 2 K exRights C H ∧ Alike exRights { store := H.store } { store := exStore } := by
  obtain ⟨c, ops, h1, h2, h3, h4⟩ := ctl_two hord
  obtain ⟨n, d1, d2, d3, d4⟩ := dev_device hord exObj
  let K : Nat → Side := fun i => ⟨(if i = 0 then "10.0.0.2" else "10.0.0.3", 3610), calmEnv, exEnv, okNet⟩
  let C : Ctls := fun _ => c
  let H : Machines := fun ip => if ip = "10.0.0.9" ∨ ip = "10.0.0.8" then some ⟨(ip, 3610), n, exEnv, okNet⟩ else none
  refine ⟨K, C, H, ⟨?_, ?_, ?_, ?_⟩, ?_, ⟨rfl, rfl, rfl, rfl⟩, fun _ _ _ h => by cases h⟩
  · rintro i ip k ⟨hi, hip, rfl⟩
    refine ⟨hi, ⟨⟨(ip, 3610), n, exEnv, okNet⟩, if_pos hip, rfl, ⟨⟨_, h1⟩, h2, d1, d2, d4⟩, exWorld_works, exObj, d3, by decide, rfl, fun _ _ _ => rfl⟩, by decide, ?_⟩
    rcases hip with rfl | rfl <;> assumption
  · rintro ip rfl
    exact ⟨_, if_pos (by decide), d1⟩
  · intro i j hi hj h
    have h : ((if i = 0 then "10.0.0.2" else "10.0.0.3" : String), (3610 : Int)) = (if j = 0 then "10.0.0.2" else "10.0.0.3", 3610) := h
    have h := (Prod.mk.inj h).1
    by_cases e : i = 0 <;> by_cases e' : j = 0
    · omega
    · rw [if_pos e, if_neg e'] at h
      exact absurd h (by decide)
    · rw [if_neg e, if_pos e'] at h
      exact absurd h (by decide)
    · omega
  · intro i h hi hh
    exfalso
    have hh : (if (if i = 0 then "10.0.0.2" else "10.0.0.3" : String) = "10.0.0.9" ∨ (if i = 0 then "10.0.0.2" else "10.0.0.3" : String) = "10.0.0.8" then
      some (⟨(_, 3610), n, exEnv, okNet⟩ : Host) else none) = some h := hh
    rw [if_neg] at hh
    · cases hh
    · split <;> decide
  · rintro i ip k ⟨-, hip, rfl⟩ c
    show H.store ip _ c = _
    rw [store_host (if_pos hip)]
    refine (entryOf_obj d3 c).trans ?_
    exact (if_pos ⟨hip, rfl⟩).symm

theorem ex_allow : ∀ e ∈ exRepeated, exRights.Allow e := by
  intro e he
  simp only [exRepeated, exEvents, List.cons_append, List.nil_append, List.mem_cons, List.not_mem_nil, or_false] at he
  rcases he with rfl | rfl | rfl | rfl | rfl | rfl | rfl | rfl | rfl | rfl | rfl | rfl | rfl <;>
    first | exact trivial | exact ⟨by decide, Or.inl rfl, rfl⟩ | exact ⟨rfl, by decide⟩

theorem ex_fair : ({ store := exStore } : Mail).FairAll exRepeated := by decide +kernel

/-- C131. What is not promised: a datagram that arrives a second time is obeyed a second time, and so may undo what was written since. The hypotheses of `C131_mail` are met. -/
theorem C131_again {ord : List Int → List Int} (hord : ValidOrder ord) : ∃ N K L C H es j, Prepared ord N K L C H ∧ (∀ e ∈ es ++ [Ev.arrive j], L.Allow e) ∧
    ({ store := H.store } : Mail).FairAll (es ++ [Ev.arrive j]) ∧ Ev.arrive j ∈ es ∧
    (((({ store := H.store } : Mail).run es).store "10.0.0.9" 0x029101 0x80).map Entry.data = some [0x41]) ∧
    (((({ store := H.store } : Mail).run (es ++ [Ev.arrive j])).store "10.0.0.9" 0x029101 0x80).map Entry.data = some [0x31]) := by
  obtain ⟨K, C, H, h1, h2⟩ := ex_prepared hord
  refine ⟨2, K, exRights, C, H, exEvents, 0, h1, ex_allow, (alike_run _ h2 ex_allow).1.mpr ex_fair, by simp [exEvents], ?_, ?_⟩
  · rw [(alike_run exEvents h2 (fun e he => ex_allow e (List.mem_append_left _ he))).2.store 0 _ _ ⟨by decide, Or.inl rfl, rfl⟩]
    decide +kernel
  · have hk := (alike_run exRepeated h2 ex_allow).2.store 0 "10.0.0.9" 0x029101 ⟨by decide, Or.inl rfl, rfl⟩ 0x80
    unfold exRepeated at hk
    rw [hk]
    decide +kernel

/-- The machines really do it, and both controllers find their responses. -/
example {ord : List Int → List Int} (hord : ValidOrder ord) : ∃ K C H P, Prepared ord 2 K exRights C H ∧ Steps ord 2 K { C := C, H := H } exRepeated P ∧ P.alive = true ∧
    (P.response 0).map (fun m => (m.esv, m.props)) = some (0x71, [{ code := 0x80 }]) ∧
    (P.response 1).map (fun m => (m.esv, m.props)) = some (0x72, [{ code := 0x80, data := [0x31] }]) ∧
    (P.H.store "10.0.0.9" 0x029101 0x80).map Entry.data = some [0x31] ∧ (P.H.store "10.0.0.9" 0x029101 0x81).map Entry.data = some [9] := by
  obtain ⟨K, C, H, h1, h2⟩ := ex_prepared hord
  obtain ⟨k1, k2⟩ := alike_run _ h2 ex_allow
  obtain ⟨P, p1, -, p3, p4, p5⟩ := C131_mail hord h1 exRepeated ex_allow (k1.mpr ex_fair)
  have hc : ∀ i, (({ store := H.store } : Mail).run exRepeated).cur i = (({ store := exStore } : Mail).run exRepeated).cur i := fun i => congrFun k2.rest.2.2.1 i
  have hr : ∀ i, (({ store := H.store } : Mail).run exRepeated).resp i = (({ store := exStore } : Mail).run exRepeated).resp i := fun i => congrFun k2.rest.2.2.2 i
  refine ⟨K, C, H, P, h1, p1, p3, ?_, ?_, ?_, ?_⟩
  · rw [p5 0 (by rw [hc]; decide +kernel), hr]
    decide +kernel
  · rw [p5 1 (by rw [hc]; decide +kernel), hr]
    decide +kernel
  · rw [p4, k2.store 0 _ _ ⟨by decide, Or.inl rfl, rfl⟩]
    decide +kernel
  · rw [p4, k2.store 0 _ _ ⟨by decide, Or.inl rfl, rfl⟩]
    decide +kernel

/-- The hypotheses of `C131_answered` and `C131_fresh`: the second question of controller 1. -/
example : exEvents = exEvents.take 4 ++ Ev.post 1 (.ask (.read "10.0.0.9" 0x029101 [0x80])) :: ([] ++ Ev.arrive 4 :: ([.arrive 2] ++ Ev.arrive 5 :: exEvents.drop 8)) ∧
    (({ store := exStore } : Mail).run (exEvents.take 4)).air.length = 4 ∧
    ((({ store := exStore } : Mail).run (exEvents.take 4 ++ Ev.post 1 (.ask (.read "10.0.0.9" 0x029101 [0x80])) :: [])).air.length = 5) ∧
    ((({ store := exStore } : Mail).run exEvents).resp 1).map (fun x => (x.1, x.2.props)) = some ("10.0.0.9", [{ code := 0x80, data := [0x31] }]) :=
  ⟨rfl, by decide +kernel, by decide +kernel, by decide +kernel⟩

end Uecho
