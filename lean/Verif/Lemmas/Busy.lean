/- Lemmas for C167: a network of busy devices goes along with one in which each device does one thing at a time. -/
import Verif.Spec.Busy
import Verif.Lemmas.Crowd
import Verif.Lemmas.Turn
import Verif.Lemmas.Step
import Verif.Props.Whole

namespace Uecho
open Spec Crowd

/-! ### A device that goes along -/

/-- What the beats of a story do, one after the other. -/
def follow (R : RefRun) (h : List Beat) : RefRun := (h.filterMap Beat.use).foldl (fun R u => (R.use u).1) R

theorem follow_append (R : RefRun) (a b : List Beat) : follow R (a ++ b) = follow (follow R a) b := by
  unfold follow
  rw [List.filterMap_append, List.foldl_append]

/-- A thread that goes on. -/
def Spec.Phase.lives : Phase → Bool
  | .free => true
  | .got .. => true
  | .did _ b => b
  | .over => false

theorem assign_store (D : RefDevice) (c p : Int) (v : Bytes) : D.assign c p v = D.store c p v := by
  unfold RefDevice.assign RefDevice.store
  cases D.things c <;> rfl

/-- What is sent at something that can be seen. -/
def Crowd.Happening.out : Happening → List Sent
  | .sent _ l => l
  | .call _ l _ => l
  | _ => []

structure GoesAlong (R0 : RefRun) (H : List Beat) (D : RefDevice) : Prop where
  dev : (follow R0 H).dev = D
  alive : ∀ t p, Phase.after t .free H = some p → (follow R0 H).alive t = p.lives
  due : ∀ t l b, Phase.after t .free H = some (.did l b) → ∀ s ∈ l, s ∈ (follow R0 H).sent
  old : ∀ s ∈ R0.sent, s ∈ (follow R0 H).sent
  sent : ∀ e, Beat.seen e ∈ H → ∀ s ∈ e.out, s ∈ (follow R0 H).sent

theorem after_snoc (t : Nat) (H : List Beat) (x : Beat) : Phase.after t .free (H ++ [x]) = (Phase.after t .free H).bind fun p => p.next t x := by
  rw [beats_append]
  cases Phase.after t .free H with
  | none => rfl
  | some p =>
    show ((p.next t x).bind fun p => Phase.after t p []) = p.next t x
    cases p.next t x <;> rfl

/-- The device that handles one thing at a time goes along with a story of datagrams handled one at a time. -/
theorem follows {R0 : RefRun} (hal : ∀ i, R0.alive i = true) : ∀ (H : List Beat) (D : RefDevice), InTurn R0.dev H D → (∀ t, Phase.after t .free H ≠ none) → GoesAlong R0 H D := by
  intro H
  induction H using List.reverseRecOn with
  | nil =>
    intro D h _
    refine ⟨(show D = R0.dev from h).symm, ?_, ?_, fun s h => h, ?_⟩
    · intro t p hp
      injection hp with hp
      rw [← hp]; exact hal t
    · intro t l b hp
      injection hp with hp
      cases hp
    · intro e h; cases h
  | append_singleton H x ih =>
    intro D h hord
    obtain ⟨E, h1, h2⟩ := (inTurn_append _ _ _ _).mp h
    have hord' : ∀ t, Phase.after t .free H ≠ none := by
      intro t e
      apply hord t
      rw [after_snoc, e]; rfl
    have ih := ih E h1 hord'
    have quiet : ∀ e, x = .seen e → (∀ c p v, e ≠ .app c p v) → (∀ k l r, e ≠ .call k l r) → (∀ s ∈ e.out, s ∈ (follow R0 H).sent) → D = E → GoesAlong R0 (H ++ [x]) D := by
      intro e hx happ hcall hsent hD
      have hf : follow R0 (H ++ [x]) = follow R0 H := by
        rw [follow_append, hx]
        cases e with
        | app c p v => exact absurd rfl (happ c p v)
        | call k l r => exact absurd rfl (hcall k l r)
        | _ => rfl
      refine ⟨by rw [hf, hD]; exact ih.dev, ?_, ?_, by rw [hf]; exact ih.old, ?_⟩
      · intro t p hp
        rw [hf]
        rw [after_snoc] at hp
        cases hq : Phase.after t .free H with
        | none => exact absurd hq (hord' t)
        | some q =>
          rw [hq, Option.bind_some, hx] at hp
          rw [ih.alive t q hq]
          cases e with
          | app c p v => exact absurd rfl (happ c p v)
          | call k l r => exact absurd rfl (hcall k l r)
          | recv u d a =>
            simp only [Phase.next] at hp
            split at hp
            · split at hp
              · rename_i hq'; injection hp with hp; rw [← hp, hq']; rfl
              · cases hp
            · injection hp with hp; rw [hp]
          | sent u l =>
            simp only [Phase.next] at hp
            split at hp
            · split at hp
              · rename_i hq'; injection hp with hp; rw [← hp, hq']; rfl
              · cases hp
            · injection hp with hp; rw [hp]
          | ended u =>
            simp only [Phase.next] at hp
            split at hp
            · split at hp
              · rename_i hq'; injection hp with hp; rw [← hp, hq']; rfl
              · cases hp
            · injection hp with hp; rw [hp]
      · intro t l b hp
        rw [hf]
        rw [after_snoc] at hp
        cases hq : Phase.after t .free H with
        | none => exact absurd hq (hord' t)
        | some q =>
          rw [hq, Option.bind_some, hx] at hp
          refine ih.due t l b ?_
          rw [hq]
          cases e with
          | app c p v => exact absurd rfl (happ c p v)
          | call k l r => exact absurd rfl (hcall k l r)
          | recv u d a =>
            simp only [Phase.next] at hp
            split at hp
            · split at hp <;> cases hp
            · exact hp
          | sent u l =>
            simp only [Phase.next] at hp
            split at hp
            · split at hp <;> cases hp
            · exact hp
          | ended u =>
            simp only [Phase.next] at hp
            split at hp
            · split at hp <;> cases hp
            · exact hp
      · intro e' hm
        rw [hf]
        rcases List.mem_append.mp hm with hm | hm
        · exact ih.sent e' hm
        · have hm := List.mem_singleton.mp hm
          rw [hx] at hm
          injection hm with hm
          rw [hm]; exact hsent
    cases x with
    | seen e =>
      cases e with
      | recv u d a => exact quiet _ rfl (by intros; simp) (by intros; simp) (by intro s h; cases h) h2
      | ended u => exact quiet _ rfl (by intros; simp) (by intros; simp) (by intro s h; cases h) h2
      | sent u l =>
        refine quiet _ rfl (by intros; simp) (by intros; simp) ?_ h2
        have hu := hord u
        rw [after_snoc] at hu
        cases hq : Phase.after u .free H with
        | none => exact absurd hq (hord' u)
        | some q =>
          rw [hq, Option.bind_some] at hu
          have hu : (if u = u then (if q = .did l true then some Phase.free else none) else some q) ≠ none := hu
          rw [if_pos rfl] at hu
          split at hu
          · rename_i hql; exact ih.due u l true (by rw [hq, hql])
          · exact absurd rfl hu
      | app c p v =>
        have hf : follow R0 (H ++ [.seen (.app c p v)]) = { follow R0 H with dev := (follow R0 H).dev.store c p v } := by
          rw [follow_append]; rfl
        have hp' : ∀ t, Phase.after t .free (H ++ [.seen (.app c p v)]) = Phase.after t .free H := by
          intro t
          rw [after_snoc]
          cases Phase.after t .free H <;> rfl
        have h2 : D = E.assign c p v := h2
        refine ⟨by rw [hf, h2, assign_store, ← ih.dev], ?_, ?_, by rw [hf]; exact ih.old, ?_⟩
        · intro t p hp; rw [hp'] at hp; rw [hf]; exact ih.alive t p hp
        · intro t l b hp; rw [hp'] at hp; rw [hf]; exact ih.due t l b hp
        · intro e hm
          rw [hf]
          rcases List.mem_append.mp hm with hm | hm
          · exact ih.sent e hm
          · injection List.mem_singleton.mp hm with hm; rw [hm]; intro s h; cases h
      | call k l r =>
        obtain ⟨k1, k2⟩ := h2
        have k2 : D = (E.says k).1 := k2
        have hf : follow R0 (H ++ [.seen (.call k l r)]) = { follow R0 H with dev := D, sent := (follow R0 H).sent ++ l } := by
          rw [follow_append, k2, show l = (E.says k).2.1 by rw [k1], ← ih.dev]
          cases k <;> rfl
        have hp' : ∀ t, Phase.after t .free (H ++ [.seen (.call k l r)]) = Phase.after t .free H := by
          intro t
          rw [after_snoc]
          cases Phase.after t .free H <;> rfl
        refine ⟨by rw [hf], ?_, ?_, ?_, ?_⟩
        · intro t p hp; rw [hp'] at hp; rw [hf]; exact ih.alive t p hp
        · intro t l b hp s hs; rw [hp'] at hp; rw [hf]; exact List.mem_append_left _ (ih.due t l b hp s hs)
        · intro s hs; rw [hf]; exact List.mem_append_left _ (ih.old s hs)
        · intro e hm s hs
          rw [hf]
          rcases List.mem_append.mp hm with hm | hm
          · exact List.mem_append_left _ (ih.sent e hm s hs)
          · injection List.mem_singleton.mp hm with hm
            rw [hm] at hs
            exact List.mem_append_right _ hs
    | effect u d a l b =>
      obtain ⟨k1, k2⟩ := h2
      have k2 : D = (E.actual d a).1 := k2
      have hgot : Phase.after u .free H = some (.got d a) := by
        have hu := hord u
        rw [after_snoc] at hu
        cases hq : Phase.after u .free H with
        | none => exact absurd hq (hord' u)
        | some q =>
          rw [hq, Option.bind_some] at hu
          have hu : (if u = u then (if q = .got d a then some (Phase.did l b) else none) else some q) ≠ none := hu
          rw [if_pos rfl] at hu
          split at hu
          · rename_i hql; rw [hql]
          · exact absurd rfl hu
      have hlive : (follow R0 H).alive u = true := ih.alive u _ hgot
      have hf : follow R0 (H ++ [.effect u d a l b]) = { dev := D, alive := fun i => if i = u then b else (follow R0 H).alive i, sent := (follow R0 H).sent ++ l } := by
        rw [follow_append]
        show (follow R0 H).arrive ⟨u, d, a⟩ = _
        unfold RefRun.arrive
        rw [if_pos hlive]
        simp only []
        rw [ih.dev, k1, ← k2]
      have hnext : ∀ t, Phase.after t .free (H ++ [.effect u d a l b]) = if u = t then some (.did l b) else Phase.after t .free H := by
        intro t
        rw [after_snoc]
        by_cases hut : u = t
        · subst hut
          rw [hgot, if_pos rfl, Option.bind_some]
          show (if u = u then (if Phase.got d a = .got d a then some (Phase.did l b) else none) else _) = _
          rw [if_pos rfl, if_pos rfl]
        · rw [if_neg hut]
          cases Phase.after t .free H with
          | none => rfl
          | some q => exact if_neg hut
      refine ⟨by rw [hf], ?_, ?_, ?_, ?_⟩
      · intro t p hp
        rw [hnext] at hp
        rw [hf]
        show (if t = u then b else _) = _
        by_cases hut : u = t
        · rw [if_pos hut] at hp
          injection hp with hp
          rw [if_pos hut.symm, ← hp]; rfl
        · rw [if_neg hut] at hp
          rw [if_neg (fun e => hut e.symm)]
          exact ih.alive t p hp
      · intro t l' b' hp s hs
        rw [hnext] at hp
        rw [hf]
        by_cases hut : u = t
        · rw [if_pos hut] at hp
          injection hp with hp
          injection hp with e1 e2
          rw [← e1] at hs
          exact List.mem_append_right _ hs
        · rw [if_neg hut] at hp
          exact List.mem_append_left _ (ih.due t l' b' hp s hs)
      · intro s hs
        rw [hf]
        exact List.mem_append_left _ (ih.old s hs)
      · intro e hm s hs
        rw [hf]
        rcases List.mem_append.mp hm with hm | hm
        · exact List.mem_append_left _ (ih.sent e hm s hs)
        · have hm := List.mem_singleton.mp hm; cases hm

/-! ### What may be new in a step -/

/-- A datagram that takes effect was read. -/
theorem effect_after {t : Nat} {d : Bytes} {a : Addr} {l : List Sent} {b : Bool} : ∀ {N : List Beat} {p : Phase}, Beat.effect t d a l b ∈ N → Phase.after t p N ≠ none → p = .got d a ∨ Beat.seen (.recv t d a) ∈ N
  | [], _, h, _ => by cases h
  | x :: N, p, h, hn => by
    rcases List.mem_cons.mp h with h | h
    · subst h
      left
      by_contra hc
      apply hn
      show ((if t = t then (if p = .got d a then some (Phase.did l b) else none) else some p).bind fun p => p.after t N) = none
      rw [if_pos rfl, if_neg hc]; rfl
    · cases hx : p.next t x with
      | none => exact absurd (show (p.next t x).bind _ = none by rw [hx]; rfl) hn
      | some q =>
        have hn' : Phase.after t q N ≠ none := by
          intro e
          apply hn
          show (p.next t x).bind _ = none
          rw [hx]; exact e
        rcases effect_after h hn' with hq | hr
        · rw [hq] at hx
          rcases got_next hx with e | e
          · exact .inl e
          · rw [e]; exact .inr (List.mem_cons_self ..)
        · exact .inr (List.mem_cons_of_mem _ hr)
where
  got_next {t : Nat} {p : Phase} {x : Beat} {d : Bytes} {a : Addr} (h : p.next t x = some (.got d a)) : p = .got d a ∨ x = .seen (.recv t d a) := by
    cases x with
    | effect u d' a' l b =>
      simp only [Phase.next] at h
      split at h
      · split at h <;> cases h
      · injection h with h; exact .inl h
    | seen e =>
      cases e with
      | app c p' v => injection h with h; exact .inl h
      | call k l r => injection h with h; exact .inl h
      | recv u d' a' =>
        simp only [Phase.next] at h
        split at h
        · rename_i hu
          split at h
          · injection h with h; injection h with e1 e2; right; rw [hu, e1, e2]
          · cases h
        · injection h with h; exact .inl h
      | sent u l =>
        simp only [Phase.next] at h
        split at h
        · split at h <;> cases h
        · injection h with h; exact .inl h
      | ended u =>
        simp only [Phase.next] at h
        split at h
        · split at h <;> cases h
        · injection h with h; exact .inl h

theorem got_after {t : Nat} {d : Bytes} {a : Addr} : ∀ {N : List Beat} {p : Phase}, Phase.after t p N = some (.got d a) → p = .got d a ∨ Beat.seen (.recv t d a) ∈ N
  | [], p, h => by injection h with h; exact .inl h
  | x :: N, p, h => by
    have h : ((p.next t x).bind fun p => Phase.after t p N) = some (Phase.got d a) := h
    cases hx : p.next t x with
    | none => rw [hx] at h; cases h
    | some q =>
      rw [hx] at h
      rcases got_after (N := N) h with hq | hr
      · rw [hq] at hx
        rcases effect_after.got_next hx with e | e
        · exact .inl e
        · rw [e]; exact .inr (List.mem_cons_self ..)
      · exact .inr (List.mem_cons_of_mem _ hr)

/-- What a step adds to the log comes from what happens in it. -/
theorem act_new {net : Net} {G G' : St} {x : Crowd.Act} (h : G.act net x = some G') : ∃ l, G'.log = G.log ++ l ∧ (∀ t d a, Happening.recv t d a ∈ l → x = .arrive t d a) ∧
    (∀ e ∈ l, ∀ u, (Beat.seen e).use = some u → actUse x = some u) ∧ ∀ u, actUse x = some u → ∃ e ∈ l, (Beat.seen e).use = some u := by
  cases x with
  | app c p v =>
    have h : G.app c p v = some G' := h
    unfold St.app at h
    cases hc : G.objs c with
    | none => rw [hc] at h; cases h
    | some s =>
      rw [hc] at h; injection h with h; rw [← h]
      refine ⟨[.app c p v], rfl, fun t d a hm => ?_, fun e hm u hu => ?_, fun u hu => ⟨_, List.mem_singleton.mpr rfl, hu⟩⟩
      · simp at hm
      · rw [List.mem_singleton.mp hm] at hu; exact hu
  | call k =>
    have h : some (G.call net k) = some G' := h
    injection h with h
    rw [← h]
    refine ⟨[.call k _ _], rfl, fun t d a hm => ?_, fun e hm u hu => ?_, fun u hu => ⟨_, List.mem_singleton.mpr rfl, hu⟩⟩
    · simp at hm
    · rw [List.mem_singleton.mp hm] at hu; exact hu
  | run t =>
    have h : G.run net t = some G' := h
    have none_ : ∀ {G'' : St} (l : List Happening), G''.log = G.log ++ l → (∀ u d a, Happening.recv u d a ∉ l) → (∀ e ∈ l, (Beat.seen e).use = none) →
        ∃ l, G''.log = G.log ++ l ∧ (∀ u d a, Happening.recv u d a ∈ l → Crowd.Act.run t = .arrive u d a) ∧
          (∀ e ∈ l, ∀ u, (Beat.seen e).use = some u → actUse (.run t) = some u) ∧ ∀ u, actUse (.run t) = some u → ∃ e ∈ l, (Beat.seen e).use = some u :=
      fun l e h1 h2 => ⟨l, e, fun u d a hm => absurd hm (h1 u d a), fun e he u hu => (by rw [h2 e he] at hu; cases hu), fun u hu => by cases hu⟩
    unfold St.run at h
    repeat' split at h
    all_goals first
      | (cases h; done)
      | (injection h with h; rw [← h]; first
          | exact none_ [] (List.append_nil _).symm (by intros; simp) (by intro e he; cases he)
          | exact none_ [.ended t] rfl (by intros; simp) (by intro e he; rw [List.mem_singleton.mp he]; rfl)
          | exact none_ [.sent t _] rfl (by intros; simp) (by intro e he; rw [List.mem_singleton.mp he]; rfl))
  | arrive t d a =>
    have h : G.arrive t d a = some G' := h
    have hr : ∀ u d' a', Happening.recv u d' a' = .recv t d a → Crowd.Act.arrive t d a = .arrive u d' a' := by
      intro u d' a' e; injection e with e1 e2 e3; rw [e1, e2, e3]
    have some_ : ∀ {G'' : St} (l : List Happening), G''.log = G.log ++ .recv t d a :: l → (∀ u d' a', Happening.recv u d' a' ∉ l) → (∀ e ∈ l, (Beat.seen e).use = none) →
        ∃ l, G''.log = G.log ++ l ∧ (∀ u d' a', Happening.recv u d' a' ∈ l → Crowd.Act.arrive t d a = .arrive u d' a') ∧
          (∀ e ∈ l, ∀ u, (Beat.seen e).use = some u → actUse (.arrive t d a) = some u) ∧ ∀ u, actUse (.arrive t d a) = some u → ∃ e ∈ l, (Beat.seen e).use = some u := by
      intro G'' l e h1 h2
      refine ⟨_, e, fun u d' a' hm => ?_, fun e he u hu => ?_, fun u hu => by cases hu⟩
      · rcases List.mem_cons.mp hm with hm | hm
        · exact hr _ _ _ hm
        · exact absurd hm (h1 _ _ _)
      · rcases List.mem_cons.mp he with he | he
        · rw [he] at hu; cases hu
        · rw [h2 e he] at hu; cases hu
    have hs : ∀ (G : St) (x y : Happening), ((G.emit x).emit y).log = G.log ++ [x, y] := by
      intro G x y
      show (G.log ++ [x]) ++ [y] = _
      rw [List.append_assoc]; rfl
    unfold St.arrive at h
    simp only [not_self, Bool.false_eq_true, if_false] at h
    repeat' split at h
    all_goals first
      | (cases h; done)
      | (injection h with h; rw [← h]; first
          | exact some_ [] rfl (by intros; simp) (by intro e he; cases he)
          | exact some_ [.sent t []] (hs G _ _) (by intros; simp) (by intro e he; rw [List.mem_singleton.mp he]; rfl)
          | exact some_ [.ended t] (hs G _ _) (by intros; simp) (by intro e he; rw [List.mem_singleton.mp he]; rfl))

/-- Only sending sends. -/
theorem act_node {net : Net} {G G' : St} {x : Crowd.Act} (h : G.act net x = some G') (hx : ∀ t req r, x = .run t → G.places t ≠ .sending req r) (hk : ∀ k, x ≠ .call k) : G'.node = G.node := by
  cases x with
  | call k => exact absurd rfl (hk k)
  | app c p v =>
    have h : G.app c p v = some G' := h
    unfold St.app at h
    split at h
    · cases h
    · injection h with h; rw [← h]; rfl
  | run t =>
    have h : G.run net t = some G' := h
    unfold St.run at h
    repeat' split at h
    all_goals first
      | (cases h; done)
      | (exact absurd (by assumption) (hx t _ _ rfl))
      | (injection h with h; rw [← h]; rfl)
  | arrive t d a =>
    have h : G.arrive t d a = some G' := h
    unfold St.arrive at h
    simp only [not_self, Bool.false_eq_true, if_false] at h
    repeat' split at h
    all_goals first
      | (cases h; done)
      | (injection h with h; rw [← h]; rfl)

/-! ### A device and the one that goes along with it -/

/-- What a device has to be like. -/
structure Prepared (r : Running LocalNode) : Prop where
  obj : ∀ c o, r.st.getObject (.int c) = some o → WellFormed o ∧ o.handler = .self_
  ctl : r.st.controller = false
  short : Short (deviceOf r.st)
  can : CanSend r.st.mgr
  alive : ∀ i, r.alive i = true

/-- `Q` goes along with `G`; it has done `us`. All that has been read and not yet handled is `C`. -/
def DevSim (r0 : Running LocalNode) (Λ : List Happening) (C : Bytes → Addr → Prop) (G : St) (Q : RefRun) (us : List Use) : Prop :=
  ∃ H hs, CrowdInv r0.st (MayChangeAt (deviceOf r0.st) Λ) H hs G ∧ Q = follow (runOf r0) H ∧ H.filterMap Beat.use = us ∧
    (∀ s ∈ sentCrowd G, s ∈ sentBy r0 ∨ ∃ e ∈ G.log, s ∈ e.out) ∧ ∀ t d a, Phase.after t .free H = some (.got d a) → C d a

theorem inv_order {n0 : LocalNode} {L : Int → Int → Prop} {H : List Beat} {hs : Int → List Instant} {G : St} (hi : CrowdInv n0 L H hs G) : ∀ t, Phase.after t .free H ≠ none := by
  intro t
  have ht := hi.threads t
  cases hp : G.places t with
  | free => rw [hp] at ht; rw [show Phase.after t .free H = some .free from ht]; simp
  | dead => rw [hp] at ht; rw [show Phase.after t .free H = some .over from ht]; simp
  | sending req r =>
    rw [hp] at ht
    obtain ⟨a, -, h, -⟩ := ht
    rw [h]; simp
  | inside req =>
    rw [hp] at ht
    obtain ⟨d, a, w, -, -, -, ⟨-, h⟩ | ⟨r, b, -, h, -⟩⟩ := ht
    · rw [h]; simp
    · rw [h]; simp

theorem seen_mem {H : List Beat} {e : Happening} : Beat.seen e ∈ H ↔ e ∈ beatsSeen H := by
  unfold beatsSeen
  rw [List.mem_filterMap]
  constructor
  · intro h; exact ⟨_, h, rfl⟩
  · rintro ⟨x, hx, he⟩
    cases x with
    | seen e' => injection he with he; rw [← he]; exact hx
    | effect => cases he

variable {r0 : Running LocalNode} {Λ : List Happening} {C : Bytes → Addr → Prop} {G G' : St} {Q : RefRun} {us : List Use}

theorem dev_begin (hr : Prepared r0) : DevSim r0 Λ C (begin r0.st) (runOf r0) [] := by
  refine ⟨[], fun _ => [], begin_inv hr.obj hr.ctl hr.short _, rfl, rfl, fun s hs => .inl hs, fun t d a h => ?_⟩
  injection h with h; cases h

theorem dev_same (hr : Prepared r0) (h : DevSim r0 Λ C G Q us) : Q.dev = crowdDevice G ∧ (∀ s ∈ sentCrowd G, s ∈ Q.sent) ∧ ∃ h, Tale (deviceOf r0.st) G.log h (crowdDevice G) ∧ h.filterMap Beat.use = us := by
  obtain ⟨H, hs, hi, rfl, hu, hsent, -⟩ := h
  have f := follows (R0 := runOf r0) hr.alive H (crowdDevice G) hi.inTurn (inv_order hi)
  refine ⟨f.dev, fun s hs => ?_, H, ⟨hi.same, hi.inTurn, inv_order hi⟩, hu⟩
  rcases hsent s hs with h | ⟨e, h1, h2⟩
  · exact f.old s h
  · exact f.sent e (seen_mem.mpr (by rw [hi.same]; exact h1)) s h2

theorem dev_more {C' : Bytes → Addr → Prop} (hC : ∀ d a, C d a → C' d a) (h : DevSim r0 Λ C G Q us) : DevSim r0 Λ C' G Q us := by
  obtain ⟨H, hs, h1, h2, h3, h4, h5⟩ := h
  exact ⟨H, hs, h1, h2, h3, h4, fun t d a h => hC _ _ (h5 t d a h)⟩

/-- A step of a device is one of the device that goes along, or none. -/
theorem dev_step {net : Net} (hnet : NetWorks net) (hr : Prepared r0) (hone : ∀ t d a, Happening.recv t d a ∈ Λ → OneAt (deviceOf r0.st) Λ d) (h : DevSim r0 Λ C G Q us) {x : Crowd.Act} (hx : G.act net x = some G')
    (hsub : ∀ e ∈ G'.log, e ∈ Λ) (hC : ∀ t d a, x = .arrive t d a → C d a) {ip : String} (hf : Move.Fair (.device ip x)) :
    (DevSim r0 Λ C G' Q us ∧ actUse x = none) ∨
      ∃ u, DevSim r0 Λ C G' (Q.use u).1 (us ++ [u]) ∧ u.Fair ∧ (actUse x = some u ∨ actUse x = none ∧ ∃ y, u = .arrive y) ∧ ∀ y, u = .arrive y → C y.bytes y.src := by
  obtain ⟨H, hs, hi, rfl, hu, hsent, hgot⟩ := h
  obtain ⟨s1, s2⟩ := act_says hx
  obtain ⟨l, hl, new1, new2, new3⟩ := act_new hx
  have hstep : ∃ N hs', CrowdInv r0.st (MayChangeAt (deviceOf r0.st) Λ) (H ++ N) hs' G' ∧ Brief N ∧
      ∀ s ∈ sentCrowd G', s ∈ sentCrowd G ∨ ∃ e ∈ G'.log, s ∈ e.out := by
    have quiet : (∀ t req r, x = .run t → G.places t ≠ .sending req r) → (∀ k, x ≠ .call k) → ∀ s ∈ sentCrowd G', s ∈ sentCrowd G ∨ ∃ e ∈ G'.log, s ∈ e.out := by
      intro hq hk s hs
      left
      unfold sentCrowd at hs ⊢
      rw [act_node hx hq hk] at hs
      exact hs
    cases x with
    | arrive t d a =>
      obtain ⟨N, hs', k1, k2⟩ := arrive_step hr.obj hr.ctl hi hx (hone t d a (hsub _ (s1 t d a rfl)))
        (fun m hm u hu c hc hw => .inl ⟨u, hu, hc, t, d, a, m, hsub _ (s1 t d a rfl), hm, rfl, hw⟩)
      exact ⟨N, hs', k1, k2, quiet (by intro _ _ _ e; cases e) (by intro _ e; cases e)⟩
    | app c p v =>
      obtain ⟨N, hs', k1, k2⟩ := app_step hr.obj hi hx (.inr ⟨v, hsub _ (s2 c p v rfl)⟩) (Nat.lt_succ_of_le hf.2)
      exact ⟨N, hs', k1, k2, quiet (by intro _ _ _ e; cases e) (by intro _ e; cases e)⟩
    | run t =>
      have hx' : G.run net t = some G' := hx
      cases hpl : G.places t with
      | free => unfold St.run at hx'; rw [hpl] at hx'; cases hx'
      | dead => unfold St.run at hx'; rw [hpl] at hx'; cases hx'
      | inside req =>
        obtain ⟨N, hs', k1, k2⟩ := inside_step hr.obj hr.ctl hi hpl hx'
        refine ⟨N, hs', k1, k2, quiet ?_ (by intro _ e; cases e)⟩
        intro u req' r e
        injection e with e
        rw [← e, hpl]; simp
      | sending req r =>
        obtain ⟨N, hs', k1, k2, l, k3, k4⟩ := send_step hr.can hnet hi hpl hx'
        refine ⟨N, hs', k1, k2, fun s hs => ?_⟩
        unfold sentCrowd at hs
        rw [k4] at hs
        rcases List.mem_append.mp hs with hs | hs
        · exact .inl hs
        · exact .inr ⟨_, k3, hs⟩
    | call k =>
      have hx' : some (G.call net k) = some G' := hx
      injection hx' with hx'
      obtain ⟨N, hs', k1, k2, l, r, k3, k4⟩ := call_step hr.can hnet hi k
      rw [hx'] at k1 k3 k4
      refine ⟨N, hs', k1, k2, fun s hs => ?_⟩
      unfold sentCrowd at hs
      rw [k4] at hs
      rcases List.mem_append.mp hs with hs | hs
      · exact .inl hs
      · exact .inr ⟨_, k3, hs⟩
  obtain ⟨N, hs', hi', hb, hnew⟩ := hstep
  have hsent' : ∀ s ∈ sentCrowd G', s ∈ sentBy r0 ∨ ∃ e ∈ G'.log, s ∈ e.out := by
    intro s hs
    rcases hnew s hs with hs | hs
    · rcases hsent s hs with hs | ⟨e, k1, k2⟩
      · exact .inl hs
      · exact .inr ⟨e, by rw [hl]; exact List.mem_append_left _ k1, k2⟩
    · exact .inr hs
  have hN : beatsSeen N = l := by
    have := hi'.same
    rw [beatsSeen_append, hi.same, hl] at this
    exact List.append_cancel_left this
  have hgot' : ∀ t d a, Phase.after t .free (H ++ N) = some (.got d a) → C d a := by
    intro t d a h
    rw [beats_append] at h
    cases hq : Phase.after t .free H with
    | none => exact absurd hq (inv_order hi t)
    | some q =>
      rw [hq, Option.bind_some] at h
      rcases got_after h with e | e
      · exact hgot t d a (by rw [hq, e])
      · exact hC t d a (new1 t d a (by rw [← hN]; exact seen_mem.mp e))
  have hfol : ∀ R : RefRun, follow R (H ++ N) = follow (follow R H) N := fun R => follow_append R H N
  have mem_use : ∀ {u}, actUse x = some u → u ∈ N.filterMap Beat.use := by
    intro u hxu
    obtain ⟨e, he, heu⟩ := new3 u hxu
    exact List.mem_filterMap.mpr ⟨.seen e, seen_mem.mpr (by rw [hN]; exact he), heu⟩
  rcases hU : N.filterMap Beat.use with _ | ⟨u, _ | ⟨v, rest⟩⟩
  · left
    refine ⟨⟨H ++ N, hs', hi', ?_, ?_, hsent', hgot'⟩, ?_⟩
    · rw [hfol]
      conv => rhs; unfold follow
      rw [hU]; rfl
    · rw [List.filterMap_append, hU, hu, List.append_nil]
    · cases hxu : actUse x with
      | none => rfl
      | some u =>
        have := mem_use hxu
        rw [hU] at this
        cases this
  · right
    obtain ⟨b, hbN, hbu⟩ := List.mem_filterMap.mp (show u ∈ N.filterMap Beat.use by rw [hU]; exact List.mem_singleton.mpr rfl)
    refine ⟨u, ⟨H ++ N, hs', hi', ?_, ?_, hsent', hgot'⟩, ?_⟩
    · rw [hfol]
      conv => rhs; unfold follow
      rw [hU]; rfl
    · rw [List.filterMap_append, hU, hu]
    · cases b with
      | effect t d a l' b' =>
        injection hbu with hbu
        subst hbu
        refine ⟨trivial, ?_, ?_⟩
        · right
          refine ⟨?_, _, rfl⟩
          cases hxu : actUse x with
          | none => rfl
          | some v =>
            have := mem_use hxu
            rw [hU] at this
            rw [List.mem_singleton.mp this] at hxu
            cases x with
            | app => cases hxu
            | call k => cases k <;> cases hxu
            | _ => cases hxu
        intro y hy
        injection hy with hy
        rw [← hy]
        show C d a
        have hn := inv_order hi' t
        rw [beats_append] at hn
        cases hq : Phase.after t .free H with
        | none => exact absurd hq (inv_order hi t)
        | some q =>
          rw [hq, Option.bind_some] at hn
          rcases effect_after hbN hn with e | e
          · exact hgot t d a (by rw [hq, e])
          · exact hC t d a (new1 t d a (by rw [← hN]; exact seen_mem.mp e))
      | seen e =>
        have hxu := new2 e (by rw [← hN]; exact seen_mem.mp hbN) u hbu
        cases x with
        | app c p v =>
          injection hxu with hxu'
          subst hxu'
          exact ⟨hf, .inl rfl, by intro y hy; cases hy⟩
        | call k =>
          injection hxu with hxu'
          subst hxu'
          cases k <;> exact ⟨trivial, .inl rfl, by intro y hy; cases hy⟩
        | _ => cases hxu
  · have hb : (N.filterMap Beat.use).length ≤ 1 := hb
    rw [hU] at hb
    simp at hb

/-! ### Networks -/

section
variable (ord : List Int → List Int) (env : Env)

structure BusySim (N0 : RealNet) (Λ : String → List Happening) (N : BusyNet) (R : RefNet) (es : List Incident) : Prop where
  dev : ∀ ip, match N0.devices ip with
    | none => N.devices ip = none ∧ R.devices ip = none
    | some r0 => ∃ G Q, N.devices ip = some G ∧ R.devices ip = some Q ∧ DevSim r0 (Λ ip) (fun d a => R.Carried RefRun.sent RefCtlRun.sent a.1 ip d) G Q (atDevice ip es)
  ctl : ∀ ip, R.controllers ip = (N.controllers ip).map ctlRunOf
  fit : ∀ ip r, N.controllers ip = some r → CtlFit ord env r.st

end

variable {ord : List Int → List Int} {env : Env} {N0 : RealNet} {Ω : String → List Happening} {N N' : BusyNet} {R : RefNet} {es : List Incident}

theorem busy_dev (h : BusySim ord env N0 Ω N R es) {ip : String} {G : St} (hG : N.devices ip = some G) : ∃ r0 Q, N0.devices ip = some r0 ∧ R.devices ip = some Q ∧
    DevSim r0 (Ω ip) (fun d a => R.Carried RefRun.sent RefCtlRun.sent a.1 ip d) G Q (atDevice ip es) := by
  have hd := h.dev ip
  cases h0 : N0.devices ip with
  | none => rw [h0] at hd; rw [hd.1] at hG; cases hG
  | some r0 =>
    rw [h0] at hd
    obtain ⟨G1, Q, k1, k2, k3⟩ := hd
    rw [k1] at hG
    injection hG with hG
    rw [← hG]
    exact ⟨r0, Q, rfl, k2, k3⟩

theorem busy_carried (hready : ∀ ip r, N0.devices ip = some r → Prepared r) (h : BusySim ord env N0 Ω N R es) {src dst : String} {b : Bytes} (hc : N.Carried sentCrowd sentByCtl src dst b) :
    R.Carried RefRun.sent RefCtlRun.sent src dst b := by
  obtain ⟨s, h1, h2⟩ := hc
  refine ⟨s, ?_, h2⟩
  rcases h1 with ⟨G, hG, hs⟩ | ⟨r, hr, hs⟩
  · obtain ⟨r0, Q, k1, k2, k3⟩ := busy_dev h hG
    exact .inl ⟨Q, k2, (dev_same (hready _ _ k1) k3).2.1 s hs⟩
  · exact .inr ⟨ctlRunOf r, by rw [h.ctl, hr]; rfl, hs⟩

theorem at_snoc (ip : String) (es : List Incident) (e : Incident) : atDevice ip (es ++ [e]) = atDevice ip es ++ atDevice ip [e] := List.filterMap_append

/-- A step of the network is one of the network that goes along, or none. -/
theorem busy_step (hord : ValidOrder ord) (hc : CodeStable env) {cenv : CEnv} (hcalm : Calm cenv) {net : Net} (hnet : NetWorks net) (hready : ∀ ip r, N0.devices ip = some r → Prepared r)
    (hone : ∀ ip r, N0.devices ip = some r → ∀ t d a, Happening.recv t d a ∈ Ω ip → OneAt (deviceOf r.st) (Ω ip) d) (h : BusySim ord env N0 Ω N R es) {m : Move} (hf : m.Fair)
    (hreal : BusyNet.Real N m) (hstep : BusyNet.step ord env cenv net N m = some N') (hlog : ∀ ip G, N'.devices ip = some G → ∀ e ∈ G.log, e ∈ Ω ip) :
    (BusySim ord env N0 Ω N' R es ∧ m.Stands none) ∨ ∃ e, BusySim ord env N0 Ω N' (R.step RefRun.use (RefCtlRun.use (freshData ord)) e).1 (es ++ [e]) ∧ R.Real RefRun.sent RefCtlRun.sent e ∧ e.Fair ∧
      m.Stands (some e) := by
  cases m with
  | device ip x =>
    unfold BusyNet.step at hstep
    simp only [] at hstep
    cases hG : N.devices ip with
    | none => rw [hG] at hstep; cases hstep
    | some G =>
      rw [hG] at hstep
      simp only [] at hstep
      cases hx : G.act net x with
      | none => rw [hx] at hstep; cases hstep
      | some G' =>
        rw [hx] at hstep
        injection hstep with hstep
        have hG' : N'.devices ip = some G' := by rw [← hstep]; exact if_pos rfl
        have hoth : ∀ ip', ip' ≠ ip → N'.devices ip' = N.devices ip' := by intro ip' hne; rw [← hstep]; exact if_neg hne
        have hctl : N'.controllers = N.controllers := by rw [← hstep]
        obtain ⟨r0, Q, h0, hQ, hsim⟩ := busy_dev h hG
        have hC : ∀ t d a, x = .arrive t d a → R.Carried RefRun.sent RefCtlRun.sent a.1 ip d := by
          rintro t d a rfl
          exact busy_carried hready h hreal
        rcases dev_step hnet (hready ip r0 h0) (hone ip r0 h0) hsim hx (hlog ip G' hG') hC hf with ⟨k, k0⟩ | ⟨u, k1, k2, k3, k4⟩
        · left
          refine ⟨⟨fun ip' => ?_, by rw [hctl]; exact h.ctl, by rw [hctl]; exact h.fit⟩, k0⟩
          by_cases hip : ip' = ip
          · subst hip
            rw [h0]
            exact ⟨G', Q, hG', hQ, k⟩
          · rw [hoth ip' hip]; exact h.dev ip'
        · right
          have hmono : ∀ {src dst : String} {b : Bytes}, R.Carried RefRun.sent RefCtlRun.sent src dst b → (R.step RefRun.use (RefCtlRun.use (freshData ord)) (.device ip u)).1.Carried RefRun.sent RefCtlRun.sent src dst b :=
            fun hc => step_carried (freshData ord) R (.device ip u) hc
          refine ⟨.device ip u, ⟨fun ip' => ?_, ?_, by rw [hctl]; exact h.fit⟩, ?_, k2, ?_⟩
          · by_cases hip : ip' = ip
            · subst hip
              rw [h0]
              refine ⟨G', (Q.use u).1, hG', ?_, ?_⟩
              · simp only [Home.step, hQ, if_true]
              · rw [at_snoc, show atDevice ip' [.device ip' u] = [u] by simp [atDevice]]
                exact dev_more (fun d a => hmono) k1
            · have hd := h.dev ip'
              have hR : (R.step RefRun.use (RefCtlRun.use (freshData ord)) (.device ip u)).1.devices ip' = R.devices ip' := by
                simp only [Home.step, hQ, if_neg hip]
              cases h0' : N0.devices ip' with
              | none =>
                rw [h0'] at hd
                simp only []
                rw [hoth ip' hip, hR]; exact hd
              | some r0' =>
                rw [h0'] at hd
                simp only [] at hd ⊢
                obtain ⟨G1, Q1, j1, j2, j3⟩ := hd
                refine ⟨G1, Q1, by rw [hoth ip' hip]; exact j1, by rw [hR]; exact j2, ?_⟩
                rw [at_snoc, show atDevice ip' [.device ip u] = [] by simp [atDevice, Ne.symm hip], List.append_nil]
                exact dev_more (fun d a => hmono) j3
          · intro ip'
            rw [hctl]
            simp only [Home.step, hQ]
            exact h.ctl ip'
          · cases u with
            | arrive y => exact k4 y rfl
            | _ => exact trivial
          · exact ⟨rfl, k3⟩
  | controller ip u =>
    right
    unfold BusyNet.step at hstep
    simp only [] at hstep
    cases hr : N.controllers ip with
    | none => rw [hr] at hstep; cases hstep
    | some r =>
      rw [hr] at hstep
      injection hstep with hstep
      have hR : R.controllers ip = some (ctlRunOf r) := by rw [h.ctl, hr]; rfl
      obtain ⟨k1, k2, -⟩ := ctl_use hord hc hcalm net hnet r (h.fit ip r hr) u hf
      have hmono : ∀ {src dst : String} {b : Bytes}, R.Carried RefRun.sent RefCtlRun.sent src dst b → (R.step RefRun.use (RefCtlRun.use (freshData ord)) (.controller ip u)).1.Carried RefRun.sent RefCtlRun.sent src dst b :=
        fun hc => step_carried (freshData ord) R (.controller ip u) hc
      have hdev : N'.devices = N.devices := by rw [← hstep]
      have hRd : (R.step RefRun.use (RefCtlRun.use (freshData ord)) (.controller ip u)).1.devices = R.devices := by simp only [Home.step, hR]
      refine ⟨.controller ip u, ⟨fun ip' => ?_, fun ip' => ?_, fun ip' r' hr' => ?_⟩, ?_, hf, rfl, rfl⟩
      · have hd := h.dev ip'
        rw [hdev, hRd]
        cases h0' : N0.devices ip' with
        | none => rw [h0'] at hd; exact hd
        | some r0' =>
          rw [h0'] at hd
          obtain ⟨G1, Q1, j1, j2, j3⟩ := hd
          refine ⟨G1, Q1, j1, j2, ?_⟩
          rw [at_snoc, show atDevice ip' [.controller ip u] = [] by simp [atDevice], List.append_nil]
          exact dev_more (fun d a => hmono) j3
      · rw [← hstep]
        simp only [Home.step, hR]
        by_cases hip : ip' = ip
        · rw [if_pos hip, if_pos hip, ← k2]; rfl
        · rw [if_neg hip, if_neg hip]; exact h.ctl ip'
      · rw [← hstep] at hr'
        have hr' : (if ip' = ip then some (ctlUse ord env cenv net r u).1 else N.controllers ip') = some r' := hr'
        by_cases hip : ip' = ip
        · rw [if_pos hip] at hr'
          injection hr' with hr'
          rw [← hr']; exact k1
        · rw [if_neg hip] at hr'
          exact h.fit ip' r' hr'
      · cases u with
        | device u =>
          cases u with
          | arrive y => exact busy_carried hready h hreal
          | _ => exact trivial
        | _ => exact trivial

theorem logs_grow {cenv : CEnv} {net : Net} {m : Move} (h : BusyNet.step ord env cenv net N m = some N') {ip : String} {G : St} (hG : N.devices ip = some G) : ∃ G', N'.devices ip = some G' ∧ G.log <+: G'.log := by
  cases m with
  | controller ip' u =>
    unfold BusyNet.step at h
    simp only [] at h
    cases hr : N.controllers ip' with
    | none => rw [hr] at h; cases h
    | some r => rw [hr] at h; injection h with h; rw [← h]; exact ⟨G, hG, List.prefix_rfl⟩
  | device ip' x =>
    unfold BusyNet.step at h
    simp only [] at h
    cases hr : N.devices ip' with
    | none => rw [hr] at h; cases h
    | some G1 =>
      rw [hr] at h
      simp only [] at h
      cases hx : G1.act net x with
      | none => rw [hx] at h; cases h
      | some G2 =>
        rw [hx] at h
        injection h with h
        rw [← h]
        by_cases hip : ip = ip'
        · subst hip
          rw [hr] at hG
          injection hG with hG
          rw [← hG]
          exact ⟨G2, if_pos rfl, happenings_grow hx⟩
        · exact ⟨G, (if_neg hip).trans hG, List.prefix_rfl⟩

/-- A run ends with a step. -/
theorem runs_snoc {cenv : CEnv} {net : Net} {B B' : BusyNet} {ms : List Move} {m : Move} (h : BusyNet.Runs ord env cenv net B (ms ++ [m]) B') :
    ∃ B1, BusyNet.Runs ord env cenv net B ms B1 ∧ BusyNet.Real B1 m ∧ BusyNet.step ord env cenv net B1 m = some B' := by
  generalize hq : ms ++ [m] = qs at h
  cases h with
  | start => simp at hq
  | move m' h hreal hstep =>
    obtain ⟨e1, e2⟩ := List.append_inj' hq rfl
    injection e2 with e2
    subst e1; subst e2
    exact ⟨_, h, hreal, hstep⟩

theorem runs_unique {cenv : CEnv} {net : Net} {B B1 B2 : BusyNet} {ms : List Move} (h1 : BusyNet.Runs ord env cenv net B ms B1) (h2 : BusyNet.Runs ord env cenv net B ms B2) : B1 = B2 := by
  induction ms using List.reverseRecOn generalizing B1 B2 with
  | nil =>
    have key : ∀ {qs : List Move} {B' : BusyNet}, BusyNet.Runs ord env cenv net B qs B' → qs = [] → B' = B := by
      intro qs B' h hq
      cases h with
      | start => rfl
      | move => simp at hq
    rw [key h1 rfl, key h2 rfl]
  | append_singleton ms m ih =>
    obtain ⟨C1, k1, -, k2⟩ := runs_snoc h1
    obtain ⟨C2, j1, -, j2⟩ := runs_snoc h2
    rw [ih k1 j1, j2] at k2
    injection k2 with k2
    exact k2.symm

end Uecho
