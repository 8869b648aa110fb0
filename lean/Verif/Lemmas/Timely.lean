/- Lemmas for C169. -/
import Verif.Spec.Timely

namespace Uecho
open Spec Crowd

/-! ### What a device becomes -/

theorem Spec.AskedFor.mono {log log' : List Happening} (h : ∀ e ∈ log, e ∈ log') {c p : Int} {v : Bytes} (hx : AskedFor log c p v) : AskedFor log' c p v := by
  obtain ⟨u, d, a, m, h1, h2⟩ := hx
  exact ⟨u, d, a, m, h _ h1, h2⟩

theorem Spec.Grown.mono {log log' : List Happening} (h : ∀ e ∈ log, e ∈ log') {D D' : RefDevice} (hx : Grown log D D') : Grown log' D D' := by
  refine ⟨hx.ifs, hx.ctl, fun c => ?_⟩
  have := hx.things c
  revert this
  generalize D.things c = x, D'.things c = y
  rintro (⟨h1, h2⟩ | _)
  · refine .some ⟨h1, fun p => ?_⟩
    have := h2 p
    revert this
    rename_i t t' 
    generalize t.props p = x, t'.props p = y
    rintro (⟨k1, k2, k3⟩ | _)
    · refine .some ⟨k1, k2, ?_⟩
      rcases k3 with k | k | ⟨k, k'⟩
      · exact .inl k
      · exact .inr (.inl (h _ k))
      · exact .inr (.inr ⟨k, k'.mono h⟩)
    · exact .none
  · exact .none

theorem thingGrown_refl (log : List Happening) (c : Int) (t : Thing) : ThingGrown log c t t := by
  refine ⟨rfl, fun p => ?_⟩
  cases t.props p with
  | none => exact .none
  | some e => exact .some ⟨rfl, rfl, .inl rfl⟩

theorem grown_refl (log : List Happening) (D : RefDevice) : Grown log D D := by
  refine ⟨rfl, rfl, fun c => ?_⟩
  cases D.things c with
  | none => exact .none
  | some t => exact .some (thingGrown_refl ..)

theorem Spec.ThingGrown.put {log : List Happening} {c : Int} {t t' : Thing} (h : ThingGrown log c t t') (i : PProp) (hi : AskedFor log c i.code i.data) : ThingGrown log c t (t'.put i) := by
  refine ⟨h.serves, fun p => ?_⟩
  have hp := h.props p
  show Option.Rel _ (t.props p) (if p = i.code then _ else t'.props p)
  split
  · rename_i hpi
    subst hpi
    revert hp
    generalize t.props i.code = x, t'.props i.code = y
    rintro (⟨k1, k2, k3⟩ | _)
    · rename_i e e'
      show Option.Rel _ (some e) (some (if e'.writable = true then _ else e'))
      split
      · rename_i hw
        exact .some ⟨k1, k2, .inr (.inr ⟨k2 ▸ hw, hi⟩)⟩
      · exact .some ⟨k1, k2, k3⟩
    · exact .none
  · exact hp

theorem Spec.ThingGrown.puts {log : List Happening} {c : Int} {t : Thing} : ∀ (is : List PProp) {t' : Thing}, ThingGrown log c t t' → (∀ i ∈ is, AskedFor log c i.code i.data) →
    ThingGrown log c t (t'.puts is)
  | [], _, h, _ => h
  | i :: is, _, h, hi => Spec.ThingGrown.puts is (h.put i (hi i (by simp))) fun j hj => hi j (by simp [hj])

theorem Spec.ThingGrown.assign {log : List Happening} {c : Int} {t t' : Thing} (h : ThingGrown log c t t') {p : Int} {v : Bytes} (hv : Happening.app c p v ∈ log) :
    ThingGrown log c t (t'.assign p v) := by
  refine ⟨h.serves, fun q => ?_⟩
  have hp := h.props q
  show Option.Rel _ (t.props q) (if q = p then _ else t'.props q)
  split
  · rename_i hpi
    subst hpi
    revert hp
    generalize t.props q = x, t'.props q = y
    rintro (⟨k1, k2, k3⟩ | _)
    · exact .some ⟨k1, k2, .inr (.inl hv)⟩
    · exact .none
  · exact hp

theorem Spec.Grown.setThing {log : List Happening} {D D' : RefDevice} (h : Grown log D D') {c : Int} {t' : Thing} (ht : D'.things c = some t') {t'' : Thing}
    (hg : ∀ t, D.things c = some t → ThingGrown log c t t' → ThingGrown log c t t'') : Grown log D (D'.setThing c t'') := by
  refine ⟨h.ifs, h.ctl, fun c' => ?_⟩
  have hc := h.things c'
  show Option.Rel _ (D.things c') (if c' = c then some t'' else D'.things c')
  split
  · rename_i hcc
    subst hcc
    rw [ht] at hc
    cases hd : D.things c' with
    | none => rw [hd] at hc; cases hc
    | some t =>
      rw [hd] at hc
      cases hc with
      | some k => exact .some (hg t hd k)
  · exact hc

theorem thing_actual_grown {log : List Happening} {u : Nat} {d : Bytes} {a : Addr} {m : Msg} (hl : Happening.recv u d a ∈ log) (hm : readMsg (d.take 1024) = some m) {t t' : Thing}
    (h : ThingGrown log m.deoj t t') : ThingGrown log m.deoj t (t'.actual m).1 := by
  have hp : (m.esv = 0x60 ∨ m.esv = 0x61) → ThingGrown log m.deoj t (t'.puts m.props) := fun he =>
    ThingGrown.puts _ h fun i hi => ⟨u, d, a, m, hl, hm, rfl, .inl ⟨he, i, hi, rfl, rfl⟩⟩
  have hp' : m.esv = 0x6E → ThingGrown log m.deoj t (t'.puts m.setProps) := fun he =>
    ThingGrown.puts _ h fun i hi => ⟨u, d, a, m, hl, hm, rfl, .inr ⟨he, i, hi, rfl, rfl⟩⟩
  unfold Thing.actual
  split
  · exact h
  split
  · rename_i he; exact hp (.inl he)
  split
  · rename_i he; exact hp (.inr he)
  split
  · exact h
  split
  · exact h
  split
  · rename_i he
    simp only []
    split
    · exact hp' he
    · exact hp' he
  split
  · exact h
  · exact h

theorem actual_grown {log : List Happening} {u : Nat} {d : Bytes} {a : Addr} (hl : Happening.recv u d a ∈ log) {D D' : RefDevice} (h : Grown log D D') : Grown log D (D'.actual d a).1 := by
  unfold RefDevice.actual
  cases hm : readMsg (d.take 1024) with
  | none => exact h
  | some m =>
    simp only []
    cases ht : D'.things m.deoj with
    | none => exact h
    | some t' =>
      have hg : Grown log D (D'.setThing m.deoj (t'.actual m).1) := h.setThing ht fun t _ k => thing_actual_grown hl hm k
      simp only []
      split
      · exact hg
      · split
        · split
          · exact ⟨hg.ifs, hg.ctl, hg.things⟩
          · exact hg
        · split
          · exact ⟨hg.ifs, hg.ctl, hg.things⟩
          · exact hg

theorem says_grown {log : List Happening} {D D' : RefDevice} (h : Grown log D D') (k : Speech) : Grown log D (D'.says k).1 := by
  have hc : ∀ m, Grown log D (D'.counted m) := fun m => by
    unfold RefDevice.counted
    split
    · exact ⟨h.ifs, h.ctl, h.things⟩
    · exact ⟨h.ifs, h.ctl, h.things⟩
  unfold RefDevice.says
  cases k with
  | announce m => simp only [RefDevice.announce]; split <;> exact hc m
  | send m a =>
    cases a with
    | none => exact hc m
    | some a => simp only [RefDevice.send]; split <;> exact hc m

/-! ### Stories -/

/-- What of a story can be seen. -/
def visible (h : List Beat) : List Happening := h.filterMap fun | .seen e => some e | .effect .. => none

theorem phase_after_append (t : Nat) : ∀ (h h' : List Beat) (p : Phase), Phase.after t p (h ++ h') = (Phase.after t p h).bind fun q => Phase.after t q h'
  | [], _, _ => rfl
  | x :: h, h', p => by
    show (p.next t x).bind _ = ((p.next t x).bind _).bind _
    rw [Option.bind_assoc]
    congr 1
    funext q
    exact phase_after_append t h h' q

/-- A datagram that has its effect was read. -/
theorem effect_read {t : Nat} {d : Bytes} {a : Addr} {l : List Sent} {b : Bool} : ∀ (h : List Beat) (p : Phase), Phase.after t p h ≠ none → Beat.effect t d a l b ∈ h →
    p = .got d a ∨ Happening.recv t d a ∈ visible h
  | [], _, _, hm => by cases hm
  | x :: h, p, ho, hm => by
    rcases List.mem_cons.mp hm with rfl | hm
    · left
      by_cases hp : p = .got d a
      · exact hp
      · exfalso
        apply ho
        show Option.bind (Phase.next t p (.effect t d a l b)) _ = none
        rw [show Phase.next t p (.effect t d a l b) = none by simp [Phase.next, hp]]
        rfl
    · cases hn : Phase.next t p x with
      | none => exact absurd (show Phase.after t p (x :: h) = none by show Option.bind (Phase.next t p x) _ = none; rw [hn]; rfl) ho
      | some q =>
        have ho' : Phase.after t q h ≠ none := by
          intro h'; apply ho; show Option.bind (Phase.next t p x) _ = none; rw [hn]; exact h'
        rcases effect_read h q ho' hm with rfl | hv
        · cases x with
          | effect u d' a' l' b' =>
            simp only [Phase.next] at hn
            split at hn
            · split at hn
              · cases hn
              · cases hn
            · injection hn with hn; exact .inl hn
          | seen e =>
            cases e with
            | recv u d' a' =>
              simp only [Phase.next] at hn
              split at hn
              · rename_i hu
                split at hn
                · injection hn with hn
                  injection hn with h1 h2
                  right; subst hu h1 h2; exact List.mem_cons_self
                · cases hn
              · injection hn with hn; exact .inl hn
            | sent u l' =>
              simp only [Phase.next] at hn
              split at hn
              · split at hn <;> cases hn
              · injection hn with hn; exact .inl hn
            | ended u =>
              simp only [Phase.next] at hn
              split at hn
              · split at hn <;> cases hn
              · injection hn with hn; exact .inl hn
            | app c p' v => simp only [Phase.next] at hn; injection hn with hn; exact .inl hn
            | call k l' r => simp only [Phase.next] at hn; injection hn with hn; exact .inl hn
        · right
          cases x with
          | effect => exact hv
          | seen e => exact List.mem_cons_of_mem _ hv

theorem inTurn_cut : ∀ (h h' : List Beat) (D D' : RefDevice), InTurn D (h ++ h') D' → ∃ M, InTurn D h M ∧ InTurn M h' D'
  | [], _, D, _, hx => ⟨D, rfl, hx⟩
  | .effect t d a l b :: h, h', D, D', hx => by
    obtain ⟨h1, h2⟩ := hx
    obtain ⟨M, k1, k2⟩ := inTurn_cut h h' _ D' h2
    exact ⟨M, ⟨h1, k1⟩, k2⟩
  | .seen (.app c p v) :: h, h', D, D', hx => inTurn_cut h h' _ D' hx
  | .seen (.call k l r) :: h, h', D, D', hx => by
    obtain ⟨h1, h2⟩ := hx
    obtain ⟨M, k1, k2⟩ := inTurn_cut h h' _ D' h2
    exact ⟨M, ⟨h1, k1⟩, k2⟩
  | .seen (.recv ..) :: h, h', D, D', hx => inTurn_cut h h' _ D' hx
  | .seen (.sent ..) :: h, h', D, D', hx => inTurn_cut h h' _ D' hx
  | .seen (.ended ..) :: h, h', D, D', hx => inTurn_cut h h' _ D' hx

/-- What a device has become after the beats of a story. -/
theorem inTurn_grown {log : List Happening} {D0 : RefDevice} : ∀ (h : List Beat) (D D' : RefDevice), Grown log D0 D → (∀ e ∈ visible h, e ∈ log) →
    (∀ t d a l b, Beat.effect t d a l b ∈ h → Happening.recv t d a ∈ log) → InTurn D h D' → Grown log D0 D'
  | [], D, D', hg, _, _, hx => by rw [show D' = D from hx]; exact hg
  | .effect t d a l b :: h, D, D', hg, hs, he, hx =>
    inTurn_grown h _ D' (actual_grown (he t d a l b (by simp)) hg) (fun e hm => hs e hm) (fun t d a l b hm => he t d a l b (by simp [hm])) hx.2
  | .seen (.app c p v) :: h, D, D', hg, hs, he, hx => by
    refine inTurn_grown h _ D' ?_ (fun e hm => hs e (List.mem_cons_of_mem _ hm)) (fun t d a l b hm => he t d a l b (by simp [hm])) hx
    unfold RefDevice.assign
    split
    · exact hg
    · rename_i t ht
      exact hg.setThing ht fun _ _ k => k.assign (hs _ List.mem_cons_self)
  | .seen (.call k l r) :: h, D, D', hg, hs, he, hx =>
    inTurn_grown h _ D' (says_grown hg k) (fun e hm => hs e (List.mem_cons_of_mem _ hm)) (fun t d a l b hm => he t d a l b (by simp [hm])) hx.2
  | .seen (.recv ..) :: h, D, D', hg, hs, he, hx =>
    inTurn_grown h _ D' hg (fun e hm => hs e (List.mem_cons_of_mem _ hm)) (fun t d a l b hm => he t d a l b (by simp [hm])) hx
  | .seen (.sent ..) :: h, D, D', hg, hs, he, hx =>
    inTurn_grown h _ D' hg (fun e hm => hs e (List.mem_cons_of_mem _ hm)) (fun t d a l b hm => he t d a l b (by simp [hm])) hx
  | .seen (.ended ..) :: h, D, D', hg, hs, he, hx =>
    inTurn_grown h _ D' hg (fun e hm => hs e (List.mem_cons_of_mem _ hm)) (fun t d a l b hm => he t d a l b (by simp [hm])) hx

/-- A thread whose datagram has had its effect, and that is done: it is done as the effect says. -/
theorem did_done {t : Nat} {l : List Sent} {b : Bool} : ∀ (h : List Beat), Phase.after t (.did l b) h ≠ none → (∃ e ∈ visible h, DoneBy t e) →
    ∃ h1 e h2, h = h1 ++ .seen e :: h2 ∧ (∀ x ∈ visible h1, ¬ DoneBy t x) ∧ e = doneWith t (l, b)
  | [], _, hd => by obtain ⟨e, he, -⟩ := hd; cases he
  | x :: h, ho, hd => by
    have hstep : ∀ q, Phase.next t (.did l b) x = q → (∃ q', q = some q') := by
      intro q hq
      cases q with
      | some q' => exact ⟨q', rfl⟩
      | none => exact absurd (show Phase.after t (.did l b) (x :: h) = none by show Option.bind (Phase.next t (.did l b) x) _ = none; rw [hq]; rfl) ho
    have hgo : Phase.next t (.did l b) x = some (.did l b) → Phase.after t (.did l b) h ≠ none := by
      intro hq h'; apply ho; show Option.bind (Phase.next t (.did l b) x) _ = none; rw [hq]; exact h'
    have hrec : Phase.next t (.did l b) x = some (.did l b) → (∀ e, x = .seen e → ¬ DoneBy t e) →
        ∃ h1 e h2, x :: h = h1 ++ .seen e :: h2 ∧ (∀ x ∈ visible h1, ¬ DoneBy t x) ∧ e = doneWith t (l, b) := by
      intro hq hx
      have hd' : ∃ e ∈ visible h, DoneBy t e := by
        obtain ⟨e, he, hde⟩ := hd
        cases x with
        | effect => exact ⟨e, he, hde⟩
        | seen e' =>
          rcases List.mem_cons.mp (show e ∈ e' :: visible h from he) with rfl | he
          · exact absurd hde (hx e rfl)
          · exact ⟨e, he, hde⟩
      obtain ⟨h1, e, h2, k1, k2, k3⟩ := did_done h (hgo hq) hd'
      refine ⟨x :: h1, e, h2, by rw [k1]; rfl, ?_, k3⟩
      intro y hy
      cases x with
      | effect => exact k2 y hy
      | seen e' =>
        rcases List.mem_cons.mp (show y ∈ e' :: visible h1 from hy) with rfl | hy
        · exact hx y rfl
        · exact k2 y hy
    cases x with
    | effect u d' a' l' b' =>
      obtain ⟨q, hq⟩ := hstep _ rfl
      have : Phase.next t (.did l b) (.effect u d' a' l' b') = some (.did l b) := by
        rw [hq]
        simp only [Phase.next] at hq
        split at hq
        · split at hq
          · rename_i h; cases h
          · cases hq
        · exact hq.symm
      exact hrec this (by intro e he; cases he)
    | seen e =>
      obtain ⟨q, hq⟩ := hstep _ rfl
      cases e with
      | recv u d' a' =>
        refine hrec ?_ (by rintro e he (rfl | ⟨_, rfl⟩) <;> cases he)
        rw [hq]
        simp only [Phase.next] at hq
        split at hq
        · split at hq
          · rename_i h; cases h
          · cases hq
        · exact hq.symm
      | app c p v => exact hrec rfl (by rintro e he (rfl | ⟨_, rfl⟩) <;> cases he)
      | call k l' r => exact hrec rfl (by rintro e he (rfl | ⟨_, rfl⟩) <;> cases he)
      | sent u l' =>
        simp only [Phase.next] at hq
        split at hq
        · rename_i hu
          subst hu
          split at hq
          · rename_i hp
            injection hp with hl hb
            subst hl hb
            exact ⟨[], _, h, rfl, (by intro y hy; cases hy), rfl⟩
          · cases hq
        · rename_i hu
          refine hrec (by simp [Phase.next, hu]) ?_
          rintro e he (rfl | ⟨_, rfl⟩)
          · cases he
          · injection he with he; injection he with he; exact hu he
      | ended u =>
        simp only [Phase.next] at hq
        split at hq
        · rename_i hu
          subst hu
          split at hq
          · rename_i hp
            injection hp with hl hb
            subst hl hb
            exact ⟨[], _, h, rfl, (by intro y hy; cases hy), rfl⟩
          · cases hq
        · rename_i hu
          refine hrec (by simp [Phase.next, hu]) ?_
          rintro e he (rfl | ⟨_, rfl⟩)
          · injection he with he; injection he with he; exact hu he
          · cases he

/-- A thread that has read a datagram, and is done with it: the datagram had its effect in between. -/
theorem got_done {t : Nat} {d : Bytes} {a : Addr} : ∀ (h : List Beat), Phase.after t (.got d a) h ≠ none → (∃ e ∈ visible h, DoneBy t e) →
    ∃ h1 l b h2, h = h1 ++ .effect t d a l b :: h2 ∧ (∀ x ∈ visible h1, ¬ DoneBy t x) ∧ Phase.after t (.did l b) h2 ≠ none ∧ ∃ e ∈ visible h2, DoneBy t e
  | [], _, hd => by obtain ⟨e, he, -⟩ := hd; cases he
  | x :: h, ho, hd => by
    have hstep : ∃ q', Phase.next t (.got d a) x = some q' ∧ Phase.after t q' h ≠ none := by
      cases hq : Phase.next t (.got d a) x with
      | some q' => refine ⟨q', rfl, fun h' => ho ?_⟩; show Option.bind (Phase.next t (.got d a) x) _ = none; rw [hq]; exact h'
      | none => exact absurd (show Phase.after t (.got d a) (x :: h) = none by show Option.bind (Phase.next t (.got d a) x) _ = none; rw [hq]; rfl) ho
    obtain ⟨q, hq, hgo⟩ := hstep
    have hrec : q = .got d a → (∀ e, x = .seen e → ¬ DoneBy t e) →
        ∃ h1 l b h2, x :: h = h1 ++ .effect t d a l b :: h2 ∧ (∀ x ∈ visible h1, ¬ DoneBy t x) ∧ Phase.after t (.did l b) h2 ≠ none ∧ ∃ e ∈ visible h2, DoneBy t e := by
      intro hqq hx
      have hd' : ∃ e ∈ visible h, DoneBy t e := by
        obtain ⟨e, he, hde⟩ := hd
        cases x with
        | effect => exact ⟨e, he, hde⟩
        | seen e' =>
          rcases List.mem_cons.mp (show e ∈ e' :: visible h from he) with rfl | he
          · exact absurd hde (hx e rfl)
          · exact ⟨e, he, hde⟩
      obtain ⟨h1, l, b, h2, k1, k2, k3⟩ := got_done h (hqq ▸ hgo) hd'
      refine ⟨x :: h1, l, b, h2, by rw [k1]; rfl, ?_, k3⟩
      intro y hy
      cases x with
      | effect => exact k2 y hy
      | seen e' =>
        rcases List.mem_cons.mp (show y ∈ e' :: visible h1 from hy) with rfl | hy
        · exact hx y rfl
        · exact k2 y hy
    cases x with
    | effect u d' a' l' b' =>
      simp only [Phase.next] at hq
      split at hq
      · rename_i hu
        subst hu
        split at hq
        · rename_i hp
          injection hp with h1 h2
          subst h1 h2
          injection hq with hq
          subst hq
          exact ⟨[], l', b', h, rfl, (by intro y hy; cases hy), hgo, hd⟩
        · cases hq
      · injection hq with hq
        exact hrec hq.symm (by intro e he; cases he)
    | seen e =>
      cases e with
      | recv u d' a' =>
        simp only [Phase.next] at hq
        split at hq
        · split at hq
          · rename_i h; cases h
          · cases hq
        · injection hq with hq
          exact hrec hq.symm (by rintro e he (rfl | ⟨_, rfl⟩) <;> cases he)
      | app c p v => injection hq with hq; exact hrec hq.symm (by rintro e he (rfl | ⟨_, rfl⟩) <;> cases he)
      | call k l' r => injection hq with hq; exact hrec hq.symm (by rintro e he (rfl | ⟨_, rfl⟩) <;> cases he)
      | sent u l' =>
        simp only [Phase.next] at hq
        split at hq
        · split at hq
          · rename_i h; cases h
          · cases hq
        · rename_i hu
          injection hq with hq
          refine hrec hq.symm ?_
          rintro e he (rfl | ⟨_, rfl⟩)
          · cases he
          · injection he with he; injection he with he; exact hu he
      | ended u =>
        simp only [Phase.next] at hq
        split at hq
        · split at hq
          · rename_i h; cases h
          · cases hq
        · rename_i hu
          injection hq with hq
          refine hrec hq.symm ?_
          rintro e he (rfl | ⟨_, rfl⟩)
          · injection he with he; injection he with he; exact hu he
          · cases he

theorem visible_append (h h' : List Beat) : visible (h ++ h') = visible h ++ visible h' := List.filterMap_append ..

/-- A story whose visible part is known up to something seen. -/
theorem visible_split {e : Happening} {r : List Happening} : ∀ (h : List Beat) (l : List Happening), visible h = l ++ e :: r → ∃ h1 h2, h = h1 ++ .seen e :: h2 ∧ visible h1 = l ∧ visible h2 = r
  | [], l, hv => by cases l <;> cases hv
  | .effect t d a k b :: h, l, hv => by
    obtain ⟨h1, h2, k1, k2, k3⟩ := visible_split h l hv
    exact ⟨.effect t d a k b :: h1, h2, by rw [k1]; rfl, k2, k3⟩
  | .seen e' :: h, [], hv => by
    have hv : e' :: visible h = e :: r := hv
    injection hv with h1 h2
    subst h1
    exact ⟨[], h, rfl, rfl, h2⟩
  | .seen e' :: h, x :: l, hv => by
    have hv : e' :: visible h = x :: (l ++ e :: r) := hv
    injection hv with h1 h2
    obtain ⟨g1, g2, k1, k2, k3⟩ := visible_split h l h2
    exact ⟨.seen e' :: g1, g2, by rw [k1]; rfl, by rw [← h1, ← k2]; rfl, k3⟩

/-- In a story: a thread that reads a datagram and is done with it, is done as the device says, as it is at a moment in between. -/
theorem tale_answer {D D' : RefDevice} {log : List Happening} {h : List Beat} (hT : Tale D log h D') {l0 l : List Happening} {t : Nat} {d : Bytes} {a : Addr}
    (hl : log = l0 ++ .recv t d a :: l) (hd : ∃ e ∈ l, DoneBy t e) :
    ∃ M l1 l2, l = l1 ++ doneWith t (M.actual d a).2 :: l2 ∧ (∀ x ∈ l1, ¬ DoneBy t x) ∧ Grown (l0 ++ .recv t d a :: l1) D M := by
  obtain ⟨h1, h2, e1, v1, v2⟩ := visible_split h l0 (hT.same.trans hl)
  have ho := hT.order t
  rw [e1, phase_after_append] at ho
  cases hp : Phase.after t .free h1 with
  | none => rw [hp] at ho; exact absurd rfl ho
  | some p =>
    rw [hp] at ho
    have ho : Option.bind (Phase.next t p (.seen (.recv t d a))) (fun q => Phase.after t q h2) ≠ none := ho
    have hpf : p = .free := by
      by_cases hpf : p = .free
      · exact hpf
      · exact absurd (by simp [Phase.next, hpf]) ho
    subst hpf
    have ho : Phase.after t (.got d a) h2 ≠ none := by simpa [Phase.next] using ho
    obtain ⟨g1, k, b, g2, f1, f2, f3, f4⟩ := got_done h2 ho (v2 ▸ hd)
    obtain ⟨g3, e, g4, f5, f6, f7⟩ := did_done g2 f3 f4
    have hin := hT.inTurn
    rw [e1, f1, ← List.cons_append, ← List.append_assoc] at hin
    obtain ⟨M, i1, i2⟩ := inTurn_cut _ _ _ _ hin
    have hM : (M.actual d a).2 = (k, b) := i2.1
    refine ⟨M, visible (g1 ++ g3), visible g4, ?_, ?_, ?_⟩
    · rw [← v2, f1, f5, hM, ← f7, visible_append, visible_append, List.append_assoc]
      congr 1
      show visible (g3 ++ .seen e :: g4) = _
      rw [visible_append]; rfl
    · intro x hx
      rw [visible_append] at hx
      rcases List.mem_append.mp hx with hx | hx
      · exact f2 x hx
      · exact f6 x hx
    · have hvis : visible (h1 ++ .seen (.recv t d a) :: g1) = l0 ++ .recv t d a :: visible g1 := by rw [visible_append, v1]; rfl
      have hsub : ∀ e ∈ visible (h1 ++ .seen (.recv t d a) :: g1), e ∈ l0 ++ Happening.recv t d a :: visible (g1 ++ g3) := by
        intro e he
        rw [hvis] at he
        rw [visible_append]
        rcases List.mem_append.mp he with he | he
        · exact List.mem_append_left _ he
        · rcases List.mem_cons.mp he with rfl | he
          · exact List.mem_append_right _ List.mem_cons_self
          · exact List.mem_append_right _ (List.mem_cons_of_mem _ (List.mem_append_left _ he))
      refine inTurn_grown _ D M (grown_refl _ D) hsub ?_ i1
      intro u d' a' l' b' hm
      apply hsub
      have hou := hT.order u
      rw [e1, f1, ← List.cons_append, ← List.append_assoc, phase_after_append] at hou
      have hou' : Phase.after u .free (h1 ++ .seen (.recv t d a) :: g1) ≠ none := by
        intro h'; rw [h'] at hou; exact hou rfl
      rcases effect_read _ _ hou' hm with hx | hx
      · cases hx
      · exact hx

/-- A thread that has a datagram that has not had its effect has read it and is not done. -/
theorem got_unfinished {t : Nat} {d : Bytes} {a : Addr} : ∀ (h : List Beat) (p : Phase), Phase.after t p h = some (.got d a) →
    (p = .got d a ∧ ∀ x ∈ visible h, ¬ DoneBy t x) ∨ ∃ v w, visible h = v ++ .recv t d a :: w ∧ ∀ x ∈ w, ¬ DoneBy t x
  | [], p, hp => by injection hp with hp; exact .inl ⟨hp, fun x hx => by cases hx⟩
  | x :: h, p, hp => by
    have hp : Option.bind (Phase.next t p x) (fun q => Phase.after t q h) = some (.got d a) := hp
    obtain ⟨q, hq, hr⟩ := Option.bind_eq_some_iff.mp hp
    rcases got_unfinished h q hr with ⟨rfl, hn⟩ | ⟨v, w, hv, hn⟩
    · cases x with
      | effect u d' a' l' b' =>
        simp only [Phase.next] at hq
        split at hq
        · split at hq <;> cases hq
        · injection hq with hq; exact .inl ⟨hq, hn⟩
      | seen e =>
        have key : (∀ y, e = y → ¬ DoneBy t y) → p = .got d a → (p = .got d a ∧ ∀ x ∈ visible (Beat.seen e :: h), ¬ DoneBy t x) := by
          intro he hp
          refine ⟨hp, fun x hx => ?_⟩
          rcases List.mem_cons.mp (show x ∈ e :: visible h from hx) with rfl | hx
          · exact he x rfl
          · exact hn x hx
        cases e with
        | recv u d' a' =>
          simp only [Phase.next] at hq
          split at hq
          · rename_i hu
            split at hq
            · injection hq with hq
              injection hq with h1 h2
              subst hu h1 h2
              exact .inr ⟨[], visible h, rfl, hn⟩
            · cases hq
          · injection hq with hq; exact .inl (key (by rintro y rfl (h | ⟨_, h⟩) <;> cases h) hq)
        | sent u l' =>
          simp only [Phase.next] at hq
          split at hq
          · split at hq <;> cases hq
          · rename_i hu
            injection hq with hq
            refine .inl (key ?_ hq)
            rintro y rfl (h | ⟨_, h⟩)
            · cases h
            · injection h with h; exact hu h
        | ended u =>
          simp only [Phase.next] at hq
          split at hq
          · split at hq <;> cases hq
          · rename_i hu
            injection hq with hq
            refine .inl (key ?_ hq)
            rintro y rfl (h | ⟨_, h⟩)
            · injection h with h; exact hu h
            · cases h
        | app c p' v => injection hq with hq; exact .inl (key (by rintro y rfl (h | ⟨_, h⟩) <;> cases h) hq)
        | call k l' r => injection hq with hq; exact .inl (key (by rintro y rfl (h | ⟨_, h⟩) <;> cases h) hq)
    · right
      cases x with
      | effect => exact ⟨v, w, hv, hn⟩
      | seen e => exact ⟨e :: v, w, by show e :: visible h = _; rw [hv]; rfl, hn⟩

/-- What takes effect in the second part of a story was read in it, or before and the thread is not done with it. -/
theorem effect_later {t : Nat} {d : Bytes} {a : Addr} {l : List Sent} {b : Bool} {A B : List Beat} (ho : Phase.after t .free (A ++ B) ≠ none) (hm : Beat.effect t d a l b ∈ B)
    {l0 r : List Happening} (hv : visible A = l0 ++ r) : Happening.recv t d a ∈ r ++ visible B ∨ Unfinished l0 (.recv t d a) := by
  rw [phase_after_append] at ho
  cases hp : Phase.after t .free A with
  | none => rw [hp] at ho; exact absurd rfl ho
  | some p =>
    rw [hp] at ho
    rcases effect_read B p ho hm with rfl | hx
    · rcases got_unfinished A .free hp with ⟨h, -⟩ | ⟨v, w, hvw, hn⟩
      · cases h
      · rw [hv] at hvw
        rcases List.append_eq_append_iff.mp hvw with ⟨c, h1, h2⟩ | ⟨c, h1, h2⟩
        · exact .inl (List.mem_append_left _ (by rw [h2]; simp))
        · cases c with
          | nil => exact .inl (List.mem_append_left _ (by rw [← show _ = r from h2]; simp))
          | cons y c =>
            injection h2 with h3 h4
            subst h3
            exact .inr ⟨t, d, a, rfl, v, c, h1, fun x hx => hn x (by rw [h4]; simp [hx])⟩
    · exact .inl (List.mem_append_right _ hx)

/-- Two ways to cut a list at the first of its members with a property. -/
theorem cut_unique {α : Type} {P : α → Prop} {e e' : α} {r r' : List α} (he : P e) (he' : P e') : ∀ l l' : List α, (∀ x ∈ l, ¬ P x) → (∀ x ∈ l', ¬ P x) → l ++ e :: r = l' ++ e' :: r' →
    l = l' ∧ e = e' ∧ r = r'
  | [], [], _, _, h => by injection h with h1 h2; exact ⟨rfl, h1, h2⟩
  | [], y :: l', _, h2, h => by injection h with h1 _; exact absurd (h1 ▸ he) (h2 y (by simp))
  | y :: l, [], h1, _, h => by injection h with h2 _; exact absurd (h2 ▸ he') (h1 y (by simp))
  | y :: l, y' :: l', h1, h2, h => by
    injection h with k1 k2
    obtain ⟨k3, k4, k5⟩ := cut_unique he he' l l' (fun x hx => h1 x (by simp [hx])) (fun x hx => h2 x (by simp [hx])) k2
    exact ⟨by rw [k1, k3], k4, k5⟩

theorem doneBy_doneWith (t : Nat) (q : List Sent × Bool) : DoneBy t (doneWith t q) := by
  unfold doneWith
  split
  · exact .inr ⟨_, rfl⟩
  · exact .inl rfl

/-- In a story: a thread is done with a datagram before another is read. The device of the second answer has grown out of what the first datagram made of it. -/
theorem tale_two {D D' : RefDevice} {log : List Happening} {h : List Beat} (hT : Tale D log h D') {l0 l1 l2 l3 : List Happening} {t1 t2 : Nat} {d1 d2 : Bytes} {a1 a2 : Addr} {e1 : Happening}
    (hl : log = l0 ++ .recv t1 d1 a1 :: (l1 ++ e1 :: (l2 ++ .recv t2 d2 a2 :: l3))) (h1 : DoneBy t1 e1) (hn1 : ∀ x ∈ l1, ¬ DoneBy t1 x) (hd : ∃ e ∈ l3, DoneBy t2 e) :
    ∃ M1 M2 k1 k2, e1 = doneWith t1 (M1.actual d1 a1).2 ∧ l3 = k1 ++ doneWith t2 (M2.actual d2 a2).2 :: k2 ∧ (∀ x ∈ k1, ¬ DoneBy t2 x) ∧ Grown log D M1 ∧
      ∀ L : List Happening, (∀ e, Unfinished l0 e → e ∈ L) → (∀ e ∈ Happening.recv t1 d1 a1 :: (l1 ++ e1 :: (l2 ++ .recv t2 d2 a2 :: l3)), e ∈ L) → Grown L (M1.actual d1 a1).1 M2 := by
  have hread : ∀ t d a l b, Beat.effect t d a l b ∈ h → Happening.recv t d a ∈ log := by
    intro t d a l b hm
    rcases effect_read h .free (hT.order t) hm with hx | hx
    · cases hx
    · rw [← hT.same]; exact hx
  obtain ⟨b1, b2, e, v1, v2⟩ := visible_split h l0 (hT.same.trans hl)
  have ho := hT.order t1
  rw [e, phase_after_append] at ho
  cases hp : Phase.after t1 .free b1 with
  | none => rw [hp] at ho; exact absurd rfl ho
  | some p =>
    rw [hp] at ho
    have ho : Option.bind (Phase.next t1 p (.seen (.recv t1 d1 a1))) (fun q => Phase.after t1 q b2) ≠ none := ho
    have hpf : p = .free := by
      by_cases hpf : p = .free
      · exact hpf
      · exact absurd (by simp [Phase.next, hpf]) ho
    subst hpf
    have ho : Phase.after t1 (.got d1 a1) b2 ≠ none := by simpa [Phase.next] using ho
    obtain ⟨g1, k, b, g2, f1, f2, f3, f4⟩ := got_done b2 ho ⟨e1, by rw [v2]; simp, h1⟩
    obtain ⟨g3, e', g4, f5, f6, f7⟩ := did_done g2 f3 f4
    have hv : visible (g1 ++ g3) ++ e' :: visible g4 = l1 ++ e1 :: (l2 ++ .recv t2 d2 a2 :: l3) := by
      rw [← v2, f1, f5, visible_append, visible_append, List.append_assoc]
      congr 1
      show _ = visible (g3 ++ .seen e' :: g4)
      rw [visible_append]; rfl
    obtain ⟨-, hee, hv4⟩ := cut_unique (P := DoneBy t1) (f7 ▸ doneBy_doneWith t1 (k, b)) h1 _ _ (by
      intro x hx
      rw [visible_append] at hx
      rcases List.mem_append.mp hx with hx | hx
      · exact f2 x hx
      · exact f6 x hx) hn1 hv
    obtain ⟨j1, j2, e4, w1, w2⟩ := visible_split g4 l2 hv4
    have hh : h = (b1 ++ .seen (.recv t1 d1 a1) :: g1) ++ (.effect t1 d1 a1 k b :: (g3 ++ .seen e' :: j1)) ++ .seen (.recv t2 d2 a2) :: j2 := by
      rw [e, f1, f5, e4]; simp
    have ho2 := hT.order t2
    rw [hh, phase_after_append] at ho2
    cases hp2 : Phase.after t2 .free ((b1 ++ .seen (.recv t1 d1 a1) :: g1) ++ (.effect t1 d1 a1 k b :: (g3 ++ .seen e' :: j1))) with
    | none => rw [hp2] at ho2; exact absurd rfl ho2
    | some p2 =>
      rw [hp2] at ho2
      have ho2 : Option.bind (Phase.next t2 p2 (.seen (.recv t2 d2 a2))) (fun q => Phase.after t2 q j2) ≠ none := ho2
      have hpf : p2 = .free := by
        by_cases hpf : p2 = .free
        · exact hpf
        · exact absurd (by simp [Phase.next, hpf]) ho2
      subst hpf
      have ho2 : Phase.after t2 (.got d2 a2) j2 ≠ none := by simpa [Phase.next] using ho2
      obtain ⟨g5, k', b', g6, m1, m2, m3, m4⟩ := got_done j2 ho2 (w2 ▸ hd)
      obtain ⟨g7, e'', g8, m5, m6, m7⟩ := did_done g6 m3 m4
      have hin := hT.inTurn
      have hh' : h = (b1 ++ .seen (.recv t1 d1 a1) :: g1) ++ .effect t1 d1 a1 k b :: ((g3 ++ .seen e' :: (j1 ++ .seen (.recv t2 d2 a2) :: g5)) ++ .effect t2 d2 a2 k' b' :: g6) := by
        rw [hh, m1]; simp
      rw [hh'] at hin
      obtain ⟨M1, i1, i2, i3⟩ := inTurn_cut _ _ _ _ hin
      obtain ⟨M2, i4, i5, -⟩ := inTurn_cut _ _ _ _ i3
      have hvis : ∀ x, Beat.seen x ∈ h → x ∈ log := by
        intro x hx
        rw [← hT.same]
        exact List.mem_filterMap.mpr ⟨_, hx, rfl⟩
      have hmem : ∀ (g : List Beat), (∀ x ∈ g, x ∈ h) → ∀ x ∈ visible g, x ∈ log := by
        intro g hg x hx
        obtain ⟨y, hy, hyx⟩ := List.mem_filterMap.mp hx
        cases y with
        | effect => cases hyx
        | seen x' => injection hyx with hyx; subst hyx; exact hvis _ (hg _ hy)
      have s1 : ∀ x ∈ b1 ++ .seen (.recv t1 d1 a1) :: g1, x ∈ h := by
        intro x hx; rw [hh']; exact List.mem_append_left _ hx
      have s2 : ∀ x ∈ g3 ++ .seen e' :: (j1 ++ .seen (.recv t2 d2 a2) :: g5), x ∈ h := by
        intro x hx; rw [hh']; exact List.mem_append_right _ (List.mem_cons_of_mem _ (List.mem_append_left _ hx))
      refine ⟨M1, M2, visible (g5 ++ g7), visible g8, ?_, ?_, ?_, ?_, ?_⟩
      · rw [i2, ← f7, hee]
      · rw [i5, ← m7, ← w2, m1, m5, visible_append, visible_append, List.append_assoc]
        congr 1
        show visible (g7 ++ .seen e'' :: g8) = _
        rw [visible_append]; rfl
      · intro x hx
        rw [visible_append] at hx
        rcases List.mem_append.mp hx with hx | hx
        · exact m2 x hx
        · exact m6 x hx
      · exact inTurn_grown _ D M1 (grown_refl _ _) (hmem _ s1) (fun t d a l b hm => hread t d a l b (s1 _ hm)) i1
      · intro L hL1 hL2
        have hvA : visible (b1 ++ .seen (.recv t1 d1 a1) :: g1) = l0 ++ (.recv t1 d1 a1 :: visible g1) := by rw [visible_append, v1]; rfl
        have hg1 : ∀ x ∈ visible g1, x ∈ l1 ++ e1 :: (l2 ++ Happening.recv t2 d2 a2 :: l3) := by
          intro x hx; rw [← v2, f1, visible_append]; exact List.mem_append_left _ hx
        have hB : ∀ x ∈ visible (g3 ++ .seen e' :: (j1 ++ .seen (.recv t2 d2 a2) :: g5)), x ∈ l1 ++ e1 :: (l2 ++ Happening.recv t2 d2 a2 :: l3) := by
          intro x hx
          rw [← v2, f1, f5, e4, m1]
          have : visible (g1 ++ .effect t1 d1 a1 k b :: (g3 ++ .seen e' :: (j1 ++ .seen (.recv t2 d2 a2) :: (g5 ++ .effect t2 d2 a2 k' b' :: g6)))) =
              visible g1 ++ (visible (g3 ++ .seen e' :: (j1 ++ .seen (.recv t2 d2 a2) :: g5)) ++ visible (.effect t2 d2 a2 k' b' :: g6)) := by
            rw [← visible_append, show g1 ++ .effect t1 d1 a1 k b :: (g3 ++ .seen e' :: (j1 ++ .seen (.recv t2 d2 a2) :: (g5 ++ .effect t2 d2 a2 k' b' :: g6))) =
              g1 ++ (.effect t1 d1 a1 k b :: ((g3 ++ .seen e' :: (j1 ++ .seen (.recv t2 d2 a2) :: g5)) ++ .effect t2 d2 a2 k' b' :: g6)) by simp, visible_append]
            rfl
          rw [this]
          exact List.mem_append_right _ (List.mem_append_left _ hx)
        refine inTurn_grown _ _ M2 (grown_refl _ _) (fun x hx => hL2 x (List.mem_cons_of_mem _ (hB x hx))) (fun u d a l c hm => ?_) i4
        have hou := hT.order u
        rw [show h = ((b1 ++ .seen (.recv t1 d1 a1) :: g1) ++ (.effect t1 d1 a1 k b :: (g3 ++ .seen e' :: (j1 ++ .seen (.recv t2 d2 a2) :: g5)))) ++ .effect t2 d2 a2 k' b' :: g6 by
          rw [hh']; simp, phase_after_append] at hou
        have hou' : Phase.after u .free ((b1 ++ .seen (.recv t1 d1 a1) :: g1) ++ (.effect t1 d1 a1 k b :: (g3 ++ .seen e' :: (j1 ++ .seen (.recv t2 d2 a2) :: g5)))) ≠ none := by
          intro hx; rw [hx] at hou; exact hou rfl
        rcases effect_later hou' (List.mem_cons_of_mem _ hm) hvA with hx | hx
        · rcases List.mem_append.mp hx with hx | hx
          · rcases List.mem_cons.mp hx with hx | hx
            · rw [hx]; exact hL2 _ List.mem_cons_self
            · exact hL2 _ (List.mem_cons_of_mem _ (hg1 _ hx))
          · exact hL2 _ (List.mem_cons_of_mem _ (hB _ hx))
        · exact hL1 _ hx

/-! ### What was written is there -/

/-- In a story: the program sets data before a datagram is read. The device of the answer has grown out of what the program made of it. -/
theorem tale_app {D D' : RefDevice} {log : List Happening} {h : List Beat} (hT : Tale D log h D') {l0 l2 l3 : List Happening} {c p : Int} {v : Bytes} {t : Nat} {d : Bytes} {a : Addr}
    (hl : log = l0 ++ .app c p v :: (l2 ++ .recv t d a :: l3)) (hd : ∃ e ∈ l3, DoneBy t e) :
    ∃ M1 M2 k1 k2, l3 = k1 ++ doneWith t (M2.actual d a).2 :: k2 ∧ (∀ x ∈ k1, ¬ DoneBy t x) ∧ Grown log D M1 ∧
      ∀ L : List Happening, (∀ e, Unfinished l0 e → e ∈ L) → (∀ e ∈ l2 ++ .recv t d a :: l3, e ∈ L) → Grown L (M1.assign c p v) M2 := by
  obtain ⟨b1, b2, e, v1, v2⟩ := visible_split h l0 (hT.same.trans hl)
  obtain ⟨j1, j2, e4, w1, w2⟩ := visible_split b2 l2 v2
  have hh : h = (b1 ++ .seen (.app c p v) :: j1) ++ .seen (.recv t d a) :: j2 := by rw [e, e4]; simp
  have ho2 := hT.order t
  rw [hh, phase_after_append] at ho2
  cases hp2 : Phase.after t .free (b1 ++ .seen (.app c p v) :: j1) with
  | none => rw [hp2] at ho2; exact absurd rfl ho2
  | some p2 =>
    rw [hp2] at ho2
    have ho2 : Option.bind (Phase.next t p2 (.seen (.recv t d a))) (fun q => Phase.after t q j2) ≠ none := ho2
    have hpf : p2 = .free := by
      by_cases hpf : p2 = .free
      · exact hpf
      · exact absurd (by simp [Phase.next, hpf]) ho2
    subst hpf
    have ho2 : Phase.after t (.got d a) j2 ≠ none := by simpa [Phase.next] using ho2
    obtain ⟨g5, k', b', g6, m1, m2, m3, m4⟩ := got_done j2 ho2 (w2 ▸ hd)
    obtain ⟨g7, e'', g8, m5, m6, m7⟩ := did_done g6 m3 m4
    have hin := hT.inTurn
    have hh' : h = b1 ++ .seen (.app c p v) :: ((j1 ++ .seen (.recv t d a) :: g5) ++ .effect t d a k' b' :: g6) := by rw [hh, m1]; simp
    rw [hh'] at hin
    obtain ⟨M1, i1, i3⟩ := inTurn_cut _ _ _ _ hin
    obtain ⟨M2, i4, i5, -⟩ := inTurn_cut _ _ _ _ (show InTurn (M1.assign c p v) _ _ from i3)
    refine ⟨M1, M2, visible (g5 ++ g7), visible g8, ?_, ?_, ?_, ?_⟩
    · rw [i5, ← m7, ← w2, m1, m5, visible_append, visible_append, List.append_assoc]
      congr 1
      show visible (g7 ++ .seen e'' :: g8) = _
      rw [visible_append]; rfl
    · intro x hx
      rw [visible_append] at hx
      rcases List.mem_append.mp hx with hx | hx
      · exact m2 x hx
      · exact m6 x hx
    · have hsub : ∀ e ∈ visible b1, e ∈ log := by
        intro e he; rw [hl, ← v1]; exact List.mem_append_left _ he
      refine inTurn_grown _ D M1 (grown_refl _ D) hsub ?_ i1
      intro u d' a' l' b'' hm
      apply hsub
      have hou := hT.order u
      rw [hh', phase_after_append] at hou
      have hou' : Phase.after u .free b1 ≠ none := by
        intro h'; rw [h'] at hou; exact hou rfl
      rcases effect_read _ _ hou' hm with hx | hx
      · cases hx
      · exact hx
    · intro L hL1 hL2
      have hsub : ∀ e ∈ visible (j1 ++ .seen (.recv t d a) :: g5), e ∈ L := by
        intro e he
        apply hL2
        rw [visible_append, w1] at he
        rcases List.mem_append.mp he with he | he
        · exact List.mem_append_left _ he
        · rcases List.mem_cons.mp (show e ∈ Happening.recv t d a :: visible g5 from he) with rfl | he
          · simp
          · refine List.mem_append_right _ (List.mem_cons_of_mem _ ?_)
            rw [← w2, m1, visible_append]
            exact List.mem_append_left _ he
      refine inTurn_grown _ _ M2 (grown_refl _ _) hsub ?_ i4
      intro u d' a' l' b'' hm
      have hou := hT.order u
      rw [hh', show b1 ++ Beat.seen (.app c p v) :: ((j1 ++ .seen (.recv t d a) :: g5) ++ .effect t d a k' b' :: g6) =
        ((b1 ++ [.seen (.app c p v)]) ++ (j1 ++ .seen (.recv t d a) :: g5)) ++ .effect t d a k' b' :: g6 by simp, phase_after_append] at hou
      have hou' : Phase.after u .free ((b1 ++ [.seen (.app c p v)]) ++ (j1 ++ .seen (.recv t d a) :: g5)) ≠ none := by
        intro h'; rw [h'] at hou; exact hou rfl
      rcases effect_later hou' hm (l0 := l0) (r := [.app c p v]) (by rw [visible_append, v1]; rfl) with hx | hx
      · rcases List.mem_append.mp hx with hx | hx
        · cases List.mem_singleton.mp hx
        · exact hsub _ hx
      · exact hL1 _ hx

theorem actual_things {D : RefDevice} {d : Bytes} {a : Addr} {m : Msg} (hm : readMsg (d.take 1024) = some m) {t : Thing} (ht : D.things m.deoj = some t) :
    (D.actual d a).1.things = (D.setThing m.deoj (t.actual m).1).things := by
  unfold RefDevice.actual
  simp only [hm, ht]
  split
  · rfl
  · split
    · split <;> rfl
    · split <;> rfl

theorem puts_data {p : Int} {v : Bytes} : ∀ (is : List PProp) (t : Thing) (e : Entry), t.props p = some e → e.writable = true → (∀ j ∈ is, j.code = p → j.data = v) →
    ((∃ j ∈ is, j.code = p) ∨ e.data = v) → ∃ e', (t.puts is).props p = some e' ∧ e'.readable = e.readable ∧ e'.data = v
  | [], t, e, he, _, _, h => by
    rcases h with ⟨j, hj, -⟩ | h
    · cases hj
    · exact ⟨e, he, rfl, h⟩
  | i :: is, t, e, he, hw, hv, h => by
    have hp : (t.put i).props p = if p = i.code then (t.props p).map fun e => if e.writable then { e with data := i.data } else e else t.props p := rfl
    by_cases hpi : p = i.code
    · rw [if_pos hpi, he, Option.map_some, if_pos hw] at hp
      obtain ⟨e', r1, r2, r3⟩ := puts_data is (t.put i) { e with data := i.data } hp hw (fun j hj => hv j (by simp [hj])) (.inr (hv i (by simp) hpi.symm))
      exact ⟨e', r1, r2, r3⟩
    · rw [if_neg hpi, he] at hp
      refine puts_data is (t.put i) e hp hw (fun j hj => hv j (by simp [hj])) ?_
      rcases h with ⟨j, hj, hjp⟩ | h
      · rcases List.mem_cons.mp hj with rfl | hj
        · exact absurd hjp.symm hpi
        · exact .inl ⟨j, hj, hjp⟩
      · exact .inr h

theorem thing_actual_write {t : Thing} {m : Msg} (hs : t.serves = true) (he : m.esv = 0x60 ∨ m.esv = 0x61) : (t.actual m).1 = t.puts m.props := by
  unfold Thing.actual
  rw [if_neg (by rw [hs]; simp)]
  rcases he with he | he
  · rw [if_pos he]
  · rw [if_neg (by rw [he]; decide), if_pos he]

end Uecho
