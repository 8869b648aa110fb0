/- C168: how far a receiving thread is from being done. -/
import Verif.Spec.Nowait
import Verif.Lemmas.Crowd

namespace Uecho
open Spec Crowd Par

/-- A thread is on its way through a request. -/
def OnWay : PC → Prop
  | .next _ => True
  | .load f _ _ => f.todo ≠ []
  | .store f _ _ => f.todo ≠ []
  | _ => False

/-- The steps it has to go at most. -/
def pcLeft : PC → Nat
  | .next f => 2 * f.todo.length + 1
  | .load f _ _ => 2 * f.todo.length
  | .store f _ _ => 2 * f.todo.length
  | _ => 0

theorem onWay_left {p : PC} (h : OnWay p) : 1 ≤ pcLeft p := by
  cases p with
  | next f => exact Nat.le_add_left _ _
  | load f k i =>
    have : 0 < f.todo.length := List.length_pos_iff.mpr h
    show 1 ≤ 2 * _
    omega
  | store f k i =>
    have : 0 < f.todo.length := List.length_pos_iff.mpr h
    show 1 ≤ 2 * _
    omega
  | idle => exact h.elim
  | crashed => exact h.elim

/-- A thread on its way can go on, and is then nearer to its end. -/
theorem run_left {s : Sys} {t : Nat} (h : OnWay (s.pc t)) :
    ∃ s', s.run t = some s' ∧ (∀ u, u ≠ t → s'.pc u = s.pc u) ∧ (s'.pc t = .idle ∨ s'.pc t = .crashed ∨ (OnWay (s'.pc t) ∧ pcLeft (s'.pc t) + 1 ≤ pcLeft (s.pc t))) := by
  have ho : ∀ (s : Sys) p u, u ≠ t → (s.goto t p).pc u = s.pc u := fun s p u hu => if_neg hu
  have hpush : ∀ (f : Par.Frame) k p n, f.todo ≠ [] → 2 * (f.push k p n).todo.length + 1 + 1 ≤ 2 * f.todo.length := by
    intro f k p n hf
    rw [push_todo, List.length_tail]
    have : 0 < f.todo.length := List.length_pos_iff.mpr hf
    omega
  unfold Sys.run
  cases hpc : s.pc t with
  | idle => rw [hpc] at h; exact h.elim
  | crashed => rw [hpc] at h; exact h.elim
  | next f =>
    refine ⟨_, rfl, ?_⟩
    have key : ∀ (hf : f.todo ≠ []) (p : PC), (∃ k q n, p = .next (f.push k q n)) ∨ (∃ k i, p = .load f k i) ∨ (∃ k i, p = .store f k i) → OnWay p ∧ pcLeft p + 1 ≤ pcLeft (.next f) := by
      rintro hf p (⟨k, q, n, rfl⟩ | ⟨k, i, rfl⟩ | ⟨k, i, rfl⟩)
      · refine ⟨trivial, ?_⟩
        have := hpush f k q n hf
        show 2 * (f.push k q n).todo.length + 1 + 1 ≤ 2 * _ + 1
        omega
      · exact ⟨hf, Nat.le_refl _⟩
      · exact ⟨hf, Nat.le_refl _⟩
    have go : ∀ (hf : f.todo ≠ []) (p : PC), (∃ k q n, p = .next (f.push k q n)) ∨ (∃ k i, p = .load f k i) ∨ (∃ k i, p = .store f k i) →
        (∀ u, u ≠ t → (s.goto t p).pc u = s.pc u) ∧ ((s.goto t p).pc t = .idle ∨ (s.goto t p).pc t = .crashed ∨ (OnWay ((s.goto t p).pc t) ∧ pcLeft ((s.goto t p).pc t) + 1 ≤ pcLeft (.next f))) := by
      intro hf p hp
      rw [pc_goto]
      exact ⟨ho s p, .inr (.inr (key hf p hp))⟩
    have die : ∀ e, (∀ u, u ≠ t → ((s.goto t .crashed).emit e).pc u = s.pc u) ∧
        (((s.goto t .crashed).emit e).pc t = .idle ∨ ((s.goto t .crashed).emit e).pc t = .crashed ∨ (OnWay (((s.goto t .crashed).emit e).pc t) ∧ pcLeft (((s.goto t .crashed).emit e).pc t) + 1 ≤ pcLeft (.next f))) :=
      fun e => ⟨ho s _, .inr (.inl (pc_goto _ _ _))⟩
    unfold Sys.check
    split
    · exact ⟨ho s _, .inl (pc_goto _ _ _)⟩
    all_goals
      rename_i hf
      have hf : f.todo ≠ [] := by rw [hf]; exact List.cons_ne_nil _ _
      (try split) <;> (try split)
    all_goals first
      | exact die _
      | exact go hf _ (.inl ⟨_, _, _, rfl⟩)
      | exact go hf _ (.inr (.inl ⟨_, _, rfl⟩))
      | exact go hf _ (.inr (.inr ⟨_, _, rfl⟩))
  | store f k i =>
    rw [hpc] at h
    refine ⟨_, rfl, fun u hu => if_neg hu, .inr (.inr ?_)⟩
    show OnWay (Sys.pc (Sys.goto _ t _) t) ∧ pcLeft (Sys.pc (Sys.goto _ t _) t) + 1 ≤ _
    rw [pc_goto]
    exact ⟨trivial, hpush f _ _ _ h⟩
  | load f k i =>
    rw [hpc] at h
    show ∃ s', (match s.obj.getPropertyData i.code with | some d => _ | none => _) = some s' ∧ _
    cases s.obj.getPropertyData i.code with
    | some d =>
      refine ⟨_, rfl, fun u hu => if_neg hu, .inr (.inr ?_)⟩
      rw [pc_goto]
      exact ⟨trivial, hpush f _ _ _ h⟩
    | none => exact ⟨_, rfl, fun u hu => if_neg hu, .inr (.inl (pc_goto _ _ _))⟩

theorem items_length (m : Msg) : (items m).length ≤ m.props.length + m.setProps.length + m.getProps.length := by
  unfold items
  split
  · rw [List.length_append, List.length_map, List.length_map]; omega
  · rw [List.length_map]; omega

/-- A thread is in no object but the one of its request. -/
def Placed (G : St) (t : Nat) : Prop :=
  match G.places t with
  | .inside req => (∃ s, G.objs req.deoj = some s ∧ OnWay (s.pc t)) ∧ ∀ c s, c ≠ req.deoj → G.objs c = some s → s.pc t = .idle
  | .dead => True
  | _ => ∀ c s, G.objs c = some s → s.pc t = .idle

/-- What the log says the thread does. -/
def Told (G : St) (t : Nat) : Prop :=
  doing t G.log = match G.places t with
    | .free => .nothing
    | .dead => .ended
    | _ => .working

/-- The steps thread `t` has to go at most. -/
def stLeft (G : St) (t : Nat) : Nat :=
  match G.places t with
  | .inside req => match G.objs req.deoj with
    | some s => pcLeft (s.pc t) + 1
    | none => 0
  | .sending .. => 1
  | _ => 0

theorem doing_snoc (t : Nat) (log : List Happening) (e : Happening) : doing t (log ++ [e]) = (doing t log).next t e := by
  simp [doing, List.foldl_append]

/-- What a step says of the thread that makes it. -/
structure Moved (G G' : St) (t : Nat) (l : List Happening) : Prop where
  log : G'.log = G.log ++ l
  others : ∀ u, u ≠ t → G'.places u = G.places u
  silent : ∀ u, u ≠ t → ∀ w, l.foldl (Doing.next u) w = w
  objs : ∀ c, G'.objs c = G.objs c ∨ ∃ s s', G.objs c = some s ∧ G'.objs c = some s' ∧ ∀ u, u ≠ t → s'.pc u = s.pc u

theorem moved_objs {G G' : St} {t : Nat} {l : List Happening} (h : Moved G G' t l) {u : Nat} (hu : u ≠ t) {c : Int} {s' : Sys} (hc : G'.objs c = some s') :
    ∃ s, G.objs c = some s ∧ s'.pc u = s.pc u := by
  rcases h.objs c with e | ⟨s, s'', h1, h2, h3⟩
  · exact ⟨s', e ▸ hc, rfl⟩
  · rw [hc] at h2
    injection h2 with h2
    subst h2
    exact ⟨s, h1, h3 u hu⟩

theorem moved_some {G G' : St} {t : Nat} {l : List Happening} (h : Moved G G' t l) {u : Nat} (hu : u ≠ t) {c : Int} {s : Sys} (hc : G.objs c = some s) :
    ∃ s', G'.objs c = some s' ∧ s'.pc u = s.pc u := by
  rcases h.objs c with e | ⟨s1, s', h1, h2, h3⟩
  · exact ⟨s, e ▸ hc, rfl⟩
  · rw [hc] at h1
    injection h1 with h1
    subst h1
    exact ⟨s', h2, h3 u hu⟩

theorem moved_other {G G' : St} {t : Nat} {l : List Happening} (h : Moved G G' t l) {u : Nat} (hu : u ≠ t) (hp : Placed G u) (ht : Told G u) : Placed G' u ∧ Told G' u ∧ stLeft G' u = stLeft G u := by
  unfold Placed Told stLeft at *
  rw [h.others u hu, h.log, doing, List.foldl_append, h.silent u hu]
  refine ⟨?_, ht, ?_⟩
  · cases hpl : G.places u with
    | free => rw [hpl] at hp; intro c s hc; obtain ⟨s0, h1, h2⟩ := moved_objs h hu hc; rw [h2]; exact hp c s0 h1
    | sending req r => rw [hpl] at hp; intro c s hc; obtain ⟨s0, h1, h2⟩ := moved_objs h hu hc; rw [h2]; exact hp c s0 h1
    | dead => trivial
    | inside req =>
      rw [hpl] at hp
      obtain ⟨⟨s, h1, h2⟩, h3⟩ := hp
      obtain ⟨s', k1, k2⟩ := moved_some h hu h1
      refine ⟨⟨s', k1, k2 ▸ h2⟩, fun c s hne hc => ?_⟩
      obtain ⟨s0, h1, h2⟩ := moved_objs h hu hc
      rw [h2]; exact h3 c s0 hne h1
  · cases hpl : G.places u with
    | inside req =>
      simp only []
      rcases h.objs req.deoj with e | ⟨s, s', h1, h2, h3⟩
      · rw [e]
      · rw [h1, h2]; simp only []; rw [h3 u hu]
    | _ => rfl

/-- A thread that reads. -/
theorem arrive_left {G : St} {t : Nat} (hp : Placed G t) (hfree : G.places t = .free) (d : Bytes) (a : Addr) :
    ∃ G' l, G.arrive t d a = some G' ∧ Moved G G' t (.recv t d a :: l) ∧ Placed G' t ∧ (Told G t → Told G' t) ∧
      ((∃ e ∈ l, DoneBy t e) ∨ (doing t G'.log = .working ∧ stLeft G' t ≤ 2 * namedIn d + 2)) := by
  have hidle : ∀ c s, G.objs c = some s → s.pc t = .idle := by unfold Placed at hp; rw [hfree] at hp; exact hp
  have hsil : ∀ (l : List Happening), (∀ e ∈ l, (∃ d a, e = .recv t d a) ∨ DoneBy t e) → ∀ u, u ≠ t → ∀ w, l.foldl (Doing.next u) w = w := by
    intro l
    induction l with
    | nil => intros; rfl
    | cons e l ih =>
      intro hl u hu w
      rw [List.foldl_cons, show Doing.next u w e = w by
        rcases hl e (List.mem_cons_self ..) with ⟨d, a, rfl⟩ | rfl | ⟨l, rfl⟩ <;> exact if_neg (fun h => hu h.symm)]
      exact ih (fun e he => hl e (List.mem_cons_of_mem _ he)) u hu w
  have die : ∀ (G0 : St), G0 = G.emit (.recv t d a) → ∃ G' l, some (G0.die t) = some G' ∧ Moved G G' t (.recv t d a :: l) ∧ Placed G' t ∧ (Told G t → Told G' t) ∧
      ((∃ e ∈ l, DoneBy t e) ∨ (doing t G'.log = .working ∧ stLeft G' t ≤ 2 * namedIn d + 2)) := by
    rintro _ rfl
    refine ⟨_, [.ended t], rfl, ⟨?_, fun u hu => if_neg hu, hsil _ ?_, fun c => .inl rfl⟩, ?_, fun _ => ?_, .inl ⟨_, List.mem_singleton.mpr rfl, .inl rfl⟩⟩
    · show (G.log ++ [_]) ++ [_] = _; rw [List.append_assoc]; rfl
    · intro e he
      simp only [List.mem_cons, List.not_mem_nil, or_false] at he
      rcases he with rfl | rfl
      · exact .inl ⟨_, _, rfl⟩
      · exact .inr (.inl rfl)
    · unfold Placed; show (match (St.goto _ t .dead).places t with | .inside _ => _ | .dead => _ | _ => _); rw [goto_self]; trivial
    · unfold Told
      show doing t ((G.log ++ [_]) ++ [_]) = match (St.goto _ t .dead).places t with | .free => _ | .dead => _ | _ => _
      rw [goto_self, doing_snoc]
      exact if_pos rfl
  have leave : ∀ (G0 : St), G0 = G.emit (.recv t d a) → ∃ G' l, some (G0.emit (.sent t [])) = some G' ∧ Moved G G' t (.recv t d a :: l) ∧ Placed G' t ∧ (Told G t → Told G' t) ∧
      ((∃ e ∈ l, DoneBy t e) ∨ (doing t G'.log = .working ∧ stLeft G' t ≤ 2 * namedIn d + 2)) := by
    rintro _ rfl
    refine ⟨_, [.sent t []], rfl, ⟨?_, fun u hu => rfl, hsil _ ?_, fun c => .inl rfl⟩, ?_, fun _ => ?_, .inl ⟨_, List.mem_singleton.mpr rfl, .inr ⟨_, rfl⟩⟩⟩
    · show (G.log ++ [_]) ++ [_] = _; rw [List.append_assoc]; rfl
    · intro e he
      simp only [List.mem_cons, List.not_mem_nil, or_false] at he
      rcases he with rfl | rfl
      · exact .inl ⟨_, _, rfl⟩
      · exact .inr (.inr ⟨_, rfl⟩)
    · exact hp
    · unfold Told
      show doing t ((G.log ++ [_]) ++ [_]) = match G.places t with | .free => _ | .dead => _ | _ => _
      rw [hfree, doing_snoc]
      exact if_pos rfl
  unfold St.arrive
  rw [hfree]
  simp only []
  cases hr : readMsg (d.take 1024) with
  | none =>
    rw [recvOne_bad _ _ _ _ (not_decodes hr)]
    exact die _ rfl
  | some w =>
    have hdec := decodes_of_read a hr
    rw [recvOne_ok _ _ _ _ _ hdec]
    simp only [Option.isNone_none]
    rw [not_self]
    obtain ⟨he, hrec, -, -, -⟩ := received_decoded hdec
    obtain ⟨c, hc1, -, -, -, hc2⟩ := (C10_copy { w with fromAddr := some a }).1 he
    have hc3 : c = { w with fromAddr := some a } := hc2.trans hrec
    rw [hc1, hc3]
    simp only [Bool.false_eq_true, if_false]
    show ∃ G' l, (match G.objs w.deoj with | none => _ | some s => _) = some G' ∧ _
    cases hc : G.objs w.deoj with
    | none => exact leave _ rfl
    | some s =>
      simp only []
      have hs := hidle _ _ hc
      have enter : ∀ (s' : Sys) (p : Place), (∀ u, u ≠ t → s'.pc u = s.pc u) → (p = .sending { w with fromAddr := some a } none ∧ s'.pc t = .idle ∨
          p = .inside { w with fromAddr := some a } ∧ OnWay (s'.pc t) ∧ pcLeft (s'.pc t) + 1 ≤ 2 * namedIn d + 2) →
          ∃ G' l, some (((G.emit (.recv t d a)).put w.deoj s').goto t p) = some G' ∧ Moved G G' t (.recv t d a :: l) ∧ Placed G' t ∧ (Told G t → Told G' t) ∧
      ((∃ e ∈ l, DoneBy t e) ∨ (doing t G'.log = .working ∧ stLeft G' t ≤ 2 * namedIn d + 2)) := by
        intro s' p ho hcase
        have hput : ((G.emit (.recv t d a)).put w.deoj s').objs w.deoj = some s' := if_pos rfl
        have hw : doing t (G.log ++ [.recv t d a]) = .working := by rw [doing_snoc]; exact if_pos rfl
        refine ⟨_, [], rfl, ⟨rfl, fun u hu => if_neg hu, hsil _ ?_, fun c => ?_⟩, ?_, fun _ => ?_, .inr ⟨hw, ?_⟩⟩
        · intro e he
          rw [List.mem_singleton.mp he]
          exact .inl ⟨_, _, rfl⟩
        · by_cases hcd : c = w.deoj
          · subst hcd
            exact .inr ⟨s, s', hc, hput, ho⟩
          · exact .inl (if_neg hcd)
        · unfold Placed
          rw [goto_self]
          rcases hcase with ⟨rfl, h1⟩ | ⟨rfl, h1, -⟩
          · intro c s1 h2
            by_cases hcd : c = w.deoj
            · subst hcd
              have h2 : ((G.emit (.recv t d a)).put w.deoj s').objs w.deoj = some s1 := h2
              rw [hput] at h2
              injection h2 with h2
              rw [← h2]; exact h1
            · have h2 : (if c = w.deoj then some s' else G.objs c) = some s1 := h2
              rw [if_neg hcd] at h2
              exact hidle c s1 h2
          · refine ⟨⟨s', hput, h1⟩, fun c s1 hcd h2 => ?_⟩
            have h2 : (if c = w.deoj then some s' else G.objs c) = some s1 := h2
            rw [if_neg hcd] at h2
            exact hidle c s1 h2
        · unfold Told
          rw [goto_self]
          rcases hcase with ⟨rfl, -⟩ | ⟨rfl, -⟩ <;> exact hw
        · unfold stLeft
          rw [goto_self]
          rcases hcase with ⟨rfl, -⟩ | ⟨rfl, -, h1⟩
          · simp only []; omega
          · show (match ((G.emit (.recv t d a)).put w.deoj s').objs w.deoj with | some s => _ | none => _) ≤ _
            rw [hput]; exact h1
      unfold Sys.recv
      rw [hs]
      simp only []
      split
      · rename_i s1 h1
        split at h1
        · cases h1
        · split at h1 <;> cases h1
      · rename_i s' h1
        split at h1
        · injection h1 with h1
          have hi : s'.pc t = .idle := by rw [← h1]; exact hs
          rw [hi]
          exact enter s' _ (fun u hu => by rw [← h1]; rfl) (.inl ⟨rfl, hi⟩)
        · split at h1
          · injection h1 with h1
            have hi : s'.pc t = .idle := by rw [← h1]; exact hs
            rw [hi]
            exact enter s' _ (fun u hu => by rw [← h1]; rfl) (.inl ⟨rfl, hi⟩)
          · injection h1 with h1
            have hi : s'.pc t = .next { req := { w with fromAddr := some a }, todo := items { w with fromAddr := some a } } := by rw [← h1]; exact pc_goto _ _ _
            rw [hi]
            refine enter s' _ (fun u hu => by rw [← h1]; exact if_neg hu) (.inr ⟨rfl, by rw [hi]; trivial, ?_⟩)
            rw [hi]
            show 2 * (items { w with fromAddr := some a }).length + 1 + 1 ≤ _
            have := items_length { w with fromAddr := some a }
            have hn : namedIn d = w.props.length + w.setProps.length + w.getProps.length := by unfold namedIn; rw [hr]
            have h3 : (items { w with fromAddr := some a }).length ≤ namedIn d := by rw [hn]; exact this
            omega

/-- A thread that goes on. -/
theorem go_left {net : Net} {G : St} {t : Nat} (hp : Placed G t) (ht : Told G t) (hw : doing t G.log = .working) :
    ∃ G' l, G.run net t = some G' ∧ Moved G G' t l ∧ Placed G' t ∧ Told G' t ∧ ((∃ e ∈ l, DoneBy t e) ∨ (doing t G'.log = .working ∧ stLeft G' t + 1 ≤ stLeft G t)) := by
  unfold Placed at hp
  unfold Told at ht
  rw [hw] at ht
  unfold St.run
  cases hpl : G.places t with
  | free => rw [hpl] at ht; cases ht
  | dead => rw [hpl] at ht; cases ht
  | sending req r =>
    rw [hpl] at hp
    have hp : ∀ c s, G.objs c = some s → s.pc t = .idle := hp
    simp only []
    rcases hans : G.node.answer net req r with ⟨n, e | _⟩
    · simp only []
      refine ⟨_, [.ended t], rfl, ⟨rfl, fun u hu => if_neg hu, fun u hu w => if_neg (fun h => hu h.symm), fun c => .inl rfl⟩, ?_, ?_, .inl ⟨_, List.mem_singleton.mpr rfl, .inl rfl⟩⟩
      · unfold Placed; show (match (St.goto _ t .dead).places t with | .inside _ => _ | .dead => _ | _ => _); rw [goto_self]; trivial
      · unfold Told
        show doing t (G.log ++ [_]) = match (St.goto _ t .dead).places t with | .free => _ | .dead => _ | _ => _
        rw [goto_self, doing_snoc]
        exact if_pos rfl
    · simp only []
      refine ⟨_, _, rfl, ⟨rfl, fun u hu => if_neg hu, fun u hu w => if_neg (fun h => hu h.symm), fun c => .inl rfl⟩, ?_, ?_, .inl ⟨_, List.mem_singleton.mpr rfl, .inr ⟨_, rfl⟩⟩⟩
      · unfold Placed; show (match (St.goto _ t .free).places t with | .inside _ => _ | .dead => _ | _ => _); rw [goto_self]; exact hp
      · unfold Told
        show doing t (G.log ++ [_]) = match (St.goto _ t .free).places t with | .free => _ | .dead => _ | _ => _
        rw [goto_self, doing_snoc]
        exact if_pos rfl
  | inside req =>
    rw [hpl] at hp
    obtain ⟨⟨s, hs, hway⟩, hrest⟩ := hp
    simp only []
    rw [hs]
    simp only []
    obtain ⟨s', hrun, ho, hcase⟩ := run_left hway
    rw [hrun]
    simp only []
    have hput : (G.put req.deoj s').objs req.deoj = some s' := if_pos rfl
    have hobjs : ∀ c, (G.put req.deoj s').objs c = G.objs c ∨ ∃ s1 s2, G.objs c = some s1 ∧ (G.put req.deoj s').objs c = some s2 ∧ ∀ u, u ≠ t → s2.pc u = s1.pc u := by
      intro c
      by_cases hcd : c = req.deoj
      · subst hcd; exact .inr ⟨s, s', hs, hput, ho⟩
      · exact .inl (if_neg hcd)
    have hrest' : ∀ c s1, c ≠ req.deoj → (G.put req.deoj s').objs c = some s1 → s1.pc t = .idle := by
      intro c s1 hcd h2
      have h2 : (if c = req.deoj then some s' else G.objs c) = some s1 := h2
      rw [if_neg hcd] at h2
      exact hrest c s1 hcd h2
    have hleft : stLeft G t = pcLeft (s.pc t) + 1 := by unfold stLeft; rw [hpl]; simp only []; rw [hs]
    rcases hcase with hi | hi | ⟨hi, hlt⟩
    · rw [hi]
      refine ⟨_, [], rfl, ⟨(List.append_nil _).symm, fun u hu => if_neg hu, fun u hu w => rfl, hobjs⟩, ?_, ?_, .inr ⟨hw, ?_⟩⟩
      · unfold Placed
        rw [goto_self]
        intro c s1 h2
        by_cases hcd : c = req.deoj
        · subst hcd
          have h2 : (G.put req.deoj s').objs req.deoj = some s1 := h2
          rw [hput] at h2
          injection h2 with h2
          rw [← h2]; exact hi
        · exact hrest' c s1 hcd h2
      · unfold Told
        rw [goto_self]; exact hw
      · have := onWay_left hway
        rw [hleft]
        unfold stLeft
        rw [goto_self]
        simp only []
        omega
    · rw [hi]
      refine ⟨_, [.ended t], rfl, ⟨rfl, fun u hu => if_neg hu, fun u hu w => if_neg (fun h => hu h.symm), hobjs⟩, ?_, ?_, .inl ⟨_, List.mem_singleton.mpr rfl, .inl rfl⟩⟩
      · unfold Placed; show (match (St.goto _ t .dead).places t with | .inside _ => _ | .dead => _ | _ => _); rw [goto_self]; trivial
      · unfold Told
        show doing t (G.log ++ [_]) = match (St.goto _ t .dead).places t with | .free => _ | .dead => _ | _ => _
        rw [goto_self, doing_snoc]
        exact if_pos rfl
    · have hgo : (match s'.pc t with
          | .idle => some ((G.put req.deoj s').goto t (.sending req (ending (s.pc t))))
          | .crashed => some ((G.put req.deoj s').die t)
          | _ => some (G.put req.deoj s')) = some (G.put req.deoj s') := by
        cases hpc : s'.pc t with
        | idle => rw [hpc] at hi; exact hi.elim
        | crashed => rw [hpc] at hi; exact hi.elim
        | _ => rfl
      have hpl' : (G.put req.deoj s').places t = .inside req := hpl
      refine ⟨_, [], hgo, ⟨(List.append_nil _).symm, fun u hu => rfl, fun u hu w => rfl, hobjs⟩, ?_, ?_, .inr ⟨hw, ?_⟩⟩
      · unfold Placed
        rw [hpl']
        exact ⟨⟨s', hput, hi⟩, hrest'⟩
      · unfold Told
        rw [hpl']; exact hw
      · rw [hleft]
        unfold stLeft
        rw [hpl']
        simp only []
        rw [hput]
        simp only []
        omega

/-- The program sets data: no thread moves. -/
theorem app_moved {G G' : St} {c p : Int} {v : Bytes} (h : G.app c p v = some G') (t : Nat) (hp : Placed G t) (ht : Told G t) : Placed G' t ∧ Told G' t ∧ stLeft G' t = stLeft G t ∧ doing t G'.log = doing t G.log := by
  unfold St.app at h
  cases hc : G.objs c with
  | none => rw [hc] at h; cases h
  | some s =>
    rw [hc] at h
    injection h with h
    have hm : Moved G G' (t + 1) [.app c p v] := by
      rw [← h]
      refine ⟨rfl, fun u hu => rfl, fun u hu w => rfl, fun c' => ?_⟩
      by_cases hcd : c' = c
      · subst hcd; exact .inr ⟨s, _, hc, if_pos rfl, fun u hu => rfl⟩
      · exact .inl (if_neg hcd)
    obtain ⟨h1, h2, h3⟩ := moved_other hm (u := t) (Nat.ne_of_lt (Nat.lt_succ_self t)) hp ht
    refine ⟨h1, h2, h3, ?_⟩
    rw [hm.log, doing_snoc]; rfl

/-- The program has the node say something: no thread moves. -/
theorem call_moved (net : Net) (G : St) (k : Speech) (t : Nat) (hp : Placed G t) (ht : Told G t) :
    Placed (G.call net k) t ∧ Told (G.call net k) t ∧ stLeft (G.call net k) t = stLeft G t ∧ doing t (G.call net k).log = doing t G.log := by
  have hm : ∃ e, (∀ u w, Doing.next u w e = w) ∧ Moved G (G.call net k) (t + 1) [e] := by
    refine ⟨.call k _ _, fun u w => rfl, ⟨rfl, fun u hu => rfl, fun u hu w => rfl, fun c' => .inl rfl⟩⟩
  obtain ⟨e, he, hm⟩ := hm
  obtain ⟨h1, h2, h3⟩ := moved_other hm (u := t) (Nat.ne_of_lt (Nat.lt_succ_self t)) hp ht
  refine ⟨h1, h2, h3, ?_⟩
  rw [hm.log, doing_snoc, he]

/-- All threads are where the log says. -/
def AllPlaced (G : St) : Prop := ∀ t, Placed G t ∧ Told G t

theorem placed_begin (n : LocalNode) : AllPlaced (begin n) := by
  intro t
  refine ⟨?_, rfl⟩
  intro c s hc
  obtain ⟨o, -, rfl⟩ := Option.map_eq_some_iff.mp (show (n.getObject (.int c)).map _ = some s from hc)
  rfl

/-- What can be done for a thread depends on what it is doing. -/
theorem told_place {G : St} {t : Nat} (h : Told G t) : (doing t G.log = .nothing ↔ G.places t = .free) ∧ (doing t G.log = .ended ↔ G.places t = .dead) := by
  unfold Told at h
  rw [h]
  cases G.places t <;> simp

/-- A step. -/
theorem act_left {net : Net} {G G' : St} {x : Crowd.Act} (h : AllPlaced G) (hx : G.act net x = some G') :
    AllPlaced G' ∧ ∃ l, G'.log = G.log ++ l ∧ ∀ t, doing t G.log = .working → (∃ e ∈ l, DoneBy t e) ∨ (doing t G'.log = .working ∧ stLeft G' t + turns t [x] ≤ stLeft G t) := by
  have hother : ∀ {u : Nat} {l : List Happening}, Moved G G' u l → ∀ t, t ≠ u → turns t [x] = 0 → doing t G.log = .working → doing t G'.log = .working ∧ stLeft G' t + turns t [x] ≤ stLeft G t := by
    intro u l hm t htu hz hw
    rw [hz, (moved_other hm htu (h t).1 (h t).2).2.2]
    refine ⟨?_, Nat.le_refl _⟩
    rw [hm.log, doing, List.foldl_append, hm.silent t htu]
    exact hw
  have hord : ∀ {u : Nat} {l : List Happening}, Moved G G' u l → Placed G' u → Told G' u → AllPlaced G' := by
    intro u l hm h1 h2 t
    by_cases htu : t = u
    · rw [htu]; exact ⟨h1, h2⟩
    · have := moved_other hm htu (h t).1 (h t).2
      exact ⟨this.1, this.2.1⟩
  cases x with
  | app c p v =>
    have hx : G.app c p v = some G' := hx
    refine ⟨fun t => ?_, ?_⟩
    · have := app_moved hx t (h t).1 (h t).2
      exact ⟨this.1, this.2.1⟩
    · obtain ⟨l, hl⟩ := happenings_grow (net := net) (x := .app c p v) hx
      refine ⟨l, hl.symm, fun t hw => .inr ?_⟩
      obtain ⟨-, -, h1, h2⟩ := app_moved hx t (h t).1 (h t).2
      rw [h1, h2]
      exact ⟨hw, Nat.le_refl _⟩
  | call k =>
    have hx : some (G.call net k) = some G' := hx
    injection hx with hx
    subst hx
    refine ⟨fun t => ?_, ?_⟩
    · have := call_moved net G k t (h t).1 (h t).2
      exact ⟨this.1, this.2.1⟩
    · obtain ⟨l, hl⟩ := happenings_grow (net := net) (x := .call k) rfl
      refine ⟨l, hl.symm, fun t hw => .inr ?_⟩
      obtain ⟨-, -, h1, h2⟩ := call_moved net G k t (h t).1 (h t).2
      rw [h1, h2]
      exact ⟨hw, Nat.le_refl _⟩
  | arrive u d a =>
    have hx : G.arrive u d a = some G' := hx
    have hfree : G.places u = .free := by
      unfold St.arrive at hx
      cases hpl : G.places u with
      | free => rfl
      | _ => rw [hpl] at hx; cases hx
    obtain ⟨G1, l, h1, hm, h2, h3, -⟩ := arrive_left (h u).1 hfree d a
    rw [hx] at h1
    injection h1 with h1
    subst h1
    refine ⟨hord hm h2 (h3 (h u).2), _, hm.log, fun t hw => .inr (hother hm t ?_ rfl hw)⟩
    rintro rfl
    rw [(told_place (h t).2).1.mpr hfree] at hw
    cases hw
  | run u =>
    have hx : G.run net u = some G' := hx
    have hwork : doing u G.log = .working := by
      unfold St.run at hx
      have ht := (h u).2
      unfold Told at ht
      rw [ht]
      cases hpl : G.places u with
      | free => rw [hpl] at hx; cases hx
      | dead => rw [hpl] at hx; cases hx
      | _ => rfl
    obtain ⟨G1, l, h1, hm, h2, h3, h4⟩ := go_left (net := net) (h u).1 (h u).2 hwork
    rw [hx] at h1
    injection h1 with h1
    subst h1
    refine ⟨hord hm h2 h3, l, hm.log, fun t hw => ?_⟩
    by_cases htu : t = u
    · subst htu
      rw [show turns t [.run t] = 1 by simp [turns]]
      exact h4
    · refine .inr (hother hm t htu ?_ hw)
      simp [turns, Ne.symm htu]

theorem exec_left {net : Net} : ∀ (acts : List Crowd.Act) {G G' : St}, AllPlaced G → G.exec net acts = some G' →
    AllPlaced G' ∧ ∃ l, G'.log = G.log ++ l ∧ ∀ t, doing t G.log = .working → (∃ e ∈ l, DoneBy t e) ∨ (doing t G'.log = .working ∧ stLeft G' t + turns t acts ≤ stLeft G t)
  | [], G, G', h, hx => by
    injection hx with hx
    subst hx
    exact ⟨h, [], (List.append_nil _).symm, fun t hw => .inr ⟨hw, Nat.le_refl _⟩⟩
  | x :: acts, G, G', h, hx => by
    unfold St.exec at hx
    cases hx1 : G.act net x with
    | none => rw [hx1] at hx; cases hx
    | some G1 =>
      rw [hx1] at hx
      obtain ⟨o1, l1, e1, k1⟩ := act_left h hx1
      obtain ⟨o2, l2, e2, k2⟩ := exec_left acts o1 hx
      refine ⟨o2, l1 ++ l2, by rw [e2, e1, List.append_assoc], fun t hw => ?_⟩
      rcases k1 t hw with ⟨e, he, hd⟩ | ⟨hw1, hl1⟩
      · exact .inl ⟨e, List.mem_append_left _ he, hd⟩
      rcases k2 t hw1 with ⟨e, he, hd⟩ | ⟨hw2, hl2⟩
      · exact .inl ⟨e, List.mem_append_right _ he, hd⟩
      refine .inr ⟨hw2, ?_⟩
      have : turns t (x :: acts) = turns t [x] + turns t acts := by
        rw [turns, turns, turns, ← List.countP_append]; rfl
      omega

/-- A thread at work has a step to go. -/
theorem working_left {G : St} {t : Nat} (h : Placed G t) (ht : Told G t) (hw : doing t G.log = .working) : 1 ≤ stLeft G t := by
  unfold Told at ht
  unfold Placed at h
  unfold stLeft
  rw [hw] at ht
  cases hpl : G.places t with
  | free => rw [hpl] at ht; cases ht
  | dead => rw [hpl] at ht; cases ht
  | sending => exact Nat.le_refl _
  | inside req =>
    rw [hpl] at h
    obtain ⟨⟨s, hs, -⟩, -⟩ := h
    simp only []
    rw [hs]
    exact Nat.le_add_left _ _

end Uecho
