/- C166: its two conditions cannot be dropped. -/
import Verif.Props.Crowd

namespace Uecho
open Spec Crowd

/-- Whether a story of `log` may exist: all ways to insert effects of the threads `ts` are tried. If `fuel` runs out the answer is yes. -/
def mayTell (ts : List Nat) : Nat → RefDevice → (Nat → Phase) → List Happening → Bool
  | 0, _, _, _ => true
  | fuel + 1, D, ph, log =>
    (ts.any fun t => match ph t with
      | .got d a => mayTell ts fuel (D.actual d a).1 (fun i => if i = t then .did (D.actual d a).2.1 (D.actual d a).2.2 else ph i) log
      | _ => false) ||
    match log with
    | [] => true
    | .app c p v :: log => mayTell ts fuel (D.assign c p v) ph log
    | .call k l r :: log => decide ((D.says k).2 = (l, givenBy r)) && mayTell ts fuel (D.says k).1 ph log
    | .recv t d a :: log => mayTell ts fuel D (fun i => if i = t then .got d a else ph i) log
    | .sent t l :: log => decide (ph t = .did l true) && mayTell ts fuel D (fun i => if i = t then .free else ph i) log
    | .ended t :: log => decide (ph t = .did [] false) && mayTell ts fuel D (fun i => if i = t then .over else ph i) log

/-- If there is a story, it is found. -/
theorem mayTell_of {ts : List Nat} : ∀ (fuel : Nat) (h : List Beat) (D D' : RefDevice) (ph : Nat → Phase) (log : List Happening),
    (∀ t d a, Happening.recv t d a ∈ log → t ∈ ts) → (∀ t, t ∉ ts → ∀ d a, ph t ≠ .got d a) →
    (h.filterMap fun | .seen e => some e | .effect .. => none) = log → InTurn D h D' → (∀ t, Phase.after t (ph t) h ≠ none) → mayTell ts fuel D ph log = true := by
  intro fuel
  induction fuel with
  | zero => intros; rfl
  | succ fuel ih =>
    intro h D D' ph log hrecv hph hsame hin hord
    cases h with
    | nil =>
      subst hsame
      show (_ || true) = true
      rw [Bool.or_true]
    | cons x h =>
      have hnext : ∀ t, ∃ q, (ph t).next t x = some q ∧ Phase.after t q h ≠ none := by
        intro t
        have := hord t
        rw [Phase.after] at this
        cases hq : (ph t).next t x with
        | none => rw [hq] at this; exact absurd rfl this
        | some q => rw [hq] at this; exact ⟨q, rfl, this⟩
      cases x with
      | effect t d a l b =>
        obtain ⟨q, hq, hq'⟩ := hnext t
        have hgot : ph t = .got d a := by
          by_contra hne
          rw [Phase.next, if_pos rfl, if_neg hne] at hq
          cases hq
        have hmem : t ∈ ts := by
          by_contra hn
          exact hph t hn d a hgot
        rw [mayTell.eq_def]
        refine Bool.or_eq_true_iff.mpr (.inl ?_)
        rw [List.any_eq_true]
        refine ⟨t, hmem, ?_⟩
        rw [hgot]
        refine ih h _ D' _ log hrecv ?_ hsame hin.2 ?_
        · intro u hu
          have : u ≠ t := fun e => hu (e ▸ hmem)
          rw [if_neg this]
          exact hph u hu
        · intro u
          by_cases hu : u = t
          · subst hu
            rw [if_pos rfl, hin.1]
            rw [Phase.next, if_pos rfl, if_pos hgot] at hq
            injection hq with hq
            rw [hq]; exact hq'
          · rw [if_neg hu]
            obtain ⟨q, hq, hq'⟩ := hnext u
            rw [Phase.next, if_neg (fun e => hu e.symm)] at hq
            injection hq with hq
            rw [hq]; exact hq'
      | seen e =>
        rw [List.filterMap_cons_some (b := e) (by rfl)] at hsame
        subst hsame
        have hrecv' := fun t d a hm => hrecv t d a (List.mem_cons_of_mem _ hm)
        rw [mayTell.eq_def]
        refine Bool.or_eq_true_iff.mpr (.inr ?_)
        cases e with
        | app c p v =>
          refine ih h _ D' ph _ hrecv' hph rfl hin ?_
          intro t
          obtain ⟨q, hq, hq'⟩ := hnext t
          injection hq with hq
          rw [hq]; exact hq'
        | call k l r =>
          rw [Bool.and_eq_true]
          refine ⟨decide_eq_true hin.1, ih h _ D' ph _ hrecv' hph rfl hin.2 ?_⟩
          intro t
          obtain ⟨q, hq, hq'⟩ := hnext t
          injection hq with hq
          rw [hq]; exact hq'
        | recv t d a =>
          have hmem := hrecv t d a (List.mem_cons_self ..)
          refine ih h _ D' _ _ hrecv' ?_ rfl hin ?_
          · intro u hu
            have : u ≠ t := fun e => hu (e ▸ hmem)
            rw [if_neg this]
            exact hph u hu
          · intro u
            obtain ⟨q, hq, hq'⟩ := hnext u
            by_cases hu : u = t
            · subst hu
              rw [Phase.next, if_pos rfl] at hq
              split at hq
              · injection hq with hq
                rw [if_pos rfl, hq]; exact hq'
              · cases hq
            · rw [Phase.next, if_neg (fun e => hu e.symm)] at hq
              injection hq with hq
              rw [if_neg hu, hq]; exact hq'
        | sent t l =>
          obtain ⟨q, hq, hq'⟩ := hnext t
          rw [Phase.next, if_pos rfl] at hq
          split at hq
          next hd =>
            injection hq with hq
            rw [Bool.and_eq_true]
            refine ⟨decide_eq_true hd, ih h _ D' _ _ hrecv' ?_ rfl hin ?_⟩
            · intro u hu d a
              by_cases hut : u = t
              · rw [if_pos hut]; exact fun h => nomatch h
              · rw [if_neg hut]; exact hph u hu d a
            · intro u
              by_cases hu : u = t
              · subst hu; rw [if_pos rfl, hq]; exact hq'
              · obtain ⟨q, hq, hq'⟩ := hnext u
                rw [Phase.next, if_neg (fun e => hu e.symm)] at hq
                injection hq with hq
                rw [if_neg hu, hq]; exact hq'
          next => cases hq
        | ended t =>
          obtain ⟨q, hq, hq'⟩ := hnext t
          rw [Phase.next, if_pos rfl] at hq
          split at hq
          next hd =>
            injection hq with hq
            rw [Bool.and_eq_true]
            refine ⟨decide_eq_true hd, ih h _ D' _ _ hrecv' ?_ rfl hin ?_⟩
            · intro u hu d a
              by_cases hut : u = t
              · rw [if_pos hut]; exact fun h => nomatch h
              · rw [if_neg hut]; exact hph u hu d a
            · intro u
              by_cases hu : u = t
              · subst hu; rw [if_pos rfl, hq]; exact hq'
              · obtain ⟨q, hq, hq'⟩ := hnext u
                rw [Phase.next, if_neg (fun e => hu e.symm)] at hq
                injection hq with hq
                rw [if_neg hu, hq]; exact hq'
          next => cases hq

theorem no_tale {ts : List Nat} {D : RefDevice} {log : List Happening} (hrecv : (log.all fun | .recv t _ _ => decide (t ∈ ts) | _ => true) = true) (fuel : Nat)
    (h : mayTell ts fuel D (fun _ => .free) log = false) : ¬ ∃ s D', Tale D log s D' := by
  rintro ⟨s, D', ht⟩
  rw [mayTell_of fuel s D D' _ log (fun t d a hm => of_decide_eq_true (List.all_eq_true.mp hrecv _ hm)) (fun _ _ _ _ h => by cases h) ht.same ht.inTurn ht.order] at h
  cases h

def exZeroSet : Msg := exTo 0x61 [⟨0x80, [0x31]⟩] 0
def exZeroGet : Msg := exTo 0x62 [⟨0x80, []⟩] 0


def exZeroActs : List Crowd.Act := [.arrive 0 (encode exZeroGet) exAsker, .run 0, .run 0, .arrive 1 (encode exZeroSet) exAsker, .run 1, .run 1, .run 1, .run 1, .run 0, .run 0]

/-- **C166, the first condition cannot be dropped.** Without transaction numbers the order can be told from the numbers the device makes up. A datagram that reads a property and one that writes it
are handled at the same time, both with number 0. The read is answered with the old value, so it took effect first; but its answer has the later number. -/
theorem C166_numbers_needed : ∃ (acts : List Crowd.Act) (G : St), (begin exRunning).exec okNet acts = some G ∧
    (∀ t d a, Happening.recv t d a ∈ G.log → ∃ m, readMsg (d.take 1024) = some m ∧ (m.props ++ m.setProps ++ m.getProps).length = 1) ∧ (∀ c p v, Happening.app c p v ∉ G.log) ∧
    ¬ ∃ h D', Tale (deviceOf exRunning) G.log h D' := by
  have h : ((begin exRunning).exec okNet exZeroActs).map St.log = some [.recv 0 (encode exZeroGet) exAsker, .recv 1 (encode exZeroSet) exAsker,
      .sent 1 [⟨"10.0.0.2", exAsker, encode { tid := 1, seoj := 0x029101, deoj := 0x05FF01, esv := 0x71, props := [⟨0x80, []⟩] }⟩],
      .sent 0 [⟨"10.0.0.2", exAsker, encode { tid := 2, seoj := 0x029101, deoj := 0x05FF01, esv := 0x72, props := [⟨0x80, [0x30]⟩] }⟩]] := by decide +kernel
  obtain ⟨G, h1, h2⟩ := Option.map_eq_some_iff.mp h
  refine ⟨exZeroActs, G, h1, ?_, ?_, ?_⟩
  · intro t d a hr
    rw [h2] at hr
    simp only [List.mem_cons, List.not_mem_nil, or_false, reduceCtorEq, Happening.recv.injEq] at hr
    rcases hr with ⟨-, rfl, -⟩ | ⟨-, rfl, -⟩
    · exact ⟨exZeroGet, by decide +kernel, rfl⟩
    · exact ⟨exZeroSet, by decide +kernel, rfl⟩
  · intro c p v hv
    rw [h2] at hv
    simp at hv
  · rw [h2]
    exact no_tale (ts := [0, 1]) (by decide +kernel) 7 (by decide +kernel)

def exTwoGet : Msg := exTo 0x62 [⟨0x80, []⟩, ⟨0x81, []⟩] 7
def exTornActs : List Crowd.Act := [.arrive 0 (encode exTwoGet) exAsker, .run 0, .run 0, .app 0x029101 0x80 [0x31], .app 0x029101 0x81 [8], .run 0, .run 0, .run 0, .run 0]

/-- **C166, the second condition cannot be dropped.** One datagram reads two properties; between the two the program changes both. The answer has the old value of the first and the new value of the second. -/
theorem C166_one_needed : ∃ (acts : List Crowd.Act) (G : St), (begin exRunning).exec okNet acts = some G ∧
    (∀ t d a, Happening.recv t d a ∈ G.log → ∃ m, readMsg (d.take 1024) = some m ∧ m.tid ≠ 0 ∧ (m.props ++ m.setProps ++ m.getProps).length = 2) ∧ ¬ ∃ h D', Tale (deviceOf exRunning) G.log h D' := by
  have h : ((begin exRunning).exec okNet exTornActs).map St.log = some [.recv 0 (encode exTwoGet) exAsker, .app 0x029101 0x80 [0x31], .app 0x029101 0x81 [8],
      .sent 0 [⟨"10.0.0.2", exAsker, encode { tid := 7, seoj := 0x029101, deoj := 0x05FF01, esv := 0x72, props := [⟨0x80, [0x30]⟩, ⟨0x81, [8]⟩] }⟩]] := by decide +kernel
  obtain ⟨G, h1, h2⟩ := Option.map_eq_some_iff.mp h
  refine ⟨exTornActs, G, h1, ?_, ?_⟩
  · intro t d a hr
    rw [h2] at hr
    simp only [List.mem_cons, List.not_mem_nil, or_false, reduceCtorEq, Happening.recv.injEq] at hr
    obtain ⟨-, rfl, -⟩ := hr
    exact ⟨exTwoGet, by decide +kernel, by decide, rfl⟩
  · rw [h2]
    exact no_tale (ts := [0]) (by decide +kernel) 6 (by decide +kernel)

end Uecho
