/- C165: a request with which no other interferes is handled as if alone, whatever else the node does. -/
import Verif.Spec.Undisturbed
import Verif.Props.Atomic

namespace Uecho
open Spec Par

theorem thingAt_eq (o : Obj) (log : List Event) : thingAt o log = thingOf (afterWrites o (writes log)) := by
  refine thing_ext rfl fun c => ?_
  unfold thingAt thingOf
  simp only []
  rw [lookup_afterWrites]
  cases lookup o.props c <;> rfl

/-! ### What does not depend on data -/

theorem thingAt_canSet (o : Obj) (log : List Event) (c : Int) : (thingAt o log).canSet c = (thingOf o).canSet c := by
  unfold Thing.canSet thingAt
  simp only []
  cases (thingOf o).props c <;> rfl

theorem thingAt_canGet (o : Obj) (log : List Event) (c : Int) : (thingAt o log).canGet c = (thingOf o).canGet c := by
  unfold Thing.canGet thingAt
  simp only []
  cases (thingOf o).props c <;> rfl

theorem thingAt_knows (o : Obj) (log : List Event) (c : Int) : (thingAt o log).knows c = (thingOf o).knows c := by
  unfold Thing.knows thingAt
  simp only []
  cases (thingOf o).props c <;> rfl

theorem thingAt_canSetAll (o : Obj) (log : List Event) (is : List PProp) : (thingAt o log).canSetAll is = (thingOf o).canSetAll is := by
  unfold Thing.canSetAll; simp only [thingAt_canSet]

theorem thingAt_canGetAll (o : Obj) (log : List Event) (is : List PProp) : (thingAt o log).canGetAll is = (thingOf o).canGetAll is := by
  unfold Thing.canGetAll; simp only [thingAt_canGet]

theorem thingAt_refused (o : Obj) (log : List Event) (is : List PProp) : (thingAt o log).refused is = (thingOf o).refused is := by
  unfold Thing.refused; simp only [thingAt_canSet, thingAt_knows]

/-- What is written does not depend on data. -/
theorem actual_writes (t : Thing) (m : Msg) (h : t.serves = true) : (t.actual m).1 = t.puts (writeItems m) := by
  have hs : ¬ t.serves = false := by rw [h]; decide
  unfold Thing.actual writeItems
  simp only [if_neg hs]
  by_cases h60 : m.esv = 0x60
  · simp [h60]
  by_cases h61 : m.esv = 0x61
  · simp [h61]
  by_cases h62 : m.esv = 0x62
  · simp [h62, Thing.puts]
  by_cases h63 : m.esv = 0x63
  · simp [h63, Thing.puts]
  by_cases h6E : m.esv = 0x6E
  · simp only [h6E]
    simp only [show ¬ ((0x6E : Int) = 0x60) by decide, show ¬ ((0x6E : Int) = 0x61) by decide, show ¬ ((0x6E : Int) = 0x62) by decide, show ¬ ((0x6E : Int) = 0x63) by decide, if_false, if_true, or_self]
    split <;> rfl
  by_cases h74 : m.esv = 0x74
  · simp [h74, Thing.puts]
  · simp [h60, h61, h62, h63, h6E, h74, Thing.puts]

/-- Data of a property nobody else stores: what it was before, or what the thread has stored. -/
theorem undisturbed_data {t : Nat} {m : Msg} {during : List Event} (h : Undisturbed t m during) (before a b : List Event) (hd : during = a ++ b) (c : Int) (hc : Names m c) :
    lastFor (writes (before ++ [.recv t m] ++ a)) c = (lastFor (storesOf t a) c).or (lastFor (writes before) c) := by
  rw [writes_append, writes_append, lastFor_append, lastFor_append]
  have : lastFor (writes a) c = lastFor (storesOf t a) c := by
    refine lastFor_writes_own a fun e he => ?_
    have h1 := h e (by rw [hd]; exact List.mem_append_left _ he)
    exact ⟨fun u d x => h1.1 u c d x hc, fun d x => h1.2 c d x hc⟩
  rw [this]
  rfl

/-- **C165.** Whatever else the threads of a node and the application do with an object: a message that has been answered, and was not disturbed (nobody else stored data of a property it is about
while it was handled), was handled as if alone: the answer is the one given by the object as it was when the message was received, and all its properties are afterwards as this message leaves them. -/
theorem C165_undisturbed {o : Obj} (hw : WellFormed o) (hh : o.handler = .self_) {s : Sys} (hs : Possible o s) (l l' : List Event) (t : Nat) (m : Msg) (r : Option Msg)
    (h : s.log = l ++ .answer t m r :: l') (hm : OwnSections m) :
    ∃ before during, l = before ++ .recv t m :: during ∧ Busy t during ∧
      (Undisturbed t m during → ((thingAt o before).actual m).2 = (r, true) ∧ ∀ c, Names m c → (thingAt o l).props c = ((thingAt o before).actual m).1.props c) := by
  obtain ⟨before, during, r', h1, h2, h3, h4, h5, h6, h7⟩ := C70_answers hw hh deafEnv hs l l' t m r h
  refine ⟨before, during, h1, h2, fun hun => ?_⟩
  obtain ⟨-, j⟩ := handle_thing deafEnv (fun _ _ => rfl) o hw hh m hm
  rw [h4] at j
  simp only [] at j
  have hserves : (thingOf o).serves = true := by simp [thingOf, hh]
  have hserves' : (thingAt o before).serves = true := hserves
  have hs0 : ¬ (thingOf o).serves = false := by rw [hserves]; decide
  have hs1 : ¬ (thingAt o before).serves = false := by rw [hserves']; decide
  -- a value that was read back
  have hread : ∀ i q, (m.esv = 0x62 ∧ i ∈ m.props ∨ m.esv = 0x6E ∧ i ∈ m.getProps) → ReadBack o (before ++ [.recv t m]) t m during i q →
      q = { code := i.code, data := ((thingAt o before).puts (writeItems m)).value i.code } := by
    intro i q hi ⟨q1, q2⟩
    have hn : Names m i.code := ⟨i, by rcases hi with ⟨-, hi⟩ | ⟨-, hi⟩ <;> simp [hi], rfl⟩
    obtain ⟨qc, qd⟩ := q
    simp only [] at q1 q2
    subst q1
    congr 1
    unfold Thing.value
    rw [puts_props]
    unfold thingAt thingOf
    simp only []
    cases hl : lookup o.props i.code with
    | none =>
      rw [if_neg (by rw [(no_policy hl).1]; decide)] at q2
      simpa using q2
    | some p =>
      have hpol : (attrPolicy o).canRead i.code = decide (CanRead p) := by unfold attrPolicy; simp only [hl]
      by_cases hcr : CanRead p
      · rw [if_pos (by rw [hpol, decide_eq_true hcr])] at q2
        obtain ⟨a, b, hab, hst, hda⟩ := q2
        unfold dataAt at hda
        rw [hl, undisturbed_data hun before a b hab i.code hn, hst, lastFor_accepted o _ _ p hl] at hda
        simp only [Option.map_some, Option.some.injEq] at hda
        rw [← hda]
        by_cases hcw : CanWrite p
        · simp only [Option.map_some, hcw, hcr, decide_true, if_true]
          cases lastFor (writeItems m) i.code <;> simp
        · simp [hcw, hcr]
      · rw [if_neg (by rw [hpol, decide_eq_false hcr]; decide)] at q2
        by_cases hcw : CanWrite p
        · simp [hcr, hcw, q2]
        · simp [hcr, hcw, q2]
  have hmap : ∀ is ps, (∀ i ∈ is, m.esv = 0x62 ∧ i ∈ m.props ∨ m.esv = 0x6E ∧ i ∈ m.getProps) → List.Forall₂ (ReadBack o (before ++ [.recv t m]) t m during) is ps →
      ps = ((thingAt o before).puts (writeItems m)).values is := by
    intro is ps his hf
    induction hf with
    | nil => rfl
    | cons x _ ih =>
      rw [hread _ _ (his _ List.mem_cons_self) x, ih fun i hi => his i (List.mem_cons_of_mem _ hi)]
      rfl
  constructor
  · by_cases h62 : m.esv = 0x62
    · obtain ⟨a, ps, ha, hr, hf⟩ := h6 h62
      have hv := hmap m.props ps (fun i hi => .inl ⟨h62, hi⟩) hf
      have hwi : writeItems m = [] := by unfold writeItems; rw [if_neg (by omega), if_neg (by omega)]
      rw [hwi] at hv
      rw [ha] at j
      unfold Thing.actual at j ⊢
      simp only [if_neg hs0, if_neg hs1, h62] at j ⊢
      simp only [show ¬ ((0x62 : Int) = 0x60) by decide, show ¬ ((0x62 : Int) = 0x61) by decide, if_false, if_true] at j ⊢
      injection j with j _
      injection j with j
      rw [hr, ← j, thingAt_canGetAll, hv]
      rfl
    by_cases h6E : m.esv = 0x6E
    · obtain ⟨a, ps, ha, hr, hf⟩ := h7 h6E
      have hv := hmap m.getProps ps (fun i hi => .inr ⟨h6E, hi⟩) hf
      have hwi : writeItems m = m.setProps := by unfold writeItems; rw [if_neg (by omega), if_pos h6E]
      rw [hwi] at hv
      rw [ha] at j
      unfold Thing.actual at j ⊢
      simp only [if_neg hs0, if_neg hs1, h6E] at j ⊢
      simp only [show ¬ ((0x6E : Int) = 0x60) by decide, show ¬ ((0x6E : Int) = 0x61) by decide, show ¬ ((0x6E : Int) = 0x62) by decide, show ¬ ((0x6E : Int) = 0x63) by decide, if_false, if_true] at j ⊢
      simp only [thingAt_knows, thingAt_canSetAll, thingAt_canGetAll, thingAt_refused]
      split at j
      · rename_i hk
        rw [if_pos hk]
        injection j with j _
        injection j with j
        rw [hr, ← j, hv]
      · injection j with j _
        cases j
    · have e : ((thingAt o before).actual m).2 = ((thingOf o).actual m).2 := by
        unfold Thing.actual
        simp only [if_neg hs0, if_neg hs1, thingAt_canSetAll, thingAt_refused, if_neg h62, if_neg h6E]
        split
        · rfl
        split
        · rfl
        split
        · rfl
        split <;> rfl
      rw [e, j, h5 h62 h6E]
  · intro c hc
    rw [actual_writes _ _ hserves', puts_props]
    have hl : l = before ++ [.recv t m] ++ during := by rw [h1]; simp
    have hd := undisturbed_data hun before during [] (by simp) c hc
    rw [← hl, h3] at hd
    unfold thingAt thingOf
    simp only []
    rw [hd]
    cases hlk : lookup o.props c with
    | none => rfl
    | some p =>
      rw [lastFor_accepted o _ _ p hlk]
      simp only [Option.map_some, Option.some.injEq]
      by_cases hcw : CanWrite p
      · simp only [hcw, decide_true, if_true]
        cases lastFor (writeItems m) c <;> simp
      · simp [hcw]

/-- C165. What `thingAt` says of the end is what the object is. -/
theorem C165_object {o : Obj} (hw : WellFormed o) (hh : o.handler = .self_) {s : Sys} (hs : Possible o s) : thingOf s.obj = thingAt o s.log := by
  rw [thingAt_eq, (possible_inv hw hh hs).obj]

/-! ### The hypotheses can be met -/

/-- an object with three properties that may be written and read -/
def exThree : Obj := { exTwo with props := exTwo.props ++ [(0xC0, { code := 0xC0, data := [0], attrGet := 1, attrSet := 1 })] }
/-- `SetC` 0xC0 := 9 -/
def exSetC0 : Msg := { exSet2 with props := [{ code := 0xC0, data := [9] }] }

/-- The hypotheses of `C165_undisturbed`: two properties are read, and between the reads another thread writes the third. -/
example : ∃ s l r, WellFormed exThree ∧ exThree.handler = .self_ ∧ Possible exThree s ∧ OwnSections exGetBoth ∧ s.log = l ++ [.answer 0 exGetBoth (some r)] ∧
    l = [.recv 0 exGetBoth, .recv 1 exSetC0, .store 1 0xC0 [9]] ∧ Undisturbed 0 exGetBoth [.recv 1 exSetC0, .store 1 0xC0 [9]] := by
  have h : ∃ s, Sys.exec { obj := exThree } [.recv 0 exGetBoth, .run 0, .run 0, .recv 1 exSetC0, .run 1, .run 1, .run 0, .run 0, .run 0] = some s ∧
      s.log = [.recv 0 exGetBoth, .recv 1 exSetC0, .store 1 0xC0 [9]] ++
        [.answer 0 exGetBoth (some { tid := 1, seoj := 0x029101, esv := 0x72, props := [{ code := 0x80, data := [0] }, { code := 0xB0, data := [0] }] })] := ⟨_, rfl, by decide⟩
  obtain ⟨s, h1, h2⟩ := h
  refine ⟨s, _, _, by decide, rfl, ⟨_, h1⟩, by decide, h2, rfl, ?_⟩
  intro e he
  refine ⟨fun u c d x hn => ?_, fun c d x => ?_⟩
  · subst x
    simp only [List.mem_cons, reduceCtorEq, false_or, List.not_mem_nil, or_false, Event.store.injEq] at he
    obtain ⟨-, rfl, -⟩ := he
    obtain ⟨i, hi, hc⟩ := hn
    simp only [exGetBoth, List.mem_cons, List.not_mem_nil, or_false, or_self] at hi
    rcases hi with rfl | rfl <;> exact absurd hc (by decide)
  · subst x
    simp at he

end Uecho
