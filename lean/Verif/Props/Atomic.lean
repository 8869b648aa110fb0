/-
C164: requests about at most one property that may change are handled by several threads as if one at a time.
Also why C159 and C161-C163 are about nodes that handle one message at a time.
-/
import Verif.Lemmas.Atomic
import Verif.Props.Threads
import Mathlib.Data.List.Infix

namespace Uecho
open Spec Par

/-- **C164.** Any number of threads take up messages for an object, while the application changes data. Each message is about any number of properties, but at most one of them is one whose data
may change: one that can be written from outside and that one of the messages writes, or one that the application sets. However the threads are interleaved, what can be seen - the messages, their answers, the threads that end, what the
application does, and the object in the end - is what can be seen if each message is handled as a whole at one moment, after it was received and before it is answered. -/
theorem C164_one_changing {o : Obj} (hw : WellFormed o) (hh : o.handler = .self_) {s : Sys} (hs : Possible o s)
    (hone : ∀ t m, Event.recv t m ∈ s.log → OneOf (MayChange (thingOf o) s.log) m) : ∃ h, Story (thingOf o) s.log h (thingOf s.obj) := by
  obtain ⟨acts, ha⟩ := hs
  obtain ⟨h, h1, -⟩ := exec_goes hw hh (L := MayChange (thingOf o) s.log) acts { obj := o } s [] (possible_inv hw hh ⟨[], rfl⟩) ha
    ⟨fun t m hm => ⟨hone t m hm, fun c hc hs => .inl ⟨hs, t, m, hm, hc⟩⟩, fun c d hm => .inr ⟨d, hm⟩⟩ (story_nil _) (fun _ => trivial)
  exact ⟨h, h1⟩

theorem oneItem_oneOf {m : Msg} (h : OneItem m) (L : Int → Prop) : OneOf L m := by
  refine ⟨h.1, ?_⟩
  have hl : (m.props ++ m.setProps ++ m.getProps).length ≤ 1 := by simp only [List.length_append]; exact h.2
  revert hl
  rcases m.props ++ m.setProps ++ m.getProps with _ | ⟨a, _ | ⟨b, l⟩⟩
  · intro _; exact List.Pairwise.nil
  · intro _; exact List.pairwise_singleton ..
  · intro hl; simp at hl

/-- **C164.** In particular if each message is about at most one property. -/
theorem C164_one_property {o : Obj} (hw : WellFormed o) (hh : o.handler = .self_) {s : Sys} (hs : Possible o s) (hone : ∀ t m, Event.recv t m ∈ s.log → OneItem m) :
    ∃ h, Story (thingOf o) s.log h (thingOf s.obj) := C164_one_changing hw hh hs fun t m hm => oneItem_oneOf (hone t m hm) _

/-! ### Requests about several properties -/

/-- At no moment of `log` have the properties 0x80 and 0xB0 of an object that began as `o` had these data together. -/
def NeverBoth (o : Obj) (log : List Event) (a b : Bytes) : Prop := ∀ l l', log = l ++ l' → ¬ (dataAt o l 0x80 = some a ∧ dataAt o l 0xB0 = some b)

theorem neverBoth_of (o : Obj) (log : List Event) (a b : Bytes) (h : log.inits.all (fun l => !decide (dataAt o l 0x80 = some a ∧ dataAt o l 0xB0 = some b)) = true) : NeverBoth o log a b := by
  intro l l' e
  have := List.all_eq_true.mp h l ((List.mem_inits l log).mpr ⟨l', e.symm⟩)
  rw [Bool.not_eq_true', decide_eq_false_iff_not] at this
  exact this

def exSetOther : Msg := { tid := 3, deoj := 0x029101, esv := 0x61, props := [{ code := 0x80, data := [2] }, { code := 0xB0, data := [2] }] }
def exGetMore : Msg := { tid := 1, deoj := 0x029101, esv := 0x62, props := [{ code := 0x80 }, { code := 0xB0 }, { code := 0xC0 }] }

/-- C159 (violated). Two threads: a write of two properties is confirmed, but at no moment both have had the values written, because another write came in between. -/
theorem C159_torn_false : ∃ s r, Possible exTwo s ∧ Event.answer 0 exSetBoth (some r) ∈ s.log ∧ r.esv = 0x71 ∧ NeverBoth exTwo s.log [1] [1] := by
  have h : ∃ s, Sys.exec { obj := exTwo } [.recv 0 exSetBoth, .run 0, .run 0, .recv 1 exSetOther, .run 1, .run 1, .run 1, .run 1, .run 1, .run 0, .run 0, .run 0] = some s ∧
      s.log = [.recv 0 exSetBoth, .store 0 0x80 [1], .recv 1 exSetOther, .store 1 0x80 [2], .store 1 0xB0 [2],
        .answer 1 exSetOther (some { tid := 3, seoj := 0x029101, esv := 0x71, props := [{ code := 0x80 }, { code := 0xB0 }] }), .store 0 0xB0 [1],
        .answer 0 exSetBoth (some { tid := 2, seoj := 0x029101, esv := 0x71, props := [{ code := 0x80 }, { code := 0xB0 }] })] := ⟨_, rfl, by decide⟩
  obtain ⟨s, h1, h2⟩ := h
  exact ⟨s, _, ⟨_, h1⟩, by rw [h2]; simp; rfl, rfl, by rw [h2]; exact neverBoth_of _ _ _ _ (by decide)⟩

/-- C161 (violated). Two threads: a read of two properties is answered with values they never had together. -/
theorem C161_torn_false : ∃ s r, Possible exTwo s ∧ Event.answer 0 exGetBoth (some r) ∈ s.log ∧ r.esv = 0x72 ∧
    r.props = [{ code := 0x80, data := [0] }, { code := 0xB0, data := [1] }] ∧ NeverBoth exTwo s.log [0] [1] := by
  have h : ∃ s, Sys.exec { obj := exTwo } [.recv 0 exGetBoth, .run 0, .run 0, .recv 1 exSetBoth, .run 1, .run 1, .run 1, .run 1, .run 1, .run 0, .run 0, .run 0] = some s ∧
      s.log = [.recv 0 exGetBoth, .recv 1 exSetBoth, .store 1 0x80 [1], .store 1 0xB0 [1],
        .answer 1 exSetBoth (some { tid := 2, seoj := 0x029101, esv := 0x71, props := [{ code := 0x80 }, { code := 0xB0 }] }),
        .answer 0 exGetBoth (some { tid := 1, seoj := 0x029101, esv := 0x72, props := [{ code := 0x80, data := [0] }, { code := 0xB0, data := [1] }] })] := ⟨_, rfl, by decide⟩
  obtain ⟨s, h1, h2⟩ := h
  exact ⟨s, _, ⟨_, h1⟩, by rw [h2]; simp; rfl, rfl, rfl, by rw [h2]; exact neverBoth_of _ _ _ _ (by decide)⟩

/-- C162 (violated). Two threads: the refusal of a read, because one property is not there, gives values for the two others that they never had together. -/
theorem C162_torn_false : ∃ s r, Possible exTwo s ∧ Event.answer 0 exGetMore (some r) ∈ s.log ∧ r.esv = 0x52 ∧
    r.props = [{ code := 0x80, data := [0] }, { code := 0xB0, data := [1] }, { code := 0xC0 }] ∧ NeverBoth exTwo s.log [0] [1] := by
  have h : ∃ s, Sys.exec { obj := exTwo } [.recv 0 exGetMore, .run 0, .run 0, .recv 1 exSetBoth, .run 1, .run 1, .run 1, .run 1, .run 1, .run 0, .run 0, .run 0, .run 0] = some s ∧
      s.log = [.recv 0 exGetMore, .recv 1 exSetBoth, .store 1 0x80 [1], .store 1 0xB0 [1],
        .answer 1 exSetBoth (some { tid := 2, seoj := 0x029101, esv := 0x71, props := [{ code := 0x80 }, { code := 0xB0 }] }),
        .answer 0 exGetMore (some { tid := 1, seoj := 0x029101, esv := 0x52, props := [{ code := 0x80, data := [0] }, { code := 0xB0, data := [1] }, { code := 0xC0 }] })] := ⟨_, rfl, by decide⟩
  obtain ⟨s, h1, h2⟩ := h
  exact ⟨s, _, ⟨_, h1⟩, by rw [h2]; simp; rfl, rfl, rfl, by rw [h2]; exact neverBoth_of _ _ _ _ (by decide)⟩

/-- The two properties of a thing have the same data, and may be read and written. -/
def Paired (t : Thing) : Prop := t.serves = true ∧ ∃ d, t.props 0x80 = some { readable := true, writable := true, data := d } ∧ t.props 0xB0 = some { readable := true, writable := true, data := d }

theorem paired_get {t : Thing} (h : Paired t) : (t.actual exGetBoth).1 = t ∧ ∀ r b, (t.actual exGetBoth).2 = (some r, b) → ∃ d, r.props = [{ code := 0x80, data := d }, { code := 0xB0, data := d }] := by
  obtain ⟨h1, d, h2, h3⟩ := h
  refine ⟨by simp [Thing.actual, h1, exGetBoth], fun r b e => ⟨d, ?_⟩⟩
  simp only [Thing.actual, h1, exGetBoth] at e
  simp at e
  rw [← e.1]
  simp [Thing.values, Thing.value, h2, h3]

theorem paired_set {t : Thing} (h : Paired t) : Paired (t.actual exSetBoth).1 := by
  obtain ⟨h1, d, h2, h3⟩ := h
  simp only [Thing.actual, h1, exSetBoth]
  simp
  refine ⟨h1, [1], ?_, ?_⟩ <;> simp [Thing.puts, Thing.put, h2, h3]

/-- C163 (violated). Two threads, one request to write two properties and one to read them: what can be seen cannot be told as a story in which each takes effect at one moment. -/
theorem C163_torn_false : ∃ s, Possible exTwo s ∧ (∀ t m, Event.recv t m ∈ s.log → m = exGetBoth ∨ m = exSetBoth) ∧ ¬ ∃ h o', Story (thingOf exTwo) s.log h o' := by
  have h : ∃ s, Sys.exec { obj := exTwo } [.recv 0 exGetBoth, .run 0, .run 0, .recv 1 exSetBoth, .run 1, .run 1, .run 1, .run 1, .run 1, .run 0, .run 0, .run 0] = some s ∧
      s.log = [.recv 0 exGetBoth, .recv 1 exSetBoth, .store 1 0x80 [1], .store 1 0xB0 [1],
        .answer 1 exSetBoth (some { tid := 2, seoj := 0x029101, esv := 0x71, props := [{ code := 0x80 }, { code := 0xB0 }] }),
        .answer 0 exGetBoth (some { tid := 1, seoj := 0x029101, esv := 0x72, props := [{ code := 0x80, data := [0] }, { code := 0xB0, data := [1] }] })] := ⟨_, rfl, by decide⟩
  obtain ⟨s, h1, h2⟩ := h
  have hrecv : ∀ t m, Event.recv t m ∈ s.log → m = exGetBoth ∨ m = exSetBoth := by
    intro t m
    rw [h2]
    intro he
    simp only [List.mem_cons, List.not_mem_nil, or_false, reduceCtorEq, Event.recv.injEq] at he
    rcases he with ⟨-, rfl⟩ | ⟨-, rfl⟩
    · exact .inl rfl
    · exact .inr rfl
  refine ⟨s, ⟨_, h1⟩, hrecv, ?_⟩
  rintro ⟨st, o', hst⟩
  have hmem : ∀ x, Instant.seen x ∈ st ↔ x ∈ outside s.log := by
    intro x
    rw [← hst.same]
    constructor
    · intro hx; exact List.mem_filterMap.mpr ⟨_, hx, rfl⟩
    · intro hx
      obtain ⟨y, hy, hy'⟩ := List.mem_filterMap.mp hx
      cases y with
      | seen e => injection hy' with hy'; rw [← hy']; exact hy
      | effect => cases hy'
  -- whatever takes effect is one of the two
  have heff : ∀ t m r b, Instant.effect t m r b ∈ st → m = exGetBoth ∨ m = exSetBoth := by
    intro t m r b hx
    obtain ⟨l, l', e⟩ := List.append_of_mem hx
    obtain ⟨a, d, ha, -⟩ := hst.after l t m r b l' e
    refine hrecv t m (List.mem_of_mem_filter ((hmem (.recv t m)).mp ?_))
    rw [e, ha]; simp
  have happ : ∀ c d, Instant.seen (.app c d) ∉ st := by
    intro c d hx
    have := List.mem_of_mem_filter ((hmem _).mp hx)
    rw [h2] at this
    simp at this
  -- so the two properties are always alike
  have halike : ∀ (l : List Instant) (u v : Thing), (∀ x ∈ l, x ∈ st) → Paired u → OneAtATime u l v → Paired v := by
    intro l
    induction l with
    | nil => intro u v _ hu h; rw [show v = u from h]; exact hu
    | cons x l ih =>
      intro u v hl hu h
      have hl' : ∀ y ∈ l, y ∈ st := fun y hy => hl y (List.mem_cons_of_mem _ hy)
      cases x with
      | effect t m r b =>
        refine ih _ v hl' ?_ h.2
        rcases heff t m r b (hl _ List.mem_cons_self) with rfl | rfl
        · rw [(paired_get hu).1]; exact hu
        · exact paired_set hu
      | seen e =>
        cases e with
        | app c d => exact absurd (hl _ List.mem_cons_self) (happ c d)
        | recv => exact ih u v hl' hu h
        | store => exact ih u v hl' hu h
        | answer => exact ih u v hl' hu h
        | crash => exact ih u v hl' hu h
  have hans : Instant.seen (.answer 0 exGetBoth (some { tid := 1, seoj := 0x029101, esv := 0x72, props := [{ code := 0x80, data := [0] }, { code := 0xB0, data := [1] }] })) ∈ st := by
    rw [hmem, h2]; decide
  obtain ⟨l, l', e⟩ := List.append_of_mem hans
  obtain ⟨a, d, ha, -⟩ := hst.answers _ _ _ _ _ e
  have hone := hst.effects
  rw [e, ha, List.append_assoc, oneAtATime_append] at hone
  obtain ⟨u, hu1, hu2⟩ := hone
  have hu := halike a (thingOf exTwo) u (fun x hx => by rw [e, ha]; simp [hx]) ⟨rfl, [0], rfl, rfl⟩ hu1
  obtain ⟨d, hd⟩ := (paired_get hu).2 _ _ hu2.1
  injection hd with hd1 hd2
  injection hd1 with _ hd1
  injection hd2 with hd2 _
  injection hd2 with _ hd2
  rw [← hd1] at hd2
  exact absurd hd2 (by decide)

/-! ### The hypotheses can be met -/

def exGet1 : Msg := { tid := 4, seoj := 0x05FF01, deoj := 0x029101, esv := 0x62, props := [{ code := 0x80 }] }

/-- The hypotheses of `C164_one_property`: a read begins, a write begins and is done, the application writes, the read goes on. -/
example : ∃ s, WellFormed exTwo ∧ exTwo.handler = .self_ ∧ Possible exTwo s ∧ (∀ t m, Event.recv t m ∈ s.log → OneItem m) ∧
    s.log = [.recv 0 exGet1, .recv 1 exSet2, .store 1 0x80 [2], .answer 1 exSet2 (some { tid := 2, seoj := 0x029101, deoj := 0x05FF01, esv := 0x71, props := [{ code := 0x80 }] }),
      .app 0x80 [7], .answer 0 exGet1 (some { tid := 4, seoj := 0x029101, deoj := 0x05FF01, esv := 0x72, props := [{ code := 0x80, data := [7] }] })] := by
  have h : ∃ s, Sys.exec { obj := exTwo } [.recv 0 exGet1, .run 0, .recv 1 exSet2, .run 1, .run 1, .run 1, .app 0x80 [7], .run 0, .run 0] = some s ∧
      s.log = [.recv 0 exGet1, .recv 1 exSet2, .store 1 0x80 [2], .answer 1 exSet2 (some { tid := 2, seoj := 0x029101, deoj := 0x05FF01, esv := 0x71, props := [{ code := 0x80 }] }),
        .app 0x80 [7], .answer 0 exGet1 (some { tid := 4, seoj := 0x029101, deoj := 0x05FF01, esv := 0x72, props := [{ code := 0x80, data := [7] }] })] := ⟨_, rfl, by decide⟩
  obtain ⟨s, h1, h2⟩ := h
  refine ⟨s, by decide, rfl, ⟨_, h1⟩, ?_, h2⟩
  intro t m
  rw [h2]
  intro he
  simp only [List.mem_cons, List.not_mem_nil, or_false, reduceCtorEq, Event.recv.injEq] at he
  rcases he with ⟨-, rfl⟩ | ⟨-, rfl⟩ <;> decide

/-- An object with two properties that can be written, and one that cannot. -/
def exMeter : Obj := { code := 0x028801, handler := .self_, props := [
  (0x80, { code := 0x80, data := [0], attrGet := 1, attrSet := 1 }),
  (0x8A, { code := 0x8A, data := [7], attrGet := 1, attrSet := 1 }),
  (0xE0, { code := 0xE0, data := [9], attrGet := 1, attrSet := 0 })] }

def exGetThree : Msg := { tid := 1, deoj := 0x028801, esv := 0x62, props := [{ code := 0x8A }, { code := 0x80 }, { code := 0xE0 }, { code := 0x8A }] }
def exSetGetThree : Msg := { tid := 2, deoj := 0x028801, esv := 0x6E, setProps := [{ code := 0x80, data := [5] }], getProps := [{ code := 0x8A }, { code := 0xE0 }] }

/-- The hypotheses of `C164_one_changing`: a read of three properties, one of them twice, and a write with a read of two in the middle of it. Two of these properties can be written, but only one of them is. -/
example : ∃ s, WellFormed exMeter ∧ exMeter.handler = .self_ ∧ Possible exMeter s ∧ (∀ t m, Event.recv t m ∈ s.log → OneOf (MayChange (thingOf exMeter) s.log) m) ∧
    s.log = [.recv 0 exGetThree, .recv 1 exSetGetThree, .store 1 0x80 [5],
      .answer 0 exGetThree (some { tid := 1, seoj := 0x028801, esv := 0x72, props := [{ code := 0x8A, data := [7] }, { code := 0x80, data := [5] }, { code := 0xE0, data := [9] }, { code := 0x8A, data := [7] }] }),
      .answer 1 exSetGetThree (some { tid := 2, seoj := 0x028801, esv := 0x7E, setProps := [{ code := 0x80 }], getProps := [{ code := 0x8A, data := [7] }, { code := 0xE0, data := [9] }] })] := by
  have h : ∃ s, Sys.exec { obj := exMeter } [.recv 0 exGetThree, .run 0, .run 0, .recv 1 exSetGetThree, .run 0, .run 1, .run 1, .run 1, .run 0, .run 0, .run 0, .run 0, .run 0, .run 0, .run 1, .run 1, .run 1, .run 1] = some s ∧
      s.log = [.recv 0 exGetThree, .recv 1 exSetGetThree, .store 1 0x80 [5],
        .answer 0 exGetThree (some { tid := 1, seoj := 0x028801, esv := 0x72, props := [{ code := 0x8A, data := [7] }, { code := 0x80, data := [5] }, { code := 0xE0, data := [9] }, { code := 0x8A, data := [7] }] }),
        .answer 1 exSetGetThree (some { tid := 2, seoj := 0x028801, esv := 0x7E, setProps := [{ code := 0x80 }], getProps := [{ code := 0x8A, data := [7] }, { code := 0xE0, data := [9] }] })] := ⟨_, rfl, by decide⟩
  obtain ⟨s, h1, h2⟩ := h
  refine ⟨s, by decide, rfl, ⟨_, h1⟩, ?_, h2⟩
  have hc : ∀ c, MayChange (thingOf exMeter) s.log c → c = 0x80 := by
    rintro c (⟨-, t, m, h, hw⟩ | ⟨d, h⟩)
    · rw [h2] at h
      simp only [List.mem_cons, List.not_mem_nil, or_false, reduceCtorEq, Event.recv.injEq] at h
      rcases h with ⟨-, rfl⟩ | ⟨-, rfl⟩
      · rcases hw with ⟨h, -⟩ | ⟨h, -⟩  <;> exact absurd h (by decide)
      · rcases hw with ⟨h, -⟩ | ⟨-, i, hi, rfl⟩
        · exact absurd h (by decide)
        · simp only [exSetGetThree, List.mem_singleton] at hi; rw [hi]
    · rw [h2] at h; simp at h
  have hR : ∀ i j : PProp, ¬ (i.code = 0x80 ∧ j.code = 0x80) → ¬ (MayChange (thingOf exMeter) s.log i.code ∧ MayChange (thingOf exMeter) s.log j.code) :=
    fun _ _ h h' => h ⟨hc _ h'.1, hc _ h'.2⟩
  intro t m he
  rw [h2] at he
  simp only [List.mem_cons, List.not_mem_nil, or_false, reduceCtorEq, Event.recv.injEq] at he
  rcases he with ⟨-, rfl⟩ | ⟨-, rfl⟩
  · exact ⟨by decide, List.Pairwise.imp (fun {i j} h => hR i j h) (show List.Pairwise (fun i j : PProp => ¬ (i.code = 0x80 ∧ j.code = 0x80)) (exGetThree.props ++ exGetThree.setProps ++ exGetThree.getProps) by decide)⟩
  · exact ⟨by decide, List.Pairwise.imp (fun {i j} h => hR i j h) (show List.Pairwise (fun i j : PProp => ¬ (i.code = 0x80 ∧ j.code = 0x80)) (exSetGetThree.props ++ exSetGetThree.setProps ++ exSetGetThree.getProps) by decide)⟩

end Uecho
