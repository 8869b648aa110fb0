/- Lemmas for C160: a property that all who write it write alike. -/
import Verif.Spec.Kept
import Verif.Lemmas.Done
import Verif.Props.Settled

namespace Uecho
open Spec

/-- What a datagram does to a property. -/
theorem actual_gives (D : RefDevice) (d : Bytes) (a : Addr) (o c : Int) (v : Bytes) (hm : ∀ m, readMsg (d.take 1024) = some m → OnlyGives o c v m) :
    ((D.actual d a).1.entry o c).map Entry.data = (D.entry o c).map Entry.data ∨ ((D.actual d a).1.entry o c).map Entry.data = some v := by
  rcases actual_cases D d a with ⟨h, -⟩ | ⟨m, t, k, hr, ht, h, -⟩
  · exact .inl (by rw [h])
  rw [h, entry_set]
  by_cases ho : o = m.deoj
  swap
  · rw [if_neg ho]; exact .inl rfl
  rw [if_pos ho]
  have he : D.entry o c = t.props c := by unfold RefDevice.entry; rw [ho, ht]; rfl
  have hd : m.deoj % 2 ^ 24 = m.deoj := by
    have := (readMsg_sound _ _ hr).2.1
    exact (congrArg Msg.deoj this).symm
  have go : ∀ is : List PProp, (t.actual m).1 = t.puts is → (∀ i ∈ is, i ∈ m.props ∨ i ∈ m.setProps) → ((∃ i ∈ is, i.code = c) → Writes o c m) →
      ((t.actual m).1.props c).map Entry.data = (D.entry o c).map Entry.data ∨ ((t.actual m).1.props c).map Entry.data = some v := by
    intro is h1 h2 h3
    rw [h1, he]
    by_cases hc : ∃ i ∈ is, i.code = c
    · cases hp : (t.puts is).props c with
      | none =>
        left
        rw [puts_props] at hp
        rw [Option.map_eq_none_iff.mp hp]
      | some e =>
        obtain ⟨e0, k1, -, -, k4⟩ := puts_entry _ _ _ _ hp
        rcases k4 with k4 | ⟨-, i, k4, k5, k6⟩
        · left; rw [k1]; exact congrArg some k4
        · right
          show some e.data = some v
          rw [k6, hm m hr (h3 hc) i (h2 i k4) k5]
    · left
      rw [puts_other is t c fun i hi hic => hc ⟨i, hi, hic⟩]
  rcases thing_after t m with h1 | ⟨h0, h1⟩ | ⟨h0, h1⟩
  · left; rw [h1, he]
  · exact go _ h1 (fun i hi => .inl hi) fun hc => ⟨by rw [hd]; exact ho.symm, .inl ⟨h0, hc⟩⟩
  · exact go _ h1 (fun i hi => .inr hi) fun hc => ⟨by rw [hd]; exact ho.symm, .inr ⟨h0, hc⟩⟩

/-- All on its way to this address agrees about this property. -/
def Agreed (x : String) (o c : Int) (v : Bytes) (dst : String) (m : Msg) : Prop := (dst = x ∨ dst = everyone) → OnlyGives o c v m

/-- The device at this address, which is no controller, and its property. -/
def KeptD (x : String) (o c : Int) (P : Option Bytes → Prop) (ip : String) (D : RefDevice) : Prop :=
  Short D ∧ (ip = x → D.ctl = false ∧ P ((D.entry o c).map Entry.data))

theorem gives_of_not {o c : Int} {v : Bytes} {w : Msg} (h1 : w.esv ≠ 0x60) (h2 : w.esv ≠ 0x61) (h3 : w.esv ≠ 0x6E) : OnlyGives o c v w := fun h => absurd h (not_writes h1 h2 h3)

theorem kept_keeps (fresh : Int → Int → Option Bytes) (x : String) (o c : Int) (v : Bytes) (P : Option Bytes → Prop) (hP : P (some v)) :
    Keeps fresh (Agreed x o c v) (KeptD x o c P) (fun _ C => Short C.dev) where
  dev := by
    intro ip D d a hq hm
    refine ⟨⟨actual_short hq.1 d a, fun hip => ⟨by rw [actual_ctl]; exact (hq.2 hip).1, ?_⟩⟩, fun s hs w hw _ => ?_⟩
    · have : ∀ m, readMsg (d.take 1024) = some m → OnlyGives o c v m := by
        intro m hr
        rcases hm m hr with k | k
        · exact k (.inl hip)
        · exact k (.inr rfl)
      rcases actual_gives D d a o c v this with k | k
      · rw [k]; exact (hq.2 hip).2
      · rw [k]; exact hP
    · obtain ⟨h1, h2, h3, -⟩ := actual_sends hq.1 d a s hs w hw
      exact gives_of_not h1 h2 h3
  ctl := by
    intro ip C d a hq hm
    rcases ctl_cases fresh C d a with h | ⟨h1, h2⟩
    · rw [h]
      refine ⟨actual_short hq d a, fun s hs w hw _ => ?_⟩
      obtain ⟨h1, h2, h3, -⟩ := actual_sends hq d a s hs w hw
      exact gives_of_not h1 h2 h3
    · refine ⟨?_, by rw [h1]; intro s hs; cases hs⟩
      rcases h2 with h2 | ⟨m, -, h2⟩
      · rw [h2]; exact hq
      · rw [h2, actualReport_dev, actualList_dev]; exact hq
  num := fun _ _ _ h => h
  cnum := fun _ _ _ h => h
  ask := fun _ _ _ h => h
  lis := fun _ _ _ h => h

theorem gives_wire {o c so k : Int} {v : Bytes} {m : Msg} (h : OnlyGives o c v m) : OnlyGives o c v (onWire { m with seoj := so, tid := k }) := by
  intro hw i hi hc
  refine h (writes_wire hw) i ?_ hc
  simp only [onWire] at hi
  rcases hi with hi | hi
  · split at hi
    · cases hi
    · exact .inl hi
  · split at hi
    · exact .inr hi
    · cases hi

theorem kept_fine {x : String} {o c : Int} {v : Bytes} {P : Option Bytes → Prop} (hP : P (some v)) {e : Incident} (hf : e.Fair)
    (hsays : ∀ dst m, e.says = some (dst, m) → dst = none ∨ dst = some x ∨ dst = some "224.0.23.0" → OnlyGives o c v m)
    (hstores : ∀ b, e.stores = some (x, o, c, b) → b = v) : FineUse (Agreed x o c v) (KeptD x o c P) (fun _ C => Short C.dev) e := by
  refine ⟨?_, ?_, ?_⟩
  · intro dst m hsay _ so k hdst
    refine gives_wire (hsays dst m hsay ?_)
    cases dst with
    | none => exact .inl rfl
    | some y =>
      rcases hdst with h | h
      · exact .inr (.inl (congrArg some h))
      · exact .inr (.inr (congrArg some h))
  · rintro ip o' c' b rfl D hD
    refine ⟨store_short hD.1 hf.2, fun hip => ⟨?_, ?_⟩⟩
    · have : (D.store o' c' b).ctl = D.ctl := by unfold RefDevice.store; split <;> rfl
      rw [this]; exact (hD.2 hip).1
    · rw [entry_store]
      split
      · rename_i heq
        have hb : b = v := hstores b (by rw [← hip, heq.1, heq.2]; rfl)
        cases he : D.entry o c with
        | none => have := (hD.2 hip).2; rw [he] at this; exact this
        | some e => rw [hb]; exact hP
      · exact (hD.2 hip).2
  · rintro ip o' c' b rfl C hC
    exact store_short hC hf.2

theorem home_no_controller {δ κ : Type} (onD : δ → Use → δ × Given) (onC : κ → CtlUse → κ × Given) (ip : String) (es : List Incident) : ∀ N : Home δ κ, N.controllers ip = none →
    (N.run onD onC es).1.controllers ip = none := by
  induction es with
  | nil => intro N h; exact h
  | cons e es ih =>
    intro N h
    refine ih _ ?_
    cases e with
    | device x u =>
      cases hd : N.devices x with
      | none => simp only [Home.step, hd]; exact h
      | some R => simp only [Home.step, hd]; exact h
    | controller x u =>
      cases hd : N.controllers x with
      | none => simp only [Home.step, hd]; exact h
      | some R =>
        simp only [Home.step, hd]
        split
        · rename_i hx; rw [hx] at h; rw [h] at hd; cases hd
        · exact h

end Uecho
