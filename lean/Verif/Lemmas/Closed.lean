/- Invariants of networks of machines in which only what was sent arrives. -/
import Verif.Spec.Closed
import Verif.Lemmas.Whole

namespace Uecho
open Spec

/-! ### Reading what was written -/

/-- Cut off or not, all one can read in a datagram is the message that was written. -/
theorem read_written {w m : Msg} (hw : Encodable w) (h : readMsg ((encode w).take 1024) = some m) : m = onWire w := by
  obtain ⟨h1, h2, t, h3⟩ := readMsg_sound _ _ h
  have h4 : encode w = encode m ++ (t ++ (encode w).drop 1024) := by
    rw [← List.append_assoc, ← h3, List.take_append_drop]
  have h5 := readMsg_enc w hw []
  rw [List.append_nil, h4, readMsg_enc m h1, ← h2] at h5
  injection h5

/-! ### Objects -/

/-- All data can be sent. -/
def Short (D : RefDevice) : Prop := ∀ o c e, D.entry o c = some e → e.data.length < 256

def ShortThing (t : Thing) : Prop := ∀ c e, t.props c = some e → e.data.length < 256

theorem thing_after (t : Thing) (m : Msg) : (t.actual m).1 = t ∨ ((m.esv = 0x60 ∨ m.esv = 0x61) ∧ (t.actual m).1 = t.puts m.props) ∨
    (m.esv = 0x6E ∧ (t.actual m).1 = t.puts m.setProps) := by
  unfold Thing.actual
  simp only []
  split
  · exact .inl rfl
  split
  · rename_i h; exact .inr (.inl ⟨.inl h, rfl⟩)
  split
  · rename_i h; exact .inr (.inl ⟨.inr h, rfl⟩)
  split
  · exact .inl rfl
  split
  · exact .inl rfl
  split
  · rename_i h
    split <;> exact .inr (.inr ⟨h, rfl⟩)
  split <;> exact .inl rfl

theorem value_is (t : Thing) (c : Int) : t.value c = [] ∨ ∃ e, t.props c = some e ∧ t.value c = e.data := by
  unfold Thing.value
  split
  · rename_i e he
    split
    · exact .inr ⟨e, he, rfl⟩
    · exact .inl rfl
  · exact .inl rfl

theorem puts_entry (is : List PProp) (t : Thing) (c : Int) (e : Entry) (h : (t.puts is).props c = some e) :
    ∃ e0, t.props c = some e0 ∧ e.readable = e0.readable ∧ e.writable = e0.writable ∧ (e.data = e0.data ∨ e0.writable = true ∧ ∃ i ∈ is, i.code = c ∧ e.data = i.data) := by
  rw [puts_props] at h
  obtain ⟨e0, h0, rfl⟩ := Option.map_eq_some_iff.mp h
  refine ⟨e0, h0, ?_⟩
  split
  · rename_i hwr
    refine ⟨rfl, rfl, ?_⟩
    cases hl : lastFor is c with
    | none => exact .inl rfl
    | some b =>
      refine .inr ⟨hwr, ?_⟩
      unfold lastFor at hl
      obtain ⟨i, hi, rfl⟩ := Option.map_eq_some_iff.mp hl
      have := List.mem_of_getLast? hi
      simp only [List.mem_filter, decide_eq_true_eq] at this
      exact ⟨i, this.1, this.2, rfl⟩
  · exact ⟨rfl, rfl, .inl rfl⟩

/-- A writes that do not name a property leave it. -/
theorem puts_other (is : List PProp) (t : Thing) (c : Int) (h : ∀ i ∈ is, i.code ≠ c) : (t.puts is).props c = t.props c := by
  rw [puts_props]
  have : lastFor is c = none := by
    unfold lastFor
    rw [List.filter_eq_nil_iff.mpr (by intro i hi; simpa using h i hi)]
    rfl
  rw [this]
  cases t.props c with
  | none => rfl
  | some e => simp

/-- Data of an answer: none, of the request, or held. -/
def From (t : Thing) (m : Msg) (b : Bytes) : Prop :=
  b = [] ∨ (∃ i, (i ∈ m.props ∨ i ∈ m.setProps) ∧ b = i.data) ∨ ∃ c e, t.props c = some e ∧ b = e.data

theorem section_map (ps : List PProp) (f : PProp → PProp) (h : SectionOk ps) (hc : ∀ i, (f i).code = i.code) (hl : ∀ i ∈ ps, (f i).data.length < 256) : SectionOk (ps.map f) := by
  obtain ⟨h1, h2⟩ := h
  refine ⟨by rw [List.length_map]; exact h1, fun p hp => ?_⟩
  obtain ⟨i, hi, rfl⟩ := List.mem_map.mp hp
  obtain ⟨k1, k2, -⟩ := h2 i hi
  exact ⟨by rw [hc]; exact k1, by rw [hc]; exact k2, hl i hi⟩

theorem thing_reply {t : Thing} {m r : Msg} (hs : ShortThing t) (hm : Encodable m) (h : (t.actual m).2.1 = some r) :
    Encodable r ∧ r.esv ≠ 0x60 ∧ r.esv ≠ 0x61 ∧ r.esv ≠ 0x6E ∧ Made (From ((t.actual m).1) m) r := by
  have hnil : ∀ (S : Bytes → Prop) (ps : List PProp), ps = [] → ∀ i ∈ ps, S i.data := by intro S ps h i hi; rw [h] at hi; cases hi
  have hsingle : TwoSections m.esv ∨ SectionOk m.props := by
    obtain ⟨-, h2⟩ := hm
    split at h2
    · left; assumption
    · exact .inr h2
  have refused_ok : ∀ (T : Thing) (is : List PProp), SectionOk is → SectionOk (T.refused is) := by
    intro T is hi
    refine section_map is _ hi (fun _ => rfl) fun i hmem => ?_
    simp only []
    split
    · exact (hi.2 i hmem).2.2
    · simp
  have values_ok : ∀ (T : Thing), ShortThing T → ∀ is : List PProp, SectionOk is → SectionOk (T.values is) := by
    intro T hT is hi
    refine section_map is _ hi (fun _ => rfl) fun i _ => ?_
    rcases value_is T i.code with h | ⟨e, h1, h2⟩
    · show (T.value i.code).length < 256; rw [h]; simp
    · show (T.value i.code).length < 256; rw [h2]; exact hT _ _ h1
  have codes_ok : ∀ is : List PProp, SectionOk is → SectionOk (codesOnly is) := fun is hi => section_map is _ hi (fun _ => rfl) fun _ _ => by simp
  have refused_from : ∀ (T T' : Thing) (is : List PProp), (∀ i ∈ is, i ∈ m.props ∨ i ∈ m.setProps) → ∀ i ∈ T.refused is, From T' m i.data := by
    intro T T' is hi i hmem
    obtain ⟨j, hj, rfl⟩ := List.mem_map.mp hmem
    simp only []
    split
    · exact .inr (.inl ⟨j, hi j hj, rfl⟩)
    · exact .inl rfl
  have values_from : ∀ (T : Thing) (is : List PProp), ∀ i ∈ T.values is, From T m i.data := by
    intro T is i hmem
    obtain ⟨j, hj, rfl⟩ := List.mem_map.mp hmem
    rcases value_is T j.code with h | ⟨e, h1, h2⟩
    · exact .inl h
    · exact .inr (.inr ⟨_, e, h1, h2⟩)
  have codes_from : ∀ (T : Thing) (is : List PProp), ∀ i ∈ codesOnly is, From T m i.data := by
    intro T is i hmem
    obtain ⟨j, hj, rfl⟩ := List.mem_map.mp hmem
    exact .inl rfl
  unfold Thing.actual at h ⊢
  simp only [] at h ⊢
  split at h
  · cases h
  rename_i hserve
  split at h
  · rename_i he
    have hp : SectionOk m.props := hsingle.resolve_left (by rw [he]; decide)
    split at h
    · cases h
    · injection h with h
      subst h
      simp only [if_neg hserve, if_pos he]
      refine ⟨⟨by simp only []; decide, ?_⟩, by decide, by decide, by decide, refused_from _ _ _ fun i hi => .inl hi, hnil _ _ rfl, hnil _ _ rfl⟩
      rw [if_neg (by simp only []; decide)]
      exact refused_ok t _ hp
  split at h
  · rename_i h60 he
    have hp : SectionOk m.props := hsingle.resolve_left (by rw [he]; decide)
    injection h with h
    subst h
    simp only [if_neg hserve, if_neg h60, if_pos he]
    have hcase : ∀ P : Int → Prop, P 0x71 → P 0x50 → P (if t.canSetAll m.props = true then 0x71 else 0x50) := by intro P a b; split <;> assumption
    refine ⟨⟨hcase (fun x => 0 ≤ x ∧ x < 256) (by decide) (by decide), ?_⟩, hcase (fun x => x ≠ 0x60) (by decide) (by decide), hcase (fun x => x ≠ 0x61) (by decide) (by decide),
      hcase (fun x => x ≠ 0x6E) (by decide) (by decide), refused_from _ _ _ fun i hi => .inl hi, hnil _ _ rfl, hnil _ _ rfl⟩
    rw [if_neg (hcase (fun x => ¬ TwoSections x) (by decide) (by decide))]
    exact refused_ok t _ hp
  split at h
  · rename_i h60 h61 he
    have hp : SectionOk m.props := hsingle.resolve_left (by rw [he]; decide)
    injection h with h
    subst h
    simp only [if_neg hserve, if_neg h60, if_neg h61, if_pos he]
    have hcase : ∀ P : Int → Prop, P 0x72 → P 0x52 → P (if t.canGetAll m.props = true then 0x72 else 0x52) := by intro P a b; split <;> assumption
    refine ⟨⟨hcase (fun x => 0 ≤ x ∧ x < 256) (by decide) (by decide), ?_⟩, hcase (fun x => x ≠ 0x60) (by decide) (by decide), hcase (fun x => x ≠ 0x61) (by decide) (by decide),
      hcase (fun x => x ≠ 0x6E) (by decide) (by decide), values_from _ _, hnil _ _ rfl, hnil _ _ rfl⟩
    rw [if_neg (hcase (fun x => ¬ TwoSections x) (by decide) (by decide))]
    exact values_ok t hs _ hp
  split at h
  · rename_i h60 h61 h62 he
    have hp : SectionOk m.props := hsingle.resolve_left (by rw [he]; decide)
    injection h with h
    subst h
    simp only [if_neg hserve, if_neg h60, if_neg h61, if_neg h62, if_pos he]
    have hcase : ∀ P : Int → Prop, P 0x73 → P 0x53 → P (if m.props = [] then 0x73 else 0x53) := by intro P a b; split <;> assumption
    refine ⟨⟨hcase (fun x => 0 ≤ x ∧ x < 256) (by decide) (by decide), ?_⟩, hcase (fun x => x ≠ 0x60) (by decide) (by decide), hcase (fun x => x ≠ 0x61) (by decide) (by decide),
      hcase (fun x => x ≠ 0x6E) (by decide) (by decide), codes_from _ _, hnil _ _ rfl, hnil _ _ rfl⟩
    rw [if_neg (hcase (fun x => ¬ TwoSections x) (by decide) (by decide))]
    exact codes_ok _ hp
  split at h
  · rename_i h60 h61 h62 h63 he
    have hp : SectionOk m.setProps ∧ SectionOk m.getProps := by
      obtain ⟨-, h2⟩ := hm
      rw [if_pos (by rw [he]; decide)] at h2
      exact h2
    split at h
    swap
    · cases h
    rename_i hk
    injection h with h
    subst h
    simp only [if_neg hserve, if_neg h60, if_neg h61, if_neg h62, if_neg h63, if_pos he, if_pos hk]
    have hcase : ∀ P : Int → Prop, P 0x7E → P 0x5E → P (if (t.canSetAll m.setProps && t.canGetAll m.getProps) = true then 0x7E else 0x5E) := by intro P a b; split <;> assumption
    refine ⟨⟨hcase (fun x => 0 ≤ x ∧ x < 256) (by decide) (by decide), ?_⟩, hcase (fun x => x ≠ 0x60) (by decide) (by decide), hcase (fun x => x ≠ 0x61) (by decide) (by decide),
      hcase (fun x => x ≠ 0x6E) (by decide) (by decide), hnil _ _ rfl, refused_from _ _ _ fun i hi => .inr hi, values_from _ _⟩
    rw [if_pos (hcase (fun x => TwoSections x) (by decide) (by decide))]
    refine ⟨refused_ok t _ hp.1, values_ok _ ?_ _ hp.2⟩
    intro c e hce
    obtain ⟨e0, k1, -, -, k2 | ⟨-, i, k2, -, k3⟩⟩ := puts_entry _ _ _ _ hce
    · rw [k2]; exact hs c e0 k1
    · rw [k3]; exact (hp.1.2 i k2).2.2
  split at h
  · rename_i h60 h61 h62 h63 h6e he
    split at h
    · injection h with h
      subst h
      simp only [if_neg hserve, if_neg h60, if_neg h61, if_neg h62, if_neg h63, if_neg h6e, if_pos he]
      refine ⟨⟨by simp only []; decide, ?_⟩, by decide, by decide, by decide, hnil _ _ rfl, hnil _ _ rfl, hnil _ _ rfl⟩
      rw [if_neg (by simp only []; decide)]
      exact ⟨by simp, by intro p hp; cases hp⟩
    · cases h
  · cases h

/-! ### Devices -/

/-- What a device does with a datagram. -/
theorem actual_cases (D : RefDevice) (d : Bytes) (a : Addr) :
    ((D.actual d a).1 = D ∧ (D.actual d a).2.1 = []) ∨
    ∃ m t k, readMsg (d.take 1024) = some m ∧ D.things m.deoj = some t ∧ (D.actual d a).1 = { D.setThing m.deoj (t.actual m).1 with tid := k } ∧
      ∀ s ∈ (D.actual d a).2.1, ∃ r so k', (t.actual m).2.1 = some r ∧ s.bytes = encode { r with seoj := so, tid := k' } := by
  have sends : ∀ (D : RefDevice) (r : Msg) (a : Addr), ∀ s ∈ D.sends r a, s.bytes = encode r := by
    intro D r a s hs
    unfold RefDevice.sends at hs
    split at hs <;> (obtain ⟨i, -, rfl⟩ := List.mem_map.mp hs; rfl)
  unfold RefDevice.actual
  cases hr : readMsg (d.take 1024) with
  | none => exact .inl ⟨rfl, rfl⟩
  | some m =>
    simp only []
    cases ht : D.things m.deoj with
    | none => exact .inl ⟨rfl, rfl⟩
    | some t =>
      simp only []
      cases hq : (t.actual m).2.1 with
      | none => exact .inr ⟨m, t, D.tid, rfl, ht, rfl, by intro s hs; cases hs⟩
      | some r =>
        simp only []
        right
        by_cases hctl : (D.setThing m.deoj (t.actual m).1).ctl = true
        · rw [if_pos hctl]
          by_cases h0 : r.tid = 0
          · simp only [if_pos h0]
            exact ⟨m, t, _, rfl, ht, rfl, fun s hs => ⟨r, _, _, hq, sends _ _ _ s hs⟩⟩
          · simp only [if_neg h0]
            exact ⟨m, t, D.tid, rfl, ht, rfl, fun s hs => ⟨r, _, _, hq, sends _ _ _ s hs⟩⟩
        · rw [if_neg hctl]
          by_cases h0 : r.tid = 0
          · simp only [if_pos h0]
            exact ⟨m, t, _, rfl, ht, rfl, fun s hs => ⟨r, r.seoj, _, hq, sends _ _ _ s hs⟩⟩
          · simp only [if_neg h0]
            exact ⟨m, t, D.tid, rfl, ht, rfl, fun s hs => ⟨r, r.seoj, r.tid, hq, sends _ _ _ s hs⟩⟩

theorem entry_set (D : RefDevice) (k : Int) (t : Thing) (x o c : Int) : ({ D.setThing k t with tid := x } : RefDevice).entry o c = if o = k then t.props c else D.entry o c := by
  show (if o = k then some t else D.things o).bind _ = _
  split <;> rfl

theorem entry_store (D : RefDevice) (k p : Int) (b : Bytes) (o c : Int) :
    (D.store k p b).entry o c = if o = k ∧ c = p then (D.entry o c).map fun e => { e with data := b } else D.entry o c := by
  unfold RefDevice.store
  cases ht : D.things k with
  | none =>
    simp only []
    split
    · rename_i h
      unfold RefDevice.entry
      rw [h.1, ht]
      rfl
    · rfl
  | some t =>
    have : ∀ T : Thing, (D.setThing k T).entry o c = if o = k then T.props c else D.entry o c := fun T => entry_set D k T D.tid o c
    simp only [this]
    by_cases h : o = k
    · have he : D.entry o c = t.props c := by unfold RefDevice.entry; rw [h, ht]; rfl
      rw [if_pos h, he]
      by_cases hc : c = p
      · rw [if_pos hc, if_pos ⟨h, hc⟩]
      · rw [if_neg hc, if_neg (fun x => hc x.2)]
    · rw [if_neg h, if_neg (fun x => h x.1)]

/-- A property after a datagram. -/
theorem actual_entry (D : RefDevice) (d : Bytes) (a : Addr) (o c : Int) :
    (D.actual d a).1.entry o c = D.entry o c ∨
    ∃ m e0 e, readMsg (d.take 1024) = some m ∧ D.entry o c = some e0 ∧ (D.actual d a).1.entry o c = some e ∧ Writes o c m ∧ e.readable = e0.readable ∧ e.writable = e0.writable ∧
      (e.data = e0.data ∨ e0.writable = true ∧ ∃ i, (i ∈ m.props ∨ i ∈ m.setProps) ∧ e.data = i.data) := by
  rcases actual_cases D d a with ⟨h, -⟩ | ⟨m, t, k, hr, ht, h, -⟩
  · exact .inl (by rw [h])
  rw [h, entry_set]
  by_cases ho : o = m.deoj
  swap
  · rw [if_neg ho]; exact .inl rfl
  rw [if_pos ho]
  have he : D.entry o c = t.props c := by unfold RefDevice.entry; rw [ho, ht]; rfl
  have hd : m.deoj % 2 ^ 24 = m.deoj := by
    have := (readMsg_sound _ _ hr).2.1
    exact (congrArg Msg.deoj this).symm
  have go : ∀ is : List PProp, (t.actual m).1 = t.puts is → (∀ i ∈ is, i ∈ m.props ∨ i ∈ m.setProps) → ((∃ i ∈ is, i.code = c) → Writes o c m) →
      ((t.actual m).1.props c = D.entry o c ∨ ∃ m' e0 e, readMsg (d.take 1024) = some m' ∧ D.entry o c = some e0 ∧ (t.actual m).1.props c = some e ∧ Writes o c m' ∧
        e.readable = e0.readable ∧ e.writable = e0.writable ∧ (e.data = e0.data ∨ e0.writable = true ∧ ∃ i, (i ∈ m'.props ∨ i ∈ m'.setProps) ∧ e.data = i.data)) := by
    intro is h1 h2 h3
    rw [h1, he]
    by_cases hc : ∃ i ∈ is, i.code = c
    · cases hp : (t.puts is).props c with
      | none =>
        left
        rw [puts_props] at hp
        rw [Option.map_eq_none_iff.mp hp]
      | some e =>
        obtain ⟨e0, k1, k2, k3, k4⟩ := puts_entry _ _ _ _ hp
        refine .inr ⟨m, e0, e, hr, k1, rfl, h3 hc, k2, k3, ?_⟩
        rcases k4 with k4 | ⟨k6, i, k4, -, k5⟩
        · exact .inl k4
        · exact .inr ⟨k6, i, h2 i k4, k5⟩
    · left
      exact puts_other is t c fun i hi hic => hc ⟨i, hi, hic⟩
  rcases thing_after t m with h1 | ⟨h0, h1⟩ | ⟨h0, h1⟩
  · left; rw [h1, he]
  · exact go _ h1 (fun i hi => .inl hi) fun hc => ⟨by rw [hd]; exact ho.symm, .inl ⟨h0, hc⟩⟩
  · exact go _ h1 (fun i hi => .inr hi) fun hc => ⟨by rw [hd]; exact ho.symm, .inr ⟨h0, hc⟩⟩

theorem item_short {m : Msg} {bs : Bytes} (h : readMsg bs = some m) {i : PProp} (hi : i ∈ m.props ∨ i ∈ m.setProps) : i.data.length < 256 := by
  obtain ⟨⟨-, h2⟩, h3, -⟩ := readMsg_sound _ _ h
  have hp : m.props = if TwoSections m.esv then [] else m.props := congrArg Msg.props h3
  have hs : m.setProps = if TwoSections m.esv then m.setProps else [] := congrArg Msg.setProps h3
  by_cases ht : TwoSections m.esv
  · rw [if_pos ht] at h2 hp
    rw [hp] at hi
    rcases hi with hi | hi
    · cases hi
    · exact (h2.1.2 i hi).2.2
  · rw [if_neg ht] at h2 hs
    rw [hs] at hi
    rcases hi with hi | hi
    · exact (h2.2 i hi).2.2
    · cases hi

theorem actual_short {D : RefDevice} (h : Short D) (d : Bytes) (a : Addr) : Short (D.actual d a).1 := by
  intro o c e he
  rcases actual_entry D d a o c with h1 | ⟨m, e0, e', hr, k1, k2, -, -, -, k3⟩
  · exact h o c e (by rw [← h1]; exact he)
  · rw [k2] at he
    injection he with he
    subst he
    rcases k3 with k3 | ⟨-, i, hi, k3⟩
    · rw [k3]; exact h o c e0 k1
    · rw [k3]; exact item_short hr hi

/-- What a device answers can be read, is no request to write, and its data are the request's or held. -/
theorem actual_sends {D : RefDevice} (h : Short D) (d : Bytes) (a : Addr) : ∀ s ∈ (D.actual d a).2.1, ∀ w, readMsg (s.bytes.take 1024) = some w →
    w.esv ≠ 0x60 ∧ w.esv ≠ 0x61 ∧ w.esv ≠ 0x6E ∧
    ∃ m, readMsg (d.take 1024) = some m ∧ Made (fun b => b = [] ∨ (∃ i, (i ∈ m.props ∨ i ∈ m.setProps) ∧ b = i.data) ∨ ∃ o c e, (D.actual d a).1.entry o c = some e ∧ b = e.data) w := by
  intro s hs w hw
  rcases actual_cases D d a with ⟨-, h0⟩ | ⟨m, t, k, hr, ht, hD, hall⟩
  · rw [h0] at hs; cases hs
  obtain ⟨r, so, k', hq, hb⟩ := hall s hs
  have hst : ShortThing t := by
    intro c e hce
    exact h m.deoj c e (by unfold RefDevice.entry; rw [ht]; exact hce)
  obtain ⟨k1, k2, k3, k4, k5⟩ := thing_reply hst (readMsg_sound _ _ hr).1 hq
  rw [hb] at hw
  have hw' := read_written (w := { r with seoj := so, tid := k' }) k1 hw
  have hfrom : ∀ b, From (t.actual m).1 m b → b = [] ∨ (∃ i, (i ∈ m.props ∨ i ∈ m.setProps) ∧ b = i.data) ∨ ∃ o c e, (D.actual d a).1.entry o c = some e ∧ b = e.data := by
    rintro b (hb | hb | ⟨c, e, hb, hb'⟩)
    · exact .inl hb
    · exact .inr (.inl hb)
    · refine .inr (.inr ⟨m.deoj, c, e, ?_, hb'⟩)
      rw [hD, entry_set, if_pos rfl]
      exact hb
  rw [hw']
  refine ⟨k2, k3, k4, m, hr, ?_, ?_, ?_⟩
  · intro i hi
    simp only [onWire] at hi
    split at hi
    · cases hi
    · exact hfrom _ (k5.1 i hi)
  · intro i hi
    simp only [onWire] at hi
    split at hi
    · exact hfrom _ (k5.2.1 i hi)
    · cases hi
  · intro i hi
    simp only [onWire] at hi
    split at hi
    · exact hfrom _ (k5.2.2 i hi)
    · cases hi

/-! ### Controllers -/

theorem actualList_dev (fresh : Int → Int → Option Bytes) (C : RefController) (a : Addr) (m : Msg) : (C.actualList fresh a m).dev = C.dev := by
  unfold RefController.actualList
  split
  · split <;> rfl
  · rfl

theorem answered_dev (C : RefController) (m : Msg) : (C.answered m).dev = C.dev := by unfold RefController.answered; split <;> rfl

theorem report_dev (C : RefController) (ip : String) (N : RefNode) (o : Int) (t : Told) (is : List PProp) : (C.report ip N o t is).dev = C.dev := by
  unfold RefController.report; split <;> rfl

theorem actualReport_dev (C : RefController) (a : Addr) (m : Msg) : (C.actualReport a m).1.dev = C.dev := by
  unfold RefController.actualReport
  split
  · split
    · rfl
    · rw [answered_dev, report_dev]
  · rw [answered_dev]

/-- What a controller does with a datagram: it treats it as the device it is, or it takes note of it. -/
theorem ctl_cases (fresh : Int → Int → Option Bytes) (C : RefController) (d : Bytes) (a : Addr) :
    C.actual fresh d a = ({ C with dev := (C.dev.actual d a).1 }, (C.dev.actual d a).2) ∨
    ((C.actual fresh d a).2.1 = [] ∧ ((C.actual fresh d a).1 = C ∨ ∃ m, readMsg (d.take 1024) = some m ∧ (C.actual fresh d a).1 = ((C.actualList fresh a m).actualReport a m).1)) := by
  unfold RefController.actual
  cases hr : readMsg (d.take 1024) with
  | none => exact .inr ⟨rfl, .inl rfl⟩
  | some m =>
    simp only []
    split
    · exact .inl rfl
    split
    · exact .inr ⟨rfl, .inl rfl⟩
    · exact .inr ⟨rfl, .inr ⟨m, rfl, rfl⟩⟩

/-! ### Networks -/

def everyone : String := "224.0.23.0"

/-- All one can read in a datagram is all right for where it goes. -/
def Fine (OK : String → Msg → Prop) (s : Sent) : Prop := ∀ m, readMsg (s.bytes.take 1024) = some m → OK s.dest.1 m

/-- What has to hold of messages, devices and controllers to go on holding. -/
structure Keeps (fresh : Int → Int → Option Bytes) (OK : String → Msg → Prop) (QD : String → RefDevice → Prop) (QC : String → RefController → Prop) : Prop where
  dev : ∀ ip D d a, QD ip D → (∀ m, readMsg (d.take 1024) = some m → OK ip m ∨ OK everyone m) → QD ip (D.actual d a).1 ∧ ∀ s ∈ (D.actual d a).2.1, Fine OK s
  ctl : ∀ ip C d a, QC ip C → (∀ m, readMsg (d.take 1024) = some m → OK ip m ∨ OK everyone m) → QC ip (C.actual fresh d a).1 ∧ ∀ s ∈ (C.actual fresh d a).2.1, Fine OK s
  num : ∀ ip D k, QD ip D → QD ip { D with tid := k }
  cnum : ∀ ip C k, QC ip C → QC ip { C with dev := { C.dev with tid := k } }
  ask : ∀ ip C k, QC ip C → QC ip { C with asked := k, answer := none }
  lis : ∀ ip C l, QC ip C → QC ip { C with listeners := l }

/-- What has to hold of what programs do. -/
structure FineUse (OK : String → Msg → Prop) (QD : String → RefDevice → Prop) (QC : String → RefController → Prop) (e : Incident) : Prop where
  said : ∀ dst m, e.says = some (dst, m) → Encodable m → ∀ so k, OK (dst.getD everyone) (onWire { m with seoj := so, tid := k })
  storeD : ∀ ip o c b, e = .device ip (.store o c b) → ∀ D, QD ip D → QD ip (D.store o c b)
  storeC : ∀ ip o c b, e = .controller ip (.device (.store o c b)) → ∀ C, QC ip C → QC ip { C with dev := C.dev.store o c b }

structure NetKeeps (OK : String → Msg → Prop) (QD : String → RefDevice → Prop) (QC : String → RefController → Prop) (N : RefNet) : Prop where
  dev : ∀ ip R, N.devices ip = some R → QD ip R.dev ∧ ∀ s ∈ R.sent, Fine OK s
  ctl : ∀ ip R, N.controllers ip = some R → QC ip R.ctl ∧ ∀ s ∈ R.sent, Fine OK s

theorem fine_of_carried {OK : String → Msg → Prop} {QD : String → RefDevice → Prop} {QC : String → RefController → Prop} {N : RefNet} (h : NetKeeps OK QD QC N) {src ip : String} {b : Bytes}
    (hc : N.Carried RefRun.sent RefCtlRun.sent src ip b) : ∀ m, readMsg (b.take 1024) = some m → OK ip m ∨ OK everyone m := by
  intro m hm
  obtain ⟨s, h1, rfl, h2⟩ := hc
  have hf : Fine OK s := by
    rcases h1 with ⟨r, hr, hs⟩ | ⟨r, hr, hs⟩
    · exact (h.dev src r hr).2 s hs
    · exact (h.ctl src r hr).2 s hs
  have := hf m hm
  rcases h2 with h2 | h2
  · rw [h2] at this; exact .inl this
  · rw [h2] at this; exact .inr this

theorem fine_announce {OK : String → Msg → Prop} (D : RefDevice) (m : Msg) (h : Encodable m → ∀ so k, OK everyone (onWire { m with seoj := so, tid := k })) :
    ∀ s ∈ (D.announce m).2.1, Fine OK s := by
  intro s hs w hw
  unfold RefDevice.announce at hs
  by_cases he : Encodable m
  · rw [if_pos he] at hs
    obtain ⟨i, -, rfl⟩ := List.mem_map.mp hs
    rw [read_written (w := D.stamped m) he hw]
    exact h he _ _
  · rw [if_neg he] at hs
    cases hs

theorem fine_send {OK : String → Msg → Prop} (D : RefDevice) (m : Msg) (a : Option Addr) (h : ∀ x, a = some x → Encodable m → ∀ so k, OK x.1 (onWire { m with seoj := so, tid := k })) :
    ∀ s ∈ (D.send m a).2.1, Fine OK s := by
  intro s hs w hw
  cases a with
  | none => cases hs
  | some a =>
    unfold RefDevice.send at hs
    by_cases he : Encodable m
    · simp only [if_pos he] at hs
      obtain ⟨i, -, rfl⟩ := List.mem_map.mp hs
      rw [read_written (w := D.stamped m) he hw]
      exact h a rfl he _ _
    · simp only [if_neg he] at hs
      cases hs

theorem announce_counts (D : RefDevice) (m : Msg) : (D.announce m).1 = D.counted m := by unfold RefDevice.announce; split <;> rfl
theorem send_counts (D : RefDevice) (m : Msg) (a : Option Addr) : (D.send m a).1 = D.counted m := by
  cases a with
  | none => rfl
  | some a => unfold RefDevice.send; simp only []; split <;> rfl

theorem keeps_device {fresh : Int → Int → Option Bytes} {OK : String → Msg → Prop} {QD : String → RefDevice → Prop} {QC : String → RefController → Prop} (hk : Keeps fresh OK QD QC)
    (ip : String) (R : RefRun) (u : Use) (hf : FineUse OK QD QC (.device ip u)) (hq : QD ip R.dev) (hs : ∀ s ∈ R.sent, Fine OK s)
    (ha : ∀ x, u = .arrive x → ∀ m, readMsg (x.bytes.take 1024) = some m → OK ip m ∨ OK everyone m) :
    QD ip (R.use u).1.dev ∧ ∀ s ∈ (R.use u).1.sent, Fine OK s := by
  have app : ∀ l : List Sent, (∀ s ∈ l, Fine OK s) → ∀ s ∈ R.sent ++ l, Fine OK s := by
    intro l hl s h
    rcases List.mem_append.mp h with h | h
    · exact hs s h
    · exact hl s h
  cases u with
  | arrive x =>
    show QD ip (R.arrive x).dev ∧ ∀ s ∈ (R.arrive x).sent, Fine OK s
    unfold RefRun.arrive
    split
    · obtain ⟨k1, k2⟩ := hk.dev ip R.dev x.bytes x.src hq (ha x rfl)
      exact ⟨k1, app _ k2⟩
    · exact ⟨hq, hs⟩
  | announce m =>
    refine ⟨?_, app _ (fine_announce _ m (hf.said none m rfl))⟩
    show QD ip (R.dev.announce m).1
    rw [announce_counts]
    exact hk.num ip _ _ hq
  | send m a =>
    refine ⟨?_, app _ (fine_send _ m a fun x hx => hf.said (some x.1) m (by rw [hx]; rfl))⟩
    show QD ip (R.dev.send m a).1
    rw [send_counts]
    exact hk.num ip _ _ hq
  | store o c b => exact ⟨hf.storeD ip o c b rfl _ hq, hs⟩

theorem keeps_controller {fresh : Int → Int → Option Bytes} {OK : String → Msg → Prop} {QD : String → RefDevice → Prop} {QC : String → RefController → Prop} (hk : Keeps fresh OK QD QC)
    (ip : String) (R : RefCtlRun) (u : CtlUse) (hf : FineUse OK QD QC (.controller ip u)) (hq : QC ip R.ctl) (hs : ∀ s ∈ R.sent, Fine OK s)
    (ha : ∀ x, u = .device (.arrive x) → ∀ m, readMsg (x.bytes.take 1024) = some m → OK ip m ∨ OK everyone m) :
    QC ip (R.use fresh u).1.ctl ∧ ∀ s ∈ (R.use fresh u).1.sent, Fine OK s := by
  have app : ∀ l : List Sent, (∀ s ∈ l, Fine OK s) → ∀ s ∈ R.sent ++ l, Fine OK s := by
    intro l hl s h
    rcases List.mem_append.mp h with h | h
    · exact hs s h
    · exact hl s h
  have hann : ∀ m, (Encodable m → ∀ so k, OK everyone (onWire { m with seoj := so, tid := k })) → QC ip (R.onDevice (R.ctl.dev.announce m)).1.ctl ∧
      ∀ s ∈ (R.onDevice (R.ctl.dev.announce m)).1.sent, Fine OK s := by
    intro m h
    refine ⟨?_, app _ (fine_announce _ m h)⟩
    show QC ip { R.ctl with dev := (R.ctl.dev.announce m).1 }
    rw [announce_counts]
    exact hk.cnum ip _ _ hq
  have hsend : ∀ m a, (∀ x, a = some x → Encodable m → ∀ so k, OK x.1 (onWire { m with seoj := so, tid := k })) → QC ip (R.onDevice (R.ctl.dev.send m a)).1.ctl ∧
      ∀ s ∈ (R.onDevice (R.ctl.dev.send m a)).1.sent, Fine OK s := by
    intro m a h
    refine ⟨?_, app _ (fine_send _ m a h)⟩
    show QC ip { R.ctl with dev := (R.ctl.dev.send m a).1 }
    rw [send_counts]
    exact hk.cnum ip _ _ hq
  cases u with
  | device u =>
    cases u with
    | arrive x =>
      show QC ip (R.arrive fresh x).ctl ∧ ∀ s ∈ (R.arrive fresh x).sent, Fine OK s
      unfold RefCtlRun.arrive
      split
      · obtain ⟨k1, k2⟩ := hk.ctl ip R.ctl x.bytes x.src hq (ha x rfl)
        exact ⟨k1, app _ k2⟩
      · exact ⟨hq, hs⟩
    | announce m => exact hann m (hf.said none m rfl)
    | send m a => exact hsend m a fun x hx => hf.said (some x.1) m (by rw [hx]; rfl)
    | store o c b => exact ⟨hf.storeC ip o c b rfl _ hq, hs⟩
  | sendTo m d => exact hsend m _ fun x hx => hf.said (some x.1) m (by show (whereTo d).map _ = _; rw [hx]; rfl)
  | post m d =>
    obtain ⟨k1, k2⟩ := hsend m (whereTo d) fun x hx => hf.said (some x.1) m (by show (whereTo d).map _ = _; rw [hx]; rfl)
    exact ⟨hk.ask ip _ _ k1, k2⟩
  | search =>
    refine ⟨?_, app _ ?_⟩
    · show QC ip { R.ctl with dev := (R.ctl.dev.announce theSearch).1 }
      rw [announce_counts]
      exact hk.cnum ip _ _ hq
    · exact fine_announce _ theSearch (hf.said none theSearch rfl)
  | listen l => exact ⟨hk.lis ip _ _ hq, hs⟩
  | unlisten l =>
    simp only [RefCtlRun.use]
    split
    · exact ⟨hk.lis ip _ _ hq, hs⟩
    · exact ⟨hq, hs⟩

/-- What goes on holding in one step holds for ever. -/
theorem keeps_run {fresh : Int → Int → Option Bytes} {OK : String → Msg → Prop} {QD : String → RefDevice → Prop} {QC : String → RefController → Prop} (hk : Keeps fresh OK QD QC) (es : List Incident) :
    ∀ N : RefNet, NetKeeps OK QD QC N → (∀ e ∈ es, FineUse OK QD QC e) → N.May RefRun.use (RefCtlRun.use fresh) RefRun.sent RefCtlRun.sent es →
      NetKeeps OK QD QC (N.run RefRun.use (RefCtlRun.use fresh) es).1 := by
  induction es with
  | nil => intro N h _ _; exact h
  | cons e es ih =>
    intro N h hf hm
    refine ih _ ?_ (fun x hx => hf x (List.mem_cons_of_mem _ hx)) hm.2
    have hfe := hf e (List.mem_cons_self ..)
    have hreal := hm.1
    cases e with
    | device ip u =>
      cases hd : N.devices ip with
      | none => simp only [Home.step, hd]; exact h
      | some R =>
        simp only [Home.step, hd]
        obtain ⟨q1, q2⟩ := h.dev ip R hd
        have := keeps_device hk ip R u hfe q1 q2 (by intro x hx; subst hx; exact fine_of_carried h hreal)
        refine ⟨fun ip' R' h' => ?_, h.ctl⟩
        simp only [] at h'
        split at h'
        · rename_i e; injection h' with h'; rw [← h', e]; exact this
        · exact h.dev ip' R' h'
    | controller ip u =>
      cases hd : N.controllers ip with
      | none => simp only [Home.step, hd]; exact h
      | some R =>
        simp only [Home.step, hd]
        obtain ⟨q1, q2⟩ := h.ctl ip R hd
        have := keeps_controller hk ip R u hfe q1 q2 (by intro x hx; subst hx; exact fine_of_carried h hreal)
        refine ⟨h.dev, fun ip' R' h' => ?_⟩
        simp only [] at h'
        split at h'
        · rename_i e; injection h' with h'; rw [← h', e]; exact this
        · exact h.ctl ip' R' h'

end Uecho
