/- Invariants of objects with a handler of the user. -/
import Verif.Lemmas.Request
import Verif.Model.Light

namespace Uecho
open Spec

theorem isWriteRequest_iff (e : Int) : ESV.isWriteRequest e = true ↔ e = 0x60 ∨ e = 0x61 ∨ e = 0x6E := by
  unfold ESV.isWriteRequest ESV.WRITE_REQUEST ESV.WRITE_REQUEST_RESPONSE_REQUIRED ESV.WRITE_READ_REQUEST
  by_cases h : e = 0x60
  · simp [h]
  · by_cases h' : e = 0x61
    · simp [h']
    · simp [h, h']

theorem isWriteReadRequest_iff (e : Int) : ESV.isWriteReadRequest e = true ↔ e = 0x6E := by
  unfold ESV.isWriteReadRequest ESV.WRITE_READ_REQUEST
  by_cases h : e = 0x6E <;> simp [h]

theorem writeItems_plain {m : Msg} (hne : ¬ ESV.isWriteReadRequest m.esv = true) (he : ESV.isWriteRequest m.esv = true) : writeItems m = m.props := by
  unfold writeItems
  rw [if_pos (by
    rcases (isWriteRequest_iff _).mp he with h | h | h
    · exact Or.inl h
    · exact Or.inr h
    · exact absurd ((isWriteReadRequest_iff _).mpr h) hne)]

theorem writeItems_both {m : Msg} (he : ESV.isWriteReadRequest m.esv = true) : writeItems m = m.setProps := by
  unfold writeItems; rw [(isWriteReadRequest_iff _).mp he]; rfl

/-- A property of objects is kept by what a handler does with writes of some kind. -/
structure Kept (env : Env) (I : Obj → Prop) (ok : Int → Bytes → Prop := fun _ _ => True) : Prop where
  read : ∀ o p, I o → I (o.callRead env p).1
  write : ∀ o c p d, ok c d → I o → lookup o.props c = some p →
    (∀ o', o.callWrite env p d = (o', .ok true) → I (o'.storeData c d)) ∧
    (∀ o', o.callWrite env p d = (o', .ok false) → I o') ∧ (∀ o' e, o.callWrite env p d = (o', .error e) → I o')

theorem Kept.setLoop {env : Env} {I : Obj → Prop} {ok : Int → Bytes → Prop} (h : Kept env I ok) (items : List PProp) (hok : ∀ i ∈ items, ok i.code i.data) : ∀ (o : Obj) (cnt : Nat) (acc : List PProp), I o →
    I (Obj.setLoop env o items cnt acc).1 := by
  induction items with
  | nil => intro o cnt acc hi; exact hi
  | cons mp ms ih =>
    intro o cnt acc hi
    have ih := ih (fun i hi => hok i (List.mem_cons_of_mem _ hi))
    unfold Obj.setLoop
    rw [getProperty_eq]
    cases hp : lookup o.props mp.code with
    | none => exact ih o _ _ hi
    | some p =>
      simp only []
      obtain ⟨h1, h2, h3⟩ := h.write o mp.code p mp.data (hok mp List.mem_cons_self) hi hp
      generalize o.callWrite env p mp.data = r at h1 h2 h3
      rcases r with ⟨o', (e | (_ | _))⟩
      · exact h3 o' e rfl
      · exact ih o' _ _ (h2 o' rfl)
      · exact ih _ _ _ (h1 o' rfl)

theorem Kept.getLoop {env : Env} {I : Obj → Prop} {ok : Int → Bytes → Prop} (h : Kept env I ok) (items : List PProp) : ∀ (o : Obj) (cnt : Nat) (acc : List PProp), I o →
    I (Obj.getLoop env o items cnt acc).1 := by
  induction items with
  | nil => intro o cnt acc hi; exact hi
  | cons mp ms ih =>
    intro o cnt acc hi
    unfold Obj.getLoop
    have h1 := h.read o (o.getProperty mp.code) hi
    generalize o.callRead env (o.getProperty mp.code) = r at h1
    rcases r with ⟨o', (e | (_ | _))⟩
    · exact h1
    · exact ih o' _ _ h1
    · simp only []
      split
      · exact ih o' _ _ h1
      · exact h1

theorem Kept.plainLoop {env : Env} {I : Obj → Prop} {ok : Int → Bytes → Prop} (h : Kept env I ok) (esv : Int) (items : List PProp) (hok : ESV.isWriteRequest esv = true → ∀ i ∈ items, ok i.code i.data) : ∀ (o : Obj) (cnt : Nat) (acc : List PProp), I o →
    I (Obj.plainLoop env esv o items cnt acc).1 := by
  induction items with
  | nil => intro o cnt acc hi; exact hi
  | cons mp ms ih =>
    intro o cnt acc hi
    have ih := ih (fun he i hi => hok he i (List.mem_cons_of_mem _ hi))
    unfold Obj.plainLoop
    rw [getProperty_eq]
    cases hp : lookup o.props mp.code with
    | none => exact ih o _ _ hi
    | some p =>
      simp only []
      split
      · have h1 := h.read o (some p) hi
        generalize o.callRead env (some p) = r at h1
        rcases r with ⟨o', (e | (_ | _))⟩
        · exact h1
        · exact ih o' _ _ h1
        · exact ih o' _ _ h1
      · split
        · rename_i he
          obtain ⟨h1, h2, h3⟩ := h.write o mp.code p mp.data (hok he mp List.mem_cons_self) hi hp
          generalize o.callWrite env p mp.data = r at h1 h2 h3
          rcases r with ⟨o', (e | (_ | _))⟩
          · exact h3 o' e rfl
          · exact ih o' _ _ (h2 o' rfl)
          · exact ih _ _ _ (h1 o' rfl)
        · exact ih o _ _ hi

/-- So it is kept by every message, also by one whose handling raises. -/
theorem Kept.received {env : Env} {I : Obj → Prop} {ok : Int → Bytes → Prop} (h : Kept env I ok) (o : Obj) (m : Msg) (hok : ∀ i ∈ writeItems m, ok i.code i.data) (hi : I o) : I (o.messageReceived env m).obj := by
  have key : I (o.handleRequest env m).1 := by
    unfold Obj.handleRequest
    split
    · exact hi
    · split
      · exact hi
      · simp only []
        split
        · rename_i he
          have h1 := h.setLoop m.setProps (writeItems_both he ▸ hok) o 0 [] hi
          generalize Obj.setLoop env o m.setProps 0 [] = r at h1
          rcases r with ⟨o1, (e | ⟨c, ps⟩)⟩
          · exact h1
          · simp only []
            have h2 := h.getLoop m.getProps o1 c [] h1
            generalize Obj.getLoop env o1 m.getProps c [] = r at h2
            rcases r with ⟨o2, (e | ⟨c, ps⟩)⟩
            · exact h2
            · exact h2
        · rename_i hne
          have h1 := h.plainLoop m.esv m.props (fun he => writeItems_plain hne he ▸ hok) o 0 [] hi
          generalize Obj.plainLoop env m.esv o m.props 0 [] = r at h1
          rcases r with ⟨o1, (e | ⟨c, ps⟩)⟩
          · exact h1
          · exact h1
  by_cases hq : Quiet env o m
  · rw [messageReceived_quiet env o m hq]; exact key
  · rw [(messageReceived_loud env o m hq).1]; exact hi

/-- If the handler does not raise, handling a request does not. -/
theorem Kept.setLoop_ok {env : Env} {I : Obj → Prop} {ok : Int → Bytes → Prop} (h : Kept env I ok) (items : List PProp) (hok : ∀ i ∈ items, ok i.code i.data)
    (hw : ∀ o, I o → ∀ mp ∈ items, ∀ p, lookup o.props mp.code = some p → ∃ b, (o.callWrite env p mp.data).2 = .ok b) :
    ∀ (o : Obj) (cnt : Nat) (acc : List PProp), I o → ∃ x, (Obj.setLoop env o items cnt acc).2 = .ok x := by
  induction items with
  | nil => intro o cnt acc _; exact ⟨_, rfl⟩
  | cons mp ms ih =>
    intro o cnt acc hi
    have ih := ih (fun i hi => hok i (List.mem_cons_of_mem _ hi)) fun o hi mp hmp => hw o hi mp (List.mem_cons_of_mem _ hmp)
    unfold Obj.setLoop
    rw [getProperty_eq]
    cases hp : lookup o.props mp.code with
    | none => exact ih o _ _ hi
    | some p =>
      simp only []
      obtain ⟨h1, h2, -⟩ := h.write o mp.code p mp.data (hok mp List.mem_cons_self) hi hp
      obtain ⟨b, hb⟩ := hw o hi mp List.mem_cons_self p hp
      generalize o.callWrite env p mp.data = r at h1 h2 hb
      rcases r with ⟨o', (e | (_ | _))⟩
      · cases hb
      · exact ih o' _ _ (h2 o' rfl)
      · exact ih _ _ _ (h1 o' rfl)

theorem Kept.getLoop_ok {env : Env} {I : Obj → Prop} {ok : Int → Bytes → Prop} (h : Kept env I ok) (items : List PProp)
    (hr : ∀ o, I o → ∀ mp ∈ items, ∃ b, (o.callRead env (o.getProperty mp.code)).2 = .ok b)
    (hk : ∀ o, I o → ∀ mp ∈ items, (lookup o.props mp.code).isSome = true) :
    ∀ (o : Obj) (cnt : Nat) (acc : List PProp), I o → ∃ x, (Obj.getLoop env o items cnt acc).2 = .ok x := by
  induction items with
  | nil => intro o cnt acc _; exact ⟨_, rfl⟩
  | cons mp ms ih =>
    intro o cnt acc hi
    have ih := ih (fun o hi mp hmp => hr o hi mp (List.mem_cons_of_mem _ hmp)) (fun o hi mp hmp => hk o hi mp (List.mem_cons_of_mem _ hmp))
    unfold Obj.getLoop
    have h1 := h.read o (o.getProperty mp.code) hi
    obtain ⟨b, hb⟩ := hr o hi mp List.mem_cons_self
    have hk1 := hk o hi mp List.mem_cons_self
    generalize o.callRead env (o.getProperty mp.code) = r at h1 hb
    rcases r with ⟨o', (e | (_ | _))⟩
    · cases hb
    · exact ih o' _ _ h1
    · have hk2 := hk o' h1 mp List.mem_cons_self
      obtain ⟨p, hp⟩ := Option.isSome_iff_exists.mp hk1
      obtain ⟨p', hp'⟩ := Option.isSome_iff_exists.mp hk2
      simp only []
      rw [getProperty_eq, hp, getPropertyData_of_lookup hp']
      exact ih o' _ _ h1

theorem Kept.plainLoop_ok {env : Env} {I : Obj → Prop} {ok : Int → Bytes → Prop} (h : Kept env I ok) (esv : Int) (items : List PProp) (hok : ESV.isWriteRequest esv = true → ∀ i ∈ items, ok i.code i.data)
    (hw : ESV.isWriteRequest esv = true → ∀ o, I o → ∀ mp ∈ items, ∀ p, lookup o.props mp.code = some p → ∃ b, (o.callWrite env p mp.data).2 = .ok b)
    (hr : ∀ o, I o → ∀ c p, lookup o.props c = some p → ∃ b, (o.callRead env (some p)).2 = .ok b) :
    ∀ (o : Obj) (cnt : Nat) (acc : List PProp), I o → ∃ x, (Obj.plainLoop env esv o items cnt acc).2 = .ok x := by
  induction items with
  | nil => intro o cnt acc _; exact ⟨_, rfl⟩
  | cons mp ms ih =>
    intro o cnt acc hi
    have ih := ih (fun he i hi => hok he i (List.mem_cons_of_mem _ hi)) fun he o hi mp hmp => hw he o hi mp (List.mem_cons_of_mem _ hmp)
    unfold Obj.plainLoop
    rw [getProperty_eq]
    cases hp : lookup o.props mp.code with
    | none => exact ih o _ _ hi
    | some p =>
      simp only []
      split
      · have h1 := h.read o (some p) hi
        obtain ⟨b, hb⟩ := hr o hi mp.code p hp
        generalize o.callRead env (some p) = r at h1 hb
        rcases r with ⟨o', (e | (_ | _))⟩
        · cases hb
        · exact ih o' _ _ h1
        · exact ih o' _ _ h1
      · split
        · rename_i he
          obtain ⟨h1, h2, -⟩ := h.write o mp.code p mp.data (hok he mp List.mem_cons_self) hi hp
          obtain ⟨b, hb⟩ := hw he o hi mp List.mem_cons_self p hp
          generalize o.callWrite env p mp.data = r at h1 h2 hb
          rcases r with ⟨o', (e | (_ | _))⟩
          · cases hb
          · exact ih o' _ _ (h2 o' rfl)
          · exact ih _ _ _ (h1 o' rfl)
        · exact ih o _ _ hi

theorem Kept.handle_ok {env : Env} {I : Obj → Prop} {ok : Int → Bytes → Prop} (h : Kept env I ok) (o : Obj) (m : Msg) (hok : ∀ i ∈ writeItems m, ok i.code i.data) (hi : I o)
    (hw : ∀ o, I o → ∀ mp ∈ writeItems m, ∀ p, lookup o.props mp.code = some p → ∃ b, (o.callWrite env p mp.data).2 = .ok b)
    (hr : ∀ o, I o → ∀ c p, lookup o.props c = some p → ∃ b, (o.callRead env (some p)).2 = .ok b)
    (hk : m.esv = 0x6E → ∀ o, I o → ∀ mp ∈ m.getProps, (lookup o.props mp.code).isSome = true) :
    ∃ x, (o.handleRequest env m).2 = .ok x := by
  unfold Obj.handleRequest
  split
  · exact ⟨_, rfl⟩
  · split
    · exact ⟨_, rfl⟩
    · simp only []
      split
      · rename_i he
        have he' := (isWriteReadRequest_iff _).mp he
        rw [writeItems_both he] at hw hok
        obtain ⟨x, hx⟩ := h.setLoop_ok m.setProps hok hw o 0 [] hi
        have h1 := h.setLoop m.setProps hok o 0 [] hi
        generalize Obj.setLoop env o m.setProps 0 [] = r at h1 hx
        rcases r with ⟨o1, (e | ⟨c, ps⟩)⟩
        · cases hx
        · simp only []
          obtain ⟨x, hx⟩ := h.getLoop_ok m.getProps (fun o hi mp hmp => by
            obtain ⟨p, hp⟩ := Option.isSome_iff_exists.mp (hk he' o hi mp hmp)
            rw [getProperty_eq, hp]
            exact hr o hi mp.code p hp) (hk he') o1 c [] h1
          generalize Obj.getLoop env o1 m.getProps c [] = r at hx
          rcases r with ⟨o2, (e | ⟨c, ps⟩)⟩
          · cases hx
          · exact ⟨_, rfl⟩
      · rename_i hne
        obtain ⟨x, hx⟩ := h.plainLoop_ok m.esv m.props (fun he => writeItems_plain hne he ▸ hok) (fun he => writeItems_plain hne he ▸ hw) hr o 0 [] hi
        generalize Obj.plainLoop env m.esv o m.props 0 [] = r at hx
        rcases r with ⟨o1, (e | ⟨c, ps⟩)⟩
        · cases hx
        · exact ⟨_, rfl⟩

/-- What storing data does to the store. -/
theorem lookup_storeData (o : Obj) (c : Int) (d : Bytes) (c' : Int) :
    lookup (o.storeData c d).props c' = if c' = c then (lookup o.props c).map (fun p => { p with data := d }) else lookup o.props c' := by
  rw [lookup_eq, Obj.storeData, Dict.get?_modify, lookup_eq, lookup_eq]
  by_cases h : c' = c
  · subst h; simp
  · simp [h, Ne.symm h]

theorem keys_storeData (o : Obj) (c : Int) (d : Bytes) : (o.storeData c d).props.keys = o.props.keys := Dict.keys_modify ..

theorem wf_storeData (o : Obj) (c : Int) (d : Bytes) (h : WellFormed o) : WellFormed (o.storeData c d) := by
  rw [storeData_eq o c d h.1]
  exact wf_afterWrites o _ h

end Uecho
