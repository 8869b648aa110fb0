import Verif.Spec.Asked
import Verif.Lemmas.Request

namespace Uecho
open Spec

section
variable {note : Nat → Ask → Nat} {reply : Nat → Ask → Bool} {env : Env} {h : Nat}

theorem knownItems_afterWrites (o : Obj) (a : List PProp) (s : Nat) (items : List PProp) :
    knownItems ({ afterWrites o a with ustate := s }) items = knownItems o items := by
  unfold knownItems
  apply List.filter_congr
  intro i _
  exact isSome_of_skeleton (skeleton_afterWrites o a) i.code

theorem storeData_noted (o : Obj) (s : Nat) (c : Int) (d : Bytes) (hn : (o.props.map Prod.fst).Nodup) :
    ({ o with ustate := s } : Obj).storeData c d = { afterWrites o [{ code := c, data := d }] with ustate := s } := by
  have hs := storeData_eq ({ o with ustate := s } : Obj) c d hn
  rw [hs]; rfl

theorem afterWrites_noted (o : Obj) (a b : List PProp) (s t : Nat) :
    ({ afterWrites ({ afterWrites o a with ustate := s }) b with ustate := t } : Obj) =
      { afterWrites o (a ++ b) with ustate := t } := by
  rw [← afterWrites_append]; rfl

theorem noter_write (hE : env.handler h = noter note reply) (o : Obj) (hh : o.handler = .user h) (p : OProp)
    (d : Bytes) :
    o.callWrite env p d =
      ({ o with ustate := note o.ustate (.write p.code d) }, .ok (reply o.ustate (.write p.code d))) := by
  unfold Obj.callWrite
  simp only [hh, hE, noter]

theorem noter_read (hE : env.handler h = noter note reply) (o : Obj) (hh : o.handler = .user h) (p : OProp) :
    o.callRead env (some p) =
      ({ o with ustate := note o.ustate (.read p.code) }, .ok (reply o.ustate (.read p.code))) := by
  unfold Obj.callRead
  simp only [hh, hE, noter]

theorem noter_nothing (hE : env.handler h = noter note reply) (o : Obj) (hh : o.handler = .user h) :
    o.callRead env none =
      ({ o with ustate := note o.ustate .nothing }, .ok (reply o.ustate .nothing)) := by
  unfold Obj.callRead
  simp only [hh, hE, noter]

/-- the notes after the write questions -/
def notedWrites (note : Nat → Ask → Nat) (s : Nat) (items : List PProp) : Nat :=
  (items.map fun i => Ask.write i.code i.data).foldl note s

theorem setLoop_noted (hE : env.handler h = noter note reply) (items : List PProp) :
    ∀ (o : Obj) (cnt : Nat) (acc : List PProp), WellFormed o → o.handler = .user h →
      ∃ r, Obj.setLoop env o items cnt acc =
        ({ afterWrites o (granted note reply o.ustate (knownItems o items)) with
            ustate := notedWrites note o.ustate (knownItems o items) }, .ok r) := by
  induction items with
  | nil => intro o cnt acc _ _; exact ⟨(cnt, acc), by simp [Obj.setLoop, knownItems, granted, notedWrites, afterWrites_nil]⟩
  | cons mp ms ih =>
    intro o cnt acc hw hh
    cases hp : lookup o.props mp.code with
    | none =>
      have hk : knownItems o (mp :: ms) = knownItems o ms := by simp [knownItems, hp]
      have hg : o.getProperty mp.code = none := by rw [getProperty_eq, hp]
      obtain ⟨r, hr⟩ := ih o cnt (acc ++ [{ code := mp.code }]) hw hh
      exact ⟨r, by rw [hk, ← hr]; simp only [Obj.setLoop, hg]⟩
    | some p =>
      have hk : knownItems o (mp :: ms) = mp :: knownItems o ms := by simp [knownItems, hp]
      have hg : o.getProperty mp.code = some p := by rw [getProperty_eq, hp]
      have hc := code_of_lookup hw hp
      have hcw := noter_write hE o hh p mp.data
      rw [hc] at hcw
      rw [hk]
      cases hs : reply o.ustate (.write mp.code mp.data) with
      | true =>
        rw [hs] at hcw
        obtain ⟨r, hr⟩ := ih ({ afterWrites o [mp] with ustate := note o.ustate (.write mp.code mp.data) })
          (cnt + 1) (acc ++ [{ code := mp.code }]) (wf_afterWrites o [mp] hw) hh
        rw [knownItems_afterWrites, afterWrites_noted] at hr
        refine ⟨r, ?_⟩
        simp only [Obj.setLoop, hg, hcw, storeData_noted o _ _ _ hw.1]
        rw [show ({ code := mp.code, data := mp.data } : PProp) = mp from rfl, hr]
        simp only [granted, hs, if_true, notedWrites, List.map_cons, List.foldl_cons, List.singleton_append]
      | false =>
        rw [hs] at hcw
        obtain ⟨r, hr⟩ := ih ({ o with ustate := note o.ustate (.write mp.code mp.data) })
          cnt (acc ++ [{ code := mp.code, data := mp.data }]) hw hh
        refine ⟨r, ?_⟩
        simp only [Obj.setLoop, hg, hcw]
        rw [hr]
        simp only [granted, hs, notedWrites, List.map_cons, List.foldl_cons, Bool.false_eq_true, if_false]
        rfl

theorem plainLoop_noted_write (hE : env.handler h = noter note reply) (esv : Int)
    (h1 : ESV.isReadRequest esv = false) (h2 : ESV.isWriteRequest esv = true) (items : List PProp) :
    ∀ (o : Obj) (cnt : Nat) (acc : List PProp), WellFormed o → o.handler = .user h →
      ∃ r, Obj.plainLoop env esv o items cnt acc =
        ({ afterWrites o (granted note reply o.ustate (knownItems o items)) with
            ustate := notedWrites note o.ustate (knownItems o items) }, .ok r) := by
  induction items with
  | nil => intro o cnt acc _ _; exact ⟨(cnt, acc), by simp [Obj.plainLoop, knownItems, granted, notedWrites, afterWrites_nil]⟩
  | cons mp ms ih =>
    intro o cnt acc hw hh
    cases hp : lookup o.props mp.code with
    | none =>
      have hk : knownItems o (mp :: ms) = knownItems o ms := by simp [knownItems, hp]
      have hg : o.getProperty mp.code = none := by rw [getProperty_eq, hp]
      obtain ⟨r, hr⟩ := ih o cnt (acc ++ [{ code := mp.code }]) hw hh
      exact ⟨r, by rw [hk, ← hr]; simp only [Obj.plainLoop, hg]⟩
    | some p =>
      have hk : knownItems o (mp :: ms) = mp :: knownItems o ms := by simp [knownItems, hp]
      have hg : o.getProperty mp.code = some p := by rw [getProperty_eq, hp]
      have hc := code_of_lookup hw hp
      have hcw := noter_write hE o hh p mp.data
      rw [hc] at hcw
      rw [hk]
      cases hs : reply o.ustate (.write mp.code mp.data) with
      | true =>
        rw [hs] at hcw
        obtain ⟨r, hr⟩ := ih ({ afterWrites o [mp] with ustate := note o.ustate (.write mp.code mp.data) })
          (cnt + 1) (acc ++ [{ code := mp.code }]) (wf_afterWrites o [mp] hw) hh
        rw [knownItems_afterWrites, afterWrites_noted] at hr
        refine ⟨r, ?_⟩
        simp only [Obj.plainLoop, hg, hcw, h1, h2, if_true, Bool.false_eq_true, if_false, storeData_noted o _ _ _ hw.1]
        rw [show ({ code := mp.code, data := mp.data } : PProp) = mp from rfl, hr]
        simp only [granted, hs, if_true, notedWrites, List.map_cons, List.foldl_cons, List.singleton_append]
      | false =>
        rw [hs] at hcw
        obtain ⟨r, hr⟩ := ih ({ o with ustate := note o.ustate (.write mp.code mp.data) })
          cnt (acc ++ [{ code := mp.code, data := mp.data }]) hw hh
        refine ⟨r, ?_⟩
        simp only [Obj.plainLoop, hg, hcw, h1, h2, if_true, Bool.false_eq_true, if_false]
        rw [hr]
        simp only [granted, hs, notedWrites, List.map_cons, List.foldl_cons, Bool.false_eq_true, if_false]
        rfl

theorem plainLoop_noted_read (hE : env.handler h = noter note reply) (esv : Int)
    (h1 : ESV.isReadRequest esv = true) (items : List PProp) :
    ∀ (o : Obj) (cnt : Nat) (acc : List PProp), WellFormed o → o.handler = .user h →
      ∃ r, Obj.plainLoop env esv o items cnt acc =
        ({ o with ustate := ((knownItems o items).map fun i => Ask.read i.code).foldl note o.ustate }, .ok r) := by
  induction items with
  | nil => intro o cnt acc _ _; exact ⟨(cnt, acc), by simp [Obj.plainLoop, knownItems]⟩
  | cons mp ms ih =>
    intro o cnt acc hw hh
    cases hp : lookup o.props mp.code with
    | none =>
      have hk : knownItems o (mp :: ms) = knownItems o ms := by simp [knownItems, hp]
      have hg : o.getProperty mp.code = none := by rw [getProperty_eq, hp]
      obtain ⟨r, hr⟩ := ih o cnt (acc ++ [{ code := mp.code }]) hw hh
      exact ⟨r, by rw [hk, ← hr]; simp only [Obj.plainLoop, hg]⟩
    | some p =>
      have hk : knownItems o (mp :: ms) = mp :: knownItems o ms := by simp [knownItems, hp]
      have hg : o.getProperty mp.code = some p := by rw [getProperty_eq, hp]
      have hc := code_of_lookup hw hp
      have hcr := noter_read hE o hh p
      rw [hc] at hcr
      rw [hk]
      have hstep : ∀ (cnt : Nat) (acc : List PProp), ∃ r,
          Obj.plainLoop env esv { o with ustate := note o.ustate (.read mp.code) } ms cnt acc =
            ({ o with ustate := ((mp :: knownItems o ms).map fun i => Ask.read i.code).foldl note o.ustate }, .ok r) := by
        intro cnt acc
        obtain ⟨r, hr⟩ := ih ({ o with ustate := note o.ustate (.read mp.code) }) cnt acc hw hh
        exact ⟨r, by rw [hr]; rfl⟩
      cases hs : reply o.ustate (.read mp.code) with
      | true =>
        rw [hs] at hcr
        obtain ⟨r, hr⟩ := hstep (cnt + 1) (acc ++ [⟨mp.code, (Obj.getPropertyData { o with ustate := note o.ustate (.read mp.code) } mp.code).getD p.data⟩])
        exact ⟨r, by rw [← hr]; simp only [Obj.plainLoop, hg, hcr, h1, if_true]⟩
      | false =>
        rw [hs] at hcr
        obtain ⟨r, hr⟩ := hstep cnt (acc ++ [{ code := mp.code }])
        exact ⟨r, by rw [← hr]; simp only [Obj.plainLoop, hg, hcr, h1, if_true]⟩

/-- the questions of the second part of a write-and-read request, unknown properties included -/
def getAsks (o : Obj) (items : List PProp) : List Ask :=
  items.map fun i => if (lookup o.props i.code).isSome then .read i.code else .nothing

theorem getLoop_noted (hE : env.handler h = noter note reply)     (items : List PProp) :
    ∀ (o : Obj) (cnt : Nat) (acc : List PProp), WellFormed o → o.handler = .user h →
      ((∃ i ∈ items, lookup o.props i.code = none) → ∀ s, reply s .nothing = false) →
      ∃ r, Obj.getLoop env o items cnt acc =
        ({ o with ustate := (getAsks o items).foldl note o.ustate }, .ok r) := by
  induction items with
  | nil => intro o cnt acc _ _ _; exact ⟨(cnt, acc), by simp [Obj.getLoop, getAsks]⟩
  | cons mp ms ih =>
    intro o cnt acc hw hh hno
    have hno' : (∃ i ∈ ms, lookup o.props i.code = none) → ∀ s, reply s .nothing = false :=
      fun ⟨i, hi, hn⟩ => hno ⟨i, List.mem_cons_of_mem _ hi, hn⟩
    cases hp : lookup o.props mp.code with
    | none =>
      have hg : o.getProperty mp.code = none := by rw [getProperty_eq, hp]
      have hcr := noter_nothing hE o hh
      rw [hno ⟨mp, List.mem_cons_self, hp⟩] at hcr
      obtain ⟨r, hr⟩ := ih ({ o with ustate := note o.ustate .nothing }) cnt (acc ++ [{ code := mp.code }]) hw hh hno'
      refine ⟨r, ?_⟩
      simp only [Obj.getLoop, hg, hcr]
      rw [hr]
      simp [getAsks, hp]
    | some p =>
      have hg : o.getProperty mp.code = some p := by rw [getProperty_eq, hp]
      have hc := code_of_lookup hw hp
      have hcr := noter_read hE o hh p
      rw [hc] at hcr
      have hstep : ∀ (cnt : Nat) (acc : List PProp), ∃ r,
          Obj.getLoop env { o with ustate := note o.ustate (.read mp.code) } ms cnt acc =
            ({ o with ustate := (getAsks o (mp :: ms)).foldl note o.ustate }, .ok r) := by
        intro cnt acc
        obtain ⟨r, hr⟩ := ih ({ o with ustate := note o.ustate (.read mp.code) }) cnt acc hw hh hno'
        exact ⟨r, by rw [hr]; simp [getAsks, hp]⟩
      cases hs : reply o.ustate (.read mp.code) with
      | true =>
        rw [hs] at hcr
        obtain ⟨r, hr⟩ := hstep (cnt + 1) (acc ++ [{ code := mp.code, data := p.data }])
        refine ⟨r, ?_⟩
        have hd : ({ o with ustate := note o.ustate (.read mp.code) } : Obj).getPropertyData mp.code = some p.data := by
          unfold Obj.getPropertyData
          have : o.props.get? mp.code = some p := hg
          simp only [this]
        rw [← hr]
        simp only [Obj.getLoop, hg, hcr, hd]
      | false =>
        rw [hs] at hcr
        obtain ⟨r, hr⟩ := hstep cnt (acc ++ [{ code := mp.code }])
        exact ⟨r, by rw [← hr]; simp only [Obj.getLoop, hg, hcr]⟩

/-- everything a request makes of an object whose handler keeps notes -/
theorem handle_noted (hE : env.handler h = noter note reply) (o : Obj) (hw : WellFormed o)
    (hh : o.handler = .user h) (m : Msg)
    (hno : (m.esv = 0x6E ∧ ∃ i ∈ m.getProps, lookup o.props i.code = none) → ∀ s, reply s .nothing = false) :
    ∃ r, o.handleRequest env m =
      ({ afterWrites o (granted note reply o.ustate (knownItems o (writeItems m))) with
          ustate :=
            (if m.esv = 0x6E then
              ((knownItems o m.setProps).map fun i => Ask.write i.code i.data) ++ getAsks o m.getProps
            else questions o m).foldl note o.ustate }, .ok r) := by
  have hne : o.handler ≠ .none := by rw [hh]; simp
  have hnil : ({ afterWrites o (granted note reply o.ustate (knownItems o [])) with ustate := o.ustate } : Obj) = o := by
    simp [knownItems, granted, afterWrites_nil]
  by_cases e1 : m.esv = 0x60 ∨ m.esv = 0x61
  · have h1 : ESV.isRequest m.esv = true := by rcases e1 with h | h <;> rw [h] <;> rfl
    have h2 : ESV.isWriteReadRequest m.esv = false := by rcases e1 with h | h <;> rw [h] <;> rfl
    have h3 : ESV.isReadRequest m.esv = false := by rcases e1 with h | h <;> rw [h] <;> rfl
    have h4 : ESV.isWriteRequest m.esv = true := by rcases e1 with h | h <;> rw [h] <;> rfl
    obtain ⟨r, hr⟩ := plainLoop_noted_write hE _ h3 h4 m.props o 0 [] hw hh
    have h6 : m.esv ≠ 0x6E := by omega
    unfold Obj.handleRequest
    simp only [h1, h2, hne, Bool.true_eq_false, Bool.false_eq_true, if_false]
    rw [hr]
    simp only [writeItems, if_pos e1, if_neg h6, questions, notedWrites]
    exact ⟨_, rfl⟩
  by_cases e2 : m.esv = 0x62
  · have h1 : ESV.isRequest m.esv = true := by rw [e2]; rfl
    have h2 : ESV.isWriteReadRequest m.esv = false := by rw [e2]; rfl
    have h3 : ESV.isReadRequest m.esv = true := by rw [e2]; rfl
    obtain ⟨r, hr⟩ := plainLoop_noted_read hE _ h3 m.props o 0 [] hw hh
    have h6 : m.esv ≠ 0x6E := by omega
    unfold Obj.handleRequest
    simp only [h1, h2, hne, Bool.true_eq_false, Bool.false_eq_true, if_false]
    rw [hr]
    simp only [writeItems, if_neg e1, if_neg h6, questions, if_pos e2]
    simp only [knownItems, List.filter_nil, granted, afterWrites_nil]
    exact ⟨_, rfl⟩
  by_cases e3 : m.esv = 0x6E
  · have h1 : ESV.isRequest m.esv = true := by rw [e3]; rfl
    have h2 : ESV.isWriteReadRequest m.esv = true := by rw [e3]; rfl
    obtain ⟨r, hr⟩ := setLoop_noted hE m.setProps o 0 [] hw hh
    unfold Obj.handleRequest
    simp only [h1, h2, hne, Bool.true_eq_false, if_false, if_true]
    rw [hr]
    obtain ⟨cnt, sps⟩ := r
    obtain ⟨r2, hr2⟩ := getLoop_noted hE m.getProps
      ({ afterWrites o (granted note reply o.ustate (knownItems o m.setProps)) with
            ustate := notedWrites note o.ustate (knownItems o m.setProps) }) cnt []
      (wf_afterWrites o _ hw) hh (by
        rintro ⟨i, hi, hn⟩
        refine hno ⟨e3, i, hi, ?_⟩
        have := isSome_of_skeleton (skeleton_afterWrites o (granted note reply o.ustate (knownItems o m.setProps))) i.code
        rw [hn] at this
        simpa using this)
    simp only []
    rw [hr2]
    have hga : getAsks ({ afterWrites o (granted note reply o.ustate (knownItems o m.setProps)) with
            ustate := notedWrites note o.ustate (knownItems o m.setProps) }) m.getProps = getAsks o m.getProps := by
      unfold getAsks
      apply List.map_congr_left
      intro i _
      have := isSome_of_skeleton (skeleton_afterWrites o (granted note reply o.ustate (knownItems o m.setProps))) i.code
      simp only [this]
    rw [hga]
    simp only [writeItems, if_neg e1, if_pos e3, notedWrites, List.foldl_append]
    exact ⟨_, rfl⟩
  by_cases e4 : m.esv = 0x63 ∨ m.esv = 0x74
  · rw [handle_neither env o m hne e4]
    simp only [writeItems, if_neg e1, if_neg e3, questions, if_neg e2, List.foldl_nil]
    rw [hnil]
    exact ⟨_, rfl⟩
  · rw [handle_not_request env o m (Or.inl (by simp only [List.mem_cons, List.not_mem_nil, or_false]; omega))]
    simp only [writeItems, if_neg e1, if_neg e3, questions, if_neg e2, List.foldl_nil]
    rw [hnil]
    exact ⟨_, rfl⟩

end

end Uecho
