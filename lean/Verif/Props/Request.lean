/- Properties C13–C24 and C58 (how an object answers requests). -/
import Verif.Lemmas.Request

namespace Uecho
open Spec

/-! ### Objects used in the examples -/

/-- a device with a read/write property 0x80, a read-only one 0x81, a write-only one 0xB0 -/
def exObj : Obj :=
  { code := 0x029101
    handler := .self_
    observers := [1, 2]
    props := [(0x80, { code := 0x80, data := [0x30], attrGet := 1, attrSet := 1, attrAnno := 1 }),
              (0x81, { code := 0x81, data := [7], attrGet := 2 }),
              (0xB0, { code := 0xB0, data := [9, 9], attrSet := 2 })] }

/-- user code that never raises and accepts everything -/
def exEnv : Env :=
  { handler := fun _ => { read := fun o _ => (o, .ok true), write := fun o _ _ => (o, .ok true) }
    observe := fun _ _ => none }

/-- observer 2 raises -/
def exLoudEnv : Env := { exEnv with observe := fun n _ => if n = 2 then some (.user 0) else none }

example : WellFormed exObj := by decide
example (m : Msg) : Quiet exEnv exObj m := fun _ _ => rfl
example (m : Msg) : ¬ Quiet exLoudEnv exObj m := fun h => absurd (h 2 (by decide)) (by simp [exLoudEnv])
/-- the hypothesis "some handler following a policy" is met by user handlers, too -/
example : Follows exEnv { exObj with handler := .user 0 } { canRead := fun _ => true, canWrite := fun _ _ => true } :=
  ⟨by decide, fun o' h c p _ => by
    have : o'.handler = .user 0 := handler_of_skeleton h
    constructor
    · unfold Obj.callRead; rw [this]; rfl
    · intro d; unfold Obj.callWrite; rw [this]; rfl⟩

/-! ### C13, C14 -/

theorem respond_fields (req res r : Msg) (n : Nat) (h : Obj.respond req res n = some r) :
    r.tid = res.tid ∧ r.seoj = res.seoj ∧ r.deoj = res.deoj ∧ r.props = res.props ∧
      r.setProps = res.setProps ∧ r.getProps = res.getProps := by
  unfold Obj.respond at h
  simp only [] at h
  repeat' split at h
  all_goals (first | (simp at h; done) | (injection h with h; subst h; simp))

/-- an answer comes from `handleRequest` -/
theorem recv_some {env : Env} {o : Obj} {m r : Msg} (h : (o.messageReceived env m).result = .ok (some r)) :
    (o.handleRequest env m).2 = .ok (some r) := by
  by_cases hq : Quiet env o m
  · rw [messageReceived_quiet env o m hq] at h; exact h
  · obtain ⟨-, e, he⟩ := messageReceived_loud env o m hq
    rw [he] at h; cases h

theorem handleRequest_some {env : Env} {o : Obj} {m r : Msg} (h : (o.handleRequest env m).2 = .ok (some r)) :
    (ESV.isWriteReadRequest m.esv = true ∧ ∃ o1 o2 c1 c2 sps gps, Obj.setLoop env o m.setProps 0 [] = (o1, .ok (c1, sps)) ∧
      Obj.getLoop env o1 m.getProps c1 [] = (o2, .ok (c2, gps)) ∧
      Obj.respond m { replyTo m with setProps := sps, getProps := gps } c2 = some r) ∨
    (ESV.isWriteReadRequest m.esv = false ∧ ∃ o1 c1 ps, Obj.plainLoop env m.esv o m.props 0 [] = (o1, .ok (c1, ps)) ∧
      Obj.respond m { replyTo m with props := ps } c1 = some r) := by
  unfold Obj.handleRequest at h
  split at h
  · simp at h
  split at h
  · simp at h
  simp only [] at h
  split at h
  · rename_i hw
    left
    refine ⟨hw, ?_⟩
    split at h
    · simp at h
    · rename_i o1 c1 sps h1
      split at h
      · simp at h
      · rename_i o2 c2 gps h2
        simp only [Except.ok.injEq] at h
        exact ⟨o1, o2, c1, c2, sps, gps, h1, h2, h⟩
  · rename_i hw
    right
    refine ⟨by simpa using hw, ?_⟩
    split at h
    · simp at h
    · rename_i o1 c1 ps h1
      simp only [Except.ok.injEq] at h
      exact ⟨o1, c1, ps, h1, h⟩

/-- C13. Any answer, whatever the object, handler, observers and request: TID of the request, source
and destination exchanged. -/
theorem C13_addressing (env : Env) (o : Obj) (m r : Msg) (h : (o.messageReceived env m).result = .ok (some r)) :
    r.tid = m.tid ∧ r.seoj = m.deoj ∧ r.deoj = m.seoj := by
  rcases handleRequest_some (recv_some h) with ⟨-, o1, o2, c1, c2, sps, gps, -, -, hr⟩ | ⟨-, o1, c1, ps, -, hr⟩
  · obtain ⟨h1, h2, h3, -⟩ := respond_fields _ _ _ _ hr; exact ⟨h1, h2, h3⟩
  · obtain ⟨h1, h2, h3, -⟩ := respond_fields _ _ _ _ hr; exact ⟨h1, h2, h3⟩

/-- C14. Any answer carries the codes of the request, in order and in the same section; the sections
the request's service does not use are empty. -/
theorem C14_mirror (env : Env) (o : Obj) (m r : Msg) (h : (o.messageReceived env m).result = .ok (some r)) :
    (m.esv = 0x6E → r.props = [] ∧ r.setProps.map PProp.code = m.setProps.map PProp.code ∧
      r.getProps.map PProp.code = m.getProps.map PProp.code) ∧
    (m.esv ≠ 0x6E → r.props.map PProp.code = m.props.map PProp.code ∧ r.setProps = [] ∧ r.getProps = []) := by
  have key : ESV.isWriteReadRequest m.esv = true ↔ m.esv = 0x6E := by
    unfold ESV.isWriteReadRequest ESV.WRITE_READ_REQUEST
    by_cases h : m.esv = 0x6E <;> simp [h]
  rcases handleRequest_some (recv_some h) with ⟨hw, o1, o2, c1, c2, sps, gps, h1, h2, hr⟩ | ⟨hw, o1, c1, ps, h1, hr⟩
  · have he := key.mp hw
    refine ⟨fun _ => ?_, fun hne => absurd he hne⟩
    obtain ⟨-, -, -, h4, h5, h6⟩ := respond_fields _ _ _ _ hr
    rw [h4, h5, h6]
    refine ⟨rfl, ?_, ?_⟩
    · simpa using setLoop_codes _ _ _ _ _ _ _ _ h1
    · simpa using getLoop_codes _ _ _ _ _ _ _ _ h2
  · have he : m.esv ≠ 0x6E := fun e => by rw [key.mpr e] at hw; cases hw
    refine ⟨fun e => absurd e he, fun _ => ?_⟩
    obtain ⟨-, -, -, h4, h5, h6⟩ := respond_fields _ _ _ _ hr
    rw [h4, h5, h6]
    refine ⟨?_, rfl, rfl⟩
    simpa using plainLoop_codes _ _ _ _ _ _ _ _ _ h1

/-- an answered write-read request with a rejected item -/
def exWR : Msg := { tid := 7, seoj := 0x0EF001, deoj := 0x029101, esv := 0x6E
                    setProps := [{ code := 0x80, data := [0x31] }, { code := 0x81, data := [1] }]
                    getProps := [{ code := 0x80 }, { code := 0xB0 }] }
example : (exObj.messageReceived exEnv exWR).result = .ok (some
    { tid := 7, seoj := 0x029101, deoj := 0x0EF001, esv := 0x5E
      setProps := [{ code := 0x80 }, { code := 0x81, data := [1] }]
      getProps := [{ code := 0x80, data := [0x31] }, { code := 0xB0 }] }) := by decide

/-! ### C15: reading -/

/-- C15 for any handler that follows a policy: the object is unchanged, known and permitted
properties come with their current data, all others empty; 0x72 iff all were served. -/
theorem C15_read_policy (env : Env) (P : Policy) (o : Obj) (m : Msg) (hf : Follows env o P)
    (hq : Quiet env o m) (he : m.esv = 0x62) (hs : OwnSections m) :
    (o.messageReceived env m).obj = o ∧ (o.messageReceived env m).notified = o.observers ∧
    ∃ r, (o.messageReceived env m).result = .ok (some r) ∧
      r.props = m.props.map (fun i => { code := i.code, data := readValue o P i.code }) ∧
      (r.esv = 0x72 ∨ r.esv = 0x52) ∧
      (r.esv = 0x72 ↔ ∀ i ∈ m.props, (lookup o.props i.code).isSome = true ∧ P.canRead i.code = true) := by
  rw [messageReceived_quiet env o m hq, handle_read env P o m hf he]
  refine ⟨rfl, rfl, ?_⟩
  unfold OwnSections at hs
  rw [he] at hs
  simp only [show ¬ ((0x62 : Int) = 0x6E ∨ (0x62 : Int) = 0x7E ∨ (0x62 : Int) = 0x5E) by decide, if_false] at hs
  have hall : m.opc + m.opcSet + m.opcGet = m.props.length := by
    simp [Msg.opc, Msg.opcSet, Msg.opcGet, hs.1, hs.2]
  have hcount : (acceptedReads o P m.props).length = m.props.length ↔
      ∀ i ∈ m.props, (lookup o.props i.code).isSome = true ∧ P.canRead i.code = true := by
    unfold acceptedReads; rw [all_accepted_iff]; simp
  unfold Obj.respond
  simp only [hall, he]
  rw [if_neg (by decide), if_neg (by decide), if_pos (by decide)]
  by_cases hc : (acceptedReads o P m.props).length = m.props.length
  · rw [if_pos hc]
    refine ⟨_, rfl, rfl, Or.inl rfl, ?_⟩
    exact ⟨fun _ => hcount.mp hc, fun _ => rfl⟩
  · rw [if_neg hc]
    refine ⟨_, rfl, rfl, Or.inr rfl, ?_⟩
    exact ⟨fun h => absurd h (by show ¬ ESV.READ_REQUEST_ERROR = 0x72; decide), fun h => absurd (hcount.mpr h) hc⟩

/-- C15. Read request to an object with the default handler. -/
theorem C15_read (env : Env) (o : Obj) (m : Msg) (hw : WellFormed o) (hh : o.handler = .self_)
    (hq : Quiet env o m) (he : m.esv = 0x62) (hs : OwnSections m) :
    (o.messageReceived env m).obj = o ∧
    ∃ r, (o.messageReceived env m).result = .ok (some r) ∧
      r.props = m.props.map (fun i =>
        { code := i.code
          data := match lookup o.props i.code with
            | some p => if CanRead p then p.data else []
            | none => [] }) ∧
      (r.esv = 0x72 ∨ r.esv = 0x52) ∧
      (r.esv = 0x72 ↔ ∀ i ∈ m.props, ∃ p, lookup o.props i.code = some p ∧ CanRead p) := by
  obtain ⟨h1, -, r, h2, h3, h4, h5⟩ := C15_read_policy env _ o m (follows_default env o hw hh) hq he hs
  refine ⟨h1, r, h2, ?_, h4, ?_⟩
  · rw [h3]
    apply List.map_congr_left
    intro i _
    have e : readValue o (attrPolicy o) i.code = match lookup o.props i.code with
        | some p => if CanRead p then p.data else []
        | none => [] := by
      unfold readValue
      split
      · rename_i p hl; simp [attrPolicy, hl]
      · rename_i hl; simp [hl]
    rw [e]
  · rw [h5]
    constructor
    · intro h i hi
      obtain ⟨ha, hb⟩ := h i hi
      simp only [attrPolicy] at hb
      cases hl : lookup o.props i.code with
      | none => rw [hl] at ha; simp at ha
      | some p => rw [hl] at hb; exact ⟨p, rfl, by simpa using hb⟩
    · intro h i hi
      obtain ⟨p, hp, hc⟩ := h i hi
      simp [attrPolicy, hp, hc]

def exRead : Msg := { tid := 1, seoj := 0x0EF001, deoj := 0x029101, esv := 0x62
                      props := [{ code := 0x80 }, { code := 0xB0 }, { code := 0xFF }, { code := 0x81 }] }
example : OwnSections exRead := by decide
example : (exObj.messageReceived exEnv exRead).result = .ok (some
    { tid := 1, seoj := 0x029101, deoj := 0x0EF001, esv := 0x52
      props := [{ code := 0x80, data := [0x30] }, { code := 0xB0 }, { code := 0xFF },
                { code := 0x81, data := [7] }] }) := by decide

/-! ### C16, C17: writing -/

/-- C16. Write request (0x60, 0x61) to an object with the default handler: exactly the known,
writable properties named by the request change, each to the data of the last item naming it;
codes, attributes, order, handler, observers are untouched. -/
theorem C16_write (env : Env) (o : Obj) (m : Msg) (hw : WellFormed o) (hh : o.handler = .self_)
    (hq : Quiet env o m) (he : m.esv = 0x60 ∨ m.esv = 0x61) :
    let o' := (o.messageReceived env m).obj
    (∀ c, lookup o'.props c = (lookup o.props c).map (fun p =>
        if CanWrite p then { p with data := (lastFor m.props c).getD p.data } else p)) ∧
    o'.props.map Prod.fst = o.props.map Prod.fst ∧ skeleton o' = skeleton o := by
  intro o'
  have h : o' = afterWrites o (acceptedWrites o (attrPolicy o) m.props) := by
    show (o.messageReceived env m).obj = _
    rw [messageReceived_state env o m hw hh]
    simp [hq, writeItems, he]
  rw [h]
  exact ⟨lookup_afterWrites_attr o m.props, keys_afterWrites _ _, skeleton_afterWrites _ _⟩

def exWrite : Msg := { tid := 2, seoj := 0x0EF001, deoj := 0x029101, esv := 0x61
                       props := [{ code := 0x80, data := [1] }, { code := 0x81, data := [2] },
                                 { code := 0x80, data := [3] }, { code := 0xB0, data := [4] }] }
example : (exObj.messageReceived exEnv exWrite).obj.props.map (fun kp => kp.2.data) = [[3], [7], [4]] := by decide

/-- C17, documented: a rejected 0x61 is answered 0x51. False. -/
theorem C17_write_esv_false :
    ¬ ∀ (env : Env) (o : Obj) (m : Msg), WellFormed o → o.handler = .self_ → Quiet env o m → OwnSections m →
      m.esv = 0x61 → (∃ i ∈ m.props, lookup o.props i.code = none) →
      ∃ r, (o.messageReceived env m).result = .ok (some r) ∧ r.esv = 0x51 := by
  intro h
  obtain ⟨r, h1, h2⟩ := h exEnv exObj { esv := 0x61, props := [{ code := 0xFF }] } (by decide) rfl
    (fun _ _ => rfl) (by decide) rfl (by decide)
  have : (exObj.messageReceived exEnv { esv := 0x61, props := [{ code := 0xFF }] }).result =
      .ok (some { deoj := 0, seoj := 0, esv := 0x50, props := [{ code := 0xFF }] }) := by decide
  rw [this] at h1
  injection h1 with h1
  injection h1 with h1
  rw [← h1] at h2
  revert h2; decide

/-- C17, what holds (any handler following a policy): 0x60 as documented; 0x61 gives 0x71 when every
item is accepted and otherwise 0x50. Missing: 0x51. Accepted items are answered with empty data,
refused known ones with their data. -/
theorem C17_write_esv_partial (env : Env) (P : Policy) (o : Obj) (m : Msg)
    (hn : (o.props.map Prod.fst).Nodup) (hf : Follows env o P) (hq : Quiet env o m) (hs : OwnSections m) :
    let accepted := ∀ i ∈ m.props, (lookup o.props i.code).isSome = true ∧ P.canWrite i.code i.data = true
    let refusedData : PProp → Bytes := fun i =>
      if (lookup o.props i.code).isSome = true ∧ P.canWrite i.code i.data = false then i.data else []
    let answer : Msg := { replyTo m with props := m.props.map fun i => { code := i.code, data := refusedData i } }
    (m.esv = 0x60 → accepted → (o.messageReceived env m).result = .ok none) ∧
    (m.esv = 0x60 → ¬ accepted → (o.messageReceived env m).result = .ok (some { answer with esv := 0x50 })) ∧
    (m.esv = 0x61 → accepted → (o.messageReceived env m).result = .ok (some { answer with esv := 0x71 })) ∧
    (m.esv = 0x61 → ¬ accepted → (o.messageReceived env m).result = .ok (some { answer with esv := 0x50 })) := by
  intro accepted refusedData answer
  have hcount : (acceptedWrites o P m.props).length = m.props.length ↔ accepted := by
    unfold acceptedWrites; rw [all_accepted_iff]; simp [accepted]
  have hans : ({ replyTo m with props := m.props.map (writeResp o P) } : Msg) = answer := by
    have : m.props.map (writeResp o P) = m.props.map fun i => { code := i.code, data := refusedData i } := by
      apply List.map_congr_left
      intro i _
      unfold writeResp
      congr 1
      simp [refusedData]
    rw [this]
  have main : ∀ e : Int, (e = 0x60 ∨ e = 0x61) → m.esv = e →
      (o.messageReceived env m).result = .ok (Obj.respond m answer (acceptedWrites o P m.props).length) ∧
      m.opc + m.opcSet + m.opcGet = m.props.length := by
    intro e he hme
    rw [messageReceived_quiet env o m hq, handle_plain_write env P o m hn hf (by rw [hme]; exact he), hans]
    refine ⟨rfl, ?_⟩
    unfold OwnSections at hs
    rw [if_neg (by rw [hme]; omega)] at hs
    simp [Msg.opc, Msg.opcSet, Msg.opcGet, hs.1, hs.2]
  refine ⟨?_, ?_, ?_, ?_⟩
  · intro he ha
    obtain ⟨h1, h2⟩ := main _ (Or.inl rfl) he
    rw [h1]; unfold Obj.respond
    simp only [h2, he]
    rw [if_pos (by decide), if_pos (hcount.mpr ha)]
  · intro he ha
    obtain ⟨h1, h2⟩ := main _ (Or.inl rfl) he
    rw [h1]; unfold Obj.respond
    simp only [h2, he]
    rw [if_pos (by decide), if_neg (fun h => ha (hcount.mp h))]; rfl
  · intro he ha
    obtain ⟨h1, h2⟩ := main _ (Or.inr rfl) he
    rw [h1]; unfold Obj.respond
    simp only [h2, he]
    rw [if_neg (by decide), if_pos (by decide), if_pos (hcount.mpr ha)]; rfl
  · intro he ha
    obtain ⟨h1, h2⟩ := main _ (Or.inr rfl) he
    rw [h1]; unfold Obj.respond
    simp only [h2, he]
    rw [if_neg (by decide), if_pos (by decide), if_neg (fun h => ha (hcount.mp h))]; rfl

example : (exObj.messageReceived exEnv { exWrite with props := [{ code := 0x80, data := [1] }] }).result =
    .ok (some { tid := 2, seoj := 0x029101, deoj := 0x0EF001, esv := 0x71, props := [{ code := 0x80 }] }) := by
  decide
example : (exObj.messageReceived exEnv { exWrite with esv := 0x60, props := [{ code := 0xB0, data := [1] }] }).result =
    .ok none := by decide

/-! ### C18: write-read -/

/-- C18. Write-read request with known Get codes, default handler: the object ends as after the write
part; Get items report the values after all writes; 0x7E iff every item of both parts is accepted. -/
theorem C18_write_read (env : Env) (o : Obj) (m : Msg) (hw : WellFormed o) (hh : o.handler = .self_)
    (hq : Quiet env o m) (he : m.esv = 0x6E) (hs : OwnSections m)
    (hk : ∀ i ∈ m.getProps, (lookup o.props i.code).isSome = true) :
    let o' := (o.messageReceived env m).obj
    (∀ c, lookup o'.props c = (lookup o.props c).map (fun p =>
        if CanWrite p then { p with data := (lastFor m.setProps c).getD p.data } else p)) ∧
    o'.props.map Prod.fst = o.props.map Prod.fst ∧ skeleton o' = skeleton o ∧
    ∃ r, (o.messageReceived env m).result = .ok (some r) ∧
      r.getProps = m.getProps.map (fun i =>
        { code := i.code
          data := match lookup o'.props i.code with
            | some p => if CanRead p then p.data else []
            | none => [] }) ∧
      r.esv = if (∀ i ∈ m.setProps, ∃ p, lookup o.props i.code = some p ∧ CanWrite p) ∧
                 (∀ i ∈ m.getProps, ∃ p, lookup o.props i.code = some p ∧ CanRead p)
              then 0x7E else 0x5E := by
  have hf := follows_default env o hw hh
  have hres := handle_write_read env _ o m hw.1 hf he hk
  simp only [] at hres
  rw [messageReceived_quiet env o m hq, hres]
  intro o'
  have hs' : skeleton o' = skeleton o := skeleton_afterWrites _ _
  refine ⟨lookup_afterWrites_attr o m.setProps, keys_afterWrites _ _, hs', ?_⟩
  have hall : m.opc + m.opcSet + m.opcGet = m.setProps.length + m.getProps.length := by
    unfold OwnSections at hs
    rw [if_pos (Or.inl he)] at hs
    simp [Msg.opc, Msg.opcSet, Msg.opcGet, hs]
  have c1 : (acceptedWrites o (attrPolicy o) m.setProps).length = m.setProps.length ↔
      ∀ i ∈ m.setProps, ∃ p, lookup o.props i.code = some p ∧ CanWrite p := by
    unfold acceptedWrites; rw [all_accepted_iff]
    apply forall_congr'; intro i
    apply imp_congr_right; intro _
    cases hl : lookup o.props i.code <;> simp [attrPolicy, hl]
  have c2 : (acceptedReads o' (attrPolicy o) m.getProps).length = m.getProps.length ↔
      ∀ i ∈ m.getProps, ∃ p, lookup o.props i.code = some p ∧ CanRead p := by
    unfold acceptedReads; rw [all_accepted_iff]
    apply forall_congr'; intro i
    apply imp_congr_right; intro _
    rw [isSome_of_skeleton hs']
    cases hl : lookup o.props i.code <;> simp [attrPolicy, hl]
  have l1 : (acceptedWrites o (attrPolicy o) m.setProps).length ≤ m.setProps.length := List.length_filter_le _ _
  have l2 : (acceptedReads o' (attrPolicy o) m.getProps).length ≤ m.getProps.length := List.length_filter_le _ _
  have hget : m.getProps.map (readResp o' (attrPolicy o)) = m.getProps.map (fun i =>
        { code := i.code
          data := match lookup o'.props i.code with
            | some p => if CanRead p then p.data else []
            | none => [] }) := by
    apply List.map_congr_left
    intro i _
    unfold readResp readValue
    cases hl : lookup o'.props i.code with
    | none => rfl
    | some p =>
      obtain ⟨q, hq', -, h2, -⟩ := lookup_some_of_skeleton hs' hl
      simp [attrPolicy, hq', CanRead, h2]
  unfold Obj.respond
  simp only [hall, he]
  rw [if_neg (by decide), if_neg (by decide), if_neg (by decide), if_pos (by decide)]
  by_cases hc : (acceptedWrites o (attrPolicy o) m.setProps).length + (acceptedReads o' (attrPolicy o) m.getProps).length =
      m.setProps.length + m.getProps.length
  · have hc' := hc
    rw [if_pos hc]
    refine ⟨_, rfl, hget, ?_⟩
    rw [if_pos ⟨c1.mp (by omega), c2.mp (by omega)⟩]; rfl
  · rw [if_neg hc]
    refine ⟨_, rfl, hget, ?_⟩
    rw [if_neg]
    · rfl
    · rintro ⟨h1, h2⟩
      have := c1.mpr h1
      have := c2.mpr h2
      omega

/-- the read part sees the write part -/
example : ((exObj.messageReceived exEnv
    { esv := 0x6E, setProps := [{ code := 0x80, data := [0x31] }], getProps := [{ code := 0x80 }, { code := 0x81 }] }).result) =
    .ok (some { esv := 0x7E, setProps := [{ code := 0x80 }],
                getProps := [{ code := 0x80, data := [0x31] }, { code := 0x81, data := [7] }] }) := by decide

/-! ### C19: exceptions -/

/-- C19, as stated: false. -/
theorem C19_never_raises_false :
    ¬ ∀ (env : Env) (o : Obj) (m : Msg), WellFormed o → o.handler = .self_ → Quiet env o m →
      ∃ r, (o.messageReceived env m).result = .ok r := by
  intro h
  obtain ⟨r, hr⟩ := h exEnv exObj
    { esv := 0x6E, setProps := [{ code := 0x80, data := [0x31] }], getProps := [{ code := 0xFF }] }
    (by decide) rfl (fun _ _ => rfl)
  have : (exObj.messageReceived exEnv
    { esv := 0x6E, setProps := [{ code := 0x80, data := [0x31] }], getProps := [{ code := 0xFF }] }).result =
      .error .attributeError := by decide
  rw [this] at hr; cases hr

/-- C19, what holds: with the default handler and observers that do not raise, the only exception is
`AttributeError`, raised exactly by a write-read request whose Get part names an unknown property;
and its writes have been applied by then. -/
theorem C19_never_raises_partial (env : Env) (o : Obj) (m : Msg) (hw : WellFormed o) (hh : o.handler = .self_)
    (hq : Quiet env o m) :
    ((¬ ∃ r, (o.messageReceived env m).result = .ok r) ↔
      m.esv = 0x6E ∧ ∃ i ∈ m.getProps, lookup o.props i.code = none) ∧
    (∀ e, (o.messageReceived env m).result = .error e → e = .attributeError ∧
      ∀ c, lookup (o.messageReceived env m).obj.props c = (lookup o.props c).map (fun p =>
        if CanWrite p then { p with data := (lastFor m.setProps c).getD p.data } else p)) := by
  have hf := follows_default env o hw hh
  by_cases hbad : m.esv = 0x6E ∧ ∃ i ∈ m.getProps, lookup o.props i.code = none
  · rw [messageReceived_quiet env o m hq, handle_write_read_unknown env o m hw hh hbad.1 hbad.2]
    refine ⟨⟨fun _ => hbad, fun _ => by simp⟩, ?_⟩
    intro e he
    simp only [Except.error.injEq] at he
    exact ⟨he.symm, lookup_afterWrites_attr o m.setProps⟩
  · have hok : ∃ r, (o.messageReceived env m).result = .ok r := by
      rw [messageReceived_quiet env o m hq]
      by_cases h1 : m.esv = 0x60 ∨ m.esv = 0x61
      · rw [handle_plain_write env _ o m hw.1 hf h1]; exact ⟨_, rfl⟩
      by_cases h2 : m.esv = 0x62
      · rw [handle_read env _ o m hf h2]; exact ⟨_, rfl⟩
      by_cases h3 : m.esv = 0x63 ∨ m.esv = 0x74
      · rw [handle_neither env o m hf.1 h3]; exact ⟨_, rfl⟩
      by_cases h4 : m.esv = 0x6E
      · have hk : ∀ i ∈ m.getProps, (lookup o.props i.code).isSome = true := by
          intro i hi
          by_contra hc
          exact hbad ⟨h4, i, hi, by simpa using hc⟩
        rw [handle_write_read env _ o m hw.1 hf h4 hk]; exact ⟨_, rfl⟩
      · rw [handle_not_request env o m (Or.inl (by simp only [List.mem_cons, List.not_mem_nil, or_false]; omega))]
        exact ⟨_, rfl⟩
    refine ⟨⟨fun h => absurd hok h, fun h => absurd h hbad⟩, ?_⟩
    obtain ⟨r, hr⟩ := hok
    intro e he; rw [hr] at he; cases he

/-! ### C20, C21: notification services -/

/-- C20, as documented: false. -/
theorem C20_notification_request_false :
    ¬ ∀ (env : Env) (o : Obj) (m : Msg), WellFormed o → o.handler = .self_ → Quiet env o m → OwnSections m →
      m.esv = 0x63 → (∀ i ∈ m.props, ∃ p, lookup o.props i.code = some p ∧ CanRead p) →
      ∃ r, (o.messageReceived env m).result = .ok (some r) ∧ r.esv = 0x73 := by
  intro h
  obtain ⟨r, h1, h2⟩ := h exEnv exObj { esv := 0x63, props := [{ code := 0x80 }] } (by decide) rfl
    (fun _ _ => rfl) (by decide) rfl (by
      intro i hi; simp only [List.mem_singleton] at hi; subst hi; exact ⟨_, rfl, by decide⟩)
  have : (exObj.messageReceived exEnv { esv := 0x63, props := [{ code := 0x80 }] }).result =
      .ok (some { esv := 0x53, props := [{ code := 0x80 }] }) := by decide
  rw [this] at h1
  injection h1 with h1; injection h1 with h1
  rw [← h1] at h2
  revert h2; decide

/-- C20, what holds, for every object with a handler (whatever it is): a 0x63 request is always
answered, without side effects, with the requested codes and empty data; the answer is 0x73 only for
a request without properties and 0x53 for every other. Missing: the current data and 0x73. -/
theorem C20_notification_request_partial (env : Env) (o : Obj) (m : Msg) (hh : o.handler ≠ .none)
    (hq : Quiet env o m) (hs : OwnSections m) (he : m.esv = 0x63) :
    (o.messageReceived env m).obj = o ∧
    (o.messageReceived env m).result = .ok (some
      { replyTo m with
        esv := if m.props = [] then 0x73 else 0x53
        props := m.props.map (fun i => { code := i.code }) }) := by
  rw [messageReceived_quiet env o m hq, handle_neither env o m hh (Or.inl he)]
  refine ⟨rfl, ?_⟩
  unfold OwnSections at hs
  rw [if_neg (by rw [he]; omega)] at hs
  unfold Obj.respond
  simp only [Msg.opc, Msg.opcSet, Msg.opcGet, hs.1, hs.2, he]
  rw [if_neg (by decide), if_neg (by decide), if_neg (by decide), if_neg (by decide), if_pos (by decide)]
  by_cases h : m.props = []
  · simp [h, ESV.NOTIFICATION]
  · have : ¬ (0 = m.props.length + ([] : List PProp).length + ([] : List PProp).length) := by
      simp only [List.length_nil, Nat.add_zero]
      intro h'; exact h (List.length_eq_zero_iff.mp h'.symm)
    rw [if_neg this, if_neg h]; rfl

/-- C21, as documented: false. -/
theorem C21_acknowledge_false :
    ¬ ∀ (env : Env) (o : Obj) (m : Msg), WellFormed o → o.handler = .self_ → Quiet env o m → OwnSections m →
      m.esv = 0x74 → ∃ r, (o.messageReceived env m).result = .ok (some r) ∧ r.esv = 0x7A := by
  intro h
  obtain ⟨r, h1, h2⟩ := h exEnv exObj { esv := 0x74, props := [{ code := 0x80, data := [0x30] }] } (by decide) rfl
    (fun _ _ => rfl) (by decide) rfl
  have : (exObj.messageReceived exEnv { esv := 0x74, props := [{ code := 0x80, data := [0x30] }] }).result =
      .ok none := by decide
  rw [this] at h1
  injection h1 with h1; cases h1

/-- C21, what holds: a 0x74 message is answered (with 0x7A) exactly when it carries no property at
all, and nothing changes. Missing: the acknowledgement of every real notification. -/
theorem C21_acknowledge_partial (env : Env) (o : Obj) (m : Msg) (hh : o.handler ≠ .none)
    (hq : Quiet env o m) (he : m.esv = 0x74) :
    (o.messageReceived env m).obj = o ∧
    (m.allProps = [] → (o.messageReceived env m).result = .ok (some { replyTo m with esv := 0x7A })) ∧
    (m.allProps ≠ [] → (o.messageReceived env m).result = .ok none) := by
  rw [messageReceived_quiet env o m hq, handle_neither env o m hh (Or.inr he)]
  refine ⟨rfl, ?_, ?_⟩
  · intro h
    simp only [Msg.allProps, List.append_eq_nil_iff] at h
    unfold Obj.respond
    simp only [Msg.opc, Msg.opcSet, Msg.opcGet, h.1.1, h.1.2, h.2, he]
    rfl
  · intro h
    unfold Obj.respond
    have : ¬ (0 = m.opc + m.opcSet + m.opcGet) := by
      intro h'
      apply h
      rw [← List.length_eq_zero_iff]
      simp only [Msg.allProps, List.length_append]
      simp only [Msg.opc, Msg.opcSet, Msg.opcGet] at h'
      omega
    simp only [he]
    rw [if_neg (by decide), if_neg (by decide), if_neg (by decide), if_neg (by decide), if_neg (by decide),
      if_pos (by decide), if_neg this]

example : (exObj.messageReceived exEnv { tid := 3, seoj := 0x0EF001, deoj := 0x029101, esv := 0x74 }).result =
    .ok (some { tid := 3, seoj := 0x029101, deoj := 0x0EF001, esv := 0x7A }) := by decide

/-! ### C22, C58: observers, and messages without effect -/

/-- C58 (notification). Observers are called in registration order, each once, up to and including
the first that raises; its exception is the result. -/
theorem C58_notify (env : Env) (o : Obj) (m : Msg) :
    let calm := fun n => (env.observe n m).isNone
    (o.messageReceived env m).notified = o.observers.takeWhile calm ++ (o.observers.dropWhile calm).take 1 ∧
    (∀ n, (o.observers.dropWhile calm).head? = some n → ∃ e, env.observe n m = some e ∧
      (o.messageReceived env m).result = .error e ∧ (o.messageReceived env m).obj = o) := by
  intro calm
  have key : ∀ l : List Nat, (Obj.notify env m l).1 = l.takeWhile calm ++ (l.dropWhile calm).take 1 ∧
      ((Obj.notify env m l).2 = none ↔ l.dropWhile calm = []) ∧
      ∀ n, (l.dropWhile calm).head? = some n → ∃ e, env.observe n m = some e ∧ (Obj.notify env m l).2 = some e := by
    intro l
    induction l with
    | nil => simp [Obj.notify]
    | cons n l ih =>
      obtain ⟨i1, i2, i3⟩ := ih
      unfold Obj.notify
      cases hn : env.observe n m with
      | some e =>
        have hc : calm n = false := by simp [calm, hn]
        simp [hc, hn]
      | none =>
        have hc : calm n = true := by simp [calm, hn]
        simp only [List.takeWhile_cons, List.dropWhile_cons, hc, if_true, List.cons_append, i1, true_and]
        exact ⟨i2, i3⟩
  obtain ⟨k1, k2, k3⟩ := key o.observers
  constructor
  · unfold Obj.messageReceived
    split
    · rename_i l e he; rw [he] at k1; exact k1
    · rename_i l he; rw [he] at k1; exact k1
  · intro n hn
    obtain ⟨e, h1, h2⟩ := k3 n hn
    refine ⟨e, h1, ?_⟩
    unfold Obj.messageReceived
    split
    · rename_i l e' he; rw [he] at h2; simp only [Option.some.injEq] at h2; subst h2; exact ⟨rfl, rfl⟩
    · rename_i l he; rw [he] at h2; simp at h2

/-- The elements of a list, each at its first occurrence. -/
def distinct : List Nat → List Nat
  | [] => []
  | x :: xs => x :: (distinct xs).filter (fun y => decide (y ≠ x))

/-- C58 (registration). After any sequence of `add_observer` calls on a fresh object, the observers
are the distinct arguments in order of first registration; every call returns `True`. -/
theorem C58_add_observer (calls : List Nat) :
    (calls.foldl (fun o n => (Obj.addObserver o n).1) ({} : Obj)).observers = distinct calls ∧
    (distinct calls).Nodup ∧ (∀ n, n ∈ distinct calls ↔ n ∈ calls) ∧
    ∀ o n, (Obj.addObserver o n).2 = true := by
  have hmem : ∀ (l : List Nat) (n : Nat), n ∈ distinct l ↔ n ∈ l := by
    intro l
    induction l with
    | nil => simp [distinct]
    | cons x xs ih =>
      intro n
      simp only [distinct, List.mem_cons, List.mem_filter, ih, decide_eq_true_eq]
      by_cases h : n = x <;> simp [h]
  have hnd : ∀ l : List Nat, (distinct l).Nodup := by
    intro l
    induction l with
    | nil => simp [distinct]
    | cons x xs ih =>
      simp only [distinct, List.nodup_cons]
      exact ⟨by simp, ih.filter _⟩
  have gen : ∀ (l : List Nat) (o : Obj),
      (l.foldl (fun o n => (Obj.addObserver o n).1) o).observers =
        o.observers ++ (distinct l).filter (fun n => decide (n ∉ o.observers)) := by
    intro l
    induction l with
    | nil => intro o; simp [distinct]
    | cons x xs ih =>
      intro o
      rw [List.foldl_cons, ih]
      by_cases hx : x ∈ o.observers
      · have : (Obj.addObserver o x).1 = o := by simp [Obj.addObserver, hx]
        rw [this]
        simp only [distinct, List.filter_cons, hx, not_true_eq_false, decide_false, Bool.false_eq_true, if_false,
          List.filter_filter]
        congr 1
        apply List.filter_congr
        intro y _
        by_cases hy : y = x
        · subst hy; simp [hx]
        · simp [hy]
      · have : (Obj.addObserver o x).1 = { o with observers := o.observers ++ [x] } := by simp [Obj.addObserver, hx]
        rw [this]
        simp only [distinct, List.filter_cons, hx, not_false_eq_true, decide_true, if_true,
          List.filter_filter, List.append_assoc, List.cons_append, List.nil_append]
        congr 2
        apply List.filter_congr
        intro y _
        by_cases hy : y = x
        · subst hy; simp
        · simp [hy]
  refine ⟨?_, hnd calls, hmem calls, ?_⟩
  · rw [gen]; simp
  · intro o n; unfold Obj.addObserver; split <;> rfl

example : distinct [3, 1, 3, 2, 1] = [3, 1, 2] := by decide

/-- C22. A message that is not a request, or any message when no handler is set, leaves the object
alone and gets no answer; every observer is notified once, in order (until one raises). -/
theorem C22_only_requests (env : Env) (o : Obj) (m : Msg)
    (h : m.esv ∉ [0x60, 0x61, 0x62, 0x63, 0x6E, 0x74] ∨ o.handler = .none) :
    (o.messageReceived env m).obj = o ∧
    (∀ r, (o.messageReceived env m).result ≠ .ok (some r)) ∧
    (Quiet env o m → (o.messageReceived env m).result = .ok none ∧
      (o.messageReceived env m).notified = o.observers) := by
  by_cases hq : Quiet env o m
  · rw [messageReceived_quiet env o m hq, handle_not_request env o m h]
    simp
  · obtain ⟨h1, e, h2⟩ := messageReceived_loud env o m hq
    rw [h1, h2]
    exact ⟨rfl, by simp, fun h => absurd h hq⟩

example : (exObj.messageReceived exEnv { esv := 0x73, props := [{ code := 0x80, data := [0x31] }] }).obj = exObj := by
  decide
example : (exObj.messageReceived exLoudEnv { esv := 0x61, props := [{ code := 0x80, data := [0x31] }] }).obj = exObj := by
  decide

/-! ### C23, C24: histories -/

/-- An object after a sequence of received messages. At each step the user's code (observers) may
behave differently. -/
def afterHistory (o : Obj) (hist : List (Env × Msg)) : Obj :=
  hist.foldl (fun o em => (o.messageReceived em.1 em.2).obj) o

/-- The write items of a history, in order; a message on which an observer raises does not count. -/
def historyWrites (o : Obj) (hist : List (Env × Msg)) : List PProp :=
  hist.flatMap fun em => if Quiet em.1 o em.2 then writeItems em.2 else []

theorem afterHistory_eq (o : Obj) (hist : List (Env × Msg)) (hw : WellFormed o) (hh : o.handler = .self_) :
    afterHistory o hist = afterWrites o (acceptedWrites o (attrPolicy o) (historyWrites o hist)) := by
  unfold afterHistory
  have gen : ∀ (hist : List (Env × Msg)) (ws : List PProp),
      hist.foldl (fun o em => (o.messageReceived em.1 em.2).obj)
        (afterWrites o (acceptedWrites o (attrPolicy o) ws)) =
      afterWrites o (acceptedWrites o (attrPolicy o) (ws ++ historyWrites o hist)) := by
    intro hist
    induction hist with
    | nil => intro ws; simp [historyWrites]
    | cons em hist ih =>
      intro ws
      have hs := skeleton_afterWrites o (acceptedWrites o (attrPolicy o) ws)
      rw [List.foldl_cons, messageReceived_state _ _ _ (wf_of_skeleton hs hw)
        (by rw [handler_of_skeleton hs, hh]), acceptedWrites_of_skeleton hs, attrPolicy_of_skeleton hs,
        afterWrites_append, ← acceptedWrites_append]
      have hqq : (Quiet em.1 (afterWrites o (acceptedWrites o (attrPolicy o) ws)) em.2) = Quiet em.1 o em.2 := rfl
      simp only [hqq]
      rw [ih]
      simp [historyWrites]
  have := gen hist []
  simpa [acceptedWrites, afterWrites_nil] using this

/-- C23. Whatever messages an object with the default handler receives, in whatever number: the
codes, their order, the attributes, handler and observers never change, nor does the data of a
property that is not write-enabled. -/
theorem C23_write_protection (o : Obj) (hist : List (Env × Msg)) (hw : WellFormed o) (hh : o.handler = .self_) :
    let o' := afterHistory o hist
    skeleton o' = skeleton o ∧ o'.props.map Prod.fst = o.props.map Prod.fst ∧
    ∀ c p, lookup o.props c = some p → ∃ p', lookup o'.props c = some p' ∧ p'.attrGet = p.attrGet ∧
      p'.attrSet = p.attrSet ∧ p'.attrAnno = p.attrAnno ∧ (¬ CanWrite p → p' = p) := by
  intro o'
  have h : o' = _ := afterHistory_eq o hist hw hh
  rw [h]
  refine ⟨skeleton_afterWrites _ _, keys_afterWrites _ _, ?_⟩
  intro c p hp
  rw [lookup_afterWrites_attr, hp]
  by_cases hc : CanWrite p
  · exact ⟨{ p with data := (lastFor (historyWrites o hist) c).getD p.data }, by simp [hc], rfl, rfl, rfl,
      fun h => absurd hc h⟩
  · exact ⟨p, by simp [hc], rfl, rfl, rfl, fun _ => rfl⟩

/-- C24. The object refines a map: after any history, reading a readable property returns the data
of the last write item naming it in the whole history if it is writable, its initial data
otherwise. -/
theorem C24_refines_map (o : Obj) (hist : List (Env × Msg)) (hw : WellFormed o) (hh : o.handler = .self_)
    (c : Int) (p : OProp) (hp : lookup o.props c = some p) (hr : CanRead p)
    (env : Env) (m : Msg) (hm : m.esv = 0x62) (hs : OwnSections m) (hmp : m.props = [{ code := c }])
    (hq : Quiet env o m) :
    ∃ r, ((afterHistory o hist).messageReceived env m).result = .ok (some r) ∧ r.esv = 0x72 ∧
      r.props = [{ code := c
                   data := if CanWrite p then (lastFor (historyWrites o hist) c).getD p.data else p.data }] := by
  have h := afterHistory_eq o hist hw hh
  have hsk : skeleton (afterHistory o hist) = skeleton o := by rw [h]; exact skeleton_afterWrites _ _
  have hq' : Quiet env (afterHistory o hist) m := by rw [h]; exact hq
  have hl : lookup (afterHistory o hist).props c = some
      (if CanWrite p then { p with data := (lastFor (historyWrites o hist) c).getD p.data } else p) := by
    rw [h, lookup_afterWrites_attr, hp]; rfl
  obtain ⟨-, r, h1, h2, h3, h4⟩ := C15_read env (afterHistory o hist) m (wf_of_skeleton hsk hw)
    (by rw [handler_of_skeleton hsk, hh]) hq' hm hs
  have hcr : CanRead (if CanWrite p then { p with data := (lastFor (historyWrites o hist) c).getD p.data } else p) := by
    by_cases hc : CanWrite p
    · rw [if_pos hc]; exact hr
    · rw [if_neg hc]; exact hr
  refine ⟨r, h1, ?_, ?_⟩
  · rw [h4, hmp]
    intro i hi
    simp only [List.mem_singleton] at hi
    subst hi
    exact ⟨_, hl, hcr⟩
  · rw [h2, hmp]
    simp only [List.map_cons, List.map_nil, hl, hcr, if_true]
    by_cases hc : CanWrite p <;> simp [hc]

/-- a history with a rejected write, a swallowed one (observer raises) and an accepted one -/
example : (afterHistory exObj [(exEnv, exWrite), (exLoudEnv, { exWrite with esv := 0x60 }),
    (exEnv, { exWrite with esv := 0x60, props := [{ code := 0x81, data := [5] }, { code := 0x80, data := [6] }] })]).props.map
      (fun kp => kp.2.data) = [[6], [7], [4]] := by decide

end Uecho
