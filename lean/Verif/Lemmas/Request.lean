import Verif.Lemmas.Object

namespace Uecho
open Spec

instance (env : Env) (o : Obj) (m : Msg) : Decidable (Quiet env o m) := by unfold Quiet; infer_instance

/-- The response before its properties and ESV are filled in (object.py:342-345). -/
def replyTo (m : Msg) : Msg := { tid := m.tid, deoj := m.seoj, seoj := m.deoj }

/-! ### `handleRequest` under a policy -/

theorem handle_plain_write (env : Env) (P : Policy) (o : Obj) (m : Msg) (hn : (o.props.map Prod.fst).Nodup)
    (hf : Follows env o P) (he : m.esv = 0x60 ∨ m.esv = 0x61) :
    o.handleRequest env m =
      (afterWrites o (acceptedWrites o P m.props),
       .ok (Obj.respond m { replyTo m with props := m.props.map (writeResp o P) } (acceptedWrites o P m.props).length)) := by
  unfold Obj.handleRequest
  have h1 : ESV.isRequest m.esv = true := by rcases he with h | h <;> rw [h] <;> rfl
  have h2 : ESV.isWriteReadRequest m.esv = false := by rcases he with h | h <;> rw [h] <;> rfl
  have h3 : ESV.isReadRequest m.esv = false := by rcases he with h | h <;> rw [h] <;> rfl
  have h4 : ESV.isWriteRequest m.esv = true := by rcases he with h | h <;> rw [h] <;> rfl
  simp only [h1, h2, hf.1, Bool.true_eq_false, Bool.false_eq_true, if_false]
  rw [plainLoop_write env P o _ h3 h4 m.props 0 [] hn hf]
  simp [replyTo]

theorem handle_read (env : Env) (P : Policy) (o : Obj) (m : Msg) (hf : Follows env o P) (he : m.esv = 0x62) :
    o.handleRequest env m =
      (o, .ok (Obj.respond m { replyTo m with props := m.props.map (readResp o P) } (acceptedReads o P m.props).length)) := by
  unfold Obj.handleRequest
  have h1 : ESV.isRequest m.esv = true := by rw [he]; rfl
  have h2 : ESV.isWriteReadRequest m.esv = false := by rw [he]; rfl
  have h3 : ESV.isReadRequest m.esv = true := by rw [he]; rfl
  simp only [h1, h2, hf.1, Bool.true_eq_false, Bool.false_eq_true, if_false]
  rw [plainLoop_read env P o _ h3 m.props 0 [] hf]
  simp [replyTo]

theorem handle_neither (env : Env) (o : Obj) (m : Msg) (hh : o.handler ≠ .none)
    (he : m.esv = 0x63 ∨ m.esv = 0x74) :
    o.handleRequest env m =
      (o, .ok (Obj.respond m { replyTo m with props := m.props.map (fun i => { code := i.code }) } 0)) := by
  unfold Obj.handleRequest
  have h1 : ESV.isRequest m.esv = true := by rcases he with h | h <;> rw [h] <;> rfl
  have h2 : ESV.isWriteReadRequest m.esv = false := by rcases he with h | h <;> rw [h] <;> rfl
  have h3 : ESV.isReadRequest m.esv = false := by rcases he with h | h <;> rw [h] <;> rfl
  have h4 : ESV.isWriteRequest m.esv = false := by rcases he with h | h <;> rw [h] <;> rfl
  simp only [h1, h2, hh, Bool.true_eq_false, Bool.false_eq_true, if_false]
  rw [plainLoop_neither env o _ h3 h4 m.props 0 []]
  simp [replyTo]

theorem handle_write_read (env : Env) (P : Policy) (o : Obj) (m : Msg) (hn : (o.props.map Prod.fst).Nodup)
    (hf : Follows env o P) (he : m.esv = 0x6E)
    (hk : ∀ i ∈ m.getProps, (lookup o.props i.code).isSome = true) :
    let o' := afterWrites o (acceptedWrites o P m.setProps)
    o.handleRequest env m =
      (o', .ok (Obj.respond m { replyTo m with
        setProps := m.setProps.map (writeResp o P)
        getProps := m.getProps.map (readResp o' P) }
        ((acceptedWrites o P m.setProps).length + (acceptedReads o' P m.getProps).length))) := by
  intro o'
  unfold Obj.handleRequest
  have h1 : ESV.isRequest m.esv = true := by rw [he]; rfl
  have h2 : ESV.isWriteReadRequest m.esv = true := by rw [he]; rfl
  have hs : skeleton o' = skeleton o := skeleton_afterWrites _ _
  simp only [h1, h2, hf.1, Bool.true_eq_false, if_false, if_true]
  rw [setLoop_follows env P o m.setProps 0 [] hn hf]
  simp only []
  rw [getLoop_known env P o' m.getProps _ [] (follows_of_skeleton hs hf)
    (fun i hi => by rw [isSome_of_skeleton hs]; exact hk i hi)]
  simp [replyTo]

theorem handle_write_read_unknown (env : Env) (o : Obj) (m : Msg) (hw : WellFormed o) (hh : o.handler = .self_)
    (he : m.esv = 0x6E) (hk : ∃ i ∈ m.getProps, lookup o.props i.code = none) :
    o.handleRequest env m =
      (afterWrites o (acceptedWrites o (attrPolicy o) m.setProps), .error .attributeError) := by
  unfold Obj.handleRequest
  have h1 : ESV.isRequest m.esv = true := by rw [he]; rfl
  have h2 : ESV.isWriteReadRequest m.esv = true := by rw [he]; rfl
  have hf := follows_default env o hw hh
  have hs := skeleton_afterWrites o (acceptedWrites o (attrPolicy o) m.setProps)
  simp only [h1, h2, hf.1, Bool.true_eq_false, if_false, if_true]
  rw [setLoop_follows env (attrPolicy o) o m.setProps 0 [] hw.1 hf]
  simp only []
  rw [getLoop_unknown env _ m.getProps _ [] (wf_of_skeleton hs hw) (by rw [handler_of_skeleton hs, hh])]
  obtain ⟨i, hi, hn⟩ := hk
  refine ⟨i, hi, ?_⟩
  have := isSome_of_skeleton hs i.code
  rw [hn] at this
  simpa using this

theorem handle_not_request (env : Env) (o : Obj) (m : Msg)
    (h : m.esv ∉ [0x60, 0x61, 0x62, 0x63, 0x6E, 0x74] ∨ o.handler = .none) :
    o.handleRequest env m = (o, .ok none) := by
  unfold Obj.handleRequest
  rcases h with h | h
  · have : ESV.isRequest m.esv = false := by
      simp only [List.mem_cons, List.not_mem_nil, or_false, not_or] at h
      unfold ESV.isRequest
      rw [if_neg (show ¬ m.esv = ESV.WRITE_REQUEST from h.1),
        if_neg (show ¬ m.esv = ESV.WRITE_REQUEST_RESPONSE_REQUIRED from h.2.1),
        if_neg (show ¬ m.esv = ESV.READ_REQUEST from h.2.2.1),
        if_neg (show ¬ m.esv = ESV.NOTIFICATION_REQUEST from h.2.2.2.1),
        if_neg (show ¬ m.esv = ESV.WRITE_READ_REQUEST from h.2.2.2.2.1),
        if_neg (show ¬ m.esv = ESV.NOTIFICATION_RESPONSE_REQUIRED from h.2.2.2.2.2)]
    simp [this]
  · by_cases hr : ESV.isRequest m.esv = false
    · simp [hr]
    · simp [h]

/-! ### State after any message, default handler -/

theorem acceptedWrites_append (o : Obj) (P : Policy) (a b : List PProp) :
    acceptedWrites o P (a ++ b) = acceptedWrites o P a ++ acceptedWrites o P b := by
  simp [acceptedWrites]

theorem messageReceived_state (env : Env) (o : Obj) (m : Msg) (hw : WellFormed o) (hh : o.handler = .self_) :
    (o.messageReceived env m).obj =
      afterWrites o (acceptedWrites o (attrPolicy o) (if Quiet env o m then writeItems m else [])) := by
  by_cases hq : Quiet env o m
  swap
  · rw [(messageReceived_loud env o m hq).1]
    simp [hq, acceptedWrites, afterWrites_nil]
  rw [messageReceived_quiet env o m hq]
  simp only [hq, if_true]
  have hf := follows_default env o hw hh
  have nil : acceptedWrites o (attrPolicy o) [] = [] := rfl
  by_cases h1 : m.esv = 0x60 ∨ m.esv = 0x61
  · rw [handle_plain_write env _ o m hw.1 hf h1]
    simp [writeItems, h1]
  by_cases h2 : m.esv = 0x62
  · rw [handle_read env _ o m hf h2]
    simp [writeItems, h2, nil, afterWrites_nil]
  by_cases h3 : m.esv = 0x63 ∨ m.esv = 0x74
  · rw [handle_neither env o m hf.1 h3]
    have : writeItems m = [] := by
      unfold writeItems; rw [if_neg h1, if_neg (by omega)]
    simp [this, nil, afterWrites_nil]
  by_cases h4 : m.esv = 0x6E
  · have hwi : writeItems m = m.setProps := by unfold writeItems; rw [if_neg h1, if_pos h4]
    rw [hwi]
    by_cases hk : ∀ i ∈ m.getProps, (lookup o.props i.code).isSome = true
    · rw [handle_write_read env _ o m hw.1 hf h4 hk]
    · rw [handle_write_read_unknown env o m hw hh h4]
      push Not at hk
      obtain ⟨i, hi, hn⟩ := hk
      refine ⟨i, hi, ?_⟩
      simpa using hn
  · rw [handle_not_request env o m (Or.inl (by simp only [List.mem_cons, List.not_mem_nil, or_false]; omega))]
    have : writeItems m = [] := by
      unfold writeItems; rw [if_neg h1, if_neg h4]
    simp [this, nil, afterWrites_nil]

/-- last accepted item of the attribute policy -/
theorem lastFor_accepted (o : Obj) (items : List PProp) (c : Int) (p : OProp) (hp : lookup o.props c = some p) :
    lastFor (acceptedWrites o (attrPolicy o) items) c = if CanWrite p then lastFor items c else none := by
  unfold lastFor acceptedWrites
  rw [List.filter_filter]
  by_cases hc : CanWrite p
  · rw [if_pos hc]
    congr 2
    apply List.filter_congr
    intro i _
    by_cases e : i.code = c
    · simp [e, hp, attrPolicy, hc]
    · simp [e]
  · rw [if_neg hc]
    have : (List.filter (fun a => decide (a.code = c) &&
        ((lookup o.props a.code).isSome && (attrPolicy o).canWrite a.code a.data)) items) = [] := by
      rw [List.filter_eq_nil_iff]
      intro i _
      by_cases e : i.code = c
      · simp [e, hp, attrPolicy, hc]
      · simp [e]
    rw [this]; rfl

theorem lookup_afterWrites_attr (o : Obj) (items : List PProp) (c : Int) :
    lookup (afterWrites o (acceptedWrites o (attrPolicy o) items)).props c =
      (lookup o.props c).map (fun p =>
        if CanWrite p then { p with data := (lastFor items c).getD p.data } else p) := by
  rw [lookup_afterWrites]
  cases hp : lookup o.props c with
  | none => rfl
  | some p =>
    simp only [Option.map_some, Option.some.injEq]
    rw [lastFor_accepted o items c p hp]
    by_cases hc : CanWrite p <;> simp [hc]

theorem all_accepted_iff {α : Type} (l : List α) (f : α → Bool) :
    (l.filter f).length = l.length ↔ ∀ a ∈ l, f a = true := List.length_filter_eq_length_iff

end Uecho
