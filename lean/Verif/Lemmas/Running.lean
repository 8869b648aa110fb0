/- A node and the datagrams it gets. -/
import Verif.Spec.Running
import Verif.Lemmas.EndToEnd

namespace Uecho
open Spec

theorem decoded_sections {d : Bytes} {a : Addr} {m : Msg} (h : Decodes d a m) : OwnSections m := by
  obtain ⟨w, t, -, how, -, rfl⟩ := h
  unfold OwnSections
  have e1 := congrArg Msg.props how
  have e2 := congrArg Msg.setProps how
  have e3 := congrArg Msg.getProps how
  unfold onWire at e1 e2 e3
  simp only [] at e1 e2 e3
  show if w.esv = 0x6E ∨ w.esv = 0x7E ∨ w.esv = 0x5E then w.props = [] else w.setProps = [] ∧ w.getProps = []
  by_cases h2 : TwoSections w.esv
  · rw [if_pos h2] at e1
    rw [if_pos (show w.esv = 0x6E ∨ w.esv = 0x7E ∨ w.esv = 0x5E from h2)]
    exact e1
  · rw [if_neg h2] at e2 e3
    rw [if_neg (show ¬ (w.esv = 0x6E ∨ w.esv = 0x7E ∨ w.esv = 0x5E) from h2)]
    exact ⟨e2, e3⟩

theorem writeResp_ok (o : Obj) (P : Policy) (items : List PProp) (h : SectionOk items) : SectionOk (items.map (writeResp o P)) := by
  refine ⟨by simpa using h.1, ?_⟩
  intro p hp
  obtain ⟨i, hi, rfl⟩ := List.mem_map.mp hp
  obtain ⟨h1, h2, h3⟩ := h.2 i hi
  refine ⟨h1, h2, ?_⟩
  unfold writeResp
  simp only []
  split
  · exact h3
  · simp

theorem readResp_ok (o : Obj) (P : Policy) (items : List PProp) (h : SectionOk items) (hs : ∀ c p, lookup o.props c = some p → p.data.length ≤ 255) :
    SectionOk (items.map (readResp o P)) := by
  refine ⟨by simpa using h.1, ?_⟩
  intro p hp
  obtain ⟨i, hi, rfl⟩ := List.mem_map.mp hp
  obtain ⟨h1, h2, -⟩ := h.2 i hi
  refine ⟨h1, h2, ?_⟩
  unfold readResp readValue
  simp only []
  cases hl : lookup o.props i.code with
  | none => simp
  | some q =>
    have := hs i.code q hl
    simp only []
    split
    · omega
    · simp

theorem noResp_ok (items : List PProp) (h : SectionOk items) : SectionOk (items.map (fun i => ({ code := i.code } : PProp))) := by
  refine ⟨by simpa using h.1, ?_⟩
  intro p hp
  obtain ⟨i, hi, rfl⟩ := List.mem_map.mp hp
  obtain ⟨h1, h2, -⟩ := h.2 i hi
  exact ⟨h1, h2, by simp⟩

/-- Data stay small. -/
theorem small_afterWrites (o : Obj) (items : List PProp) (h : ∀ i ∈ items, i.data.length ≤ 255) (hs : ∀ c p, lookup o.props c = some p → p.data.length ≤ 255) :
    ∀ c p, lookup (afterWrites o items).props c = some p → p.data.length ≤ 255 := by
  intro c p hp
  rw [lookup_afterWrites] at hp
  obtain ⟨q, hq, rfl⟩ := Option.map_eq_some_iff.mp hp
  simp only []
  cases hl : lastFor items c with
  | none => exact hs c q hq
  | some d =>
    simp only [Option.getD_some]
    unfold lastFor at hl
    obtain ⟨i, hi, rfl⟩ := Option.map_eq_some_iff.mp hl
    exact h i (List.mem_of_mem_filter (List.mem_of_getLast? hi))

theorem writeItems_small {m : Msg} (hm : Encodable m) : ∀ i ∈ writeItems m, i.data.length ≤ 255 := by
  intro i hi
  have key : ∀ l, SectionOk l → i ∈ l → i.data.length ≤ 255 := by
    intro l h1 h2
    have := (h1.2 i h2).2.2
    omega
  unfold writeItems at hi
  obtain ⟨-, h⟩ := hm
  split at hi
  · rename_i e
    rw [if_neg (by unfold TwoSections; omega)] at h
    exact key _ h hi
  · split at hi
    · rename_i e
      rw [if_pos (by unfold TwoSections; omega)] at h
      exact key _ h.1 hi
    · cases hi

theorem respond_ok (m res r : Msg) (k : Nat) (h : Obj.respond m res k = some r)
    (hp : m.esv = 0x6E → SectionOk res.setProps ∧ SectionOk res.getProps) (hq : m.esv ≠ 0x6E → SectionOk res.props) : Encodable r := by
  unfold Obj.respond at h
  simp only [] at h
  have one : ∀ e : Int, (0 ≤ e ∧ e < 256) → ¬ TwoSections e → SectionOk res.props → Encodable { res with esv := e } := by
    intro e he h2 hs
    exact ⟨he, by simp only []; rw [if_neg h2]; exact hs⟩
  have two : ∀ e : Int, (0 ≤ e ∧ e < 256) → TwoSections e → SectionOk res.setProps ∧ SectionOk res.getProps → Encodable { res with esv := e } := by
    intro e he h2 hs
    exact ⟨he, by simp only []; rw [if_pos h2]; exact hs⟩
  have pick : ∀ (c : Prop) [Decidable c] (e1 e2 : Int), (if c then some { res with esv := e1 } else some { res with esv := e2 }) = some r →
      (Encodable { res with esv := e1 }) → (Encodable { res with esv := e2 }) → Encodable r := by
    intro c _ e1 e2 h h1 h2
    by_cases hc : c
    · rw [if_pos hc] at h; injection h with h; rw [← h]; exact h1
    · rw [if_neg hc] at h; injection h with h; rw [← h]; exact h2
  by_cases c1 : m.esv = ESV.WRITE_REQUEST
  · rw [if_pos c1] at h
    split at h
    · cases h
    · injection h with h; rw [← h]; exact one _ (by decide) (by decide) (hq (by rw [c1]; decide))
  rw [if_neg c1] at h
  by_cases c2 : m.esv = ESV.WRITE_REQUEST_RESPONSE_REQUIRED
  · rw [if_pos c2] at h
    exact pick _ _ _ h (one _ (by decide) (by decide) (hq (by rw [c2]; decide))) (one _ (by decide) (by decide) (hq (by rw [c2]; decide)))
  rw [if_neg c2] at h
  by_cases c3 : m.esv = ESV.READ_REQUEST
  · rw [if_pos c3] at h
    exact pick _ _ _ h (one _ (by decide) (by decide) (hq (by rw [c3]; decide))) (one _ (by decide) (by decide) (hq (by rw [c3]; decide)))
  rw [if_neg c3] at h
  by_cases c4 : m.esv = ESV.WRITE_READ_REQUEST
  · rw [if_pos c4] at h
    exact pick _ _ _ h (two _ (by decide) (by decide) (hp c4)) (two _ (by decide) (by decide) (hp c4))
  rw [if_neg c4] at h
  by_cases c5 : m.esv = ESV.NOTIFICATION_REQUEST
  · rw [if_pos c5] at h
    exact pick _ _ _ h (one _ (by decide) (by decide) (hq (by rw [c5]; decide))) (one _ (by decide) (by decide) (hq (by rw [c5]; decide)))
  rw [if_neg c5] at h
  by_cases c6 : m.esv = ESV.NOTIFICATION_RESPONSE_REQUIRED
  · rw [if_pos c6] at h
    split at h
    · injection h with h; rw [← h]; exact one _ (by decide) (by decide) (hq (by rw [c6]; decide))
    · cases h
  · rw [if_neg c6] at h
    cases h

/-- What a plain object does with a message: it stays plain, raises only for an unknown Get, and answers
with something that can be sent. -/
theorem plain_receive (env : Env) (o : Obj) (h : Plain env o) (m : Msg) (hm : Encodable m) :
    Plain env (o.messageReceived env m).obj ∧ skeleton (o.messageReceived env m).obj = skeleton o ∧
    ((¬ ∃ r, (o.messageReceived env m).result = .ok r) ↔ m.esv = 0x6E ∧ o.handler = .self_ ∧ ∃ i ∈ m.getProps, lookup o.props i.code = none) ∧
    ∀ res, (o.messageReceived env m).result = .ok (some res) → Encodable res := by
  obtain ⟨hw, hh, hq, hs⟩ := h
  rcases hh with hh | hh
  swap
  · obtain ⟨h1, h2, h3⟩ := C22_only_requests env o m (Or.inr hh)
    obtain ⟨h4, -⟩ := h3 (hq m)
    rw [h1, h4]
    refine ⟨⟨hw, Or.inr hh, hq, hs⟩, rfl, ⟨fun h => absurd ⟨_, rfl⟩ h, fun h => ?_⟩, fun res h => by cases h⟩
    rw [hh] at h
    exact absurd h.2.1 (by simp)
  · have hst := messageReceived_state env o m hw hh
    rw [if_pos (hq m)] at hst
    have hsk : skeleton (o.messageReceived env m).obj = skeleton o := by rw [hst]; exact skeleton_afterWrites _ _
    have hacc : ∀ items : List PProp, (∀ i ∈ items, i.data.length ≤ 255) → ∀ i ∈ acceptedWrites o (attrPolicy o) items, i.data.length ≤ 255 := by
      intro items h i hi
      exact h i (List.mem_of_mem_filter hi)
    refine ⟨⟨wf_of_skeleton hsk hw, Or.inl (by rw [handler_of_skeleton hsk, hh]), ?_, ?_⟩, hsk, ?_, ?_⟩
    · intro m' x hx
      have : (o.messageReceived env m).obj.observers = o.observers := by
        have := congrArg Obj.observers hsk
        exact this
      rw [this] at hx
      exact hq m' x hx
    · rw [hst]
      exact small_afterWrites o _ (hacc _ (writeItems_small hm)) hs
    · rw [(C19_never_raises_partial env o m hw hh (hq m)).1]
      simp [hh]
    · intro res hres
      have hf := follows_default env o hw hh
      rw [messageReceived_quiet env o m (hq m)] at hres
      simp only [] at hres
      obtain ⟨-, hsec⟩ := hm
      by_cases h6 : m.esv = 0x6E
      · rw [if_pos (by unfold TwoSections; omega)] at hsec
        by_cases hk : ∃ i ∈ m.getProps, lookup o.props i.code = none
        · rw [handle_write_read_unknown env o m hw hh h6 hk] at hres
          cases hres
        · have hk' : ∀ i ∈ m.getProps, (lookup o.props i.code).isSome = true := by
            intro i hi
            by_contra hc
            exact hk ⟨i, hi, by simpa using hc⟩
          rw [handle_write_read env _ o m hw.1 hf h6 hk'] at hres
          simp only [Except.ok.injEq] at hres
          refine respond_ok _ _ _ _ hres (fun _ => ⟨writeResp_ok _ _ _ hsec.1, readResp_ok _ _ _ hsec.2 ?_⟩) (fun h => absurd h6 h)
          exact small_afterWrites o _ (hacc _ (fun i hi => by have := (hsec.1.2 i hi).2.2; omega)) hs
      · by_cases hreq : m.esv ∉ [0x60, 0x61, 0x62, 0x63, 0x6E, 0x74]
        · rw [handle_not_request env o m (Or.inl hreq)] at hres
          cases hres
        have hreq' : m.esv = 0x60 ∨ m.esv = 0x61 ∨ m.esv = 0x62 ∨ m.esv = 0x63 ∨ m.esv = 0x74 := by
          have := not_not.mp hreq
          simp only [List.mem_cons, List.not_mem_nil, or_false] at this
          omega
        rw [if_neg (by unfold TwoSections; omega)] at hsec
        by_cases h1 : m.esv = 0x60 ∨ m.esv = 0x61
        · rw [handle_plain_write env _ o m hw.1 hf h1] at hres
          simp only [Except.ok.injEq] at hres
          exact respond_ok _ _ _ _ hres (fun h => absurd h h6) (fun _ => writeResp_ok _ _ _ hsec)
        · by_cases h2 : m.esv = 0x62
          · rw [handle_read env _ o m hf h2] at hres
            simp only [Except.ok.injEq] at hres
            exact respond_ok _ _ _ _ hres (fun h => absurd h h6) (fun _ => readResp_ok _ _ _ hsec hs)
          · rw [handle_neither env o m (by rw [hh]; simp) (by omega)] at hres
            simp only [Except.ok.injEq] at hres
            exact respond_ok _ _ _ _ hres (fun h => absurd h h6) (fun _ => noResp_ok _ hsec)


theorem answer_ok (net : Net) (n : LocalNode) (req res : Msg) (a : Addr) (ha : req.fromAddr = some a) (hm : Encodable res) (hw : CanSend n.mgr) (hs : NetWorks net) :
    (n.answer net req (some res)).2 = .ok () ∧ CanSend (n.answer net req (some res)).1.mgr := by
  cases hn : ESV.isNotification res.esv with
  | false =>
    obtain ⟨i, t, h1, -, -, h2⟩ := answer_sent net n req res a hn ha hm hw hs
    exact ⟨h1, by unfold CanSend; rw [h2]; exact hw⟩
  | true =>
    refine ⟨(answer_announced net n req res hn hm hw hs).1, ?_⟩
    obtain ⟨-, -, -, -, -, -, hsv, -⟩ := C54_announce net n.mgr (outgoing n res) ((outgoing_encodable n res).mpr hm)
    rw [answer_eq, if_pos hn]
    unfold CanSend
    simp only []
    rw [hsv]
    exact hw

/-- Whether an object has a property does not change. -/
theorem known_same {o o' : Obj} (h : skeleton o' = skeleton o) (c : Int) : lookup o'.props c = none ↔ lookup o.props c = none := by
  have := isSome_of_skeleton h c
  cases h1 : lookup o'.props c <;> cases h2 : lookup o.props c <;> simp_all

/-- What a plain node does with a message. -/
theorem plain_node {ord : List Int → List Int} (hord : ValidOrder ord) {n : LocalNode} (hr : Reachable ord n) {env : Env} (hc : CodeStable env) (hp : PlainNode env n)
    (net : Net) (hs : NetWorks net) (hw : CanSend n.mgr) (d : Bytes) (a : Addr) (m : Msg) (hd : Decodes d a m) :
    let n' := (LocalNode.deliver env net n m).1
    ((LocalNode.deliver env net n m).2 = none ↔ ¬ UnknownGet n m) ∧ n' = (n.messageReceived env net m).1 ∧ Reachable ord n' ∧ PlainNode env n' ∧ CanSend n'.mgr ∧
      ∀ m', UnknownGet n' m' ↔ UnknownGet n m' := by
  intro n'
  have hn' : n' = (n.messageReceived env net m).1 := by
    show (LocalNode.deliver env net n m).1 = _
    unfold LocalNode.deliver
    rcases n.messageReceived env net m with ⟨x, e | u⟩ <;> rfl
  have hreach : Reachable ord n' := by rw [hn']; exact reachable_receive hr hc net m
  obtain ⟨hm, hrec, ha, hdr⟩ := received_decoded hd
  cases ho : n.getObject (.int m.deoj) with
  | none =>
    have := C48_unknown env net n m hm hdr ho
    have hnn : n' = n := by rw [hn', this]
    refine ⟨?_, hn', hreach, by rw [hnn]; exact hp, by rw [hnn]; exact hw, by rw [hnn]; simp⟩
    unfold LocalNode.deliver
    rw [this]
    simp only [true_iff]
    rintro ⟨-, o, h, -⟩
    rw [ho] at h
    cases h
  | some o =>
    obtain ⟨hobj, -, -⟩ := C48_dispatch hord hr env net m hm hdr o ho
    rw [hrec] at hobj
    rw [← hn'] at hobj
    obtain ⟨q1, q2, q3, q4⟩ := plain_receive env o (hp _ _ ho) m hm
    have hplain : PlainNode env n' := by
      intro c x hx
      rw [hobj c] at hx
      split at hx
      · injection hx with hx; rw [← hx]; exact q1
      · exact hp c x hx
    have hunk : ∀ m', UnknownGet n' m' ↔ UnknownGet n m' := by
      intro m'
      unfold UnknownGet
      rw [hobj m'.deoj]
      split
      · rename_i e
        rw [e, ho]
        simp only [Option.some.injEq, exists_eq_left', handler_of_skeleton q2, known_same q2]
      · rfl
    have hug : UnknownGet n m ↔ m.esv = 0x6E ∧ o.handler = .self_ ∧ ∃ i ∈ m.getProps, lookup o.props i.code = none := by
      unfold UnknownGet
      rw [ho]
      simp only [Option.some.injEq, exists_eq_left']
    obtain ⟨s, hg, hso⟩ := Option.map_eq_some_iff.mp ho
    change Dict.get? n.node.objects m.deoj = some s at hg
    have heq := messageReceived_eq env net n m hm
    rw [Int.emod_eq_of_lt hdr.1 hdr.2, hg] at heq
    simp only [] at heq
    rw [hso, hrec] at heq
    have hmgr : (n.putBack m.deoj s (o.messageReceived env m).obj).mgr = n.mgr := by cases s <;> rfl
    cases hres : (o.messageReceived env m).result with
    | error e =>
      rw [hres] at heq
      simp only [] at heq
      refine ⟨?_, hn', hreach, hplain, ?_, hunk⟩
      · unfold LocalNode.deliver
        rw [heq, hug, ← q3, hres]
        simp
      · rw [hn', heq, hmgr]
        exact hw
    | ok r =>
      rw [hres] at heq
      have hnot : ¬ UnknownGet n m := by
        rw [hug, ← q3, hres]
        simp
      cases r with
      | none =>
        simp only [LocalNode.answer] at heq
        refine ⟨?_, hn', hreach, hplain, ?_, hunk⟩
        · unfold LocalNode.deliver
          rw [heq]
          simp [hnot]
        · rw [hn', heq, hmgr]
          exact hw
      | some res =>
        simp only [] at heq
        obtain ⟨k1, k2⟩ := answer_ok net (n.putBack m.deoj s (o.messageReceived env m).obj) m res a ha (q4 res hres) (by rw [hmgr]; exact hw) hs
        refine ⟨?_, hn', hreach, hplain, ?_, hunk⟩
        · unfold LocalNode.deliver
          rw [heq]
          generalize (n.putBack m.deoj s (o.messageReceived env m).obj).answer net m (some res) = z at k1
          rcases z with ⟨z1, z2⟩
          simp only [] at k1
          rw [k1]
          simp [hnot]
        · rw [hn', heq]
          exact k2

/-- What a plain node does with a datagram. -/
theorem plain_datagram {ord : List Int → List Int} (hord : ValidOrder ord) {n : LocalNode} (hr : Reachable ord n) {env : Env} (hc : CodeStable env) (hp : PlainNode env n)
    (net : Net) (hs : NetWorks net) (hw : CanSend n.mgr) (d : Bytes) (a : Addr) :
    let r := recvOne (LocalNode.deliver env net) n d a
    (r.2 = true ↔ ¬ Harmful n d a) ∧ Reachable ord r.1 ∧ PlainNode env r.1 ∧ CanSend r.1.mgr ∧ ∀ d' a', Harmful r.1 d' a' ↔ Harmful n d' a' := by
  intro r
  by_cases hd : ∃ m, Decodes d a m
  · obtain ⟨m, hd⟩ := hd
    obtain ⟨h1, -, h3, h4, h5, h6⟩ := plain_node hord hr hc hp net hs hw d a m hd
    have e : r = ((LocalNode.deliver env net n m).1, (LocalNode.deliver env net n m).2.isNone) := recvOne_ok _ n d a m hd
    rw [e]
    refine ⟨?_, h3, h4, h5, ?_⟩
    · simp only [Option.isNone_iff_eq_none]
      rw [h1]
      unfold Harmful
      constructor
      · intro h hh; exact h (hh m hd)
      · intro h hu
        apply h
        intro m' hd'
        rw [decodes_unique hd' hd]
        exact hu
    · intro d' a'
      unfold Harmful
      simp only [h6]
  · have e : r = (n, false) := recvOne_bad _ n d a hd
    rw [e]
    refine ⟨?_, hr, hp, hw, fun _ _ => Iff.rfl⟩
    simp only [Bool.false_eq_true, false_iff, not_not]
    intro m hm
    exact absurd ⟨m, hm⟩ hd

end Uecho
