/- What receiving does to a waiting `post_message`. -/
import Verif.Lemmas.EndToEnd

namespace Uecho
open Spec

theorem last_notifyLoop (cenv : CEnv) (call : Call) (ls : List Nat) : ∀ c : Ctl, (Ctl.notifyLoop cenv call ls c).1.last = c.last := by
  induction ls with
  | nil => intro c; rfl
  | cons l ls ih =>
    intro c
    unfold Ctl.notifyLoop
    simp only []
    cases cenv.listen l c.found call with
    | some e => rfl
    | none => exact ih _

theorem last_notify (cenv : CEnv) (c : Ctl) (call : Call) : (c.notify cenv call).1.last = c.last := last_notifyLoop cenv call _ c

theorem last_updateLoop (cenv : CEnv) (ip : String) (code : Int) (ms : List PProp) : ∀ (c : Ctl) (r : Remote) (o : Obj) (u : Bool),
    (Ctl.updateLoop cenv ip code ms c r o u).1.last = c.last := by
  induction ms with
  | nil => intro c r o u; rfl
  | cons mp ms ih =>
    intro c r o u
    unfold Ctl.updateLoop
    split
    · exact ih c r o u
    · split
      · have h1 := last_notify cenv (c.putRemote ip (r.putObj code (o.storeData mp.code mp.data)))
          (.propertyUpdated (r.putObj code (o.storeData mp.code mp.data)) (o.storeData mp.code mp.data).code mp.code mp.data)
        simp only []
        generalize Ctl.notify cenv _ _ = q at h1 ⊢
        rcases q with ⟨c', (_ | e)⟩
        · exact (ih _ _ _ _).trans h1
        · exact h1
      · exact ih c r o u

theorem last_updateProperties (cenv : CEnv) (c : Ctl) (m : Msg) : (c.updateProperties cenv m).1.last = c.last := by
  unfold Ctl.updateProperties
  split
  · rfl
  · rfl
  · rename_i r _
    split
    · rfl
    · rename_i o _
      have h1 := last_updateLoop cenv r.node.ip m.deoj m.props c r o false
      generalize Ctl.updateLoop cenv r.node.ip m.deoj m.props c r o false = q at h1 ⊢
      rcases q with ⟨c1, r1, (e | (_ | _))⟩
      · exact h1
      · exact h1
      · simp only []
        have h2 := last_notify cenv c1 (.objectUpdated r1 o.code)
        generalize Ctl.notify cenv c1 _ = q at h2 ⊢
        rcases q with ⟨c2, (_ | e)⟩
        · simp only []
          have h3 := last_notify cenv c2 (.nodeAdd r1)
          unfold Ctl.notifyNodeUpdated
          generalize Ctl.notify cenv c2 _ = q at h3 ⊢
          rcases q with ⟨c3, (_ | e)⟩
          · exact h3.trans (h2.trans h1)
          · exact h3.trans (h2.trans h1)
        · exact h2.trans h1

theorem last_receiveProfile (ord : List Int → List Int) (cenv : CEnv) (c : Ctl) (m : Msg) : (c.receiveProfile ord cenv m).1.last = c.last := by
  unfold Ctl.receiveProfile
  split
  · rfl
  · rfl
  · split
    · rfl
    · split
      · rfl
      · rfl
      · rename_i node _
        unfold Ctl.addFoundNode
        simp only [Ctl.notifyNodeUpdated, ite_self]
        have h1 := last_notify cenv c (.nodeAdd { node := node })
        generalize Ctl.notify cenv c _ = q at h1 ⊢
        rcases q with ⟨c1, (_ | e)⟩
        · exact h1
        · exact h1

theorem last_receiveProperties (cenv : CEnv) (c : Ctl) (m : Msg) : (c.receiveProperties cenv m).1.last = c.last := by
  unfold Ctl.receiveProperties
  split
  · exact last_updateProperties cenv c m
  · rfl

/-- What `receiveResponse` does. -/
theorem last_receiveResponse (c : Ctl) (m : Msg) : (c.receiveResponse m).last = c.last ∨
    ∃ q, c.last = { request := some q } ∧ q.tid = m.tid ∧ (c.receiveResponse m).last = { request := some q, response := some m } := by
  unfold Ctl.receiveResponse
  rcases hl : c.last with ⟨req, resp⟩
  rcases req with _ | q
  · exact Or.inl (by simp [Post.isWaiting, hl])
  · rcases resp with _ | r
    · by_cases ht : q.tid = m.tid
      · exact Or.inr ⟨q, rfl, ht, by simp [Post.isWaiting, Msg.isResponseMessage, ht]⟩
      · exact Or.inl (by simp [Post.isWaiting, Msg.isResponseMessage, ht, hl])
    · exact Or.inl (by simp [Post.isWaiting, hl])

/-- The messages `is_request` holds of. -/
def Spec.RequestEsv (e : Int) : Prop := e = 0x60 ∨ e = 0x61 ∨ e = 0x62 ∨ e = 0x63 ∨ e = 0x6E ∨ e = 0x74

instance (e : Int) : Decidable (Spec.RequestEsv e) := by unfold Spec.RequestEsv; infer_instance

theorem isRequest_iff (e : Int) : ESV.isRequest e = true ↔ RequestEsv e := by
  unfold ESV.isRequest RequestEsv ESV.WRITE_REQUEST ESV.WRITE_REQUEST_RESPONSE_REQUIRED ESV.READ_REQUEST ESV.NOTIFICATION_REQUEST ESV.WRITE_READ_REQUEST
    ESV.NOTIFICATION_RESPONSE_REQUIRED
  by_cases h1 : e = 0x60
  · simp [h1]
  · by_cases h2 : e = 0x61
    · simp [h2]
    · by_cases h3 : e = 0x62
      · simp [h3]
      · by_cases h4 : e = 0x63
        · simp [h4]
        · by_cases h5 : e = 0x6E
          · simp [h5]
          · by_cases h6 : e = 0x74
            · simp [h6]
            · simp [h1, h2, h3, h4, h5, h6]

/-- What one message does to a waiting `post_message`. -/
theorem last_receive (ord : List Int → List Int) (env : Env) (cenv : CEnv) (net : Net) (c : Ctl) (m : Msg) :
    (c.messageReceived ord env cenv net m).1.last = c.last ∨
    ∃ q, c.last = { request := some q } ∧ q.tid = (received m).tid ∧ Encodable m ∧ ¬ RequestEsv m.esv ∧
      (c.messageReceived ord env cenv net m).1.last = { request := some q, response := some (received m) } := by
  by_cases hr : ESV.isRequest m.esv = true
  · left
    rw [request_eq ord env cenv net c m hr]
  · have hr' : ESV.isRequest m.esv = false := by simpa using hr
    unfold Ctl.messageReceived
    rw [if_neg (by rw [not_self]; simp), hr']
    simp only [isResponse_eq, hr']
    by_cases hm : Encodable m
    · obtain ⟨x, hx, -, -, -, hx'⟩ := (C10_copy m).1 hm
      rw [hx]
      simp only [Bool.not_false, Bool.false_eq_true, if_false]
      have hxr : x = received m := hx'
      rw [hxr]
      have h1 := last_receiveProfile ord cenv c (received m)
      generalize hq : Ctl.receiveProfile ord cenv c (received m) = q at h1
      rcases q with ⟨c1, (e | u)⟩
      · exact Or.inl h1
      · simp only []
        have h2 := last_receiveProperties cenv c1 (received m)
        generalize hq2 : Ctl.receiveProperties cenv c1 (received m) = q at h2
        rcases q with ⟨c2, (e | u)⟩
        · exact Or.inl (h2.trans h1)
        · simp only []
          have h12 : c2.last = c.last := h2.trans h1
          rcases last_receiveResponse c2 (received m) with h | ⟨q, k1, k2, k3⟩
          · exact Or.inl (h.trans h12)
          · exact Or.inr ⟨q, h12 ▸ k1, k2, hm, fun h => hr ((isRequest_iff _).mpr h), k3⟩
    · rw [(C10_copy m).2 hm]
      simp only [Bool.not_false, Bool.false_eq_true, if_false]
      exact Or.inl rfl

/-- A message that is neither a request nor a report does nothing else. -/
theorem receive_plain (ord : List Int → List Int) (env : Env) (cenv : CEnv) (net : Net) (c : Ctl) (m : Msg) (hm : Encodable m) (hr : ¬ RequestEsv m.esv)
    (hn : m.esv ≠ 0x72 ∧ m.esv ≠ 0x73 ∧ m.esv ≠ 0x7E) : c.messageReceived ord env cenv net m = (c.receiveResponse (received m), .ok ()) := by
  have hr' : ESV.isRequest m.esv = false := by
    rw [← isRequest_iff] at hr
    simpa using hr
  unfold Ctl.messageReceived
  rw [if_neg (by rw [not_self]; simp), hr']
  simp only [isResponse_eq, hr']
  obtain ⟨x, hx, -, -, -, hx'⟩ := (C10_copy m).1 hm
  rw [hx]
  simp only [Bool.not_false, Bool.false_eq_true, if_false]
  have hxr : x = received m := hx'
  rw [hxr]
  have he : (received m).esv = m.esv := rfl
  have h1 : Ctl.receiveProfile ord cenv c (received m) = (c, .ok ()) := by
    unfold Ctl.receiveProfile Msg.isNodeProfileMessage
    rw [he, if_pos (by exact ⟨hn.2.1, hn.1⟩)]
  rw [h1]
  simp only []
  have h2 : Ctl.receiveProperties cenv c (received m) = (c, .ok ()) := by
    unfold Ctl.receiveProperties
    rw [he, if_neg]
    unfold ESV.isNotification ESV.isReadResponse ESV.NOTIFICATION ESV.NOTIFICATION_RESPONSE_REQUIRED ESV.READ_RESPONSE ESV.WRITE_READ_RESPONSE
    have h74 : m.esv ≠ 0x74 := fun h => hr (by simp [RequestEsv, h])
    simp [hn.1, hn.2.1, hn.2.2, h74]
  rw [h2]
  rfl

end Uecho
