/- A search, its answers, and what the controller makes of them. -/
import Verif.Spec.Search
import Verif.Lemmas.EndToEnd

namespace Uecho
open Spec

/-- The answer of a device to a read of 0xD6 of its profile. -/
theorem host_answers {ord : List Int → List Int} (hord : ValidOrder ord) {h : Host} (hr : h.Ready ord) (q : Bytes) (ca : Addr) (req : Msg)
    (hd : Decodes q ca req) (hreq : IsReadOf req 0x0EF001 0xD6) :
    ∃ d m, h.Answers q ca d ∧ (∀ a, Decodes d a { m with fromAddr := some a }) ∧ m.esv = 0x72 ∧ m.deoj = req.seoj % 2 ^ 24 ∧
      instanceListOf m = .codes (instancesOf (h.node.objs.map Obj.code)) := by
  obtain ⟨-, hrec, ha, -⟩ := received_decoded hd
  have hinv := reachable_inv hord hr.reach
  obtain ⟨b, hb, k1, k2⟩ := profile_answer hord hr.reach h.env req hreq (hr.quiet _)
  have hbl : b.toNat = (instancesOf (h.node.objs.map Obj.code)).length := by have := hr.few; omega
  have hmem : ∀ c, c ∈ instancesOf (h.node.objs.map Obj.code) → 0 ≤ c ∧ c < 2 ^ 24 := by
    intro c hc
    unfold instancesOf at hc
    rw [List.mem_filter, List.mem_map] at hc
    obtain ⟨⟨o, ho, rfl⟩, -⟩ := hc
    exact hr.range o ho
  have hfew := hr.few
  generalize instancesOf (h.node.objs.map Obj.code) = insts at *
  have hdisp := profile_dispatch hr.own h.env h.net req _ hreq k1 k2
  have hcb : (b :: codeBytes insts).length < 256 := by
    rw [List.length_cons, codeBytes_length]
    omega
  obtain ⟨i, t, h1, h2, h3, -⟩ := answer_sent h.net h.node (received req)
    (listAnswer (req.tid % 2 ^ 16) (req.seoj % 2 ^ 24) (b :: codeBytes insts)) ca rfl ha
    ((listAnswer_encodable _ _ _).mpr hcb) hr.sends hr.net
  refine ⟨_, onWire (listAnswer t (req.seoj % 2 ^ 24) (b :: codeBytes insts)), ⟨_, i, ?_, h2⟩, ?_, ?_, ?_, ?_⟩
  · rw [recvOne_ok _ _ q ca req hd]
    unfold LocalNode.deliver
    rw [hdisp]
    generalize h.node.answer h.net (received req) _ = z at h1
    rcases z with ⟨z1, z2⟩
    simp only [] at h1
    rw [h1]
    rfl
  · intro a
    rw [outgoing_listAnswer]
    exact decodes_encode _ ((listAnswer_encodable _ _ _).mpr hcb) (by rw [listAnswer_length]; omega) a
  · rw [onWire_listAnswer]; rfl
  · rw [onWire_listAnswer]
    show req.seoj % 2 ^ 24 % 2 ^ 24 = _
    rw [Int.emod_emod]
  · rw [onWire_listAnswer]
    unfold instanceListOf listAnswer
    simp only []
    rw [if_pos (by simp), if_neg (by rw [codeBytes_length, hbl]; omega), hbl]
    have := listedCodes_codeBytes insts []
    rw [List.append_nil] at this
    rw [this]
    congr 1
    conv => rhs; rw [← List.map_id insts]
    apply List.map_congr_left
    intro c hc
    obtain ⟨x1, x2⟩ := hmem c hc
    exact Int.emod_eq_of_lt x1 x2

/-- Reports change the node they are from only. -/
theorem get?_reportTo_other (f : Dict String Remote) (ip : String) (d : Int) (props : List PProp) (ip' : String) (hne : ip' ≠ ip) :
    Dict.get? (reportTo f ip d props) ip' = Dict.get? f ip' := by
  unfold reportTo
  split
  · rfl
  · split
    · rfl
    · rw [Dict.get?_modify, if_neg (fun e => hne e.symm)]

/-- An instance list at a controller. -/
theorem list_taken {ord : List Int → List Int} (hord : ValidOrder ord) {c : Ctl} {ops : List CtlOp} (h : CtlReach ord c ops) (env : Env) {cenv : CEnv}
    (hc : Calm cenv) (hst : CodeStable env) (net : Net) (d : Bytes) (a : Addr) (m : Msg) (l : List Int) (hd : Decodes d a m) (he : m.esv = 0x72) (hdj : m.deoj = 0x0EF001)
    (hl : instanceListOf m = .codes l) :
    ∃ c', recvOne (Ctl.deliver ord env cenv net) c d a = (c', true) ∧ CtlReach ord c' (ops ++ [.receive env cenv net m]) ∧
      announced m = some (a, l) ∧ (∀ ip, ip ≠ a.1 → Dict.get? c'.found ip = Dict.get? c.found ip) ∧
      c'.listeners = c.listeners ∧ (∃ rest, toldAll c' = toldAll c ++ tellAll c.listeners (.nodeAdd a.1) ++ rest) ∧ c'.ln = c.ln := by
  obtain ⟨hm, hrec, ha, -⟩ := received_decoded hd
  have hdel : Delivered m := ⟨hm, by rw [ha]; rfl⟩
  have hann : announced m = some (a, l) := by
    unfold announced
    rw [if_pos ⟨Or.inl he, by rw [hdj]; decide⟩, ha, hl]
  have hk := reach_knows hord h
  have haf : Dict.get? (afterList ord c m).found a.1 = some { node := listedNode ord a l, linked := true } := by
    unfold afterList
    rw [hann]
    simp only []
    rw [Dict.get?_set, if_pos rfl]
  obtain ⟨c1, k1, k2, k3, k4, k5, k6⟩ := response_known hord env hc net c hk.1 m a ha hm (Or.inl he) (by rw [hdj]; intro x; exact x.2 (by decide))
    (by rw [hl]; intro x; cases x.2) _ haf
  obtain ⟨f1, f2, f3, f4⟩ := receiveResponse_found c1 (received m)
  have htold := C60_addition_partial hord h env hc net m hdel a l hann
  rw [k1] at htold
  refine ⟨c1.receiveResponse (received m), ?_, ?_, hann, ?_, f3.trans k5, htold, f2.trans k3⟩
  · rw [recvOne_ok _ c d a m hd]
    unfold Ctl.deliver
    rw [k1]
    rfl
  · have := ctl_snoc h (.receive env cenv net m) ⟨hdel, hc, hst⟩
    have e : CtlOp.run ord c (.receive env cenv net m) = c1.receiveResponse (received m) := by
      show (c.messageReceived ord env cenv net m).1 = _
      rw [k1]
    rw [e] at this
    exact this
  · intro ip hne
    rw [f1, k2, get?_reportTo_other _ _ _ _ _ hne]
    unfold afterList
    rw [hann]
    simp only []
    rw [Dict.get?_set, if_neg (fun e => hne e.symm)]

/-- Any number of instance lists, one after the other. -/
theorem lists_taken {ord : List Int → List Int} (hord : ValidOrder ord) (env : Env) {cenv : CEnv} (hc : Calm cenv) (hst : CodeStable env) (net : Net)
    (f : Host → Bytes) (ls : Host → List Int) (hosts : List Host)
    (hf : ∀ h ∈ hosts, ∃ m, Decodes (f h) h.addr m ∧ m.esv = 0x72 ∧ m.deoj = 0x0EF001 ∧ instanceListOf m = .codes (ls h))
    (hd : ∀ h ∈ hosts, ∀ h' ∈ hosts, h.addr.1 = h'.addr.1 → h = h') (order : List Host) :
    ∀ (c : Ctl) (ops : List CtlOp), CtlReach ord c ops → (∀ h ∈ order, h ∈ hosts) →
    ∃ c' ops', runLoop (Ctl.deliver ord env cenv net) c (order.map fun h => (f h, h.addr)) = (c', true) ∧ CtlReach ord c' ops' ∧
      (∀ h ∈ order, latest (heard ops') h.addr.1 = some (h.addr, ls h)) ∧
      (∀ h ∈ hosts, latest (heard ops) h.addr.1 = some (h.addr, ls h) → latest (heard ops') h.addr.1 = some (h.addr, ls h)) ∧
      (∀ ip, (∀ h ∈ order, h.addr.1 ≠ ip) → Dict.get? c'.found ip = Dict.get? c.found ip) ∧
      c'.listeners = c.listeners ∧ (∃ rest, toldAll c' = toldAll c ++ rest ∧ ∀ h ∈ order, ∀ l ∈ c.listeners, (l, .nodeAdd h.addr.1) ∈ rest) ∧ c'.ln = c.ln := by
  induction order with
  | nil =>
    intro c ops h _
    exact ⟨c, ops, rfl, h, by simp, fun _ _ x => x, fun _ _ => rfl, rfl, ⟨[], by simp, by simp⟩, rfl⟩
  | cons x order ih =>
    intro c ops h hsub
    obtain ⟨m, m1, m2, m3, m4⟩ := hf x (hsub x List.mem_cons_self)
    obtain ⟨c1, r1, r2, r3, r4, r5, ⟨rest, r6⟩, r7⟩ := list_taken hord h env hc hst net (f x) x.addr m (ls x) m1 m2 m3 m4
    obtain ⟨c2, ops2, s1, s2, s3, s4, s5, s6, ⟨rest2, s7, s8⟩, s9⟩ := ih c1 _ r2 (fun y hy => hsub y (List.mem_cons_of_mem _ hy))
    have hlat : ∀ ip, latest (heard (ops ++ [.receive env cenv net m])) ip = if x.addr.1 = ip then some (x.addr, ls x) else latest (heard ops) ip := by
      intro ip
      rw [heard_append]
      show latest (heard ops ++ [m]) ip = _
      rw [latest_append, r3]
    have hx := s4 x (hsub x List.mem_cons_self) (by rw [hlat, if_pos rfl])
    refine ⟨c2, ops2, ?_, s2, ?_, ?_, ?_, s6.trans r5, ⟨tellAll c.listeners (.nodeAdd x.addr.1) ++ rest ++ rest2, ?_, ?_⟩, s9.trans r7⟩
    · rw [List.map_cons]
      unfold runLoop
      rw [r1]
      exact s1
    · intro h' hh
      rcases List.mem_cons.mp hh with e | hh
      · rw [e]; exact hx
      · exact s3 h' hh
    · intro h' hh hl
      apply s4 h' hh
      rw [hlat]
      split
      · rename_i e
        rw [hd x (hsub x List.mem_cons_self) h' hh e]
      · exact hl
    · intro ip hne
      rw [s5 ip (fun y hy => hne y (List.mem_cons_of_mem _ hy)), r4 ip (fun e => hne x List.mem_cons_self e.symm)]
    · rw [s7, r6]
      simp [List.append_assoc]
    · intro h' hh l hl
      rcases List.mem_cons.mp hh with e | hh
      · rw [e]
        exact List.mem_append_left _ (List.mem_append_left _ (List.mem_map_of_mem hl))
      · exact List.mem_append_right _ (s8 h' hh l (by rw [r5]; exact hl))

end Uecho
