/- Lemmas on controllers as machines from datagrams to what they know. -/
import Verif.Spec.Picture
import Verif.Lemmas.Device
import Verif.Lemmas.EndToEnd

namespace Uecho
open Spec

/-- What is known of an object before it reports anything: the data a device object is made with. -/
def freshData (ord : List Int → List Int) (o : Int) : Int → Option Bytes := dataOf (devObj ord o)

theorem dataOf_write (o : Obj) (i : PProp) : dataOf (afterWrites o [i]) = putData (dataOf o) i := by
  funext c
  unfold dataOf putData
  rw [lookup_afterWrites, Option.map_map]
  by_cases h : c = i.code
  · rw [if_pos h, Option.map_map]
    subst h
    cases lookup o.props i.code with
    | none => rfl
    | some p => simp [lastFor]
  · rw [if_neg h]
    have : lastFor [i] c = none := by
      unfold lastFor
      rw [List.filter_eq_nil_iff.mpr (fun j hj => by rw [List.mem_singleton.mp hj]; simpa using fun e => h e.symm)]
      rfl
    rw [this]
    rfl

theorem dataOf_writes (is : List PProp) : ∀ o : Obj, dataOf (afterWrites o is) = putsData (dataOf o) is := by
  induction is with
  | nil => intro o; rw [afterWrites_nil]; rfl
  | cons i is ih =>
    intro o
    have : afterWrites o (i :: is) = afterWrites (afterWrites o [i]) is := by rw [afterWrites_append]; rfl
    rw [this, ih, dataOf_write]
    rfl

theorem news_changes (is : List PProp) : ∀ o : Obj, changes o is = newsIn (dataOf o) is := by
  induction is with
  | nil => intro o; rfl
  | cons i is ih =>
    intro o
    unfold changes newsIn dataOf
    cases h : lookup o.props i.code with
    | none => simp only [Option.map_none]; exact ih o
    | some p =>
      simp only [Option.map_some]
      by_cases hd : p.data = i.data
      · rw [if_pos hd, if_pos hd]; exact ih o
      · rw [if_neg hd, if_neg hd, ih, dataOf_write]; rfl

theorem ref_ext {A B : RefController} (h1 : A.dev = B.dev) (h2 : A.known = B.known) (h3 : ∀ ip, A.node ip = B.node ip) (h4 : A.asked = B.asked) (h5 : A.answer = B.answer)
    (h6 : A.listeners = B.listeners) (h7 : A.told = B.told) : A = B := by
  cases A; cases B; simp only [RefController.mk.injEq]; exact ⟨h1, h2, funext h3, h4, h5, h6, h7⟩

theorem nodeOf_listed (ord : List Int → List Int) (a : Addr) (l : List Int) :
    nodeOf { node := listedNode ord a l, linked := true } = RefController.listed (freshData ord) a l := by
  unfold nodeOf RefController.listed
  simp only [RefNode.mk.injEq]
  refine ⟨rfl, listedNode_keys ord a l, ?_⟩
  funext o c
  have hm : (o = 0x0EF001 ∨ o ∈ l) ↔ o ∈ addCodes [0x0EF001] l := by
    rw [← listedNode_keys ord a l, ← Dict.get?_isSome_iff, listedNode_get?]
    split <;> simp_all
  rw [listedNode_get?]
  by_cases h : o = 0x0EF001 ∨ o ∈ l
  · rw [if_pos h, if_pos (hm.mp h)]; rfl
  · rw [if_neg h, if_neg (fun x => h (hm.mpr x))]; rfl

/-- An instance list. -/
theorem controllerOf_list (ord : List Int → List Int) (c : Ctl) (m : Msg) (a : Addr) (ha : m.fromAddr = some a)
    (hd : m.esv = 0x72 ∨ m.esv = 0x73 → m.deoj % 2 ^ 24 = 0x0EF001) :
    controllerOf (afterList ord c m) = (controllerOf c).actualList (freshData ord) a m := by
  unfold afterList announced RefController.actualList
  by_cases he : m.esv = 0x72 ∨ m.esv = 0x73
  · rw [if_pos ⟨he, hd he⟩, if_pos he, ha]
    cases instanceListOf m with
    | notAList => rfl
    | empty => rfl
    | short => rfl
    | codes l =>
      simp only []
      refine ref_ext rfl ?_ ?_ rfl rfl rfl ?_
      · show Dict.keys (Dict.set _ _ _) = if _ then _ else _
        rw [Dict.keys_set]
        rfl
      · intro ip
        show (Dict.get? (Dict.set _ _ _) ip).map nodeOf = if _ then _ else _
        rw [Dict.get?_set, ← nodeOf_listed]
        by_cases h : ip = a.1
        · rw [if_pos h.symm, if_pos h]; rfl
        · rw [if_neg (fun e => h e.symm), if_neg h]; rfl
      · show toldAll _ = toldAll c ++ tellAll c.listeners _
        unfold toldAll
        rw [List.map_append, List.map_map]
        rfl
  · rw [if_neg (fun x => he x.1), if_neg he]

/-- A report. -/
theorem controllerOf_report (c c' : Ctl) (ip : String) (r : Remote) (hr : Dict.get? c.found ip = some r) (hk : RemoteInv ip r) (d : Int) (is : List PProp)
    (h1 : c'.found = reportTo c.found ip d is) (h2 : c'.ln = c.ln) (h3 : c'.last = c.last) (h4 : c'.listeners = c.listeners)
    (h5 : toldAll c' = toldAll c ++ reportTold c.found c.listeners ip d is) :
    controllerOf c' = (controllerOf c).report ip (nodeOf r) d (.nodeAdd ip) is := by
  unfold RefController.report
  unfold reportTo at h1
  unfold reportTold at h5
  rw [hr] at h1 h5
  simp only [] at h1 h5
  cases ho : Dict.get? r.node.objects d with
  | none =>
    rw [ho] at h1 h5
    have : d ∉ (nodeOf r).objs := (Dict.get?_eq_none_iff _ _).mp ho
    rw [if_neg this]
    refine ref_ext ?_ ?_ ?_ ?_ ?_ h4 ?_
    · show deviceOf c'.ln = deviceOf c.ln; rw [h2]
    · show Dict.keys c'.found = _; rw [h1]; rfl
    · intro x; show (Dict.get? c'.found x).map nodeOf = _; rw [h1]; rfl
    · show c'.last.request.map _ = c.last.request.map _; rw [h3]
    · show c'.last.response = c.last.response; rw [h3]
    · show toldAll c' = toldAll c; rw [h5]; simp
  | some o =>
    rw [ho] at h1 h5
    simp only [] at h1 h5
    have : d ∈ (nodeOf r).objs := (Dict.get?_isSome_iff _ _).mp (by rw [ho]; rfl)
    rw [if_pos this]
    have hdat : (nodeOf r).data d = dataOf o := by
      funext x
      show (Dict.get? r.node.objects d).bind _ = _
      rw [ho]; rfl
    refine ref_ext ?_ ?_ ?_ ?_ ?_ h4 ?_
    · show deviceOf c'.ln = deviceOf c.ln; rw [h2]
    · show Dict.keys c'.found = Dict.keys c.found; rw [h1, Dict.keys_modify]
    · intro x
      show (Dict.get? c'.found x).map nodeOf = if x = ip then _ else (Dict.get? c.found x).map nodeOf
      rw [h1, Dict.get?_modify]
      by_cases hx : x = ip
      · rw [if_pos hx.symm, if_pos hx, hx, hr]
        simp only [Option.map_some, Option.some.injEq]
        unfold nodeOf
        simp only [RefNode.mk.injEq]
        refine ⟨rfl, ?_, ?_⟩
        · unfold Remote.putObj
          simp only []
          rw [Dict.keys_modify]
        · funext o' pc
          rw [get?_putObj]
          by_cases hd : o' = d
          · rw [if_pos hd.symm, if_pos hd, hd, ho]
            simp only [Option.map_some, Option.bind_some]
            rw [dataOf_writes]
          · rw [if_neg (fun e => hd e.symm), if_neg hd]
      · rw [if_neg (fun e => hx e.symm), if_neg hx]
    · show c'.last.request.map _ = c.last.request.map _; rw [h3]
    · show c'.last.response = c.last.response; rw [h3]
    · show toldAll c' = toldAll c ++ _ ++ _
      rw [h5, hdat, ← news_changes, List.append_assoc]
      rfl

/-- The answer waited for. -/
theorem controllerOf_response (c : Ctl) (m : Msg) : controllerOf (c.receiveResponse m) = (controllerOf c).answered m := by
  unfold Ctl.receiveResponse RefController.answered
  rcases hl : c.last with ⟨q, p⟩
  cases q with
  | none =>
    rw [if_neg (by simp [Post.isWaiting]), if_neg]
    show ¬ (c.last.request.map Msg.tid = some m.tid ∧ _)
    rw [hl]; simp
  | some q =>
    cases p with
    | some p =>
      rw [if_neg (by simp [Post.isWaiting]), if_neg]
      show ¬ (_ ∧ c.last.response = none)
      rw [hl]; simp
    | none =>
      rw [if_pos (by simp [Post.isWaiting])]
      simp only []
      by_cases ht : q.tid = m.tid
      · have h1 : (controllerOf c).asked = some m.tid ∧ (controllerOf c).answer = none := by
          show c.last.request.map Msg.tid = _ ∧ c.last.response = none
          rw [hl]; simp [ht]
        rw [if_pos (by simp [Msg.isResponseMessage, ht]), if_pos h1]
        refine ref_ext rfl rfl (fun _ => rfl) ?_ rfl rfl rfl
        show Option.map Msg.tid (some q) = c.last.request.map Msg.tid
        rw [hl]
      · rw [if_neg (by simp [Msg.isResponseMessage, ht]), if_neg]
        show ¬ (c.last.request.map Msg.tid = some m.tid ∧ _)
        rw [hl]; simp [ht]

theorem isRequest_esv (e : Int) : ESV.isRequest e = isRequestEsv e := by
  have : isRequestEsv e = true ↔ ESV.isRequest e = true := by
    unfold isRequestEsv ESV.isRequest
    simp only [decide_eq_true_eq, List.mem_cons, List.not_mem_nil, or_false]
    constructor
    · rintro (h | h | h | h | h | h) <;> rw [h] <;> rfl
    · intro h
      repeat' split at h
      all_goals try cases h
      all_goals (rename_i h; simp only [ESV.WRITE_REQUEST, ESV.WRITE_REQUEST_RESPONSE_REQUIRED, ESV.READ_REQUEST, ESV.NOTIFICATION_REQUEST, ESV.WRITE_READ_REQUEST,
        ESV.NOTIFICATION_RESPONSE_REQUIRED] at h; omega)
  cases h1 : isRequestEsv e <;> cases h2 : ESV.isRequest e <;> simp_all

/-- What a controller does with a datagram, seen from outside. -/
theorem controller_datagram {ord : List Int → List Int} (hord : ValidOrder ord) {c : Ctl} (hi : FoundInv c) (hr : Reachable ord c.ln) {env : Env} (hp : PlainNode env c.ln)
    {cenv : CEnv} (hcalm : Calm cenv) (net : Net) (hs : NetWorks net) (hw : CanSend c.ln.mgr) (d : Bytes) (a : Addr) :
    let r := recvOne (Ctl.deliver ord env cenv net) c d a
    let q := (controllerOf c).actual (freshData ord) d a
    controllerOf r.1 = q.1 ∧ r.2 = q.2.2 ∧ r.1.ln.mgr.log = c.ln.mgr.log ++ q.2.1.map fun s => (s, (s.bytes.length : Int)) := by
  intro r q
  have hqd : q = (controllerOf c).actual (freshData ord) d a := rfl
  unfold RefController.actual at hqd
  cases hread : readMsg (d.take 1024) with
  | none =>
    rw [hread] at hqd
    simp only [] at hqd
    have e : r = (c, false) := recvOne_bad _ c d a (not_decodes hread)
    rw [e, hqd]
    exact ⟨rfl, rfl, by simp⟩
  | some w =>
    rw [hread] at hqd
    simp only [] at hqd
    have hd := decodes_of_read a hread
    have e : r = _ := recvOne_ok (Ctl.deliver ord env cenv net) c d a _ hd
    have e0 := recvOne_ok (LocalNode.deliver env net) c.ln d a _ hd
    obtain ⟨hm, hrec, ha, hdr⟩ := received_decoded hd
    generalize hmd : ({ w with fromAddr := some a } : Msg) = m at *
    have w1 : w.esv = m.esv := by rw [← hmd]
    have w2 : w.deoj = m.deoj := by rw [← hmd]
    have w3 : instanceListOf w = instanceListOf m := by rw [← hmd]; rfl
    have hmod : m.deoj % 2 ^ 24 = m.deoj := Int.emod_eq_of_lt hdr.1 hdr.2
    have hdel : Ctl.deliver ord env cenv net c m = ((c.messageReceived ord env cenv net m).1,
        match (c.messageReceived ord env cenv net m).2 with | .error e => some e | .ok _ => none) := by
      unfold Ctl.deliver
      rcases c.messageReceived ord env cenv net m with ⟨x, e | u⟩ <;> rfl
    have hdel0 : LocalNode.deliver env net c.ln m = ((c.ln.messageReceived env net m).1,
        match (c.ln.messageReceived env net m).2 with | .error e => some e | .ok _ => none) := by
      unfold LocalNode.deliver
      rcases c.ln.messageReceived env net m with ⟨x, e | u⟩ <;> rfl
    rw [hdel] at e
    rw [hdel0] at e0
    rw [w1, w2, w3] at hqd
    by_cases hreq : ESV.isRequest m.esv = true
    · rw [if_pos (by rw [← isRequest_esv]; exact hreq)] at hqd
      rw [request_eq ord env cenv net c m hreq] at e
      obtain ⟨k1, k2, k3⟩ := device_datagram hord hr hp net hs hw d a
      rw [e0] at k1 k2 k3
      rw [e, hqd]
      refine ⟨?_, k2, k3⟩
      exact ref_ext k1 rfl (fun _ => rfl) rfl rfl rfl rfl
    · have hreq' : ESV.isRequest m.esv = false := by simpa using hreq
      rw [if_neg (by rw [← isRequest_esv]; exact hreq)] at hqd
      by_cases hrep : Reports m
      · by_cases hok : (m.esv = 0x72 ∨ m.esv = 0x73) ∧ m.deoj ≠ 0x0EF001
        · rw [if_pos ⟨hok.1, Or.inl hok.2⟩] at hqd
          rw [response_misdirected ord env cenv net c m hm hok.1 (by rw [hmod]; exact hok.2)] at e
          rw [e, hqd]
          exact ⟨rfl, rfl, by simp⟩
        · by_cases hne : (m.esv = 0x72 ∨ m.esv = 0x73) ∧ instanceListOf m = .empty
          · rw [if_pos ⟨hne.1, Or.inr hne.2⟩] at hqd
            have hdd : m.deoj = 0x0EF001 := by
              by_contra hdd
              exact hok ⟨hne.1, hdd⟩
            rw [response_empty hord env hcalm net c m a ha hm hne.1 (by rw [hmod]; exact hdd) hne.2] at e
            rw [e, hqd]
            exact ⟨rfl, rfl, by simp⟩
          · rw [if_neg (by rintro ⟨x, y | y⟩; exacts [hok ⟨x, y⟩, hne ⟨x, y⟩])] at hqd
            have hlist := controllerOf_list ord c m a ha (fun x => by
              rw [hmod]
              by_contra hdd
              exact hok ⟨x, hdd⟩)
            have hl0 : (controllerOf c).actualList (freshData ord) a w = (controllerOf c).actualList (freshData ord) a m := by
              unfold RefController.actualList; rw [w1, w3]
            have hok' : ¬ ((m.esv = 0x72 ∨ m.esv = 0x73) ∧ m.deoj % 2 ^ 24 ≠ 0x0EF001) := by rw [hmod]; exact hok
            rw [hl0, ← hlist] at hqd
            unfold RefController.actualReport at hqd
            rw [if_pos (show w.esv = 0x72 ∨ w.esv = 0x73 ∨ w.esv = 0x7E by rw [w1]; exact hrep), hmd, w2] at hqd
            have hln : (afterList ord c m).ln = c.ln := by unfold afterList; split <;> rfl
            cases hk : Dict.get? (afterList ord c m).found a.1 with
            | none =>
              have hn : (controllerOf (afterList ord c m)).node a.1 = none := by
                show (Dict.get? _ _).map _ = _; rw [hk]; rfl
              rw [hn] at hqd
              rw [response_unknown hord env hcalm net c hi m a ha hm hrep hok' hne hk] at e
              rw [e, hqd]
              exact ⟨rfl, rfl, by simp [hln]⟩
            | some x =>
              have hn : (controllerOf (afterList ord c m)).node a.1 = some (nodeOf x) := by
                show (Dict.get? _ _).map _ = _; rw [hk]; rfl
              rw [hn] at hqd
              obtain ⟨c', e1, e2, e3, e4, e5, e6⟩ := response_known hord env hcalm net c hi m a ha hm hrep hok' hne x hk
              rw [e1] at e
              have hinv := (afterList_inv hord c hi m).nodes a.1 x hk
              have hrest : (afterList ord c m).last = c.last ∧ (afterList ord c m).listeners = c.listeners := by
                unfold afterList; split <;> exact ⟨rfl, rfl⟩
              have hview := controllerOf_report (afterList ord c m) c' a.1 x hk hinv m.deoj m.props (by rw [e2, hmod, hrec]) (e3.trans hln.symm) (e4.trans hrest.1.symm)
                (e5.trans hrest.2.symm) (by rw [e6, hmod, hrec, hrest.2])
              have hwp : w.props = m.props := by rw [← hmd]
              rw [e, hqd, hrec]
              simp only []
              rw [controllerOf_response, hview, hwp]
              refine ⟨rfl, rfl, ?_⟩
              rw [(receiveResponse_found c' m).2.1, e3]
              simp
      · have hno : ¬ (m.esv = 0x72 ∨ m.esv = 0x73) := fun h => hrep (h.elim Or.inl (fun x => Or.inr (Or.inl x)))
        rw [if_neg (fun x => hno x.1)] at hqd
        have hl : (controllerOf c).actualList (freshData ord) a w = controllerOf c := by
          unfold RefController.actualList; rw [w1, if_neg hno]
        rw [hl] at hqd
        unfold RefController.actualReport at hqd
        rw [if_neg (show ¬ (w.esv = 0x72 ∨ w.esv = 0x73 ∨ w.esv = 0x7E) by rw [w1]; exact hrep), hmd] at hqd
        rw [response_other env net c m hm hreq' hrep, hrec] at e
        rw [e, hqd]
        simp only []
        rw [controllerOf_response]
        refine ⟨rfl, rfl, ?_⟩
        rw [(receiveResponse_found c m).2.1]
        simp

/-- What stays so. -/
theorem controller_stays {ord : List Int → List Int} (hord : ValidOrder ord) {c : Ctl} (hi : FoundInv c) (hr : Reachable ord c.ln) {env : Env} (hc : CodeStable env)
    (hp : PlainNode env c.ln) {cenv : CEnv} (hcalm : Calm cenv) (net : Net) (hs : NetWorks net) (hw : CanSend c.ln.mgr) (d : Bytes) (a : Addr) :
    let r := recvOne (Ctl.deliver ord env cenv net) c d a
    FoundInv r.1 ∧ Reachable ord r.1.ln ∧ PlainNode env r.1.ln ∧ CanSend r.1.ln.mgr := by
  intro r
  by_cases hd : ∃ m, Decodes d a m
  · obtain ⟨m, hd⟩ := hd
    obtain ⟨hm, -, ha, -⟩ := received_decoded hd
    have e : r = _ := recvOne_ok (Ctl.deliver ord env cenv net) c d a _ hd
    have e0 := recvOne_ok (LocalNode.deliver env net) c.ln d a _ hd
    have e1 : r.1 = (c.messageReceived ord env cenv net m).1 := by
      rw [e]
      show (Ctl.deliver ord env cenv net c m).1 = _
      unfold Ctl.deliver
      rcases c.messageReceived ord env cenv net m with ⟨x, e | u⟩ <;> rfl
    have hdel : Delivered m := ⟨hm, by rw [ha]; rfl⟩
    have hln := receive_ln ord env cenv net c m hi hcalm hord hdel
    obtain ⟨-, j2, j3, j4, -⟩ := plain_datagram hord hr hc hp net hs hw d a
    have e2 : (recvOne (LocalNode.deliver env net) c.ln d a).1 = (c.ln.messageReceived env net m).1 := by
      rw [e0]
      show (LocalNode.deliver env net c.ln m).1 = _
      unfold LocalNode.deliver
      rcases c.ln.messageReceived env net m with ⟨x, e | u⟩ <;> rfl
    rw [e2] at j2 j3 j4
    rw [e1]
    refine ⟨receive_inv_found hord env hcalm net c hi m hdel, ?_⟩
    rw [hln]
    split
    · exact ⟨j2, j3, j4⟩
    · exact ⟨hr, hp, hw⟩
  · have e : r = (c, false) := recvOne_bad _ c d a hd
    rw [e]
    exact ⟨hi, hr, hp, hw⟩

end Uecho
