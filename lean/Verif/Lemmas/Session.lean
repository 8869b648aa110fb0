import Verif.Spec.Session
import Verif.Props.Search
import Verif.Lemmas.Exchange

namespace Uecho
open Spec

/-- What a node stores under an object and a property. -/
def entryOf (n : LocalNode) (k c : Int) : Option Entry :=
  (n.getObject (.int k)).bind fun o => (lookup o.props c).map fun p => { readable := decide (CanRead p), writable := decide (CanWrite p), data := p.data }

theorem store_host {H : Machines} {ip : String} {h : Host} (hh : H ip = some h) (k c : Int) : H.store ip k c = entryOf h.node k c := by
  unfold Machines.store entryOf
  rw [hh]
  rfl

theorem entryOf_obj {n : LocalNode} {k : Int} {o : Obj} (ho : n.getObject (.int k) = some o) (c : Int) :
    entryOf n k c = (lookup o.props c).map fun p => { readable := decide (CanRead p), writable := decide (CanWrite p), data := p.data } := by
  unfold entryOf
  rw [ho]
  rfl

/-- The result of an exchange is determined. -/
theorem exchange_unique {ord : List Int → List Int} {w : World} {ca da : Addr} {dest : PyDest} {c : Ctl} {n : LocalNode} {m : Msg}
    {c1 c2 : Ctl} {n1 n2 : LocalNode} {r1 r2 : Msg} (h1 : Exchange ord w ca da dest c n m c1 n1 r1) (h2 : Exchange ord w ca da dest c n m c2 n2 r2) :
    c1 = c2 ∧ n1 = n2 ∧ r1 = r2 := by
  obtain ⟨x1, d1, ⟨i1, j1, q1, a1, a2, a3, a4⟩, a5, a6⟩ := h1
  obtain ⟨x2, d2, ⟨i2, j2, q2, b1, b2, b3, b4⟩, b5, b6⟩ := h2
  have e1 : x1 = x2 := by
    rw [a1] at b1
    exact (Prod.mk.inj b1).1
  subst e1
  rw [a2] at b2
  have e2 := List.append_cancel_left b2
  simp only [List.cons.injEq, Prod.mk.injEq, and_true] at e2
  have e3 : q1 = q2 := by
    have := e2.1
    injection this
  subst e3
  have e4 : n1 = n2 := by
    rw [a3] at b3
    exact (Prod.mk.inj b3).1
  subst e4
  rw [a4] at b4
  have e5 := List.append_cancel_left b4
  simp only [List.cons.injEq, Prod.mk.injEq, and_true] at e5
  have e6 : d1 = d2 := by
    have := e5.1
    injection this
  subst e6
  have e7 : c1 = c2 := by
    rw [a5] at b5
    exact (Prod.mk.inj b5).1
  subst e7
  rw [a6] at b6
  exact ⟨rfl, rfl, Option.some.inj b6⟩

/-- Writing items one after the other. -/
theorem foldl_put (items : List (Int × Bytes)) : ∀ (s : Store) (ip : String) (k : Int) (ip' : String) (k' c : Int),
    (s.puts ip k items) ip' k' c =
      if ip' = ip ∧ k' = k then (s ip' k' c).map fun e =>
        if e.writable then { e with data := (lastFor (itemProps items) c).getD e.data } else e
      else s ip' k' c := by
  unfold Store.puts itemProps
  induction items with
  | nil =>
    intro s ip k ip' k' c
    simp only [List.foldl_nil, List.map_nil, lastFor_nil, Option.getD_none]
    split
    · cases s ip' k' c <;> simp
    · rfl
  | cons i items ih =>
    intro s ip k ip' k' c
    rw [List.foldl_cons, ih]
    have hl : lastFor ((i :: items).map fun i => ({ code := i.1, data := i.2 } : PProp)) c =
        (lastFor (items.map fun i => { code := i.1, data := i.2 }) c).or (if i.1 = c then some i.2 else none) := by
      have := lastFor_append [{ code := i.1, data := i.2 }] (items.map fun i => ({ code := i.1, data := i.2 } : PProp)) c
      rw [List.map_cons]
      refine this.trans ?_
      congr 1
      unfold lastFor
      by_cases h : i.1 = c <;> simp [h]
    rw [hl]
    by_cases h1 : ip' = ip ∧ k' = k
    · rw [if_pos h1, if_pos h1]
      unfold Store.put
      by_cases h2 : c = i.1
      · rw [if_pos ⟨h1.1, h1.2, h2⟩, if_pos h2.symm, Option.map_map]
        congr 1
        funext e
        simp only [Function.comp]
        split
        · rename_i hw
          simp only [hw, if_true]
          cases lastFor (items.map fun i => ({ code := i.1, data := i.2 } : PProp)) c <;> simp
        · rename_i hw
          simp [hw]
      · rw [if_neg (fun h => h2 h.2.2), if_neg (fun h => h2 h.symm), Option.or_none]
    · rw [if_neg h1, if_neg h1]
      unfold Store.put
      rw [if_neg (fun h => h1 ⟨h.1, h.2.1⟩)]

/-- An entry for a property. -/
def entry (p : OProp) : Entry := { readable := decide (CanRead p), writable := decide (CanWrite p), data := p.data }

section
variable {s : Store} {ip : String} {k : Int} {o : Obj} (hs : ∀ c, s ip k c = (lookup o.props c).map entry)
include hs

theorem got_eq (codes : List Int) : (codes.map fun c => ({ code := c } : PProp)).map (readResp o (attrPolicy o)) = s.got ip k codes := by
  rw [List.map_map]
  apply List.map_congr_left
  intro c _
  simp only [Function.comp, readResp, readValue, attrPolicy] at hs ⊢
  rw [hs c]
  obtain hlk | ⟨p, hlk⟩ := Option.eq_none_or_eq_some (lookup o.props c) <;> simp [hlk, entry]

theorem refused_eq (items : List (Int × Bytes)) : (itemProps items).map (writeResp o (attrPolicy o)) = s.refused ip k items := by
  unfold itemProps
  rw [List.map_map]
  apply List.map_congr_left
  intro i _
  simp only [Function.comp, writeResp, attrPolicy] at hs ⊢
  rw [hs i.1]
  obtain hlk | ⟨p, hlk⟩ := Option.eq_none_or_eq_some (lookup o.props i.1)
  · simp [hlk]
  · by_cases h : CanWrite p <;> simp [hlk, h, entry]

theorem allRead_iff (codes : List Int) : (acceptedReads o (attrPolicy o) (codes.map fun c => ({ code := c } : PProp))).length = codes.length ↔ s.allRead ip k codes = true := by
  have : codes.length = (codes.map fun c => ({ code := c } : PProp)).length := by simp
  rw [this]
  unfold acceptedReads Store.allRead
  rw [all_accepted_iff, List.forall_mem_map, List.all_eq_true]
  apply forall₂_congr
  intro c _
  rw [hs c]
  simp only [attrPolicy, isReadable]
  cases lookup o.props c <;> simp [entry]

theorem allWritten_iff (items : List (Int × Bytes)) : (acceptedWrites o (attrPolicy o) (itemProps items)).length = items.length ↔ s.allWritten ip k items = true := by
  have : items.length = (itemProps items).length := by simp [itemProps]
  rw [this]
  unfold acceptedWrites Store.allWritten
  rw [all_accepted_iff]
  unfold itemProps
  rw [List.forall_mem_map, List.all_eq_true]
  apply forall₂_congr
  intro i _
  rw [hs i.1]
  simp only [attrPolicy, isWritable]
  cases lookup o.props i.1 <;> simp [entry]

theorem puts_eq (items : List (Int × Bytes)) (c : Int) :
    s.puts ip k items ip k c = (lookup (afterWrites o (acceptedWrites o (attrPolicy o) (itemProps items))).props c).map entry := by
  rw [lookup_afterWrites_attr, foldl_put, if_pos ⟨rfl, rfl⟩, hs c]
  cases lookup o.props c with
  | none => rfl
  | some p =>
    simp only [Option.map_some, entry, decide_eq_true_eq, Option.some.injEq]
    by_cases h : CanWrite p
    · simp only [if_pos h]
      rfl
    · simp only [if_neg h]

end

/-- What the object asked makes of a request, in terms of the store. -/
theorem obj_answers (env : Env) (s : Store) (r : Req) (o : Obj) (hw : WellFormed o) (hh : o.handler = .self_) (hq : ∀ m, Quiet env o m)
    (hs : ∀ c, s r.ip r.obj c = (lookup o.props c).map entry) (hk : s.Knows r) :
    ∃ o', skeleton o' = skeleton o ∧ (∀ c, (s.after r) r.ip r.obj c = (lookup o'.props c).map entry) ∧
      ∀ (t : Int) (ca : Addr), 
        let req : Msg := { tid := t, seoj := 0x0EF001, deoj := r.obj, esv := r.message.esv, props := r.message.props
                           setProps := r.message.setProps, getProps := r.message.getProps, fromAddr := some ca }
        (o.messageReceived env req).obj = o' ∧ (o.messageReceived env req).result = .ok (some { s.answer r with tid := t }) := by
  cases r with
  | read ip k codes =>
    refine ⟨o, rfl, hs, ?_⟩
    intro t ca req
    rw [messageReceived_quiet env o req (hq _), handle_read env (attrPolicy o) o req (follows_default env o hw hh) rfl]
    refine ⟨rfl, ?_⟩
    have hp : req.props.map (readResp o (attrPolicy o)) = s.got ip k codes := got_eq hs codes
    have hn : (acceptedReads o (attrPolicy o) req.props).length = codes.length ↔ s.allRead ip k codes = true := allRead_iff hs codes
    have hall : req.opc + req.opcSet + req.opcGet = codes.length := by
      show (codes.map fun c => ({ code := c } : PProp)).length + 0 + 0 = _
      simp
    rw [hp]
    show Except.ok (Obj.respond req _ _) = _
    unfold Obj.respond
    rw [hall]
    rw [if_neg (show ¬ req.esv = ESV.WRITE_REQUEST from by show ¬ (0x62 : Int) = 0x60; decide),
      if_neg (show ¬ req.esv = ESV.WRITE_REQUEST_RESPONSE_REQUIRED from by show ¬ (0x62 : Int) = 0x61; decide),
      if_pos (show req.esv = ESV.READ_REQUEST from rfl)]
    simp only [hn, Store.answer]
    split <;> rfl
  | write ip k items =>
    refine ⟨afterWrites o (acceptedWrites o (attrPolicy o) (itemProps items)), skeleton_afterWrites _ _, puts_eq hs items, ?_⟩
    intro t ca req
    rw [messageReceived_quiet env o req (hq _), handle_plain_write env (attrPolicy o) o req hw.1 (follows_default env o hw hh) (Or.inr rfl)]
    refine ⟨rfl, ?_⟩
    have hp : req.props.map (writeResp o (attrPolicy o)) = s.refused ip k items := refused_eq hs items
    have hn : (acceptedWrites o (attrPolicy o) req.props).length = items.length ↔ s.allWritten ip k items = true := allWritten_iff hs items
    have hall : req.opc + req.opcSet + req.opcGet = items.length := by
      show (itemProps items).length + 0 + 0 = _
      simp [itemProps]
    rw [hp]
    show Except.ok (Obj.respond req _ _) = _
    unfold Obj.respond
    rw [hall]
    rw [if_neg (show ¬ req.esv = ESV.WRITE_REQUEST from by show ¬ (0x61 : Int) = 0x60; decide),
      if_pos (show req.esv = ESV.WRITE_REQUEST_RESPONSE_REQUIRED from rfl)]
    simp only [hn, Store.answer]
    split <;> rfl
  | writeRead ip k items codes =>
    have hsk := skeleton_afterWrites o (acceptedWrites o (attrPolicy o) (itemProps items))
    have hs' := puts_eq hs items
    refine ⟨afterWrites o (acceptedWrites o (attrPolicy o) (itemProps items)), hsk, hs', ?_⟩
    intro t ca req
    have hkn : ∀ i ∈ req.getProps, (lookup o.props i.code).isSome = true := by
      show ∀ i ∈ (codes.map fun c => ({ code := c } : PProp)), _
      rw [List.forall_mem_map]
      intro c hc
      have h1 : (s ip k c).isSome = true := hk c hc
      rw [show s ip k c = _ from hs c] at h1
      simpa using h1
    rw [messageReceived_quiet env o req (hq _), handle_write_read env (attrPolicy o) o req hw.1 (follows_default env o hw hh) rfl hkn]
    refine ⟨rfl, ?_⟩
    have hp : req.setProps.map (writeResp o (attrPolicy o)) = s.refused ip k items := refused_eq hs items
    have hP : attrPolicy (afterWrites o (acceptedWrites o (attrPolicy o) (itemProps items))) = attrPolicy o := attrPolicy_of_skeleton hsk
    have hg : req.getProps.map (readResp (afterWrites o (acceptedWrites o (attrPolicy o) req.setProps)) (attrPolicy o)) = (s.puts ip k items).got ip k codes := by
      have := got_eq hs' codes
      rw [hP] at this
      exact this
    have hn1 : (acceptedWrites o (attrPolicy o) req.setProps).length = items.length ↔ s.allWritten ip k items = true := allWritten_iff hs items
    have hn2 : (acceptedReads (afterWrites o (acceptedWrites o (attrPolicy o) req.setProps)) (attrPolicy o) req.getProps).length = codes.length ↔
        (s.puts ip k items).allRead ip k codes = true := by
      have := allRead_iff hs' codes
      rw [hP] at this
      exact this
    have hsame : (s.puts ip k items).allRead ip k codes = s.allRead ip k codes := by
      unfold Store.allRead
      congr 1
      funext c
      rw [foldl_put, if_pos ⟨rfl, rfl⟩]
      cases s ip k c with
      | none => rfl
      | some e => simp only [Option.map_some, isReadable]; split <;> rfl
    rw [hsame] at hn2
    have hl1 : (acceptedWrites o (attrPolicy o) req.setProps).length ≤ items.length := by
      have : items.length = req.setProps.length := by show _ = (itemProps items).length; simp [itemProps]
      rw [this]
      exact List.length_filter_le _ _
    have hl2 : (acceptedReads (afterWrites o (acceptedWrites o (attrPolicy o) req.setProps)) (attrPolicy o) req.getProps).length ≤ codes.length := by
      have : codes.length = req.getProps.length := by show _ = (codes.map fun c => ({ code := c } : PProp)).length; simp
      rw [this]
      exact List.length_filter_le _ _
    have hall : req.opc + req.opcSet + req.opcGet = items.length + codes.length := by
      show 0 + (itemProps items).length + (codes.map fun c => ({ code := c } : PProp)).length = _
      simp [itemProps]
    rw [hp, hg]
    show Except.ok (Obj.respond req _ _) = _
    generalize (acceptedWrites o (attrPolicy o) req.setProps).length = a at *
    generalize (acceptedReads (afterWrites o (acceptedWrites o (attrPolicy o) req.setProps)) (attrPolicy o) req.getProps).length = b at *
    have hn : a + b = items.length + codes.length ↔ (s.allWritten ip k items && s.allRead ip k codes) = true := by
      rw [Bool.and_eq_true, ← hn1, ← hn2]
      omega
    unfold Obj.respond
    rw [hall]
    rw [if_neg (show ¬ req.esv = ESV.WRITE_REQUEST from by show ¬ (0x6E : Int) = 0x60; decide),
      if_neg (show ¬ req.esv = ESV.WRITE_REQUEST_RESPONSE_REQUIRED from by show ¬ (0x6E : Int) = 0x61; decide),
      if_neg (show ¬ req.esv = ESV.READ_REQUEST from by show ¬ (0x6E : Int) = 0x62; decide),
      if_pos (show req.esv = ESV.WRITE_READ_REQUEST from rfl)]
    simp only [hn, Store.answer]
    split <;> rfl

theorem after_other (s : Store) (r : Req) (ip : String) (k c : Int) (h : ¬ (ip = r.ip ∧ k = r.obj)) : s.after r ip k c = s ip k c := by
  cases r with
  | read => rfl
  | write ip' k' items => exact (foldl_put items s ip' k' ip k c).trans (if_neg h)
  | writeRead ip' k' items codes => exact (foldl_put items s ip' k' ip k c).trans (if_neg h)

/-- One request of a session. -/
theorem session_step {ord : List Int → List Int} (hord : ValidOrder ord) (k : Side) (c : Ctl) (H : Machines) (r : Req)
    (hs : Serves ord k c H r.ip r.obj) (hm : FitsDatagram r.message) (ha : FitsDatagram (H.store.answer r))
    (hl : (H.store.answer r).esv = 0x72 → instanceListOf (H.store.answer r) ≠ .empty) (hkn : H.store.Knows r) :
    ∃ h c1 n1 t, H r.ip = some h ∧
      Exchange ord (k.world h) k.addr h.addr (.str r.ip) c h.node r.message c1 n1 { H.store.answer r with tid := t, fromAddr := some (r.ip, 3610) } ∧
      (H.put r.ip n1).store = H.store.after r ∧
      ∀ ip obj, Serves ord k c H ip obj → Serves ord k c1 (H.put r.ip n1) ip obj := by
  obtain ⟨⟨h, h1, h2, h3, h4, o, h5, h6, h7, h8⟩, hcode, hf⟩ := hs
  obtain ⟨o', a1, a2, a3⟩ := obj_answers h.env H.store r o h6 h7 h8 (fun c => (store_host h1 _ c).trans (entryOf_obj h5 c)) hkn
  have hobj : r.message.deoj = r.obj := by cases r <;> rfl
  have htid : r.message.tid = 0 := by cases r <;> rfl
  have hsv : AnswerEsv (H.store.answer r).esv := by
    unfold AnswerEsv
    cases r <;> (unfold Store.answer; simp only []; split <;> decide)
  have hso : (H.store.answer r).seoj = r.message.deoj ∧ (H.store.answer r).deoj = 0x0EF001 := by cases r <;> exact ⟨rfl, rfl⟩
  have hsec : OwnSections (H.store.answer r) := by
    unfold OwnSections
    cases r <;> (unfold Store.answer; simp only []; split <;> simp)
  have hno : (H.store.answer r).fromAddr = none ∧ (H.store.answer r).toAddr = none := by cases r <;> exact ⟨rfl, rfl⟩
  have hfa : Found c (h.addr).1 := by rw [h2]; exact hf
  have hwire : ∀ t, 1 ≤ t ∧ t ≤ 65535 → onWire (stamped r.message t) = { tid := t, seoj := 0x0EF001, deoj := r.obj, esv := r.message.esv, props := r.message.props
                                                                         setProps := r.message.setProps, getProps := r.message.getProps } := by
    intro t ht
    have e1 : t % 2 ^ 16 = t := by omega
    have e2 : r.obj % 2 ^ 24 = r.obj := Int.emod_eq_of_lt hcode.1 hcode.2
    unfold onWire stamped
    simp only [hobj, e1, e2]
    cases r <;> rfl
  obtain ⟨c1, n1, t, b1, -, b3, b4, b5⟩ := exchange_any hord h3 (k.world h) h4 k.addr h.addr (.str r.ip) (by rw [h2]; rfl) r.message hm (by rw [htid]; decide)
    (by rw [hobj]; exact hcode) o (by rw [hobj]; exact h5) o' (H.store.answer r) hsv hso hsec hno
    (by
      intro t ht
      rw [hwire t ht]
      exact a3 t k.addr) ha ⟨hl, fun _ => hfa⟩
  rw [h2] at b1
  rw [hobj] at b5
  refine ⟨h, c1, n1, t, h1, by rw [h2]; exact b1, ?_, ?_⟩
  · funext ip kk cc
    by_cases e : ip = r.ip
    · subst e
      have hp : (H.put r.ip n1) r.ip = some { h with node := n1 } := by unfold Machines.put; rw [if_pos rfl, h1]; rfl
      rw [store_host hp]
      by_cases e2 : kk = r.obj
      · subst e2
        rw [entryOf_obj (show n1.getObject (.int r.obj) = some o' by rw [b5, if_pos rfl])]
        exact (a2 cc).symm
      · have : entryOf n1 kk cc = entryOf h.node kk cc := by
          unfold entryOf
          rw [b5, if_neg e2]
        show entryOf n1 kk cc = _
        rw [this, ← store_host h1, after_other _ _ _ _ _ (fun h => e2 h.2)]
    · have : (H.put r.ip n1).store ip kk cc = H.store ip kk cc := by
        unfold Machines.store Machines.put
        rw [if_neg e]
      rw [this, after_other _ _ _ _ _ (fun h => e h.1)]
  · intro ip obj ⟨⟨g, g1, g2, g3, g4, u, g5, g6, g7, g8⟩, gcode, gf⟩
    refine ⟨?_, gcode, b4 ip gf⟩
    by_cases e : ip = r.ip
    · subst e
      rw [h1] at g1
      obtain rfl := Option.some.inj g1
      refine ⟨{ h with node := n1 }, by unfold Machines.put; rw [if_pos rfl, h1]; rfl, g2, b3, g4, ?_⟩
      by_cases e2 : obj = r.obj
      · subst e2
        refine ⟨o', by show n1.getObject _ = _; rw [b5, if_pos rfl], wf_of_skeleton a1 h6, (handler_of_skeleton a1).trans h7, ?_⟩
        intro m x hx
        have hobs : o'.observers = o.observers := by
          have := congrArg Obj.observers a1
          exact this
        rw [hobs] at hx
        exact h8 m x hx
      · exact ⟨u, by show n1.getObject _ = _; rw [b5, if_neg e2]; exact g5, g6, g7, g8⟩
    · exact ⟨g, by unfold Machines.put; rw [if_neg e]; exact g1, g2, ⟨b3.ctl, b3.ctlSends, g3.dev, g3.device, g3.devSends⟩, g4, u, g5, g6, g7, g8⟩

/-- The outcome of a session is determined. -/
theorem session_unique {ord : List Int → List Int} {k : Side} {c : Ctl} {H : Machines} {rs : List Req} {c1 : Ctl} {H1 : Machines} {ms1 : List Msg}
    (h1 : Session ord k c H rs c1 H1 ms1) : ∀ {c2 : Ctl} {H2 : Machines} {ms2 : List Msg}, Session ord k c H rs c2 H2 ms2 → c1 = c2 ∧ H1 = H2 ∧ ms1 = ms2 := by
  induction h1 with
  | nil => intro c2 H2 ms2 h2; cases h2; exact ⟨rfl, rfl, rfl⟩
  | cons h hh hx ht ih =>
    intro c2 H2 ms2 h2
    cases h2 with
    | cons g gh gx gt =>
      rw [hh] at gh
      obtain rfl := Option.some.inj gh
      obtain ⟨rfl, rfl, rfl⟩ := exchange_unique hx gx
      obtain ⟨rfl, rfl, rfl⟩ := ih gt
      exact ⟨rfl, rfl, rfl⟩

/-- Only the objects asked matter. -/
theorem agree (rs : List Req) : ∀ (s s' : Store), (∀ r ∈ rs, ∀ c, s r.ip r.obj c = s' r.ip r.obj c) →
    s.answers rs = s'.answers rs ∧ (s.Fits rs ↔ s'.Fits rs) := by
  induction rs with
  | nil => intro s s' _; exact ⟨rfl, Iff.rfl⟩
  | cons r rs ih =>
    intro s s' h
    have h0 := h r List.mem_cons_self
    have ha : ∀ c, (s.after r) r.ip r.obj c = (s'.after r) r.ip r.obj c := by
      intro c
      cases r with
      | read => exact h0 c
      | write ip k items =>
        show s.puts ip k items ip k c = s'.puts ip k items ip k c
        rw [foldl_put, foldl_put, show s ip k c = s' ip k c from h0 c]
      | writeRead ip k items codes =>
        show s.puts ip k items ip k c = s'.puts ip k items ip k c
        rw [foldl_put, foldl_put, show s ip k c = s' ip k c from h0 c]
    have e2 : s.answer r = s'.answer r := by
      cases r with
      | read ip k codes =>
        have h0 : ∀ c, s ip k c = s' ip k c := h0
        unfold Store.answer Store.allRead Store.got
        simp only [h0]
      | write ip k items =>
        have h0 : ∀ c, s ip k c = s' ip k c := h0
        unfold Store.answer Store.allWritten Store.refused
        simp only [h0]
      | writeRead ip k items codes =>
        have h0 : ∀ c, s ip k c = s' ip k c := h0
        have ha : ∀ c, s.puts ip k items ip k c = s'.puts ip k items ip k c := ha
        unfold Store.answer Store.allWritten Store.refused Store.allRead Store.got
        simp only [h0, ha]
    have e3 : s.Knows r ↔ s'.Knows r := by
      cases r with
      | read => exact Iff.rfl
      | write => exact Iff.rfl
      | writeRead ip k items codes =>
        have h0 : ∀ c, s ip k c = s' ip k c := h0
        unfold Store.Knows
        simp only [h0]
    obtain ⟨i1, i2⟩ := ih (s.after r) (s'.after r) (by
      intro x hx c
      have hx := h x (List.mem_cons_of_mem _ hx) c
      by_cases e : x.ip = r.ip ∧ x.obj = r.obj
      · rw [e.1, e.2]
        exact ha c
      · rw [after_other _ _ _ _ _ e, after_other _ _ _ _ _ e, hx])
    constructor
    · show _ :: _ = _ :: _
      rw [e2, i1]
    · unfold Store.Fits
      rw [e2, e3, i2]

end Uecho
