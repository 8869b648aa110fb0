/- C160: one reads what one wrote. -/
import Verif.Lemmas.Kept
import Verif.Props.Done

namespace Uecho
open Spec

theorem kept_fit {ord : List Int → List Int} (hord : ValidOrder ord) (env : Env) (hc : CodeStable env) (cenv : CEnv) (hcalm : Calm cenv) (net : Net) (hs : NetWorks net)
    (N : RealNet) (h : NetFit ord env N) (es : List Incident) (hf : ∀ e ∈ es, e.Fair) (hmay : N.May (nodeUse env net) (ctlUse ord env cenv net) sentBy sentByCtl es)
    (x : String) (o c : Int) (v : Bytes) (P : Option Bytes → Prop) (hP : P (some v)) (h0 : NetKeeps (Agreed x o c v) (KeptD x o c P) (fun _ C => Short C.dev) (homeOf N))
    (hsays : ∀ e ∈ es, ∀ dst m, e.says = some (dst, m) → dst = none ∨ dst = some x ∨ dst = some "224.0.23.0" → OnlyGives o c v m)
    (hstores : ∀ e ∈ es, ∀ b, e.stores = some (x, o, c, b) → b = v) :
    NetKeeps (Agreed x o c v) (KeptD x o c P) (fun _ C => Short C.dev) (homeOf (N.run (nodeUse env net) (ctlUse ord env cenv net) es).1) := by
  obtain ⟨k1, -, k3⟩ := home_run hord hc hcalm net hs es N h hf
  rw [k1]
  exact keeps_run (kept_keeps (freshData ord) x o c v P hP) es (homeOf N) h0 (fun e he => kept_fine hP (hf e he) (hsays e he) (hstores e he)) (k3.mp hmay)

theorem kept_start {ord : List Int → List Int} {env : Env} {N : RealNet} (h : NetFit ord env N) {x : String} {o c : Int} {v : Bytes} {P : Option Bytes → Prop} (hx : DeviceOnly N x)
    (hv : ∀ r, N.devices x = some r → P ((nodeEntry r.st o c).map Entry.data)) (hbefore : ∀ m, N.Said sentBy sentByCtl x m ∨ N.Said sentBy sentByCtl "224.0.23.0" m → OnlyGives o c v m) :
    NetKeeps (Agreed x o c v) (KeptD x o c P) (fun _ C => Short C.dev) (homeOf N) := by
  refine home_netKeeps ?_ ?_ ?_
  · rintro dst m hm (hd | hd)
    · rw [hd] at hm; exact hbefore m (.inl hm)
    · rw [hd] at hm; exact hbefore m (.inr hm)
  · intro ip r hr
    refine ⟨plain_short (h.dev ip r hr).plain, fun hip => ?_⟩
    rw [hip] at hr
    exact ⟨hx.2 r hr, by rw [← nodeEntry_eq]; exact hv r hr⟩
  · intro ip r hr
    exact plain_short (h.ctl ip r hr).fit.plain

/-- C160. A value stays: a property of a device, in a closed network, keeps its data as long as all messages that write it, and all calls of its own program that store data in it, give it the same
again, whatever else happens. -/
theorem C160_kept {ord : List Int → List Int} (hord : ValidOrder ord) (env : Env) (hc : CodeStable env) (cenv : CEnv) (hcalm : Calm cenv) (net : Net) (hs : NetWorks net)
    (N : RealNet) (h : Built ord env N) (es : List Incident) (hf : ∀ e ∈ es, e.Fair) (hmay : N.May (nodeUse env net) (ctlUse ord env cenv net) sentBy sentByCtl es)
    (x : String) (hx : DeviceOnly N x) (o c : Int) (v : Bytes) (hv : ∀ r, N.devices x = some r → (nodeEntry r.st o c).map Entry.data = some v)
    (hbefore : ∀ m, N.Said sentBy sentByCtl x m ∨ N.Said sentBy sentByCtl "224.0.23.0" m → OnlyGives o c v m)
    (hsays : ∀ e ∈ es, ∀ dst m, e.says = some (dst, m) → dst = none ∨ dst = some x ∨ dst = some "224.0.23.0" → OnlyGives o c v m)
    (hstores : ∀ e ∈ es, ∀ b, e.stores = some (x, o, c, b) → b = v) :
    ∀ r, (N.run (nodeUse env net) (ctlUse ord env cenv net) es).1.devices x = some r → (nodeEntry r.st o c).map Entry.data = some v := by
  intro r hr
  have := kept_fit hord env hc cenv hcalm net hs N (built_fit hord h) es hf hmay x o c v (· = some v) rfl (kept_start (built_fit hord h) hx hv hbefore) hsays hstores
  have := ((this.dev x (runOf r) (by show ((N.run (nodeUse env net) (ctlUse ord env cenv net) es).1.devices x).map runOf = _; rw [hr]; rfl)).1.2 rfl).2
  rw [nodeEntry_eq]; exact this

/-- C160, for other readers, where all agree about the property. As `C160_own_writes_partial`, but the answer is one the controller at `ip'` is given: what it reads after the other's write was confirmed
is what the other wrote. -/
theorem C160_others_partial {ord : List Int → List Int} (hord : ValidOrder ord) (env : Env) (hc : CodeStable env) (cenv : CEnv) (hcalm : Calm cenv) (net : Net) (hs : NetWorks net)
    (N : RealNet) (h : Built ord env N) (hno : N.devices "224.0.23.0" = none ∧ N.controllers "224.0.23.0" = none) (ip ip' : String) (t t' : Int)
    (hquiet : ∀ dst m, dst = ip ∨ dst = "224.0.23.0" → N.Said sentBy sentByCtl dst m → Confirms m → m.tid ≠ t) (hnew : ∀ r m, N.controllers ip = some r → r.st.last.response = some m → Confirms m → m.tid ≠ t)
    (x : String) (hx : DeviceOnly N x) (o c : Int) (v : Bytes)
    (es es' : List Incident) (hf : ∀ e ∈ es ++ es', e.Fair) (hmay : N.May (nodeUse env net) (ctlUse ord env cenv net) sentBy sentByCtl (es ++ es'))
    (hbefore : ∀ m, N.Said sentBy sentByCtl x m ∨ N.Said sentBy sentByCtl "224.0.23.0" m → OnlyGives o c v m)
    (hsays : ∀ e ∈ es ++ es', ∀ dst m, e.says = some (dst, m) → dst = none ∨ dst = some x ∨ dst = some "224.0.23.0" → OnlyGives o c v m)
    (hstores : ∀ e ∈ es ++ es', ∀ b, e.stores = some (x, o, c, b) → b = v)
    (hh : ∀ e ∈ es, ∀ dst m, e.says = some (dst, m) → ¬ Confirms m)
    (q : Msg) (hq : Sets o c v q)
    (honly : ∀ k dst b w, (N.run (nodeUse env net) (ctlUse ord env cenv net) (es.take k)).1.Carried sentBy sentByCtl ip dst b → readMsg (b.take 1024) = some w → w.tid = t ∨ w.tid = 0 → w = q)
    (hconf : ∃ r m a, (N.run (nodeUse env net) (ctlUse ord env cenv net) es).1.controllers ip = some r ∧ r.st.last.response = some m ∧ Confirms m ∧ m.tid = t ∧ m.fromAddr = some a ∧ a.1 = x)
    (hquiet' : ∀ dst m, dst = ip' ∨ dst = "224.0.23.0" → (N.run (nodeUse env net) (ctlUse ord env cenv net) es).1.Said sentBy sentByCtl dst m → Tells m → m.tid ≠ t')
    (hnew' : ∀ r m, (N.run (nodeUse env net) (ctlUse ord env cenv net) es).1.controllers ip' = some r → r.st.last.response = some m → Tells m → m.tid ≠ t')
    (hh' : RefNet.Honestly (freshData ord) (homeOf (N.run (nodeUse env net) (ctlUse ord env cenv net) es).1) es') :
    ∀ r m a, (N.run (nodeUse env net) (ctlUse ord env cenv net) (es ++ es')).1.controllers ip' = some r → r.st.last.response = some m → Tells m → m.tid = t' → m.fromAddr = some a → a.1 = x → m.seoj = o →
      ∀ i ∈ m.props, i.code = c → i.data = v := by
  intro r m a hr hm ht htid ha hax hso i hi hic
  have hfit := built_fit hord h
  have hf1 : ∀ e ∈ es, e.Fair := fun e he => hf e (List.mem_append_left _ he)
  have hf2 : ∀ e ∈ es', e.Fair := fun e he => hf e (List.mem_append_right _ he)
  obtain ⟨hmay1, hmay2⟩ := may_append _ _ _ _ es es' N hmay
  -- the write was done at some moment
  obtain ⟨r1, m1, a1, c1, c2, c3, c4, c5, c6⟩ := hconf
  obtain ⟨a2, k, d1, d2⟩ := C159_request_partial hord env hc cenv hcalm net hs N h hno ip t hquiet hnew es hf1 hmay1 hh q honly r1 m1 c1 c2 c3 c4
  rw [c5] at d1
  injection d1 with d1
  rw [← d1, c6] at d2
  have hfitk : NetFit ord env (N.run (nodeUse env net) (ctlUse ord env cenv net) (es.take k)).1 := fit_run hord hc hcalm net hs _ N hfit fun e he => hf1 e (List.mem_of_mem_take he)
  have hmayk := hmay
  rw [← List.take_append_drop k es, List.append_assoc] at hmayk
  obtain ⟨hm1, hm2⟩ := may_append _ _ _ _ (es.take k) (es.drop k ++ es') N hmayk
  have hk := kept_fit hord env hc cenv hcalm net hs N hfit (es.take k) (fun e he => hf1 e (List.mem_of_mem_take he)) hm1 x o c v (fun _ => True) trivial
    (kept_start hfit hx (fun _ _ => trivial) hbefore) (fun e he => hsays e (List.mem_append_left _ (List.mem_of_mem_take he))) (fun e he => hstores e (List.mem_append_left _ (List.mem_of_mem_take he)))
  -- it stays
  have hk' : NetKeeps (Agreed x o c v) (KeptD x o c (· = some v)) (fun _ C => Short C.dev) (homeOf (N.run (nodeUse env net) (ctlUse ord env cenv net) (es.take k)).1) := by
    refine ⟨fun y R hR => ⟨⟨(hk.dev y R hR).1.1, fun hip => ⟨((hk.dev y R hR).1.2 hip).1, ?_⟩⟩, (hk.dev y R hR).2⟩, hk.ctl⟩
    obtain ⟨r', hr', rfl⟩ := home_devices hR
    rw [hip] at hr'
    obtain ⟨n, hn, hdid, -⟩ := d2
    have hn : r'.st = n := by
      rcases hn with ⟨q', e1, e2⟩ | ⟨q', e1, -⟩
      · rw [hr'] at e1; injection e1 with e1; rw [e1]; exact e2
      · rw [home_no_controller _ _ x _ N hx.1] at e1; cases e1
    have : ∃ e, nodeEntry r'.st o c = some e ∧ e.data = v := by
      rw [hn, ← hq.1]
      rcases hdid.does with ⟨e1, -, -, e2⟩ | ⟨e1, -, -, -, e2, -⟩
      · rcases hq.2 with ⟨-, e3⟩ | ⟨e3, -⟩
        · exact e2 c v e3
        · rw [e1] at e3; exact absurd e3 (by decide)
      · rcases hq.2 with ⟨e3, -⟩ | ⟨-, e3⟩
        · rw [e1] at e3; exact absurd e3 (by decide)
        · exact e2 c v e3
    obtain ⟨e, e1, e2⟩ := this
    show ((deviceOf r'.st).entry o c).map Entry.data = some v
    rw [← nodeEntry_eq, e1, ← e2]; rfl
  have hstay : ∀ j, NetKeeps (Agreed x o c v) (KeptD x o c (· = some v)) (fun _ C => Short C.dev)
      (homeOf ((N.run (nodeUse env net) (ctlUse ord env cenv net) es).1.run (nodeUse env net) (ctlUse ord env cenv net) (es'.take j)).1) := by
    intro j
    have hmem : ∀ e ∈ es.drop k ++ es'.take j, e ∈ es ++ es' := by
      intro e he
      rcases List.mem_append.mp he with he | he
      · exact List.mem_append_left _ (List.mem_of_mem_drop he)
      · exact List.mem_append_right _ (List.mem_of_mem_take he)
    have hmj : (N.run (nodeUse env net) (ctlUse ord env cenv net) (es.take k)).1.May (nodeUse env net) (ctlUse ord env cenv net) sentBy sentByCtl (es.drop k ++ es'.take j) := by
      rw [← List.take_append_drop j es', ← List.append_assoc] at hm2
      exact (may_append _ _ _ _ _ _ _ hm2).1
    have := kept_fit hord env hc cenv hcalm net hs _ hfitk (es.drop k ++ es'.take j) (fun e he => hf e (hmem e he)) hmj x o c v (· = some v) rfl hk' (fun e he => hsays e (hmem e he)) fun e he => hstores e (hmem e he)
    rw [← home_run_append, ← List.append_assoc, List.take_append_drop, home_run_append] at this
    exact this
  have hctl : ∀ j, ((N.run (nodeUse env net) (ctlUse ord env cenv net) es).1.run (nodeUse env net) (ctlUse ord env cenv net) (es'.take j)).1.controllers x = none := by
    intro j
    exact home_no_controller _ _ x _ _ (home_no_controller _ _ x _ N hx.1)
  have hx' : DeviceOnly (N.run (nodeUse env net) (ctlUse ord env cenv net) es).1 x := by
    refine ⟨hctl 0, fun r hr => ?_⟩
    exact (((hstay 0).dev x (runOf r) (by show ((N.run (nodeUse env net) (ctlUse ord env cenv net) es).1.devices x).map runOf = _; rw [hr]; rfl)).1.2 rfl).1
  rw [home_run_append] at hr
  obtain ⟨a', e1, e2⟩ := fresh_fit hord env hc cenv hcalm net hs _ (fit_run hord hc hcalm net hs es N hfit hf1) (home_no_controller _ _ _ _ N hno.2) ip' t' hquiet' hnew' es' hf2 hmay2 hh' r m hr hm ht htid
  rw [ha] at e1
  injection e1 with e1
  rw [← e1, hax] at e2
  obtain ⟨j, e3⟩ := (e2 i hi).2 hx'
  rcases e3 with ⟨r', e, g1, g2, g3⟩ | ⟨r', e, g1, -⟩
  · have := (((hstay j).dev x (runOf r') (by
      show (((N.run (nodeUse env net) (ctlUse ord env cenv net) es).1.run (nodeUse env net) (ctlUse ord env cenv net) (es'.take j)).1.devices x).map runOf = _; rw [g1]; rfl)).1.2 rfl).2
    have this : ((deviceOf r'.st).entry o c).map Entry.data = some v := this
    rw [← nodeEntry_eq, ← hso, ← hic, g2] at this
    injection this with this
    rw [← g3]; exact this
  · rw [hctl j] at g1; cases g1

/-- C160, where all agree about the property. In a closed network a controller sends a request `q` that writes `v` to a property of a device, with a number of its own, and is given the confirmation.
Whatever it reads of the property after that is `v`: each answer, to a question with another number that no answer is under way to, from this object of this device that says something of this property
says `v`. This is so if nobody sends, or has sent, a message that writes something else there, and the device's own program stores nothing else. -/
theorem C160_own_writes_partial {ord : List Int → List Int} (hord : ValidOrder ord) (env : Env) (hc : CodeStable env) (cenv : CEnv) (hcalm : Calm cenv) (net : Net) (hs : NetWorks net)
    (N : RealNet) (h : Built ord env N) (hno : N.devices "224.0.23.0" = none ∧ N.controllers "224.0.23.0" = none) (ip : String) (t t' : Int)
    (hquiet : ∀ dst m, dst = ip ∨ dst = "224.0.23.0" → N.Said sentBy sentByCtl dst m → Confirms m → m.tid ≠ t) (hnew : ∀ r m, N.controllers ip = some r → r.st.last.response = some m → Confirms m → m.tid ≠ t)
    (x : String) (hx : DeviceOnly N x) (o c : Int) (v : Bytes)
    (es es' : List Incident) (hf : ∀ e ∈ es ++ es', e.Fair) (hmay : N.May (nodeUse env net) (ctlUse ord env cenv net) sentBy sentByCtl (es ++ es'))
    (hbefore : ∀ m, N.Said sentBy sentByCtl x m ∨ N.Said sentBy sentByCtl "224.0.23.0" m → OnlyGives o c v m)
    (hsays : ∀ e ∈ es ++ es', ∀ dst m, e.says = some (dst, m) → dst = none ∨ dst = some x ∨ dst = some "224.0.23.0" → OnlyGives o c v m)
    (hstores : ∀ e ∈ es ++ es', ∀ b, e.stores = some (x, o, c, b) → b = v)
    (hh : ∀ e ∈ es, ∀ dst m, e.says = some (dst, m) → ¬ Confirms m)
    (q : Msg) (hq : Sets o c v q)
    (honly : ∀ k dst b w, (N.run (nodeUse env net) (ctlUse ord env cenv net) (es.take k)).1.Carried sentBy sentByCtl ip dst b → readMsg (b.take 1024) = some w → w.tid = t ∨ w.tid = 0 → w = q)
    (hconf : ∃ r m a, (N.run (nodeUse env net) (ctlUse ord env cenv net) es).1.controllers ip = some r ∧ r.st.last.response = some m ∧ Confirms m ∧ m.tid = t ∧ m.fromAddr = some a ∧ a.1 = x)
    (hquiet' : ∀ dst m, dst = ip ∨ dst = "224.0.23.0" → (N.run (nodeUse env net) (ctlUse ord env cenv net) es).1.Said sentBy sentByCtl dst m → Tells m → m.tid ≠ t')
    (hh' : RefNet.Honestly (freshData ord) (homeOf (N.run (nodeUse env net) (ctlUse ord env cenv net) es).1) es') :
    ∀ r m a, (N.run (nodeUse env net) (ctlUse ord env cenv net) (es ++ es')).1.controllers ip = some r → r.st.last.response = some m → Tells m → m.tid = t' → m.fromAddr = some a → a.1 = x → m.seoj = o →
      ∀ i ∈ m.props, i.code = c → i.data = v := by
  refine C160_others_partial hord env hc cenv hcalm net hs N h hno ip ip t t' hquiet hnew x hx o c v es es' hf hmay hbefore hsays hstores hh q hq honly hconf hquiet' ?_ hh'
  obtain ⟨r1, m1, a1, c1, c2, c3, -⟩ := hconf
  intro r m g1 g2 g3
  rw [c1] at g1; injection g1 with g1
  rw [← g1, c2] at g2; injection g2 with g2
  rw [← g2] at g3
  rcases c3 with g | g <;> rcases g3 with g' | g' <;> rw [g] at g' <;> exact absurd g' (by decide)

/-! ### The light is on -/

/-- After the light was switched on (`exLitUp`) the controller searches, finds it, and asks for its state. -/
def exSeesIt : List Incident := [
  .controller "10.0.0.2" .search,
  .device "10.0.0.9" (.arrive ⟨0, [0x10, 0x81, 0, 3, 0x0E, 0xF0, 1, 0x0E, 0xF0, 1, 0x62, 1, 0xD6, 0], ("10.0.0.2", 3610)⟩),
  .controller "10.0.0.2" (.device (.arrive ⟨0, [0x10, 0x81, 0, 3, 0x0E, 0xF0, 1, 0x0E, 0xF0, 1, 0x72, 1, 0xD6, 4, 1, 2, 0x91, 1], ("10.0.0.9", 3610)⟩)),
  .controller "10.0.0.2" (.post { deoj := 0x029101, esv := 0x62, props := [{ code := 0x80 }] } (.str "10.0.0.9")),
  .device "10.0.0.9" (.arrive ⟨0, [0x10, 0x81, 0, 4, 0x0E, 0xF0, 1, 2, 0x91, 1, 0x62, 1, 0x80, 0], ("10.0.0.2", 3610)⟩),
  .controller "10.0.0.2" (.device (.arrive ⟨0, [0x10, 0x81, 0, 4, 2, 0x91, 1, 0x0E, 0xF0, 1, 0x72, 1, 0x80, 1, 0x31], ("10.0.0.9", 3610)⟩))]

theorem exSeesIt_fair : ∀ e ∈ exLitUp ++ exSeesIt, e.Fair := by
  intro e he
  simp only [exLitUp, exSeesIt, List.cons_append, List.nil_append, List.mem_cons, List.not_mem_nil, or_false] at he
  rcases he with rfl | rfl | rfl | rfl | rfl | rfl | rfl | rfl | rfl <;> trivial

theorem exSeesIt_honest (N : RefNet) : RefNet.Honestly (freshData List.dedup) N exSeesIt := by
  refine ⟨?_, ?_, ?_, ?_, ?_, ?_, trivial⟩ <;> intro dst m hm
  · injection hm with hm
    injection hm with _ hm
    intro ht
    rw [← hm] at ht
    exact absurd (show (0x62 : Int) = 0x72 ∨ (0x62 : Int) = 0x73 from ht) (by decide)
  · cases hm
  · cases hm
  · injection hm with hm
    injection hm with _ hm
    intro ht
    rw [← hm] at ht
    exact absurd (show (0x62 : Int) = 0x72 ∨ (0x62 : Int) = 0x73 from ht) (by decide)
  · cases hm
  · cases hm

theorem exSeesIt_agreed : ∀ e ∈ exLitUp ++ exSeesIt, ∀ dst m, e.says = some (dst, m) → OnlyGives 0x029101 0x80 [0x31] m := by
  intro e he dst m hm
  simp only [exLitUp, exSeesIt, List.cons_append, List.nil_append, List.mem_cons, List.not_mem_nil, or_false] at he
  rcases he with rfl | rfl | rfl | rfl | rfl | rfl | rfl | rfl | rfl
  · injection hm with hm
    injection hm with _ hm
    rw [← hm]
    intro _ i hi _
    rcases hi with hi | hi
    · rw [List.mem_singleton.mp hi]
    · cases hi
  · cases hm
  · cases hm
  · injection hm with hm
    injection hm with _ hm
    rw [← hm]
    exact gives_of_not (by decide) (by decide) (by decide)
  · cases hm
  · cases hm
  · injection hm with hm
    injection hm with _ hm
    rw [← hm]
    exact gives_of_not (show (0x62 : Int) ≠ 0x60 by decide) (show (0x62 : Int) ≠ 0x61 by decide) (show (0x62 : Int) ≠ 0x6E by decide)
  · cases hm
  · cases hm

theorem exSeesIt_stores : ∀ e ∈ exLitUp ++ exSeesIt, ∀ b, e.stores ≠ some ("10.0.0.9", 0x029101, 0x80, b) := by
  intro e he b hb
  simp only [exLitUp, exSeesIt, List.cons_append, List.nil_append, List.mem_cons, List.not_mem_nil, or_false] at he
  rcases he with rfl | rfl | rfl | rfl | rfl | rfl | rfl | rfl | rfl <;> cases hb

set_option synthInstance.maxSize 1000 in
theorem exSeesIt_ends : (mayB (freshData List.dedup) (homeOf exHome) (exLitUp ++ exSeesIt) &&
    decide ((((homeOf exHome).run RefRun.use (RefCtlRun.use (freshData List.dedup)) exLitUp).1.controllers "10.0.0.2").map
      (fun R => (R.ctl.answer.map fun m => (m.tid, m.esv, m.fromAddr), R.sent.all fun s => (readMsg (s.bytes.take 1024)).all fun w => !decide (w.tid = 4))) = some (some (2, 0x71, some ("10.0.0.9", 3610)), true)) &&
    decide ((((homeOf exHome).run RefRun.use (RefCtlRun.use (freshData List.dedup)) exLitUp).1.devices "10.0.0.9").map
      (fun R => R.sent.all fun s => (readMsg (s.bytes.take 1024)).all fun w => !decide (w.tid = 4)) = some true) &&
    decide ((((homeOf exHome).run RefRun.use (RefCtlRun.use (freshData List.dedup)) (exLitUp ++ exSeesIt)).1.controllers "10.0.0.2").map
      (fun R => R.ctl.answer.map fun m => (m.tid, m.seoj, m.esv, m.fromAddr, m.props.map fun i => (i.code, i.data))) =
        some (some (4, 0x029101, 0x72, some ("10.0.0.9", 3610), [(0x80, [0x31])])))) = true := by
  decide +kernel

theorem home_no_device {δ κ : Type} (onD : δ → Use → δ × Given) (onC : κ → CtlUse → κ × Given) (ip : String) (es : List Incident) : ∀ N : Home δ κ, N.devices ip = none →
    (N.run onD onC es).1.devices ip = none := by
  induction es with
  | nil => intro N h; exact h
  | cons e es ih =>
    intro N h
    refine ih _ ?_
    cases e with
    | controller x u =>
      cases hd : N.controllers x with
      | none => simp only [Home.step, hd]; exact h
      | some R => simp only [Home.step, hd]; exact h
    | device x u =>
      cases hd : N.devices x with
      | none => simp only [Home.step, hd]; exact h
      | some R =>
        simp only [Home.step, hd]
        split
        · rename_i hx; rw [hx] at h; rw [h] at hd; cases hd
        · exact h

theorem exHome_agrees (v : Bytes) (m : Msg) (h : exHome.Said sentBy sentByCtl "10.0.0.9" m ∨ exHome.Said sentBy sentByCtl "224.0.23.0" m) : OnlyGives 0x029101 0x80 v m := by
  obtain ⟨ip, s, hs, hm⟩ : ∃ ip s, ((∃ r, exHome.devices ip = some r ∧ s ∈ sentBy r) ∨ ∃ r, exHome.controllers ip = some r ∧ s ∈ sentByCtl r) ∧ readMsg (s.bytes.take 1024) = some m := by
    rcases h with ⟨ip, s, h1, -, h2⟩ | ⟨ip, s, h1, -, h2⟩
    · exact ⟨ip, s, h1, h2⟩
    · exact ⟨ip, s, h1, h2⟩
  obtain ⟨-, m', hm', hsearch⟩ := exHome_searches ip s hs
  rw [hm] at hm'
  injection hm' with hm'
  subst hm'
  refine gives_of_not ?_ ?_ ?_ <;> rw [(search_is hsearch).1] <;> decide

theorem exHome_device : DeviceOnly exHome "10.0.0.9" := by
  refine ⟨rfl, fun r h => ?_⟩
  have h : some (⟨exRunning, fun _ => true⟩ : Running LocalNode) = some r := h
  injection h with h
  rw [← h]
  have : exRunning.controller = false := by decide +kernel
  exact this

/-- The hypotheses of `C160_own_writes_partial` and, with one controller, `C160_others_partial`, with `exLitUp_meets`: the light is switched on with number 2 and asked with number 4; it says that it is on. -/
example : DeviceOnly exHome "10.0.0.9" ∧ (∀ e ∈ exLitUp ++ exSeesIt, e.Fair) ∧
    exHome.May (nodeUse exEnv okNet) (ctlUse List.dedup exEnv calmEnv okNet) sentBy sentByCtl (exLitUp ++ exSeesIt) ∧
    (∀ m, exHome.Said sentBy sentByCtl "10.0.0.9" m ∨ exHome.Said sentBy sentByCtl "224.0.23.0" m → OnlyGives 0x029101 0x80 [0x31] m) ∧
    (∀ e ∈ exLitUp ++ exSeesIt, ∀ dst m, e.says = some (dst, m) → OnlyGives 0x029101 0x80 [0x31] m) ∧
    (∀ e ∈ exLitUp ++ exSeesIt, ∀ b, e.stores ≠ some ("10.0.0.9", 0x029101, 0x80, b)) ∧
    Sets 0x029101 0x80 [0x31] { tid := 2, seoj := 0x0EF001, deoj := 0x029101, esv := 0x61, props := [{ code := 0x80, data := [0x31] }] } ∧
    (∃ r m a, (exHome.run (nodeUse exEnv okNet) (ctlUse List.dedup exEnv calmEnv okNet) exLitUp).1.controllers "10.0.0.2" = some r ∧ r.st.last.response = some m ∧ Confirms m ∧ m.tid = 2 ∧
      m.fromAddr = some a ∧ a.1 = "10.0.0.9") ∧
    (∀ dst m, dst = "10.0.0.2" ∨ dst = "224.0.23.0" → (exHome.run (nodeUse exEnv okNet) (ctlUse List.dedup exEnv calmEnv okNet) exLitUp).1.Said sentBy sentByCtl dst m → Tells m → m.tid ≠ 4) ∧
    RefNet.Honestly (freshData List.dedup) (homeOf (exHome.run (nodeUse exEnv okNet) (ctlUse List.dedup exEnv calmEnv okNet) exLitUp).1) exSeesIt ∧
    ((exHome.run (nodeUse exEnv okNet) (ctlUse List.dedup exEnv calmEnv okNet) (exLitUp ++ exSeesIt)).1.controllers "10.0.0.2").map
      (fun r => r.st.last.response.map fun m => (m.tid, m.seoj, m.esv, m.fromAddr, m.props.map fun i => (i.code, i.data))) =
        some (some (4, 0x029101, 0x72, some ("10.0.0.9", 3610), [(0x80, [0x31])])) := by
  have hord : ValidOrder List.dedup := fun l => ⟨l.nodup_dedup, fun _ => List.mem_dedup⟩
  obtain ⟨k1, -, k3⟩ := C150_network hord exEnv exEnv_stable calmEnv calmEnv_calm okNet (fun _ _ _ _ => rfl) exHome exHome_built (exLitUp ++ exSeesIt) exSeesIt_fair
  have k2 := (C150_network hord exEnv exEnv_stable calmEnv calmEnv_calm okNet (fun _ _ _ _ => rfl) exHome exHome_built exLitUp exLitUp_fair).1
  have hall := exSeesIt_ends
  simp only [Bool.and_eq_true, decide_eq_true_eq] at hall
  refine ⟨exHome_device, exSeesIt_fair, k3.mpr (mayB_spec _ _ _ hall.1.1.1), exHome_agrees _, exSeesIt_agreed, exSeesIt_stores, ⟨rfl, .inl ⟨rfl, by decide⟩⟩, ?_, ?_, exSeesIt_honest _, ?_⟩
  · have h2 := hall.1.1.2
    rw [← k2] at h2
    generalize (exHome.run (nodeUse exEnv okNet) (ctlUse List.dedup exEnv calmEnv okNet) exLitUp).1 = M at h2
    obtain ⟨R, j1, j2⟩ := Option.map_eq_some_iff.mp h2
    obtain ⟨r, j3, rfl⟩ := home_controllers j1
    have j4 := congrArg Prod.fst j2
    obtain ⟨m, j5, j6⟩ := Option.map_eq_some_iff.mp j4
    injection j6 with e1 e2
    injection e2 with e2 e3
    exact ⟨r, m, _, j3, j5, .inl e2, e1, e3, rfl⟩
  · rintro dst m - ⟨ip, s, hs, -, hm⟩ -
    have hd := hall.1.2
    have h2 := hall.1.1.2
    rw [← k2] at h2 hd
    have n1 : ip ≠ "10.0.0.9" → (exHome.run (nodeUse exEnv okNet) (ctlUse List.dedup exEnv calmEnv okNet) exLitUp).1.devices ip = none := fun hne =>
      home_no_device _ _ _ _ _ (by show (if ip = "10.0.0.9" then _ else none) = none; rw [if_neg hne])
    have n2 : ip ≠ "10.0.0.2" → (exHome.run (nodeUse exEnv okNet) (ctlUse List.dedup exEnv calmEnv okNet) exLitUp).1.controllers ip = none := fun hne =>
      home_no_controller _ _ _ _ _ (by show (if ip = "10.0.0.2" then _ else none) = none; rw [if_neg hne])
    generalize (exHome.run (nodeUse exEnv okNet) (ctlUse List.dedup exEnv calmEnv okNet) exLitUp).1 = M at h2 hd hs n1 n2
    have key : ∀ l : List Sent, s ∈ l → (l.all fun s => (readMsg (s.bytes.take 1024)).all fun w => !decide (w.tid = 4)) = true → m.tid ≠ 4 := by
      intro l hsl hl h4
      have := List.all_eq_true.mp hl s hsl
      rw [hm] at this
      have this : (!decide (m.tid = 4)) = true := this
      rw [decide_eq_true h4] at this
      cases this
    rcases hs with ⟨r, hr, hs⟩ | ⟨r, hr, hs⟩
    · by_cases hip : ip = "10.0.0.9"
      · rw [hip] at hr
        have hd : ((M.devices "10.0.0.9").map runOf).map _ = some true := hd
        rw [hr] at hd
        injection hd with hd
        exact key _ hs hd
      · rw [n1 hip] at hr; cases hr
    · by_cases hip : ip = "10.0.0.2"
      · rw [hip] at hr
        have h2 : ((M.controllers "10.0.0.2").map ctlRunOf).map _ = _ := h2
        rw [hr] at h2
        injection h2 with h2
        exact key _ hs (congrArg Prod.snd h2)
      · rw [n2 hip] at hr; cases hr
  · have h2 := hall.2
    rw [← k1] at h2
    generalize (exHome.run (nodeUse exEnv okNet) (ctlUse List.dedup exEnv calmEnv okNet) (exLitUp ++ exSeesIt)).1 = M at h2
    have h2 : ((M.controllers "10.0.0.2").map ctlRunOf).map (fun R => R.ctl.answer.map fun m => (m.tid, m.seoj, m.esv, m.fromAddr, m.props.map fun i => (i.code, i.data))) = _ := h2
    rw [Option.map_map] at h2
    exact h2

/-! ### A write that comes twice -/

/-- The controller switches the light off, and is told so; switches it on, and is told so. Then the first datagram arrives once more. The controller looks for the light, and asks it. -/
def exTwice : List Incident := [
  .controller "10.0.0.2" (.post { deoj := 0x029101, esv := 0x61, props := [{ code := 0x80, data := [0x30] }] } (.str "10.0.0.9")),
  .device "10.0.0.9" (.arrive ⟨0, [0x10, 0x81, 0, 2, 0x0E, 0xF0, 1, 2, 0x91, 1, 0x61, 1, 0x80, 1, 0x30], ("10.0.0.2", 3610)⟩),
  .controller "10.0.0.2" (.device (.arrive ⟨0, [0x10, 0x81, 0, 2, 2, 0x91, 1, 0x0E, 0xF0, 1, 0x71, 1, 0x80, 0], ("10.0.0.9", 3610)⟩)),
  .controller "10.0.0.2" (.post { deoj := 0x029101, esv := 0x61, props := [{ code := 0x80, data := [0x31] }] } (.str "10.0.0.9")),
  .device "10.0.0.9" (.arrive ⟨0, [0x10, 0x81, 0, 3, 0x0E, 0xF0, 1, 2, 0x91, 1, 0x61, 1, 0x80, 1, 0x31], ("10.0.0.2", 3610)⟩),
  .controller "10.0.0.2" (.device (.arrive ⟨0, [0x10, 0x81, 0, 3, 2, 0x91, 1, 0x0E, 0xF0, 1, 0x71, 1, 0x80, 0], ("10.0.0.9", 3610)⟩)),
  .device "10.0.0.9" (.arrive ⟨0, [0x10, 0x81, 0, 2, 0x0E, 0xF0, 1, 2, 0x91, 1, 0x61, 1, 0x80, 1, 0x30], ("10.0.0.2", 3610)⟩),
  .controller "10.0.0.2" .search,
  .device "10.0.0.9" (.arrive ⟨0, [0x10, 0x81, 0, 4, 0x0E, 0xF0, 1, 0x0E, 0xF0, 1, 0x62, 1, 0xD6, 0], ("10.0.0.2", 3610)⟩),
  .controller "10.0.0.2" (.device (.arrive ⟨0, [0x10, 0x81, 0, 4, 0x0E, 0xF0, 1, 0x0E, 0xF0, 1, 0x72, 1, 0xD6, 4, 1, 2, 0x91, 1], ("10.0.0.9", 3610)⟩)),
  .controller "10.0.0.2" (.post { deoj := 0x029101, esv := 0x62, props := [{ code := 0x80 }] } (.str "10.0.0.9")),
  .device "10.0.0.9" (.arrive ⟨0, [0x10, 0x81, 0, 5, 0x0E, 0xF0, 1, 2, 0x91, 1, 0x62, 1, 0x80, 0], ("10.0.0.2", 3610)⟩),
  .controller "10.0.0.2" (.device (.arrive ⟨0, [0x10, 0x81, 0, 5, 2, 0x91, 1, 0x0E, 0xF0, 1, 0x72, 1, 0x80, 1, 0x30], ("10.0.0.9", 3610)⟩))]

theorem exTwice_fair : ∀ e ∈ exTwice, e.Fair := by
  intro e he
  simp only [exTwice, List.mem_cons, List.not_mem_nil, or_false] at he
  rcases he with rfl | rfl | rfl | rfl | rfl | rfl | rfl | rfl | rfl | rfl | rfl | rfl | rfl <;> trivial

set_option synthInstance.maxSize 1000 in
theorem exTwice_ends : (mayB (freshData List.dedup) (homeOf exHome) exTwice &&
    decide ((((homeOf exHome).run RefRun.use (RefCtlRun.use (freshData List.dedup)) (exTwice.take 6)).1.controllers "10.0.0.2").map
      (fun R => R.ctl.answer.map fun m => (m.tid, m.seoj, m.esv, m.fromAddr)) = some (some (3, 0x029101, 0x71, some ("10.0.0.9", 3610)))) &&
    decide ((((homeOf exHome).run RefRun.use (RefCtlRun.use (freshData List.dedup)) exTwice).1.controllers "10.0.0.2").map
      (fun R => R.ctl.answer.map fun m => (m.tid, m.seoj, m.esv, m.fromAddr, m.props.map fun i => (i.code, i.data))) =
        some (some (5, 0x029101, 0x72, some ("10.0.0.9", 3610), [(0x80, [0x30])])))) = true := by
  decide +kernel

/-- C160 is false: a node does not notice that it has got a datagram before. In a closed network of one controller and one light, where nobody else writes, the controller waits for the confirmation of
each write; the last said that the light is on; and when it asks it is told that the light is off. -/
theorem C160_repeated_false :
    Built List.dedup exEnv exHome ∧ exHome.May (nodeUse exEnv okNet) (ctlUse List.dedup exEnv calmEnv okNet) sentBy sentByCtl exTwice ∧ (∀ e ∈ exTwice, e.stores = none) ∧
    ((exHome.run (nodeUse exEnv okNet) (ctlUse List.dedup exEnv calmEnv okNet) (exTwice.take 6)).1.controllers "10.0.0.2").map
      (fun r => r.st.last.response.map fun m => (m.tid, m.seoj, m.esv, m.fromAddr)) = some (some (3, 0x029101, 0x71, some ("10.0.0.9", 3610))) ∧
    ((exHome.run (nodeUse exEnv okNet) (ctlUse List.dedup exEnv calmEnv okNet) exTwice).1.controllers "10.0.0.2").map
      (fun r => r.st.last.response.map fun m => (m.tid, m.seoj, m.esv, m.fromAddr, m.props.map fun i => (i.code, i.data))) =
        some (some (5, 0x029101, 0x72, some ("10.0.0.9", 3610), [(0x80, [0x30])])) := by
  have hord : ValidOrder List.dedup := fun l => ⟨l.nodup_dedup, fun _ => List.mem_dedup⟩
  obtain ⟨k1, -, k3⟩ := C150_network hord exEnv exEnv_stable calmEnv calmEnv_calm okNet (fun _ _ _ _ => rfl) exHome exHome_built exTwice exTwice_fair
  have k2 := (C150_network hord exEnv exEnv_stable calmEnv calmEnv_calm okNet (fun _ _ _ _ => rfl) exHome exHome_built (exTwice.take 6) fun e he => exTwice_fair e (List.mem_of_mem_take he)).1
  have hall := exTwice_ends
  simp only [Bool.and_eq_true, decide_eq_true_eq] at hall
  refine ⟨exHome_built, k3.mpr (mayB_spec _ _ _ hall.1.1), ?_, ?_, ?_⟩
  · intro e he
    simp only [exTwice, List.mem_cons, List.not_mem_nil, or_false] at he
    rcases he with rfl | rfl | rfl | rfl | rfl | rfl | rfl | rfl | rfl | rfl | rfl | rfl | rfl <;> rfl
  · have h2 := hall.1.2
    rw [← k2] at h2
    generalize (exHome.run (nodeUse exEnv okNet) (ctlUse List.dedup exEnv calmEnv okNet) (exTwice.take 6)).1 = M at h2
    have h2 : ((M.controllers "10.0.0.2").map ctlRunOf).map (fun R => R.ctl.answer.map fun m => (m.tid, m.seoj, m.esv, m.fromAddr)) = _ := h2
    rw [Option.map_map] at h2
    exact h2
  · have h2 := hall.2
    rw [← k1] at h2
    generalize (exHome.run (nodeUse exEnv okNet) (ctlUse List.dedup exEnv calmEnv okNet) exTwice).1 = M at h2
    have h2 : ((M.controllers "10.0.0.2").map ctlRunOf).map (fun R => R.ctl.answer.map fun m => (m.tid, m.seoj, m.esv, m.fromAddr, m.props.map fun i => (i.code, i.data))) = _ := h2
    rw [Option.map_map] at h2
    exact h2

/-- The hypotheses of `C160_kept`: the light is off, and is switched off again. -/
example : Built List.dedup exEnv exHome ∧ DeviceOnly exHome "10.0.0.9" ∧ (∀ r, exHome.devices "10.0.0.9" = some r → (nodeEntry r.st 0x029101 0x80).map Entry.data = some [0x30]) ∧
    (∀ e ∈ exTwice.take 3, e.Fair) ∧ exHome.May (nodeUse exEnv okNet) (ctlUse List.dedup exEnv calmEnv okNet) sentBy sentByCtl (exTwice.take 3) ∧
    (∀ m, exHome.Said sentBy sentByCtl "10.0.0.9" m ∨ exHome.Said sentBy sentByCtl "224.0.23.0" m → OnlyGives 0x029101 0x80 [0x30] m) ∧
    (∀ e ∈ exTwice.take 3, ∀ dst m, e.says = some (dst, m) → OnlyGives 0x029101 0x80 [0x30] m) ∧ ∀ e ∈ exTwice.take 3, e.stores = none := by
  have hord : ValidOrder List.dedup := fun l => ⟨l.nodup_dedup, fun _ => List.mem_dedup⟩
  obtain ⟨-, -, k3⟩ := C150_network hord exEnv exEnv_stable calmEnv calmEnv_calm okNet (fun _ _ _ _ => rfl) exHome exHome_built exTwice exTwice_fair
  have hall := exTwice_ends
  simp only [Bool.and_eq_true, decide_eq_true_eq] at hall
  have hmay := k3.mpr (mayB_spec _ _ _ hall.1.1)
  rw [← List.take_append_drop 3 exTwice] at hmay
  refine ⟨exHome_built, exHome_device, ?_, fun e he => exTwice_fair e (List.mem_of_mem_take he), (may_append _ _ _ _ _ _ _ hmay).1, exHome_agrees _, ?_, fun e he => C160_repeated_false.2.2.1 e (List.mem_of_mem_take he)⟩
  · intro r h
    have h : some (⟨exRunning, fun _ => true⟩ : Running LocalNode) = some r := h
    injection h with h
    rw [← h]
    have : (nodeEntry exRunning 0x029101 0x80).map Entry.data = some [0x30] := by decide +kernel
    exact this
  · intro e he dst m hm
    simp only [exTwice, List.take_succ_cons, List.take_zero, List.mem_cons, List.not_mem_nil, or_false] at he
    rcases he with rfl | rfl | rfl
    · injection hm with hm
      injection hm with _ hm
      rw [← hm]
      intro _ i hi _
      rcases hi with hi | hi
      · rw [List.mem_singleton.mp hi]
      · cases hi
    · cases hm
    · cases hm

end Uecho
