import Verif.Spec.Hearing
import Verif.Lemmas.Sending

namespace Uecho
open Spec

variable {ord : List Int → List Int} {P : CtlOp → Prop} {cenv : CEnv} {L : Hearing.Listener}

/-- These calls change the node of the controller only, and what they do to it depends on the node only. -/
theorem usable_run (c : Ctl) (op : CtlOp) (h : Usable op) : op.run ord c = { c with ln := (op.run ord { ln := c.ln }).ln } := by
  cases op with
  | receive env cenv net m => exact h.elim
  | post net m d => exact h.elim
  | listen l => exact h.elim
  | unlisten l => exact h.elim
  | add o => rfl
  | enable opt v => rfl
  | update code f => rfl
  | announce net m => rfl
  | send net m d => rfl
  | search net => rfl
  | stop caller =>
    show (c.stop caller).1 = { c with ln := (Ctl.stop { ln := c.ln } caller).1.ln }
    unfold Ctl.stop
    simp only []
    rcases c.ln.stop caller with ⟨n, e | (_ | _)⟩ <;> rfl
  | start net caller =>
    show (c.start net caller).1 = { c with ln := (Ctl.start net { ln := c.ln } caller).1.ln }
    unfold Ctl.start
    simp only []
    rcases c.ln.start net caller with ⟨n, e | (_ | _)⟩
    · rfl
    · rfl
    · simp only []
      unfold Ctl.search Ctl.announceMessage
      simp only []
      rcases n.announceMessage net SearchMessage with ⟨n, m, e | (_ | _)⟩ <;> rfl

theorem usable_frame (ops : List CtlOp) : ∀ c : Ctl, (∀ op ∈ ops, Usable op) → runCtl ord c ops = { c with ln := (runCtl ord { ln := c.ln } ops).ln } := by
  induction ops with
  | nil => intro c _; rfl
  | cons op ops ih =>
    intro c h
    have e : ∀ c, runCtl ord c (op :: ops) = runCtl ord (op.run ord c) ops := fun _ => rfl
    have h' : ∀ op ∈ ops, Usable op := fun op ho => h op (by simp [ho])
    rw [e, e, usable_run c op (h op (by simp)), ih _ h', ih (op.run ord { ln := c.ln }) h']

/-- The controller `b` is `c` with more calls made. -/
def Busy (ord : List Int → List Int) (P : CtlOp → Prop) (c b : Ctl) : Prop := ∃ ops, (∀ op ∈ ops, P op ∧ Usable op) ∧ b = runCtl ord c ops

/-- What does not concern the node may be done before or after. -/
theorem Busy.frame {c b : Ctl} (h : Busy ord P c b) : ∃ n, b = { c with ln := n } ∧ ∀ c' : Ctl, c'.ln = c.ln → Busy ord P c' { c' with ln := n } := by
  obtain ⟨ops, h1, rfl⟩ := h
  have hu : ∀ op ∈ ops, Usable op := fun op ho => (h1 op ho).2
  refine ⟨_, usable_frame ops c hu, fun c' hc => ⟨ops, h1, ?_⟩⟩
  rw [usable_frame ops c' hu, hc]

theorem busy_refl (c : Ctl) : Busy ord P c c := ⟨[], by simp, rfl⟩

theorem notifyLoop_busy (hL : Besides ord P cenv L) (call : Call) (ls : List Nat) : ∀ c b : Ctl, Busy ord P c b →
    Busy ord P (Ctl.notifyLoop cenv call ls c).1 (Hearing.notifyLoop L call ls b).1 ∧
      (Hearing.notifyLoop L call ls b).2 = (Ctl.notifyLoop cenv call ls c).2 ∧ (Ctl.notifyLoop cenv call ls c).1.listeners = c.listeners := by
  induction ls with
  | nil => intro c b h; exact ⟨h, rfl, rfl⟩
  | cons l ls ih =>
    rintro c b h
    obtain ⟨n, hn, hfr⟩ := h.frame
    have h0 := hfr { c with calls := c.calls ++ [(l, c.found, call)] } rfl
    unfold Ctl.notifyLoop Hearing.notifyLoop
    simp only []
    have hcalls : ({ b with calls := b.calls ++ [(l, b.found, call)] } : Ctl) = { c with ln := n, calls := c.calls ++ [(l, c.found, call)] } := by rw [hn]
    rw [hcalls]
    obtain ⟨more, h2, h3⟩ := hL l { c with ln := n, calls := c.calls ++ [(l, c.found, call)] } call
    rw [h3]
    simp only []
    have hb : Busy ord P { c with calls := c.calls ++ [(l, c.found, call)] } (runCtl ord { c with ln := n, calls := c.calls ++ [(l, c.found, call)] } more) := by
      obtain ⟨ops, p1, p2⟩ := h0
      refine ⟨ops ++ more, ?_, ?_⟩
      · intro op ho
        rcases List.mem_append.mp ho with ho | ho
        · exact p1 op ho
        · exact h2 op ho
      · simp only [] at p2
        rw [p2]
        unfold runCtl
        rw [List.foldl_append]
    cases cenv.listen l c.found call with
    | some e => exact ⟨hb, rfl, rfl⟩
    | none => exact ih _ _ hb

theorem notify_busy (hL : Besides ord P cenv L) (call : Call) (c b : Ctl) (h : Busy ord P c b) :
    Busy ord P (c.notify cenv call).1 (Hearing.notify L b call).1 ∧ (Hearing.notify L b call).2 = (c.notify cenv call).2 := by
  have hl : b.listeners = c.listeners := by obtain ⟨n, rfl, -⟩ := h.frame; rfl
  unfold Ctl.notify Hearing.notify
  rw [hl]
  obtain ⟨h1, h2, -⟩ := notifyLoop_busy hL call c.listeners c b h
  exact ⟨h1, h2⟩

theorem addFound_busy (hL : Besides ord P cenv L) (r : Remote) (c b : Ctl) (h : Busy ord P c b) :
    Busy ord P (c.addFoundNode cenv r).1 (Hearing.addFoundNode L b r).1 ∧ (Hearing.addFoundNode L b r).2 = (c.addFoundNode cenv r).2 := by
  have hf : b.found = c.found := by obtain ⟨n, rfl, -⟩ := h.frame; rfl
  unfold Ctl.addFoundNode Hearing.addFoundNode Ctl.notifyNodeUpdated Hearing.notifyNodeUpdated
  rw [hf, ite_self, ite_self]
  obtain ⟨h1, h2⟩ := notify_busy hL (.nodeAdd r) c b h
  generalize c.notify cenv (.nodeAdd r) = x at h1 h2 ⊢
  generalize Hearing.notify L b (.nodeAdd r) = y at h1 h2 ⊢
  rcases x with ⟨x, _ | e⟩ <;> rcases y with ⟨y, _ | e'⟩ <;> simp only [reduceCtorEq] at h2
  · obtain ⟨n, hn, hfr⟩ := h1.frame
    simp only [] at hn
    subst hn
    exact ⟨hfr _ rfl, rfl⟩
  · injection h2 with h2
    subst h2
    exact ⟨h1, rfl⟩

theorem updateLoop_busy (hL : Besides ord P cenv L) (ip : String) (code : Int) (ms : List PProp) : ∀ (c b : Ctl) (r : Remote) (o : Obj) (u : Bool), Busy ord P c b →
    Busy ord P (Ctl.updateLoop cenv ip code ms c r o u).1 (Hearing.updateLoop L ip code ms b r o u).1 ∧
      (Hearing.updateLoop L ip code ms b r o u).2 = (Ctl.updateLoop cenv ip code ms c r o u).2 := by
  induction ms with
  | nil => intro c b r o u h; exact ⟨h, rfl⟩
  | cons mp ms ih =>
    intro c b r o u h
    unfold Ctl.updateLoop Hearing.updateLoop
    cases o.getProperty mp.code with
    | none => exact ih _ _ _ _ _ h
    | some p =>
      simp only []
      by_cases hd : p.data ≠ mp.data
      · rw [if_pos hd, if_pos hd]
        have hb : Busy ord P (c.putRemote ip (r.putObj code (o.storeData mp.code mp.data))) (b.putRemote ip (r.putObj code (o.storeData mp.code mp.data))) := by
          obtain ⟨n, rfl, hfr⟩ := h.frame
          exact hfr _ rfl
        obtain ⟨h1, h2⟩ := notify_busy hL (.propertyUpdated (r.putObj code (o.storeData mp.code mp.data)) (o.storeData mp.code mp.data).code mp.code mp.data) _ _ hb
        generalize Ctl.notify cenv _ _ = x at h1 h2 ⊢
        generalize Hearing.notify L _ _ = y at h1 h2 ⊢
        rcases x with ⟨x, _ | e⟩ <;> rcases y with ⟨y, _ | e'⟩ <;> simp only [reduceCtorEq] at h2
        · exact ih _ _ _ _ _ h1
        · injection h2 with h2
          subst h2
          exact ⟨h1, rfl⟩
      · rw [if_neg hd, if_neg hd]
        exact ih _ _ _ _ _ h

theorem updateProperties_busy (hL : Besides ord P cenv L) (m : Msg) (c b : Ctl) (h : Busy ord P c b) :
    Busy ord P (c.updateProperties cenv m).1 (Hearing.updateProperties L cenv b m).1 ∧
      (Hearing.updateProperties L cenv b m).2 = (c.updateProperties cenv m).2 := by
  have hf : ∀ a, b.getNode cenv a = c.getNode cenv a := by obtain ⟨n, rfl, -⟩ := h.frame; intro a; rfl
  unfold Ctl.updateProperties Hearing.updateProperties
  rw [hf]
  rcases c.getNode cenv _ with e | (_ | r)
  · exact ⟨h, rfl⟩
  · exact ⟨h, rfl⟩
  · simp only []
    cases r.node.getObject (.int m.deoj) with
    | none => exact ⟨h, rfl⟩
    | some o =>
      simp only []
      obtain ⟨h1, h2⟩ := updateLoop_busy hL r.node.ip m.deoj m.props c b r o false h
      generalize Ctl.updateLoop cenv r.node.ip m.deoj m.props c r o false = x at h1 h2 ⊢
      generalize Hearing.updateLoop L r.node.ip m.deoj m.props b r o false = y at h1 h2 ⊢
      rcases x with ⟨x, xr, xe⟩
      rcases y with ⟨y, yr, ye⟩
      simp only [] at h1 h2
      injection h2 with h2 h3
      subst h2 h3
      rcases ye with e | (_ | _)
      · exact ⟨h1, rfl⟩
      · exact ⟨h1, rfl⟩
      · simp only []
        obtain ⟨h1, h2⟩ := notify_busy hL (.objectUpdated yr o.code) x y h1
        generalize Ctl.notify cenv _ _ = x at h1 h2 ⊢
        generalize Hearing.notify L _ _ = y at h1 h2 ⊢
        rcases x with ⟨x, _ | e⟩ <;> rcases y with ⟨y, _ | e'⟩ <;> simp only [reduceCtorEq] at h2
        · simp only []
          unfold Ctl.notifyNodeUpdated Hearing.notifyNodeUpdated
          obtain ⟨h1, h2⟩ := notify_busy hL (.nodeAdd yr) x y h1
          generalize Ctl.notify cenv _ _ = x at h1 h2 ⊢
          generalize Hearing.notify L _ _ = y at h1 h2 ⊢
          rcases x with ⟨x, _ | e⟩ <;> rcases y with ⟨y, _ | e'⟩ <;> simp only [reduceCtorEq] at h2
          · exact ⟨h1, rfl⟩
          · injection h2 with h2
            subst h2
            exact ⟨h1, rfl⟩
        · injection h2 with h2
          subst h2
          exact ⟨h1, rfl⟩

theorem receiveProfile_busy (hL : Besides ord P cenv L) (m : Msg) (c b : Ctl) (h : Busy ord P c b) :
    Busy ord P (c.receiveProfile ord cenv m).1 (Hearing.receiveProfile ord L b m).1 ∧
      (Hearing.receiveProfile ord L b m).2 = (c.receiveProfile ord cenv m).2 := by
  unfold Ctl.receiveProfile Hearing.receiveProfile
  rcases m.isNodeProfileMessage with e | (_ | _)
  · exact ⟨h, rfl⟩
  · exact ⟨h, rfl⟩
  · simp only []
    rcases RemoteNode.new ord m.fromAddr with e | node
    · exact ⟨h, rfl⟩
    · simp only []
      rcases RemoteNode.parseMessage ord node m with ⟨nd, e | (_ | _)⟩
      · exact ⟨h, rfl⟩
      · exact ⟨h, rfl⟩
      · simp only []
        obtain ⟨h1, h2⟩ := addFound_busy hL { node := nd } c b h
        generalize Ctl.addFoundNode cenv c _ = x at h1 h2 ⊢
        generalize Hearing.addFoundNode L b _ = y at h1 h2 ⊢
        rcases x with ⟨x, xe⟩
        rcases y with ⟨y, ye⟩
        simp only [] at h1 h2
        subst h2
        cases ye <;> exact ⟨h1, rfl⟩

theorem receive_busy (hL : Besides ord P cenv L) (env : Env) (net : Net) (m : Msg) (c b : Ctl) (h : Busy ord P c b) (hr : ESV.isRequest m.esv = false) :
    Busy ord P (c.messageReceived ord env cenv net m).1 (Hearing.messageReceived ord env L cenv net b m).1 ∧
      (Hearing.messageReceived ord env L cenv net b m).2 = (c.messageReceived ord env cenv net m).2 := by
  unfold Ctl.messageReceived Hearing.messageReceived
  rw [not_self, not_self]
  simp only [hr, Bool.false_eq_true, if_false]
  by_cases hp : ESV.isResponse m.esv = false
  · rw [if_pos hp, if_pos hp]; exact ⟨h, rfl⟩
  rw [if_neg hp, if_neg hp]
  rcases Msg.copyOf (some m) with e | msg
  · exact ⟨h, rfl⟩
  simp only []
  obtain ⟨h1, h2⟩ := receiveProfile_busy hL msg c b h
  generalize Ctl.receiveProfile ord cenv c msg = x at h1 h2 ⊢
  generalize Hearing.receiveProfile ord L b msg = y at h1 h2 ⊢
  rcases x with ⟨x, xe⟩
  rcases y with ⟨y, ye⟩
  simp only [] at h1 h2
  subst h2
  rcases ye with e | _
  · exact ⟨h1, rfl⟩
  simp only []
  unfold Ctl.receiveProperties Hearing.receiveProperties
  have fin : ∀ x y : Ctl, Busy ord P x y → Busy ord P (x.receiveResponse msg) (y.receiveResponse msg) := by
    intro x y h
    obtain ⟨n, rfl, hfr⟩ := h.frame
    unfold Ctl.receiveResponse
    simp only []
    split
    · split
      · split <;> exact hfr _ rfl
      · exact hfr _ rfl
    · exact hfr _ rfl
  by_cases hu : (ESV.isNotification msg.esv || ESV.isReadResponse msg.esv) = true
  · rw [if_pos hu, if_pos hu]
    obtain ⟨h1, h2⟩ := updateProperties_busy hL msg x y h1
    generalize Ctl.updateProperties cenv x msg = x at h1 h2 ⊢
    generalize Hearing.updateProperties L cenv y msg = y at h1 h2 ⊢
    rcases x with ⟨x, xe⟩
    rcases y with ⟨y, ye⟩
    simp only [] at h1 h2
    subst h2
    rcases ye with e | _
    · exact ⟨h1, rfl⟩
    · exact ⟨fin _ _ h1, rfl⟩
  · rw [if_neg hu, if_neg hu]
    exact ⟨fin _ _ h1, rfl⟩

/-! ### What every call of a listener keeps, is kept by the reception of a response -/

section
variable {I : Ctl → Prop}

theorem notify_keeps (hL : ∀ l c call, I c → I (L l { c with calls := c.calls ++ [(l, c.found, call)] } call).1) (call : Call) (c : Ctl) (h : I c) :
    I (Hearing.notify L c call).1 := by
  have key : ∀ (ls : List Nat) (c : Ctl), I c → I (Hearing.notifyLoop L call ls c).1 := by
    intro ls
    induction ls with
    | nil => intro c h; exact h
    | cons l ls ih =>
      intro c h
      unfold Hearing.notifyLoop
      have := hL l c call h
      rcases hx : L l { c with calls := c.calls ++ [(l, c.found, call)] } call with ⟨c', _ | e⟩
      · rw [hx] at this; exact ih _ this
      · rw [hx] at this; exact this
  exact key _ _ h

theorem receive_keeps (hL : ∀ l c call, I c → I (L l { c with calls := c.calls ++ [(l, c.found, call)] } call).1)
    (hf : ∀ (c : Ctl) f, I c → I { c with found := f }) (hl : ∀ (c : Ctl) p, I c → I { c with last := p })
    (env : Env) (net : Net) (m : Msg) (c : Ctl) (hr : ESV.isRequest m.esv = false) (h : I c) : I (Hearing.messageReceived ord env L cenv net c m).1 := by
  have hprof : ∀ msg (c : Ctl), I c → I (Hearing.receiveProfile ord L c msg).1 := by
    intro msg c h
    unfold Hearing.receiveProfile
    rcases msg.isNodeProfileMessage with e | (_ | _)
    · exact h
    · exact h
    simp only []
    rcases RemoteNode.new ord msg.fromAddr with e | node
    · exact h
    simp only []
    rcases RemoteNode.parseMessage ord node msg with ⟨nd, e | (_ | _)⟩
    · exact h
    · exact h
    simp only []
    unfold Hearing.addFoundNode Hearing.notifyNodeUpdated
    rw [ite_self]
    have := notify_keeps hL (.nodeAdd { node := nd }) c h
    generalize Hearing.notify L c (.nodeAdd { node := nd }) = q at this ⊢
    rcases q with ⟨c', _ | e⟩
    · exact hf _ _ this
    · exact this
  have hloop : ∀ (ip : String) (code : Int) (ms : List PProp) (c : Ctl) (r : Remote) (o : Obj) (u : Bool), I c → I (Hearing.updateLoop L ip code ms c r o u).1 := by
    intro ip code ms
    induction ms with
    | nil => intro c r o u h; exact h
    | cons mp ms ih =>
      intro c r o u h
      unfold Hearing.updateLoop
      cases o.getProperty mp.code with
      | none => exact ih _ _ _ _ h
      | some p =>
        simp only []
        by_cases hd : p.data ≠ mp.data
        · rw [if_pos hd]
          have := notify_keeps hL (.propertyUpdated (r.putObj code (o.storeData mp.code mp.data)) (o.storeData mp.code mp.data).code mp.code mp.data)
            (c.putRemote ip (r.putObj code (o.storeData mp.code mp.data))) (hf _ _ h)
          generalize Hearing.notify L _ _ = x at this ⊢
          rcases x with ⟨x, _ | e⟩
          · exact ih _ _ _ _ this
          · exact this
        · rw [if_neg hd]
          exact ih _ _ _ _ h
  have hupd : ∀ msg (c : Ctl), I c → I (Hearing.updateProperties L cenv c msg).1 := by
    intro msg c h
    unfold Hearing.updateProperties
    rcases c.getNode cenv _ with e | (_ | r)
    · exact h
    · exact h
    simp only []
    cases r.node.getObject (.int msg.deoj) with
    | none => exact h
    | some o =>
      simp only []
      have := hloop r.node.ip msg.deoj msg.props c r o false h
      generalize Hearing.updateLoop L r.node.ip msg.deoj msg.props c r o false = q at this ⊢
      rcases q with ⟨x, xr, e | (_ | _)⟩
      · exact this
      · exact this
      simp only []
      have := notify_keeps hL (.objectUpdated xr o.code) x this
      generalize Hearing.notify L x (.objectUpdated xr o.code) = q at this ⊢
      rcases q with ⟨y, _ | e⟩
      · simp only []
        have := notify_keeps hL (.nodeAdd xr) y this
        unfold Hearing.notifyNodeUpdated
        generalize Hearing.notify L y (.nodeAdd xr) = q at this ⊢
        rcases q with ⟨z, _ | e⟩ <;> exact this
      · exact this
  unfold Hearing.messageReceived
  rw [not_self]
  simp only [hr, Bool.false_eq_true, if_false]
  by_cases hp : ESV.isResponse m.esv = false
  · rw [if_pos hp]; exact h
  rw [if_neg hp]
  rcases Msg.copyOf (some m) with e | msg
  · exact h
  simp only []
  have := hprof msg c h
  generalize Hearing.receiveProfile ord L c msg = q at this ⊢
  rcases q with ⟨x, e | _⟩
  · exact this
  simp only []
  have h2 : I (Hearing.receiveProperties L cenv x msg).1 := by
    unfold Hearing.receiveProperties
    split
    · exact hupd msg x this
    · exact this
  generalize Hearing.receiveProperties L cenv x msg = q at h2 ⊢
  rcases q with ⟨y, e | _⟩
  · exact h2
  · show I (y.receiveResponse msg)
    unfold Ctl.receiveResponse
    split
    · split
      · split
        · exact hl _ _ h2
        · exact h2
      · exact h2
    · exact h2

end

end Uecho
