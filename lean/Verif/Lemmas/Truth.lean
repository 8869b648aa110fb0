import Verif.Spec.Truth
import Verif.Props.Announce
import Verif.Props.Sending

namespace Uecho
open Spec

/-- What a datagram that was sent as a message is read as. -/
theorem decodes_sent {r m : Msg} {a : Addr} (hr : Encodable r) (h : Decodes (encode r) a m) : m = { onWire r with fromAddr := some a } := by
  obtain ⟨w, t, hw, how, hd, rfl⟩ := h
  have e1 := parseBytes_encode {} r [] hr
  have e2 := parseBytes_encode {} w (t ++ (encode r).drop 1024) hw
  rw [absorb_fresh] at e1 e2
  rw [← List.append_assoc, ← hd, List.take_append_drop, ← how] at e2
  rw [List.append_nil, e2] at e1
  injection e1 with e1
  rw [e1]

theorem claimed_wire (r : Msg) (a : Option Addr) : claimed { onWire r with fromAddr := a } = claimed r := by
  have hp : ¬ TwoSections r.esv → ({ onWire r with fromAddr := a } : Msg).props = r.props := by
    intro h
    show (if TwoSections r.esv then [] else r.props) = _
    rw [if_neg h]
  unfold claimed
  show (if r.esv = 0x72 ∨ r.esv = 0x73 then _ else _) = _
  by_cases he : r.esv = 0x72 ∨ r.esv = 0x73
  · have h2 : ¬ TwoSections r.esv := by rcases he with e | e <;> rw [e] <;> decide
    unfold instanceListOf
    rw [if_pos he, if_pos he, hp h2]
  · rw [if_neg he, if_neg he]

theorem claimed_same {r u : Msg} (he : r.esv = u.esv) (hp : r.props = u.props) : claimed r = claimed u := by
  unfold claimed instanceListOf
  rw [he, hp]

/-- A list cut short lists a beginning. -/
theorem listedCodes_take (k : Nat) (l : List Int) (t : Bytes) (h : k ≤ l.length) : listedCodes k (codeBytes l ++ t) = (l.take k).map (· % 2 ^ 24) := by
  have h1 := listedCodes_codeBytes (l.take k) (codeBytes (l.drop k) ++ t)
  rw [List.length_take, Nat.min_eq_left h, ← List.append_assoc] at h1
  rw [← h1]
  congr 2
  unfold codeBytes
  rw [← List.flatMap_append, List.take_append_drop]

/-- Only a read is answered as a read. -/
theorem read_answer (env : Env) (o : Obj) (m r : Msg) (h : (o.messageReceived env m).result = .ok (some r)) (he : r.esv = 0x72) : m.esv = 0x62 := by
  have key : ∀ (res : Msg) (k : Nat), Obj.respond m res k = some r → m.esv = 0x62 := by
    intro res k h
    unfold Obj.respond at h
    simp only [] at h
    repeat' split at h
    all_goals first
      | (cases h; done)
      | assumption
      | (injection h with h
         subst h
         exact absurd he (by simp only []; decide))
  rcases handleRequest_some (recv_some h) with ⟨-, o1, o2, c1, c2, sps, gps, -, -, hr⟩ | ⟨-, o1, c1, ps, -, hr⟩
  · exact key _ _ hr
  · exact key _ _ hr

/-- A node that has told the truth about itself so far. -/
structure Truthful (n : LocalNode) : Prop where
  inv : NodeInv n
  own : OwnProfile n
  range : ∀ k ∈ codesOf n, 0 ≤ k ∧ k < 2 ^ 24
  log : ∀ x ∈ n.mgr.log, ∀ a m, Decodes x.1.bytes a m → ∀ k ∈ claimed m, k ∈ codesOf n

theorem codesOf_keys {n : LocalNode} (h : NodeInv n) : codesOf n = Dict.keys n.node.objects := objs_codes n h.own

/-- What the node profile says is true. -/
theorem profile_claims {n : LocalNode} (h : Truthful n) (env : Env) (m r : Msg) (hs : OwnSections m) (hr : (n.profile.messageReceived env m).result = .ok (some r)) :
    ∀ k ∈ claimed r, k ∈ codesOf n := by
  intro k hk
  unfold claimed at hk
  split at hk
  swap
  · cases hk
  rename_i he
  rcases he with he | he
  swap
  · rw [show instanceListOf r = .notAList by unfold instanceListOf; rw [notification_empty env _ m r hr he]] at hk
    cases hk
  have h62 := read_answer env _ m r hr he
  have hq : Quiet env n.profile m := by
    by_contra hq
    obtain ⟨-, e, h'⟩ := messageReceived_loud env n.profile m hq
    rw [h'] at hr
    cases hr
  obtain ⟨-, r', h1, h2, -⟩ := C15_read env n.profile m h.inv.prof.wf h.inv.prof.handler hq h62 hs
  rw [h1] at hr
  injection hr with hr
  injection hr with hr
  subst hr
  have hd : ∀ c, c = 0xD5 ∨ c = 0xD6 → (lookup n.profile.props c).map OProp.data =
      some (byteOf (instancesOf (n.objs.map Obj.code)).length :: codeBytes (instancesOf (n.objs.map Obj.code))) := by
    rintro c (rfl | rfl)
    · rw [← getPropertyData_eq]; exact h.inv.desc.d5
    · rw [← getPropertyData_eq]; exact h.inv.desc.d6
  unfold instanceListOf at hk
  rw [h2] at hk
  cases hp : m.props with
  | nil => rw [hp] at hk; cases hk
  | cons p ps =>
    rw [hp] at hk
    simp only [List.map_cons] at hk
    by_cases hc : p.code = 0xD5 ∨ p.code = 0xD6
    swap
    · rw [if_neg hc] at hk; cases hk
    rw [if_pos hc] at hk
    obtain ⟨q, hq1, hq2⟩ := Option.map_eq_some_iff.mp (hd p.code hc)
    rw [hq1] at hk
    simp only [] at hk
    by_cases hcr : CanRead q
    swap
    · rw [if_neg hcr] at hk; cases hk
    rw [if_pos hcr, hq2] at hk
    simp only [] at hk
    split at hk
    rotate_left
    · cases hk
    rename_i hx
    split at hx
    · cases hx
    injection hx with hx
    rw [← hx] at hk
    have hb : (byteOf ((instancesOf (n.objs.map Obj.code)).length : Int)).toNat ≤ (instancesOf (n.objs.map Obj.code)).length := by
      have := byteOf_toNat ((instancesOf (n.objs.map Obj.code)).length : Int)
      omega
    have hl := listedCodes_take _ (instancesOf (n.objs.map Obj.code)) [] hb
    rw [List.append_nil] at hl
    rw [hl] at hk
    obtain ⟨j, hj, rfl⟩ := List.mem_map.mp hk
    have hj := List.mem_of_mem_take hj
    unfold instancesOf at hj
    have hj := (List.mem_filter.mp hj).1
    have := h.range j hj
    rw [Int.emod_eq_of_lt this.1 this.2]
    exact hj

/-- Only something that was asked for is told. -/
theorem other_claims {env : Env} {o : Obj} {m r : Msg} (hr : (o.messageReceived env m).result = .ok (some r)) (h : ¬ WantsList m) : claimed r = [] := by
  unfold claimed
  split
  swap
  · rfl
  rename_i he
  rcases he with he | he
  swap
  · rw [show instanceListOf r = .notAList by unfold instanceListOf; rw [notification_empty env _ m r hr he]]
  have h62 := read_answer env _ m r hr he
  obtain ⟨h1, -, -⟩ := (C14_mirror env o m r hr).2 (by rw [h62]; decide)
  unfold instanceListOf
  cases hp : r.props with
  | nil => rfl
  | cons q qs =>
    cases hm : m.props with
    | nil => rw [hp, hm] at h1; cases h1
    | cons p ps =>
      rw [hp, hm] at h1
      injection h1 with h1 _
      simp only []
      rw [if_neg]
      intro hc
      exact h ⟨h62, p, ps, hm, by rw [← h1]; exact hc⟩

theorem sent_claims {x : Sent × Int} {r : Msg} (hr : Encodable r) (hb : x.1.bytes = encode r) {l : List Int} (h : ∀ k ∈ claimed r, k ∈ l) :
    ∀ a m, Decodes x.1.bytes a m → ∀ k ∈ claimed m, k ∈ l := by
  intro a m hd k hk
  rw [hb] at hd
  rw [decodes_sent hr hd, claimed_wire] at hk
  exact h k hk

theorem received_sections (m : Msg) : OwnSections (received m) := by
  unfold OwnSections received onWire TwoSections
  by_cases h : m.esv = 0x6E ∨ m.esv = 0x7E ∨ m.esv = 0x5E <;> simp [h]

/-- An answer on its way claims what it did before. -/
theorem answer_claims (net : Net) (n1 : LocalNode) (req res : Msg) :
    ∃ new, (n1.answer net req (some res)).1.mgr.log = n1.mgr.log ++ new ∧ ∀ x ∈ new, ∀ a m, Decodes x.1.bytes a m → ∀ k ∈ claimed m, k ∈ claimed res := by
  obtain ⟨new, t, h1, -, -, h3, -, h4⟩ := answer_log net n1 req res
  refine ⟨new, h1, ?_⟩
  intro x hx
  have hfit : Encodable res := by
    by_contra hbad
    rw [h4 hbad] at hx
    cases hx
  have hE : Encodable { outgoing n1 res with tid := t } := (outgoing_encodable n1 res).mpr hfit
  refine sent_claims hE (h3 x hx).1 ?_
  intro k hk
  rw [claimed_same (u := res)] at hk
  · exact hk
  · show (outgoing _ res).esv = _
    unfold outgoing; split <;> rfl
  · show (outgoing _ res).props = _
    unfold outgoing; split <;> rfl

/-- What a message makes a node send. -/
theorem receive_claims {n : LocalNode} (h : Truthful n) (env : Env) (net : Net) (m : Msg) (hw : WantsList m → m.deoj % 2 ^ 24 = 0x0EF001) :
    ∃ new, (n.messageReceived env net m).1.mgr.log = n.mgr.log ++ new ∧ ∀ x ∈ new, ∀ a m', Decodes x.1.bytes a m' → ∀ k ∈ claimed m', k ∈ codesOf n := by
  by_cases hm : Encodable m
  swap
  · rw [messageReceived_unfit env net n m hm]; exact ⟨[], by simp, by simp⟩
  rw [messageReceived_eq env net n m hm]
  split
  · exact ⟨[], by simp, by simp⟩
  · rename_i s hs
    simp only []
    split
    · exact ⟨[], by rw [putBack_mgr, List.append_nil], by simp⟩
    · rename_i res hres
      cases res with
      | none =>
        refine ⟨[], ?_, by simp⟩
        show (n.putBack _ s _).mgr.log = _
        rw [putBack_mgr, List.append_nil]
      | some res =>
        obtain ⟨new, h1, h2⟩ := answer_claims net (n.putBack (m.deoj % 2 ^ 24) s ((n.deref s).messageReceived env (received m)).obj) (received m) res
        rw [putBack_mgr] at h1
        refine ⟨new, h1, fun x hx a m' hd k hk => ?_⟩
        have hk := h2 x hx a m' hd k hk
        by_cases hwl : WantsList (received m)
        · have hwl' : WantsList m := by
            obtain ⟨e, p, ps, hp, hc⟩ := hwl
            have e : m.esv = 0x62 := e
            have hp : (if TwoSections m.esv then [] else m.props) = p :: ps := hp
            rw [e, if_neg (by decide)] at hp
            exact ⟨e, p, ps, hp, hc⟩
          have hs' : Dict.get? n.node.objects 0x0EF001 = some s := by rw [← hw hwl']; exact hs
          have hs : s = .profile := Option.some.inj (hs'.symm.trans h.own)
          subst hs
          exact profile_claims h env (received m) res (received_sections m) hres k hk
        · rw [other_claims hres hwl] at hk
          cases hk

theorem truthful_new {ord : List Int → List Int} (hord : ValidOrder ord) (rnd : NodeProfile.Random) (ctl : Bool) : Truthful (LocalNode.new ord rnd ctl).1 := by
  obtain ⟨n, h0, hi, ho, -, -, hm, -⟩ := localNode_new hord rnd ctl
  rw [h0]
  refine ⟨hi, ?_, ?_, ?_⟩
  · show Dict.get? n.node.objects 0x0EF001 = _
    rw [ho]; rfl
  · intro k hk
    rw [codesOf_keys hi, ho] at hk
    have : k = 0x0EF001 := List.mem_singleton.mp hk
    rw [this]; decide
  · show ∀ x ∈ n.mgr.log, _
    rw [hm]
    intro x hx
    cases hx

theorem truthful_step {ord : List Int → List Int} (hord : ValidOrder ord) {n : LocalNode} (h : Truthful n) (hr : 0 ≤ n.mgr.tid ∧ n.mgr.tid ≤ 65535) (op : NodeOp)
    (ha : op.Allowed) (hs : NodeSincere n op) :
    Truthful (op.run ord n) ∧ ∀ k ∈ codesOf n, k ∈ codesOf (op.run ord n) := by
  obtain ⟨i1, i2, -⟩ := run_inv hord n op h.inv ha
  have hgrow : ∀ k ∈ codesOf n, k ∈ codesOf (op.run ord n) := by
    intro k hk
    rw [codesOf_keys h.inv] at hk
    rw [codesOf_keys i1, i2]
    cases op with
    | add o =>
      simp only []
      split
      · exact hk
      · exact List.mem_append_left _ hk
    | _ => exact hk
  have hnew : ∃ new, (op.run ord n).mgr.log = n.mgr.log ++ new ∧ ∀ x ∈ new, ∀ a m, Decodes x.1.bytes a m → ∀ k ∈ claimed m, k ∈ codesOf n := by
    cases op with
    | receive env net m => exact receive_claims h env net m hs
    | announce net u =>
      obtain ⟨new, h1, h2⟩ := announce_causes net n u hr
      refine ⟨new, h1, fun x hx => ?_⟩
      obtain ⟨m, m1, m2, -, m4⟩ := h2 x hx
      refine sent_claims m1 m2 ?_
      rw [claimed_same m4.esv m4.props.1]
      exact hs
    | send net u a =>
      obtain ⟨new, h1, h2⟩ := send_causes net n u a hr
      refine ⟨new, h1, fun x hx => ?_⟩
      obtain ⟨m, m1, m2, -, m4⟩ := h2 x hx
      refine sent_claims m1 m2 ?_
      rw [claimed_same m4.esv m4.props.1]
      exact hs
    | add o =>
      obtain ⟨new, h1, h2⟩ := node_causes ord n (.add o) hr
      exact ⟨new, h1, fun x hx => (h2 x hx).elim fun _ hm => hm.2.2.elim⟩
    | enable opt v =>
      obtain ⟨new, h1, h2⟩ := node_causes ord n (.enable opt v) hr
      exact ⟨new, h1, fun x hx => (h2 x hx).elim fun _ hm => hm.2.2.elim⟩
    | start net caller =>
      obtain ⟨new, h1, h2⟩ := node_causes ord n (.start net caller) hr
      exact ⟨new, h1, fun x hx => (h2 x hx).elim fun _ hm => hm.2.2.elim⟩
    | stop caller =>
      obtain ⟨new, h1, h2⟩ := node_causes ord n (.stop caller) hr
      exact ⟨new, h1, fun x hx => (h2 x hx).elim fun _ hm => hm.2.2.elim⟩
    | update code f =>
      obtain ⟨new, h1, h2⟩ := node_causes ord n (.update code f) hr
      exact ⟨new, h1, fun x hx => (h2 x hx).elim fun _ hm => hm.2.2.elim⟩
  refine ⟨⟨i1, ?_, ?_, ?_⟩, hgrow⟩
  · apply run_ownProfile hord n op h.inv h.own
    cases op with
    | add o => exact fun hk => hs.1 (List.mem_singleton.mp hk).symm
    | _ => exact List.not_mem_nil
  · intro k hk
    rw [codesOf_keys i1, i2] at hk
    have hr := h.range k
    rw [codesOf_keys h.inv] at hr
    cases op with
    | add o =>
      simp only [] at hk
      split at hk
      · exact hr hk
      · rcases List.mem_append.mp hk with hk | hk
        · exact hr hk
        · rw [List.mem_singleton.mp hk]; exact hs.2
    | _ => exact hr hk
  · obtain ⟨new, h1, h2⟩ := hnew
    intro x hx a m hd k hk
    rw [h1] at hx
    apply hgrow
    rcases List.mem_append.mp hx with hx | hx
    · exact h.log x hx a m hd k hk
    · exact h2 x hx a m hd k hk

/-- A node that has, and whose next transaction number is one. -/
def TruthfulNow (n : LocalNode) : Prop := Truthful n ∧ 0 ≤ n.mgr.tid ∧ n.mgr.tid ≤ 65535

theorem truthful_run {ord : List Int → List Int} (hord : ValidOrder ord) (ops : List NodeOp) : ∀ (n : LocalNode), TruthfulNow n → (∀ op ∈ ops, op.Allowed) →
    NodesSincere ord n ops → TruthfulNow (runOps ord n ops) := by
  induction ops with
  | nil => intro n h _ _; exact h
  | cons op ops ih =>
    intro n h ha hs
    refine ih (op.run ord n) ⟨(truthful_step hord h.1 h.2 op (ha op List.mem_cons_self) hs.1).1, ?_⟩ (fun o ho => ha o (List.mem_cons_of_mem _ ho)) hs.2
    obtain ⟨mops, e⟩ := run_mgr ord n op
    rw [e]
    exact tid_range mops _ h.2

theorem search_claims : claimed SearchMessage = [] := by decide +kernel

/-- What is done with a controller amounts to sincere operations on its node. -/
theorem ctl_sincere (ord : List Int → List Int) (c : Ctl) (op : CtlOp) (ha : op.Allowed) (hs : CtlSincere c op) :
    ∃ nops : List NodeOp, (∀ o ∈ nops, o.Allowed) ∧ NodesSincere ord c.ln nops ∧ (op.run ord c).ln = runOps ord c.ln nops := by
  have one : ∀ nop : NodeOp, nop.Allowed → NodeSincere c.ln nop → (op.run ord c).ln = nop.run ord c.ln →
      ∃ nops : List NodeOp, (∀ o ∈ nops, o.Allowed) ∧ NodesSincere ord c.ln nops ∧ (op.run ord c).ln = runOps ord c.ln nops :=
    fun nop h1 h2 h3 => ⟨[nop], by intro o ho; rw [List.mem_singleton.mp ho]; exact h1, ⟨h2, trivial⟩, h3⟩
  have hsearch : ∀ n, ∀ k ∈ claimed SearchMessage, k ∈ codesOf n := by rw [search_claims]; intro n k hk; cases hk
  cases op with
  | receive env cenv net m =>
    have := ctl_ln ord env cenv net c m
    by_cases hr : ESV.isRequest m.esv = true
    · rw [if_pos hr] at this
      exact one (.receive env net m) ha.2.2 hs this
    · rw [if_neg hr] at this
      exact ⟨[], by simp, trivial, this⟩
  | add o => exact one (.add o) trivial hs rfl
  | enable opt v => exact one (.enable opt v) trivial trivial rfl
  | start net caller =>
    have e : (CtlOp.run ord c (.start net caller)).ln = (c.start net caller).1.ln := rfl
    rw [e] at one ⊢
    unfold Ctl.start at one ⊢
    rcases hst : c.ln.start net caller with ⟨n, x | (_ | _)⟩
    · rw [hst] at one
      exact one (.start net caller) trivial trivial (by show n = (c.ln.start net caller).1; rw [hst])
    · rw [hst] at one
      exact one (.start net caller) trivial trivial (by show n = (c.ln.start net caller).1; rw [hst])
    · refine ⟨[.start net caller, .announce net SearchMessage], ?_, ⟨trivial, hsearch _, trivial⟩, ?_⟩
      · intro o ho
        rcases List.mem_cons.mp ho with rfl | ho
        · trivial
        · rw [List.mem_singleton.mp ho]; trivial
      · simp only [Ctl.search, Ctl.announceMessage, runOps, List.foldl_cons, List.foldl_nil, NodeOp.run, hst]
        rcases n.announceMessage net SearchMessage with ⟨n', m', x | (_ | _)⟩ <;> rfl
  | stop caller =>
    refine one (.stop caller) trivial trivial ?_
    show (c.stop caller).1.ln = (c.ln.stop caller).1
    unfold Ctl.stop
    rcases c.ln.stop caller with ⟨n, e | (_ | _)⟩ <;> rfl
  | search net => exact one (.announce net SearchMessage) trivial (hsearch _) rfl
  | announce net m => exact one (.announce net m) trivial hs rfl
  | send net m dest => exact one (.send net m (Ctl.toAddr dest)) trivial hs rfl
  | post net m dest => exact one (.send net m (Ctl.toAddr dest)) trivial hs rfl
  | listen l => exact ⟨[], by simp, trivial, rfl⟩
  | unlisten l =>
    refine ⟨[], by simp, trivial, ?_⟩
    show (c.removeListener l).1.ln = _
    unfold Ctl.removeListener
    split <;> rfl
  | update code f => exact one (.update code f) ha trivial rfl

theorem truthful_ctl {ord : List Int → List Int} (hord : ValidOrder ord) (ops : List CtlOp) : ∀ (c : Ctl), TruthfulNow c.ln → (∀ op ∈ ops, op.Allowed) →
    CtlsSincere ord c ops → TruthfulNow (runCtl ord c ops).ln := by
  induction ops with
  | nil => intro c h _ _; exact h
  | cons op ops ih =>
    intro c h ha hs
    obtain ⟨nops, h1, h2, h3⟩ := ctl_sincere ord c op (ha op List.mem_cons_self) hs.1
    refine ih (op.run ord c) ?_ (fun o ho => ha o (List.mem_cons_of_mem _ ho)) hs.2
    rw [h3]
    exact truthful_run hord nops c.ln h h1 h2

theorem new_range {ord : List Int → List Int} (hord : ValidOrder ord) (rnd : NodeProfile.Random) (ctl : Bool) :
    0 ≤ (LocalNode.new ord rnd ctl).1.mgr.tid ∧ (LocalNode.new ord rnd ctl).1.mgr.tid ≤ 65535 := node_range hord rnd ctl []

/-- A sincere machine has told the truth. -/
theorem site_truthful {ord : List Int → List Int} (hord : ValidOrder ord) (s : Site) (h : s.Sincere ord) : Truthful (s.node ord) := by
  cases s with
  | device rnd ops => exact (truthful_run hord ops _ ⟨truthful_new hord rnd false, new_range hord rnd false⟩ h.1 h.2).1
  | controller rnd ops =>
    refine (truthful_ctl hord ops _ ?_ h.1 h.2).1
    obtain ⟨n, hn, hn'⟩ := ctl_new hord rnd
    have h1 := truthful_new hord rnd true
    have h2 := new_range hord rnd true
    rw [hn'] at h1 h2
    rw [hn]
    exact ⟨h1, h2⟩

/-- What the latest instance list heard from an address says is what some message said. -/
theorem latest_claimed {ms : List Msg} {ip : String} {a : Addr} {l : List Int} (h : latest ms ip = some (a, l)) :
    ∃ m ∈ ms, m.fromAddr = some a ∧ a.1 = ip ∧ claimed m = l := by
  unfold latest at h
  have hmem := List.mem_of_getLast? h
  rw [List.mem_filter] at hmem
  obtain ⟨h1, h2⟩ := hmem
  obtain ⟨m, hm, hx⟩ := List.mem_filterMap.mp h1
  refine ⟨m, hm, ?_⟩
  unfold announced at hx
  split at hx
  swap
  · cases hx
  rename_i hc
  split at hx
  swap
  · cases hx
  rename_i b l' e1 e2
  injection hx with hx
  injection hx with ea el
  subst ea el
  refine ⟨e1, of_decide_eq_true h2, ?_⟩
  unfold claimed
  rw [if_pos hc.1, e2]

end Uecho
