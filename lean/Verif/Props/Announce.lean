/- C121: requests for all instances of a class. C122: what a node announces. -/
import Verif.Props.Isolation
import Verif.Lemmas.Storm
import Verif.Lemmas.Search

namespace Uecho
open Spec

/-! ### C121: a request with instance code 0 is for all instances of the class -/

/-- The class (group and class codes) of an object code, and the code that stands for all its instances. -/
def allInstances (c : Int) : Int := c / 256 * 256

/-- C121 is false: in every node none of whose objects was itself added with instance code 0, a message to all instances of a class, request or not, does nothing and is not answered. -/
theorem C121_all_false {ord : List Int → List Int} (hord : ValidOrder ord) (rnd : NodeProfile.Random) (ctl : Bool) (ops : List NodeOp) (ha : ∀ op ∈ ops, op.Allowed)
    (c : Int) (hc : 0 ≤ c ∧ c < 2 ^ 24) (hno : allInstances c ∉ addedCodes ops) (env : Env) (net : Net) (m : Msg) (hm : Encodable m) (hd : m.deoj = allInstances c) :
    let n := runOps ord (LocalNode.new ord rnd ctl).1 ops
    n.messageReceived env net m = (n, .ok ()) := by
  intro n
  have hr : 0 ≤ m.deoj ∧ m.deoj < 2 ^ 24 := by
    rw [hd]; unfold allInstances
    have := Int.mul_ediv_add_emod c 256
    have := Int.emod_nonneg c (show (256 : Int) ≠ 0 by decide)
    omega
  refine C48_unknown env net n m hm hr ?_
  by_contra hne
  rcases ((C42_local hord rnd ctl ops ha).2.2.1 m.deoj).mp hne with h | h
  · rw [hd] at h
    unfold allInstances at h
    omega
  · rw [hd] at h
    exact hno h

/-- C121 (what holds): the same request sent to one instance after the other is performed by every instance of the class and by nothing else: each ends up as if it had been alone and got the
request. Missing: one request for all of them. -/
theorem C121_each_partial {ord : List Int → List Int} (hord : ValidOrder ord) {n : LocalNode} (hr : Reachable ord n) (env : Env) (hst : CodeStable env) (net : Net) (m : Msg) (hm : Encodable m)
    (cs : List Int) (hnd : cs.Nodup) (hcs : ∀ c ∈ cs, 0 ≤ c ∧ c < 2 ^ 24) (k : Int) :
    (visited n (cs.map fun c => ⟨env, net, { m with deoj := c }⟩)).getObject (.int k) =
      (n.getObject (.int k)).map fun o => if k ∈ cs then (o.messageReceived env (received { m with deoj := k })).obj else o := by
  have hok : ∀ v ∈ cs.map (fun c => (⟨env, net, { m with deoj := c }⟩ : Visit)), v.Ok := by
    intro v hv
    obtain ⟨c, hc, rfl⟩ := List.mem_map.mp hv
    exact ⟨hst, hm, hcs c hc⟩
  rw [C116_state hord _ hok k hr]
  congr 1
  funext o
  have hv : visitsOf k (cs.map fun c => (⟨env, net, { m with deoj := c }⟩ : Visit)) = if k ∈ cs then [⟨env, net, { m with deoj := k }⟩] else [] := by
    clear hok hcs
    induction cs with
    | nil => rfl
    | cons c cs ih =>
      have hn := List.nodup_cons.mp hnd
      unfold visitsOf at ih ⊢
      rw [List.map_cons]
      by_cases e : c = k
      · subst e
        rw [List.filter_cons_of_pos (by simp), ih hn.2, if_neg hn.1, if_pos List.mem_cons_self]
      · rw [List.filter_cons_of_neg (by simpa using e), ih hn.2]
        simp [show ¬ k = c from fun h => e h.symm]
  rw [hv]
  split <;> rfl

/-- Two lights in one node; a request for both is lost. -/
example : allInstances 0x029101 = 0x029100 ∧ allInstances 0x029102 = 0x029100 ∧
    allInstances 0x029101 ∉ addedCodes [NodeOp.add exObj, NodeOp.add { exObj with code := 0x029102 }] ∧
    Encodable { tid := 7, seoj := 0x05FF01, deoj := 0x029100, esv := 0x61, props := [{ code := 0x80, data := [0x31] }], fromAddr := some ("10.0.0.2", 3610) } := by decide +kernel

/-! ### C122: announcements -/

/-- Operations other than explicit calls of `announce_message` and `send_message` by the program. -/
def NodeOp.Tacit : NodeOp → Prop
  | .announce _ _ => False
  | .send _ _ _ => False
  | _ => True

/-- An answer that is a notification has no properties. -/
theorem notification_empty (env : Env) (o : Obj) (m r : Msg) (h : (o.messageReceived env m).result = .ok (some r)) (he : r.esv = 0x73) :
    r.props = [] := by
  have h1 := recv_some h
  have hh : o.handler ≠ .none := by
    intro e
    exact (C22_only_requests env o m (Or.inr e)).2.1 r h
  have key : ∀ (res : Msg) (k : Nat), Obj.respond m res k = some r → m.esv = 0x63 ∧ k = m.opc + m.opcSet + m.opcGet := by
    intro res k h
    unfold Obj.respond at h
    simp only [] at h
    repeat' split at h
    all_goals first
      | (cases h; done)
      | (injection h with h
         have hx := congrArg Msg.esv h
         rw [he] at hx
         simp only [] at hx
         first | (exact absurd hx (by decide)) | (rename_i h63 hk; exact ⟨h63, hk⟩))
  have hm : m.esv = 0x63 := by
    rcases handleRequest_some h1 with ⟨-, o1, o2, c1, c2, sps, gps, -, -, hr⟩ | ⟨-, o1, c1, ps, -, hr⟩
    · exact (key _ _ hr).1
    · exact (key _ _ hr).1
  rw [handle_neither env o m hh (Or.inl hm)] at h1
  have h2 := Except.ok.inj h1
  have h3 := (key _ _ h2).2
  have h4 := (respond_fields _ _ _ _ h2).2.2.2.1
  rw [h4]
  have : m.props = [] := by
    unfold Msg.opc at h3
    exact List.length_eq_zero_iff.mp (by omega)
  rw [this]
  rfl

theorem node_notifies (env : Env) (net : Net) (n : LocalNode) (m : Msg) :
    ∃ new, (n.messageReceived env net m).1.mgr.log = n.mgr.log ++ new ∧
      ∀ x ∈ new, ∃ r : Msg, x.1.bytes = encode r ∧ r.esv ∈ [0x50, 0x52, 0x53, 0x5E, 0x71, 0x72, 0x73, 0x7A, 0x7E] ∧ (r.esv = 0x73 → r.props = []) := by
  by_cases hm : Encodable m
  swap
  · rw [messageReceived_unfit env net n m hm]; exact ⟨[], by simp, by simp⟩
  rw [messageReceived_eq env net n m hm]
  split
  · exact ⟨[], by simp, by simp⟩
  · rename_i s hs
    have hmgr : ∀ o, (n.putBack (m.deoj % 2 ^ 24) s o).mgr = n.mgr := by intro o; cases s <;> rfl
    simp only []
    split
    · exact ⟨[], by rw [hmgr, List.append_nil], by simp⟩
    · rename_i res hres
      cases res with
      | none =>
        refine ⟨[], ?_, by simp⟩
        show (n.putBack _ s _).mgr.log = _; rw [hmgr]; simp
      | some res =>
        obtain ⟨new, h1, -, -, h4⟩ := answer_few net (n.putBack (m.deoj % 2 ^ 24) s ((n.deref s).messageReceived env (received m)).obj) (received m) res
        rw [hmgr] at h1
        refine ⟨new, h1, ?_⟩
        intro x hx
        obtain ⟨t, sj, hb⟩ := h4 x hx
        exact ⟨_, hb, answer_esv env _ (received m) res hres, fun he => notification_empty env _ (received m) res hres he⟩

theorem start_log (net : Net) (g : Manager) (caller : Option Nat) (ifs : List String) : (g.start net caller ifs).1.log = g.log := by
  unfold Manager.start
  have hst : (g.stop caller).1.log = g.log := by
    unfold Manager.stop
    split <;> rfl
  split
  · rename_i h; rw [h] at hst; exact hst
  · rename_i h; rw [h] at hst; exact hst
  · rename_i g' h
    rw [h] at hst
    simp only []
    obtain ⟨-, -, -, this⟩ := Manager.startLoop_prefix net (if ifs.length ≤ 0 then getAllIpaddrs net.interfaces [] else ifs) g'
    split
    · rename_i h2; rw [h2] at this; exact this.trans hst
    · rename_i h2
      rw [h2] at this
      split <;> exact this.trans hst

/-- What is in the log after a history without explicit sends. -/
theorem tacit_log {ord : List Int → List Int} (ops : List NodeOp) : ∀ (n : LocalNode), (∀ op ∈ ops, op.Tacit) →
    ∃ new, (runOps ord n ops).mgr.log = n.mgr.log ++ new ∧
      (∀ x ∈ new, ∃ r : Msg, x.1.bytes = encode r ∧ r.esv ∈ [0x50, 0x52, 0x53, 0x5E, 0x71, 0x72, 0x73, 0x7A, 0x7E] ∧ (r.esv = 0x73 → r.props = [])) ∧
      ((∀ op ∈ ops, ∀ env net m, op ≠ .receive env net m) → new = []) := by
  induction ops with
  | nil => intro n _; exact ⟨[], by simp [runOps], by simp, fun _ => rfl⟩
  | cons op ops ih =>
    intro n h
    obtain ⟨new, h1, h2, h3⟩ := ih (op.run ord n) (fun o ho => h o (List.mem_cons_of_mem _ ho))
    have same : (op.run ord n).mgr.log = n.mgr.log → ∃ new, (runOps ord n (op :: ops)).mgr.log = n.mgr.log ++ new ∧
      (∀ x ∈ new, ∃ r : Msg, x.1.bytes = encode r ∧ r.esv ∈ [0x50, 0x52, 0x53, 0x5E, 0x71, 0x72, 0x73, 0x7A, 0x7E] ∧ (r.esv = 0x73 → r.props = [])) ∧
      ((∀ o ∈ op :: ops, ∀ env net m, o ≠ .receive env net m) → new = []) := by
      intro e
      refine ⟨new, ?_, h2, fun hn => h3 (fun o ho => hn o (List.mem_cons_of_mem _ ho))⟩
      rw [← e]; exact h1
    cases op with
    | add o => exact same rfl
    | receive env net m =>
      obtain ⟨a, g1, g2⟩ := node_notifies env net n m
      refine ⟨a ++ new, ?_, ?_, ?_⟩
      · rw [← List.append_assoc, ← g1]; exact h1
      · intro x hx
        rcases List.mem_append.mp hx with hx | hx
        · exact g2 x hx
        · exact h2 x hx
      · intro hn
        exact absurd rfl (hn _ List.mem_cons_self env net m)
    | enable opt v =>
      apply same
      show (n.setEnabled opt v).mgr.log = _
      unfold LocalNode.setEnabled
      split <;> rfl
    | start net caller =>
      apply same
      show (n.start net caller).1.mgr.log = _
      have hst := start_log net n.mgr caller []
      unfold LocalNode.start
      split
      · rename_i g e heq; rw [heq] at hst; exact hst
      · rename_i g heq; rw [heq] at hst; exact hst
      · rename_i g heq; rw [heq] at hst; exact hst
    | stop caller =>
      apply same
      show (n.stop caller).1.mgr.log = _
      unfold LocalNode.stop Manager.stop
      rcases Manager.stopLoop caller n.mgr.servers 0 with ⟨ss, _ | e⟩ <;> rfl
    | announce net m => exact absurd (h _ List.mem_cons_self) (fun h => h)
    | send net m a => exact absurd (h _ List.mem_cons_self) (fun h => h)
    | update code f =>
      apply same
      show (n.update code f).mgr.log = _
      unfold LocalNode.update
      split <;> rfl

theorem notification_short (r : Msg) (h : r.esv = 0x73) (hp : r.props = []) : (encode r).length = 12 := by
  rw [encode_length]
  unfold encBody
  rw [h, if_neg (by decide), hp]
  rfl

/-- C122 is false: whatever happens to a node whose program does not announce anything itself (objects added and changed, starts, stops, messages of any kind with any handlers), nothing is
announced: every notification that leaves it is 12 bytes long, with no property in it, and none asks for a confirmation. -/
theorem C122_never_false {ord : List Int → List Int} (hord : ValidOrder ord) (rnd : NodeProfile.Random) (ctl : Bool) (ops : List NodeOp) (ht : ∀ op ∈ ops, op.Tacit)
    (x : Sent × Int) (hx : x ∈ (runOps ord (LocalNode.new ord rnd ctl).1 ops).mgr.log) :
    (x.1.bytes[10]? = some 0x73 → x.1.bytes.length = 12) ∧ x.1.bytes[10]? ≠ some 0x74 := by
  obtain ⟨new, h1, h2, -⟩ := tacit_log (ord := ord) ops (LocalNode.new ord rnd ctl).1 ht
  have h0 : (LocalNode.new ord rnd ctl).1.mgr.log = [] := by
    obtain ⟨n0, h0, -, -, -, -, h, -⟩ := localNode_new hord rnd ctl
    rw [h0]
    exact congrArg Manager.log h
  rw [h1, h0, List.nil_append] at hx
  obtain ⟨r, hb, hr, he⟩ := h2 x hx
  have hsv := encode_service r []
  rw [List.append_nil, ← hb] at hsv
  rw [hsv]
  simp only [List.mem_cons, List.not_mem_nil, or_false] at hr
  refine ⟨?_, ?_⟩
  · intro e
    rw [hb]
    have : r.esv = 0x73 := by
      rcases hr with h | h | h | h | h | h | h | h | h
      all_goals first | exact h | (rw [h] at e; exact absurd e (by decide))
    exact notification_short r this (he this)
  · rcases hr with h | h | h | h | h | h | h | h | h <;> rw [h] <;> decide

/-- C122. In particular starting a node, stopping it, adding objects to it and changing their properties sends nothing at all. -/
theorem C122_quiet_false {ord : List Int → List Int} (n : LocalNode) (ops : List NodeOp) (ht : ∀ op ∈ ops, op.Tacit)
    (hr : ∀ op ∈ ops, ∀ env net m, op ≠ .receive env net m) : (runOps ord n ops).mgr.log = n.mgr.log := by
  obtain ⟨new, h1, -, h3⟩ := tacit_log (ord := ord) ops n ht
  rw [h1, h3 hr, List.append_nil]

/-- The notification of a node's instance list (0xD5), as its program can make it from the node profile. -/
def instanceNotice (n : LocalNode) : Msg :=
  { seoj := 0x0EF001, deoj := 0x0EF001, esv := 0x73, props := [{ code := 0xD5, data := (n.profile.getPropertyData 0xD5).getD [] }] }

theorem notice_encodable (t sj : Int) (l : Bytes) (h : l.length < 256) : Encodable { tid := t, seoj := sj, deoj := 0x0EF001, esv := 0x73, props := [{ code := 0xD5, data := l }] } := by
  refine ⟨show (0 : Int) ≤ 0x73 ∧ (0x73 : Int) < 256 by decide, ?_⟩
  rw [if_neg (show ¬ TwoSections 0x73 by decide)]
  refine ⟨show 1 < 256 by decide, ?_⟩
  intro p hp
  rw [List.mem_singleton] at hp
  rw [hp]
  exact ⟨show (0 : Int) ≤ 0xD5 by decide, show (0xD5 : Int) < 256 by decide, h⟩

theorem instanceList_length {l : Bytes} {insts : List Int} (h : IsInstanceList l insts) : l.length = 1 + 3 * insts.length := by
  obtain ⟨b, -, rfl⟩ := h
  rw [List.length_cons, codeBytes_length]
  omega

/-- C122 (what holds): a program that calls `announce_message` itself with the value of 0xD5 of its node profile does announce the instances: every working interface sends one datagram to the
group, which lists exactly the objects of the node. Missing: that the library does so by itself. -/
theorem C122_program_partial {ord : List Int → List Int} (hord : ValidOrder ord) {n : LocalNode} (hr : Reachable ord n) (hlt : (instancesOf (n.objs.map Obj.code)).length < 85)
    (net : Net) (hw : NetWorks net) (hc : CanSend n.mgr) :
    ∃ new t l, (n.announceMessage net (instanceNotice n)).1.mgr.log = n.mgr.log ++ new ∧ IsInstanceList l (instancesOf (n.objs.map Obj.code)) ∧
      new.map (fun x => x.1.ifaddr) = (working n.mgr.servers).map (·.ifaddr) ∧
      ∀ x ∈ new, x.1.dest = ("224.0.23.0", 3610) ∧ x.1.bytes = encode { tid := t, seoj := 0x0EF001, deoj := 0x0EF001, esv := 0x73, props := [{ code := 0xD5, data := l }] } := by
  obtain ⟨l, hl, h5, -, -⟩ := C43_instances_partial hord hr (by omega)
  have hn : instanceNotice n = { seoj := 0x0EF001, deoj := 0x0EF001, esv := 0x73, props := [{ code := 0xD5, data := l }] } := by
    unfold instanceNotice; rw [h5]; rfl
  have hlen : l.length < 256 := by have := instanceList_length hl; omega
  have hm : Encodable (outgoing n (instanceNotice n)) := by
    rw [outgoing_encodable, hn]
    exact notice_encodable _ _ l hlen
  obtain ⟨new, h1, h2, -, h4, h6, -, t, ad, h7⟩ := C54_announce net n.mgr (outgoing n (instanceNotice n)) hm
  have hok : (n.mgr.announce net (outgoing n (instanceNotice n))).2.2 = .ok true := (C54_works net n.mgr _ ("", 0) hm hc hw).2.2.2
  refine ⟨new, t, l, ?_, hl, h4 hok, ?_⟩
  · exact h1
  · intro x hx
    refine ⟨(h2 x hx).1, ?_⟩
    rw [(h2 x hx).2, h7, hn]
    unfold outgoing
    split <;> rfl

/-- C122. A controller that hears such an announcement knows the node that sent it from then on, with exactly the objects the list names. -/
theorem C122_heard_partial {ord : List Int → List Int} (hord : ValidOrder ord) (insts : List Int) (hlt : insts.length < 85) (hin : ∀ c ∈ insts, 0 ≤ c ∧ c < 2 ^ 24) (l : Bytes)
    (hl : IsInstanceList l insts) (t : Int) {c : Ctl} {ops : List CtlOp} (h : CtlReach ord c ops) (env : Env) {cenv : CEnv} (hc : Calm cenv) (hst : CodeStable env) (net : Net) (a : Addr) :
    ∃ m, Decodes (encode { tid := t, seoj := 0x0EF001, deoj := 0x0EF001, esv := 0x73, props := [{ code := 0xD5, data := l }] }) a m ∧
      ∃ r ∈ (c.messageReceived ord env cenv net m).1.nodes, r.node.address = some a ∧ r.node.objectList.map Obj.code = addCodes [0x0EF001] insts := by
  have hlen := instanceList_length hl
  have henc := notice_encodable t 0x0EF001 l (by omega)
  have hdec := decodes_encode _ henc (by
    rw [encode_length]
    unfold encBody
    rw [if_neg (show ¬ TwoSections 0x73 by decide)]
    simp only [encSection, encItems, encItem, List.flatMap_cons, List.flatMap_nil, List.length_cons, List.append_nil]
    omega) a
  refine ⟨_, hdec, ?_⟩
  obtain ⟨hm, hrec, ha, -⟩ := received_decoded hdec
  generalize hM : ({ onWire { tid := t, seoj := 0x0EF001, deoj := 0x0EF001, esv := 0x73, props := [{ code := 0xD5, data := l }] } with fromAddr := some a } : Msg) = M at *
  have hdel : Delivered M := ⟨hm, by rw [ha]; rfl⟩
  have hlist : instanceListOf M = .codes insts := by
    rw [← hM]
    obtain ⟨b, hb, rfl⟩ := hl
    unfold instanceListOf onWire
    simp only []
    rw [if_neg (show ¬ TwoSections 0x73 by decide)]
    simp only []
    rw [if_pos (by simp), if_neg (by rw [codeBytes_length, hb]; omega), hb]
    have := listedCodes_codeBytes insts []
    rw [List.append_nil] at this
    rw [this]
    congr 1
    conv => rhs; rw [← List.map_id insts]
    apply List.map_congr_left
    intro c hc
    obtain ⟨x1, x2⟩ := hin c hc
    exact Int.emod_eq_of_lt x1 x2
  have hann : announced M = some (a, insts) := by
    unfold announced
    rw [if_pos ⟨Or.inr (by rw [← hM]; rfl), by rw [← hM]; show (0x0EF001 : Int) % 2 ^ 24 % 2 ^ 24 = _; decide⟩, ha, hlist]
  have hs := ctl_snoc h (.receive env cenv net M) ⟨hdel, hc, hst⟩
  have hlat : latest (heard (ops ++ [.receive env cenv net M])) a.1 = some (a, insts) := by
    rw [heard_append]
    show latest (heard ops ++ [M]) a.1 = _
    unfold latest
    rw [List.filterMap_append, List.filter_append]
    simp [hann]
  obtain ⟨r, hr, h1, -, -, h2⟩ := (C59_nodes hord hs).2.2 a.1 a insts hlat
  exact ⟨r, hr, h1, h2⟩

/-- A node with a light that has been started can make the announcement, and its program may do any of these things without anything being sent. -/
example {ord : List Int → List Int} (hord : ValidOrder ord) : ∃ n : LocalNode, Reachable ord n ∧ (instancesOf (n.objs.map Obj.code)).length < 85 ∧ NetWorks okNet ∧ CanSend n.mgr ∧
    ∀ op ∈ [NodeOp.stop none, .start okNet none, .update 0x029101 (fun o => (o.setPropertyData 0x80 [0x31]).1)], op.Tacit ∧ ∀ env net m, op ≠ .receive env net m := by
  have hal : ∀ op ∈ [NodeOp.add exObj, .start okNet none], op.Allowed := by
    intro op hop
    simp only [List.mem_cons, List.not_mem_nil, or_false] at hop
    rcases hop with rfl | rfl <;> trivial
  obtain ⟨g, hg, hw, -⟩ := ok_start ((LocalNode.new ord exRandom false).1.addObject ord exObj).1
  refine ⟨runOps ord (LocalNode.new ord exRandom false).1 [.add exObj, .start okNet none], ⟨exRandom, false, _, hal, rfl⟩, ?_, fun _ _ _ _ => rfl, ?_, ?_⟩
  · rw [(C42_local hord exRandom false _ hal).1]
    decide
  · show CanSend (LocalNode.start okNet ((LocalNode.new ord exRandom false).1.addObject ord exObj).1 none).1.mgr
    rw [hg]
    exact hw
  · intro op hop
    simp only [List.mem_cons, List.not_mem_nil, or_false] at hop
    rcases hop with rfl | rfl | rfl <;> exact ⟨trivial, fun _ _ _ h => by cases h⟩

end Uecho
