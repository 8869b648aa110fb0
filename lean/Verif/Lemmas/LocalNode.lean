import Verif.Lemmas.Node

namespace Uecho
open Spec

/-! ### Handlers that keep the object's code -/

/-- User supplied handlers do not change the code of the object they serve. -/
def CodeStable (env : Env) : Prop :=
  ∀ k o, (∀ p, ((env.handler k).read o p).1.code = o.code) ∧ ∀ p d, ((env.handler k).write o p d).1.code = o.code

theorem callRead_code {env : Env} (h : CodeStable env) (o : Obj) (p : Option OProp) :
    (o.callRead env p).1.code = o.code := by
  unfold Obj.callRead
  split
  · rfl
  · rfl
  · rfl
  · exact (h _ o).1 p

theorem callWrite_code {env : Env} (h : CodeStable env) (o : Obj) (p : OProp) (d : Bytes) :
    (o.callWrite env p d).1.code = o.code := by
  unfold Obj.callWrite
  split
  · rfl
  · rfl
  · rfl
  · exact (h _ o).2 p d

theorem setLoop_code {env : Env} (h : CodeStable env) (ms : List PProp) : ∀ (o : Obj) (cnt : Nat) (acc : List PProp),
    (Obj.setLoop env o ms cnt acc).1.code = o.code := by
  induction ms with
  | nil => intro o cnt acc; rfl
  | cons mp ms ih =>
    intro o cnt acc
    unfold Obj.setLoop
    cases o.getProperty mp.code with
    | none => exact ih _ _ _
    | some p =>
      simp only []
      have hc := callWrite_code h o p mp.data
      generalize o.callWrite env p mp.data = r at hc ⊢
      rcases r with ⟨o1, e | b⟩
      · exact hc
      · cases b
        · exact (ih _ _ _).trans hc
        · exact (ih _ _ _).trans hc

theorem getLoop_code {env : Env} (h : CodeStable env) (ms : List PProp) : ∀ (o : Obj) (cnt : Nat) (acc : List PProp),
    (Obj.getLoop env o ms cnt acc).1.code = o.code := by
  induction ms with
  | nil => intro o cnt acc; rfl
  | cons mp ms ih =>
    intro o cnt acc
    unfold Obj.getLoop
    have hc := callRead_code h o (o.getProperty mp.code)
    generalize o.callRead env (o.getProperty mp.code) = r at hc ⊢
    rcases r with ⟨o1, e | b⟩
    · exact hc
    · cases b
      · exact (ih _ _ _).trans hc
      · simp only []
        split
        · exact (ih _ _ _).trans hc
        · exact hc

theorem plainLoop_code {env : Env} (h : CodeStable env) (esv : Int) (ms : List PProp) : ∀ (o : Obj) (cnt : Nat) (acc : List PProp),
    (Obj.plainLoop env esv o ms cnt acc).1.code = o.code := by
  induction ms with
  | nil => intro o cnt acc; rfl
  | cons mp ms ih =>
    intro o cnt acc
    unfold Obj.plainLoop
    cases o.getProperty mp.code with
    | none => exact ih _ _ _
    | some p =>
      simp only []
      split
      · have hc := callRead_code h o (some p)
        generalize o.callRead env (some p) = r at hc ⊢
        rcases r with ⟨o1, e | b⟩
        · exact hc
        · cases b
          · exact (ih _ _ _).trans hc
          · exact (ih _ _ _).trans hc
      · split
        · have hc := callWrite_code h o p mp.data
          generalize o.callWrite env p mp.data = r at hc ⊢
          rcases r with ⟨o1, e | b⟩
          · exact hc
          · cases b
            · exact (ih _ _ _).trans hc
            · exact (ih _ _ _).trans hc
        · exact ih _ _ _

theorem messageReceived_code {env : Env} (h : CodeStable env) (o : Obj) (m : Msg) :
    (o.messageReceived env m).obj.code = o.code := by
  by_cases hq : Quiet env o m
  · rw [messageReceived_quiet env o m hq]
    show (o.handleRequest env m).1.code = _
    unfold Obj.handleRequest
    split
    · rfl
    split
    · rfl
    simp only []
    split
    · have h1 := setLoop_code h m.setProps o 0 []
      generalize Obj.setLoop env o m.setProps 0 [] = r at h1 ⊢
      rcases r with ⟨o1, e | ⟨c, sps⟩⟩
      · exact h1
      · simp only []
        have h2 := getLoop_code h m.getProps o1 c []
        generalize Obj.getLoop env o1 m.getProps c [] = r at h2 ⊢
        rcases r with ⟨o2, e | ⟨c', gps⟩⟩
        · exact h2.trans h1
        · exact h2.trans h1
    · have h1 := plainLoop_code h m.esv m.props o 0 []
      generalize Obj.plainLoop env m.esv o m.props 0 [] = r at h1 ⊢
      rcases r with ⟨o1, e | ⟨c, ps⟩⟩
      · exact h1
      · exact h1
  · rw [(messageReceived_loud env o m hq).1]

/-! ### The invariant of local nodes -/

/-- The node profile `p` describes a node whose objects have these codes. -/
structure Describes (p : Obj) (codes : List Int) : Prop where
  d3 : p.getPropertyData 0xD3 = some (beDigits (instancesOf codes).length 3)
  d5 : p.getPropertyData 0xD5 = some (byteOf (instancesOf codes).length :: codeBytes (instancesOf codes))
  d6 : p.getPropertyData 0xD6 = some (byteOf (instancesOf codes).length :: codeBytes (instancesOf codes))
  d4 : p.getPropertyData 0xD4 = some (beDigits codes.length 2)
  d7 : ∃ l, ListsClasses l (instancesOf codes) ∧ p.getPropertyData 0xD7 = some (byteOf codes.length :: classBytes l)

structure NodeInv (n : LocalNode) : Prop where
  prof : GoodProfile n.profile
  keys : (Dict.keys n.node.objects).Nodup
  own : ∀ kv ∈ n.node.objects, (n.deref kv.2).code = kv.1
  desc : Describes n.profile (n.objs.map Obj.code)

theorem objs_codes (n : LocalNode) (h : ∀ kv ∈ n.node.objects, (n.deref kv.2).code = kv.1) :
    n.objs.map Obj.code = Dict.keys n.node.objects := by
  unfold LocalNode.objs Node.objectList Dict.values Dict.keys
  rw [List.map_map, List.map_map]
  apply List.map_congr_left
  intro kv hkv
  exact h kv hkv

theorem refresh_inv {ord : List Int → List Int} (hord : ValidOrder ord) (n : LocalNode) (hp : GoodProfile n.profile)
    (hk : (Dict.keys n.node.objects).Nodup) (ho : ∀ kv ∈ n.node.objects, (n.deref kv.2).code = kv.1) :
    (n.refresh ord).2 = .ok true ∧ NodeInv (n.refresh ord).1 ∧ (n.refresh ord).1.node = n.node ∧
    (∃ items, (n.refresh ord).1.profile = afterWrites n.profile items) ∧ (n.refresh ord).1.controller = n.controller ∧
    (n.refresh ord).1.mgr = n.mgr ∧ (n.refresh ord).1.options = n.options := by
  obtain ⟨l, ms, hl, hms, he⟩ := updateMapProperties_eq hord n.profile (n.objs.map Obj.code) hp
  unfold LocalNode.refresh
  rw [he]
  simp only []
  have hsk := skeleton_afterWrites n.profile ([{ code := 0xD3, data := beDigits (instancesOf (n.objs.map Obj.code)).length 3 },
        { code := 0xD5, data := byteOf (instancesOf (n.objs.map Obj.code)).length :: codeBytes (instancesOf (n.objs.map Obj.code)) },
        { code := 0xD6, data := byteOf (instancesOf (n.objs.map Obj.code)).length :: codeBytes (instancesOf (n.objs.map Obj.code)) },
        { code := 0xD4, data := beDigits (n.objs.map Obj.code).length 2 },
        { code := 0xD7, data := byteOf (n.objs.map Obj.code).length :: classBytes l }] ++ ms)
  have hg := hp.of_skeleton hsk
  obtain ⟨newp, hnew⟩ : ∃ newp, newp = afterWrites n.profile ([{ code := 0xD3, data := beDigits (instancesOf (n.objs.map Obj.code)).length 3 },
        { code := 0xD5, data := byteOf (instancesOf (n.objs.map Obj.code)).length :: codeBytes (instancesOf (n.objs.map Obj.code)) },
        { code := 0xD6, data := byteOf (instancesOf (n.objs.map Obj.code)).length :: codeBytes (instancesOf (n.objs.map Obj.code)) },
        { code := 0xD4, data := beDigits (n.objs.map Obj.code).length 2 },
        { code := 0xD7, data := byteOf (n.objs.map Obj.code).length :: classBytes l }] ++ ms) := ⟨_, rfl⟩
  rw [← hnew] at hg ⊢
  refine ⟨trivial, ?_, trivial, ⟨_, hnew⟩, trivial, trivial, trivial⟩
  have hown : ∀ kv ∈ n.node.objects, (LocalNode.deref { n with profile := newp } kv.2).code = kv.1 := by
    intro kv hkv
    have := ho kv hkv
    cases hs : kv.2 with
    | profile =>
      rw [hs] at this
      show Obj.code _ = _
      exact hg.code.trans (hp.code.symm.trans this)
    | user o => rw [hs] at this; exact this
  have hms' : ∀ c, c ≠ 0x9D → c ≠ 0x9E → c ≠ 0x9F → lastFor ms c = none := by
    intro c h1 h2 h3
    unfold lastFor
    rw [List.filter_eq_nil_iff.mpr]
    · rfl
    · intro i hi hc
      have hc : i.code = c := by simpa using hc
      rcases hms i hi with h | h | h
      · exact h1 (hc.symm.trans h)
      · exact h2 (hc.symm.trans h)
      · exact h3 (hc.symm.trans h)
  refine ⟨hg, hk, hown, ?_⟩
  rw [objs_codes _ hown]
  have hcodes := objs_codes n ho
  rw [hnew, hcodes]
  simp only []
  obtain ⟨k3, k4, k5, k6, k7⟩ := hp.lists
  have get : ∀ c, (lookup n.profile.props c).isSome = true → ∀ (items : List PProp) d, lastFor items c = some d →
      (afterWrites n.profile items).getPropertyData c = some d := by
    intro c hc items d hd
    rw [getPropertyData_afterWrites, hd]
    obtain ⟨p, hp⟩ := Option.isSome_iff_exists.mp hc
    rw [hp]; rfl
  refine ⟨get _ k3 _ _ ?_, get _ k5 _ _ ?_, get _ k6 _ _ ?_, get _ k4 _ _ ?_, ⟨l, by rw [← hcodes]; exact hl, get _ k7 _ _ ?_⟩⟩ <;>
  · rw [lastFor_append, hms' _ (by decide) (by decide) (by decide), Option.none_or]
    rfl

/-- The profile of a node before it is entered in the node's table. -/
theorem nodeProfile_new {ord : List Int → List Int} (hord : ValidOrder ord) (rnd : NodeProfile.Random) :
    ∃ p, NodeProfile.new ord rnd = (p, .ok ()) ∧ GoodProfile p ∧ p.observers = [] := by
  obtain ⟨o, h1, h2, h3⟩ := goodProfile_fresh hord
  unfold NodeProfile.new
  rw [show NodeProfile.CODE = 0x0EF001 from rfl, h1]
  simp only []
  have hh : o.setRequestHandler .self_ = o := by
    unfold Obj.setRequestHandler
    rw [← h2.handler]
  rw [hh, initial_eq o rnd h2.wf]
  have g2 := h2.of_skeleton (skeleton_afterWrites o [{ code := 0x80, data := [0x30] }, { code := 0x82, data := [0x01, 0x0D, 0x01, 0x00] },
       { code := 0x83, data := [0xFE, 0x00, 0x00, 0x00] ++ rnd.id }, { code := 0xBF, data := [rnd.u1 &&& 0xC0, rnd.u2] }])
  obtain ⟨l, ms, -, -, he⟩ := updateMapProperties_eq hord _ [(afterWrites o [{ code := 0x80, data := [0x30] }, { code := 0x82, data := [0x01, 0x0D, 0x01, 0x00] },
       { code := 0x83, data := [0xFE, 0x00, 0x00, 0x00] ++ rnd.id }, { code := 0xBF, data := [rnd.u1 &&& 0xC0, rnd.u2] }]).code] g2
  rw [he]
  exact ⟨_, rfl, g2.of_skeleton (skeleton_afterWrites _ _), h3⟩

theorem localNode_new {ord : List Int → List Int} (hord : ValidOrder ord) (rnd : NodeProfile.Random) (ctl : Bool) :
    ∃ n, LocalNode.new ord rnd ctl = (n, .ok ()) ∧ NodeInv n ∧ n.node.objects = [(0x0EF001, .profile)] ∧
      n.profile.observers = [] ∧ n.controller = ctl ∧ n.mgr = {} ∧ n.options = 1 := by
  obtain ⟨p, hp, hg, hob⟩ := nodeProfile_new hord rnd
  unfold LocalNode.new
  rw [hp]
  simp only []
  have hobj : (({} : Node Slot).put p.code Slot.profile).objects = [(0x0EF001, Slot.profile)] := by
    show Dict.set [] p.code Slot.profile = _
    rw [hg.code]; rfl
  obtain ⟨h1, h2, h3, ⟨items, h4⟩, h5, h6, h7⟩ := refresh_inv hord { profile := p, controller := ctl, node := (({} : Node Slot).put p.code Slot.profile) }
    hg (by rw [hobj]; simp [Dict.keys]) (by
      rw [hobj]
      intro kv hkv
      rw [List.mem_singleton] at hkv
      subst hkv
      exact hg.code)
  rcases hr : LocalNode.refresh ord { profile := p, controller := ctl, node := (({} : Node Slot).put p.code Slot.profile) } with ⟨n, r⟩
  rw [hr] at h1 h2 h3 h4 h5 h6 h7
  simp only [] at h1
  subst h1
  refine ⟨n, rfl, h2, by rw [h3]; exact hobj, ?_, h5, h6, h7⟩
  rw [h4]; exact hob

theorem addObject_inv {ord : List Int → List Int} (hord : ValidOrder ord) (n : LocalNode) (o : Obj) (h : NodeInv n) :
    (n.addObject ord o).2 = .ok true ∧ NodeInv (n.addObject ord o).1 ∧
    (n.addObject ord o).1.node.objects = Dict.set n.node.objects o.code (.user o) ∧
    (∃ items, (n.addObject ord o).1.profile = afterWrites n.profile items) ∧ (n.addObject ord o).1.controller = n.controller ∧
    (n.addObject ord o).1.mgr = n.mgr ∧ (n.addObject ord o).1.options = n.options := by
  obtain ⟨h1, h2, h3, h4⟩ := refresh_inv hord { n with node := n.node.put o.code (.user o) } h.prof
    (Dict.nodup_keys_set _ _ _ h.keys) (by
      intro kv hkv
      have hkv : kv ∈ Dict.set n.node.objects o.code (Slot.user o) := hkv
      have hn := Dict.nodup_keys_set n.node.objects o.code (Slot.user o) h.keys
      have h1 : Dict.get? (Dict.set n.node.objects o.code (Slot.user o)) kv.1 = some kv.2 := Dict.get?_of_mem _ _ _ hn hkv
      rw [Dict.get?_set] at h1
      split at h1
      · rename_i e; injection h1 with h1; rw [← h1]; exact e
      · exact h.own kv (Dict.mem_of_get? _ _ _ h1))
  exact ⟨h1, h2, by show (LocalNode.refresh ord _).1.node.objects = _; rw [h3]; rfl, h4⟩

/-! ### Receiving -/

theorem announceMessage_same (net : Net) (n : LocalNode) (m : Msg) :
    (n.announceMessage net m).1 = { n with mgr := (n.announceMessage net m).1.mgr } := rfl

theorem sendMessage_same (net : Net) (n : LocalNode) (m : Msg) (a : Option Addr) :
    (n.sendMessage net m a).1 = { n with mgr := (n.sendMessage net m a).1.mgr } := rfl

theorem answer_same (net : Net) (n : LocalNode) (req : Msg) (r : Option Msg) :
    (n.answer net req r).1 = { n with mgr := (n.answer net req r).1.mgr } := by
  cases r with
  | none => rfl
  | some res =>
    unfold LocalNode.answer
    simp only []
    by_cases hn : ESV.isNotification res.esv = true
    · rw [if_pos hn]
      have := announceMessage_same net n res
      generalize n.announceMessage net res = r at this ⊢
      rcases r with ⟨n1, m1, e | b⟩
      · exact this
      · exact this
    · rw [if_neg hn]
      have := sendMessage_same net n res req.fromAddr
      generalize n.sendMessage net res req.fromAddr = r at this ⊢
      rcases r with ⟨n1, m1, e | b⟩
      · exact this
      · exact this

theorem inv_mgr {n : LocalNode} (h : NodeInv n) (g : Manager) : NodeInv { n with mgr := g } :=
  ⟨h.prof, h.keys, h.own, h.desc⟩

/-- The five describing properties are not writable. -/
theorem lists_not_writable {o : Obj} (h : GoodProfile o) (c : Int) (hc : c = 0xD3 ∨ c = 0xD4 ∨ c = 0xD5 ∨ c = 0xD6 ∨ c = 0xD7)
    (p : OProp) (hp : lookup o.props c = some p) : ¬ CanWrite p := by
  have hd := h.props c
  rw [hp] at hd
  have : ∀ c, c = 0xD3 ∨ c = 0xD4 ∨ c = 0xD5 ∨ c = 0xD6 ∨ c = 0xD7 → (deviceProp 0x0E 0xF0 c).map OProp.attrSet = some 0 := by
    rintro c (rfl | rfl | rfl | rfl | rfl) <;> decide +kernel
  have h2 := this c hc
  rw [← hd] at h2
  simp only [Option.map_some, Option.some.injEq] at h2
  unfold CanWrite
  omega

theorem profile_receive {o : Obj} (h : GoodProfile o) (env : Env) (m : Msg) :
    GoodProfile (o.messageReceived env m).obj ∧
    ∀ c, c = 0xD3 ∨ c = 0xD4 ∨ c = 0xD5 ∨ c = 0xD6 ∨ c = 0xD7 →
      (o.messageReceived env m).obj.getPropertyData c = o.getPropertyData c := by
  rw [messageReceived_state env o m h.wf h.handler]
  refine ⟨h.of_skeleton (skeleton_afterWrites _ _), ?_⟩
  intro c hc
  rw [getPropertyData_eq, getPropertyData_eq, lookup_afterWrites_attr]
  cases hp : lookup o.props c with
  | none => rfl
  | some p => simp [lists_not_writable h c hc p hp]

theorem putBack_user_inv {n : LocalNode} (h : NodeInv n) (code : Int) (o o' : Obj) (hg : Dict.get? n.node.objects code = some (.user o))
    (hc : o'.code = o.code) : NodeInv (n.putBack code (.user o) o') ∧
    Dict.keys (n.putBack code (.user o) o').node.objects = Dict.keys n.node.objects := by
  have hk : Dict.keys (Dict.modify n.node.objects code (fun _ => Slot.user o')) = Dict.keys n.node.objects :=
    Dict.keys_modify _ _ _
  have hown : ∀ kv ∈ Dict.modify n.node.objects code (fun _ => Slot.user o'), (LocalNode.deref n kv.2).code = kv.1 := by
    intro kv hkv
    have h1 : Dict.get? (Dict.modify n.node.objects code (fun _ => Slot.user o')) kv.1 = some kv.2 :=
      Dict.get?_of_mem _ _ _ (by rw [hk]; exact h.keys) hkv
    rw [Dict.get?_modify] at h1
    split at h1
    · rename_i e
      subst e
      rw [hg] at h1
      simp only [Option.map_some, Option.some.injEq] at h1
      rw [← h1]
      show o'.code = _
      rw [hc]
      exact h.own _ (Dict.mem_of_get? _ _ _ hg)
    · exact h.own kv (Dict.mem_of_get? _ _ _ h1)
  have hk' : (Dict.keys (Dict.modify n.node.objects code (fun _ => Slot.user o'))).Nodup := by
    rw [hk]; exact h.keys
  refine ⟨⟨h.prof, hk', hown, ?_⟩, hk⟩
  have e1 := objs_codes (n.putBack code (.user o) o') hown
  have e2 := objs_codes n h.own
  have hd := h.desc
  show Describes n.profile _
  rw [show (n.putBack code (Slot.user o) o').objs.map Obj.code = _ from e1]
  rw [e2] at hd
  show Describes n.profile (Dict.keys (Dict.modify _ _ _))
  rw [hk]
  exact hd

theorem putBack_inv {n : LocalNode} (h : NodeInv n) {env : Env} (hs : CodeStable env) (m : Msg) (code : Int) (s : Slot)
    (hg : Dict.get? n.node.objects code = some s) :
    NodeInv (n.putBack code s ((n.deref s).messageReceived env m).obj) ∧
    Dict.keys (n.putBack code s ((n.deref s).messageReceived env m).obj).node.objects = Dict.keys n.node.objects := by
  cases s with
  | profile =>
    obtain ⟨h1, h2⟩ := profile_receive h.prof env m
    have hown : ∀ kv ∈ n.node.objects, (LocalNode.deref { n with profile := (n.profile.messageReceived env m).obj } kv.2).code = kv.1 := by
      intro kv hkv
      have := h.own kv hkv
      cases hs' : kv.2 with
      | profile =>
        rw [hs'] at this
        show Obj.code _ = _
        exact h1.code.trans (h.prof.code.symm.trans this)
      | user o => rw [hs'] at this; exact this
    refine ⟨⟨h1, h.keys, hown, ?_⟩, rfl⟩
    have e1 := objs_codes { n with profile := (n.profile.messageReceived env m).obj } hown
    have e2 := objs_codes n h.own
    have hd := h.desc
    show Describes (n.profile.messageReceived env m).obj _
    rw [show (n.putBack code Slot.profile ((n.deref Slot.profile).messageReceived env m).obj).objs.map Obj.code = _ from e1]
    rw [e2] at hd
    obtain ⟨d3, d5, d6, d4, l, hl, d7⟩ := hd
    exact ⟨by rw [h2 _ (by simp)]; exact d3, by rw [h2 _ (by simp)]; exact d5, by rw [h2 _ (by simp)]; exact d6,
      by rw [h2 _ (by simp)]; exact d4, l, hl, by rw [h2 _ (by simp)]; exact d7⟩
  | user o => exact putBack_user_inv h code o _ hg (messageReceived_code hs _ _)

theorem receive_inv {n : LocalNode} (h : NodeInv n) {env : Env} (hs : CodeStable env) (net : Net) (m : Msg) :
    NodeInv (n.messageReceived env net m).1 ∧
    Dict.keys (n.messageReceived env net m).1.node.objects = Dict.keys n.node.objects := by
  unfold LocalNode.messageReceived
  split
  · exact ⟨h, rfl⟩
  · cases Msg.copyOf (some m) with
    | error e => exact ⟨h, rfl⟩
    | ok req =>
      simp only []
      cases hg : n.node.getObject (.int req.deoj) with
      | none => exact ⟨h, rfl⟩
      | some s =>
        simp only []
        have hi := putBack_inv h hs req req.deoj s hg
        cases ((n.deref s).messageReceived env req).result with
        | error e => exact hi
        | ok res =>
          simp only []
          rw [answer_same]
          exact ⟨inv_mgr hi.1 _, hi.2⟩

/-! ### Histories -/

/-- What a program may do with a local node. -/
inductive NodeOp where
  | add (o : Obj)
  | receive (env : Env) (net : Net) (m : Msg)
  | enable (opt : Int) (v : Bool)
  | start (net : Net) (caller : Option Nat)
  | stop (caller : Option Nat)
  | announce (net : Net) (m : Msg)
  | send (net : Net) (m : Msg) (a : Option Addr)
  | update (code : Int) (f : Obj → Obj)

/-- The node afterwards, whether or not the call raised. -/
def NodeOp.run (ord : List Int → List Int) (n : LocalNode) : NodeOp → LocalNode
  | .add o => (n.addObject ord o).1
  | .receive env net m => (n.messageReceived env net m).1
  | .enable opt v => n.setEnabled opt v
  | .start net caller => (n.start net caller).1
  | .stop caller => (n.stop caller).1
  | .announce net m => (n.announceMessage net m).1
  | .send net m a => (n.sendMessage net m a).1
  | .update code f => n.update code f

def runOps (ord : List Int → List Int) (n : LocalNode) (ops : List NodeOp) : LocalNode :=
  ops.foldl (NodeOp.run ord) n

/-- The only restriction: user supplied handlers, and the program itself, leave the codes of added objects alone. -/
def NodeOp.Allowed : NodeOp → Prop
  | .receive env _ _ => CodeStable env
  | .update _ f => ∀ o, (f o).code = o.code
  | _ => True

/-- The objects of the node's table after a history. -/
theorem run_inv {ord : List Int → List Int} (hord : ValidOrder ord) (n : LocalNode) (op : NodeOp) (h : NodeInv n)
    (ha : op.Allowed) :
    NodeInv (op.run ord n) ∧
    Dict.keys (op.run ord n).node.objects = (match op with
      | .add o => if o.code ∈ Dict.keys n.node.objects then Dict.keys n.node.objects else Dict.keys n.node.objects ++ [o.code]
      | _ => Dict.keys n.node.objects) ∧ (op.run ord n).controller = n.controller := by
  cases op with
  | add o =>
    obtain ⟨-, h2, h3, -, h5, -⟩ := addObject_inv hord n o h
    refine ⟨h2, ?_, h5⟩
    show Dict.keys (n.addObject ord o).1.node.objects = _
    rw [h3, Dict.keys_set]
  | receive env net m =>
    refine ⟨(receive_inv h ha net m).1, (receive_inv h ha net m).2, ?_⟩
    show (n.messageReceived env net m).1.controller = _
    unfold LocalNode.messageReceived
    split
    · rfl
    · cases Msg.copyOf (some m) with
      | error e => rfl
      | ok req =>
        simp only []
        cases hg : n.node.getObject (.int req.deoj) with
        | none => rfl
        | some s =>
          simp only []
          have hp : ∀ o, (n.putBack req.deoj s o).controller = n.controller := by intro o; cases s <;> rfl
          cases ((n.deref s).messageReceived env req).result with
          | error e => exact hp _
          | ok res =>
            simp only []
            rw [answer_same]
            exact hp _
  | enable opt v =>
    have : NodeInv (n.setEnabled opt v) ∧ Dict.keys (n.setEnabled opt v).node.objects = Dict.keys n.node.objects ∧
        (n.setEnabled opt v).controller = n.controller := by
      unfold LocalNode.setEnabled
      split
      · exact ⟨⟨h.prof, h.keys, h.own, h.desc⟩, rfl, rfl⟩
      · exact ⟨⟨h.prof, h.keys, h.own, h.desc⟩, rfl, rfl⟩
    exact this
  | start net caller =>
    have : NodeInv (n.start net caller).1 ∧ Dict.keys (n.start net caller).1.node.objects = Dict.keys n.node.objects ∧
        (n.start net caller).1.controller = n.controller := by
      unfold LocalNode.start
      rcases n.mgr.start net caller [] with ⟨g, e | b⟩
      · exact ⟨⟨h.prof, h.keys, h.own, h.desc⟩, rfl, rfl⟩
      · cases b
        · exact ⟨⟨h.prof, h.keys, h.own, h.desc⟩, rfl, rfl⟩
        · exact ⟨⟨h.prof, h.keys, h.own, h.desc⟩, rfl, rfl⟩
    exact this
  | stop caller => exact ⟨⟨h.prof, h.keys, h.own, h.desc⟩, rfl, rfl⟩
  | announce net m => exact ⟨⟨h.prof, h.keys, h.own, h.desc⟩, rfl, rfl⟩
  | send net m a => exact ⟨⟨h.prof, h.keys, h.own, h.desc⟩, rfl, rfl⟩
  | update code f =>
    have : NodeInv (n.update code f) ∧ Dict.keys (n.update code f).node.objects = Dict.keys n.node.objects ∧
        (n.update code f).controller = n.controller := by
      unfold LocalNode.update
      split
      · rename_i o hg
        obtain ⟨h1, h2⟩ := putBack_user_inv h code o (f o) hg (ha o)
        exact ⟨h1, h2, rfl⟩
      · exact ⟨h, rfl, rfl⟩
    exact this

theorem runOps_inv {ord : List Int → List Int} (hord : ValidOrder ord) (ops : List NodeOp) : ∀ (n : LocalNode), NodeInv n →
    (∀ op ∈ ops, op.Allowed) → NodeInv (runOps ord n ops) ∧ (runOps ord n ops).controller = n.controller := by
  induction ops with
  | nil => intro n h _; exact ⟨h, rfl⟩
  | cons op ops ih =>
    intro n h ha
    have h1 := run_inv hord n op h (ha op (List.mem_cons_self ..))
    have h2 := ih (op.run ord n) h1.1 (fun x hx => ha x (List.mem_cons_of_mem _ hx))
    exact ⟨h2.1, h2.2.trans h1.2.2⟩

end Uecho
