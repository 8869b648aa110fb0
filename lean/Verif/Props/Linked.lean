/- C89, C90, C91: messages sent through objects and properties of found nodes; copies of objects. -/
import Verif.Lemmas.Linked

namespace Uecho
open Spec

/-! ## C89 -/

/-- C89. `obj.send_message(esv, props)` of an object of a node a controller has found returns True after
sending one datagram to port 3610 of the node, which decodes to a message from 0x0EF001 to the object with the
service and the properties. -/
theorem C89_send {ord : List Int → List Int} (hord : ValidOrder ord) {c : Ctl} {ops : List CtlOp} (h : CtlReach ord c ops)
    (net : Net) (hs : NetWorks net) (hw : CanSend c.ln.mgr) (r : Remote) (hr : r ∈ c.nodes) (o : Obj) (hcode : 0 ≤ o.code ∧ o.code < 2 ^ 24)
    (esv : Int) (h2 : ¬ TwoSections esv) (l : List (Int × Bytes)) (hm : FitsDatagram { esv := esv, props := asProps l }) :
    (c.objSend net (.remote r) o esv (some (asItems l))).2 = .ok true ∧
    ∃ i d, (c.objSend net (.remote r) o esv (some (asItems l))).1.ln.mgr.log = c.ln.mgr.log ++ [(⟨i, (r.node.ip, 3610), d⟩, (d.length : Int))] ∧
      (c.objSend net (.remote r) o esv (some (asItems l))).1.found = c.found ∧
      ∀ a, ∃ t, 1 ≤ t ∧ t ≤ 65535 ∧
        Decodes d a { tid := t, seoj := 0x0EF001, deoj := o.code, esv := esv, props := asProps l, fromAddr := some a } := by
  obtain ⟨hl, hg, hp⟩ := found_node hord h r hr
  have hmsg := (C35_built_message o esv (some (asItems l))).1 l rfl
  have hm1 : Encodable ({ deoj := o.code, esv := esv, props := asProps l } : Msg) := by
    have := hm.1; unfold Encodable at this ⊢; exact this
  have hm2 : (encode ({ deoj := o.code, esv := esv, props := asProps l } : Msg)).length ≤ 1024 := by
    have := hm.2; rw [encode_length] at this ⊢; exact this
  obtain ⟨i, t, q, p1, p2, p3, p4, p5, p6, p7, p8, -, -⟩ := post_sent hord h net hs hw { deoj := o.code, esv := esv, props := asProps l } hm1
    (show (0 : Int) ≤ 0 ∧ (0 : Int) ≤ 65535 by decide) (.remote r) (r.node.ip, 3610) (show some (r.node.ip, r.node.port) = _ by rw [hp])
  have he : c.objSend net (.remote r) o esv (some (asItems l)) =
      ({ (c.postBegin net { deoj := o.code, esv := esv, props := asProps l } (.remote r)).1 with last := c.last },
        (c.postBegin net { deoj := o.code, esv := esv, props := asProps l } (.remote r)).2) := by
    unfold Ctl.objSend
    rw [hmsg]
    simp only [Owner.controller, hl, if_true]
    rfl
  rw [he]
  refine ⟨p1, i, _, p2, p8, ?_⟩
  intro a
  exact ⟨t, p5, p6, request_arrives _ t hm1 hm2 a ⟨p5, p6⟩ h2 o.code rfl hcode⟩

/-- C89. `prop.send_message(esv, data)` of a property of a found node sends one datagram to port 3610 of the node,
which decodes to a message to the object with the service and that one property with the data, and returns True. -/
theorem C89_send_property {ord : List Int → List Int} (hord : ValidOrder ord) {c : Ctl} {ops : List CtlOp} (h : CtlReach ord c ops)
    (net : Net) (hs : NetWorks net) (hw : CanSend c.ln.mgr) (r : Remote) (hr : r ∈ c.nodes) (o : Obj) (hcode : 0 ≤ o.code ∧ o.code < 2 ^ 24)
    (code esv : Int) (data : Bytes) (h2 : ¬ TwoSections esv) (hm : FitsDatagram { esv := esv, props := [{ code := code, data := data }] }) :
    (c.propSend net (some (.remote r, o)) code esv data).2 = .ok true ∧
    ∃ i d, (c.propSend net (some (.remote r, o)) code esv data).1.ln.mgr.log = c.ln.mgr.log ++ [(⟨i, (r.node.ip, 3610), d⟩, (d.length : Int))] ∧
      (c.propSend net (some (.remote r, o)) code esv data).1.found = c.found ∧
      ∀ a, ∃ t, 1 ≤ t ∧ t ≤ 65535 ∧
        Decodes d a { tid := t, seoj := 0x0EF001, deoj := o.code, esv := esv, props := [{ code := code, data := data }], fromAddr := some a } :=
  C89_send hord h net hs hw r hr o hcode esv h2 [(code, data)] hm

/-- C89. Anything but a list of (int, bytes) pairs: nothing is sent and False (None for `post_message`) is
returned. -/
theorem C89_malformed (c : Ctl) (net : Net) (own : Owner) (o : Obj) (esv : Int) (arg : Option (List Obj.PyItem))
    (h : ¬ ∃ l, arg = some (asItems l)) : c.objSend net own o esv arg = (c, .ok false) ∧ c.objPostBegin net own o esv arg = (c, .ok false) := by
  have := (C35_built_message o esv arg).2 h
  unfold Ctl.objSend Ctl.objPostBegin
  rw [this]
  exact ⟨rfl, rfl⟩

example : ¬ ∃ l, some [Obj.PyItem.pair 0x80 [], .bad] = some (asItems l) := by
  rintro ⟨l, h⟩
  injection h with h
  have := congrArg (fun l => l[1]?) h
  unfold asItems at this
  simp only [List.getElem?_map] at this
  cases h1 : l[1]? <;> rw [h1] at this <;> cases this

/-- C89. `prop.post_message(0x62)` of a property of a found node, whose device answers: the response carries the
device's current data of that property, and nothing at the device changes. `ro` is the object of the found node, `o`
the device's. -/
theorem C89_post_read {ord : List Int → List Int} (hord : ValidOrder ord) {c : Ctl} {n : LocalNode} (hc : Connected ord c n)
    (w : World) (hw : w.Works) (ca : Addr) (r : Remote) (hr : r ∈ c.nodes) (ro : Obj)
    (o : Obj) (hcode : 0 ≤ ro.code ∧ ro.code < 2 ^ 24) (ho : n.getObject (.int ro.code) = some o) (hwf : WellFormed o) (hh : o.handler = .self_) (hq : ∀ m, Quiet w.env o m)
    (p : OProp) (hk : lookup o.props p.code = some p) (hb : 0 ≤ p.code ∧ p.code < 256) (hrd : CanRead p) (hlen : p.data.length < 256)
    (hl : instanceListOf { props := [{ code := p.code, data := p.data }] } ≠ .empty) :
    ∃ c' n' t, ExchangeBy ord w ca (r.node.ip, 3610) (c.propPostBegin w.cnet (some (.remote r, ro)) p.code 0x62 []) c n c' n'
        { tid := t, seoj := ro.code, deoj := 0x0EF001, esv := 0x72, props := [{ code := p.code, data := p.data }], fromAddr := some (r.node.ip, 3610) } ∧
      Connected ord c' n' ∧ ∀ k, n'.getObject (.int k) = n.getObject (.int k) := by
  obtain ⟨ops, hreach⟩ := hc.ctl
  obtain ⟨hln, hg, hp⟩ := found_node hord hreach r hr
  have hf : Found c r.node.ip := (Dict.get?_isSome_iff _ _).mp (by rw [hg]; rfl)
  have hfit : ∀ (e : Int) (d : Bytes), 0 ≤ e ∧ e < 256 → ¬ TwoSections e → d.length < 256 →
      FitsDatagram { esv := e, props := [{ code := p.code, data := d }] } := by
    intro e d he h2 hd
    unfold FitsDatagram Encodable
    rw [if_neg h2, encode_length]
    refine ⟨⟨he, by simp, ?_⟩, ?_⟩
    · intro q hq
      rw [List.mem_singleton] at hq
      subst hq
      exact ⟨hb.1, hb.2, hd⟩
    · unfold encBody
      rw [if_neg h2]
      simp [encSection, encItems, encItem]
      omega
  obtain ⟨c', n', t, ⟨c1, d, ⟨i, j, q, e1, e2, e3, e4⟩, e5, e6⟩, -, h3, -, h4⟩ := exchange hord hc w hw ca (r.node.ip, 3610) (.remote r)
    (show some (r.node.ip, r.node.port) = _ by rw [hp]) { deoj := ro.code, esv := 0x62, props := [{ code := p.code }] }
    (by
      have := hfit 0x62 [] (by decide) (by decide) (by simp)
      refine ⟨?_, ?_⟩
      · have := this.1; unfold Encodable at this ⊢; exact this
      · have := this.2; rw [encode_length] at this ⊢; exact this)
    (show (0 : Int) ≤ 0 ∧ (0 : Int) ≤ 65535 by decide) (show ¬ TwoSections 0x62 by decide) hcode o ho o 0x72 (by decide) [{ code := p.code, data := p.data }]
    (by
      intro t req
      obtain ⟨k1, k2⟩ := read_known w.env o req hwf hh (hq _) rfl ⟨rfl, rfl⟩ (by
        intro i hi
        rw [List.mem_singleton] at hi
        subst hi
        exact ⟨p, hk, hrd⟩)
      refine ⟨k1, ?_⟩
      rw [k2]
      have : (o.getPropertyData p.code).getD [] = p.data := by rw [getPropertyData_eq, hk]; rfl
      show Except.ok (some ({ tid := t, seoj := ro.code, deoj := 0x0EF001, esv := 0x72, props := [{ code := p.code, data := (o.getPropertyData p.code).getD [] }] } : Msg)) = _
      rw [this])
    (hfit 0x72 p.data (by decide) (by decide) hlen) (fun _ => ⟨hf, hl⟩)
  refine ⟨c', n', t, ⟨c1, i, j, q, d, ?_, e2, e3, e4, e5, e6⟩, h3, ?_⟩
  · rw [propPost_eq _ _ _ hln]; exact e1
  · intro k
    rw [h4 k]
    split
    · rename_i e
      rw [e]
      exact ho.symm
    · rfl

/-- C89. `prop.post_message(0x61, data)` of a property the device lets be written: the response says so, the device's
property has the data, nothing else at the device changes. -/
theorem C89_post_write {ord : List Int → List Int} (hord : ValidOrder ord) {c : Ctl} {n : LocalNode} (hc : Connected ord c n)
    (w : World) (hw : w.Works) (ca : Addr) (r : Remote) (hr : r ∈ c.nodes) (ro : Obj)
    (o : Obj) (hcode : 0 ≤ ro.code ∧ ro.code < 2 ^ 24) (ho : n.getObject (.int ro.code) = some o) (hwf : WellFormed o) (hh : o.handler = .self_) (hq : ∀ m, Quiet w.env o m)
    (p : OProp) (hk : lookup o.props p.code = some p) (hb : 0 ≤ p.code ∧ p.code < 256) (hwr : CanWrite p) (data : Bytes) (hlen : data.length < 256) :
    ∃ c' n' t, ExchangeBy ord w ca (r.node.ip, 3610) (c.propPostBegin w.cnet (some (.remote r, ro)) p.code 0x61 data) c n c' n'
        { tid := t, seoj := ro.code, deoj := 0x0EF001, esv := 0x71, props := [{ code := p.code }], fromAddr := some (r.node.ip, 3610) } ∧
      Connected ord c' n' ∧ (∀ k, k ≠ ro.code → n'.getObject (.int k) = n.getObject (.int k)) ∧
      ∃ o', n'.getObject (.int ro.code) = some o' ∧ ∀ k, lookup o'.props k = if k = p.code then some { p with data := data } else lookup o.props k := by
  obtain ⟨ops, hreach⟩ := hc.ctl
  obtain ⟨hln, hg, hp⟩ := found_node hord hreach r hr
  have hfit : ∀ (e : Int) (d : Bytes), 0 ≤ e ∧ e < 256 → ¬ TwoSections e → d.length < 256 →
      FitsDatagram { esv := e, props := [{ code := p.code, data := d }] } := by
    intro e d he h2 hd
    unfold FitsDatagram Encodable
    rw [if_neg h2, encode_length]
    refine ⟨⟨he, by simp, ?_⟩, ?_⟩
    · intro q hq
      rw [List.mem_singleton] at hq
      subst hq
      exact ⟨hb.1, hb.2, hd⟩
    · unfold encBody
      rw [if_neg h2]
      simp [encSection, encItems, encItem]
      omega
  obtain ⟨c', n', t, ⟨c1, d, ⟨i, j, q, e1, e2, e3, e4⟩, e5, e6⟩, -, h3, -, h4⟩ := exchange hord hc w hw ca (r.node.ip, 3610) (.remote r)
    (show some (r.node.ip, r.node.port) = _ by rw [hp]) { deoj := ro.code, esv := 0x61, props := [{ code := p.code, data := data }] }
    (by
      have := hfit 0x61 data (by decide) (by decide) hlen
      refine ⟨?_, ?_⟩
      · have := this.1; unfold Encodable at this ⊢; exact this
      · have := this.2; rw [encode_length] at this ⊢; exact this)
    (show (0 : Int) ≤ 0 ∧ (0 : Int) ≤ 65535 by decide) (show ¬ TwoSections 0x61 by decide) hcode o ho (afterWrites o [{ code := p.code, data := data }]) 0x71 (by decide) [{ code := p.code }]
    (by
      intro t req
      obtain ⟨k1, k2⟩ := write_known w.env o req hwf hh (hq _) rfl ⟨rfl, rfl⟩ (by
        intro i hi
        rw [List.mem_singleton] at hi
        subst hi
        exact ⟨p, hk, hwr⟩)
      exact ⟨k1, k2⟩)
    (hfit 0x71 [] (by decide) (by decide) (by simp)) (by intro e; exact absurd e (by decide))
  refine ⟨c', n', t, ⟨c1, i, j, q, d, ?_, e2, e3, e4, e5, e6⟩, h3, ?_, ⟨_, by rw [h4, if_pos rfl], ?_⟩⟩
  · rw [propPost_eq _ _ _ hln]; exact e1
  · intro k hk
    rw [h4 k, if_neg hk]
  · intro k
    rw [lookup_afterWrites]
    unfold lastFor
    by_cases e : k = p.code
    · subst e
      simp [hk]
    · have e' : p.code ≠ k := fun x => e x.symm
      simp [e, e']

example {ord : List Int → List Int} (hord : ValidOrder ord) : ∃ c n r, Connected ord c n ∧ r ∈ c.nodes ∧ r.node.ip = "10.0.0.9" ∧
    n.getObject (.int 0x029101) = some exObj := by
  obtain ⟨-, c, n, -, -, h1, h2, h3⟩ := ex_connected hord
  obtain ⟨ops, hr⟩ := h1.ctl
  obtain ⟨r, hg⟩ := Option.isSome_iff_exists.mp ((Dict.get?_isSome_iff c.found "10.0.0.9").mpr h2)
  obtain ⟨p, hp⟩ := ((reach_knows hord hr).1.nodes _ _ hg).addr
  exact ⟨c, n, r, h1, List.mem_map_of_mem (f := Prod.snd) (Dict.mem_of_get? _ _ _ hg), by rw [ip_of_address _ _ hp], h3⟩
example : ∃ p, lookup exObj.props p.code = some p ∧ CanRead p ∧ CanWrite p ∧ p.code = 0x80 :=
  ⟨{ code := 0x80, data := [0x30], attrGet := 1, attrSet := 1, attrAnno := 1 }, by decide, by decide, by decide, rfl⟩

/-! ## C90 -/

/-- C90 (what holds): for an object of a found node, a list of pairs that can be encoded and a network on which sending
raises nothing, `send_message` returns True or False. Missing: `C90_result_false`. -/
theorem C90_result_partial {ord : List Int → List Int} (hord : ValidOrder ord) {c : Ctl} {ops : List CtlOp} (h : CtlReach ord c ops)
    (net : Net) (hn : ∀ n i d b e, net.sendto n i d b ≠ .error e) (r : Remote) (hr : r ∈ c.nodes) (o : Obj) (esv : Int) (l : List (Int × Bytes))
    (hm : Encodable { esv := esv, props := asProps l }) :
    ∃ b, (c.objSend net (.remote r) o esv (some (asItems l))).2 = .ok b := by
  rw [objSend_eq _ _ _ (found_node hord h r hr).1]
  have he : Encodable (outgoing c.ln { deoj := o.code, esv := esv, props := asProps l }) := by
    rw [outgoing_encodable]
    unfold Encodable at hm ⊢
    exact hm
  rcases (C74_other_interfaces_partial net c.ln.mgr _ (r.node.ip, r.node.port) he hn).1 with e | ⟨e, -⟩
  · exact ⟨_, e⟩
  · exact ⟨_, e⟩

/-- C90 (what holds for properties): as for objects. Missing: `C90_result_false`. -/
theorem C90_property_partial {ord : List Int → List Int} (hord : ValidOrder ord) {c : Ctl} {ops : List CtlOp} (h : CtlReach ord c ops)
    (net : Net) (hn : ∀ n i d b e, net.sendto n i d b ≠ .error e) (r : Remote) (hr : r ∈ c.nodes) (o : Obj) (code esv : Int) (data : Bytes)
    (hm : Encodable { esv := esv, props := [{ code := code, data := data }] }) :
    ∃ b, (c.propSend net (some (.remote r, o)) code esv data).2 = .ok b :=
  C90_result_partial hord h net hn r hr o esv [(code, data)] hm

/-- C90 is false: every object without a node, every object of a local node or of a controller, every object of a remote node no
controller has found, and every property without an object raises AttributeError, whatever is sent; and on a controller that can
send, what does not fit in a message (say, 256 bytes of data) raises ValueError. -/
theorem C90_result_false (net : Net) (c : Ctl) (o : Obj) (esv : Int) (l : List (Int × Bytes)) (code : Int) (data : Bytes) :
    c.objSend net .nobody o esv (some (asItems l)) = (c, .error .attributeError) ∧
    (∀ n, c.objSend net (.local_ n) o esv (some (asItems l)) = (c, .error .attributeError)) ∧
    (∀ r, r.linked = false → c.objSend net (.remote r) o esv (some (asItems l)) = (c, .error .attributeError)) ∧
    c.propSend net none code esv data = (c, .error .attributeError) ∧
    (∀ n, c.propSend net (some (.local_ n, o)) code esv data = (c, .error .attributeError)) ∧
    (∀ r, r.linked = true → CanSend c.ln.mgr → ¬ Encodable { esv := esv, props := asProps l } →
      (c.objSend net (.remote r) o esv (some (asItems l))).2 = .error .valueError) := by
  have hmsg : ∀ l, o.createMessage esv (some (asItems l)) = _ := fun l => (C35_built_message o esv (some (asItems l))).1 l rfl
  refine ⟨?_, ?_, ?_, rfl, ?_, ?_⟩
  · unfold Ctl.objSend; rw [hmsg]; rfl
  · intro n; unfold Ctl.objSend; rw [hmsg]; rfl
  · intro r hr; unfold Ctl.objSend; rw [hmsg]; simp only [Owner.controller, hr]; rfl
  · intro n
    show c.objSend net (.local_ n) o esv (some (asItems [(code, data)])) = _
    unfold Ctl.objSend; rw [hmsg]; rfl
  · intro r hr hw hm
    rw [objSend_eq _ _ _ hr]
    have he : ¬ Encodable (outgoing c.ln { deoj := o.code, esv := esv, props := asProps l }) := by
      rw [outgoing_encodable]
      unfold Encodable at hm ⊢
      exact hm
    rw [(C54_send_unfit net c.ln.mgr _ (r.node.ip, r.node.port) he).2, if_neg hw]

example : ¬ Encodable { esv := 0x61, props := asProps [(0x80, List.replicate 256 0)] } := by
  unfold Encodable
  rw [if_neg (by decide)]
  intro h
  have := (h.2.2 _ (List.mem_singleton.mpr rfl)).2.2
  rw [List.length_replicate] at this
  omega

/-! ## C91 -/

/-- C91 (what holds): `copy()` of an object without a node, of a node that is not running or of a remote node without a controller
gives an object with the code and with the properties, attributes and data; it has no handler, no observers and no node. Missing:
`C91_found_false`, `C91_handler_false`. -/
theorem C91_copy_partial (own : Owner) (h : own.deepcopy = .ok ()) (o : Obj) (hw : WellFormed o) :
    o.copyOwned own = .ok { code := o.code, props := o.props } ∧ o.copy = { code := o.code, props := o.props } := by
  have hf : (Dict.values o.props).foldl Obj.addPropertyBase { code := o.code } = { code := o.code, props := o.props } := by
    rw [foldl_addPropertyBase o.props { code := o.code } (by simpa using hw.1) hw.2]
    rfl
  refine ⟨?_, hf⟩
  unfold Obj.copyOwned
  rw [copyLoop_ok own h, hf]

example : (Owner.nobody.deepcopy = .ok ()) ∧ WellFormed exObj ∧ exObj.copy.props = exObj.props := ⟨rfl, by decide, by decide⟩

/-- C91 is false of the objects of found nodes: `copy()` of every one of them raises TypeError. -/
theorem C91_found_false {ord : List Int → List Int} (hord : ValidOrder ord) {c : Ctl} {ops : List CtlOp} (h : CtlReach ord c ops)
    (r : Remote) (hr : r ∈ c.nodes) (k : Int) (o : Obj) (ho : r.node.getObject (.int k) = some o) : o.copyOwned (.remote r) = .error .typeError := by
  obtain ⟨hl, hg, -⟩ := found_node hord h r hr
  have hs := found_standard hord h _ _ hg k o ho
  obtain ⟨o', h1, -, -, -, h5, -⟩ := C39_device_properties ord hord (.int k) k rfl
  have hd : devObj ord k = o' := by unfold devObj; rw [h1]
  have hp : (lookup o.props 0x80).map (fun p => { p with data := [] }) = deviceProp (k / 65536 % 256) (k / 256 % 256) 0x80 := by
    rw [known_of_skeleton hs, hd]; exact h5 0x80
  have hb : (deviceProp (k / 65536 % 256) (k / 256 % 256) 0x80).isSome = true := by
    unfold deviceProp
    rw [Option.isSome_map, Option.isSome_or]
    have : ((stdClass 0 0).bind (lineFor · 0x80)).isSome = true := by decide +kernel
    rw [this, Bool.or_true]
  unfold Obj.copyOwned
  cases hps : o.props with
  | nil =>
    rw [hps] at hp
    rw [← hp] at hb
    cases hb
  | cons kp ps =>
    show Obj.copyLoop (.remote r) (kp.2 :: Dict.values ps) _ = _
    unfold Obj.copyLoop OProp.copy Owner.deepcopy
    simp only [hl, if_true]

/-- C91 is false of what an object does: the copy of an object answers no request, whatever the object answers. -/
theorem C91_handler_false (env : Env) (o : Obj) (hw : WellFormed o) (m : Msg) : o.copy.handleRequest env m = (o.copy, .ok none) :=
  handle_not_request env o.copy m (Or.inr (by rw [(C91_copy_partial .nobody rfl o hw).2]))

/-! ## C92 -/

/-- C92 (what holds). Whatever a controller has received, an object of a node it found has its code, the properties of its class in the
standard tables with their access rules, and no others. Missing: `C92_reported_false`. -/
theorem C92_properties_partial {ord : List Int → List Int} (hord : ValidOrder ord) {c : Ctl} {ops : List CtlOp} (h : CtlReach ord c ops)
    (r : Remote) (hr : r ∈ c.nodes) (k : Int) (o : Obj) (ho : r.node.getObject (.int k) = some o) :
    o.code = k ∧ WellFormed o ∧ o.handler = .self_ ∧
    ∀ pc, (lookup o.props pc).map (fun p => { p with data := [] }) = deviceProp (k / 65536 % 256) (k / 256 % 256) pc := by
  obtain ⟨hl, hg, -⟩ := found_node hord h r hr
  have hs := found_standard hord h _ _ hg k o ho
  obtain ⟨o', h1, h2, h3, h4, h5, -⟩ := C39_device_properties ord hord (.int k) k rfl
  have hd : devObj ord k = o' := by unfold devObj; rw [h1]
  rw [← hd] at h2 h3 h4 h5
  refine ⟨(congrArg Obj.code hs).trans h2, wf_of_skeleton hs h4, (handler_of_skeleton hs).trans h3, ?_⟩
  intro pc
  rw [known_of_skeleton hs]
  exact h5 pc

/-- C92 is false: a property that is not in the standard's tables (say, one of those left to the manufacturer, 0xF0) stays unknown to the
controller although the device has reported it and its own property map lists it. -/
theorem C92_reported_false {ord : List Int → List Int} (hord : ValidOrder ord) {c : Ctl} {ops : List CtlOp} (h : CtlReach ord c ops)
    (r : Remote) (hr : r ∈ c.nodes) (k pc : Int) (o : Obj) (ho : r.node.getObject (.int k) = some o)
    (hu : deviceProp (k / 65536 % 256) (k / 256 % 256) pc = none) : o.getPropertyData pc = none ∧ o.hasProperty pc = false := by
  have := (C92_properties_partial hord h r hr k o ho).2.2.2 pc
  rw [hu, Option.map_eq_none_iff] at this
  rw [getPropertyData_eq, this]
  refine ⟨rfl, ?_⟩
  unfold Obj.hasProperty
  rw [show o.getProperty pc = lookup o.props pc from (lookup_eq o.props pc).symm, this]

example : deviceProp 0x02 0x91 0xF0 = none := by decide +kernel
example {ord : List Int → List Int} (hord : ValidOrder ord) : ∃ c ops r o, CtlReach ord c ops ∧ r ∈ c.nodes ∧ r.node.getObject (.int 0x0EF001) = some o := by
  obtain ⟨-, c, n, -, -, h1, h2, h3⟩ := ex_connected hord
  obtain ⟨ops, hr⟩ := h1.ctl
  obtain ⟨r, hg⟩ := Option.isSome_iff_exists.mp ((Dict.get?_isSome_iff c.found "10.0.0.9").mpr h2)
  have hk := (reach_knows hord hr).2 "10.0.0.9"
  rw [hg] at hk
  have hm : (0x0EF001 : Int) ∈ Dict.keys r.node.objects := by
    cases hl : latest (heard ops) "10.0.0.9" with
    | none => rw [hl] at hk; cases hk
    | some x =>
      rw [hl] at hk
      injection hk with hk
      rw [(Prod.mk.inj hk).2]
      exact (mem_addCodes _ _ _).mpr (Or.inl (by simp))
  obtain ⟨o, ho⟩ := Option.isSome_iff_exists.mp ((Dict.get?_isSome_iff _ _).mpr hm)
  exact ⟨c, ops, r, o, hr, List.mem_map_of_mem (f := Prod.snd) (Dict.mem_of_get? _ _ _ hg), ho⟩

end Uecho
