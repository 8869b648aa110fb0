import Verif.Spec.Verbose
import Verif.Lemmas.Tools
import Verif.Lemmas.Session
import Verif.Lemmas.Linked
import Verif.Props.Names

namespace Uecho
open Spec Tools

/-- The machines can answer for the objects in `T` and have the data `s`. -/
def Ready (ord : List Int → List Int) (k : Side) (T : String → Int → Prop) (s : Store) (c : Ctl) (H : Machines) : Prop :=
  H.store = s ∧ ∀ ip obj, T ip obj → Serves ord k c H ip obj

theorem ready_meanwhile {ord : List Int → List Int} {k : Side} {T : String → Int → Prop} {s : Store} {c c1 : Ctl} {H H1 : Machines} (h : Ready ord k T s c H)
    (hm : Meanwhile ord k c H c1 H1) : Ready ord k T s c1 H1 := ⟨hm.2.trans h.1, fun ip obj ht => hm.1 ip obj (h.2 ip obj ht)⟩

theorem postBegin_dest (net : Net) (c : Ctl) (m : Msg) (d d' : PyDest) (h : Ctl.toAddr d = Ctl.toAddr d') : c.postBegin net m d = c.postBegin net m d' := by
  unfold Ctl.postBegin Ctl.sendMessage
  rw [h]

theorem exchange_dest {ord : List Int → List Int} {w : World} {ca da : Addr} {d d' : PyDest} {c : Ctl} {n : LocalNode} {m m' : Msg} {c' : Ctl} {n' : LocalNode} {r : Msg}
    (h : c.postBegin w.cnet m d = c.postBegin w.cnet m' d') (hx : Exchange ord w ca da d c n m c' n' r) : Exchange ord w ca da d' c n m' c' n' r := by
  obtain ⟨c1, b, ⟨i, j, q, a1, a2⟩, a3⟩ := hx
  exact ⟨c1, b, ⟨i, j, q, h ▸ a1, a2⟩, a3⟩

/-- A read of one property. -/
theorem ask {ord : List Int → List Int} (hord : ValidOrder ord) {k : Side} {T : String → Int → Prop} {s : Store} {c : Ctl} {H : Machines} (h : Ready ord k T s c H)
    (r : Remote) (hp : r.node.port = 3610) (obj code : Int) (ht : T r.node.ip obj) (hf : s.Fits [.read r.node.ip obj [code]]) :
    ∃ x c1 n1 res, H r.node.ip = some x ∧
      Exchange ord (k.world x) k.addr x.addr (.remote r) c x.node { deoj := obj, esv := 0x62, props := [{ code := code }] } c1 n1 res ∧
      res.props = [{ code := code, data := s.data r.node.ip obj code }] ∧ Ready ord k T s c1 (H.put r.node.ip n1) := by
  obtain ⟨f1, f2, f3, f4, -⟩ := hf
  have hs := h.1
  subst hs
  obtain ⟨x, c1, n1, t, a1, a2, a3, a4⟩ := session_step hord k c H (.read r.node.ip obj [code]) (h.2 _ _ ht) f1 f2 f3 f4
  refine ⟨x, c1, n1, _, a1, exchange_dest (postBegin_dest _ _ _ _ _ ?_) a2, ?_, a3, fun ip o ho => a4 ip o (h.2 ip o ho)⟩
  · show some (r.node.ip, 3610) = some (r.node.ip, r.node.port)
    rw [hp]
  · rfl

theorem propSend_eq (net : Net) (c : Ctl) (r : Remote) (hl : r.linked = true) (o : Obj) (code esv : Int) (d : Bytes) :
    c.propSend net (some (.remote r, o)) code esv d =
      ((c.sendMessage net { deoj := o.code, esv := esv, props := [{ code := code, data := d }] } (.remote r)).1,
       (c.sendMessage net { deoj := o.code, esv := esv, props := [{ code := code, data := d }] } (.remote r)).2.2) := by
  have hmsg : o.createMessage esv (some [.pair code d]) = some { deoj := o.code, esv := esv, props := [{ code := code, data := d }] } :=
    (C35_built_message o esv (some [.pair code d])).1 [(code, d)] rfl
  show c.objSend net (.remote r) o esv (some [.pair code d]) = _
  unfold Ctl.objSend
  rw [hmsg]
  simp only [Owner.controller, hl, if_true]

/-- What sending does to a controller is what posting does, but for the slot of posted messages. -/
theorem send_post (net : Net) (c : Ctl) (m : Msg) (d : PyDest) :
    (c.sendMessage net m d).1.ln = (c.postBegin net m d).1.ln ∧ (c.sendMessage net m d).1.found = c.found ∧ (c.sendMessage net m d).1.last = c.last ∧
      (c.sendMessage net m d).2.2 = (c.postBegin net m d).2 := ⟨rfl, rfl, rfl, rfl⟩

/-- Sending succeeds and leaves everything ready. -/
theorem sent_ready {ord : List Int → List Int} (hord : ValidOrder ord) {k : Side} {T : String → Int → Prop} {s : Store} {c : Ctl} {H : Machines} (h : Ready ord k T s c H)
    (r : Remote) (hl : r.linked = true) (o : Obj) (code : Int) (ht : T r.node.ip o.code) (hf : s.Fits [.read r.node.ip o.code [code]]) :
    ∃ c1, c.propSend k.cnet (some (.remote r, o)) code 0x62 [] = (c1, .ok true) ∧ Ready ord k T s c1 H := by
  obtain ⟨f1, -⟩ := hf
  rw [propSend_eq _ _ _ hl]
  obtain ⟨⟨x, -, -, g3, g4, -⟩, -, -⟩ := h.2 _ _ ht
  obtain ⟨ops, hreach⟩ := g3.ctl
  obtain ⟨i, t, q, p1, -, -, -, -, -, -, -, -, p10⟩ := post_sent hord hreach k.cnet g4.cnet g3.ctlSends (Req.read r.node.ip o.code [code]).message f1.1 (show (0 : Int) ≤ 0 ∧ (0 : Int) ≤ 65535 by decide) (.remote r) _ rfl
  have e := send_post k.cnet c (Req.read r.node.ip o.code [code]).message (.remote r)
  refine ⟨_, Prod.ext rfl (e.2.2.2.trans p1), h.1, ?_⟩
  intro ip obj hto
  obtain ⟨⟨y, k1, k2, k3, k4⟩, k5, k6⟩ := h.2 ip obj hto
  refine ⟨⟨y, k1, k2, ⟨⟨_, ctl_snoc hreach (.send k.cnet (Req.read r.node.ip o.code [code]).message (.remote r)) trivial⟩, ?_, k3.dev, k3.device, k3.devSends⟩, k4⟩, k5, k6⟩
  unfold CanSend
  have : (c.sendMessage k.cnet (Req.read r.node.ip o.code [code]).message (.remote r)).1.ln.mgr.servers = c.ln.mgr.servers := p10
  have hs := k3.ctlSends
  unfold CanSend at hs
  rw [← this] at hs
  exact hs

/-! ### Steps of a run -/

section
variable {ord : List Int → List Int} {k : Side} {T : String → Int → Prop} {s : Store}

/-- `p` prints the lines `ls` and goes on as `q`: every run does, and there is one. -/
def Prints (ord : List Int → List Int) (k : Side) (T : String → Int → Prop) (s : Store) (p : Prog) (ls : List (List Char)) (q : Prog) : Prop :=
  ∀ c H, Ready ord k T s c H →
    (∀ c' H' out, Runs ord k c H p c' H' out → ∃ c1 H1 out1, Ready ord k T s c1 H1 ∧ Runs ord k c1 H1 q c' H' out1 ∧ out = ls ++ out1) ∧
    ∃ c1 H1, Ready ord k T s c1 H1 ∧ ∀ c' H' out1, Runs ord k c1 H1 q c' H' out1 → Runs ord k c H p c' H' (ls ++ out1)

theorem Prints.refl (p : Prog) : Prints ord k T s p [] p := fun c H h =>
  ⟨fun c' H' out hr => ⟨c, H, out, h, hr, rfl⟩, c, H, h, fun _ _ _ hr => hr⟩

theorem Prints.trans {p q r : Prog} {a b : List (List Char)} (h1 : Prints ord k T s p a q) (h2 : Prints ord k T s q b r) : Prints ord k T s p (a ++ b) r := by
  intro c H h
  obtain ⟨f1, c1, H1, g1, e1⟩ := h1 c H h
  refine ⟨?_, ?_⟩
  · intro c' H' out hr
    obtain ⟨c2, H2, out2, i1, i2, rfl⟩ := f1 c' H' out hr
    obtain ⟨c3, H3, out3, j1, j2, rfl⟩ := (h2 c2 H2 i1).1 c' H' out2 i2
    exact ⟨c3, H3, out3, j1, j2, by rw [List.append_assoc]⟩
  · obtain ⟨-, c2, H2, g2, e2⟩ := h2 c1 H1 g1
    exact ⟨c2, H2, g2, fun c' H' out hr => by rw [List.append_assoc]; exact e1 _ _ _ (e2 _ _ _ hr)⟩

theorem prints_print (l : List Char) (p : Prog) : Prints ord k T s (.print l p) [l] p := by
  intro c H h
  refine ⟨?_, c, H, h, fun c' H' out hr => .print hr⟩
  intro c' H' out hr
  generalize hq : Prog.print l p = q at hr
  induction hr with
  | print ht => cases hq; exact ⟨_, _, _, h, ht, rfl⟩
  | meanwhile hm ht ih => exact ih (ready_meanwhile h hm) hq
  | done => cases hq
  | post => cases hq
  | propSend => cases hq
  | propPost => cases hq

theorem prints_post (hord : ValidOrder ord) (r : Remote) (hp : r.node.port = 3610) (obj code : Int) (ht : T r.node.ip obj) (hf : s.Fits [.read r.node.ip obj [code]])
    (f : Option Msg → Prog) (g : List PProp → Prog) (hg : ∀ m, f (some m) = g m.props) :
    Prints ord k T s (.post { deoj := obj, esv := 0x62, props := [{ code := code }] } r f) [] (g [{ code := code, data := s.data r.node.ip obj code }]) := by
  intro c H h
  refine ⟨?_, ?_⟩
  · intro c' H' out hr
    generalize hq : Prog.post { deoj := obj, esv := 0x62, props := [{ code := code }] } r f = q at hr
    induction hr with
    | post x hx he ht' =>
      cases hq
      obtain ⟨y, c1, n1, res, b1, b2, b3, b4⟩ := ask hord h r hp obj code ht hf
      rw [b1] at hx
      obtain rfl := Option.some.inj hx
      obtain ⟨rfl, rfl, rfl⟩ := exchange_unique he b2
      rw [hg, b3] at ht'
      exact ⟨_, _, _, b4, ht', rfl⟩
    | meanwhile hm ht ih => exact ih (ready_meanwhile h hm) hq
    | done => cases hq
    | print => cases hq
    | propSend => cases hq
    | propPost => cases hq
  · obtain ⟨y, c1, n1, res, b1, b2, b3, b4⟩ := ask hord h r hp obj code ht hf
    refine ⟨c1, _, b4, fun c' H' out hr => .post y b1 b2 ?_⟩
    rw [hg, b3]
    exact hr

theorem prints_propPost (hord : ValidOrder ord) (r : Remote) (hl : r.linked = true) (hp : r.node.port = 3610) (o : Obj) (code : Int) (ht : T r.node.ip o.code)
    (hf : s.Fits [.read r.node.ip o.code [code]]) (f : Option Msg → Prog) (g : List PProp → Prog) (hg : ∀ m, f (some m) = g m.props) :
    Prints ord k T s (.propPost r o code 0x62 f) [] (g [{ code := code, data := s.data r.node.ip o.code code }]) := by
  intro c H h
  refine ⟨?_, ?_⟩
  · intro c' H' out hr
    generalize hq : Prog.propPost r o code 0x62 f = q at hr
    induction hr with
    | propPost x hx hm he ht' =>
      cases hq
      obtain ⟨y, c1, n1, res, b1, b2, b3, b4⟩ := ask hord h r hp o.code code ht hf
      rw [b1] at hx
      obtain rfl := Option.some.inj hx
      rw [propPost_eq _ _ _ hl] at hm
      obtain ⟨rfl, rfl, rfl⟩ := exchange_unique (exchange_dest hm.symm he) b2
      rw [hg, b3] at ht'
      exact ⟨_, _, _, b4, ht', rfl⟩
    | meanwhile hm ht ih => exact ih (ready_meanwhile h hm) hq
    | done => cases hq
    | print => cases hq
    | propSend => cases hq
    | post => cases hq
  · obtain ⟨y, c1, n1, res, b1, b2, b3, b4⟩ := ask hord h r hp o.code code ht hf
    refine ⟨c1, _, b4, fun c' H' out hr => .propPost y b1 (propPost_eq _ _ _ hl _ _ _ _) b2 ?_⟩
    rw [hg, b3]
    exact hr

theorem prints_propSend (hord : ValidOrder ord) (r : Remote) (hl : r.linked = true) (o : Obj) (code : Int) (ht : T r.node.ip o.code)
    (hf : s.Fits [.read r.node.ip o.code [code]]) (p : Prog) : Prints ord k T s (.propSend r o code 0x62 p) [] p := by
  intro c H h
  refine ⟨?_, ?_⟩
  · intro c' H' out hr
    generalize hq : Prog.propSend r o code 0x62 p = q at hr
    induction hr with
    | propSend he ht' =>
      cases hq
      obtain ⟨c1, b1, b2⟩ := sent_ready hord h r hl o code ht hf
      rw [b1] at he
      obtain rfl := (Prod.mk.inj he).1
      exact ⟨_, _, _, b2, ht', rfl⟩
    | meanwhile hm ht ih => exact ih (ready_meanwhile h hm) hq
    | done => cases hq
    | print => cases hq
    | propPost => cases hq
    | post => cases hq
  · obtain ⟨c1, b1, b2⟩ := sent_ready hord h r hl o code ht hf
    exact ⟨c1, H, b2, fun c' H' out hr => .propSend b1 hr⟩

/-! ### Lines -/

theorem withName_eq (a : List Char) (n : String) : withName a n = a ++ inBrackets n := by
  unfold withName inBrackets
  by_cases h : n = ""
  · subst h; simp
  · rw [if_pos (by rw [Nat.pos_iff_ne_zero, ne_eq, String.length_eq_zero_iff]; exact h), if_neg h]
    simp

theorem number_eq (i : Nat) : ['['] ++ decInt i ++ "] ".toList = number i := by
  rw [decInt_nat]
  rfl

/-- A property as the tables describe it. -/
structure Described (ip : String) (s : Store) (l : Label) (kk : Int) (p : OProp) : Prop where
  attr : (deviceProp (groupOf kk) (kindOf kk) p.code).map OProp.attrGet = some p.attrGet
  label : ∃ q, deviceLabel (groupOf kk) (kindOf kk) p.code = some q ∧ Dict.get? l.props p.code = some (some q)
  range : 0x80 ≤ p.code ∧ p.code < 0x100
  fits : p.attrGet = 1 → s.Fits [.read ip kk [p.code]]

/-- The lines of the properties from number `i` on. -/
def propBlock (s : Store) (ip : String) (j : Nat) (kk : Int) (i : Nat) (codes : List Int) : List (List Char) :=
  ((codes.zipIdx i).filter fun x => match deviceProp (groupOf kk) (kindOf kk) x.1 with | some p => p.attrGet == 1 | none => false).map fun x =>
    number j ++ number x.2 ++ canonicalHex (byte1 x.1) ++ " ".toList ++ inBrackets (propertyName kk x.1) ++ canonicalHex (s.data ip kk x.1) ++ " ".toList

theorem prints_props (hord : ValidOrder ord) (r : Remote) (hl : r.linked = true) (hp : r.node.port = 3610) (o : Obj) (ht : T r.node.ip o.code) (l : Label) (j : Nat) (next : Prog)
    (ps : List OProp) : ∀ i, (∀ p ∈ ps, Described r.node.ip s l o.code p) →
    Prints ord k T s (propLines r o l j i ps next) (propBlock s r.node.ip j o.code i (ps.map OProp.code)) next := by
  induction ps with
  | nil => intro i _; exact Prints.refl _
  | cons p ps ih =>
    intro i h
    obtain ⟨d1, ⟨q, d2, d3⟩, d4, d5⟩ := h p List.mem_cons_self
    have ih := ih (i + 1) fun x hx => h x (List.mem_cons_of_mem _ hx)
    obtain ⟨q', hq', hqa⟩ := Option.map_eq_some_iff.mp d1
    by_cases hr : p.attrGet = 1
    · have hreq : p.isReadRequired = true := by unfold OProp.isReadRequired OProp.isAttributeRequired; exact if_pos hr
      have hb : propBlock s r.node.ip j o.code i ((p :: ps).map OProp.code) =
          (number j ++ number i ++ canonicalHex (byte1 p.code) ++ " ".toList ++ inBrackets (propertyName o.code p.code) ++ canonicalHex (s.data r.node.ip o.code p.code) ++ " ".toList) ::
            propBlock s r.node.ip j o.code (i + 1) (ps.map OProp.code) := by
        unfold propBlock
        rw [List.map_cons, List.zipIdx_cons, List.filter_cons, hq']
        simp only [hqa, hr]
        rfl
      rw [hb]
      unfold propLines
      rw [hreq, d3]
      simp only [Bool.not_true, Bool.false_eq_true, if_false, Option.getD_some, propName]
      have h1 := prints_propSend (T := T) (k := k) hord r hl o p.code ht (d5 hr)
        (.propPost r o p.code ESV.READ_REQUEST fun res =>
          .print (withName (['['] ++ decInt j ++ "] [".toList ++ decInt i ++ "] ".toList ++ fmtX 2 p.code ++ [' ']) q.name ++
            match res with | none => [] | some m => (m.props.map fun q => hexUpper q.data ++ [' ']).flatten) <| propLines r o l j (i + 1) ps next)
      have h2 := prints_propPost (T := T) (k := k) hord r hl hp o p.code ht (d5 hr) (fun res =>
          .print (withName (['['] ++ decInt j ++ "] [".toList ++ decInt i ++ "] ".toList ++ fmtX 2 p.code ++ [' ']) q.name ++
            match res with | none => [] | some m => (m.props.map fun q => hexUpper q.data ++ [' ']).flatten) <| propLines r o l j (i + 1) ps next)
        (fun pp => .print (withName (['['] ++ decInt j ++ "] [".toList ++ decInt i ++ "] ".toList ++ fmtX 2 p.code ++ [' ']) q.name ++
            (pp.map fun q => hexUpper q.data ++ [' ']).flatten) <| propLines r o l j (i + 1) ps next) (fun m => rfl)
      have h3 := (h1.trans h2).trans ((prints_print _ _).trans ih)
      refine Eq.mp ?_ h3
      congr 1
      rw [List.nil_append, List.nil_append, List.singleton_append]
      congr 1
      rw [withName_eq, fmtX_byte1 _ (by omega) d4.2, ← number_eq j, ← number_eq i]
      have hn : propertyName o.code p.code = q.name := by unfold propertyName; rw [d2]
      rw [hn]
      simp [hexUpper_canonical]
    · have hreq : p.isReadRequired = false := by unfold OProp.isReadRequired OProp.isAttributeRequired; exact if_neg hr
      have hb : propBlock s r.node.ip j o.code i ((p :: ps).map OProp.code) = propBlock s r.node.ip j o.code (i + 1) (ps.map OProp.code) := by
        unfold propBlock
        rw [List.map_cons, List.zipIdx_cons, List.filter_cons, hq']
        simp only [hqa]
        rw [if_neg (by simpa using hr)]
      rw [hb]
      unfold propLines
      rw [hreq]
      exact ih

/-- What the properties of an object of a found node look like. -/
theorem described (hord : ValidOrder ord) (o : Obj) (hs : skeleton o = skeleton (devObj ord o.code)) (ip : String)
    (hf : ∀ x ∈ mandatoryReads o.code, s.Fits [.read ip o.code [x.1]]) :
    (o.props.map Prod.snd).map OProp.code = deviceCodes (groupOf o.code) (kindOf o.code) ∧
      ∀ p ∈ o.props.map Prod.snd, Described ip s (StdObj.label (.int o.code)) o.code p := by
  obtain ⟨x, h1, h2, h3, h4, h5, -⟩ := C39_device_properties ord hord (.int o.code) o.code rfl
  obtain ⟨-, n2, n3, n4, n5⟩ := C112_names_partial hord (.int o.code) o.code rfl
  have hx : devObj ord o.code = x := by unfold devObj; rw [h1]
  rw [hx] at hs
  rw [h1] at n2
  have hkeys : o.props.map Prod.fst = deviceCodes (groupOf o.code) (kindOf o.code) := (keys_of_skeleton hs).trans n2
  have hw := wf_of_skeleton hs h4
  have hcodes : (o.props.map Prod.snd).map OProp.code = o.props.map Prod.fst := by
    rw [List.map_map]
    exact List.map_congr_left fun kp hkp => hw.2 kp hkp
  refine ⟨hcodes.trans hkeys, ?_⟩
  intro p hp
  obtain ⟨kp, hkp, rfl⟩ := List.mem_map.mp hp
  have hlk : lookup o.props kp.2.code = some kp.2 := by
    rw [lookup_eq, hw.2 kp hkp]
    exact Dict.get?_of_mem o.props kp.1 kp.2 hw.1 hkp
  have hin : kp.2.code ∈ deviceCodes (groupOf o.code) (kindOf o.code) := by
    rw [← hkeys, hw.2 kp hkp]
    exact List.mem_map_of_mem hkp
  have hdp : (deviceProp (groupOf o.code) (kindOf o.code) kp.2.code).map OProp.attrGet = some kp.2.attrGet := by
    obtain ⟨q, q1, -, q2, -⟩ := lookup_some_of_skeleton hs hlk
    have := h5 kp.2.code
    rw [q1] at this
    show (deviceProp (o.code / 65536 % 256) (o.code / 256 % 256) kp.2.code).map OProp.attrGet = _
    rw [← this]
    simp [q2]
  obtain ⟨l, l1, l2, -⟩ := n5 kp.2.code hin
  refine ⟨hdp, ⟨l, l1, l2⟩, ?_, ?_⟩
  · have hr : ∀ kp ∈ x.props, 0x80 ≤ kp.1 ∧ kp.1 < 0x100 := by
      have := (dev_shape hord o.code (o.code / 65536 % 256) (o.code / 256 % 256)).2.2.2.2.2.2.1
      have e := dev_eq hord (.int o.code) o.code rfl
      rw [h1] at e
      rw [← e] at this
      exact this
    have hk : kp.2.code ∈ x.props.map Prod.fst := by rw [n2]; exact hin
    obtain ⟨kq, hkq, e⟩ := List.mem_map.mp hk
    rw [← e]
    exact hr kq hkq
  · intro ha
    obtain ⟨i, hi⟩ := List.mem_iff_getElem?.mp hin
    refine hf (kp.2.code, i) ?_
    unfold mandatoryReads
    rw [List.mem_filter]
    refine ⟨List.mem_zipIdx_iff_getElem?.mpr hi, ?_⟩
    obtain ⟨q', hq', hqa⟩ := Option.map_eq_some_iff.mp hdp
    simp only [hq', hqa, ha]
    rfl

theorem label_name (kk : Int) : (StdObj.label (.int kk)).name = objectName kk := by
  unfold objectName
  cases h : classNames (groupOf kk) (kindOf kk) with
  | some e => exact (C112_names_partial (ord := List.dedup) (fun l => ⟨l.nodup_dedup, fun _ => List.mem_dedup⟩) (.int kk) kk rfl).1 e h
  | none => exact C112_unknown_false (.int kk) kk rfl h

theorem prints_objects (hord : ValidOrder ord) (r : Remote) (hl : r.linked = true) (hp : r.node.port = 3610) (next : Prog) (os : List Obj) : ∀ j,
    (∀ o ∈ os, T r.node.ip o.code ∧ 0 ≤ o.code ∧ o.code < 2 ^ 24 ∧ skeleton o = skeleton (devObj ord o.code) ∧ ∀ x ∈ mandatoryReads o.code, s.Fits [.read r.node.ip o.code [x.1]]) →
    Prints ord k T s (objectLines r j os next) (((os.map Obj.code).zipIdx j).map fun x => objectBlock s r.node.ip x.2 x.1).flatten next := by
  induction os with
  | nil => intro j _; exact Prints.refl _
  | cons o os ih =>
    intro j h
    obtain ⟨h1, h2, h3, h4, h5⟩ := h o List.mem_cons_self
    obtain ⟨d1, d2⟩ := described (s := s) hord o h4 r.node.ip h5
    unfold objectLines
    simp only [List.map_cons, List.zipIdx_cons, List.flatten_cons]
    have hb : objectBlock s r.node.ip j o.code = [withName (['['] ++ decInt j ++ "] ".toList ++ fmtX 6 o.code ++ [' ']) (StdObj.label (.int o.code)).name] ++
        propBlock s r.node.ip j o.code 0 ((o.props.map Prod.snd).map OProp.code) := by
      rw [d1, withName_eq, fmtX_byte3 _ h2 h3, number_eq, label_name]
      rfl
    rw [hb, List.append_assoc]
    refine (prints_print _ _).trans ((prints_props hord r hl hp o h1 _ j _ _ 0 d2).trans (ih (j + 1) fun x hx => h x (List.mem_cons_of_mem _ hx)))

/-! ### Nodes -/

theorem blocks_cons (b : List (List Char)) (bs : List (List (List Char))) : blocks (b :: bs) = b ++ (bs.map fun x => [] :: x).flatten := by
  unfold blocks
  induction bs generalizing b with
  | nil => simp
  | cons x bs ih => rw [List.intersperse_cons_cons, List.flatten_cons, List.flatten_cons, ih]; simp

theorem manufacturer_eq (d : Bytes) : (match getManufacturerName (.bytes d) with
      | some s => ['('] ++ s.toList ++ [')']
      | none => ['('] ++ hexUpper d ++ [')']) = "(".toList ++ manufacturerText d ++ ")".toList := by
  obtain ⟨h1, h2, h3, -⟩ := C37_manufacturers
  have e : getManufacturerName (.bytes d) = getManufacturerName (.int (beValue d)) := by
    unfold getManufacturerName
    rw [h1, toInt_eq_beValue]
  rw [e]
  unfold manufacturerText
  cases hf : StdData.manufacturers.find? fun m => m.1 == (beValue d : Int) with
  | none =>
    rw [List.find?_eq_none] at hf
    rw [(h3 _ (fun m hm hc => hf m hm (by simpa using hc))).2, hexUpper_canonical]
    rfl
  | some m =>
    obtain ⟨a, b, n⟩ := m
    have hm := List.mem_of_find?_eq_some hf
    have hk : a = (beValue d : Int) := by simpa using List.find?_some hf
    subst hk
    rw [(h2 _ _ _ hm).2.2]
    rfl

theorem addressText_eq (ip : String) : ljust 15 ip.toList ++ [' '] = addressText ip := rfl

/-- What is known of a found node that can answer. -/
structure Answering (ord : List Int → List Int) (T : String → Int → Prop) (s : Store) (r : Remote) : Prop where
  linked : r.linked = true
  port : r.node.port = 3610
  objs : ∀ o ∈ r.node.objectList, T r.node.ip o.code ∧ 0 ≤ o.code ∧ o.code < 2 ^ 24 ∧ skeleton o = skeleton (devObj ord o.code) ∧
    ∀ x ∈ mandatoryReads o.code, s.Fits [.read r.node.ip o.code [x.1]]

def row (r : Remote) : String × List Int := (r.node.ip, r.node.objectList.map Obj.code)

theorem prints_bench (hord : ValidOrder ord) (next : Prog) (rs : List Remote) : (∀ r ∈ rs, Answering ord T s r) →
    (∀ i, Prints ord k T s (benchNodes (i + 1) rs next) ((rs.map fun r => [] :: benchBlock s (row r)).flatten) next) ∧
    Prints ord k T s (benchNodes 0 rs next) (blocks (rs.map fun r => benchBlock s (row r))) next := by
  induction rs with
  | nil => intro _; exact ⟨fun _ => Prints.refl _, Prints.refl _⟩
  | cons r rs ih =>
    intro h
    obtain ⟨h1, h2, h3⟩ := h r List.mem_cons_self
    have ih := (ih fun x hx => h x (List.mem_cons_of_mem _ hx)).1
    have hbody : ∀ i, Prints ord k T s (.print (ljust 15 r.node.ip.toList ++ [' ']) <| objectLines r 0 r.node.objectList <| benchNodes (i + 1) rs next)
        (benchBlock s (row r) ++ (rs.map fun r => [] :: benchBlock s (row r)).flatten) next := by
      intro i
      have := (prints_print (ljust 15 r.node.ip.toList ++ [' ']) (objectLines r 0 r.node.objectList <| benchNodes (i + 1) rs next)).trans
        ((prints_objects (k := k) hord r h1 h2 (benchNodes (i + 1) rs next) _ 0 h3).trans (ih i))
      exact this
    refine ⟨fun i => ?_, ?_⟩
    · unfold benchNodes
      rw [if_pos (Nat.succ_pos i)]
      exact (prints_print [] _).trans (hbody (i + 1))
    · rw [List.map_cons, blocks_cons, List.map_map]
      unfold benchNodes
      exact hbody 0

theorem prints_search (hord : ValidOrder ord) (next : Prog) (rs : List Remote) :
    (∀ r ∈ rs, Answering ord T s r ∧ T r.node.ip 0x0EF001 ∧ s.Fits [.read r.node.ip 0x0EF001 [0x8A]]) →
    (∀ i, Prints ord k T s (searchNodes (i + 1) rs next) ((rs.map fun r => [] :: searchBlock s (row r)).flatten) next) ∧
    Prints ord k T s (searchNodes 0 rs next) (blocks (rs.map fun r => searchBlock s (row r))) next := by
  induction rs with
  | nil => intro _; exact ⟨fun _ => Prints.refl _, Prints.refl _⟩
  | cons r rs ih =>
    intro h
    obtain ⟨⟨h1, h2, h3⟩, h4, h5⟩ := h r List.mem_cons_self
    have ih := (ih fun x hx => h x (List.mem_cons_of_mem _ hx)).1
    have hbody : ∀ i, Prints ord k T s (.post readManufacturer r fun res => .print (nodeHead r.node.ip res) <| objectLines r 0 r.node.objectList <| searchNodes (i + 1) rs next)
        (searchBlock s (row r) ++ (rs.map fun r => [] :: searchBlock s (row r)).flatten) next := by
      intro i
      have p1 := prints_post (k := k) hord r h2 0x0EF001 0x8A h4 h5
        (fun res => .print (nodeHead r.node.ip res) <| objectLines r 0 r.node.objectList <| searchNodes (i + 1) rs next)
        (fun pp => .print (nodeHead r.node.ip (some { props := pp })) <| objectLines r 0 r.node.objectList <| searchNodes (i + 1) rs next) (fun m => rfl)
      have := p1.trans ((prints_print _ (objectLines r 0 r.node.objectList <| searchNodes (i + 1) rs next)).trans
        ((prints_objects (k := k) hord r h1 h2 (searchNodes (i + 1) rs next) _ 0 h3).trans (ih i)))
      refine Eq.mp ?_ this
      congr 1
      rw [List.nil_append, ← List.append_assoc]
      congr 1
      show nodeHead _ _ :: _ = _ :: _
      congr 1
      show ljust 15 r.node.ip.toList ++ [' '] ++ (match getManufacturerName (.bytes (s.data r.node.ip 0x0EF001 0x8A)) with
        | some s => ['('] ++ s.toList ++ [')']
        | none => ['('] ++ hexUpper (s.data r.node.ip 0x0EF001 0x8A) ++ [')']) = addressText r.node.ip ++ "(".toList ++ manufacturerText (s.data r.node.ip 0x0EF001 0x8A) ++ ")".toList
      rw [manufacturer_eq, addressText_eq]
      simp
    refine ⟨fun i => ?_, ?_⟩
    · unfold searchNodes
      rw [if_pos (Nat.succ_pos i)]
      exact (prints_print [] _).trans (hbody (i + 1))
    · rw [List.map_cons, blocks_cons, List.map_map]
      unfold searchNodes
      exact hbody 0

end

end Uecho
