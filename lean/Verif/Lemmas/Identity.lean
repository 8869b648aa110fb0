import Verif.Lemmas.Dispatch
import Verif.Props.Std

namespace Uecho
open Spec

/-- A property of the node profile that may not be written and is not one of the lists and maps kept by the node. -/
def FixedCode (c : Int) : Prop :=
  (deviceProp 0x0E 0xF0 c).map OProp.attrSet = some 0 ∧ c ∉ [0x9D, 0x9E, 0x9F, 0xD3, 0xD4, 0xD5, 0xD6, 0xD7]

instance (c : Int) : Decidable (FixedCode c) := by unfold FixedCode; infer_instance

theorem fixed_not_writable {o : Obj} (h : GoodProfile o) (c : Int) (hc : FixedCode c) (p : OProp) (hp : lookup o.props c = some p) : ¬ CanWrite p := by
  have hd := h.props c
  rw [hp] at hd
  have h2 := hc.1
  rw [← hd] at h2
  simp only [Option.map_some, Option.some.injEq] at h2
  unfold CanWrite
  omega

theorem fixed_receive {o : Obj} (h : GoodProfile o) (env : Env) (m : Msg) (c : Int) (hc : FixedCode c) :
    lookup (o.messageReceived env m).obj.props c = lookup o.props c := by
  rw [messageReceived_state env o m h.wf h.handler, lookup_afterWrites_attr]
  cases hp : lookup o.props c with
  | none => rfl
  | some p => simp [fixed_not_writable h c hc p hp]

theorem lastFor_absent (items : List PProp) (c : Int) (h : ∀ i ∈ items, i.code ≠ c) : lastFor items c = none := by
  induction items using List.reverseRecOn with
  | nil => rfl
  | append_singleton l i ih =>
    rw [lastFor_append, ih (fun x hx => h x (List.mem_append_left _ hx))]
    have := h i (List.mem_append_right _ List.mem_cons_self)
    simp [lastFor, this]

/-- Rewriting lists and maps leaves all else. -/
theorem fixed_refresh {ord : List Int → List Int} (hord : ValidOrder ord) (o : Obj) (codes : List Int) (hg : GoodProfile o) (c : Int)
    (hc : c ∉ [0x9D, 0x9E, 0x9F, 0xD3, 0xD4, 0xD5, 0xD6, 0xD7]) :
    lookup (NodeProfile.updateMapProperties ord o codes).1.props c = lookup o.props c := by
  obtain ⟨l, ms, -, hms, he⟩ := updateMapProperties_eq hord o codes hg
  rw [he]
  show lookup (afterWrites o _).props c = _
  rw [lookup_afterWrites, lastFor_absent]
  · cases lookup o.props c <;> rfl
  · simp only [List.mem_cons, List.not_mem_nil, or_false, not_or] at hc
    intro i hi
    rcases List.mem_append.mp hi with hi | hi
    · simp only [List.mem_cons, List.not_mem_nil, or_false] at hi
      rcases hi with rfl | rfl | rfl | rfl | rfl <;> (simp only []; omega)
    · have := hms i hi
      omega

/-- Nothing a program can do, short of changing the profile object itself, changes these properties of the profile. -/
theorem fixed_run {ord : List Int → List Int} (hord : ValidOrder ord) (n : LocalNode) (op : NodeOp) (hi : NodeInv n) (c : Int) (hc : FixedCode c) :
    lookup (op.run ord n).profile.props c = lookup n.profile.props c := by
  cases op with
  | add o => exact fixed_refresh hord n.profile _ hi.prof c hc.2
  | receive env net m =>
    show lookup (n.messageReceived env net m).1.profile.props c = _
    unfold LocalNode.messageReceived
    split
    · rfl
    · cases Msg.copyOf (some m) with
      | error e => rfl
      | ok req =>
        simp only []
        cases hg : n.node.getObject (.int req.deoj) with
        | none => rfl
        | some s =>
          simp only []
          have hp : lookup (n.putBack req.deoj s ((n.deref s).messageReceived env req).obj).profile.props c = lookup n.profile.props c := by
            cases s with
            | profile => exact fixed_receive hi.prof env req c hc
            | user o => rfl
          cases ((n.deref s).messageReceived env req).result with
          | error e => exact hp
          | ok res =>
            simp only []
            rw [answer_same]
            exact hp
  | enable opt v =>
    show lookup (n.setEnabled opt v).profile.props c = _
    unfold LocalNode.setEnabled
    split <;> rfl
  | start net caller =>
    show lookup (n.start net caller).1.profile.props c = _
    unfold LocalNode.start
    rcases n.mgr.start net caller [] with ⟨g, e | (_ | _)⟩ <;> rfl
  | stop caller => rfl
  | announce net m => rfl
  | send net m a => rfl
  | update code f =>
    show lookup (n.update code f).profile.props c = _
    unfold LocalNode.update
    split <;> rfl

theorem fixed_runOps {ord : List Int → List Int} (hord : ValidOrder ord) (ops : List NodeOp) : ∀ (n : LocalNode), NodeInv n → (∀ op ∈ ops, op.Allowed) →
    ∀ c, FixedCode c → lookup (runOps ord n ops).profile.props c = lookup n.profile.props c := by
  induction ops with
  | nil => intro n _ _ c _; rfl
  | cons op ops ih =>
    intro n hi ha c hc
    have h1 := run_inv hord n op hi (ha op List.mem_cons_self)
    exact (ih (op.run ord n) h1.1 (fun x hx => ha x (List.mem_cons_of_mem _ hx)) c hc).trans (fixed_run hord n op hi c hc)

/-- What the profile of a new node has. -/
theorem profile_fresh {ord : List Int → List Int} (hord : ValidOrder ord) (rnd : NodeProfile.Random) (ctl : Bool) (c : Int) (hc : FixedCode c) :
    lookup (LocalNode.new ord rnd ctl).1.profile.props c = (deviceProp 0x0E 0xF0 c).map fun p =>
      { p with data := if c = 0x80 then [0x30] else if c = 0x82 then [0x01, 0x0D, 0x01, 0x00] else if c = 0x83 then [0xFE, 0x00, 0x00, 0x00] ++ rnd.id else [] } := by
  have hc2 := hc.2
  simp only [List.mem_cons, List.not_mem_nil, or_false, not_or] at hc2
  have hbf : c ≠ 0xBF := by
    rintro rfl
    have : ¬ FixedCode 0xBF := by decide +kernel
    exact this hc
  -- the object before anything is written
  obtain ⟨o, e1, -, -, -, -, e6⟩ := C39_device_properties ord hord (.int 0x0EF001) 0x0EF001 rfl
  have hfresh : lookup o.props c = deviceProp 0x0E 0xF0 c := e6 c (by omega) (by omega) (by omega)
  obtain ⟨o', f1, f2, -⟩ := goodProfile_fresh hord
  rw [profile_new_eq hord, e1] at f1
  obtain rfl := (Prod.mk.inj f1).1
  have hh : o.setRequestHandler .self_ = o := by
    unfold Obj.setRequestHandler
    rw [← f2.handler]
  have g2 := f2.of_skeleton (skeleton_afterWrites o [{ code := 0x80, data := [0x30] }, { code := 0x82, data := [0x01, 0x0D, 0x01, 0x00] },
       { code := 0x83, data := [0xFE, 0x00, 0x00, 0x00] ++ rnd.id }, { code := 0xBF, data := [rnd.u1 &&& 0xC0, rnd.u2] }])
  obtain ⟨l, ms, -, -, he⟩ := updateMapProperties_eq hord _ [(afterWrites o [{ code := 0x80, data := [0x30] }, { code := 0x82, data := [0x01, 0x0D, 0x01, 0x00] },
       { code := 0x83, data := [0xFE, 0x00, 0x00, 0x00] ++ rnd.id }, { code := 0xBF, data := [rnd.u1 &&& 0xC0, rnd.u2] }]).code] g2
  have hfr := fixed_refresh hord _ [(afterWrites o [{ code := 0x80, data := [0x30] }, { code := 0x82, data := [0x01, 0x0D, 0x01, 0x00] },
       { code := 0x83, data := [0xFE, 0x00, 0x00, 0x00] ++ rnd.id }, { code := 0xBF, data := [rnd.u1 &&& 0xC0, rnd.u2] }]).code] g2 c hc.2
  have hnew : ∃ p, NodeProfile.new ord rnd = (p, .ok ()) ∧ GoodProfile p ∧ lookup p.props c = (deviceProp 0x0E 0xF0 c).map fun p =>
      { p with data := if c = 0x80 then [0x30] else if c = 0x82 then [0x01, 0x0D, 0x01, 0x00] else if c = 0x83 then [0xFE, 0x00, 0x00, 0x00] ++ rnd.id else [] } := by
    unfold NodeProfile.new
    rw [show NodeProfile.CODE = 0x0EF001 from rfl, profile_new_eq hord, e1]
    simp only []
    rw [hh, initial_eq o rnd f2.wf]
    rw [he] at hfr ⊢
    refine ⟨_, rfl, g2.of_skeleton (skeleton_afterWrites _ _), hfr.trans ?_⟩
    rw [lookup_afterWrites, hfresh]
    obtain hd | ⟨p, hd⟩ := Option.eq_none_or_eq_some (deviceProp 0x0E 0xF0 c)
    · rw [hd]; rfl
    · rw [hd]
      have hpd : p.data = [] := by
        have := e6 c (by omega) (by omega) (by omega)
        have hx := f2.props c
        rw [hfresh] at hx
        have h2 : (deviceProp 0x0E 0xF0 c).map (fun p => ({ p with data := [] } : OProp)) = deviceProp 0x0E 0xF0 c := hx
        rw [hd] at h2
        simp only [Option.map_some, Option.some.injEq] at h2
        rw [← h2]
      simp only [Option.map_some, Option.some.injEq, hpd]
      congr 1
      by_cases h1 : c = 0x80
      · subst h1; rfl
      · by_cases h2 : c = 0x82
        · subst h2; rfl
        · by_cases h3 : c = 0x83
          · subst h3; rfl
          · rw [lastFor_absent, if_neg h1, if_neg h2, if_neg h3]
            · rfl
            · simp only [List.mem_cons, List.not_mem_nil, or_false]
              rintro i (rfl | rfl | rfl | rfl) <;> (simp only []; omega)
  obtain ⟨p, hp, hgp, hlp⟩ := hnew
  unfold LocalNode.new
  rw [hp]
  simp only []
  have hr := fixed_refresh hord p ((LocalNode.objs { profile := p, controller := ctl, node := (({} : Node Slot).put p.code Slot.profile) }).map Obj.code) hgp c hc.2
  have : (LocalNode.refresh ord { profile := p, controller := ctl, node := (({} : Node Slot).put p.code Slot.profile) }).1.profile =
      (NodeProfile.updateMapProperties ord p ((LocalNode.objs { profile := p, controller := ctl, node := (({} : Node Slot).put p.code Slot.profile) }).map Obj.code)).1 := rfl
  rw [← this] at hr
  rcases hq : LocalNode.refresh ord { profile := p, controller := ctl, node := (({} : Node Slot).put p.code Slot.profile) } with ⟨n, e | b⟩ <;> rw [hq] at hr
  · exact hr.trans hlp
  · exact hr.trans hlp

end Uecho
