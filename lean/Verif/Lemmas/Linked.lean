/- Lemmas for C89–C92. -/
import Verif.Spec.Linked
import Verif.Props.EndToEnd
import Verif.Props.Store

namespace Uecho
open Spec

/-- What a controller's table holds. -/
theorem found_node {ord : List Int → List Int} (hord : ValidOrder ord) {c : Ctl} {ops : List CtlOp} (h : CtlReach ord c ops) (r : Remote) (hr : r ∈ c.nodes) :
    r.linked = true ∧ Dict.get? c.found r.node.ip = some r ∧ r.node.port = 3610 := by
  have hi := (reach_knows hord h).1
  obtain ⟨kr, hk, rfl⟩ := List.mem_map.mp hr
  have hg := Dict.get?_of_mem c.found kr.1 kr.2 hi.keys hk
  have hn := hi.nodes _ _ hg
  obtain ⟨p, hp⟩ := hn.addr
  refine ⟨hn.linked, ?_, ?_⟩
  · rw [ip_of_address _ _ hp]; exact hg
  · unfold Node.port; rw [hp]; rfl

/-- Posting through a property is posting a message. -/
theorem propPost_eq (net : Net) (c : Ctl) (r : Remote) (hl : r.linked = true) (o : Obj) (k esv : Int) (d : Bytes) :
    c.propPostBegin net (some (.remote r, o)) k esv d = c.postBegin net { deoj := o.code, esv := esv, props := [{ code := k, data := d }] } (.remote r) := by
  have hmsg : o.createMessage esv (some [.pair k d]) = some { deoj := o.code, esv := esv, props := [{ code := k, data := d }] } :=
    (C35_built_message o esv (some [.pair k d])).1 [(k, d)] rfl
  show c.objPostBegin net (.remote r) o esv (some [.pair k d]) = _
  unfold Ctl.objPostBegin
  rw [hmsg]
  simp only [Owner.controller, hl, if_true]

/-- Sending through an object of a found node is sending a message. -/
theorem objSend_eq (net : Net) (c : Ctl) (r : Remote) (hl : r.linked = true) (o : Obj) (esv : Int) (l : List (Int × Bytes)) :
    (c.objSend net (.remote r) o esv (some (asItems l))).2 =
      (c.ln.mgr.send net (outgoing c.ln { deoj := o.code, esv := esv, props := asProps l }) (some (r.node.ip, r.node.port))).2.2 := by
  have hmsg := (C35_built_message o esv (some (asItems l))).1 l rfl
  unfold Ctl.objSend
  rw [hmsg]
  simp only [Owner.controller, hl, if_true]
  rfl

/-- The loop of `copy` when nothing raises. -/
theorem copyLoop_ok (own : Owner) (h : own.deepcopy = .ok ()) (ps : List OProp) : ∀ o, Obj.copyLoop own ps o = .ok (ps.foldl Obj.addPropertyBase o) := by
  induction ps with
  | nil => intro o; rfl
  | cons p ps ih =>
    intro o
    unfold Obj.copyLoop OProp.copy
    simp only [h]
    exact ih _

/-- Adding properties with new codes one after the other. -/
theorem foldl_addPropertyBase (d : Dict Int OProp) (o : Obj) (hn : (o.props.map Prod.fst ++ d.map Prod.fst).Nodup) (hk : ∀ kp ∈ d, kp.2.code = kp.1) :
    (Dict.values d).foldl Obj.addPropertyBase o = { o with props := o.props ++ d } := by
  induction d generalizing o with
  | nil => simp [Dict.values]
  | cons kp d ih =>
    obtain ⟨k, p⟩ := kp
    have hp : p.code = k := hk (k, p) List.mem_cons_self
    have hs : o.addPropertyBase p = { o with props := o.props ++ [(k, p)] } := by
      unfold Obj.addPropertyBase
      rw [hp, Dict.set_of_not_mem]
      intro hm
      rw [List.nodup_append] at hn
      exact hn.2.2 k hm k (by simp) rfl
    show (Dict.values d).foldl Obj.addPropertyBase (o.addPropertyBase p) = _
    rw [hs, ih]
    · simp
    · simpa using hn
    · exact fun x hx => hk x (List.mem_cons_of_mem _ hx)

/-- Every object of a found node is a standard device in which data was written. -/
def Standard (ord : List Int → List Int) (found : Dict String Remote) : Prop :=
  ∀ ip r, Dict.get? found ip = some r → ∀ k o, Dict.get? r.node.objects k = some o → skeleton o = skeleton (devObj ord k)

theorem afterList_standard {ord : List Int → List Int} {c : Ctl} (h : Standard ord c.found) (m : Msg) : Standard ord (afterList ord c m).found := by
  unfold afterList
  cases announced m with
  | none => exact h
  | some x =>
    obtain ⟨a, l⟩ := x
    intro ip r hr k o ho
    simp only [] at hr
    rw [Dict.get?_set] at hr
    split at hr
    · cases hr
      rw [listedNode_get?] at ho
      split at ho
      · cases ho; rfl
      · cases ho
    · exact h ip r hr k o ho

theorem reportTo_standard {ord : List Int → List Int} {found : Dict String Remote} (h : Standard ord found) (ip : String) (d : Int) (props : List PProp) :
    Standard ord (reportTo found ip d props) := by
  unfold reportTo
  cases hf : Dict.get? found ip with
  | none => exact h
  | some r =>
    simp only []
    cases ho : Dict.get? r.node.objects d with
    | none => exact h
    | some o =>
      intro ip' r' hr' k o' ho'
      simp only [] at hr'
      rw [Dict.get?_modify] at hr'
      split at hr'
      · rename_i e
        subst e
        rw [hf] at hr'
        cases hr'
        rw [get?_putObj] at ho'
        split at ho'
        · rename_i e
          subst e
          rw [ho] at ho'
          cases ho'
          rw [skeleton_afterWrites]
          exact h ip r hf d o ho
        · exact h ip r hf k o' ho'
      · exact h ip' r' hr' k o' ho'

theorem found_standard {ord : List Int → List Int} (hord : ValidOrder ord) {c : Ctl} {ops : List CtlOp} (h : CtlReach ord c ops) : Standard ord c.found := by
  obtain ⟨rnd, ha, rfl⟩ := h
  induction ops using List.reverseRecOn with
  | nil =>
    obtain ⟨n, hn, -⟩ := ctl_new hord rnd
    intro ip r hr
    rw [hn] at hr
    cases hr
  | append_singleton ops op ih =>
    have ha' : ∀ op ∈ ops, CtlOp.Allowed op := fun x hx => ha x (List.mem_append_left _ hx)
    have ih := ih ha'
    have hk := (reach_knows hord ⟨rnd, ha', rfl⟩).1
    have hop := ha op (by simp)
    have e : runCtl ord (Ctl.new ord rnd).1 (ops ++ [op]) = op.run ord (runCtl ord (Ctl.new ord rnd).1 ops) := by
      unfold runCtl
      rw [List.foldl_append]
      rfl
    rw [e]
    generalize runCtl ord (Ctl.new ord rnd).1 ops = c at ih hk
    by_cases hr : ∃ env cenv net m, op = .receive env cenv net m
    · obtain ⟨env, cenv, net, m, rfl⟩ := hr
      obtain ⟨hd, hc, -⟩ := hop
      obtain ⟨a, hfa⟩ := Option.isSome_iff_exists.mp hd.2
      show Standard ord (c.messageReceived ord env cenv net m).1.found
      rcases receive_cases hord env hc net c hk m a hfa hd.1 with ⟨e, -⟩ | ⟨e, -⟩
      · rw [e]; exact ih
      · rw [e]
        exact reportTo_standard (afterList_standard ih m) _ _ _
    · rw [(run_other ord c op (fun env cenv net m e => hr ⟨env, cenv, net, m, e⟩)).1]
      exact ih

end Uecho
