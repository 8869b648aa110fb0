/- C120: what a node says of itself, over its whole life. -/
import Verif.Lemmas.Identity
import Verif.Props.Controller

namespace Uecho
open Spec

/-- What a node created with these random bytes should say of itself: it is on (0x80), the version of the protocol (0x82), its identification number (0x83). -/
def identity (rnd : NodeProfile.Random) : List PProp :=
  [{ code := 0x80, data := [0x30] }, { code := 0x82, data := [0x01, 0x0D, 0x01, 0x00] }, { code := 0x83, data := [0xFE, 0x00, 0x00, 0x00] ++ rnd.id }]

theorem own_profile_get {n : LocalNode} (h : OwnProfile n) : n.getObject (.int 0x0EF001) = some n.profile := by
  show (Dict.get? n.node.objects 0x0EF001).map n.deref = _
  rw [show Dict.get? n.node.objects 0x0EF001 = some .profile from h]
  rfl

theorem fixed_reachable {ord : List Int → List Int} (hord : ValidOrder ord) (rnd : NodeProfile.Random) (ctl : Bool) (ops : List NodeOp) (ha : ∀ op ∈ ops, op.Allowed)
    (c : Int) (hc : FixedCode c) : lookup (runOps ord (LocalNode.new ord rnd ctl).1 ops).profile.props c = (deviceProp 0x0E 0xF0 c).map fun p =>
      { p with data := if c = 0x80 then [0x30] else if c = 0x82 then [0x01, 0x0D, 0x01, 0x00] else if c = 0x83 then [0xFE, 0x00, 0x00, 0x00] ++ rnd.id else [] } := by
  obtain ⟨n0, h0, hi, -⟩ := localNode_new hord rnd ctl
  rw [← profile_fresh hord rnd ctl c hc, h0]
  exact fixed_runOps hord ops n0 hi ha c hc

/-- A profile found in a node and a request to read some of the fixed properties. -/
theorem identity_answer {ord : List Int → List Int} (hord : ValidOrder ord) (rnd : NodeProfile.Random) (ctl : Bool) (ops : List NodeOp) (ha : ∀ op ∈ ops, op.Allowed)
    (hadd : 0x0EF001 ∉ addedCodes ops) (codes : List Int) (hc : ∀ c ∈ codes, FixedCode c ∧ (deviceProp 0x0E 0xF0 c).map (fun p => decide (CanRead p)) = some true)
    (env : Env) (m : Msg) (he : m.esv = 0x62) (hs : OwnSections m) (hp : m.props = codes.map fun c => { code := c }) :
    let n := runOps ord (LocalNode.new ord rnd ctl).1 ops
    Quiet env n.profile m →
    n.getObject (.int 0x0EF001) = some n.profile ∧ (n.profile.messageReceived env m).obj = n.profile ∧
    ∃ r, (n.profile.messageReceived env m).result = .ok (some r) ∧ r.esv = 0x72 ∧ r.props = codes.map fun c =>
      { code := c, data := if c = 0x80 then [0x30] else if c = 0x82 then [0x01, 0x0D, 0x01, 0x00] else if c = 0x83 then [0xFE, 0x00, 0x00, 0x00] ++ rnd.id else [] } := by
  intro n hq
  obtain ⟨n0, h0, hi, hobj, -⟩ := localNode_new hord rnd ctl
  have hn : n = runOps ord n0 ops := by show runOps ord (LocalNode.new ord rnd ctl).1 ops = _; rw [h0]
  have hinv : NodeInv n := by rw [hn]; exact (runOps_inv hord ops n0 hi ha).1
  have hown : OwnProfile n := by
    rw [hn]
    refine runOps_ownProfile hord ops n0 hi ha ?_ hadd
    show Dict.get? n0.node.objects _ = _
    rw [hobj]
    rfl
  have hfix := fun c hc => fixed_reachable hord rnd ctl ops ha c hc
  obtain ⟨h1, r, h2, h3, h4, h5⟩ := C15_read env n.profile m hinv.prof.wf hinv.prof.handler hq he hs
  refine ⟨own_profile_get hown, h1, r, h2, ?_, ?_⟩
  · apply h5.mpr
    intro i hi
    rw [hp] at hi
    obtain ⟨c, hcm, rfl⟩ := List.mem_map.mp hi
    obtain ⟨hf, hr⟩ := hc c hcm
    obtain ⟨p, hd⟩ := Option.isSome_iff_exists.mp (show (deviceProp 0x0E 0xF0 c).isSome = true by
      cases hd : deviceProp 0x0E 0xF0 c with
      | none => rw [hd] at hr; cases hr
      | some p => rfl)
    rw [hd] at hr
    refine ⟨_, (hfix c hf).trans (by rw [hd]; rfl), ?_⟩
    exact (of_decide_eq_true (Option.some.inj hr) : CanRead p)
  · rw [h3, hp, List.map_map]
    apply List.map_congr_left
    intro c hcm
    obtain ⟨hf, hr⟩ := hc c hcm
    obtain ⟨p, hd⟩ := Option.isSome_iff_exists.mp (show (deviceProp 0x0E 0xF0 c).isSome = true by
      cases hd : deviceProp 0x0E 0xF0 c with
      | none => rw [hd] at hr; cases hr
      | some p => rfl)
    rw [hd] at hr
    have hcr : CanRead p := of_decide_eq_true (Option.some.inj hr)
    simp only [Function.comp]
    rw [show lookup n.profile.props c = _ from hfix c hf, hd]
    simp only [Option.map_some]
    congr 1
    exact if_pos hcr

/-- C120 (what holds): after any history of additions, messages of every kind, starts, stops and changes of its objects, a node that is asked says that it is on, which version of the protocol it
has, and the identification number drawn when it was created. Missing: `C120_manufacturer_false`. -/
theorem C120_identity_partial {ord : List Int → List Int} (hord : ValidOrder ord) (rnd : NodeProfile.Random) (ctl : Bool) (ops : List NodeOp) (ha : ∀ op ∈ ops, op.Allowed)
    (hadd : 0x0EF001 ∉ addedCodes ops) (env : Env) (m : Msg) (he : m.esv = 0x62) (hs : OwnSections m) (hp : m.props = [{ code := 0x80 }, { code := 0x82 }, { code := 0x83 }]) :
    let n := runOps ord (LocalNode.new ord rnd ctl).1 ops
    Quiet env n.profile m →
    n.getObject (.int 0x0EF001) = some n.profile ∧ (n.profile.messageReceived env m).obj = n.profile ∧
    ∃ r, (n.profile.messageReceived env m).result = .ok (some r) ∧ r.esv = 0x72 ∧ r.props = identity rnd := by
  intro n hq
  exact identity_answer hord rnd ctl ops ha hadd [0x80, 0x82, 0x83] (by decide +kernel) env m he hs hp hq

/-- C120 is false: asked for its manufacturer (0x8A), which the standard requires every node to know and no message can set, a node says it can be read and gives no data, after every history. -/
theorem C120_manufacturer_false {ord : List Int → List Int} (hord : ValidOrder ord) (rnd : NodeProfile.Random) (ctl : Bool) (ops : List NodeOp) (ha : ∀ op ∈ ops, op.Allowed)
    (hadd : 0x0EF001 ∉ addedCodes ops) (env : Env) (m : Msg) (he : m.esv = 0x62) (hs : OwnSections m) (hp : m.props = [{ code := 0x8A }]) :
    let n := runOps ord (LocalNode.new ord rnd ctl).1 ops
    Quiet env n.profile m →
    ∃ r, (n.profile.messageReceived env m).result = .ok (some r) ∧ r.esv = 0x72 ∧ r.props = [{ code := 0x8A, data := [] }] := by
  intro n hq
  exact (identity_answer hord rnd ctl ops ha hadd [0x8A] (by decide +kernel) env m he hs hp hq).2.2

/-- Two nodes are told apart by their identification numbers if they drew different bytes. -/
theorem C120_distinct_partial (r r' : NodeProfile.Random) : identity r = identity r' ↔ r.id = r'.id := by
  unfold identity
  constructor
  · intro h
    simp only [List.cons.injEq, PProp.mk.injEq, true_and, and_true] at h
    exact List.append_cancel_left h
  · intro h; rw [h]

/-- A history with an attempt to write the identification number. -/
example : (∀ op ∈ [NodeOp.add exObj, .receive exEnv okNet { tid := 1, deoj := 0x0EF001, esv := 0x60, props := [{ code := 0x83, data := [1, 2] }], fromAddr := some ("10.0.0.2", 3610) },
      .update 0x029101 (fun o => (o.setPropertyData 0x80 [1]).1)], op.Allowed) ∧
    0x0EF001 ∉ addedCodes [NodeOp.add exObj, .receive exEnv okNet { tid := 1, deoj := 0x0EF001, esv := 0x60, props := [{ code := 0x83, data := [1, 2] }], fromAddr := some ("10.0.0.2", 3610) },
      .update 0x029101 (fun o => (o.setPropertyData 0x80 [1]).1)] := by
  refine ⟨?_, by decide⟩
  intro op hop
  simp only [List.mem_cons, List.not_mem_nil, or_false] at hop
  rcases hop with rfl | rfl | rfl
  · trivial
  · exact exEnv_stable
  · intro o
    show (o.setPropertyData 0x80 [1]).1.code = o.code
    unfold Obj.setPropertyData
    split <;> rfl

end Uecho
