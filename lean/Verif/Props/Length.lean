/-
How long the answer to a request may be.
-/
import Verif.Lemmas.Length
import Verif.Props.Identity

namespace Uecho
open Spec

/-- C144 (what holds): the answer has as many items as the request, and is at most 257/2 times as long. Missing: `C144_version_false`. -/
theorem C144_bound_partial (env : Env) (net : Net) (n : LocalNode) (m : Msg) (hm : Encodable m) :
    ∃ new, (n.messageReceived env net m).1.mgr.log = n.mgr.log ++ new ∧ ∀ x ∈ new,
      x.1.bytes.length ≤ 13 + 257 * items (received m) ∧ 2 * x.1.bytes.length ≤ 257 * (encode m).length := by
  rw [messageReceived_eq _ _ _ _ hm]
  cases hs : Dict.get? n.node.objects (m.deoj % 2 ^ 24) with
  | none => exact ⟨[], (List.append_nil _).symm, by simp⟩
  | some s =>
    simp only []
    have hmgr : ∀ o, (n.putBack (m.deoj % 2 ^ 24) s o).mgr = n.mgr := by intro o; cases s <;> rfl
    rcases hr : ((n.deref s).messageReceived env (received m)).result with e | _ | r
    · exact ⟨[], by rw [List.append_nil]; exact congrArg Manager.log (hmgr _), by simp⟩
    · exact ⟨[], by rw [List.append_nil]; exact congrArg Manager.log (hmgr _), by simp⟩
    · obtain ⟨new, t, h1, -, -, h2, -, h3⟩ := answer_log net (n.putBack (m.deoj % 2 ^ 24) s ((n.deref s).messageReceived env (received m)).obj) (received m) r
      refine ⟨new, h1.trans (by rw [hmgr]), ?_⟩
      intro x hx
      by_cases he : Encodable r
      swap
      · rw [h3 he] at hx; cases hx
      obtain ⟨h4, -⟩ := h2 x hx
      rw [h4]
      generalize n.putBack (m.deoj % 2 ^ 24) s ((n.deref s).messageReceived env (received m)).obj = k
      have e1 : (encode { outgoing k r with tid := t }).length = (encode r).length := by
        rw [encode_length, encode_length]
        unfold outgoing
        split <;> rfl
      have e2 : items r = items (received m) := by
        obtain ⟨c1, c2⟩ := C14_mirror env (n.deref s) (received m) r hr
        unfold items
        by_cases h6 : (received m).esv = 0x6E
        · obtain ⟨d1, d2, d3⟩ := c1 h6
          have d2 := congrArg List.length d2
          have d3 := congrArg List.length d3
          rw [List.length_map, List.length_map] at d2 d3
          have d4 : (received m).props = [] := by
            show (if TwoSections m.esv then [] else m.props) = []
            exact if_pos (Or.inl h6)
          rw [d1, d2, d3, d4]
        · obtain ⟨d1, d2, d3⟩ := c2 h6
          have d1 := congrArg List.length d1
          rw [List.length_map, List.length_map] at d1
          have h7 : ¬ TwoSections m.esv := by
            intro ht
            have hreq : ESV.isRequest (received m).esv = false := by
              rcases ht with ht | ht | ht
              · exact absurd ht h6
              · show ESV.isRequest m.esv = false
                rw [ht]; decide
              · show ESV.isRequest m.esv = false
                rw [ht]; decide
            have := recv_some hr
            unfold Obj.handleRequest at this
            rw [if_pos hreq] at this
            cases this
          have d4 : (received m).setProps = [] := if_neg h7
          have d5 : (received m).getProps = [] := if_neg h7
          rw [d1, d2, d3, d4, d5]
      have e3 := encode_most r he
      have e4 := encode_least m
      have e5 : items (received m) = items (onWire m) := rfl
      rw [e1]
      omega

/-- So a request for at most three properties gets an answer that every node can receive, of whatever service. -/
theorem C144_three_partial (env : Env) (net : Net) (n : LocalNode) (m : Msg) (hm : Encodable m) (h3 : items (received m) ≤ 3) :
    ∃ new, (n.messageReceived env net m).1.mgr.log = n.mgr.log ++ new ∧ ∀ x ∈ new, x.1.bytes.length ≤ 1024 := by
  obtain ⟨new, h1, h2⟩ := C144_bound_partial env net n m hm
  refine ⟨new, h1, fun x hx => ?_⟩
  have := (h2 x hx).1
  omega

theorem runOps_own_profile {ord : List Int → List Int} (hord : ValidOrder ord) (rnd : NodeProfile.Random) (ctl : Bool) (ops : List NodeOp) (ha : ∀ op ∈ ops, op.Allowed)
    (hadd : 0x0EF001 ∉ addedCodes ops) : Dict.get? (runOps ord (LocalNode.new ord rnd ctl).1 ops).node.objects 0x0EF001 = some .profile := by
  obtain ⟨n0, h0, hi, hobj, -⟩ := localNode_new hord rnd ctl
  rw [h0]
  refine runOps_ownProfile hord ops n0 hi ha ?_ hadd
  show Dict.get? n0.node.objects _ = _
  rw [hobj]
  rfl

/-- A request to a node for its version of the protocol, naming it `k` times. -/
def askVersion (k : Nat) (tid seoj : Int) (a : Addr) : Msg :=
  { tid := tid, seoj := seoj, deoj := 0x0EF001, esv := 0x62, props := (List.replicate k (0x82 : Int)).map fun c => { code := c }, fromAddr := some a }

/-- C144 is false of every node: asked 169 to 255 times for its version in one request, which has at most 522 bytes, it sends the asker an answer of more than 1024 bytes; and if the asker
is a program using the library, this ends the thread receiving it. -/
theorem C144_version_false {ord : List Int → List Int} (hord : ValidOrder ord) (rnd : NodeProfile.Random) (ctl : Bool) (ops : List NodeOp) (ha : ∀ op ∈ ops, op.Allowed)
    (hadd : 0x0EF001 ∉ addedCodes ops) (env : Env) (net : Net) (hs : NetWorks net) (k : Nat) (hk : 169 ≤ k ∧ k ≤ 255) (tid seoj : Int) (a : Addr) :
    let n := runOps ord (LocalNode.new ord rnd ctl).1 ops
    CanSend n.mgr → Quiet env n.profile (received (askVersion k tid seoj a)) →
    (encode (askVersion k tid seoj a)).length = 12 + 2 * k ∧
    ∃ i b, (n.messageReceived env net (askVersion k tid seoj a)).1.mgr.log = n.mgr.log ++ [(⟨i, a, b⟩, (b.length : Int))] ∧ b.length = 12 + 6 * k ∧
      ∀ {σ : Type} (deliver : σ → Msg → σ × Option Exc) (st : σ) (from_ : Addr) (later : List (Bytes × Addr)), runLoop deliver st ((b, from_) :: later) = (st, false) := by
  intro n hcan hq
  have hsec : ¬ TwoSections (askVersion k tid seoj a).esv := by show ¬ TwoSections 0x62; decide
  have hprops : ∀ p ∈ (askVersion k tid seoj a).props, p = { code := 0x82 } := by
    intro p hp
    obtain ⟨c, hc, rfl⟩ := List.mem_map.mp hp
    rw [List.eq_of_mem_replicate hc]
  have hlen : (askVersion k tid seoj a).props.length = k := by
    show (List.map _ (List.replicate k (0x82 : Int))).length = k
    rw [List.length_map, List.length_replicate]
  have hm : Encodable (askVersion k tid seoj a) := by
    refine ⟨show (0 : Int) ≤ 0x62 ∧ (0x62 : Int) < 256 by decide, ?_⟩
    rw [if_neg hsec]
    refine ⟨by rw [hlen]; omega, fun p hp => ?_⟩
    rw [hprops p hp]
    decide
  have hrp : (received (askVersion k tid seoj a)).props = (List.replicate k (0x82 : Int)).map fun c => { code := c } := by
    show (if TwoSections 0x62 then [] else _) = _
    exact if_neg hsec
  obtain ⟨h1, h2, r, h3, h4, h5⟩ := identity_answer hord rnd ctl ops ha hadd (List.replicate k 0x82)
    (by intro c hc; rw [List.eq_of_mem_replicate hc]; decide +kernel) env (received (askVersion k tid seoj a)) rfl
    (by
      have h : OwnSections (received (askVersion 0 0 0 a)) := ⟨rfl, rfl⟩
      exact h) hrp hq
  have hget : Dict.get? n.node.objects ((askVersion k tid seoj a).deoj % 2 ^ 24) = some .profile := by
    show Dict.get? n.node.objects (0x0EF001 % 2 ^ 24) = some .profile
    rw [show (0x0EF001 : Int) % 2 ^ 24 = 0x0EF001 by decide]
    exact runOps_own_profile hord rnd ctl ops ha hadd
  have hr5 : r.props = List.replicate k { code := 0x82, data := [0x01, 0x0D, 0x01, 0x00] } := by
    rw [h5, List.map_replicate]
    rfl
  have hrsec : ¬ TwoSections r.esv := by rw [h4]; decide
  have hre : Encodable r := by
    refine ⟨by rw [h4]; decide, ?_⟩
    rw [if_neg hrsec, hr5]
    refine ⟨by rw [List.length_replicate]; omega, fun p hp => ?_⟩
    rw [List.eq_of_mem_replicate hp]
    decide
  obtain ⟨i, t, -, g1, -, -⟩ := answer_sent net n (received (askVersion k tid seoj a)) r a (by rw [h4]; decide) rfl hre hcan hs
  have hout : Encodable { outgoing n r with tid := t } := by
    have := (outgoing_encodable n r).mpr hre
    exact this
  have hblen : (encode { outgoing n r with tid := t }).length = 12 + 6 * k := by
    rw [encode_length]
    have : encBody { outgoing n r with tid := t } = encSection r.props := by
      have : encBody { outgoing n r with tid := t } = encBody r := by
        unfold outgoing
        split <;> rfl
      rw [this]
      exact if_neg hrsec
    rw [this, encSection_length, hr5, List.length_replicate, List.map_replicate, List.sum_replicate_nat]
    simp only [List.length_cons, List.length_nil]
    omega
  refine ⟨?_, i, _, ?_, hblen, ?_⟩
  · rw [encode_length]
    have : encBody (askVersion k tid seoj a) = encSection (askVersion k tid seoj a).props := if_neg hsec
    rw [this, encSection_length, hlen]
    have : (askVersion k tid seoj a).props.map (fun p => p.data.length) = List.replicate k 0 := by
      show ((List.replicate k (0x82 : Int)).map _).map _ = _
      rw [List.map_replicate, List.map_replicate]
      rfl
    rw [this, List.sum_replicate_nat]
    omega
  · rw [messageReceived_eq _ _ _ _ hm, hget]
    simp only []
    have e1 : n.deref .profile = n.profile := rfl
    rw [e1, h3, h2]
    exact g1
  · intro σ deliver st from_ later
    exact C55_long_message_false deliver st from_ _ later hout (by rw [hblen]; omega)

/-! ### Examples -/

/-- The hypotheses are met by a node that has just been started. -/
example : CanSend (runOps List.dedup (LocalNode.new List.dedup ⟨[], 0, 0⟩ false).1 [.start okNet none]).mgr ∧ (∀ op ∈ [NodeOp.start okNet none], op.Allowed) ∧
    (0x0EF001 : Int) ∉ addedCodes [NodeOp.start okNet none] ∧ ∀ n m, Quiet { exEnv with observe := fun _ _ => none } (runOps List.dedup (LocalNode.new List.dedup ⟨[], 0, 0⟩ n).1 []).profile m := by
  refine ⟨?_, by simp [NodeOp.Allowed], by decide, fun _ _ _ _ => rfl⟩
  have h : (working (runOps List.dedup (LocalNode.new List.dedup ⟨[], 0, 0⟩ false).1 [.start okNet none]).mgr.servers).isEmpty = false := by decide +kernel
  exact fun e => by rw [e] at h; cases h

/-- 169 times is 350 bytes; the answer has 1026. -/
example : (encode (askVersion 169 1 0x05FF01 ("10.0.0.3", 3610))).length = 350 ∧ 12 + 6 * 169 = 1026 := by decide +kernel

/-- A request of three items. -/
example : items (received { esv := 0x6E, deoj := 0x029101, setProps := [{ code := 0x80, data := [0x31] }], getProps := [{ code := 0x80 }, { code := 0xB0 }] }) = 3 := by decide

end Uecho
