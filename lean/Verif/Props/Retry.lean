/- C111: a message object that is posted again. -/
import Verif.Props.Traffic
import Verif.Props.Response

namespace Uecho
open Spec

/-- What waits after a post, and its TID. -/
theorem repost (net : Net) (c : Ctl) (hr : 0 ≤ c.ln.mgr.tid ∧ c.ln.mgr.tid ≤ 65535) (m : Msg) (dest : PyDest) :
    ∃ q, (c.postBegin net m dest).1.last = { request := some q } ∧
      (m.tid ≠ 0 → q.tid = m.tid ∧ (c.postBegin net m dest).1.ln.mgr.tid = c.ln.mgr.tid) ∧
      (m.tid = 0 → q.tid = c.ln.mgr.tid % 65535 + 1 ∧ (c.postBegin net m dest).1.ln.mgr.tid = c.ln.mgr.tid % 65535 + 1) := by
  have hout : (outgoing c.ln m).tid = m.tid := by unfold outgoing; split <;> rfl
  have hop := op_tid c.ln.mgr (.send net (outgoing c.ln m) (Ctl.toAddr dest)) hr
  simp only [MgrOp.message, hout] at hop
  have heq : c.postBegin net m dest = ({ c with ln := { c.ln with mgr := (c.ln.mgr.send net (outgoing c.ln m) (Ctl.toAddr dest)).1 },
                                                last := { request := some (c.ln.mgr.send net (outgoing c.ln m) (Ctl.toAddr dest)).2.1 } },
      (c.ln.mgr.send net (outgoing c.ln m) (Ctl.toAddr dest)).2.2) := by
    unfold Ctl.postBegin Ctl.sendMessage
    simp only []
    rw [sendMessage_eq]
  rw [heq]
  refine ⟨_, rfl, fun h => ?_, fun h => ?_⟩
  · rw [if_neg h] at hop
    exact ⟨hop.2, hop.1⟩
  · rw [if_pos h] at hop
    exact ⟨hop.2, hop.1⟩

/-- C111 is false: a message object (`q`, once it has been posted) that is posted again, to whomever, is sent with the TID it got when it was
posted first; a response to the first one, that arrives late, is what the second `post_message` finds. -/
theorem C111_again_false {ord : List Int → List Int} (hord : ValidOrder ord) {c : Ctl} {ops : List CtlOp} (h : CtlReach ord c ops) (env : Env) (cenv : CEnv)
    (net : Net) (m : Msg) (hm : m.tid = 0) (dest dest' : PyDest) :
    ∃ q, (c.postBegin net m dest).1.last = { request := some q } ∧ 1 ≤ q.tid ∧ q.tid ≤ 65535 ∧
      ∀ (a : Addr) (r : Msg), r.fromAddr = some a → r.tid = q.tid → Encodable r → ¬ RequestEsv r.esv → r.esv ≠ 0x72 ∧ r.esv ≠ 0x73 ∧ r.esv ≠ 0x7E →
        ∃ r', ((((c.postBegin net m dest).1.postBegin net q dest').1).messageReceived ord env cenv net r).1.last.response = some r' ∧
          r'.fromAddr = some a ∧ r'.tid = r.tid ∧ r'.esv = r.esv := by
  have hr := reachable_tid hord (reach_ln hord h).1
  obtain ⟨q, q1, -, q2⟩ := repost net c hr m dest
  obtain ⟨q3, q4⟩ := q2 hm
  refine ⟨q, q1, by omega, by omega, fun a r ha ht he hreq hrep => ?_⟩
  obtain ⟨q', k1, k2, -⟩ := repost net (c.postBegin net m dest).1 (by omega) q dest'
  obtain ⟨k3, -⟩ := k2 (by omega)
  rw [receive_plain ord env cenv net _ r he hreq hrep, receiveResponse_stores _ q' (received r) k1 (by show q'.tid = r.tid % 2 ^ 16; omega)]
  exact ⟨_, rfl, ha, (by show r.tid % 2 ^ 16 = r.tid; omega), rfl⟩

/-- C111 (what holds): if the TID of the message object is set to 0 before it is posted again, it is sent with another TID, and no message that has the
TID of the first one is found. Missing: `C111_again_false`. -/
theorem C111_reset_partial {ord : List Int → List Int} (hord : ValidOrder ord) {c : Ctl} {ops : List CtlOp} (h : CtlReach ord c ops) (env : Env) (cenv : CEnv)
    (net : Net) (m : Msg) (hm : m.tid = 0) (dest dest' : PyDest) :
    ∃ q q', (c.postBegin net m dest).1.last = { request := some q } ∧
      ((c.postBegin net m dest).1.postBegin net { q with tid := 0 } dest').1.last = { request := some q' } ∧ q'.tid ≠ q.tid ∧
      ∀ ms : List Msg, (∀ r ∈ ms, r.tid = q.tid) →
        (receiveAll ord env cenv net ((c.postBegin net m dest).1.postBegin net { q with tid := 0 } dest').1 ms).last.response = none := by
  have hr := reachable_tid hord (reach_ln hord h).1
  obtain ⟨q, q1, -, q2⟩ := repost net c hr m dest
  obtain ⟨q3, q4⟩ := q2 hm
  obtain ⟨q', k1, -, k2⟩ := repost net (c.postBegin net m dest).1 (by omega) { q with tid := 0 } dest'
  obtain ⟨k3, -⟩ := k2 rfl
  refine ⟨q, q', q1, k1, by omega, fun ms hms => ?_⟩
  obtain ⟨-, -, t⟩ := C98_taken_partial ord env cenv net ms _ q' (by rw [k1])
  rcases hx : (receiveAll ord env cenv net ((c.postBegin net m dest).1.postBegin net { q with tid := 0 } dest').1 ms).last.response with _ | r
  · rfl
  · obtain ⟨x, x1, -, x2, x3, -⟩ := t (by rw [k1]) r hx
    have := hms x x1
    have : r.tid = x.tid % 2 ^ 16 := by rw [x2]; rfl
    omega

/-- A read that timed out is posted again to another device; the first device's error arrives. -/
example {ord : List Int → List Int} (hord : ValidOrder ord) : ∃ c ops, CtlReach ord c ops ∧ ({ esv := 0x62 } : Msg).tid = 0 ∧
    let r : Msg := { tid := 1, seoj := 0x013001, esv := 0x52, fromAddr := some ("10.0.0.9", 3610) }
    Encodable r ∧ ¬ RequestEsv r.esv ∧ r.esv ≠ 0x72 ∧ r.esv ≠ 0x73 ∧ r.esv ≠ 0x7E := by
  obtain ⟨c, ops, h, -⟩ := ctl_two hord
  exact ⟨c, ops, h, rfl, by decide +kernel⟩

end Uecho
