/- C110: late responses. -/
import Verif.Lemmas.Traffic
import Verif.Props.Session

namespace Uecho
open Spec

/-- C110 (what holds): on a network that loses, delays, duplicates and reorders responses, what `post_message` finds is a response to the message posted, and not one to
another message, as long as fewer than 65535 messages lie between the one a response is for and the one posted. Missing: `C110_wrap_false`. -/
theorem C110_own_partial {ord : List Int → List Int} (hord : ValidOrder ord) (k : Side) {c0 : Ctl} {ops : List CtlOp} (h0 : CtlReach ord c0 ops) {c : Ctl}
    {sent : List Msg} {j : Nat} {arrived : List (Nat × Msg)} (h : Traffic ord 65535 k c0 c sent (some j) arrived) (x : Msg) (hx : c.last.response = some x) :
    ∃ r, (j, r) ∈ arrived ∧ x = { onWire r with fromAddr := r.fromAddr, toAddr := r.toAddr } := by
  obtain ⟨q, -, -, h3⟩ := (traffic_inv (reachable_tid hord (reach_ln hord h0).1) h).now j rfl
  exact h3 x hx

/-- A message posted over and over. -/
theorem posts (ord : List Int → List Int) (k : Side) (c0 : Ctl) (m : Msg) (hm : m.tid = 0) (dest : PyDest) (n : Nat) :
    ∃ c sent, (∀ W, Traffic ord W k c0 c sent (some n) []) ∧ sent.length = n + 1 ∧ ∃ q, c.last = { request := some q } := by
  induction n with
  | zero =>
    exact ⟨_, _, fun W => .post m dest _ .start hm rfl, rfl, _, rfl⟩
  | succ n ih =>
    obtain ⟨c, sent, h1, h2, -⟩ := ih
    have h : ∀ W, Traffic ord W k c0 (c.postBegin k.cnet m dest).1 (sent ++ [(c.sendMessage k.cnet m dest).2.1]) (some sent.length) [] :=
      fun W => .post m dest _ (h1 W) hm rfl
    rw [h2] at h
    exact ⟨_, _, h, by rw [List.length_append, h2]; rfl, _, rfl⟩

/-- C110 is false: whatever the controller did before, when the message posted is the 65535th after another one, a late response to that other one is
what `post_message` finds. -/
theorem C110_wrap_false {ord : List Int → List Int} (hord : ValidOrder ord) (k : Side) {c0 : Ctl} {ops : List CtlOp} (h0 : CtlReach ord c0 ops) (m : Msg) (hm : m.tid = 0)
    (dest : PyDest) : ∃ c sent arrived x, Traffic ord 65536 k c0 c sent (some 65535) arrived ∧ c.last.response = some x ∧ arrived.map Prod.fst = [0] := by
  obtain ⟨c, sent, h1, h2, q, h3⟩ := posts ord k c0 m hm dest 65535
  have hi := traffic_inv (reachable_tid hord (reach_ln hord h0).1) (h1 65535)
  have hr := reachable_tid hord (reach_ln hord h0).1
  obtain ⟨q0, hq0⟩ : ∃ q0, sent[0]? = some q0 := ⟨sent[0]'(by omega), List.getElem?_eq_getElem (by omega)⟩
  obtain ⟨q1, k1, k2, -⟩ := hi.now 65535 rfl
  rw [h3] at k2
  obtain rfl := Option.some.inj k2
  have t0 := hi.tids 0 q0 hq0
  have t1 := hi.tids 65535 q k1
  let r : Msg := { tid := q0.tid, esv := 0x71 }
  have hx := Traffic.response (W := 65536) 0 q0 r (h1 65536) hq0 (by show ¬ RequestEsv 0x71; decide) rfl (by intro j hj; injection hj with hj; omega)
  refine ⟨_, sent, _, received r, hx, ?_, rfl⟩
  rw [receive_plain ord k.cuser k.cenv k.cnet c r (by
      show Encodable { tid := q0.tid, esv := 0x71 }
      unfold Encodable
      rw [if_neg (by show ¬ TwoSections 0x71; decide)]
      refine ⟨by show (0 : Int) ≤ 0x71 ∧ (0x71 : Int) < 256; decide, by show 0 < 256; decide, by intro p hp; cases hp⟩)
    (by show ¬ RequestEsv 0x71; decide) (by show (0x71 : Int) ≠ 0x72 ∧ (0x71 : Int) ≠ 0x73 ∧ (0x71 : Int) ≠ 0x7E; decide),
    receiveResponse_stores c q (received r) h3 (by show q.tid = q0.tid % 2 ^ 16; omega)]

/-- A request times out, the next is posted, then the late response to the first arrives, twice, and is not taken. -/
example {ord : List Int → List Int} (hord : ValidOrder ord) : ∃ k c0 ops c sent arrived, CtlReach ord c0 ops ∧ Traffic ord 65535 k c0 c sent (some 1) arrived ∧
    arrived.map Prod.fst = [0, 0] ∧ c.last.response = none := by
  obtain ⟨c0, ops, h0, -⟩ := ctl_two hord
  let k : Side := ⟨("10.0.0.2", 3610), calmEnv, exEnv, okNet⟩
  obtain ⟨c, sent, h1, h2, q, h3⟩ := posts ord k c0 { esv := 0x61 } rfl (.str "10.0.0.9") 1
  obtain ⟨q0, hq0⟩ : ∃ q0, sent[0]? = some q0 := ⟨sent[0]'(by omega), List.getElem?_eq_getElem (by omega)⟩
  let r : Msg := { tid := q0.tid, esv := 0x71 }
  have hx := Traffic.response (W := 65535) 0 q0 r (h1 65535) hq0 (by show ¬ RequestEsv 0x71; decide) rfl (by intro j hj; injection hj with hj; omega)
  have hy := Traffic.response (W := 65535) 0 q0 r hx hq0 (by show ¬ RequestEsv 0x71; decide) rfl (by intro j hj; injection hj with hj; omega)
  refine ⟨k, c0, ops, _, sent, _, h0, hy, rfl, ?_⟩
  generalize hc : (Ctl.messageReceived ord k.cuser k.cenv k.cnet (Ctl.messageReceived ord k.cuser k.cenv k.cnet c r).1 r).1 = c2 at hy
  cases hn : c2.last.response with
  | none => rfl
  | some x =>
    obtain ⟨r', hr, -⟩ := C110_own_partial hord k h0 hy x hn
    simp at hr

end Uecho
