/-
A controller on a network that loses, delays, duplicates and reorders responses.
-/
import Verif.Spec.Session
import Verif.Lemmas.Response

namespace Uecho.Spec

/-- What a controller sends and receives from a state `c0` on. `sent` are the messages sent without a TID of their own, as they went out;
`cur` is the number of the one posted last; `arrived` are the responses that arrived, each with the number of the message it is a
response to. A response may arrive at any time, repeatedly, or never, but there are less than `W` numbers between the message it is for and the
message posted last. Nothing is assumed of the network, the listeners, the handlers and the contents. -/
inductive Traffic (ord : List Int → List Int) (W : Nat) (k : Side) (c0 : Ctl) : Ctl → List Msg → Option Nat → List (Nat × Msg) → Prop where
  | start : Traffic ord W k c0 c0 [] none []
  | post {c sent cur arrived} (m : Msg) (dest : PyDest) (q : Msg) (h : Traffic ord W k c0 c sent cur arrived) (h0 : m.tid = 0)
      (hq : (c.postBegin k.cnet m dest).1.last.request = some q) :
      Traffic ord W k c0 (c.postBegin k.cnet m dest).1 (sent ++ [q]) (some sent.length) arrived
  | send {c sent cur arrived} (m : Msg) (dest : PyDest) (h : Traffic ord W k c0 c sent cur arrived) (h0 : m.tid = 0) :
      Traffic ord W k c0 (c.sendMessage k.cnet m dest).1 (sent ++ [(c.sendMessage k.cnet m dest).2.1]) cur arrived
  | announce {c sent cur arrived} (m : Msg) (h : Traffic ord W k c0 c sent cur arrived) (h0 : m.tid = 0) :
      Traffic ord W k c0 (c.announceMessage k.cnet m).1 (sent ++ [(c.announceMessage k.cnet m).2.1]) cur arrived
  /-- a request with a TID -/
  | request {c sent cur arrived} (m : Msg) (h : Traffic ord W k c0 c sent cur arrived) (he : RequestEsv m.esv) (ht : m.tid % 2 ^ 16 ≠ 0) :
      Traffic ord W k c0 (c.messageReceived ord k.cuser k.cenv k.cnet m).1 sent cur arrived
  | response {c sent cur arrived} (i : Nat) (q r : Msg) (h : Traffic ord W k c0 c sent cur arrived) (hi : sent[i]? = some q) (he : ¬ RequestEsv r.esv)
      (ht : r.tid = q.tid) (hw : ∀ j, cur = some j → i < j + W ∧ j < i + W) :
      Traffic ord W k c0 (c.messageReceived ord k.cuser k.cenv k.cnet r).1 sent cur (arrived ++ [(i, r)])

end Uecho.Spec
