/- C98, C99: what is taken as a response; announcements that want an answer. -/
import Verif.Lemmas.Response
import Verif.Props.EndToEnd

namespace Uecho
open Spec

/-- Messages received one after the other, whether or not handling one raises. -/
def receiveAll (ord : List Int → List Int) (env : Env) (cenv : CEnv) (net : Net) (c : Ctl) (ms : List Msg) : Ctl :=
  ms.foldl (fun c m => (c.messageReceived ord env cenv net m).1) c

/-- C98 (what holds): whatever is received after a message has been posted, in one thread and with any listeners and handlers, what
`post_message` finds is nothing, or one of the messages received, unchanged, with the TID of what was posted and a service that is not
a request; once it is there it stays. Missing: `C98_anyone_false`. -/
theorem C98_taken_partial (ord : List Int → List Int) (env : Env) (cenv : CEnv) (net : Net) (ms : List Msg) : ∀ (c : Ctl) (q : Msg), c.last.request = some q →
    (receiveAll ord env cenv net c ms).last.request = some q ∧
    (∀ r, c.last.response = some r → (receiveAll ord env cenv net c ms).last.response = some r) ∧
    (c.last.response = none → ∀ r, (receiveAll ord env cenv net c ms).last.response = some r →
      ∃ m ∈ ms, Encodable m ∧ r = { onWire m with fromAddr := m.fromAddr, toAddr := m.toAddr } ∧ r.tid = q.tid ∧ ¬ RequestEsv r.esv) := by
  induction ms with
  | nil =>
    intro c q hq
    refine ⟨hq, fun r h => h, fun h r hr => ?_⟩
    rw [show (receiveAll ord env cenv net c []).last.response = c.last.response from rfl, h] at hr
    cases hr
  | cons m ms ih =>
    intro c q hq
    show (receiveAll ord env cenv net (c.messageReceived ord env cenv net m).1 ms).last.request = some q ∧ _ ∧ _
    rcases last_receive ord env cenv net c m with h | ⟨q', h1, h2, h3, h4, h5⟩
    · obtain ⟨i1, i2, i3⟩ := ih (c.messageReceived ord env cenv net m).1 q (by rw [h]; exact hq)
      refine ⟨i1, fun r hr => i2 r (by rw [h]; exact hr), fun hn r hr => ?_⟩
      obtain ⟨m', hm', rest⟩ := i3 (by rw [h]; exact hn) r hr
      exact ⟨m', List.mem_cons_of_mem _ hm', rest⟩
    · have hqq : q' = q := by rw [h1] at hq; injection hq
      subst hqq
      obtain ⟨i1, i2, -⟩ := ih (c.messageReceived ord env cenv net m).1 q' (by rw [h5])
      refine ⟨i1, fun r hr => ?_, fun _ r hr => ?_⟩
      · rw [h1] at hr; cases hr
      · have := i2 (received m) (by rw [h5])
        have hr : (receiveAll ord env cenv net (c.messageReceived ord env cenv net m).1 ms).last.response = some r := hr
        rw [this] at hr
        injection hr with hr
        subst hr
        exact ⟨m, List.mem_cons_self, h3, rfl, h2.symm, h4⟩

/-- C98 (what holds), for messages that are neither requests nor reports: the first one with the TID is taken. -/
theorem C98_first_partial (ord : List Int → List Int) (env : Env) (cenv : CEnv) (net : Net) (ms : List Msg)
    (hms : ∀ m ∈ ms, Encodable m ∧ ¬ RequestEsv m.esv ∧ m.esv ≠ 0x72 ∧ m.esv ≠ 0x73 ∧ m.esv ≠ 0x7E) : ∀ (c : Ctl) (q : Msg), c.last = { request := some q } →
    (receiveAll ord env cenv net c ms).last.response =
      (ms.find? fun m => decide (m.tid % 2 ^ 16 = q.tid)).map fun m => { onWire m with fromAddr := m.fromAddr, toAddr := m.toAddr } := by
  induction ms with
  | nil => intro c q h; rw [show receiveAll ord env cenv net c [] = c from rfl, h]; rfl
  | cons m ms ih =>
    intro c q h
    obtain ⟨h1, h2, h3⟩ := hms m List.mem_cons_self
    show (receiveAll ord env cenv net (c.messageReceived ord env cenv net m).1 ms).last.response = _
    rw [receive_plain ord env cenv net c m h1 h2 h3]
    by_cases ht : m.tid % 2 ^ 16 = q.tid
    · rw [List.find?_cons_of_pos (by simpa using ht)]
      have hl := receiveResponse_stores c q (received m) h ht.symm
      exact (C98_taken_partial ord env cenv net ms (c.receiveResponse (received m)) q (by rw [hl])).2.1 (received m) (by rw [hl])
    · rw [List.find?_cons_of_neg (by simpa using ht)]
      apply ih (fun m hm => hms m (List.mem_cons_of_mem _ hm))
      show (c.receiveResponse (received m)).last = _
      rcases last_receiveResponse c (received m) with hl | ⟨q', k1, k2, -⟩
      · rw [hl, h]
      · rw [h] at k1
        injection k1 with k1
        injection k1 with k1
        subst k1
        exact absurd k2.symm ht

/-- Somebody else's late response, the right one, and a second one. -/
example : let ms : List Msg := [{ tid := 4, esv := 0x71 }, { tid := 5, esv := 0x52, deoj := 0x0EF001, fromAddr := some ("10.0.0.9", 3610) }, { tid := 5, esv := 0x71 }]
    (∀ m ∈ ms, Encodable m ∧ ¬ RequestEsv m.esv ∧ m.esv ≠ 0x72 ∧ m.esv ≠ 0x73 ∧ m.esv ≠ 0x7E) ∧
    (ms.find? fun m => decide (m.tid % 2 ^ 16 = 5)).map Msg.esv = some 0x52 := by decide +kernel

/-- C98 is false: after a message has been posted to a node at address a, a response from any other address, from any object and of
any service but requests and reports (also services that do not exist, or that answer another kind of request), is what
`post_message` finds, if it has the TID. -/
theorem C98_anyone_false {ord : List Int → List Int} (hord : ValidOrder ord) {c : Ctl} {ops : List CtlOp} (h : CtlReach ord c ops) (env : Env) (cenv : CEnv)
    (net : Net) (hs : NetWorks net) (hw : CanSend c.ln.mgr) (m : Msg) (hm : Encodable m) (ht : 0 ≤ m.tid ∧ m.tid ≤ 65535) (dest : PyDest) (a : Addr)
    (hd : Ctl.toAddr dest = some a) : ∃ t, 1 ≤ t ∧ t ≤ 65535 ∧ ∀ (b : Addr) (r : Msg), r.fromAddr = some b → r.tid = t → Encodable r → ¬ RequestEsv r.esv →
      r.esv ≠ 0x72 ∧ r.esv ≠ 0x73 ∧ r.esv ≠ 0x7E →
      ∃ r', ((c.postBegin net m dest).1.messageReceived ord env cenv net r).1.last.response = some r' ∧ r'.fromAddr = some b ∧ r'.seoj = r.seoj % 2 ^ 24 ∧ r'.esv = r.esv := by
  obtain ⟨i, t, q, -, -, hl, hq, h1, h2, -⟩ := post_sent hord h net hs hw m hm ht dest a hd
  refine ⟨t, h1, h2, ?_⟩
  intro b r hb hr he hreq hrep
  rw [receive_plain ord env cenv net _ r he hreq hrep, receiveResponse_stores _ q (received r) hl (by show q.tid = r.tid % 2 ^ 16; omega)]
  exact ⟨_, rfl, hb, rfl, rfl⟩

/-- A write error "from" object 0x777777 at another address. -/
example : let r : Msg := { tid := 5, seoj := 0x777777, deoj := 0x0EF001, esv := 0x51, fromAddr := some ("66.66.66.66", 1) }
    Encodable r ∧ ¬ RequestEsv r.esv ∧ r.esv ≠ 0x72 ∧ r.esv ≠ 0x73 ∧ r.esv ≠ 0x7E := by decide +kernel

/-- C99 is false: an announcement that wants an answer (0x74) changes nothing in what the controller knows, no listener is called. -/
theorem C99_confirmed_false (ord : List Int → List Int) (env : Env) (cenv : CEnv) (net : Net) (c : Ctl) (m : Msg) (he : m.esv = 0x74) :
    (c.messageReceived ord env cenv net m).1.found = c.found ∧ (c.messageReceived ord env cenv net m).1.calls = c.calls ∧
    (c.messageReceived ord env cenv net m).1.last = c.last ∧
    ∀ addr, (c.messageReceived ord env cenv net m).1.getNode cenv addr = c.getNode cenv addr := by
  have : ESV.isRequest m.esv = true := by rw [he]; decide
  rw [request_eq ord env cenv net c m this]
  exact ⟨rfl, rfl, rfl, fun _ => rfl⟩

/-- C99 (what holds): the same announcement without the wish for an answer (0x73) makes the node known, with the objects it lists, after
any history. Missing: `C99_confirmed_false`. -/
theorem C99_plain_partial {ord : List Int → List Int} (hord : ValidOrder ord) {c : Ctl} {ops : List CtlOp} (h : CtlReach ord c ops)
    (env : Env) (henv : CodeStable env) (cenv : CEnv) (hc : Calm cenv) (net : Net) (m : Msg) (hd : Delivered m) (he : m.esv = 0x73) (hdeoj : m.deoj % 2 ^ 24 = 0x0EF001)
    (a : Addr) (ha : m.fromAddr = some a) (l : List Int) (hl : instanceListOf m = .codes l) (p : Int) :
    ∃ r, (c.messageReceived ord env cenv net m).1.getNode cenv (.pair (a.1, p)) = .ok (some r) ∧ r.node.address = some a ∧
      ∃ r' ∈ (c.messageReceived ord env cenv net m).1.nodes, r'.node.address = some a ∧ r'.node.objectList.map Obj.code = addCodes [0x0EF001] l := by
  have hr := ctl_snoc h (.receive env cenv net m) ⟨hd, hc, henv⟩
  have hann : announced m = some (a, l) := by
    unfold announced
    rw [if_pos ⟨Or.inr he, hdeoj⟩, ha, hl]
  have hlat : latest (heard (ops ++ [.receive env cenv net m])) a.1 = some (a, l) := by
    rw [heard_append, show heard [CtlOp.receive env cenv net m] = [m] from rfl, latest_append, hann]
    simp
  obtain ⟨r, -, k1, k2⟩ := (C59_get_node hord hr cenv a.1 p).2 a l hlat
  obtain ⟨r', j1, j2, -, -, j3⟩ := (C59_nodes hord hr).2.2 a.1 a l hlat
  exact ⟨r, k1, k2, r', j1, j2, j3⟩

example : (exList "10.0.0.9" [0x029101]).esv = 0x73 ∧ Delivered (exList "10.0.0.9" [0x029101]) ∧ (exList "10.0.0.9" [0x029101]).deoj % 2 ^ 24 = 0x0EF001 ∧
    (exList "10.0.0.9" [0x029101]).fromAddr = some ("10.0.0.9", 3610) ∧ instanceListOf (exList "10.0.0.9" [0x029101]) = .codes [0x029101] :=
  ⟨rfl, ⟨by decide +kernel, rfl⟩, by decide, rfl, rfl⟩

end Uecho
