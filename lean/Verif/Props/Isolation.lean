/- Property C116: the objects of a device do not influence each other. -/
import Verif.Lemmas.Repeat
import Verif.Lemmas.Storm
import Verif.Props.EndToEnd

namespace Uecho
open Spec

/-- A message on its way to a node: what user code and the network do when it is handled, and the message. -/
structure Visit where
  env : Env
  net : Net
  msg : Msg

/-- A message a node can get: anything that was decoded, for objects as they are numbered; and user code
leaves object codes alone. -/
def Visit.Ok (v : Visit) : Prop := CodeStable v.env ∧ Encodable v.msg ∧ 0 ≤ v.msg.deoj ∧ v.msg.deoj < 2 ^ 24

/-- The node after it got these messages, one after the other, whether or not handling them raised. -/
def visited (n : LocalNode) (vs : List Visit) : LocalNode := vs.foldl (fun n v => (n.messageReceived v.env v.net v.msg).1) n

/-- The messages for one object. -/
def visitsOf (c : Int) (vs : List Visit) : List Visit := vs.filter fun v => v.msg.deoj = c

/-- An object, not part of any node, given these messages. -/
def aloneObj (o : Obj) (vs : List Visit) : Obj := vs.foldl (fun o v => (o.messageReceived v.env (received v.msg)).obj) o

theorem visited_append (n : LocalNode) (a b : List Visit) : visited n (a ++ b) = visited (visited n a) b := by
  unfold visited; rw [List.foldl_append]

theorem visited_reachable {ord : List Int → List Int} (vs : List Visit) : ∀ {n : LocalNode}, Reachable ord n → (∀ v ∈ vs, v.Ok) →
    Reachable ord (visited n vs) := by
  induction vs with
  | nil => intro n h _; exact h
  | cons v vs ih =>
    intro n h hv
    exact ih (reachable_receive h (hv v List.mem_cons_self).1 v.net v.msg) (fun x hx => hv x (List.mem_cons_of_mem _ hx))

/-- C116. After any history of messages, every object of a node is in the state it would be in had it been
alone and been given only the messages for it: messages for other objects, of any kind, have no influence. -/
theorem C116_state {ord : List Int → List Int} (hord : ValidOrder ord) (vs : List Visit) (hv : ∀ v ∈ vs, v.Ok) (c : Int) :
    ∀ {n : LocalNode}, Reachable ord n →
      (visited n vs).getObject (.int c) = (n.getObject (.int c)).map fun o => aloneObj o (visitsOf c vs) := by
  induction vs with
  | nil => intro n _; show _ = Option.map id _; rw [Option.map_id]; rfl
  | cons v vs ih =>
    intro n hr
    obtain ⟨h1, h2, h3⟩ := hv v List.mem_cons_self
    have hr1 := reachable_receive hr h1 v.net v.msg
    have := ih (fun x hx => hv x (List.mem_cons_of_mem _ hx)) hr1
    refine this.trans ?_
    by_cases hc : v.msg.deoj = c
    · have hf : visitsOf c (v :: vs) = v :: visitsOf c vs := by unfold visitsOf; rw [List.filter_cons_of_pos (by simpa using hc)]
      rw [hf]
      obtain ho | ⟨o, ho⟩ := Option.eq_none_or_eq_some (n.getObject (.int v.msg.deoj))
      · rw [C48_unknown v.env v.net n v.msg h2 h3 ho, ← hc, ho]
        rfl
      · have := (C48_dispatch hord hr v.env v.net v.msg h2 h3 o ho).1 c
        rw [this, if_pos hc.symm, ← hc, ho]
        rfl
    · have hf : visitsOf c (v :: vs) = visitsOf c vs := by unfold visitsOf; rw [List.filter_cons_of_neg (by simpa using hc)]
      rw [hf]
      congr 1
      obtain ho | ⟨o, ho⟩ := Option.eq_none_or_eq_some (n.getObject (.int v.msg.deoj))
      · rw [C48_unknown v.env v.net n v.msg h2 h3 ho]
      · rw [(C48_dispatch hord hr v.env v.net v.msg h2 h3 o ho).1 c, if_neg (fun e => hc e.symm)]

/-- C116. Two histories in which every object gets the same messages in the same order leave the objects the
same, however the messages for different objects are mixed. -/
theorem C116_order {ord : List Int → List Int} (hord : ValidOrder ord) {n : LocalNode} (hr : Reachable ord n) (vs ws : List Visit)
    (hv : ∀ v ∈ vs, v.Ok) (hw : ∀ v ∈ ws, v.Ok) (h : ∀ c, visitsOf c vs = visitsOf c ws) (c : Int) :
    (visited n vs).getObject (.int c) = (visited n ws).getObject (.int c) := by
  rw [C116_state hord vs hv c hr, C116_state hord ws hw c hr, h c]

/-- C116. The answer to a request, too, depends on the messages for the object it is for only: after two
histories in which that object got the same messages, a request with a TID makes the node hand the same
bytes for the same destination to the operating system. -/
theorem C116_answer {ord : List Int → List Int} (hord : ValidOrder ord) {n : LocalNode} (hr : Reachable ord n) (vs ws : List Visit)
    (hv : ∀ v ∈ vs, v.Ok) (hw : ∀ v ∈ ws, v.Ok) (q : Visit) (hq : q.Ok) (ht : q.msg.tid % 2 ^ 16 ≠ 0) (net' : Net)
    (h : visitsOf q.msg.deoj vs = visitsOf q.msg.deoj ws) :
    ∃ a b, ((visited n vs).messageReceived q.env q.net q.msg).1.mgr.log = (visited n vs).mgr.log ++ a ∧
      ((visited n ws).messageReceived q.env net' q.msg).1.mgr.log = (visited n ws).mgr.log ++ b ∧
      ∀ x ∈ a, ∀ y ∈ b, x.1.bytes = y.1.bytes ∧ x.1.dest = y.1.dest := by
  have r1 := visited_reachable vs hr hv
  have r2 := visited_reachable ws hr hw
  have s1 := C116_state hord vs hv q.msg.deoj hr
  have s2 := C116_state hord ws hw q.msg.deoj hr
  rw [h] at s1
  obtain ho | ⟨o, ho⟩ := Option.eq_none_or_eq_some ((visited n ws).getObject (.int q.msg.deoj))
  · refine ⟨[], [], ?_, ?_, by simp⟩
    · rw [C48_unknown q.env q.net _ q.msg hq.2.1 hq.2.2 (by rw [s1, ← s2]; exact ho)]; simp
    · rw [C48_unknown q.env net' _ q.msg hq.2.1 hq.2.2 ho]; simp
  · obtain ⟨-, -, a, l1, e1, f1⟩ := C48_dispatch hord r1 q.env q.net q.msg hq.2.1 hq.2.2 o (by rw [s1, ← s2]; exact ho)
    obtain ⟨-, -, b, l2, e2, f2⟩ := C48_dispatch hord r2 q.env net' q.msg hq.2.1 hq.2.2 o ho
    refine ⟨a, b, l1, l2, ?_⟩
    intro x hx y hy
    rcases hres : (o.messageReceived q.env (received q.msg)).result with e | (_ | res)
    · rw [e1 (fun res h => by rw [hres] at h; cases h)] at hx
      cases hx
    · rw [e1 (fun res h => by rw [hres] at h; cases h)] at hx
      cases hx
    · obtain ⟨t, ht1, -, hx1, -⟩ := f1 res hres
      obtain ⟨t', ht2, -, hy1, -⟩ := f2 res hres
      have htid : res.tid = q.msg.tid % 2 ^ 16 := (C13_addressing q.env o (received q.msg) res hres).1
      have hz : res.tid ≠ 0 := by rw [htid]; exact ht
      obtain ⟨x1, x2⟩ := hx1 x hx
      obtain ⟨y1, y2⟩ := hy1 y hy
      have hctl : ∀ us, (∀ v ∈ us, v.Ok) → (visited n us).controller = n.controller := by
        intro us
        induction us using List.reverseRecOn with
        | nil => intro _; rfl
        | append_singleton us u ih =>
          intro hus
          have hus' : ∀ v ∈ us, v.Ok := fun v hv => hus v (List.mem_append_left _ hv)
          rw [visited_append, ← ih hus']
          exact receive_controller hord (visited_reachable us hr hus') (hus u (by simp)).1 u.net u.msg
      refine ⟨?_, ?_⟩
      · rw [x1, y1, hctl vs hv, hctl ws hw, ht1 hz, ht2 hz]
      · have := x2.trans y2.symm
        injection this

/-- C116. With a working network, the same number of datagrams: an answer is there after the one history if
it is there after the other. -/
theorem C116_answered {ord : List Int → List Int} (hord : ValidOrder ord) {n : LocalNode} (hr : Reachable ord n) (vs ws : List Visit)
    (hv : ∀ v ∈ vs, v.Ok) (hw : ∀ v ∈ ws, v.Ok) (q : Visit) (hq : q.Ok) (net' : Net) (h1 : NetWorks q.net) (h2 : NetWorks net')
    (h : visitsOf q.msg.deoj vs = visitsOf q.msg.deoj ws) :
    ∃ k, ((visited n vs).messageReceived q.env q.net q.msg).1.mgr.log.length = (visited n vs).mgr.log.length + k ∧
      ((visited n ws).messageReceived q.env net' q.msg).1.mgr.log.length = (visited n ws).mgr.log.length + k := by
  have s1 := C116_state hord vs hv q.msg.deoj hr
  have s2 := C116_state hord ws hw q.msg.deoj hr
  rw [h, ← s2] at s1
  have hserv : ∀ us, (visited n us).mgr.servers = n.mgr.servers := by
    intro us
    induction us using List.reverseRecOn with
    | nil => rfl
    | append_singleton us u ih =>
      rw [visited_append, ← ih]
      obtain ⟨-, -, -, e, -⟩ := node_sends u.env u.net (visited n us) u.msg
      exact e
  refine ⟨_, receive_count q.env q.net h1 _ _ hq.2.1, ?_⟩
  rw [receive_count q.env net' h2 _ _ hq.2.1, hserv, hserv]
  congr 1
  have hmod : q.msg.deoj % 2 ^ 24 = q.msg.deoj := Int.emod_eq_of_lt hq.2.2.1 hq.2.2.2
  rw [hmod]
  have g1 : ∀ us, (visited n us).getObject (.int q.msg.deoj) = (Dict.get? (visited n us).node.objects q.msg.deoj).map (visited n us).deref := fun _ => rfl
  rw [g1, g1] at s1
  generalize Dict.get? (visited n vs).node.objects q.msg.deoj = x at s1 ⊢
  generalize Dict.get? (visited n ws).node.objects q.msg.deoj = y at s1 ⊢
  cases x <;> cases y
  · rfl
  · cases s1
  · cases s1
  · injection s1 with s1
    simp only []
    rw [s1]

/-- A write to the light and a read of the node profile. -/
def exVisitW : Visit := ⟨exEnv, okNet, { tid := 7, seoj := 0x05FF01, deoj := 0x029101, esv := 0x61, props := [{ code := 0x80, data := [0x31] }], fromAddr := some ("10.0.0.2", 3610) }⟩
def exVisitR : Visit := ⟨exEnv, okNet, { tid := 8, seoj := 0x05FF01, deoj := 0x0EF001, esv := 0x62, props := [{ code := 0xD6 }], fromAddr := some ("10.0.0.2", 3610) }⟩

/-- They may come in any order; the light is switched either way. -/
example {ord : List Int → List Int} (hord : ValidOrder ord) : ∃ n, Reachable ord n ∧ (∀ v ∈ [exVisitW, exVisitR], v.Ok) ∧
    (∀ c, visitsOf c [exVisitW, exVisitR] = visitsOf c [exVisitR, exVisitW]) ∧
    ((visited n [exVisitW, exVisitR]).getObject (.int 0x029101)).map (fun o => o.getPropertyData 0x80) = some (some [0x31]) := by
  obtain ⟨n, d1, -, d3, -⟩ := dev_device hord exObj
  have hok : ∀ v ∈ [exVisitW, exVisitR], v.Ok := by
    intro v hv
    simp only [List.mem_cons, List.not_mem_nil, or_false] at hv
    rcases hv with rfl | rfl
    · exact ⟨exEnv_stable, by decide +kernel, by decide, by decide⟩
    · exact ⟨exEnv_stable, by decide +kernel, by decide, by decide⟩
  refine ⟨n, d1, hok, ?_, ?_⟩
  · intro c
    have h1 : exVisitW.msg.deoj = 0x029101 := rfl
    have h2 : exVisitR.msg.deoj = 0x0EF001 := rfl
    simp only [visitsOf, List.filter_cons, List.filter_nil, h1, h2]
    by_cases e : (0x029101 : Int) = c
    · subst e; rfl
    · simp [e]
  · rw [C116_state hord _ hok _ d1]
    have : n.getObject (.int 0x029101) = some exObj := d3
    rw [this]
    have hf : visitsOf 0x029101 [exVisitW, exVisitR] = [exVisitW] := by
      unfold visitsOf
      rfl
    rw [hf]
    decide +kernel

end Uecho
