/-
A device treats everyone alike.
-/
import Verif.Lemmas.Impartial
import Verif.Props.Calling

namespace Uecho
open Spec

/-- C143. What the objects of a node are after any history depends only on what the program did to them and on what was asked of them, in which order: not on who asked, in whose name,
with which TIDs, nor on the network, the options, and whether and when the node was started and stopped. -/
theorem C143_state {ord : List Int → List Int} {ops ops' : List NodeOp} (hops : List.Forall₂ SameFor (ops.filter Touches) (ops'.filter Touches)) {n n' : LocalNode}
    (h : devices n = devices n') : devices (runOps ord n ops) = devices (runOps ord n' ops') := by
  rw [devices_run ops n n' h, devices_run ops' n' n' rfl]
  clear h
  generalize n' = k
  suffices hs : ∀ k k' : LocalNode, devices k = devices k' → devices (runOps ord k (ops.filter Touches)) = devices (runOps ord k' (ops'.filter Touches)) from hs k k rfl
  generalize ops.filter Touches = l at *
  generalize ops'.filter Touches = l' at *
  induction hops with
  | nil => exact fun _ _ h => h
  | cons h _ ih => exact fun k k' hk => ih _ _ (devices_op h hk)

/-- C143. The answer as well is the same for everyone: only the TID, the object it is addressed to and the place it is sent to are the asker's. -/
theorem C143_answer (env : Env) (net : Net) (n : LocalNode) (m : Msg) (hm : Encodable m) : ∃ r : Except Exc (Option Msg), ∀ env' m', SameProgram env env' → SameAsk m m' →
    let after := n.messageReceived env' net m'
    match r with
    | .error e => after.2 = .error e ∧ after.1.mgr = n.mgr
    | .ok none => after.2 = .ok () ∧ after.1.mgr = n.mgr
    | .ok (some a) => ∃ new t, after.1.mgr.log = n.mgr.log ++ new ∧ (m'.tid % 65536 ≠ 0 → t = m'.tid % 65536) ∧
        (∀ x ∈ new, x.1.bytes = encode { outgoing n a with tid := t, deoj := m'.seoj % 2 ^ 24 } ∧
          some x.1.dest = if ESV.isNotification a.esv = true then some ("224.0.23.0", 3610) else m'.fromAddr) ∧
        (NetWorks net → CanSend n.mgr → Encodable a → ESV.isNotification a.esv = false → m'.fromAddr.isSome = true → new.length = 1) := by
  cases hs : Dict.get? n.node.objects (m.deoj % 2 ^ 24) with
  | none =>
    refine ⟨.ok none, fun env' m' he h => ?_⟩
    simp only []
    rw [messageReceived_eq _ _ _ _ ((encodable_asker h).mpr hm), h.1, hs]
    exact ⟨rfl, rfl⟩
  | some s =>
    refine ⟨((n.deref s).messageReceived env (received m)).result, fun env' m' he h => ?_⟩
    simp only []
    rw [messageReceived_eq _ _ _ _ ((encodable_asker h).mpr hm), h.1, hs]
    simp only []
    obtain ⟨h1, -, h3⟩ := object_asker he (received_asker h) (n.deref s)
    rw [h1, h3]
    generalize (n.deref s).messageReceived env (received m) = q
    obtain ⟨o, l, r⟩ := q
    have hmgr : (n.putBack (m.deoj % 2 ^ 24) s o).mgr = n.mgr := by cases s <;> rfl
    have hctl : (n.putBack (m.deoj % 2 ^ 24) s o).controller = n.controller := by cases s <;> rfl
    generalize hk : n.putBack (m.deoj % 2 ^ 24) s o = k at hmgr hctl
    rcases r with e | _ | a
    · simp only [Except.map]
      exact ⟨trivial, hmgr⟩
    · simp only [Except.map, Option.map]
      exact ⟨rfl, hmgr⟩
    · simp only [Except.map, Option.map]
      have hout : ∀ t, ({ outgoing k (toAsker (received m') a) with tid := t } : Msg) = { outgoing n a with tid := t, deoj := m'.seoj % 2 ^ 24 } := by
        intro t
        unfold outgoing
        rw [hctl]
        split <;> rfl
      have htid : (toAsker (received m') a).tid = m'.tid % 65536 := rfl
      by_cases hall : NetWorks net ∧ CanSend n.mgr ∧ Encodable a ∧ ESV.isNotification a.esv = false ∧ m'.fromAddr.isSome = true
      · obtain ⟨w1, w2, w3, w4, w5⟩ := hall
        obtain ⟨ad, w5⟩ := Option.isSome_iff_exists.mp w5
        obtain ⟨i, t, -, r2, r3, -⟩ := answer_sent net k (received m') (toAsker (received m') a) ad w4 w5 w3 (by rw [hmgr]; exact w2) w1
        rw [hmgr, hout] at r2
        refine ⟨_, t, r2, fun hne => r3 hne, ?_, fun _ _ _ _ _ => rfl⟩
        intro x hx
        rw [List.mem_singleton] at hx
        subst hx
        rw [if_neg (by rw [w4]; simp), w5]
        exact ⟨rfl, rfl⟩
      · obtain ⟨new, t, r1, r2, -, r3, -, -⟩ := answer_log net k (received m') (toAsker (received m') a)
        rw [hmgr] at r1
        refine ⟨new, t, r1, fun hne => r2 hne, ?_, fun a1 a2 a3 a4 a5 => absurd ⟨a1, a2, a3, a4, a5⟩ hall⟩
        intro x hx
        obtain ⟨r4, r5⟩ := r3 x hx
        rw [hout] at r4
        exact ⟨r4, r5⟩

/-! ### Examples -/

/-- The same switch-on command from someone else, in the name of another object, with another TID. -/
def exForged : Msg := { exSwitch with tid := 99, seoj := 0x013001, fromAddr := some ("66.6.6.6", 1), toAddr := none }

example : SameAsk exSwitch exForged ∧ exForged ≠ exSwitch := by decide

example : SameProgram exEnv { exEnv with observe := fun _ m => if m.esv = 0x62 then some (.user 3) else none } ↔ False := by
  refine ⟨fun h => ?_, False.elim⟩
  have := h.2 0 { esv := 0x62 } { esv := 0x62 } (by decide)
  simp [exEnv] at this

example : SameProgram exEnv exEnv := ⟨rfl, fun _ _ _ _ => rfl⟩

/-- Two lives of a device: in one it is commanded by its controller, in the other by someone forging the command after a restart. -/
example (ord : List Int → List Int) (n : LocalNode) (hook : Net) : devices (runOps ord n [.receive exEnv okNet exSwitch]) =
    devices (runOps ord n [.stop none, .enable 1 false, .start hook none, .receive exEnv hook exForged, .stop none]) :=
  C143_state (.cons (.receive _ _ _ _ _ _ ⟨rfl, fun _ _ _ _ => rfl⟩ (by decide)) .nil) rfl

end Uecho
