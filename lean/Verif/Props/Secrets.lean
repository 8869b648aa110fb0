/-
The data of a property that may not be read never leaves the node, however it is asked for.
-/
import Verif.Lemmas.Secrets
import Verif.Lemmas.Light
import Verif.Props.Calling

namespace Uecho
open Spec

/-- C142. Two nodes lead the same life, except that their programs put different data into properties that may not be read. The two then send exactly the same datagrams to the same
places, and are the same in everything but this data. -/
theorem C142_silent {ord : List Int → List Int} {ops ops' : List NodeOp} (hops : List.Forall₂ SameBut ops ops') {n n' : LocalNode} (hw : AllWellFormed n) (hw' : AllWellFormed n')
    (h : censorNode n = censorNode n') :
    (runOps ord n ops).mgr.log = (runOps ord n' ops').mgr.log ∧ censorNode (runOps ord n ops) = censorNode (runOps ord n' ops') := by
  obtain ⟨h1, -, -⟩ := alike_ops (ord := ord) hops hw hw' h
  exact ⟨(congrArg (fun k : LocalNode => k.mgr.log) h1 : (censorNode _).mgr.log = (censorNode _).mgr.log), h1⟩

/-- C142. In particular from the beginning on. -/
theorem C142_life {ord : List Int → List Int} (hord : ValidOrder ord) (rnd : NodeProfile.Random) (ctl : Bool) {ops ops' : List NodeOp} (hops : List.Forall₂ SameBut ops ops') :
    ∃ n, LocalNode.new ord rnd ctl = (n, .ok ()) ∧ (runOps ord n ops).mgr.log = (runOps ord n ops').mgr.log := by
  obtain ⟨n, h1, -, h2, -⟩ := localNode_new hord rnd ctl
  have hw : AllWellFormed n := by
    intro c o hc
    rw [h2] at hc
    unfold Dict.get? at hc
    split at hc
    · cases hc
    · cases hc
  exact ⟨n, h1, (C142_silent hops hw hw rfl).1⟩

/-- C142. One secret: what data the program puts into the property, nobody finds out, whatever happens later. -/
theorem C142_secret {ord : List Int → List Int} {n : LocalNode} (hw : AllWellFormed n) (code c : Int) (d d' : Bytes)
    (hs : ∀ o p, Dict.get? n.node.objects code = some (.user o) → o.getProperty c = some p → mayRead p = false) {ops : List NodeOp} (hops : ∀ op ∈ ops, SameBut op op) :
    (runOps ord (n.update code fun o => o.storeData c d) ops).mgr.log = (runOps ord (n.update code fun o => o.storeData c d') ops).mgr.log := by
  have hwf : ∀ d, AllWellFormed (n.update code fun o => o.storeData c d) := by
    intro d
    unfold LocalNode.update
    rcases hg : Dict.get? n.node.objects code with _ | _ | o
    · exact hw
    · exact hw
    · exact wf_putBack hw _ _ _ fun _ => wf_storeData o c d (hw code o hg)
  have hsame : List.Forall₂ SameBut ops ops := List.forall₂_same.mpr hops
  refine (C142_silent hsame (hwf d) (hwf d') ?_).1
  unfold LocalNode.update
  rcases hg : Dict.get? n.node.objects code with _ | _ | o
  · rfl
  · rfl
  · simp only []
    rw [censorNode_putBack, censorNode_putBack]
    simp only []
    have key : ∀ d, censor (o.storeData c d) = censor o := fun d => censor_store (hs o · hg) d
    rw [key, key]
    rfl

/-- C142. The same message to two such nodes: it is handled with the same outcome. -/
theorem C142_outcome {env : Env} (he : AllDiscreet env) (net : Net) {n n' : LocalNode} (hw : AllWellFormed n) (hw' : AllWellFormed n') (h : censorNode n = censorNode n') (m : Msg) :
    (n.messageReceived env net m).2 = (n'.messageReceived env net m).2 := (alike_node he net hw hw' h m).2.2.2

/-- A handler that permits what the access rules permit, and stores what is written. -/
def storing : Handler := { read := fun o p => (o, o.superRead p), write := fun o p d => if p.isWriteEnabled then (o.storeData p.code d, .ok true) else (o, .ok false) }

/-- C142. Handlers that go by the access rules keep secrets. -/
theorem C142_handler : Discreet storing where
  read o o' c hw hw' h := by
    obtain ⟨h1, h2⟩ := alike_superRead (c := c) o o' hw hw' h
    exact ⟨h, hw, h1, fun x => ⟨h2 x, h2 x⟩⟩
  write o o' c p p' d hw hw' h hp hp' := by
    have e := alike_get h c
    rw [hp, hp', Option.map_some, Option.map_some] at e
    injection e with e
    have e1 : p.isWriteEnabled = p'.isWriteEnabled := by
      simp only [OProp.isWriteEnabled]
      rw [(alikeP e).2.2.1]
    have e2 : p.code = p'.code := by rw [code_of_get hw hp, code_of_get hw' hp']
    simp only [storing]
    rw [← e1, ← e2]
    by_cases hp : p.isWriteEnabled = true
    · rw [if_pos hp, if_pos hp]
      exact ⟨alike_store h _ _, wf_storeData _ _ _ hw, rfl⟩
    · rw [if_neg hp, if_neg hp]
      exact ⟨h, hw, rfl⟩

/-- C142 does not hold for handlers that permit every read: they override the access rule, and the data goes out. -/
theorem C142_handler_false : ∃ (o o' : Obj) (m : Msg), WellFormed o ∧ WellFormed o' ∧ censor o = censor o' ∧
    (o.messageReceived exEnv m).result ≠ (o'.messageReceived exEnv m).result := by
  refine ⟨{ exObj with handler := .user 0 }, { exObj.storeData 0xB0 [1, 2] with handler := .user 0 }, { deoj := 0x029101, esv := 0x62, props := [{ code := 0xB0, data := [] }] }, by decide, by decide, by decide, ?_⟩
  decide +kernel

/-! ### Examples -/

/-- The program's handlers keep to the access rules. -/
def keepEnv : Env := { handler := fun _ => storing, observe := fun _ _ => none }

theorem keepEnv_discreet : AllDiscreet keepEnv := fun _ => C142_handler

/-- A read of the readable 0x80 and the unreadable 0xB0. -/
def exPry : Msg := { tid := 9, seoj := 0x05FF01, deoj := 0x029101, esv := 0x62, props := [{ code := 0xB0 }, { code := 0x80 }], fromAddr := some ("10.0.0.3", 3610) }

/-- The life of a device whose secret is `d`: someone tries to read it, someone else writes it and tries again. -/
def prying (h : HandlerRef) (d : Bytes) : List NodeOp :=
  [.add { exObj.storeData 0xB0 d with handler := h }, .start okNet none, .receive keepEnv okNet exPry,
    .receive keepEnv okNet { exPry with esv := 0x61, props := [{ code := 0xB0, data := [5] }] }, .receive keepEnv okNet { exPry with esv := 0x63 }]

/-- Two such lives are the same but for the secret. -/
example (h : HandlerRef) (d d' : Bytes) : List.Forall₂ SameBut (prying h d) (prying h d') := by
  refine .cons (.add _ _ ?_ ?_ ?_) (.cons (.start _ _) (.cons (.receive _ _ _ keepEnv_discreet) (.cons (.receive _ _ _ keepEnv_discreet) (.cons (.receive _ _ _ keepEnv_discreet) .nil))))
  · rfl
  · exact wf_storeData exObj 0xB0 d (by decide)
  · exact wf_storeData exObj 0xB0 d' (by decide)

/-- And something is sent in them: the refusal with the readable data, the answer to the write, and another refusal. -/
example : ((runOps List.dedup (LocalNode.new List.dedup ⟨[], 0, 0⟩ false).1 (prying (.user 0) [1, 2, 3])).mgr.log.map fun x => x.1.bytes) =
    [encode { tid := 9, seoj := 0x029101, deoj := 0x05FF01, esv := 0x52, props := [{ code := 0xB0 }, { code := 0x80, data := [0x30] }] },
      encode { tid := 9, seoj := 0x029101, deoj := 0x05FF01, esv := 0x71, props := [{ code := 0xB0 }] },
      encode { tid := 9, seoj := 0x029101, deoj := 0x05FF01, esv := 0x53, props := [{ code := 0xB0 }, { code := 0x80 }] }] := by
  decide +kernel

end Uecho
