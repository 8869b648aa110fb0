/-
C134: what the request handler of a program is asked about a request.
-/
import Mathlib.Logic.Equiv.List
import Verif.Lemmas.Asked
import Verif.Props.Request

namespace Uecho
open Spec

/-- **C134, what the handler is asked.** Let an object serve a request with a handler of the program
that keeps notes of every question and answers as it likes, also depending on its notes. The handler
is asked the questions of the request, each once, in the order of the items: about each item that
names a property of the object, and about nothing else. The object then holds the granted writes, in
order, and nothing else of it has changed.

Partial: a write-and-read request must name properties of the object only in its second part (see
`C134_unknown_false`). -/
theorem C134_asked_partial (note : Nat → Ask → Nat) (reply : Nat → Ask → Bool) (env : Env) (h : Nat)
    (hE : env.handler h = noter note reply) (o : Obj) (hw : WellFormed o) (hh : o.handler = .user h) (m : Msg)
    (hq : Quiet env o m) (hk : m.esv = 0x6E → ∀ i ∈ m.getProps, (lookup o.props i.code).isSome) :
    (o.messageReceived env m).obj =
      { afterWrites o (granted note reply o.ustate (knownItems o (writeItems m))) with
          ustate := (questions o m).foldl note o.ustate } ∧
    ∃ r, (o.messageReceived env m).result = .ok r := by
  rw [messageReceived_quiet env o m hq]
  obtain ⟨r, hr⟩ := handle_noted hE o hw hh m (by
    rintro ⟨he, i, hi, hn⟩
    have := hk he i hi
    rw [hn] at this
    cases this)
  have hqs : (if m.esv = 0x6E then
        ((knownItems o m.setProps).map fun i => Ask.write i.code i.data) ++ getAsks o m.getProps
      else questions o m) = questions o m := by
    split
    · rename_i he
      have hg : getAsks o m.getProps = (knownItems o m.getProps).map fun i => Ask.read i.code := by
        have h1 : knownItems o m.getProps = m.getProps :=
          List.filter_eq_self.mpr (fun i hi => hk he i hi)
        rw [h1]
        unfold getAsks
        apply List.map_congr_left
        intro i hi
        rw [if_pos (hk he i hi)]
      unfold questions
      rw [if_neg (by omega), if_neg (by omega), if_pos he, hg]
    · rfl
  rw [hqs] at hr
  rw [hr]
  exact ⟨rfl, r, rfl⟩

/-- An object with a handler that grants everything but the writing of an empty value and the reading
of what does not exist, and that counts the questions. -/
def askedObj : Obj := { exObj with handler := .user 3 }

def fussy : Nat → Ask → Bool
  | _, .write _ d => decide (d ≠ [])
  | _, .read _ => true
  | _, .nothing => false

def countingEnv : Env :=
  { handler := fun _ => noter (fun s _ => s + 1) fussy
    observe := fun _ _ => none }

/-- writes two known and one unknown property, and reads a known one -/
def askedSetGet : Msg :=
  { tid := 7, seoj := 0x05FF01, deoj := 0x029101, esv := 0x6E
    setProps := [{ code := 0x80, data := [0x31] }, { code := 0x99, data := [1] }, { code := 0xB0, data := [] }]
    getProps := [{ code := 0x81 }] }

example : countingEnv.handler 3 = noter (fun s _ => s + 1) fussy ∧
    WellFormed askedObj ∧ askedObj.handler = .user 3 ∧ Quiet countingEnv askedObj askedSetGet ∧
    (∀ i ∈ askedSetGet.getProps, (lookup askedObj.props i.code).isSome) ∧
    questions askedObj askedSetGet = [.write 0x80 [0x31], .write 0xB0 [], .read 0x81] ∧
    (askedObj.messageReceived countingEnv askedSetGet).obj.ustate = 3 ∧
    (askedObj.messageReceived countingEnv askedSetGet).obj.getPropertyData 0x80 = some [0x31] ∧
    (askedObj.messageReceived countingEnv askedSetGet).obj.getPropertyData 0xB0 = some [9, 9] := by
  refine ⟨rfl, ?_⟩
  decide

/-- The notes may be a complete transcript: there is a way of taking notes from which the questions
and their order can be read off. -/
theorem C134_transcript : ∃ note : Nat → Ask → Nat, Transcribes note := by
  let code : Ask → Nat × Int × List Nat := fun q => match q with
    | .read c => (0, c, [])
    | .write c d => (1, c, d.map UInt8.toNat)
    | .nothing => (2, 0, [])
  have hcode : ∀ q q', code q = code q' → q = q' := by
    intro q q' e
    cases q <;> cases q' <;> simp [code] at e ⊢
    · exact e
    · exact ⟨e.1, List.map_injective_iff.mpr (fun a b h => UInt8.toNat_inj.mp h) e.2⟩
  refine ⟨fun s q => Nat.pair s (Encodable.encode (code q)) + 1, ?_⟩
  intro l
  induction l using List.reverseRecOn with
  | nil =>
    intro l' e
    rcases List.eq_nil_or_concat l' with rfl | ⟨l2, q, rfl⟩
    · rfl
    · simp at e
  | append_singleton l q ih =>
    intro l' e
    rcases List.eq_nil_or_concat l' with rfl | ⟨l2, q2, rfl⟩
    · simp at e
    · simp only [List.concat_eq_append, List.foldl_append, List.foldl_cons, List.foldl_nil,
        Nat.add_right_cancel_iff, Nat.pair_eq_pair] at e ⊢
      rw [ih l2 e.1, hcode q q2 (Encodable.encode_injective e.2)]

/-- **C134, the complete account.** For a handler that refuses to read what does not exist: every
item of the second part of a write-and-read request makes a question, and one that names no property
of the object makes the question about nothing. -/
theorem C134_asked_all (note : Nat → Ask → Nat) (reply : Nat → Ask → Bool) (env : Env) (h : Nat)
    (hE : env.handler h = noter note reply) (o : Obj) (hw : WellFormed o) (hh : o.handler = .user h) (m : Msg)
    (hq : Quiet env o m) (hno : ∀ s, reply s .nothing = false) (he : m.esv = 0x6E) :
    (o.messageReceived env m).obj =
      { afterWrites o (granted note reply o.ustate (knownItems o m.setProps)) with
          ustate := (((knownItems o m.setProps).map fun (i : PProp) => Ask.write i.code i.data) ++
            m.getProps.map fun (i : PProp) =>
              if (lookup o.props i.code).isSome then Ask.read i.code else Ask.nothing).foldl
              note o.ustate } := by
  rw [messageReceived_quiet env o m hq]
  obtain ⟨r, hr⟩ := handle_noted hE o hw hh m (fun _ => hno)
  rw [hr]
  simp only [if_pos he, writeItems]
  rw [if_neg (by omega)]
  rfl

example : (∀ s : Nat, fussy s .nothing = false) ∧
    askedSetGet.esv = 0x6E := ⟨fun _ => rfl, rfl⟩

/-- **C134 is false for write-and-read requests:** a handler is asked about a property that does not
exist (and is given `None`), although no property of the object is requested. -/
theorem C134_unknown_false : ∃ (note : Nat → Ask → Nat) (reply : Nat → Ask → Bool) (env : Env) (o : Obj) (m : Msg),
    env.handler 3 = noter note reply ∧ WellFormed o ∧ o.handler = .user 3 ∧ Quiet env o m ∧
    questions o m = [] ∧ (o.messageReceived env m).obj.ustate ≠ o.ustate := by
  refine ⟨fun s _ => s + 1, fussy, countingEnv, askedObj, { askedSetGet with setProps := [], getProps := [{ code := 0x99 }] }, rfl, ?_⟩
  decide

/-- **C134, who is not asked.** Announcement requests, and messages that are no requests, reach no
handler: whatever the handlers of the program do, the object is as it was. -/
theorem C134_not_asked (env : Env) (o : Obj) (m : Msg)
    (he : m.esv ∉ [0x60, 0x61, 0x62, 0x6E]) : (o.messageReceived env m).obj = o := by
  by_cases hq : Quiet env o m
  swap
  · exact (messageReceived_loud env o m hq).1
  rw [messageReceived_quiet env o m hq]
  simp only [List.mem_cons, List.not_mem_nil, or_false, not_or] at he
  by_cases hh : o.handler = .none
  · rw [handle_not_request env o m (Or.inr hh)]
  by_cases e4 : m.esv = 0x63 ∨ m.esv = 0x74
  · rw [handle_neither env o m hh e4]
  · rw [handle_not_request env o m (Or.inl (by simp only [List.mem_cons, List.not_mem_nil, or_false]; omega))]

example : ({ askedSetGet with esv := 0x63, props := [{ code := 0x80 }] } : Msg).esv ∉ [0x60, 0x61, 0x62, 0x6E] ∧
    (askedObj.messageReceived countingEnv { askedSetGet with esv := 0x63, props := [{ code := 0x80 }] }).obj = askedObj := by
  decide

end Uecho
