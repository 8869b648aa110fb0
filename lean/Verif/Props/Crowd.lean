/- C166: a node whose receiving threads work at the same time. -/
import Verif.Lemmas.Crowd
import Verif.Props.Atomic
import Verif.Props.Device
import Verif.Props.Closed

namespace Uecho
open Spec Crowd

/-- **C166.** Datagrams come to a device, at any number of receiving threads, which work at the same time, while the program changes data and has the device announce and send messages. Each datagram is any bytes; if it can be read it has a
transaction number other than 0, and of the properties it names at most one is one whose data may change, which it names once. However the threads are interleaved, what can be seen - the datagrams,
what is sent for each of them, the threads that end, what the program's calls send and return, and the device in the end - is what can be seen if each datagram is handled as a whole, at one moment after it is read and before anything is
sent for it, as the reference device does. -/
theorem C166_one_at_a_time {n : LocalNode} (hobj : ∀ c o, n.getObject (.int c) = some o → WellFormed o ∧ o.handler = .self_) (hctl : n.controller = false) (hshort : Short (deviceOf n))
    (hcan : CanSend n.mgr) {net : Net} (hnet : NetWorks net) {acts : List Crowd.Act} {G : St} (hG : (begin n).exec net acts = some G)
    (hone : ∀ t d a, Happening.recv t d a ∈ G.log → OneAt (deviceOf n) G.log d) (happ : ∀ c p v, Happening.app c p v ∈ G.log → v.length < 256) :
    ∃ h, Tale (deviceOf n) G.log h (crowdDevice G) := by
  obtain ⟨H, hs, hi⟩ := exec_story hobj hctl hcan hnet hone happ (begin_inv hobj hctl hshort _) hG List.prefix_rfl
  refine ⟨H, hi.same, hi.inTurn, fun t => ?_⟩
  have ht := hi.threads t
  cases hp : G.places t with
  | free => rw [hp] at ht; rw [show Phase.after t .free H = some .free from ht]; simp
  | dead => rw [hp] at ht; rw [show Phase.after t .free H = some .over from ht]; simp
  | sending req r =>
    rw [hp] at ht
    obtain ⟨a, -, h, -⟩ := ht
    rw [h]; simp
  | inside req =>
    rw [hp] at ht
    obtain ⟨d, a, w, -, -, -, ⟨-, h⟩ | ⟨r, b, -, h, -⟩⟩ := ht
    · rw [h]; simp
    · rw [h]; simp

/-! ### An execution -/

def exCrowdSet : Msg := exTo 0x61 [⟨0x80, [0x31]⟩] 6
def exCrowdGet : Msg := exTo 0x62 [⟨0x81, []⟩, ⟨0x80, []⟩] 7

theorem exRunning_self : ∀ c o, exRunning.getObject (.int c) = some o → WellFormed o ∧ o.handler = .self_ := by
  have h : exRunning.node.objects.all (fun s => decide (WellFormed (exRunning.deref s.2)) && decide ((exRunning.deref s.2).handler = .self_)) = true := by decide +kernel
  intro c o ho
  obtain ⟨s, hg, rfl⟩ := Option.map_eq_some_iff.mp ho
  have := List.all_eq_true.mp h (c, s) (Dict.mem_of_get? _ _ _ hg)
  simpa only [Bool.and_eq_true, decide_eq_true_eq] using this

/-- What the program announces. -/
def exCrowdNews : Msg := { seoj := 0x029101, deoj := 0x0EF001, esv := 0x73, props := [⟨0x80, [0x32]⟩] }

/-- Three threads: one writes, one reads two properties, one gets something that is not a message and ends; the program changes data and announces it before the write is done. -/
def exCrowdActs : List Crowd.Act := [.arrive 0 (encode exCrowdGet) exAsker, .run 0, .arrive 1 (encode exCrowdSet) exAsker, .run 1, .app 0x029101 0x80 [0x32], .call (.announce exCrowdNews), .arrive 2 [0x10] exAsker, .run 1, .run 1, .run 0,
  .run 0, .run 0, .run 0, .run 0, .run 1]

/-- The hypotheses of C166. The read is answered with what the write has stored, before the write is answered. -/
example : (∀ c o, exRunning.getObject (.int c) = some o → WellFormed o ∧ o.handler = .self_) ∧ exRunning.controller = false ∧ Short (deviceOf exRunning) ∧ CanSend exRunning.mgr ∧ NetWorks okNet ∧
    ∃ G, (begin exRunning).exec okNet exCrowdActs = some G ∧ (∀ t d a, Happening.recv t d a ∈ G.log → OneAt (deviceOf exRunning) G.log d) ∧ (∀ c p v, Happening.app c p v ∈ G.log → v.length < 256) ∧
      G.log = [.recv 0 (encode exCrowdGet) exAsker, .recv 1 (encode exCrowdSet) exAsker, .app 0x029101 0x80 [0x32],
        .call (.announce exCrowdNews) [⟨"10.0.0.2", ("224.0.23.0", 3610), encode { exCrowdNews with tid := 1 }⟩] (some true), .recv 2 [0x10] exAsker, .ended 2,
        .sent 0 [⟨"10.0.0.2", exAsker, encode { tid := 7, seoj := 0x029101, deoj := 0x05FF01, esv := 0x72, props := [⟨0x81, [7]⟩, ⟨0x80, [0x31]⟩] }⟩],
        .sent 1 [⟨"10.0.0.2", exAsker, encode { tid := 6, seoj := 0x029101, deoj := 0x05FF01, esv := 0x71, props := [⟨0x80, []⟩] }⟩]] := by
  refine ⟨exRunning_self, by decide +kernel, plain_short exRunning_plain, exRunning_own.2, fun _ _ _ _ => rfl, ?_⟩
  have h : ((begin exRunning).exec okNet exCrowdActs).map St.log = some [.recv 0 (encode exCrowdGet) exAsker, .recv 1 (encode exCrowdSet) exAsker, .app 0x029101 0x80 [0x32],
        .call (.announce exCrowdNews) [⟨"10.0.0.2", ("224.0.23.0", 3610), encode { exCrowdNews with tid := 1 }⟩] (some true), .recv 2 [0x10] exAsker, .ended 2,
        .sent 0 [⟨"10.0.0.2", exAsker, encode { tid := 7, seoj := 0x029101, deoj := 0x05FF01, esv := 0x72, props := [⟨0x81, [7]⟩, ⟨0x80, [0x31]⟩] }⟩],
        .sent 1 [⟨"10.0.0.2", exAsker, encode { tid := 6, seoj := 0x029101, deoj := 0x05FF01, esv := 0x71, props := [⟨0x80, []⟩] }⟩]] := by decide +kernel
  obtain ⟨G, h1, h2⟩ := Option.map_eq_some_iff.mp h
  refine ⟨G, h1, ?_, ?_, h2⟩
  · -- 0x81 cannot be written, and the program does not change it
    have hro : ¬ MayChangeAt (deviceOf exRunning) G.log 0x029101 0x81 := by
      rintro (⟨t, k1, k2, -⟩ | ⟨v, hv⟩)
      · have : ((deviceOf exRunning).things 0x029101).map (fun t => t.canSet 0x81) = some false := by decide +kernel
        rw [k1] at this
        rw [Option.map_some, k2] at this
        cases this
      · rw [h2] at hv; simp at hv
    intro t d a hr m hm
    rw [h2] at hr
    simp only [List.mem_cons, List.not_mem_nil, or_false, reduceCtorEq, Happening.recv.injEq, false_or] at hr
    rcases hr with ⟨-, rfl, -⟩ | ⟨-, rfl, -⟩ | ⟨-, rfl, -⟩
    · rw [show readMsg ((encode exCrowdGet).take 1024) = some exCrowdGet by decide +kernel] at hm
      injection hm with hm
      subst hm
      refine ⟨by decide, ?_⟩
      show List.Pairwise _ [(⟨0x81, []⟩ : PProp), ⟨0x80, []⟩]
      rw [List.pairwise_pair]
      exact fun h => hro h.1
    · rw [show readMsg ((encode exCrowdSet).take 1024) = some exCrowdSet by decide +kernel] at hm
      injection hm with hm
      subst hm
      exact ⟨by decide, List.pairwise_singleton _ _⟩
    · rw [show readMsg (([0x10] : Bytes).take 1024) = none by decide +kernel] at hm
      cases hm
  · intro c p v hv
    rw [h2] at hv
    simp only [List.mem_cons, List.not_mem_nil, or_false, reduceCtorEq, Happening.app.injEq, false_or] at hv
    rw [hv.2.2]
    decide

end Uecho
