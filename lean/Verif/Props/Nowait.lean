/- C168: no receiving thread ever waits for another. -/
import Verif.Lemmas.Nowait
import Verif.Props.Crowd

namespace Uecho
open Spec Crowd

/-- **C168.** However the steps of the threads were interleaved: a thread that works on a datagram can go on, and one that is done with its datagrams can read another, whatever it is. Nothing is
assumed about the node, the datagrams, the sockets or the network. -/
theorem C168_goes_on {n : LocalNode} {net : Net} {acts : List Crowd.Act} {G : St} (hG : (begin n).exec net acts = some G) (t : Nat) :
    (doing t G.log = .working → (G.run net t).isSome) ∧ (doing t G.log = .nothing → ∀ d a, (G.arrive t d a).isSome) := by
  obtain ⟨ho, -⟩ := exec_left acts (placed_begin n) hG
  refine ⟨fun hw => ?_, fun hw d a => ?_⟩
  · obtain ⟨G', -, h, -⟩ := go_left (net := net) (ho t).1 (ho t).2 hw
    rw [h]; rfl
  · obtain ⟨G', -, h, -⟩ := arrive_left (ho t).1 ((told_place (ho t).2).1.mp hw) d a
    rw [h]; rfl

/-- **C168.** A thread that has read a datagram is done with it, or has ended, after two steps of its own for each property the datagram names and two more, whatever the other threads and the program
do meanwhile, and however often. -/
theorem C168_done {n : LocalNode} {net : Net} {before after : List Crowd.Act} {G G' : St} {t : Nat} {d : Bytes} {a : Addr} (hG : (begin n).exec net before = some G)
    (hG' : G.exec net (.arrive t d a :: after) = some G') (hturns : 2 * namedIn d + 2 ≤ turns t after) :
    ∃ l, G'.log = G.log ++ .recv t d a :: l ∧ ∃ e ∈ l, DoneBy t e := by
  obtain ⟨ho, -⟩ := exec_left before (placed_begin n) hG
  unfold St.exec at hG'
  cases hx : G.act net (.arrive t d a) with
  | none => rw [hx] at hG'; cases hG'
  | some G1 =>
    rw [hx] at hG'
    have hG' : G1.exec net after = some G' := hG'
    have hx' : G.arrive t d a = some G1 := hx
    have hfree : G.places t = .free := by
      unfold St.arrive at hx'
      cases hpl : G.places t with
      | free => rfl
      | _ => rw [hpl] at hx'; cases hx'
    obtain ⟨G2, l1, h1, hm, -, -, h2⟩ := arrive_left (ho t).1 hfree d a
    rw [hx'] at h1
    injection h1 with h1
    subst h1
    obtain ⟨o2, l2, e2, k2⟩ := exec_left after (act_left ho hx).1 hG'
    refine ⟨l1 ++ l2, by rw [e2, hm.log, List.append_assoc]; rfl, ?_⟩
    rcases h2 with ⟨e, he, hd⟩ | ⟨hw, hl⟩
    · exact ⟨e, List.mem_append_left _ he, hd⟩
    rcases k2 t hw with ⟨e, he, hd⟩ | ⟨hw2, hl2⟩
    · exact ⟨e, List.mem_append_right _ he, hd⟩
    have := working_left (o2 t).1 (o2 t).2 hw2
    omega

/-- The hypotheses of C168: two properties are read while another thread writes one of them and the program sets it; six steps and the read is answered. -/
example : ∃ G G', (begin exRunning).exec okNet (exCrowdActs.take 0) = some G ∧ G.exec okNet exCrowdActs = some G' ∧ exCrowdActs.head? = some (.arrive 0 (encode exCrowdGet) exAsker) ∧
    2 * namedIn (encode exCrowdGet) + 2 = 6 ∧ turns 0 exCrowdActs.tail = 6 ∧ doing 0 G'.log = .nothing ∧ doing 2 G'.log = .ended := by
  have h : ((begin exRunning).exec okNet exCrowdActs).map (fun G => (doing 0 G.log, doing 2 G.log)) = some (.nothing, .ended) := by decide +kernel
  obtain ⟨G', h1, h2⟩ := Option.map_eq_some_iff.mp h
  exact ⟨_, G', rfl, h1, rfl, by decide +kernel, by decide +kernel, congrArg Prod.fst h2, congrArg Prod.snd h2⟩

/-- With one step less the thread is still at work: the number is exact. -/
example : ((begin exRunning).exec okNet [.arrive 0 (encode exCrowdGet) exAsker, .run 0, .run 0, .run 0, .run 0, .run 0]).map (fun G => doing 0 G.log) = some .working := by decide +kernel

end Uecho
