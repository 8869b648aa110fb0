/- Property C117: no message storms. -/
import Verif.Lemmas.Storm
import Verif.Props.EndToEnd

namespace Uecho
open Spec

/-- C117. A datagram that is not a request makes no machine send anything, whatever it contains and whatever
handlers, listeners and network do. -/
theorem C117_silent (ord : List Int → List Int) (w : Moment) (p : Party) (bytes : Bytes) (src : Addr) (h : ¬ AsksFor bytes) :
    (p.hear ord w bytes src).mgr.log = p.mgr.log := by
  obtain ⟨new, h1, -, -, -, h2⟩ := hear_sends ord w p bytes src
  rw [h1, h2 h, List.append_nil]

/-- C117. What a machine sends when a datagram arrives is never a request, and it is sent at most once per
server. -/
theorem C117_answers (ord : List Int → List Int) (w : Moment) (p : Party) (bytes : Bytes) (src : Addr) :
    ∃ new, (p.hear ord w bytes src).mgr.log = p.mgr.log ++ new ∧ new.length ≤ p.mgr.servers.length ∧ ∀ x ∈ new, ¬ AsksFor x.1.bytes := by
  obtain ⟨new, h1, h2, -, h3, -⟩ := hear_sends ord w p bytes src
  exact ⟨new, h1, h2, h3⟩

theorem weight_append (K B : Nat) (a b : List Packet) : weight K B (a ++ b) = weight K B a + weight K B b := by
  unfold weight; rw [List.map_append, List.sum_append]

theorem weight_cons (K B : Nat) (x : Packet) (a : List Packet) : weight K B (x :: a) = (if AsksFor x.bytes then 1 + K * B else 1) + weight K B a := by
  unfold weight; rw [List.map_cons, List.sum_cons]

theorem weight_quiet (K B : Nat) (a : List Packet) (h : ∀ x ∈ a, ¬ AsksFor x.bytes) : weight K B a = a.length := by
  induction a with
  | nil => rfl
  | cons x a ih =>
    rw [weight_cons, if_neg (h x List.mem_cons_self), ih (fun y hy => h y (List.mem_cons_of_mem _ hy)), List.length_cons]
    omega

theorem step_lighter {ord : List Int → List Int} {K B : Nat} {s t : Lan} (h : Lan.Step ord K s t) (hb : ∀ i, (s.parties i).mgr.servers.length ≤ B) :
    weight K B t.air + 1 ≤ weight K B s.air ∧ (∀ i, (t.parties i).mgr.servers.length ≤ B) ∧
    (∀ y ∈ t.air, AsksFor y.bytes → y ∈ s.air) := by
  obtain ⟨before, after, copies, x, w, sent, hair, hsent, hcopies, hmany⟩ := h
  obtain ⟨new, h1, h2, h3, h4, h5⟩ := hear_sends ord w (s.parties x.dst) x.bytes x.src
  have hnew : new = sent := List.append_cancel_left (h1.symm.trans hsent)
  subst hnew
  have hq : ∀ y ∈ copies, ¬ AsksFor y.bytes := by
    intro y hy
    obtain ⟨z, hz, e⟩ := hcopies y hy
    rw [e]
    exact h4 z hz
  refine ⟨?_, ?_, ?_⟩
  · simp only []
    rw [hair, weight_append, weight_append, weight_append, weight_cons, weight_quiet K B copies hq]
    by_cases ha : AsksFor x.bytes
    · rw [if_pos ha]
      have : K * new.length ≤ K * B := Nat.mul_le_mul_left K (le_trans h2 (hb _))
      omega
    · rw [if_neg ha]
      rw [h5 ha] at hmany
      simp only [List.length_nil, Nat.mul_zero] at hmany
      omega
  · intro i
    simp only []
    split
    · rw [h3]; exact hb _
    · exact hb i
  · intro y hy ha
    simp only [List.mem_append] at hy
    rw [hair]
    rcases hy with (hy | hy) | hy
    · exact List.mem_append_left _ hy
    · exact List.mem_append_right _ (List.mem_cons_of_mem _ hy)
    · exact absurd ha (hq y hy)

/-- C117. Traffic dies out: however many devices and controllers there are, whatever their state, their
handlers and listeners, and to whomever datagrams are delivered, if each datagram sent becomes at most `K`
packets and no machine has more than `B` servers, the number of packets delivered from some moment on is bounded by
the packets then on their way. -/
theorem C117_dies_out {ord : List Int → List Int} (K B k : Nat) : ∀ {s t : Lan}, Lan.Steps ord K k s t →
    (∀ i, (s.parties i).mgr.servers.length ≤ B) → k + weight K B t.air ≤ weight K B s.air := by
  induction k with
  | zero => intro s t h _; cases h; omega
  | succ k ih =>
    intro s u h hb
    cases h with
    | step h hs =>
      obtain ⟨h1, h2, -⟩ := step_lighter h hb
      have := ih hs h2
      omega

/-- C117. All requests on their way at any time were on their way at the beginning: machines ask nothing of their
own accord. -/
theorem C117_no_new_requests {ord : List Int → List Int} (K B k : Nat) : ∀ {s t : Lan}, Lan.Steps ord K k s t →
    (∀ i, (s.parties i).mgr.servers.length ≤ B) → ∀ y ∈ t.air, AsksFor y.bytes → y ∈ s.air := by
  induction k with
  | zero => intro s t h _ y hy _; cases h; exact hy
  | succ k ih =>
    intro s u h hb y hy ha
    cases h with
    | step h hs =>
      obtain ⟨-, h2, h3⟩ := step_lighter h hb
      exact h3 y (ih hs h2 y hy ha) ha

/-- A network that is silent stays silent: with no request on its way, packets only arrive. -/
theorem C117_rest {ord : List Int → List Int} (K B k : Nat) {s t : Lan} (h : Lan.Steps ord K k s t)
    (hb : ∀ i, (s.parties i).mgr.servers.length ≤ B) (hq : ∀ y ∈ s.air, ¬ AsksFor y.bytes) : k + t.air.length = s.air.length := by
  induction h with
  | refl s => omega
  | @step k s t u h hs ih =>
    obtain ⟨-, h2, h3⟩ := step_lighter h hb
    have := ih h2 (fun y hy ha => hq y (h3 y hy ha) ha)
    obtain ⟨before, after, copies, x, w, sent, hair, hsent, hcopies, hmany⟩ := h
    have hx : ¬ AsksFor x.bytes := hq x (by rw [hair]; simp)
    have h1 := C117_silent ord w (s.parties x.dst) x.bytes x.src hx
    rw [hsent] at h1
    have hn : sent = [] := by simpa using h1
    rw [hn] at hmany
    simp only [List.length_nil, Nat.mul_zero, Nat.le_zero] at hmany
    rw [hair]
    simp only [List.length_append, List.length_cons] at this ⊢
    omega

/-- A write request on its way to the first machine. -/
def exAsk : Msg := { tid := 7, seoj := 0x05FF01, deoj := 0x029101, esv := 0x61, props := [{ code := 0x80, data := [0x31] }] }
def exPacket : Packet := ⟨0, ("10.0.0.2", 3610), encode exAsk⟩

/-- A device and controllers. The request arrives, its answer becomes a packet for a controller, it arrives, and
that is all. -/
example {ord : List Int → List Int} (hord : ValidOrder ord) : ∃ (s t : Lan) (B : Nat), s.air = [exPacket] ∧ AsksFor exPacket.bytes ∧
    Lan.Steps ord 1 2 s t ∧ t.air = [] ∧ ∀ i, (s.parties i).mgr.servers.length ≤ B := by
  obtain ⟨n, d1, d2, d3, d4⟩ := dev_device hord exObj
  obtain ⟨-, c, -, -, -, -, -, -, -, -⟩ := ctl_ready hord
  let w : Moment := ⟨exEnv, calmEnv, okNet⟩
  let s : Lan := ⟨fun i => if i = 0 then .device n else .controller c, [exPacket]⟩
  have hdec := decodes_encode exAsk (by decide +kernel) (by decide +kernel) ("10.0.0.2", 3610)
  have hhear : (Party.device n).hear ord w exPacket.bytes exPacket.src =
      .device (n.messageReceived exEnv okNet { onWire exAsk with fromAddr := some ("10.0.0.2", 3610) }).1 := by
    unfold Party.hear
    show (recvOne (Party.deliver ord w) (.device n) (encode exAsk) ("10.0.0.2", 3610)).1 = _
    rw [recvOne_ok _ _ _ _ _ hdec]
    rfl
  obtain ⟨-, hlen⟩ := C48_sent (n := n) exEnv okNet (fun _ _ _ _ => rfl) d4 { onWire exAsk with fromAddr := some ("10.0.0.2", 3610) } (by decide +kernel) (by decide +kernel)
    ("10.0.0.2", 3610) rfl exObj d3 { tid := 7, seoj := 0x029101, deoj := 0x05FF01, esv := 0x71, props := [{ code := 0x80 }] } (by decide +kernel) (by decide +kernel)
  rw [if_neg (by decide)] at hlen
  obtain ⟨new, h1, -, -, h4, -⟩ := hear_sends ord w (.device n) exPacket.bytes exPacket.src
  have h1' : (n.messageReceived exEnv okNet { onWire exAsk with fromAddr := some ("10.0.0.2", 3610) }).1.mgr.log = n.mgr.log ++ new := by
    rw [hhear] at h1
    exact h1
  rw [h1', List.length_append] at hlen
  obtain ⟨x, rfl⟩ := List.length_eq_one_iff.mp (show new.length = 1 by omega)
  have hx := h4 x List.mem_cons_self
  refine ⟨s, _, max n.mgr.servers.length c.ln.mgr.servers.length, rfl, by decide +kernel,
    .step (.arrive s [] [] [⟨1, ("10.0.0.9", 3610), x.1.bytes⟩] exPacket w [x] rfl h1 (fun y hy => ⟨x, List.mem_cons_self, by rw [List.mem_singleton.mp hy]⟩) (by simp))
      (.step (.arrive _ [] [] [] ⟨1, ("10.0.0.9", 3610), x.1.bytes⟩ w [] rfl ?_ (by simp) (by simp)) (.refl _)), rfl, ?_⟩
  · exact (C117_silent ord w _ x.1.bytes _ hx).trans (List.append_nil _).symm
  · intro i
    simp only [s]
    split
    · exact le_max_left _ _
    · exact le_max_right _ _

end Uecho
