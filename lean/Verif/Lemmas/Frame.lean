import Verif.Spec.Frame
import Verif.Lemmas.Message
import Mathlib.Tactic.Common

namespace Uecho
open Spec

/-! ### Interfaces -/

theorem inetLoop_eq (l : List (Option String)) : ∀ acc, inetLoop l acc =
    acc ++ (l.filterMap id).filter (fun a => decide (a ≠ "127.0.0.1")) := by
  induction l with
  | nil => intro acc; simp [inetLoop]
  | cons x l ih =>
    intro acc
    cases x with
    | none => unfold inetLoop; rw [ih]; rfl
    | some a =>
      unfold inetLoop
      by_cases h : a = "127.0.0.1"
      · rw [if_pos h, ih]
        simp [h]
      · rw [if_neg h, ih]
        simp [h]

theorem getAllIpaddrs_eq (l : List IfInfo) : ∀ acc, getAllIpaddrs l acc =
    acc ++ ((l.filterMap id).flatten.filterMap id).filter (fun a => decide (a ≠ "127.0.0.1")) := by
  induction l with
  | nil => intro acc; simp [getAllIpaddrs]
  | cons x l ih =>
    intro acc
    cases x with
    | none => unfold getAllIpaddrs; rw [ih]; rfl
    | some inets =>
      unfold getAllIpaddrs
      rw [ih, inetLoop_eq]
      simp [List.filterMap_append, List.filter_append]

/-! ### Transmission -/

theorem toStr_of_toBytes (m : Msg) : (∃ s, m.toStr = .ok s) ↔ Encodable m := by
  unfold Msg.toStr
  by_cases h : Encodable m
  · rw [toBytes_ok m h]; exact ⟨fun _ => h, fun _ => ⟨_, rfl⟩⟩
  · rw [toBytes_err m h]
    exact ⟨fun ⟨s, hs⟩ => (by cases hs), fun h' => absurd h' h⟩

theorem encodable_toAddr (m : Msg) (a : Option Addr) : Encodable { m with toAddr := a } ↔ Encodable m := Iff.rfl
theorem encode_toAddr (m : Msg) (a : Option Addr) : encode { m with toAddr := a } = encode m := rfl

namespace Manager

theorem transmit_bad (net : Net) (g : Manager) (s : Server) (m : Msg) (d : Addr) (h : ¬ Encodable m) :
    g.transmit net s m d = (g, .error .valueError) := by
  unfold transmit Msg.toStr
  rw [toBytes_err m h]; rfl

theorem transmit_ok (net : Net) (g : Manager) (s : Server) (m : Msg) (d : Addr) (h : Encodable m) :
    g.transmit net s m d = match net.sendto g.calls s.ifaddr d (encode m) with
      | .error e => ({ g with calls := g.calls + 1 }, .error e)
      | .ok n => ({ g with calls := g.calls + 1, log := g.log ++ [(⟨s.ifaddr, d, encode m⟩, n)] }, .ok (!decide (n ≤ 0))) := by
  unfold transmit
  obtain ⟨str, hs⟩ := (toStr_of_toBytes m).mpr h
  rw [hs, toBytes_ok m h]
  rfl

theorem working_cons (s : Server) (ss : List Server) :
    working (s :: ss) = if s.kind = .unicast ∧ s.open_ = true then s :: working ss else working ss := by
  unfold working
  rw [List.filter_cons]
  by_cases h : s.kind = .unicast ∧ s.open_ = true <;> simp [h]

/-- What a sequence of `sendto` calls through the given servers does: they are made in order, with the
same bytes, until one raises or, if `stopAtFirst`, until one reports success. The result says whether
the last call reported success (`stopAtFirst`), or an exception. -/
def sendAll (net : Net) (stopAtFirst : Bool) (dest : Addr) (b : Bytes) : List Server → Nat → List (Sent × Int) × Nat × Except Exc Bool
  | [], k => ([], k, .ok false)
  | s :: ss, k =>
    match net.sendto k s.ifaddr dest b with
    | .error e => ([], k + 1, .error e)
    | .ok n =>
      if stopAtFirst = true ∧ 0 < n then ([(⟨s.ifaddr, dest, b⟩, n)], k + 1, .ok true)
      else
        let (l, k', r) := sendAll net stopAtFirst dest b ss (k + 1)
        ((⟨s.ifaddr, dest, b⟩, n) :: l, k', r)

theorem sendLoop_eq (net : Net) (a : Addr) (ss : List Server) : ∀ (g : Manager) (m : Msg), Encodable m →
    ∃ t, (t = m.toAddr ∨ t = some a) ∧ (working ss = [] → t = m.toAddr) ∧ (working ss ≠ [] → t = some a) ∧
    sendLoop net (some a) ss g m =
      ({ g with log := g.log ++ (sendAll net true a (encode m) (working ss) g.calls).1
                calls := (sendAll net true a (encode m) (working ss) g.calls).2.1 },
       { m with toAddr := t }, (sendAll net true a (encode m) (working ss) g.calls).2.2) := by
  induction ss with
  | nil =>
    intro g m _
    exact ⟨m.toAddr, Or.inl rfl, fun _ => rfl, fun h => absurd rfl h, by simp [sendLoop, working, sendAll]⟩
  | cons s ss ih =>
    intro g m hm
    unfold sendLoop
    by_cases hk : s.kind = .unicast
    · rw [if_pos hk]
      unfold serverSend
      simp only []
      by_cases ho : s.open_ = false
      · rw [if_pos ho]
        simp only []
        rw [working_cons, if_neg (by rw [ho]; simp)]
        exact ih g m hm
      · rw [if_neg ho]
        have ho' : s.open_ = true := by simpa using ho
        rw [working_cons, if_pos ⟨hk, ho'⟩]
        rw [transmit_ok net g s _ a ((encodable_toAddr m _).mpr hm), encode_toAddr]
        refine ⟨some a, Or.inr rfl, fun h => by simp at h, fun _ => rfl, ?_⟩
        unfold sendAll
        cases hs : net.sendto g.calls s.ifaddr a (encode m) with
        | error e => simp
        | ok n =>
          simp only []
          by_cases hn : 0 < n
          · have : (!decide (n ≤ 0)) = true := by simpa using hn
            rw [this, if_pos (by simp [hn])]
          · have : (!decide (n ≤ 0)) = false := by simpa using hn
            rw [this, if_neg (by simp [hn])]
            simp only []
            obtain ⟨t, ht, h1, h2, he⟩ := ih { g with calls := g.calls + 1, log := g.log ++ [(⟨s.ifaddr, a, encode m⟩, n)] }
              { m with toAddr := some a } hm
            rw [he]
            have : t = some a := by
              by_cases hw : working ss = []
              · exact h1 hw
              · exact h2 hw
            subst this
            simp only [encode_toAddr, List.append_assoc, List.cons_append, List.nil_append]
    · rw [if_neg hk, working_cons, if_neg (by simp [hk])]
      exact ih g m hm

theorem sendLoop_bad (net : Net) (a : Addr) (ss : List Server) : ∀ (g : Manager) (m : Msg), ¬ Encodable m →
    (working ss = [] → sendLoop net (some a) ss g m = (g, m, .ok false)) ∧
    (working ss ≠ [] → sendLoop net (some a) ss g m = (g, { m with toAddr := some a }, .error .valueError)) := by
  induction ss with
  | nil => intro g m _; exact ⟨fun _ => rfl, fun h => absurd rfl h⟩
  | cons s ss ih =>
    intro g m hm
    unfold sendLoop
    by_cases hk : s.kind = .unicast
    · rw [if_pos hk]
      unfold serverSend
      simp only []
      by_cases ho : s.open_ = false
      · rw [if_pos ho]
        simp only []
        rw [working_cons, if_neg (by rw [ho]; simp)]
        exact ih g m hm
      · rw [if_neg ho]
        have ho' : s.open_ = true := by simpa using ho
        rw [working_cons, if_pos ⟨hk, ho'⟩]
        rw [transmit_bad net g s _ a (by rw [encodable_toAddr]; exact hm)]
        exact ⟨fun h => by simp at h, fun _ => rfl⟩
    · rw [if_neg hk, working_cons, if_neg (by simp [hk])]
      exact ih g m hm

theorem sendLoop_none (net : Net) (ss : List Server) : ∀ (g : Manager) (m : Msg),
    sendLoop net none ss g m = (g, m, .ok false) := by
  induction ss with
  | nil => intro g m; rfl
  | cons s ss ih =>
    intro g m
    unfold sendLoop
    by_cases hk : s.kind = .unicast
    · rw [if_pos hk]; exact ih g m
    · rw [if_neg hk]; exact ih g m

/-- the result of an announcement that does not raise is always `True` -/
def mapTrue : Except Exc Bool → Except Exc Bool
  | .error e => .error e
  | .ok _ => .ok true

theorem announceLoop_eq (net : Net) (ss : List Server) : ∀ (g : Manager) (m : Msg), Encodable m →
    ∃ t, (working ss = [] → t = m.toAddr) ∧ (working ss ≠ [] → t = some (MULTICAST_ADDRESS, SERVER_PORT)) ∧
    announceLoop net ss g m =
      ({ g with log := g.log ++ (sendAll net false (MULTICAST_ADDRESS, SERVER_PORT) (encode m) (working ss) g.calls).1
                calls := (sendAll net false (MULTICAST_ADDRESS, SERVER_PORT) (encode m) (working ss) g.calls).2.1 },
       { m with toAddr := t }, mapTrue (sendAll net false (MULTICAST_ADDRESS, SERVER_PORT) (encode m) (working ss) g.calls).2.2) := by
  induction ss with
  | nil =>
    intro g m _
    exact ⟨m.toAddr, fun _ => rfl, fun h => absurd rfl h, by simp [announceLoop, working, sendAll, mapTrue]⟩
  | cons s ss ih =>
    intro g m hm
    unfold announceLoop
    by_cases hk : s.kind = .unicast
    · rw [if_pos hk]
      unfold serverAnnounce
      by_cases ho : s.open_ = false
      · rw [if_pos ho]
        simp only []
        rw [working_cons, if_neg (by rw [ho]; simp)]
        exact ih g m hm
      · rw [if_neg ho]
        have ho' : s.open_ = true := by simpa using ho
        rw [working_cons, if_pos ⟨hk, ho'⟩]
        simp only []
        rw [transmit_ok net g s _ _ ((encodable_toAddr m _).mpr hm), encode_toAddr]
        refine ⟨some (MULTICAST_ADDRESS, SERVER_PORT), fun h => by simp at h, fun _ => rfl, ?_⟩
        unfold sendAll
        cases hs : net.sendto g.calls s.ifaddr (MULTICAST_ADDRESS, SERVER_PORT) (encode m) with
        | error e => simp [mapTrue]
        | ok n =>
          simp only []
          rw [if_neg (by simp)]
          obtain ⟨t, h1, h2, he⟩ := ih { g with calls := g.calls + 1, log := g.log ++ [(⟨s.ifaddr, (MULTICAST_ADDRESS, SERVER_PORT), encode m⟩, n)] }
            { m with toAddr := some (MULTICAST_ADDRESS, SERVER_PORT) } hm
          rw [he]
          have : t = some (MULTICAST_ADDRESS, SERVER_PORT) := by
            by_cases hw : working ss = []
            · exact h1 hw
            · exact h2 hw
          subst this
          simp only [encode_toAddr, List.append_assoc, List.cons_append, List.nil_append]
    · rw [if_neg hk, working_cons, if_neg (by simp [hk])]
      exact ih g m hm

theorem announceLoop_bad (net : Net) (ss : List Server) : ∀ (g : Manager) (m : Msg), ¬ Encodable m →
    (working ss = [] → announceLoop net ss g m = (g, m, .ok true)) ∧
    (working ss ≠ [] → announceLoop net ss g m = (g, { m with toAddr := some (MULTICAST_ADDRESS, SERVER_PORT) }, .error .valueError)) := by
  induction ss with
  | nil => intro g m _; exact ⟨fun _ => rfl, fun h => absurd rfl h⟩
  | cons s ss ih =>
    intro g m hm
    unfold announceLoop
    by_cases hk : s.kind = .unicast
    · rw [if_pos hk]
      unfold serverAnnounce
      by_cases ho : s.open_ = false
      · rw [if_pos ho]
        simp only []
        rw [working_cons, if_neg (by rw [ho]; simp)]
        exact ih g m hm
      · rw [if_neg ho]
        have ho' : s.open_ = true := by simpa using ho
        rw [working_cons, if_pos ⟨hk, ho'⟩]
        simp only []
        rw [transmit_bad net g s _ _ (by rw [encodable_toAddr]; exact hm)]
        exact ⟨fun h => by simp at h, fun _ => rfl⟩
    · rw [if_neg hk, working_cons, if_neg (by simp [hk])]
      exact ih g m hm

/-! ### TIDs -/

theorem assignTid_zero (g : Manager) (m : Msg) (h : m.tid = 0) (hr : 0 ≤ g.tid ∧ g.tid ≤ 65535) :
    g.assignTid m = ({ g with tid := g.tid % 65535 + 1 }, { m with tid := g.tid % 65535 + 1 }) := by
  unfold assignTid nextTid
  rw [if_pos h]
  simp only []
  by_cases h1 : 0xFFFF < g.tid + 1
  · rw [if_pos h1]
    have : g.tid % 65535 + 1 = 1 := by omega
    rw [this]
  · rw [if_neg h1]
    have : g.tid % 65535 + 1 = g.tid + 1 := by omega
    rw [this]

theorem assignTid_nonzero (g : Manager) (m : Msg) (h : m.tid ≠ 0) : g.assignTid m = (g, m) := by
  unfold assignTid; rw [if_neg h]

/-! ### Life cycle -/

theorem stopLoop_outside (caller : Option Nat) (ss : List Server) : ∀ i,
    (∀ j s, ss[j]? = some s → s.open_ = true → caller ≠ some (i + j)) → (stopLoop caller ss i).2 = none := by
  induction ss with
  | nil => intro i _; rfl
  | cons s ss ih =>
    intro i h
    unfold stopLoop
    have ht := ih (i + 1) (fun j t hj ho => by
      have := h (j + 1) t (by simpa using hj) ho
      rwa [show i + 1 + j = i + (j + 1) by omega])
    by_cases ho : s.open_ = false
    · rw [if_pos ho]; exact ht
    · rw [if_neg ho, if_neg]
      · exact ht
      · have := h 0 s rfl (by simpa using ho)
        simpa using this

theorem stop_outside (g : Manager) (caller : Option Nat)
    (h : ∀ j s, g.servers[j]? = some s → s.open_ = true → caller ≠ some j) :
    g.stop caller = ({ g with servers := [] }, .ok true) := by
  unfold stop
  have := stopLoop_outside caller g.servers 0 (fun j s hj ho => by rw [Nat.zero_add]; exact h j s hj ho)
  rcases hs : stopLoop caller g.servers 0 with ⟨ss, r⟩
  rw [hs] at this
  simp only [] at this
  subst this
  rfl

theorem startLoop_ok (net : Net) (as : List String) : ∀ g, (startLoop net as g).2 = none →
    (startLoop net as g).1 = { g with servers := g.servers ++ serversFor as, calls := g.calls + 4 * as.length } := by
  induction as with
  | nil => intro g _; simp [startLoop, serversFor]
  | cons a as ih =>
    intro g h
    unfold startLoop launch at h ⊢
    cases h1 : net.bind g.calls .unicast a with
    | some e => rw [h1] at h; simp at h
    | none =>
      rw [h1] at h
      simp only [] at h ⊢
      cases h2 : net.thread (g.calls + 1) with
      | some e => rw [h2] at h; simp at h
      | none =>
        rw [h2] at h
        simp only [] at h ⊢
        cases h3 : net.bind (g.calls + 2) .multicast a with
        | some e => rw [h3] at h; simp at h
        | none =>
          rw [h3] at h
          simp only [] at h ⊢
          cases h4 : net.thread (g.calls + 2 + 1) with
          | some e => rw [h4] at h; simp at h
          | none =>
            rw [h4] at h
            simp only [] at h ⊢
            rw [ih _ h]
            simp only [serversFor, List.flatMap_cons, List.append_assoc, List.cons_append, List.nil_append, List.length_cons]
            congr 1
            omega

theorem startLoop_prefix (net : Net) (as : List String) : ∀ g,
    ∃ k, (startLoop net as g).1.servers = g.servers ++ (serversFor as).take k ∧
      (startLoop net as g).1.tid = g.tid ∧ (startLoop net as g).1.log = g.log := by
  induction as with
  | nil => intro g; exact ⟨0, by simp [startLoop, serversFor], rfl, rfl⟩
  | cons a as ih =>
    intro g
    unfold startLoop launch
    cases h1 : net.bind g.calls .unicast a with
    | some e => exact ⟨0, by simp, rfl, rfl⟩
    | none =>
      simp only []
      cases h2 : net.thread (g.calls + 1) with
      | some e => exact ⟨0, by simp, rfl, rfl⟩
      | none =>
        simp only []
        cases h3 : net.bind (g.calls + 2) .multicast a with
        | some e => exact ⟨1, by simp [serversFor], rfl, rfl⟩
        | none =>
          simp only []
          cases h4 : net.thread (g.calls + 2 + 1) with
          | some e => exact ⟨1, by simp [serversFor], rfl, rfl⟩
          | none =>
            simp only []
            obtain ⟨k, hk, ht, hl⟩ := ih { g with calls := g.calls + 2 + 2, servers := g.servers ++ [{ kind := .unicast, ifaddr := a, open_ := true }] ++ [{ kind := .multicast, ifaddr := a, open_ := true }] }
            refine ⟨k + 2, ?_, ht, hl⟩
            rw [hk]
            simp [serversFor]

end Manager

/-! ### The receiving loop -/

theorem recvOne_ok {σ : Type} (deliver : σ → Msg → σ × Option Exc) (st : σ) (d : Bytes) (a : Addr) (m : Msg)
    (h : Decodes d a m) : recvOne deliver st d a = ((deliver st m).1, (deliver st m).2.isNone) := by
  obtain ⟨w, t, hw, how, hd, rfl⟩ := h
  unfold recvOne
  rw [show RECV_SIZE = 1024 from rfl, hd, parseBytes_encode {} w t hw, absorb_fresh, ← how]
  simp only []
  obtain ⟨s, hs⟩ := (toStr_of_toBytes { w with fromAddr := some a }).mpr hw
  rw [hs]
  simp only []
  rcases deliver st { w with fromAddr := some a } with ⟨st', e | e⟩ <;> rfl

theorem recvOne_bad {σ : Type} (deliver : σ → Msg → σ × Option Exc) (st : σ) (d : Bytes) (a : Addr)
    (h : ¬ ∃ m, Decodes d a m) : recvOne deliver st d a = (st, false) := by
  unfold recvOne
  rw [show RECV_SIZE = 1024 from rfl]
  rcases hp : Msg.parseBytes {} (d.take 1024) with ⟨m, e | b⟩
  · rfl
  · exfalso
    have hp2 : (Msg.parseBytes {} (d.take 1024)).2 = .ok b := by rw [hp]
    obtain ⟨-, w, t, h1, h2, h3, -⟩ := parseBytes_sound {} _ _ hp2
    exact h ⟨_, w, t, h1, h2, h3, rfl⟩

/-- A datagram has at most one meaning. -/
theorem decodes_unique {d : Bytes} {a : Addr} {m m' : Msg} (h : Decodes d a m) (h' : Decodes d a m') : m = m' := by
  obtain ⟨w, t, hw, how, hd, rfl⟩ := h
  obtain ⟨w', t', hw', how', hd', rfl⟩ := h'
  have e1 := parseBytes_encode {} w t hw
  have e2 := parseBytes_encode {} w' t' hw'
  rw [← hd, absorb_fresh, ← how] at e1
  rw [← hd', absorb_fresh, ← how'] at e2
  rw [e1] at e2
  injection e2 with e2
  rw [e2]

end Uecho
