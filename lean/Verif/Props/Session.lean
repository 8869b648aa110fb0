/- C109: a controller and any number of devices over any number of requests. -/
import Verif.Lemmas.Session

namespace Uecho
open Spec

/-- C109. A controller posts requests one after the other to any objects of any devices it has found: every request gets
a response, and the sequence of responses is that of a store that grants reads and writes by the attributes of the
properties. The devices end up with the data of that store. The requests and responses have to fit datagrams, and no response may be an empty
instance list (C62). -/
theorem C109_session {ord : List Int → List Int} (hord : ValidOrder ord) (k : Side) (rs : List Req) : ∀ (c : Ctl) (H : Machines),
    (∀ r ∈ rs, Serves ord k c H r.ip r.obj) → H.store.Fits rs →
    ∃ c' H' ms, Session ord k c H rs c' H' ms ∧
      ms.map (fun m => { m with tid := 0 }) = (H.store.answers rs).map (fun a => { a.2 with fromAddr := some (a.1, 3610) }) ∧
      H'.store = H.store.final rs ∧
      ∀ ip obj, Serves ord k c H ip obj → Serves ord k c' H' ip obj := by
  induction rs with
  | nil => intro c H _ _; exact ⟨c, H, [], .nil c H, rfl, rfl, fun _ _ h => h⟩
  | cons r rs ih =>
    intro c H hs hf
    obtain ⟨f1, f2, f3, f5, f4⟩ := hf
    obtain ⟨h, c1, n1, t, a1, a2, a3, a4⟩ := session_step hord k c H r (hs r List.mem_cons_self) f1 f2 f3 f5
    obtain ⟨c', H', ms, b1, b2, b3, b4⟩ := ih c1 (H.put r.ip n1) (fun x hx => a4 _ _ (hs x (List.mem_cons_of_mem _ hx))) (by rw [a3]; exact f4)
    refine ⟨c', H', _ :: ms, .cons h a1 a2 b1, ?_, ?_, fun ip obj hh => b4 ip obj (a4 ip obj hh)⟩
    · rw [List.map_cons, b2, a3]
      show _ = { H.store.answer r with fromAddr := some (r.ip, 3610) } :: _
      congr 1
      have : (H.store.answer r).tid = 0 := by cases r <;> rfl
      rw [← this]
    · rw [b3, a3]
      rfl

/-- C109. There is no other outcome: whenever the requests have been posted, delivered and answered, the responses are those of
the store. -/
theorem C109_only {ord : List Int → List Int} (hord : ValidOrder ord) (k : Side) (rs : List Req) (c : Ctl) (H : Machines)
    (hs : ∀ r ∈ rs, Serves ord k c H r.ip r.obj) (hf : H.store.Fits rs) (c' : Ctl) (H' : Machines) (ms : List Msg) (h : Session ord k c H rs c' H' ms) :
    ms.map (fun m => { m with tid := 0 }) = (H.store.answers rs).map (fun a => { a.2 with fromAddr := some (a.1, 3610) }) ∧
      H'.store = H.store.final rs := by
  obtain ⟨c2, H2, ms2, h1, h2, h3, -⟩ := C109_session hord k rs c H hs hf
  obtain ⟨rfl, rfl, rfl⟩ := session_unique h h1
  exact ⟨h2, h3⟩

/-- C109. What a session reads: the data last written to that property of that object of that machine, or, if none was, the data it had. -/
theorem C109_last_write (s : Store) (rs : List Req) (ip : String) (k c : Int) :
    s.final rs ip k c = (s ip k c).map fun e =>
      if e.writable then { e with data := (lastFor (rs.flatMap (Req.writes ip k)) c).getD e.data } else e := by
  induction rs using List.reverseRecOn with
  | nil =>
    show s ip k c = _
    simp only [List.flatMap_nil, lastFor_nil, Option.getD_none, ite_self, Option.map_id']
  | append_singleton rs r ih =>
    have : s.final (rs ++ [r]) = (s.final rs).after r := by unfold Store.final; rw [List.foldl_append]; rfl
    rw [this, List.flatMap_append, List.flatMap_singleton]
    have hp : ∀ ip' k' items, (s.final rs).puts ip' k' items ip k c = (s ip k c).map fun e =>
        if e.writable then { e with data := (lastFor (rs.flatMap (Req.writes ip k) ++ if ip' = ip ∧ k' = k then itemProps items else []) c).getD e.data } else e := by
      intro ip' k' items
      rw [foldl_put, ih]
      by_cases h : ip = ip' ∧ k = k'
      · rw [if_pos h, if_pos ⟨h.1.symm, h.2.symm⟩, Option.map_map]
        congr 1
        funext e
        simp only [Function.comp, lastFor_append]
        by_cases hw : e.writable
        · simp only [hw, if_true]
          cases lastFor (itemProps items) c <;> simp
        · simp [hw]
      · rw [if_neg h, if_neg (fun h' => h ⟨h'.1.symm, h'.2.symm⟩), List.append_nil]
    cases r with
    | read => rw [show Req.writes ip k (.read _ _ _) = [] from rfl, List.append_nil]; exact ih
    | write ip' k' items => exact hp ip' k' items
    | writeRead ip' k' items codes => exact hp ip' k' items

/-! ### Two devices -/

/-- A started controller that has found two nodes. -/
theorem ctl_two {ord : List Int → List Int} (hord : ValidOrder ord) : ∃ c ops, CtlReach ord c ops ∧ CanSend c.ln.mgr ∧ Found c "10.0.0.9" ∧ Found c "10.0.0.8" := by
  obtain ⟨-, c, -, ops, -, -, -, h1, h2, h3⟩ := ctl_ready hord
  have hd : Delivered (exList "10.0.0.8" [0x029101]) := by unfold Delivered; decide +kernel
  have h4 := ctl_snoc h1 (.receive exEnv calmEnv okNet (exList "10.0.0.8" [0x029101])) ⟨hd, calmEnv_calm, exEnv_stable⟩
  have hln := receive_ln ord exEnv calmEnv okNet c (exList "10.0.0.8" [0x029101]) (reach_knows hord h1).1 calmEnv_calm hord hd
  rw [if_neg (by decide)] at hln
  have ha : announced (exList "10.0.0.8" [0x029101]) = some (("10.0.0.8", 3610), [0x029101]) := by decide +kernel
  have hk := (reach_knows hord h4).2
  refine ⟨_, _, h4, ?_, ?_, ?_⟩
  · show CanSend (c.messageReceived ord exEnv calmEnv okNet (exList "10.0.0.8" [0x029101])).1.ln.mgr
    rw [hln]
    exact h2
  · have := hk "10.0.0.9"
    have hold := (reach_knows hord h1).2 "10.0.0.9"
    obtain ⟨x, hx⟩ := Option.isSome_iff_exists.mp ((Dict.get?_isSome_iff _ _).mpr h3)
    rw [heard_append, show heard [CtlOp.receive exEnv calmEnv okNet (exList "10.0.0.8" [0x029101])] = [exList "10.0.0.8" [0x029101]] from rfl, latest_append, ha] at this
    simp only [] at this
    rw [if_neg (by decide), ← hold, hx] at this
    apply (Dict.get?_isSome_iff _ _).mp
    generalize Dict.get? (CtlOp.run ord c (.receive exEnv calmEnv okNet (exList "10.0.0.8" [0x029101]))).found "10.0.0.9" = z at this
    cases z with
    | none => cases this
    | some _ => rfl
  · have := hk "10.0.0.8"
    rw [heard_append, show heard [CtlOp.receive exEnv calmEnv okNet (exList "10.0.0.8" [0x029101])] = [exList "10.0.0.8" [0x029101]] from rfl, latest_append, ha] at this
    apply (Dict.get?_isSome_iff _ _).mp
    generalize Dict.get? (CtlOp.run ord c (.receive exEnv calmEnv okNet (exList "10.0.0.8" [0x029101]))).found "10.0.0.8" = z at this
    cases z with
    | none => cases this
    | some _ => rfl

/-- Two devices with a light each. 0x80 may be read and written, 0x81 only read, 0xB0 only written. The first is switched, which the second does not
notice; a write to 0x81 and a read of 0xB0 are refused; the last request writes and reads. -/
def exReqs : List Req :=
  [.write "10.0.0.9" 0x029101 [(0x80, [0x31])], .read "10.0.0.8" 0x029101 [0x80], .read "10.0.0.9" 0x029101 [0x81, 0x80],
   .write "10.0.0.8" 0x029101 [(0x80, [0x41]), (0x81, [5])], .read "10.0.0.8" 0x029101 [0x80, 0xB0], .writeRead "10.0.0.8" 0x029101 [(0x80, [0x42])] [0x80]]

/-- The store of two such devices. -/
def exStore : Store := fun ip k c => if (ip = "10.0.0.9" ∨ ip = "10.0.0.8") ∧ k = 0x029101 then
  (lookup exObj.props c).map fun p => { readable := decide (CanRead p), writable := decide (CanWrite p), data := p.data } else none

theorem ex_session {ord : List Int → List Int} (hord : ValidOrder ord) : ∃ k c H, (∀ r ∈ exReqs, Serves ord k c H r.ip r.obj) ∧ H.store.Fits exReqs ∧
    (H.store.answers exReqs).map (fun a => (a.1, a.2.esv, a.2.props, a.2.setProps, a.2.getProps)) =
      [("10.0.0.9", 0x71, [{ code := 0x80 }], [], []), ("10.0.0.8", 0x72, [{ code := 0x80, data := [0x30] }], [], []),
       ("10.0.0.9", 0x72, [{ code := 0x81, data := [7] }, { code := 0x80, data := [0x31] }], [], []),
       ("10.0.0.8", 0x50, [{ code := 0x80 }, { code := 0x81, data := [5] }], [], []),
       ("10.0.0.8", 0x52, [{ code := 0x80, data := [0x41] }, { code := 0xB0 }], [], []),
       ("10.0.0.8", 0x7E, [], [{ code := 0x80 }], [{ code := 0x80, data := [0x42] }])] := by
  obtain ⟨c, ops, h1, h2, h3, h4⟩ := ctl_two hord
  obtain ⟨n, d1, d2, d3, d4⟩ := dev_device hord exObj
  let k : Side := ⟨("10.0.0.2", 3610), calmEnv, exEnv, okNet⟩
  let H : Machines := fun ip => if ip = "10.0.0.9" ∨ ip = "10.0.0.8" then some ⟨(ip, 3610), n, exEnv, okNet⟩ else none
  have hs : ∀ ip, ip = "10.0.0.9" ∨ ip = "10.0.0.8" → Serves ord k c H ip 0x029101 := by
    intro ip hip
    refine ⟨⟨⟨(ip, 3610), n, exEnv, okNet⟩, if_pos hip, rfl, ⟨⟨_, h1⟩, h2, d1, d2, d4⟩, exWorld_works, exObj, d3, by decide, rfl, fun _ _ _ => rfl⟩, by decide, ?_⟩
    rcases hip with rfl | rfl <;> assumption
  have hst : ∀ r ∈ exReqs, ∀ c, H.store r.ip r.obj c = exStore r.ip r.obj c := by
    intro r hr c
    have : ∀ ip, ip = "10.0.0.9" ∨ ip = "10.0.0.8" → H.store ip 0x029101 c = exStore ip 0x029101 c := by
      intro ip hip
      rw [store_host (if_pos hip)]
      refine (entryOf_obj d3 c).trans ?_
      exact (if_pos ⟨hip, rfl⟩).symm
    simp only [exReqs, List.mem_cons, List.not_mem_nil, or_false] at hr
    rcases hr with rfl | rfl | rfl | rfl | rfl | rfl <;> exact this _ (by decide)
  obtain ⟨e1, e2⟩ := agree exReqs H.store exStore hst
  refine ⟨k, c, H, ?_, e2.mpr ?_, by rw [e1]; decide +kernel⟩
  · intro r hr
    simp only [exReqs, List.mem_cons, List.not_mem_nil, or_false] at hr
    rcases hr with rfl | rfl | rfl | rfl | rfl | rfl <;> exact hs _ (by decide)
  · have hl : ∀ (P : Prop) (m : Msg) (p : PProp) (l : List PProp), m.props = p :: l → p.code ≠ 0xD5 ∧ p.code ≠ 0xD6 → P → instanceListOf m ≠ .empty := by
      intro P m p l h1 h2 _ h
      unfold instanceListOf at h
      rw [h1] at h
      simp only [] at h
      rw [if_neg (by omega)] at h
      cases h
    refine ⟨by decide +kernel, by decide +kernel, hl _ _ _ _ rfl (by decide), trivial, by decide +kernel, by decide +kernel, hl _ _ _ _ rfl (by decide), trivial,
      by decide +kernel, by decide +kernel, hl _ _ _ _ rfl (by decide), trivial, by decide +kernel, by decide +kernel, hl _ _ _ _ rfl (by decide), trivial,
      by decide +kernel, by decide +kernel, hl _ _ _ _ rfl (by decide), trivial, by decide +kernel, by decide +kernel, ?_, ?_, trivial⟩
    · intro h
      exact absurd h (by decide +kernel)
    · show ∀ c ∈ [(0x80 : Int)], _
      decide +kernel

example {ord : List Int → List Int} (hord : ValidOrder ord) : ∃ k c H c' H' ms, Session ord k c H exReqs c' H' ms ∧
    ms.map Msg.esv = [0x71, 0x72, 0x72, 0x50, 0x52, 0x7E] := by
  obtain ⟨k, c, H, h1, h2, h3⟩ := ex_session hord
  obtain ⟨c', H', ms, h4, h5, -⟩ := C109_session hord k exReqs c H h1 h2
  refine ⟨k, c, H, c', H', ms, h4, ?_⟩
  have e1 := congrArg (List.map Msg.esv) h5
  have e2 := congrArg (List.map fun x => x.2.1) h3
  rw [List.map_map, List.map_map] at e1
  rw [List.map_map] at e2
  exact e1.trans e2

end Uecho
