/- C88: a search finds the devices of the network. -/
import Verif.Lemmas.Search
import Verif.Props.EndToEnd

namespace Uecho
open Spec

/-- The datagram of a search is read by whoever gets it as a request for the list of instances. -/
theorem search_decodes (hi lo : UInt8) (ca : Addr) : ∃ req, Decodes [0x10, 0x81, hi, lo, 0x0E, 0xF0, 0x01, 0x0E, 0xF0, 0x01, 0x62, 0x01, 0xD6, 0x00] ca req ∧
    IsReadOf req 0x0EF001 0xD6 ∧ req.seoj = 0x0EF001 := by
  generalize hq : ([0x10, 0x81, hi, lo, 0x0E, 0xF0, 0x01, 0x0E, 0xF0, 0x01, 0x62, 0x01, 0xD6, 0x00] : Bytes) = q
  have he : ∃ t : Int, encode { SearchMessage with tid := t } = q ∧ 0 ≤ t ∧ t < 2 ^ 16 := by
    refine ⟨hi.toNat * 256 + lo.toNat, ?_, by omega, by have := hi.toNat_lt; have := lo.toNat_lt; omega⟩
    have h2 : ¬ TwoSections ({ SearchMessage with tid := (hi.toNat * 256 + lo.toNat : Int) } : Msg).esv := (by decide : ¬ TwoSections 0x62)
    unfold encode encHeader encBody
    rw [if_neg h2, ← hq]
    have a0 : beDigits (hi.toNat * 256 + lo.toNat : Int) 2 = [hi, lo] := by
      have a1 : ((hi.toNat * 256 + lo.toNat : Int) / 256 % 256) = hi.toNat := by have := hi.toNat_lt; have := lo.toNat_lt; omega
      have a2 : ((hi.toNat * 256 + lo.toNat : Int) % 256) = lo.toNat := by have := lo.toNat_lt; omega
      simp [beDigits, List.range_succ, a1, a2]
    show [0x10, 0x81] ++ beDigits (hi.toNat * 256 + lo.toNat : Int) 2 ++ _ ++ _ ++ _ ++ _ = _
    rw [a0]
    rfl
  obtain ⟨t, he, ht⟩ := he
  have hm : Encodable ({ SearchMessage with tid := t } : Msg) := by
    have : Encodable SearchMessage := by decide +kernel
    exact this
  have hd := decodes_encode ({ SearchMessage with tid := t } : Msg) hm (by rw [he, ← hq]; simp) ca
  rw [he] at hd
  exact ⟨_, hd, ⟨rfl, (by decide : (0x0EF001 : Int) % 2 ^ 24 % 2 ^ 24 = 0x0EF001), [], rfl, by decide⟩, (by decide : (0x0EF001 : Int) % 2 ^ 24 = 0x0EF001)⟩

/-- C88. `search()` returns True having sent one and the same datagram through every running interface. Every
device that gets it answers with one datagram. Whichever of the answers arrive, in whatever order and however often,
the receiving thread of the controller goes on, `get_node` then finds each device whose answer arrived, under
its address, with the node profile and exactly the device's objects, the listeners have been told of each, and nothing
else is changed. -/
theorem C88_search {ord : List Int → List Int} (hord : ValidOrder ord) {c : Ctl} {ops : List CtlOp} (h : CtlReach ord c ops)
    (cuser : Env) (hst : CodeStable cuser) {cenv : CEnv} (hcalm : Calm cenv) (cnet : Net) (hs : NetWorks cnet) (hw : CanSend c.ln.mgr) (ca : Addr)
    (hosts : List Host) (hr : ∀ x ∈ hosts, x.Ready ord) (hips : (hosts.map fun x => x.addr.1).Nodup) :
    ∃ (c1 : Ctl) (q : Bytes) (answer : Host → Bytes), c.search cnet = (c1, .ok true) ∧
      c1.ln.mgr.log = c.ln.mgr.log ++ (working c.ln.mgr.servers).map (fun s => (⟨s.ifaddr, ("224.0.23.0", 3610), q⟩, (q.length : Int))) ∧
      (∀ x ∈ hosts, x.Answers q ca (answer x)) ∧
      ∀ order : List Host, (∀ x ∈ order, x ∈ hosts) →
        ∃ c' ops', runLoop (Ctl.deliver ord cuser cenv cnet) c1 (order.map fun x => (answer x, x.addr)) = (c', true) ∧ CtlReach ord c' ops' ∧
          (∀ x ∈ order, ∃ r, c'.getNode cenv (.pair x.addr) = .ok (some r) ∧ r.node.address = some x.addr ∧ r.linked = true ∧
            r.node.objectList.map Obj.code = 0x0EF001 :: instancesOf (x.node.objs.map Obj.code)) ∧
          (∀ ip p, (∀ x ∈ order, x.addr.1 ≠ ip) → c'.getNode cenv (.pair (ip, p)) = c.getNode cenv (.pair (ip, p))) ∧
          (∃ rest, toldAll c' = toldAll c ++ rest ∧ ∀ x ∈ order, ∀ l ∈ c.listeners, (l, .nodeAdd x.addr.1) ∈ rest) := by
  obtain ⟨s1, hi, lo, hz, s2, s3, s4⟩ := C67_search hord h cnet hs hw
  generalize hq : ([0x10, 0x81, hi, lo, 0x0E, 0xF0, 0x01, 0x0E, 0xF0, 0x01, 0x62, 0x01, 0xD6, 0x00] : Bytes) = q at s2
  obtain ⟨req, hd, hreq, hsj⟩ := search_decodes hi lo ca
  rw [hq] at hd
  have hans : ∀ x : Host, ∃ d : Bytes, x ∈ hosts → x.Answers q ca d ∧ ∃ m, Decodes d x.addr m ∧ m.esv = 0x72 ∧ m.deoj = 0x0EF001 ∧
      instanceListOf m = .codes (instancesOf (x.node.objs.map Obj.code)) := by
    intro x
    by_cases hx : x ∈ hosts
    · obtain ⟨d, m, h1, h2, h3, h4, h5⟩ := host_answers hord (hr x hx) q ca req hd hreq
      refine ⟨d, fun _ => ⟨h1, _, h2 x.addr, h3, ?_, h5⟩⟩
      show m.deoj = _
      rw [h4, hsj]
      decide
    · exact ⟨[], fun e => absurd e hx⟩
  choose answer hanswer using hans
  have hc1 : CtlReach ord (c.search cnet).1 (ops ++ [.search cnet]) := ctl_snoc h (.search cnet) trivial
  have ho := run_other ord c (.search cnet) (by intros; intro e; cases e)
  have hf1 : (c.search cnet).1.found = c.found := ho.1
  have ht1 : toldAll (c.search cnet).1 = toldAll c := by
    unfold toldAll
    rw [show (c.search cnet).1.calls = c.calls from ho.2]
  refine ⟨(c.search cnet).1, q, answer, ?_, ?_, fun x hx => (hanswer x hx).1, ?_⟩
  · rw [← s1]
  · rw [s2, show ((q.length : Nat) : Int) = 14 by rw [← hq]; rfl]
  · intro order hsub
    obtain ⟨c', ops', r1, r2, r3, -, r5, r6, ⟨rest, r7, r8⟩, -⟩ := lists_taken hord cuser hcalm hst cnet answer (fun x => instancesOf (x.node.objs.map Obj.code)) hosts
      (fun x hx => (hanswer x hx).2) (fun x hx y hy e => List.inj_on_of_nodup_map hips hx hy e) order _ _ hc1 hsub
    refine ⟨c', ops', r1, r2, ?_, ?_, rest, by rw [r7, ht1], ?_⟩
    · intro x hx
      obtain ⟨hinv, hk⟩ := reach_knows hord r2
      have h1 := hk x.addr.1
      rw [r3 x hx, Option.map_some] at h1
      obtain ⟨r, hg, he⟩ := Option.map_eq_some_iff.mp h1
      injection he with e1 e2
      have hri := hinv.nodes _ _ hg
      refine ⟨r, ?_, e1, hri.linked, ?_⟩
      · rw [← hg]; exact getNodeLoop_pair cenv x.addr c'.found
      · have hnd : (0x0EF001 :: instancesOf (x.node.objs.map Obj.code)).Nodup := by
          have hi := reachable_inv hord (hr x (hsub x hx)).reach
          rw [List.nodup_cons]
          refine ⟨?_, ?_⟩
          · unfold instancesOf
            rw [List.mem_filter]
            rintro ⟨-, h⟩
            exact absurd h (by decide)
          · unfold instancesOf
            rw [objs_codes _ hi.own]
            exact hi.keys.filter _
        have : addCodes [0x0EF001] (instancesOf (x.node.objs.map Obj.code)) = 0x0EF001 :: instancesOf (x.node.objs.map Obj.code) :=
          addCodes_fresh _ _ hnd
        rw [← this, ← e2]
        unfold Node.objectList Dict.values
        rw [List.map_map]
        unfold Dict.keys
        apply List.map_congr_left
        intro kv hkv
        exact (hri.objs kv.1 kv.2 (Dict.get?_of_mem _ _ _ hri.keys hkv)).2
    · intro ip p hne
      rw [show c'.getNode cenv (.pair (ip, p)) = .ok (Dict.get? c'.found ip) from getNodeLoop_pair cenv (ip, p) c'.found,
        show c.getNode cenv (.pair (ip, p)) = .ok (Dict.get? c.found ip) from getNodeLoop_pair cenv (ip, p) c.found, r5 ip hne, hf1]
    · intro x hx l hl
      apply r8 x hx l
      have : (c.search cnet).1.listeners = c.listeners := rfl
      rw [this]
      exact hl

/-- Two devices, one with three objects; the second answers first, then the first, then the second again. -/
example {ord : List Int → List Int} (hord : ValidOrder ord) : ∃ c ops x y, CtlReach ord c ops ∧ CanSend c.ln.mgr ∧ Host.Ready ord x ∧ Host.Ready ord y ∧
    ([x, y].map fun z => z.addr.1).Nodup ∧ instancesOf (x.node.objs.map Obj.code) = [0, 1, 2] ∧ ∀ z ∈ [y, x, y], z ∈ [x, y] := by
  obtain ⟨c, -, ops, -, h1, h2, -⟩ := ctl_ready hord
  have hk : ∀ (k : Nat), k ≤ 84 → ∀ a, ∃ x : Host, x.Ready ord ∧ x.addr = a ∧ instancesOf (x.node.objs.map Obj.code) = (List.range k).map Int.ofNat := by
    intro k hk a
    obtain ⟨n, n1, n2, n3, n4, n5, -⟩ := reach_started hord k (by omega)
    refine ⟨⟨a, n, { exEnv with observe := fun _ _ => none }, okNet⟩, ⟨n1, n2, ?_, by show (instancesOf (n.objs.map Obj.code)).length ≤ 84; rw [n4]; simpa using hk, n5, fun _ _ _ _ => rfl, fun _ _ _ => rfl⟩, rfl, n4⟩
    intro o ho
    have : o.code ∈ n.objs.map Obj.code := List.mem_map_of_mem ho
    rw [n3] at this
    rcases List.mem_cons.mp this with h | h
    · rw [h]; decide
    · obtain ⟨i, hi, h⟩ := List.mem_map.mp h
      have := List.mem_range.mp hi
      rw [← h]
      show 0 ≤ (i : Int) ∧ (i : Int) < _
      omega
  obtain ⟨x, x1, x2, x3⟩ := hk 3 (by omega) ("10.0.0.8", 3610)
  obtain ⟨y, y1, y2, y3⟩ := hk 1 (by omega) ("10.0.0.9", 3610)
  exact ⟨c, ops, x, y, h1, h2, x1, y1, by simp [x2, y2], x3, by simp⟩

end Uecho
