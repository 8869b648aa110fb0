/- C149: what a controller shows of a node is there. -/
import Verif.Lemmas.Truth
import Verif.Props.EndToEnd
import Verif.Props.Std
import Verif.Lemmas.Several

namespace Uecho
open Spec

/-- C149 (what holds): on a network of machines that run this library and whose programs are sincere, every object a controller lists for a node is an object of that node, whatever the
network loses, delays, repeats and reorders, whatever requests and responses are exchanged, whatever objects are added when. Missing: `C149_reading_false`, which is why the only
property with code 0xD5 or 0xD6 that may be read first is that of the node profile. -/
theorem C149_exists_partial {ord : List Int → List Int} (hord : ValidOrder ord) (W : String → Option Site) (hW : ∀ ip s, W ip = some s → s.Sincere ord)
    {c : Ctl} {ops : List CtlOp} (h : CtlReach ord c ops) (hg : ∀ m ∈ heard ops, Genuine ord W m) :
    ∀ r ∈ c.nodes, ∃ s, W (ipOf r) = some s ∧ ∀ k ∈ r.node.objectList.map Obj.code, k ∈ (s.node ord).objs.map Obj.code := by
  intro r hr
  obtain ⟨hnd, h1, h2⟩ := C59_nodes hord h
  cases hl : latest (heard ops) (ipOf r) with
  | none => exact absurd rfl (h1 _ hl r hr)
  | some x =>
    obtain ⟨a, l⟩ := x
    obtain ⟨r', hr', e1, e2, -, e3⟩ := h2 _ a l hl
    have hi : ipOf r' = ipOf r := by rw [← e2]; unfold ipOf; rw [e1]
    have : r' = r := List.inj_on_of_nodup_map hnd hr' hr hi
    subst this
    obtain ⟨m, hm, m1, m2, m3⟩ := latest_claimed hl
    obtain ⟨b, s, x, g1, g2, g3, g4⟩ := hg m hm
    rw [m1] at g1
    injection g1 with g1
    subst g1
    rw [m2] at g2
    refine ⟨s, g2, ?_⟩
    have ht := site_truthful hord s (hW _ s g2)
    intro k hk
    rw [e3] at hk
    rcases (mem_addCodes _ _ _).mp hk with hk | hk
    · rw [List.mem_singleton.mp hk]
      have := Dict.mem_of_get? _ _ _ ht.own
      show (0x0EF001 : Int) ∈ codesOf _
      rw [codesOf_keys ht.inv]
      exact List.mem_map_of_mem (f := Prod.fst) this
    · rw [← m3] at hk
      exact ht.log x g3 _ m g4 k hk

/-- What is asked is the same every time. -/
theorem asked_same {w : World} {ca da : Addr} {dest : PyDest} {c : Ctl} {n : LocalNode} {m : Msg} {c1 c2 : Ctl} {n1 n2 : LocalNode} {d1 d2 : Bytes}
    (h1 : Asked w ca da dest c n m c1 n1 d1) (h2 : Asked w ca da dest c n m c2 n2 d2) : c1 = c2 ∧ n1 = n2 ∧ d1 = d2 := by
  obtain ⟨i, j, q, a1, a2, a3, a4⟩ := h1
  obtain ⟨i', j', q', b1, b2, b3, b4⟩ := h2
  rw [a1] at b1
  obtain rfl : c1 = c2 := (Prod.mk.inj b1).1
  rw [a2] at b2
  have b2 := List.append_cancel_left b2
  simp only [List.cons.injEq, Prod.mk.injEq, Sent.mk.injEq, and_true, true_and] at b2
  obtain rfl : q = q' := b2.1.2
  rw [a3] at b3
  obtain rfl : n1 = n2 := (Prod.mk.inj b3).1
  rw [a4] at b4
  have b4 := List.append_cancel_left b4
  simp only [List.cons.injEq, Prod.mk.injEq, Sent.mk.injEq, and_true, true_and] at b4
  exact ⟨rfl, rfl, b4.1.2⟩

/-- C149 (violated): reading a property with the code of an instance list of any object makes its value the controller's list of the objects of that node. -/
theorem C149_reading_false {ord : List Int → List Int} (hord : ValidOrder ord) {c : Ctl} {n : LocalNode} (hc : Connected ord c n)
    (w : World) (hw : w.Works) (ca da : Addr) (dest : PyDest) (hd : Ctl.toAddr dest = some da) (hf : Found c da.1)
    (o : Obj) (hcode : 0 ≤ o.code ∧ o.code < 2 ^ 24) (ho : n.getObject (.int o.code) = some o) (hwf : WellFormed o) (hh : o.handler = .self_) (hq : ∀ m, Quiet w.env o m)
    (k : Int) (hk : k = 0xD5 ∨ k = 0xD6) (p : OProp) (hp : lookup o.props k = some p) (hr : CanRead p) (b : UInt8) (rest : Bytes)
    (hdata : p.data = b :: rest) (hlen : 3 * b.toNat ≤ rest.length ∧ rest.length < 255) :
    ∃ c' n' r, Exchange ord w ca da dest c n { ReadRequest o.code with props := [{ code := k }] } c' n' r ∧ r.props = [{ code := k, data := b :: rest }] ∧
      (∀ j, n'.getObject (.int j) = n.getObject (.int j)) ∧
      ∃ x ∈ c'.nodes, x.node.address = some da ∧ x.node.objectList.map Obj.code = addCodes [0x0EF001] (listedCodes b.toNat rest) := by
  have hcur : currentData o [{ code := k }] = [{ code := k, data := b :: rest }] := by
    unfold currentData
    simp only [List.map_cons, List.map_nil, hp, Option.map_some, Option.getD_some, hdata]
  have hlist : ∀ m : Msg, m.props = [{ code := k, data := b :: rest }] → instanceListOf m = .codes (listedCodes b.toNat rest) := by
    intro m e
    unfold instanceListOf
    rw [e]
    simp only []
    rw [if_pos hk, if_neg (by omega)]
  have kok : 0 ≤ k ∧ k < 256 := by rcases hk with rfl | rfl <;> decide
  have fit : ∀ (e : Int) (d : Bytes), (e = 0x62 ∨ e = 0x72) → d.length ≤ 255 → FitsDatagram { esv := e, props := [{ code := k, data := d }] } := by
    intro e d he hd
    have h2 : ¬ TwoSections e := by unfold TwoSections; omega
    refine ⟨?_, ?_⟩
    · unfold Encodable
      simp only [if_neg h2]
      refine ⟨by omega, by simp, ?_⟩
      intro q hq
      rw [List.mem_singleton.mp hq]
      unfold PropOk
      simp only []
      omega
    · rw [encode_length]
      unfold encBody
      simp only [if_neg h2]
      unfold encSection encItems encItem
      simp only [List.flatMap_cons, List.flatMap_nil, List.length_cons, List.append_nil]
      omega
  have hm := fit 0x62 [] (Or.inl rfl) (by simp)
  have hres := fit 0x72 (b :: rest) (Or.inr rfl) (by simp only [List.length_cons]; omega)
  have hkr : ∀ i ∈ [({ code := k } : PProp)], ∃ p, lookup o.props i.code = some p ∧ CanRead p := by
    intro i hi
    rw [List.mem_singleton.mp hi]
    exact ⟨p, hp, hr⟩
  obtain ⟨c', n', t, ⟨c1, d, e1, e2, e3⟩, -, -, -, hsame⟩ := C68_read hord hc w hw ca da dest hd o hcode ho hwf hh hq [{ code := k }] 0 (by decide) hkr
    hm (by rw [hcur]; exact hres) hf (by rw [hcur, hlist _ rfl]; intro h; cases h)
  have hm' : FitsDatagram { ReadRequest o.code with tid := 0, props := [{ code := k }] } := by
    obtain ⟨h1, h2⟩ := hm
    refine ⟨?_, ?_⟩
    · unfold Encodable at h1 ⊢; exact h1
    · rw [encode_length] at h2 ⊢; exact h2
  obtain ⟨c2, n2, d2, t2, q2, a1, -, hback, -, -, -, -, ⟨ops, hpost⟩, -, -⟩ :=
    asked hord hc w hw ca da dest hd { ReadRequest o.code with tid := 0, props := [{ code := k }] } hm' (show (0:Int) ≤ 0 ∧ (0:Int) ≤ 65535 by decide)
      (show ¬ TwoSections 0x62 by decide) hcode o ho o 0x72 (by decide) (currentData o [{ code := k }])
      (by
        intro t req
        obtain ⟨k1, k2⟩ := read_known w.env o req hwf hh (hq _) rfl ⟨rfl, rfl⟩ hkr
        rw [currentData_eq] at k2
        exact ⟨k1, k2⟩) (by rw [hcur]; exact hres)
  obtain ⟨rfl, rfl, rfl⟩ := asked_same e1 a1
  refine ⟨c', n', _, ⟨c1, d, e1, e2, e3⟩, hcur, hsame, ?_⟩
  obtain ⟨r1, -, r3, -⟩ := received_decoded hback
  generalize hrdef : ({ tid := t2, seoj := (ReadRequest o.code).deoj, deoj := 0x0EF001, esv := 0x72, props := currentData o [{ code := k }], fromAddr := some da } : Msg) = r at hback r1 r3
  have hrp : r.props = [{ code := k, data := b :: rest }] := by rw [← hrdef]; exact hcur
  have hann : announced r = some (da, listedCodes b.toNat rest) := by
    unfold announced
    rw [hlist r hrp, r3, if_pos (by rw [← hrdef]; exact ⟨Or.inl rfl, rfl⟩)]
  rw [recvOne_ok _ c1 _ da r hback] at e2
  have hrun : CtlOp.run ord c1 (.receive w.cuser w.cenv w.cnet r) = c' := by
    show (c1.messageReceived ord w.cuser w.cenv w.cnet r).1 = c'
    unfold Ctl.deliver at e2
    generalize c1.messageReceived ord w.cuser w.cenv w.cnet r = q at e2
    rcases q with ⟨c3, x | x⟩
    · exact (Prod.mk.inj e2).1
    · exact (Prod.mk.inj e2).1
  have hreach := ctl_snoc hpost (.receive w.cuser w.cenv w.cnet r) ⟨⟨r1, by rw [r3]; rfl⟩, hw.calm, hw.cstable⟩
  rw [hrun] at hreach
  have hlat : latest (heard (ops ++ [.receive w.cuser w.cenv w.cnet r])) da.1 = some (da, listedCodes b.toNat rest) := by
    rw [heard_append, show heard [CtlOp.receive w.cuser w.cenv w.cnet r] = [r] from rfl, latest_append, hann]
    simp only []
    rw [if_pos trivial]
  obtain ⟨x, x1, x2, -, -, x3⟩ := (C59_nodes hord hreach).2.2 _ _ _ hlat
  exact ⟨x, x1, x2, x3⟩

/-- A storage battery made by the library, with a reading of its meter. -/
theorem battery {ord : List Int → List Int} (hord : ValidOrder ord) (k : Int) (hk : k = 0xD5 ∨ k = 0xD6) (data : Bytes) :
    ∃ o, StdObj.new ord stdObjects (.int 0x027D01) = (o, .ok true) ∧ (o.setPropertyData k data).1.code = 0x027D01 ∧ WellFormed (o.setPropertyData k data).1 ∧
      (o.setPropertyData k data).1.handler = .self_ ∧ (o.setPropertyData k data).1.observers = [] ∧
      ∃ p, lookup (o.setPropertyData k data).1.props k = some p ∧ CanRead p ∧ p.data = data := by
  have hs := dev_shape hord 0x027D01 0x02 0x7D
  have hn := dev_eq hord (.int 0x027D01) 0x027D01 rfl
  rw [show ((0x027D01 : Int) / 65536 % 256) = 0x02 from rfl, show ((0x027D01 : Int) / 256 % 256) = 0x7D from rfl] at hn
  simp only [] at hs
  rw [← hn] at hs
  obtain ⟨-, h2, h3, h4, h5, h6, -, -, h8, -⟩ := hs
  clear hn
  generalize StdObj.new ord stdObjects (.int 0x027D01) = q at *
  obtain ⟨o, e⟩ := q
  simp only [] at h2 h3 h4 h5 h6 h8
  refine ⟨o, by rw [h2], ?_⟩
  have hsk : skeleton (o.setPropertyData k data).1 = skeleton o := by
    rw [setPropertyData_eq o k data h6]
    exact skeleton_afterWrites _ _
  have hp : ∃ p, deviceProp 0x02 0x7D k = some p ∧ CanRead p := by
    have : (deviceProp 0x02 0x7D 0xD5).any (fun p => decide (CanRead p)) = true ∧ (deviceProp 0x02 0x7D 0xD6).any (fun p => decide (CanRead p)) = true := by decide +kernel
    have h : (deviceProp 0x02 0x7D k).any (fun p => decide (CanRead p)) = true := by rcases hk with rfl | rfl <;> simp [this]
    obtain ⟨p, h1, h2⟩ := (Option.any_eq_true _ _).mp h
    exact ⟨p, h1, of_decide_eq_true h2⟩
  obtain ⟨p, p1, p2⟩ := hp
  refine ⟨(set_code_same o k data).trans h3, wf_of_skeleton hsk h6, (handler_of_skeleton hsk).trans h4, ?_, { p with data := data }, ?_, p2, rfl⟩
  · have := congrArg Obj.observers hsk
    exact this.trans h5
  · rw [set_lookup, h8 k (by omega) (by omega) (by omega), p1, Option.map_some, if_pos rfl]

/-- A started device with one object and nothing else. -/
theorem dev_only {ord : List Int → List Int} (hord : ValidOrder ord) (o : Obj) (hne : o.code ≠ 0x0EF001) : ∃ n, Reachable ord n ∧ n.controller = false ∧
    n.getObject (.int o.code) = some o ∧ CanSend n.mgr ∧ codesOf n = [0x0EF001, o.code] := by
  obtain ⟨n0, h0, hinv, hob, -, hc0, -⟩ := localNode_new hord ⟨[], 0, 0⟩ false
  obtain ⟨-, hi, h3, -, h5, -⟩ := addObject_inv hord n0 o hinv
  obtain ⟨g, hg, hw, -⟩ := ok_start (n0.addObject ord o).1
  refine ⟨_, ⟨⟨[], 0, 0⟩, false, [.add o, .start okNet none], ?_, rfl⟩, ?_⟩
  · intro op hop
    rcases List.mem_cons.mp hop with rfl | hop
    · trivial
    · rw [List.mem_singleton.mp hop]; trivial
  have : runOps ord (LocalNode.new ord ⟨[], 0, 0⟩ false).1 [.add o, .start okNet none] =
      { (n0.addObject ord o).1 with mgr := g, node := { (n0.addObject ord o).1.node with address := some ("10.0.0.2", 3610) } } := by
    rw [h0]
    show ((n0.addObject ord o).1.start okNet none).1 = _
    rw [hg]
  rw [this]
  refine ⟨h5.trans hc0, ?_, hw, ?_⟩
  · unfold LocalNode.getObject Node.getObject
    simp only []
    rw [h3]
    show Option.map _ (Dict.get? (Dict.set n0.node.objects o.code (Slot.user o)) o.code) = _
    rw [Dict.get?_set, if_pos rfl]
    rfl
  · show codesOf (n0.addObject ord o).1 = _
    rw [codesOf_keys hi, h3, hob]
    rw [Dict.keys_set]
    simp [Dict.keys, hne]

/-- C149 (violated): a storage battery (0x027D01) that the library made, the only object of a node, has a meter (property 0xD6) that shows 0x01029101. A controller that reads the meter
gets the value, and from then on it lists a light (0x029101) for the node, which has none, and no battery, which it has. -/
theorem C149_phantom_false {ord : List Int → List Int} (hord : ValidOrder ord) :
    ∃ o c n c' n' r, StdObj.new ord stdObjects (.int 0x027D01) = (o, .ok true) ∧ Connected ord c n ∧ codesOf n = [0x0EF001, 0x027D01] ∧
      n.getObject (.int 0x027D01) = some (o.setPropertyData 0xD6 [1, 2, 0x91, 1]).1 ∧
      Exchange ord exWorld ("10.0.0.2", 3610) ("10.0.0.9", 3610) (.str "10.0.0.9") c n { ReadRequest 0x027D01 with props := [{ code := 0xD6 }] } c' n' r ∧
      r.props = [{ code := 0xD6, data := [1, 2, 0x91, 1] }] ∧ (∀ j, n'.getObject (.int j) = n.getObject (.int j)) ∧
      ∃ x ∈ c'.nodes, x.node.address = some ("10.0.0.9", 3610) ∧ x.node.objectList.map Obj.code = [0x0EF001, 0x029101] := by
  obtain ⟨-, c, -, ops, -, -, -, h4, h5, h6⟩ := ctl_ready hord
  obtain ⟨o, b0, b1, b2, b3, b4, p, b5, b6, b7⟩ := battery hord 0xD6 (Or.inr rfl) [1, 2, 0x91, 1]
  obtain ⟨n, d1, d2, d3, d4, d5⟩ := dev_only hord (o.setPropertyData 0xD6 [1, 2, 0x91, 1]).1 (by rw [b1]; decide)
  have hc : Connected ord c n := ⟨⟨_, h4⟩, h5, d1, d2, d4⟩
  obtain ⟨c', n', r, a1, a2, a3, x, a4, a5, a6⟩ := C149_reading_false hord hc exWorld exWorld_works ("10.0.0.2", 3610) ("10.0.0.9", 3610) (.str "10.0.0.9") rfl h6
    _ (by rw [b1]; decide) d3 b2 b3 (by intro m y hy; rw [b4] at hy; cases hy) 0xD6 (Or.inr rfl) p b5 b6 1 [2, 0x91, 1] b7 (by decide)
  rw [b1] at a1 d3 d5
  exact ⟨o, c, n, c', n', r, b0, hc, d5, d3, a1, a2, a3, x, a4, a5, a6.trans (by decide +kernel)⟩

/-- C149 (violated): the voltage (0xD5) of that battery is 230 V; who has read it does not see the battery any more. -/
theorem C149_erased_false {ord : List Int → List Int} (hord : ValidOrder ord) :
    ∃ o c n c' n' r, StdObj.new ord stdObjects (.int 0x027D01) = (o, .ok true) ∧ Connected ord c n ∧ codesOf n = [0x0EF001, 0x027D01] ∧
      n.getObject (.int 0x027D01) = some (o.setPropertyData 0xD5 [0, 230]).1 ∧
      Exchange ord exWorld ("10.0.0.2", 3610) ("10.0.0.9", 3610) (.str "10.0.0.9") c n { ReadRequest 0x027D01 with props := [{ code := 0xD5 }] } c' n' r ∧
      r.props = [{ code := 0xD5, data := [0, 230] }] ∧ (∀ j, n'.getObject (.int j) = n.getObject (.int j)) ∧
      ∃ x ∈ c'.nodes, x.node.address = some ("10.0.0.9", 3610) ∧ x.node.objectList.map Obj.code = [0x0EF001] := by
  obtain ⟨-, c, -, ops, -, -, -, h4, h5, h6⟩ := ctl_ready hord
  obtain ⟨o, b0, b1, b2, b3, b4, p, b5, b6, b7⟩ := battery hord 0xD5 (Or.inl rfl) [0, 230]
  obtain ⟨n, d1, d2, d3, d4, d5⟩ := dev_only hord (o.setPropertyData 0xD5 [0, 230]).1 (by rw [b1]; decide)
  have hc : Connected ord c n := ⟨⟨_, h4⟩, h5, d1, d2, d4⟩
  obtain ⟨c', n', r, a1, a2, a3, x, a4, a5, a6⟩ := C149_reading_false hord hc exWorld exWorld_works ("10.0.0.2", 3610) ("10.0.0.9", 3610) (.str "10.0.0.9") rfl h6
    _ (by rw [b1]; decide) d3 b2 b3 (by intro m y hy; rw [b4] at hy; cases hy) 0xD5 (Or.inl rfl) p b5 b6 0 [230] b7 (by decide)
  rw [b1] at a1 d3 d5
  exact ⟨o, c, n, c', n', r, b0, hc, d5, d3, a1, a2, a3, x, a4, a5, a6.trans (by decide +kernel)⟩

/-! ### A case of `C149_exists_partial` -/

/-- A device with a light that has answered a search. -/
def exTrueSite : Site := .device ⟨[], 0, 0⟩ [.add exObj, .start okNet none,
  .receive exEnv okNet { tid := 7, seoj := 0x0EF001, deoj := 0x0EF001, esv := 0x62, props := [{ code := 0xD6 }], fromAddr := some ("10.0.0.2", 3610) }]

/-- What it answered, as it arrives at whoever gets it. -/
def exTrueAnswer : Msg := { tid := 7, seoj := 0x0EF001, deoj := 0x0EF001, esv := 0x72, props := [{ code := 0xD6, data := [1, 2, 0x91, 1] }], fromAddr := some ("10.0.0.9", 3610) }

example : ∃ (W : String → Option Site) (c : Ctl) (ops : List CtlOp), (∀ ip s, W ip = some s → s.Sincere List.dedup) ∧ CtlReach List.dedup c ops ∧
    (∀ m ∈ heard ops, Genuine List.dedup W m) ∧ ∃ r ∈ c.nodes, r.node.objectList.map Obj.code = [0x0EF001, 0x029101] := by
  have hord : ValidOrder List.dedup := fun l => ⟨l.nodup_dedup, fun _ => List.mem_dedup⟩
  have hlog : ((exTrueSite.node List.dedup).mgr.log.any fun x => decide (x.1.bytes = encode { exTrueAnswer with fromAddr := none })) = true := by decide +kernel
  have hreach : CtlReach List.dedup (runCtl List.dedup (Ctl.new List.dedup ⟨[], 0, 0⟩).1 [.receive exEnv calmEnv okNet exTrueAnswer]) [.receive exEnv calmEnv okNet exTrueAnswer] :=
    ⟨⟨[], 0, 0⟩, by intro op hop; rw [List.mem_singleton.mp hop]; exact ⟨by unfold Delivered; decide, calmEnv_calm, exEnv_stable⟩, rfl⟩
  refine ⟨fun ip => if ip = "10.0.0.9" then some exTrueSite else none, _, _, ?_, hreach, ?_, ?_⟩
  · intro ip s h
    simp only [] at h
    split at h
    · injection h with h
      subst h
      refine ⟨?_, ?_⟩
      · intro op hop
        simp only [List.mem_cons, List.not_mem_nil, or_false] at hop
        rcases hop with rfl | rfl | rfl
        · trivial
        · trivial
        · exact exEnv_stable
      · exact ⟨by show exObj.code ≠ _ ∧ _; decide, trivial, fun _ => rfl, trivial⟩
    · cases h
  · intro m hm
    rw [List.mem_singleton.mp hm]
    obtain ⟨x, hx, he⟩ := List.any_eq_true.mp hlog
    refine ⟨("10.0.0.9", 3610), exTrueSite, x, rfl, by simp, hx, ?_⟩
    rw [of_decide_eq_true he]
    exact decodes_encode { exTrueAnswer with fromAddr := none } (by decide) (by decide +kernel) ("10.0.0.9", 3610)
  · obtain ⟨r, h1, -, -, -, h2⟩ := (C59_nodes hord hreach).2.2 "10.0.0.9" ("10.0.0.9", 3610) [0x029101] (by decide +kernel)
    exact ⟨r, h1, h2⟩

end Uecho
