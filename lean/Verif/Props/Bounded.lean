/- C133: what peers can make a node remember. -/
import Verif.Lemmas.Bounded

namespace Uecho
open Spec

/-- C133. Whatever datagrams a node gets: an object with the default handler has the properties it had, and each holds the data it held or at most 255 bytes. -/
theorem C133_device {ord : List Int → List Int} (hord : ValidOrder ord) {n : LocalNode} (hr : Reachable ord n) (ps : List Parcel) (hp : ∀ p ∈ ps, CodeStable p.env)
    (c : Int) (o : Obj) (ho : n.getObject (.int c) = some o) (hw : WellFormed o) (hh : o.handler = .self_) :
    ∃ o', (bombarded n ps).getObject (.int c) = some o' ∧ o'.props.map Prod.fst = o.props.map Prod.fst ∧
      ∀ pc p', lookup o'.props pc = some p' → ∃ p, lookup o.props pc = some p ∧ (p'.data = p.data ∨ p'.data.length ≤ 255) := by
  obtain ⟨o', h1, h2, h3, h4⟩ := bombarded_object hord hr ps hp (fun o' => skeleton o' = skeleton o ∧ o'.props.map Prod.fst = o.props.map Prod.fst ∧
      ∀ pc p', lookup o'.props pc = some p' → ∃ p, lookup o.props pc = some p ∧ (p'.data = p.data ∨ p'.data.length ≤ 255)) (by
    intro p _ o1 m ⟨w, hdw, hcp⟩ ⟨i1, i2, i3⟩
    have hm : m = received w := by
      obtain ⟨x, h1, -, -, -, h2⟩ := (C10_copy w).1 (received_decoded hdw).1
      rw [h1] at hcp
      injection hcp with hcp
      rw [← hcp, h2]
      rfl
    have hs := afterHistory_eq o1 [(p.env, m)] (wf_of_skeleton i1 hw) ((handler_of_skeleton i1).trans hh)
    have e : afterHistory o1 [(p.env, m)] = (o1.messageReceived p.env m).obj := rfl
    rw [e] at hs
    rw [hs]
    refine ⟨(skeleton_afterWrites _ _).trans i1, (keys_afterWrites _ _).trans i2, ?_⟩
    intro pc p' hp'
    rw [lookup_afterWrites] at hp'
    obtain ⟨q, hq, rfl⟩ := Option.map_eq_some_iff.mp hp'
    obtain ⟨p0, hp0, hd⟩ := i3 pc q hq
    refine ⟨p0, hp0, ?_⟩
    simp only []
    cases hlf : lastFor (acceptedWrites o1 (attrPolicy o1) (historyWrites o1 [(p.env, m)])) pc with
    | none => simpa using hd
    | some d =>
      right
      simp only [Option.getD_some]
      refine lastFor_within _ pc 255 ?_ d hlf
      intro x hx
      have hx := (List.mem_filter.mp hx).1
      obtain ⟨hb1, hb2⟩ := received_within w (received_decoded hdw).1
      rw [← hm] at hb1 hb2
      unfold historyWrites at hx
      simp only [List.flatMap_cons, List.flatMap_nil, List.append_nil] at hx
      split at hx
      · unfold writeItems at hx
        split at hx
        · exact hb1 x hx
        · split at hx
          · exact hb2 x hx
          · cases hx
      · cases hx) c o ho ⟨rfl, rfl, fun pc p h => ⟨p, h, Or.inl rfl⟩⟩
  exact ⟨o', h1, h3, h4⟩

/-- The addresses messages came from, each once. -/
def sources (ms : List Msg) : List String := (ms.filterMap fun m => m.fromAddr.map Prod.fst).dedup

theorem latest_source (ms : List Msg) (ip : String) (x : Addr × List Int) (h : latest ms ip = some x) : ∃ m ∈ ms, announced m = some x ∧ x.1.1 = ip ∧ m.fromAddr = some x.1 := by
  unfold latest at h
  obtain ⟨l', hx⟩ := List.getLast?_eq_some_iff.mp h
  have hm : x ∈ (ms.filterMap announced).filter (fun x => decide (x.1.1 = ip)) := by rw [hx]; simp
  obtain ⟨h1, h2⟩ := List.mem_filter.mp hm
  obtain ⟨m, hm, ha⟩ := List.mem_filterMap.mp h1
  refine ⟨m, hm, ha, of_decide_eq_true h2, ?_⟩
  unfold announced at ha
  split at ha
  · split at ha
    · rename_i a l hf _
      injection ha with ha
      rw [hf, ← ha]
    · cases ha
  · cases ha

theorem heard_encodable (ops : List CtlOp) (ha : ∀ op ∈ ops, CtlOp.Allowed op) : ∀ m ∈ heard ops, Encodable m := by
  induction ops with
  | nil => intro m hm; cases hm
  | cons op ops ih =>
    have ih := ih fun op h => ha op (List.mem_cons_of_mem _ h)
    have hop := ha op (by simp)
    cases op with
    | receive env cenv net m0 =>
      intro m hm
      rcases List.mem_cons.mp hm with rfl | hm
      · exact hop.1.1
      · exact ih m hm
    | _ => exact ih

/-- C133. Whatever a controller has heard: it holds at most one node for each address messages came from, each with at most 85 objects, each of them with at most 128 properties of
at most 255 bytes. -/
theorem C133_controller {ord : List Int → List Int} (hord : ValidOrder ord) {c : Ctl} {ops : List CtlOp} (h : CtlReach ord c ops) :
    c.nodes.length ≤ (sources (heard ops)).length ∧
    ∀ r ∈ c.nodes, r.node.objectList.length ≤ 85 ∧ ∀ o ∈ r.node.objectList, o.props.length ≤ 128 ∧ ∀ kp ∈ o.props, kp.2.data.length ≤ 255 := by
  obtain ⟨hn, hnone, hsome⟩ := C59_nodes hord h
  have hkn := reach_knows hord h
  have hlat : ∀ r ∈ c.nodes, ∃ x, latest (heard ops) (ipOf r) = some x := by
    intro r hr
    cases hl : latest (heard ops) (ipOf r) with
    | none => exact absurd rfl (hnone _ hl r hr)
    | some x => exact ⟨x, rfl⟩
  constructor
  · have hs : c.nodes.map ipOf ⊆ sources (heard ops) := by
      intro ip hip
      obtain ⟨r, hr, rfl⟩ := List.mem_map.mp hip
      obtain ⟨x, hx⟩ := hlat r hr
      obtain ⟨m, hm, -, he, hf⟩ := latest_source _ _ _ hx
      refine List.mem_dedup.mpr (List.mem_filterMap.mpr ⟨m, hm, ?_⟩)
      rw [hf, Option.map_some, he]
    have := (List.subperm_of_subset hn hs).length_le
    rwa [List.length_map] at this
  · intro r hr
    obtain ⟨x, hx⟩ := hlat r hr
    obtain ⟨-, hg, -⟩ := found_node hord h r hr
    have hri := hkn.1.nodes _ _ hg
    have hip : ipOf r = r.node.ip := by
      obtain ⟨p, hp⟩ := hri.addr
      unfold ipOf; rw [hp]
    have hk := hkn.2 r.node.ip
    rw [hg, ← hip, hx, Option.map_some, Option.map_some] at hk
    injection hk with hk
    injection hk with hk1 hk2
    constructor
    · obtain ⟨m, hm, ha, -, -⟩ := latest_source _ _ _ hx
      obtain ⟨rnd, hall, -⟩ := h
      have h84 := announced_length m (heard_encodable ops hall m hm) x.1 x.2 ha
      have hadd := addCodes_length x.2 [0x0EF001]
      rw [← hk2] at hadd
      have e1 : r.node.objectList.length = (Dict.keys r.node.objects).length := by
        unfold Node.objectList Dict.values Dict.keys; simp
      rw [e1]
      simp only [List.length_cons, List.length_nil] at hadd
      omega
    · intro o ho
      obtain ⟨ko, hko, rfl⟩ := List.mem_map.mp ho
      have hgo := Dict.get?_of_mem r.node.objects ko.1 ko.2 hri.keys hko
      have hwf := (hri.objs _ _ hgo).1
      have hsk := found_standard hord h _ _ hg _ _ hgo
      constructor
      · have hkeys : ko.2.props.map Prod.fst = (devObj ord ko.1).props.map Prod.fst := by
          have := congrArg (fun o : Obj => o.props.map Prod.fst) hsk
          simpa [skeleton, List.map_map, Function.comp_def] using this
        have := codes_length (ko.2.props.map Prod.fst) hwf.1 (by
          rw [hkeys]
          intro pc hpc
          obtain ⟨kp, hkp, rfl⟩ := List.mem_map.mp hpc
          exact (devObj_within hord ko.1).2 kp hkp)
        rwa [List.length_map] at this
      · intro kp hkp
        refine found_modest hord h _ _ hg _ _ hgo kp.1 kp.2 ?_
        rw [lookup_eq]
        exact Dict.get?_of_mem _ _ _ hwf.1 hkp

/-- C133. Nothing is ever forgotten: a node found at some point is found forever after, whatever is heard or done later, be it that the controller is stopped. -/
theorem C133_never_forgets {ord : List Int → List Int} (hord : ValidOrder ord) {c c' : Ctl} {ops ops' : List CtlOp} (h : CtlReach ord c ops) (h' : CtlReach ord c' (ops ++ ops')) :
    c.nodes.map ipOf ⊆ c'.nodes.map ipOf := by
  intro ip hip
  obtain ⟨r, hr, rfl⟩ := List.mem_map.mp hip
  obtain ⟨-, hnone, -⟩ := C59_nodes hord h
  obtain ⟨-, -, hsome⟩ := C59_nodes hord h'
  cases hl : latest (heard ops) (ipOf r) with
  | none => exact absurd rfl (hnone _ hl r hr)
  | some x =>
    have hl' : ∃ y, latest (heard (ops ++ ops')) (ipOf r) = some y := by
      rw [heard_append]
      generalize heard ops' = ms
      induction ms using List.reverseRecOn with
      | nil => exact ⟨x, by rw [List.append_nil]; exact hl⟩
      | append_singleton ms m ih =>
        rw [← List.append_assoc, latest_append]
        split
        · exact ih
        · split
          · exact ⟨_, rfl⟩
          · exact ih
    obtain ⟨⟨a, l⟩, hy⟩ := hl'
    obtain ⟨r', hr', ha, he, -⟩ := hsome _ a l hy
    refine List.mem_map.mpr ⟨r', hr', ?_⟩
    have : ipOf r' = a.1 := by unfold ipOf; rw [ha]
    rw [this, he]

/-- C133. So the number of nodes held is bounded by nothing but the number of addresses: one datagram from each of any number of addresses makes a controller hold that many nodes. -/
theorem C133_grows {ord : List Int → List Int} (hord : ValidOrder ord) (env : Env) (hs : CodeStable env) (cenv : CEnv) (hc : Calm cenv) (net : Net) (rnd : NodeProfile.Random)
    (ips : List String) (hn : ips.Nodup) :
    ∃ ops c, CtlReach ord c ops ∧ ops.length = ips.length ∧ c.nodes.length = ips.length ∧ ∀ ip ∈ ips, ∃ r ∈ c.nodes, r.node.ip = ip := by
  let msg : String → Msg := fun ip => { esv := 0x73, deoj := 0x0EF001, fromAddr := some (ip, 3610), props := [{ code := 0xD5, data := [0] }] }
  have hmsg : ∀ ip, Delivered (msg ip) := fun ip => ⟨⟨by simp [msg], by simp [msg, TwoSections, SectionOk, PropOk]⟩, rfl⟩
  have hann : ∀ ip, announced (msg ip) = some ((ip, 3610), []) := by
    intro ip
    unfold announced
    rw [if_pos ⟨Or.inr rfl, (by decide : (0x0EF001 : Int) % 2 ^ 24 = 0x0EF001)⟩]
    rfl
  have hreach : CtlReach ord (runCtl ord (Ctl.new ord rnd).1 (ips.map fun ip => .receive env cenv net (msg ip))) (ips.map fun ip => .receive env cenv net (msg ip)) := by
    refine ⟨rnd, ?_, rfl⟩
    intro op hop
    obtain ⟨ip, -, rfl⟩ := List.mem_map.mp hop
    exact ⟨hmsg ip, hc, hs⟩
  refine ⟨_, _, hreach, by simp, ?_⟩
  obtain ⟨hnd, hnone, hsome⟩ := C59_nodes hord hreach
  have hheard : heard (ips.map fun ip => .receive env cenv net (msg ip)) = ips.map msg := by
    clear hnd hnone hsome hreach hn
    induction ips with
    | nil => rfl
    | cons ip ips ih => rw [List.map_cons, List.map_cons, ← ih]; rfl
  have hlat : ∀ ip ∈ ips, latest (ips.map msg) ip = some ((ip, 3610), []) := by
    clear hnd hnone hsome hreach hheard
    intro ip hip
    induction ips using List.reverseRecOn with
    | nil => cases hip
    | append_singleton ips x ih =>
      rw [List.map_append, List.map_singleton, latest_append, hann]
      simp only []
      split
      · rename_i e; rw [show x = ip from e]
      · rename_i e
        refine ih (List.Nodup.of_append_left hn) ?_
        rcases List.mem_append.mp hip with h | h
        · exact h
        · exact absurd (List.mem_singleton.mp h).symm e
  rw [hheard] at hnone hsome
  generalize runCtl ord (Ctl.new ord rnd).1 (ips.map fun ip => .receive env cenv net (msg ip)) = c at hnd hnone hsome hreach
  have hall : ∀ ip ∈ ips, ∃ r ∈ c.nodes, r.node.ip = ip ∧ ipOf r = ip := by
    intro ip hip
    obtain ⟨r, hr, ha, -, -⟩ := hsome ip _ _ (hlat ip hip)
    refine ⟨r, hr, ip_of_address _ _ ha, ?_⟩
    unfold ipOf; rw [ha]
  constructor
  · apply Nat.le_antisymm
    · have := (C133_controller hord hreach).1
      rw [hheard] at this
      refine Nat.le_trans this ?_
      have e : sources (ips.map msg) = ips := by
        unfold sources
        rw [List.filterMap_map]
        have : ((fun m : Msg => m.fromAddr.map Prod.fst) ∘ msg) = some := rfl
        rw [this, List.filterMap_some, hn.dedup]
      rw [e]
    · have hs : ips ⊆ c.nodes.map ipOf := by
        intro ip hip
        obtain ⟨r, hr, -, e⟩ := hall ip hip
        exact List.mem_map.mpr ⟨r, hr, e⟩
      have := (List.subperm_of_subset hn hs).length_le
      rwa [List.length_map] at this
  · intro ip hip
    obtain ⟨r, hr, e, -⟩ := hall ip hip
    exact ⟨r, hr, e⟩

/-! ### Examples -/

/-- `C133_device`: 255 bytes are written to property 0xB0, which held none, and again. -/
example {ord : List Int → List Int} (hord : ValidOrder ord) : ∃ n, Reachable ord n ∧ n.getObject (.int 0x029101) = some exObj ∧ ∃ o',
    (bombarded n (List.replicate 2 ⟨switchEnv, okNet, encode { deoj := 0x029101, esv := 0x60, props := [{ code := 0xB0, data := List.replicate 255 7 }] }, ("10.0.0.2", 3610)⟩)).getObject
      (.int 0x029101) = some o' ∧ ∀ pc p', lookup o'.props pc = some p' → p'.data.length ≤ 255 := by
  obtain ⟨n, hr, -, ho, -⟩ := dev_device hord exObj
  refine ⟨n, hr, ho, ?_⟩
  obtain ⟨o', h1, -, h2⟩ := C133_device hord hr
    (List.replicate 2 ⟨switchEnv, okNet, encode { deoj := 0x029101, esv := 0x60, props := [{ code := 0xB0, data := List.replicate 255 7 }] }, ("10.0.0.2", 3610)⟩)
    (fun p hp => by rw [List.eq_of_mem_replicate hp]; exact switchEnv_stable) 0x029101 exObj ho (by decide) rfl
  refine ⟨o', h1, ?_⟩
  intro pc p' hp'
  obtain ⟨p, hp, e | e⟩ := h2 pc p' hp'
  · rw [e]
    have : ∀ kp ∈ exObj.props, kp.2.data.length ≤ 255 := by decide
    rw [lookup_eq] at hp
    exact this _ (Dict.mem_of_get? _ _ _ hp)
  · exact e

example : Decodes (encode { deoj := 0x029101, esv := 0x60, props := [{ code := 0xB0, data := List.replicate 255 7 }] }) ("10.0.0.2", 3610)
    { deoj := 0x029101, esv := 0x60, props := [{ code := 0xB0, data := List.replicate 255 7 }], fromAddr := some ("10.0.0.2", 3610) } :=
  ⟨{ deoj := 0x029101, esv := 0x60, props := [{ code := 0xB0, data := List.replicate 255 7 }] }, [], by decide +kernel, by decide +kernel, by decide +kernel, rfl⟩

/-- An announcement of 84 instances. -/
def exMany : List CtlOp := [.receive exEnv calmEnv okNet (exList "10.0.0.9" ((List.range 84).map fun (i : Nat) => 0x029101 + (i : Int)))]

/-- `C133_controller`: so many objects there can be. -/
example {ord : List Int → List Int} (hord : ValidOrder ord) : ∃ c, CtlReach ord c exMany ∧ ∃ r ∈ c.nodes, r.node.objectList.length = 85 := by
  have hreach : CtlReach ord (runCtl ord (Ctl.new ord exRandom).1 exMany) exMany := by
    refine ⟨exRandom, ?_, rfl⟩
    intro op hop
    rw [List.mem_singleton.mp hop]
    exact ⟨⟨by decide +kernel, rfl⟩, calmEnv_calm, exEnv_stable⟩
  refine ⟨_, hreach, ?_⟩
  obtain ⟨r, hr, -, -, -, he⟩ := (C59_nodes hord hreach).2.2 "10.0.0.9" ("10.0.0.9", 3610) ((List.range 84).map fun (i : Nat) => 0x029101 + (i : Int)) (by decide +kernel)
  refine ⟨r, hr, ?_⟩
  have := congrArg List.length he
  rw [List.length_map] at this
  rw [this]
  decide +kernel

/-- `C133_never_forgets`, `C133_grows`: addresses there are many. -/
example : CodeStable exEnv ∧ Calm calmEnv ∧ ["10.0.0.1", "10.0.0.2", "192.168.1.77"].Nodup := ⟨exEnv_stable, calmEnv_calm, by decide⟩

end Uecho
