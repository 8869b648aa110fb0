/-
Properties of nodes (node.py, local_node.py, node_profile.py, remote_node.py): C42–C50, C75, C76.
-/
import Verif.Lemmas.Dispatch

namespace Uecho
open Spec

/-! ## C42: the object table -/

/-- A node after a sequence of `add_object` calls. -/
def added (os : List Obj) : Node Obj := os.foldl (fun n o => (n.addObject o).1) {}

theorem added_concat (os : List Obj) (o : Obj) : added (os ++ [o]) = ((added os).addObject o).1 := by
  unfold added; rw [List.foldl_append]; rfl

theorem added_get (os : List Obj) (c : Int) : Dict.get? (added os).objects c = (os.filter (fun o => decide (o.code = c))).getLast? := by
  induction os using List.reverseRecOn with
  | nil => rfl
  | append_singleton os o ih =>
    rw [added_concat]
    unfold Node.addObject Node.put
    simp only []
    rw [Dict.get?_set, ih, List.filter_append]
    by_cases h : o.code = c <;> simp [h]

theorem added_keys (os : List Obj) : Dict.keys (added os).objects = addCodes [] (os.map Obj.code) := by
  induction os using List.reverseRecOn with
  | nil => rfl
  | append_singleton os o ih =>
    rw [added_concat]
    unfold Node.addObject Node.put
    simp only []
    rw [Dict.keys_set, ih, List.map_append, addCodes_append]
    rfl

theorem added_own (os : List Obj) : ∀ kv ∈ (added os).objects, kv.2.code = kv.1 := by
  intro kv h
  have hn : (Dict.keys (added os).objects).Nodup := by rw [added_keys]; exact nodup_addCodes _ _ List.nodup_nil
  have h1 := Dict.get?_of_mem _ kv.1 kv.2 hn h
  rw [added_get] at h1
  have := List.mem_of_getLast? h1
  simpa using (List.mem_filter.mp this).2

/-- C42. `get_object` of any valid code is the last object added under it, or None. -/
theorem C42_get_object (os : List Obj) (pc : PyCode) (c : Int) (h : setCode 0 pc = (c, true)) :
    (added os).getObject pc = (os.filter (fun o => decide (o.code = c))).getLast? := by
  unfold Node.getObject
  rw [h]
  exact added_get os c

/-- C42. An int and the corresponding tuple are the same key. -/
theorem C42_int_tuple (os : List Obj) (g c i : Nat) (hg : g < 256) (hc : c < 256) (hi : i < 256) :
    (added os).getObject (.tuple [(g : Int), c, i]) = (added os).getObject (.int (65536 * g + 256 * c + i)) := by
  unfold Node.getObject
  rw [(C32_set_code 0 0 g c i hg hc hi).2.1]
  rfl

/-- C42. `has_object` says whether `get_object` finds something. -/
theorem C42_has_object (os : List Obj) (c : Int) :
    ((added os).hasObject c = true ↔ (added os).getObject (.int c) ≠ none) ∧
    ((added os).hasObject c = true ↔ ∃ o ∈ os, o.code = c) := by
  have h1 : (added os).hasObject c = true ↔ (added os).getObject (.int c) ≠ none := by
    unfold Node.hasObject Node.getObject
    rw [decide_eq_true_iff, ← Dict.get?_isSome_iff, Option.isSome_iff_ne_none]
    rfl
  refine ⟨h1, h1.trans ?_⟩
  rw [C42_get_object os (.int c) c rfl, Ne, List.getLast?_eq_none_iff, List.filter_eq_nil_iff]
  simp

/-- C42. `objects` has the codes that were added, each once, in the order of their first addition. -/
theorem C42_objects (os : List Obj) :
    (added os).objectList.map Obj.code = addCodes [] (os.map Obj.code) ∧
    ((added os).objectList.map Obj.code).Nodup ∧
    ∀ o, o ∈ (added os).objectList ↔ (added os).getObject (.int o.code) = some o := by
  have e : (added os).objectList.map Obj.code = Dict.keys (added os).objects := by
    unfold Node.objectList Dict.values Dict.keys
    rw [List.map_map]
    exact List.map_congr_left (fun kv h => added_own os kv h)
  have hn : (Dict.keys (added os).objects).Nodup := by rw [added_keys]; exact nodup_addCodes _ _ List.nodup_nil
  refine ⟨e.trans (added_keys os), by rw [e]; exact hn, ?_⟩
  intro o
  unfold Node.getObject Node.objectList Dict.values
  constructor
  · intro h
    obtain ⟨kv, h1, rfl⟩ := List.mem_map.mp h
    have := added_own os kv h1
    show Dict.get? _ kv.2.code = _
    rw [this]
    exact Dict.get?_of_mem _ _ _ hn h1
  · intro h
    exact List.mem_map.mpr ⟨_, Dict.mem_of_get? _ _ _ h, rfl⟩

/-- C42. After any calls of `set_address`, good and bad, the address is the last pair given; `ip` is its first part, and the port is always that of the
protocol; a node that was never given a pair has no `ip`, and port 0. A call succeeds iff it is given a pair. -/
theorem C42_address (n : Node Obj) (as : List (Option Addr)) :
    (∀ x, ((as.foldl (fun n a => (n.setAddress a).1) n).setAddress x).2 = x.isSome) ∧
    (as.foldl (fun n a => (n.setAddress a).1) n).address = ((as.filterMap id).getLast?.or n.address) ∧
    (∀ a, (as.filterMap id).getLast? = some a → (as.foldl (fun n a => (n.setAddress a).1) n).ip = a.1 ∧
      (as.foldl (fun n a => (n.setAddress a).1) n).port = 3610) ∧
    (n.address = none → (∀ a ∈ as, a = none) → (as.foldl (fun n a => (n.setAddress a).1) n).ip = "" ∧ (as.foldl (fun n a => (n.setAddress a).1) n).port = 0) ∧
    (as.foldl (fun n a => (n.setAddress a).1) n).objects = n.objects := by
  have key : (as.foldl (fun n a => (n.setAddress a).1) n).address = ((as.filterMap id).getLast?.or n.address) ∧
      (as.foldl (fun n a => (n.setAddress a).1) n).objects = n.objects := by
    induction as using List.reverseRecOn with
    | nil => exact ⟨rfl, rfl⟩
    | append_singleton as a ih =>
      rw [List.foldl_append, List.filterMap_append]
      cases a with
      | none => simpa [Node.setAddress] using ih
      | some a => simpa [Node.setAddress] using ih.2
  refine ⟨fun x => by cases x <;> rfl, key.1, ?_, ?_, key.2⟩
  · intro a ha
    rw [ha] at key
    unfold Node.ip Node.port
    rw [key.1]
    exact ⟨rfl, rfl⟩
  · intro hn has
    have : as.filterMap id = [] := List.filterMap_eq_nil_iff.mpr fun a ha => has a ha
    rw [this, hn] at key
    unfold Node.ip Node.port
    rw [key.1]
    exact ⟨rfl, rfl⟩

example : ([some ("10.0.0.1", 1), none, some ("10.0.0.2", 2), none].foldl (fun n a => (Node.setAddress n a).1) ({} : Node Obj)).ip = "10.0.0.2" := by decide

/-- C42, local nodes: `add_object` succeeds; the table has the profile and every added code, and every
object is found under its own code. -/
theorem C42_local {ord : List Int → List Int} (hord : ValidOrder ord) (rnd : NodeProfile.Random) (ctl : Bool) (ops : List NodeOp)
    (ha : ∀ op ∈ ops, op.Allowed) :
    let n := runOps ord (LocalNode.new ord rnd ctl).1 ops
    n.objs.map Obj.code = addCodes [0x0EF001] (addedCodes ops) ∧
    (∀ c o, n.getObject (.int c) = some o → o.code = c) ∧
    (∀ c, n.getObject (.int c) ≠ none ↔ c = 0x0EF001 ∨ c ∈ addedCodes ops) ∧
    ∀ o, (n.addObject ord o).2 = .ok true ∧ (n.addObject ord o).1.getObject (.int o.code) = some o := by
  intro n
  obtain ⟨n0, h0, hi, ho, -⟩ := localNode_new hord rnd ctl
  have hk := runOps_keys hord ops n0 hi ha
  have hinv := (runOps_inv hord ops n0 hi ha).1
  have hn : n = runOps ord n0 ops := by show runOps ord (LocalNode.new ord rnd ctl).1 ops = _; rw [h0]
  rw [← hn] at hk hinv
  rw [ho] at hk
  change _ = addCodes [0x0EF001] _ at hk
  refine ⟨(objs_codes n hinv.own).trans hk, ?_, ?_, ?_⟩
  · intro c o h
    unfold LocalNode.getObject at h
    obtain ⟨s, h1, rfl⟩ := Option.map_eq_some_iff.mp h
    exact hinv.own _ (Dict.mem_of_get? _ _ _ h1)
  · intro c
    unfold LocalNode.getObject Node.getObject
    show Option.map _ (Dict.get? _ c) ≠ none ↔ _
    rw [Ne, Option.map_eq_none_iff, Dict.get?_eq_none_iff, hk, not_not, mem_addCodes, List.mem_singleton]
  · intro o
    obtain ⟨h1, -, h3, -⟩ := addObject_inv hord n o hinv
    refine ⟨h1, ?_⟩
    unfold LocalNode.getObject Node.getObject
    show Option.map _ (Dict.get? _ o.code) = _
    rw [h3, Dict.get?_set, if_pos rfl]
    rfl

example : (added [{ code := 0x029101 }, { code := 0x0EF001 }, { code := 0x029101, ustate := 7 }]).getObject (.tuple [2, 0x91, 1]) =
    some { code := 0x029101, ustate := 7 } := by decide +kernel
example : (added [{ code := 0x029101 }, { code := 0x0EF001 }, { code := 0x029101, ustate := 7 }]).objectList.map Obj.code =
    [0x029101, 0x0EF001] := by decide +kernel

/-! ## C43, C44: the node describes itself -/

/-- A reachable node with `k` instances, for any `k` up to the code of the profile. -/
theorem reach_many {ord : List Int → List Int} (hord : ValidOrder ord) (rnd : NodeProfile.Random) (k : Nat) (hk : k < 0x0EF001) :
    ∃ n, Reachable ord n ∧ OwnProfile n ∧ n.objs.map Obj.code = 0x0EF001 :: (List.range k).map Int.ofNat ∧
      instancesOf (n.objs.map Obj.code) = (List.range k).map Int.ofNat := by
  let ops : List NodeOp := (List.range k).map (fun i => .add { code := Int.ofNat i })
  have hc : addedCodes ops = (List.range k).map Int.ofNat := by
    show addedCodes ((List.range k).map _) = _
    induction List.range k with
    | nil => rfl
    | cons x l ih => simp only [List.map_cons, addedCodes, ih]
  have ha : ∀ op ∈ ops, op.Allowed := by
    intro op h
    obtain ⟨i, -, rfl⟩ := List.mem_map.mp h
    trivial
  obtain ⟨n0, h0, hi, ho, -⟩ := localNode_new hord rnd false
  have hx : ∀ i ∈ (List.range k).map Int.ofNat, ¬ IsProfileCode i := by
    intro i h
    obtain ⟨j, hj, rfl⟩ := List.mem_map.mp h
    have := List.mem_range.mp hj
    unfold IsProfileCode
    show ¬ ((j : Int) = _ ∨ (j : Int) = _)
    omega
  have hnd : ((List.range k).map Int.ofNat).Nodup :=
    List.Nodup.map (fun _ _ h => Int.ofNat.inj h) List.nodup_range
  have hkeys := runOps_keys hord ops n0 hi ha
  have hinv := (runOps_inv hord ops n0 hi ha).1
  have hcodes : (runOps ord n0 ops).objs.map Obj.code = 0x0EF001 :: (List.range k).map Int.ofNat := by
    rw [objs_codes _ hinv.own, hkeys, hc, ho]
    show addCodes [0x0EF001] _ = _
    rw [addCodes_fresh]
    · rfl
    · rw [List.singleton_append, List.nodup_cons]
      exact ⟨fun h => hx _ h (Or.inl rfl), hnd⟩
  refine ⟨runOps ord n0 ops, ⟨rnd, false, ops, ha, by rw [h0]⟩, ?_, hcodes, ?_⟩
  · apply runOps_ownProfile hord ops n0 hi ha
    · unfold OwnProfile; rw [ho]; rfl
    · rw [hc]; exact fun h => hx _ h (Or.inl rfl)
  · rw [hcodes]
    unfold instancesOf
    rw [List.filter_cons_of_neg (by decide)]
    exact List.filter_eq_self.mpr (fun c h => decide_eq_true (hx c h))

/-- The same, with the node started on a machine with one interface. -/
theorem reach_started {ord : List Int → List Int} (hord : ValidOrder ord) (k : Nat) (hk : k < 0x0EF001) :
    ∃ n, Reachable ord n ∧ OwnProfile n ∧ n.objs.map Obj.code = 0x0EF001 :: (List.range k).map Int.ofNat ∧
      instancesOf (n.objs.map Obj.code) = (List.range k).map Int.ofNat ∧ CanSend n.mgr ∧
      n.node.address = some ("10.0.0.2", 3610) ∧ n.mgr.servers.map Server.ifaddr = ["10.0.0.2", "10.0.0.2"] := by
  obtain ⟨n, ⟨rnd, ctl, ops, ha, rfl⟩, h2, h3, h4⟩ := reach_many hord ⟨[], 0, 0⟩ k hk
  generalize hn : runOps ord (LocalNode.new ord rnd ctl).1 ops = n at *
  have h1 := C53_start_works okNet n.mgr [] (fun _ _ _ => rfl) (fun _ => rfl) (by decide +kernel)
  have h5 := (C53_start_true okNet n.mgr [] h1).1
  have hs : (n.start okNet none).1 = { n with mgr := (n.mgr.start okNet none []).1.addObserver 0, node := { n.node with address := some ("10.0.0.2", 3610) } } := by
    unfold LocalNode.start
    generalize n.mgr.start okNet none [] = q at *
    rcases q with ⟨g, r⟩
    simp only [] at h1 h5
    rw [h1]
    have e1 : g.ifaddr = "10.0.0.2" := by unfold Manager.ifaddr; rw [h5]; decide +kernel
    have e2 : g.port = 3610 := by unfold Manager.port; rw [h5]; decide +kernel
    simp only [e1, e2, Node.setAddress]
  refine ⟨(n.start okNet none).1, ⟨rnd, ctl, ops ++ [.start okNet none], ?_, ?_⟩, ?_⟩
  · intro op h
    rcases List.mem_append.mp h with h | h
    · exact ha op h
    · rw [List.mem_singleton.mp h]; trivial
  · unfold runOps at hn ⊢
    rw [List.foldl_append, hn]
    rfl
  · rw [hs]
    have e : (Manager.addObserver (n.mgr.start okNet none []).1 0).servers =
        [{ kind := .unicast, ifaddr := "10.0.0.2", open_ := true, observers := [0] },
         { kind := .multicast, ifaddr := "10.0.0.2", open_ := true, observers := [0] }] := by
      unfold Manager.addObserver
      simp only []
      rw [h5]
      decide +kernel
    refine ⟨h2, h3, h4, ?_, rfl, ?_⟩
    · unfold CanSend
      simp only []
      rw [e]
      decide
    · simp only []
      rw [e]
      rfl

/-- A three-byte count. -/
theorem count_bytes (k : Nat) (h : k < 256) : beDigits (k : Int) 3 = [0, 0, UInt8.ofNat k] := by
  have e0 : ((k : Int) / 65536 % 256).toNat = 0 := by omega
  have e1 : ((k : Int) / 256 % 256).toNat = 0 := by omega
  have e2 : ((k : Int) % 256).toNat = k := by omega
  unfold beDigits
  simp [List.range_succ, e0, e1, e2]

/-- C43 up to 255 instances, for every node a program can build and use: 0xD3 is their number, 0xD5 and
0xD6 list them in order. -/
theorem C43_instances_partial {ord : List Int → List Int} (hord : ValidOrder ord) {n : LocalNode} (hr : Reachable ord n)
    (hlt : (instancesOf (n.objs.map Obj.code)).length < 256) :
    ∃ l, IsInstanceList l (instancesOf (n.objs.map Obj.code)) ∧
      n.profile.getPropertyData 0xD5 = some l ∧ n.profile.getPropertyData 0xD6 = some l ∧
      n.profile.getPropertyData 0xD3 = some [0, 0, UInt8.ofNat (instancesOf (n.objs.map Obj.code)).length] := by
  have h := (reachable_inv hord hr).desc
  refine ⟨_, ⟨byteOf (instancesOf (n.objs.map Obj.code)).length, ?_, rfl⟩, h.d5, h.d6, ?_⟩
  · have := byteOf_toNat ((instancesOf (n.objs.map Obj.code)).length : Int)
    omega
  · rw [h.d3, count_bytes _ hlt]

/-- C43 for any number of instances: the codes are all listed, in order, and 0xD3 is the number; but the
count byte of the list is the number modulo 256. -/
theorem C43_any_number_partial {ord : List Int → List Int} (hord : ValidOrder ord) {n : LocalNode} (hr : Reachable ord n) :
    let insts := instancesOf (n.objs.map Obj.code)
    n.profile.getPropertyData 0xD3 = some (beDigits insts.length 3) ∧
    ∃ b : UInt8, b.toNat = insts.length % 256 ∧
      n.profile.getPropertyData 0xD5 = some (b :: codeBytes insts) ∧ n.profile.getPropertyData 0xD6 = some (b :: codeBytes insts) := by
  intro insts
  have h := (reachable_inv hord hr).desc
  refine ⟨h.d3, _, ?_, h.d5, h.d6⟩
  have := byteOf_toNat (insts.length : Int)
  show (byteOf (insts.length : Int)).toNat = _
  omega

/-- C43 as stated is false: no node with 256 or more instances has a valid instance list, and there are
such nodes. -/
theorem C43_instances_false {ord : List Int → List Int} (hord : ValidOrder ord) :
    (∀ n, Reachable ord n → 256 ≤ (instancesOf (n.objs.map Obj.code)).length →
      ∀ l, n.profile.getPropertyData 0xD6 = some l ∨ n.profile.getPropertyData 0xD5 = some l →
        ¬ IsInstanceList l (instancesOf (n.objs.map Obj.code))) ∧
    ∀ k : Nat, k < 0x0EF001 → ∃ n, Reachable ord n ∧ (instancesOf (n.objs.map Obj.code)).length = k := by
  refine ⟨?_, ?_⟩
  · rintro n - hge l - ⟨b, hb, -⟩
    have := b.toNat_lt
    omega
  · intro k hk
    obtain ⟨n, h1, -, -, h2⟩ := reach_many hord ⟨[], 0, 0⟩ k hk
    exact ⟨n, h1, by rw [h2]; simp⟩

/-- The hypotheses are met: there is a reachable node with 3 instances. -/
example : ∃ n, Reachable List.dedup n ∧ (instancesOf (n.objs.map Obj.code)).length = 3 :=
  (C43_instances_false (ord := List.dedup) (fun l => ⟨l.nodup_dedup, fun _ => List.mem_dedup⟩)).2 3 (by decide)

/-- C44. The classes are right: 0xD7 is one byte followed by exactly the classes of the instances, each
once. What is missing: the count byte and 0xD4 are the number of objects, not of classes. -/
theorem C44_classes_partial {ord : List Int → List Int} (hord : ValidOrder ord) {n : LocalNode} (hr : Reachable ord n) :
    ∃ (b : UInt8) (l : List (Int × Int)), ListsClasses l (instancesOf (n.objs.map Obj.code)) ∧
      n.profile.getPropertyData 0xD7 = some (b :: classBytes l) ∧
      b.toNat = (n.objs.map Obj.code).length % 256 ∧
      n.profile.getPropertyData 0xD4 = some (beDigits (n.objs.map Obj.code).length 2) := by
  have h := (reachable_inv hord hr).desc
  obtain ⟨l, h1, h2⟩ := h.d7
  refine ⟨_, l, h1, h2, ?_, h.d4⟩
  have := byteOf_toNat ((n.objs.map Obj.code).length : Int)
  omega

/-- C44 as stated is false of every node that still has its profile (and fewer than 256 objects): the
count of 0xD7 is larger than the number of classes listed. -/
theorem C44_class_list_false {ord : List Int → List Int} (hord : ValidOrder ord) {n : LocalNode} (hr : Reachable ord n)
    (hown : OwnProfile n) (hlt : (n.objs.map Obj.code).length < 256) (b : UInt8) (l : List (Int × Int))
    (hl : ListsClasses l (instancesOf (n.objs.map Obj.code))) (hd : n.profile.getPropertyData 0xD7 = some (b :: classBytes l)) :
    l.length < b.toNat := by
  obtain ⟨b', l', hl', hd', hb, -⟩ := C44_classes_partial hord hr
  have hbb : b' = b := by rw [hd'] at hd; injection hd with hd; injection hd
  subst hbb
  have h1 : l.length ≤ ((instancesOf (n.objs.map Obj.code)).map classOf).length := by
    apply List.Subperm.length_le
    apply List.Nodup.subperm hl.1
    intro gc hgc
    obtain ⟨c, hc, rfl⟩ := (hl.2 gc).mp hgc
    exact List.mem_map_of_mem hc
  have h2 : (instancesOf (n.objs.map Obj.code)).length < (n.objs.map Obj.code).length := by
    unfold instancesOf
    apply Nat.lt_of_le_of_ne (List.length_filter_le _ _)
    intro h
    have := List.length_filter_eq_length_iff.mp h 0x0EF001 (by
      rw [objs_codes _ (reachable_inv hord hr).own, ← Dict.get?_isSome_iff, hown]; rfl)
    exact absurd this (by decide)
  rw [List.length_map] at h1
  omega

/-- C44 as stated is false: a node with two instances of one class says it has three classes, although
it has two (one of them that of the profile). -/
theorem C44_class_number_false {ord : List Int → List Int} (hord : ValidOrder ord) :
    ∃ n, Reachable ord n ∧ OwnProfile n ∧ n.objs.map Obj.code = [0x0EF001, 0, 1] ∧
      (n.objs.map fun o => classOf o.code).dedup.length = 2 ∧
      n.profile.getPropertyData 0xD4 = some [0, 3] := by
  obtain ⟨n, h1, h2, h3, -⟩ := reach_many hord ⟨[], 0, 0⟩ 2 (by decide)
  have h3' : n.objs.map Obj.code = [0x0EF001, 0, 1] := h3
  refine ⟨n, h1, h2, h3', ?_, ?_⟩
  · have : (n.objs.map fun o => classOf o.code) = (n.objs.map Obj.code).map classOf := by rw [List.map_map]; rfl
    rw [this, h3']
    decide
  · obtain ⟨-, -, -, -, -, h4⟩ := C44_classes_partial hord h1
    rw [h4, h3']
    decide +kernel

/-! ## C45, C46, C47: discovery -/

/-- The node profile's answer to a request for 0xD6. -/
theorem profile_answer {ord : List Int → List Int} (hord : ValidOrder ord) {n : LocalNode} (hr : Reachable ord n) (env : Env)
    (req : Msg) (hreq : IsReadOf req 0x0EF001 0xD6) (hq : Quiet env n.profile (received req)) :
    ∃ b : UInt8, b.toNat = (instancesOf (n.objs.map Obj.code)).length % 256 ∧
    (n.profile.messageReceived env (received req)).obj = n.profile ∧
    (n.profile.messageReceived env (received req)).result = .ok (some
      (listAnswer (req.tid % 2 ^ 16) (req.seoj % 2 ^ 24) (b :: codeBytes (instancesOf (n.objs.map Obj.code))))) := by
  have hinv := reachable_inv hord hr
  obtain ⟨-, b, hb, -, hd⟩ := C43_any_number_partial hord hr
  obtain ⟨h1, h2, d, h3, h4⟩ := hreq
  have hp : (received req).props = [{ code := 0xD6, data := d }] := by
    show (if TwoSections req.esv then [] else req.props) = _
    rw [h1, if_neg (by decide), h3]
  have hown : OwnSections (received req) := by
    unfold OwnSections
    have : (received req).esv = 0x62 := h1
    rw [this, if_neg (by decide)]
    constructor
    · show (if TwoSections req.esv then _ else _) = _
      rw [h1, if_neg (by decide)]
    · show (if TwoSections req.esv then _ else _) = _
      rw [h1, if_neg (by decide)]
  obtain ⟨k1, k2⟩ := read_known env n.profile (received req) hinv.prof.wf hinv.prof.handler hq h1 hown (by
    rw [hp]
    intro i hi
    rw [List.mem_singleton] at hi
    subst hi
    have h := hinv.prof.props 0xD6
    have hg : (deviceProp 0x0E 0xF0 0xD6).map OProp.attrGet = some 1 := by decide +kernel
    rw [← h] at hg
    cases hl : lookup n.profile.props 0xD6 with
    | none => rw [hl] at hg; cases hg
    | some p =>
      rw [hl] at hg
      exact ⟨p, rfl, Or.inl (by simpa using hg)⟩)
  refine ⟨b, hb, k1, ?_⟩
  rw [k2, hp]
  simp only [List.map_cons, List.map_nil]
  rw [hd]
  have e1 : (received req).tid = req.tid % 2 ^ 16 := rfl
  have e2 : (received req).deoj = req.deoj % 2 ^ 24 := rfl
  have e3 : (received req).seoj = req.seoj % 2 ^ 24 := rfl
  rw [e1, e2, e3, h2]
  rfl

theorem profile_dispatch {n : LocalNode} (hown : OwnProfile n) (env : Env) (net : Net) (req res : Msg) (hreq : IsReadOf req 0x0EF001 0xD6)
    (k1 : (n.profile.messageReceived env (received req)).obj = n.profile)
    (k2 : (n.profile.messageReceived env (received req)).result = .ok (some res)) :
    n.messageReceived env net req = n.answer net (received req) (some res) := by
  rw [messageReceived_eq env net n req hreq.encodable, hreq.2.1, hown]
  simp only [LocalNode.deref, LocalNode.putBack]
  rw [k2, k1]

/-- C45. A search (a read of 0xD6 of the node profile, from anybody) is answered by a node with at most 84
devices with exactly one datagram to the sender; at the other side the datagram means an answer from
which `parse_message` builds a node with the profile and every device, and nothing else. -/
theorem C45_discovery {ord ord' : List Int → List Int} (hord : ValidOrder ord) (hord' : ValidOrder ord') {n : LocalNode}
    (hr : Reachable ord n) (hown : OwnProfile n)
    (hrange : ∀ o ∈ n.objs, 0 ≤ o.code ∧ o.code < 2 ^ 24)
    (hlen : (instancesOf (n.objs.map Obj.code)).length ≤ 84)
    (env : Env) (net : Net) (hs : NetWorks net) (hw : CanSend n.mgr)
    (req : Msg) (a : Addr) (ha : req.fromAddr = some a) (hreq : IsReadOf req 0x0EF001 0xD6)
    (hq : Quiet env n.profile (received req)) :
    (n.messageReceived env net req).2 = .ok () ∧
    ∃ i bytes, (n.messageReceived env net req).1.mgr.log = n.mgr.log ++ [(⟨i, a, bytes⟩, (bytes.length : Int))] ∧
      ∀ from_, ∃ m, Decodes bytes from_ m ∧ m.esv = 0x72 ∧ m.seoj = 0x0EF001 ∧ m.deoj = req.seoj % 2 ^ 24 ∧
        ∃ r r', RemoteNode.new ord' (some from_) = .ok r ∧ RemoteNode.parseMessage ord' r m = (r', .ok true) ∧
          r'.address = some from_ ∧
          r'.objectList.map Obj.code = 0x0EF001 :: instancesOf (n.objs.map Obj.code) ∧
          ∀ c, r'.getObject (.int c) ≠ none ↔ c = 0x0EF001 ∨ (¬ IsProfileCode c ∧ ∃ o ∈ n.objs, o.code = c) := by
  have hinv := reachable_inv hord hr
  obtain ⟨b, hb, k1, k2⟩ := profile_answer hord hr env req hreq hq
  have hbl : b.toNat = (instancesOf (n.objs.map Obj.code)).length := by omega
  clear hb
  have hnd : (instancesOf (n.objs.map Obj.code)).Nodup := by
    unfold instancesOf
    rw [objs_codes _ hinv.own]
    exact hinv.keys.filter _
  have hmem : ∀ c, c ∈ instancesOf (n.objs.map Obj.code) ↔ ¬ IsProfileCode c ∧ ∃ o ∈ n.objs, o.code = c := by
    intro c
    unfold instancesOf
    rw [List.mem_filter, List.mem_map, decide_eq_true_iff]
    exact And.comm
  generalize instancesOf (n.objs.map Obj.code) = insts at *
  rw [profile_dispatch hown env net req _ hreq k1 k2]
  have hcb : (b :: codeBytes insts).length < 256 := by
    rw [List.length_cons, codeBytes_length]
    omega
  obtain ⟨i, t, h1, h2, h3, -⟩ := answer_sent net n (received req)
    (listAnswer (req.tid % 2 ^ 16) (req.seoj % 2 ^ 24) (b :: codeBytes insts)) a rfl ha
    ((listAnswer_encodable _ _ _).mpr hcb) hw hs
  refine ⟨h1, i, _, h2, ?_⟩
  intro from_
  rw [outgoing_listAnswer]
  refine ⟨_, decodes_encode _ ((listAnswer_encodable _ _ _).mpr hcb) (by rw [listAnswer_length]; omega) from_, rfl, ?_, ?_, ?_⟩
  · rw [onWire_listAnswer]; rfl
  · rw [onWire_listAnswer]
    show req.seoj % 2 ^ 24 % 2 ^ 24 = _
    rw [Int.emod_emod]
  · have hil : instanceListOf ({ onWire (listAnswer t (req.seoj % 2 ^ 24) (b :: codeBytes insts)) with fromAddr := some from_ } : Msg) =
        .codes insts := by
      rw [onWire_listAnswer]
      unfold instanceListOf listAnswer
      simp only []
      rw [if_pos (by simp), if_neg (by rw [codeBytes_length, hbl]; omega), hbl]
      have := listedCodes_codeBytes insts []
      rw [List.append_nil] at this
      rw [this]
      congr 1
      conv => rhs; rw [← List.map_id insts]
      apply List.map_congr_left
      intro c hc
      obtain ⟨-, o, ho, rfl⟩ := (hmem c).mp hc
      obtain ⟨x1, x2⟩ := hrange o ho
      exact Int.emod_eq_of_lt x1 x2
    have hkeys : Dict.keys (addDevices ord' [(0x0EF001, devObj ord' 0x0EF001)] insts) = 0x0EF001 :: insts := by
      rw [keys_addDevices]
      show addCodes [0x0EF001] insts = _
      rw [addCodes_fresh]
      · rfl
      · rw [List.singleton_append, List.nodup_cons]
        exact ⟨fun h => ((hmem _).mp h).1 (Or.inl rfl), hnd⟩
    refine ⟨_, { address := some from_, objects := addDevices ord' [(0x0EF001, devObj ord' 0x0EF001)] insts }, remoteNode_new hord' _, ?_, rfl, ?_, ?_⟩
    · rw [parseMessage_eq hord', hil]
    · unfold Node.objectList Dict.values
      rw [List.map_map]
      rw [← hkeys]
      unfold Dict.keys
      apply List.map_congr_left
      intro kv hkv
      have hnd' : (Dict.keys (addDevices ord' [(0x0EF001, devObj ord' 0x0EF001)] insts)).Nodup := by
        rw [hkeys, List.nodup_cons]
        exact ⟨fun h => ((hmem _).mp h).1 (Or.inl rfl), hnd⟩
      have hg := Dict.get?_of_mem _ kv.1 kv.2 hnd' hkv
      rw [get?_addDevices] at hg
      show kv.2.code = kv.1
      split at hg
      · injection hg with hg
        rw [← hg, (std_new hord' _).2.1]
      · rw [Dict.get?_cons] at hg
        split at hg
        · next e =>
          injection hg with hg
          rw [← hg, (std_new hord' _).2.1, e]
        · cases hg
    · intro c
      unfold Node.getObject
      show Dict.get? _ c ≠ none ↔ _
      rw [Ne, Dict.get?_eq_none_iff, not_not, hkeys, List.mem_cons, hmem]

/-- Such nodes exist, with any number of devices up to 84, and `SearchMessage()` is such a request. -/
example (ord : List Int → List Int) (hord : ValidOrder ord) (k : Nat) (hk : k ≤ 84) :
    ∃ n, Reachable ord n ∧ OwnProfile n ∧ (∀ o ∈ n.objs, 0 ≤ o.code ∧ o.code < 2 ^ 24) ∧
      (instancesOf (n.objs.map Obj.code)).length = k ∧ CanSend n.mgr := by
  obtain ⟨n, h1, h2, h3, h4, h5, -⟩ := reach_started hord k (by omega)
  refine ⟨n, h1, h2, ?_, by rw [h4]; simp, h5⟩
  intro o ho
  have : o.code ∈ n.objs.map Obj.code := List.mem_map_of_mem ho
  rw [h3] at this
  rcases List.mem_cons.mp this with h | h
  · rw [h]; decide
  · obtain ⟨i, hi, h⟩ := List.mem_map.mp h
    have := List.mem_range.mp hi
    rw [← h]
    show 0 ≤ (i : Int) ∧ (i : Int) < _
    omega
example (t : Int) (a : Addr) : IsReadOf { SearchMessage with tid := t, fromAddr := some a } 0x0EF001 0xD6 :=
  ⟨rfl, (by decide : (0x0EF001 : Int) % 2 ^ 24 = 0x0EF001), [], rfl, by decide⟩
example : NetWorks okNet := fun _ _ _ _ => rfl

/-- C46 up to 84 devices (that the answer lists them is C45): the search is answered. -/
theorem C46_answered_partial {ord : List Int → List Int} (hord : ValidOrder ord) {n : LocalNode}
    (hr : Reachable ord n) (hown : OwnProfile n) (hlen : (instancesOf (n.objs.map Obj.code)).length ≤ 84)
    (env : Env) (net : Net) (hs : NetWorks net) (hw : CanSend n.mgr)
    (req : Msg) (a : Addr) (ha : req.fromAddr = some a) (hreq : IsReadOf req 0x0EF001 0xD6)
    (hq : Quiet env n.profile (received req)) :
    (n.messageReceived env net req).2 = .ok () ∧
    ∃ i bytes, (n.messageReceived env net req).1.mgr.log = n.mgr.log ++ [(⟨i, a, bytes⟩, (bytes.length : Int))] ∧ bytes ≠ [] := by
  obtain ⟨b, hb, k1, k2⟩ := profile_answer hord hr env req hreq hq
  rw [profile_dispatch hown env net req _ hreq k1 k2]
  obtain ⟨i, t, h1, h2, -⟩ := answer_sent net n (received req) (listAnswer (req.tid % 2 ^ 16) (req.seoj % 2 ^ 24)
    (b :: codeBytes (instancesOf (n.objs.map Obj.code)))) a rfl ha
    ((listAnswer_encodable _ _ _).mpr (by rw [List.length_cons, codeBytes_length]; omega)) hw hs
  exact ⟨h1, i, _, h2, by simp [encode, encHeader]⟩

/-- C46 as stated is false of every node with 85 or more devices: nothing is sent, and the handler
raises ValueError (which ends the receiving thread, C55). -/
theorem C46_answered_false {ord : List Int → List Int} (hord : ValidOrder ord) :
    (∀ n, Reachable ord n → OwnProfile n → 85 ≤ (instancesOf (n.objs.map Obj.code)).length → CanSend n.mgr →
      ∀ env net req a, req.fromAddr = some a → IsReadOf req 0x0EF001 0xD6 → Quiet env n.profile (received req) →
        (n.messageReceived env net req).2 = .error .valueError ∧ (n.messageReceived env net req).1.mgr.log = n.mgr.log) ∧
    ∃ n, Reachable ord n ∧ OwnProfile n ∧ (instancesOf (n.objs.map Obj.code)).length = 85 ∧ CanSend n.mgr := by
  refine ⟨?_, ?_⟩
  · intro n hr hown hlen hw env net req a ha hreq hq
    obtain ⟨b, hb, k1, k2⟩ := profile_answer hord hr env req hreq hq
    rw [profile_dispatch hown env net req _ hreq k1 k2]
    obtain ⟨h1, h2⟩ := answer_unfit net n (received req) (listAnswer (req.tid % 2 ^ 16) (req.seoj % 2 ^ 24)
      (b :: codeBytes (instancesOf (n.objs.map Obj.code)))) a ha
      (by rw [listAnswer_encodable, List.length_cons, codeBytes_length]; omega)
    exact ⟨h2 hw, h1⟩
  · obtain ⟨n, h1, h2, -, h4, h5, -⟩ := reach_started hord 85 (by decide)
    exact ⟨n, h1, h2, by rw [h4]; simp, h5⟩

/-- C47 but for one kind of message: `parse_message` returns True exactly when the message carries a
complete instance list, and then the node has all its objects and those listed (replaced by new ones);
when it returns False the node is unchanged. The message for which it raises is missing. -/
theorem C47_parse_partial {ord : List Int → List Int} (hord : ValidOrder ord) (node : Node Obj) (m : Msg)
    (he : ∀ p ps, m.props = p :: ps → p.code = 0xD5 ∨ p.code = 0xD6 → p.data ≠ []) :
    ((RemoteNode.parseMessage ord node m).2 = .ok false ∧ (RemoteNode.parseMessage ord node m).1 = node ∧
      ¬ ∃ l, instanceListOf m = .codes l) ∨
    ∃ l, instanceListOf m = .codes l ∧ (RemoteNode.parseMessage ord node m).2 = .ok true ∧
      (RemoteNode.parseMessage ord node m).1.address = node.address ∧
      Dict.keys (RemoteNode.parseMessage ord node m).1.objects = addCodes (Dict.keys node.objects) l ∧
      (∀ c ∈ l, ∃ o, (RemoteNode.parseMessage ord node m).1.getObject (.int c) = some o ∧ o.code = c) ∧
      ∀ c, c ∉ l → (RemoteNode.parseMessage ord node m).1.getObject (.int c) = node.getObject (.int c) := by
  rw [parseMessage_eq hord]
  cases hl : instanceListOf m with
  | notAList => exact Or.inl ⟨rfl, rfl, by simp⟩
  | short => exact Or.inl ⟨rfl, rfl, by simp⟩
  | empty =>
    exfalso
    unfold instanceListOf at hl
    cases hp : m.props with
    | nil => rw [hp] at hl; cases hl
    | cons p ps =>
      rw [hp] at hl
      simp only [] at hl
      split at hl
      · next h =>
        have := he p ps hp h
        cases hd : p.data with
        | nil => exact this hd
        | cons b r => rw [hd] at hl; simp only [] at hl; split at hl <;> cases hl
      · cases hl
  | codes l =>
    refine Or.inr ⟨l, rfl, rfl, rfl, keys_addDevices _ _ _, ?_, ?_⟩
    · intro c hc
      refine ⟨devObj ord c, ?_, (std_new hord c).2.1⟩
      show Dict.get? (addDevices ord node.objects l) c = _
      rw [get?_addDevices, if_pos hc]
    · intro c hc
      show Dict.get? (addDevices ord node.objects l) c = _
      rw [get?_addDevices, if_neg hc]
      rfl

/-- C47 as stated is false: whatever the node, an instance list with no data raises IndexError. -/
theorem C47_parse_false {ord : List Int → List Int} (hord : ValidOrder ord) (node : Node Obj) (m : Msg) (c : Int)
    (hc : c = 0xD5 ∨ c = 0xD6) (ps : List PProp) (hm : m.props = { code := c, data := [] } :: ps) :
    (RemoteNode.parseMessage ord node m).2 = .error .indexError := by
  rw [parseMessage_eq hord]
  unfold instanceListOf
  rw [hm]
  simp only []
  rw [if_pos hc]

example : (match instanceListOf { esv := 0x73, props := [{ code := 0xD5, data := [2, 0x02, 0x91, 0x01, 0x01, 0x30, 0x02, 0xFF] }] } with
    | .codes l => l | _ => []) = [0x029101, 0x013002] := by decide +kernel

/-! ## C48: dispatch -/

/-- C48. A message for an object the node does not have produces nothing and changes nothing. -/
theorem C48_unknown (env : Env) (net : Net) (n : LocalNode) (m : Msg) (hm : Encodable m) (hd : 0 ≤ m.deoj ∧ m.deoj < 2 ^ 24)
    (h : n.getObject (.int m.deoj) = none) : n.messageReceived env net m = (n, .ok ()) := by
  rw [messageReceived_eq env net n m hm, Int.emod_eq_of_lt hd.1 hd.2]
  have : Dict.get? n.node.objects m.deoj = none := Option.map_eq_none_iff.mp h
  rw [this]

/-- C48. The object named by DEOJ gets the message, and only it changes; what is sent, if anything, is
its answer (with the sender's EOJ overwritten by a controller, C63; with a new TID if it was 0, C75),
to the sender of the request or, if it is a notification, to the multicast address; when it is not a
notification the operating system accepts at most one datagram. -/
theorem C48_dispatch {ord : List Int → List Int} (hord : ValidOrder ord) {n : LocalNode} (hr : Reachable ord n)
    (env : Env) (net : Net) (m : Msg) (hm : Encodable m) (hd : 0 ≤ m.deoj ∧ m.deoj < 2 ^ 24) (o : Obj)
    (ho : n.getObject (.int m.deoj) = some o) :
    let r := o.messageReceived env (received m)
    let n' := (n.messageReceived env net m).1
    (∀ c, n'.getObject (.int c) = if c = m.deoj then some r.obj else n.getObject (.int c)) ∧
    n'.objs.length = n.objs.length ∧
    ∃ new, n'.mgr.log = n.mgr.log ++ new ∧
      ((∀ res, r.result ≠ .ok (some res)) → new = []) ∧
      (∀ res, r.result = .ok (some res) → ∃ t, (res.tid ≠ 0 → t = res.tid) ∧ (res.tid = 0 → 1 ≤ t ∧ t ≤ 65535) ∧
        (∀ x ∈ new, x.1.bytes = encode { res with tid := t, seoj := if n.controller = true then 0x0EF001 else res.seoj } ∧
          some x.1.dest = if res.esv = 0x73 ∨ res.esv = 0x74 then some ("224.0.23.0", 3610) else m.fromAddr) ∧
        (¬ (res.esv = 0x73 ∨ res.esv = 0x74) → (new.filter (fun x => decide (0 < x.2))).length ≤ 1)) := by
  intro r n'
  have hinv := reachable_inv hord hr
  obtain ⟨s, hs, hso⟩ := Option.map_eq_some_iff.mp ho
  change Dict.get? n.node.objects m.deoj = some s at hs
  have heq := messageReceived_eq env net n m hm
  rw [Int.emod_eq_of_lt hd.1 hd.2, hs] at heq
  simp only [] at heq
  rw [hso] at heq
  have hget := putBack_get hinv hs r.obj
  have hlen : (n.putBack m.deoj s r.obj).objs.length = n.objs.length := by
    unfold LocalNode.objs Node.objectList Dict.values
    rw [List.length_map, List.length_map, List.length_map, List.length_map]
    cases s with
    | profile => rfl
    | user u =>
      have := congrArg List.length (Dict.keys_modify n.node.objects m.deoj (fun _ => Slot.user r.obj))
      unfold Dict.keys at this
      rw [List.length_map, List.length_map] at this
      exact this
  have hmgr : (n.putBack m.deoj s r.obj).mgr = n.mgr ∧ (n.putBack m.deoj s r.obj).controller = n.controller := by
    cases s <;> exact ⟨rfl, rfl⟩
  have hnot : ∀ e, ESV.isNotification e = true ↔ e = 0x73 ∨ e = 0x74 := by
    intro e
    unfold ESV.isNotification ESV.NOTIFICATION ESV.NOTIFICATION_RESPONSE_REQUIRED
    by_cases h1 : e = 0x73
    · simp [h1]
    · by_cases h2 : e = 0x74 <;> simp [h1, h2]
  have hcase : (∃ e, r.result = .error e) ∨ r.result = .ok none ∨ ∃ res, r.result = .ok (some res) := by
    rcases r.result with e | (_ | res)
    · exact Or.inl ⟨e, rfl⟩
    · exact Or.inr (Or.inl rfl)
    · exact Or.inr (Or.inr ⟨res, rfl⟩)
  rcases hcase with ⟨e, he⟩ | he | ⟨res, he⟩
  · have hn' : n' = n.putBack m.deoj s r.obj := by
      show (n.messageReceived env net m).1 = _
      rw [heq, he]
    rw [hn']
    refine ⟨hget, hlen, [], by rw [hmgr.1, List.append_nil], fun _ => rfl, ?_⟩
    intro res h; rw [he] at h; cases h
  · have hn' : n' = n.putBack m.deoj s r.obj := by
      show (n.messageReceived env net m).1 = _
      rw [heq, he]
      rfl
    rw [hn']
    refine ⟨hget, hlen, [], by rw [hmgr.1, List.append_nil], fun _ => rfl, ?_⟩
    intro res h; rw [he] at h; cases h
  · have hn' : n' = ((n.putBack m.deoj s r.obj).answer net (received m) (some res)).1 := by
      show (n.messageReceived env net m).1 = _
      rw [heq, he]
    obtain ⟨new, t, h1, h2, h2', h3, h4, -⟩ := answer_log net (n.putBack m.deoj s r.obj) (received m) res
    have hsame := answer_same net (n.putBack m.deoj s r.obj) (received m) (some res)
    rw [hn']
    refine ⟨?_, ?_, new, ?_, fun h => absurd he (h res), ?_⟩
    · intro c
      rw [hsame]
      exact hget c
    · rw [hsame]
      exact hlen
    · rw [h1, hmgr.1]
    · intro res' h
      have : res' = res := by rw [he] at h; injection h with h; injection h with h; exact h.symm
      subst this
      refine ⟨t, h2, fun hz => h2' hz (by rw [hmgr.1]; exact reachable_tid hord hr), ?_, ?_⟩
      · intro x hx
        obtain ⟨x1, x2⟩ := h3 x hx
        refine ⟨?_, ?_⟩
        · rw [x1]
          unfold outgoing
          rw [hmgr.2]
          split <;> rfl
        · rw [x2]
          by_cases hh : res'.esv = 0x73 ∨ res'.esv = 0x74
          · rw [if_pos hh, if_pos ((hnot _).mpr hh)]
          · rw [if_neg hh, if_neg (fun h => hh ((hnot _).mp h))]
            rfl
      · intro hh
        apply h4
        cases hb : ESV.isNotification res'.esv with
        | false => rfl
        | true => exact absurd ((hnot _).mp hb) hh

/-- C48, when everything works: an answer that fits is sent, once to the sender, or once per interface to
the multicast address. -/
theorem C48_sent {n : LocalNode}
    (env : Env) (net : Net) (hs : NetWorks net) (hw : CanSend n.mgr)
    (m : Msg) (hm : Encodable m) (hd : 0 ≤ m.deoj ∧ m.deoj < 2 ^ 24) (a : Addr) (ha : m.fromAddr = some a) (o : Obj)
    (ho : n.getObject (.int m.deoj) = some o) (res : Msg)
    (hres : (o.messageReceived env (received m)).result = .ok (some res)) (hfit : Encodable res) :
    (n.messageReceived env net m).2 = .ok () ∧
    (n.messageReceived env net m).1.mgr.log.length = n.mgr.log.length +
      (if res.esv = 0x73 ∨ res.esv = 0x74 then (working n.mgr.servers).length else 1) := by
  obtain ⟨s, hg, hso⟩ := Option.map_eq_some_iff.mp ho
  change Dict.get? n.node.objects m.deoj = some s at hg
  have heq := messageReceived_eq env net n m hm
  rw [Int.emod_eq_of_lt hd.1 hd.2, hg] at heq
  simp only [] at heq
  rw [hso, hres] at heq
  simp only [] at heq
  have hmgr : (n.putBack m.deoj s (o.messageReceived env (received m)).obj).mgr = n.mgr := by
    cases s <;> rfl
  rw [heq]
  cases hb : ESV.isNotification res.esv with
  | true =>
    have h2 : res.esv = 0x73 ∨ res.esv = 0x74 := by
      unfold ESV.isNotification ESV.NOTIFICATION ESV.NOTIFICATION_RESPONSE_REQUIRED at hb
      by_cases h1 : res.esv = 0x73
      · exact Or.inl h1
      · by_cases h2 : res.esv = 0x74
        · exact Or.inr h2
        · simp [h1, h2] at hb
    obtain ⟨k1, k2⟩ := answer_announced net (n.putBack m.deoj s (o.messageReceived env (received m)).obj) (received m) res hb hfit
      (by rw [hmgr]; exact hw) hs
    rw [if_pos h2]
    rw [hmgr] at k2
    exact ⟨k1, k2⟩
  | false =>
    have h2 : ¬ (res.esv = 0x73 ∨ res.esv = 0x74) := by
      rintro (h | h) <;> rw [h] at hb <;> cases hb
    obtain ⟨i, t, k1, k2, -, -⟩ := answer_sent net (n.putBack m.deoj s (o.messageReceived env (received m)).obj) (received m) res a hb
      ha hfit (by rw [hmgr]; exact hw) hs
    rw [if_neg h2, k2, hmgr]
    exact ⟨k1, by simp⟩

/-- The hypotheses are met: the profile of a started node answers a read of its status. -/
example : ∃ n o, Reachable List.dedup n ∧ CanSend n.mgr ∧ n.getObject (.int 0x0EF001) = some o ∧ o.handler = .self_ ∧
    n.getObject (.int 0x029101) = none := by
  have hord : ValidOrder List.dedup := fun l => ⟨l.nodup_dedup, fun _ => List.mem_dedup⟩
  obtain ⟨n, h1, h2, h3, -, h5, -⟩ := reach_started hord 2 (by decide)
  have hinv := reachable_inv hord h1
  refine ⟨n, n.profile, h1, h5, ?_, hinv.prof.handler, ?_⟩
  · unfold LocalNode.getObject Node.getObject
    show Option.map _ (Dict.get? _ 0x0EF001) = _
    rw [h2]
    rfl
  · unfold LocalNode.getObject Node.getObject
    show Option.map _ (Dict.get? _ 0x029101) = _
    rw [Option.map_eq_none_iff, Dict.get?_eq_none_iff, ← objs_codes _ hinv.own, h3]
    decide

/-! ## C50, C49: options -/

theorem bitAt_not (v : Int) (k : Nat) : bitAt (-v - 1) k = !bitAt v k := by
  have h : -v - 1 = Int.lnot v := by cases v <;> simp [Int.lnot] <;> omega
  rw [h, bitAt_eq_testBit, bitAt_eq_testBit, Int.testBit_lnot]

theorem bitAt_zero (k : Nat) : bitAt 0 k = false := by simp [bitAt]

theorem bitAt_pow (k j : Nat) : bitAt ((2 ^ k : Nat) : Int) j = decide (j = k) := by
  rw [bitAt_eq_testBit]
  show Nat.testBit (2 ^ k) j = _
  rw [Nat.testBit_two_pow]
  by_cases h : j = k
  · simp [h]
  · simp [h, Ne.symm h]

/-- C50. `is_enabled(opt)`, for any int: some bit is set in both. -/
theorem C50_is_enabled (n : LocalNode) (opt : Int) :
    n.isEnabled opt = true ↔ ∃ k, bitAt n.options k = true ∧ bitAt opt k = true := by
  unfold LocalNode.isEnabled
  by_cases h : pyAnd n.options opt = 0
  · rw [if_pos h]
    simp only [Bool.false_eq_true, false_iff, not_exists]
    intro k hk
    have := bitAt_and n.options opt k
    rw [h, bitAt_zero, hk.1, hk.2] at this
    cases this
  · rw [if_neg h]
    simp only [true_iff]
    by_contra hno
    apply h
    apply bitAt_ext
    intro k
    rw [bitAt_and, bitAt_zero]
    cases h1 : bitAt n.options k <;> cases h2 : bitAt opt k <;> first | rfl | exact absurd ⟨k, h1, h2⟩ hno

theorem isEnabled_pow (n : LocalNode) (k : Nat) : n.isEnabled ((2 ^ k : Nat) : Int) = bitAt n.options k := by
  have := C50_is_enabled n ((2 ^ k : Nat) : Int)
  cases h : bitAt n.options k with
  | true => exact this.mpr ⟨k, h, by rw [bitAt_pow]; simp⟩
  | false =>
    cases h2 : n.isEnabled ((2 ^ k : Nat) : Int) with
    | false => rfl
    | true =>
      obtain ⟨j, h3, h4⟩ := this.mp h2
      rw [bitAt_pow] at h4
      rw [of_decide_eq_true h4, h] at h3
      cases h3

theorem setEnabled_bit (n : LocalNode) (opt : Int) (v : Bool) (k : Nat) :
    bitAt (n.setEnabled opt v).options k = if bitAt opt k = true then v else bitAt n.options k := by
  unfold LocalNode.setEnabled
  cases v with
  | true =>
    simp only [if_true, bitAt_or]
    cases bitAt opt k <;> simp
  | false =>
    simp only [Bool.false_eq_true, if_false, bitAt_and, bitAt_not]
    cases bitAt opt k <;> simp

/-- C50. After any sequence of `set_enabled` calls (with any ints), `is_enabled` of a bit is the value of
the last call that named the bit, or the initial one. -/
theorem C50_last (n : LocalNode) (calls : List (Int × Bool)) (k : Nat) :
    (calls.foldl (fun n c => n.setEnabled c.1 c.2) n).isEnabled ((2 ^ k : Nat) : Int) =
      (((calls.filter (fun c => bitAt c.1 k)).getLast?).map Prod.snd).getD (n.isEnabled ((2 ^ k : Nat) : Int)) := by
  rw [isEnabled_pow, isEnabled_pow]
  induction calls using List.reverseRecOn with
  | nil => rfl
  | append_singleton calls c ih =>
    rw [List.foldl_append, List.filter_append]
    simp only [List.foldl_cons, List.foldl_nil]
    rw [setEnabled_bit, ih]
    by_cases h : bitAt c.1 k = true <;> simp [h]

/-- The options play no role in what a node does with a message. -/
theorem C49_no_effect (env : Env) (net : Net) (n : LocalNode) (opts : Int) (m : Msg) :
    ({ n with options := opts } : LocalNode).messageReceived env net m =
      ({ (n.messageReceived env net m).1 with options := opts }, (n.messageReceived env net m).2) := by
  by_cases hm : Encodable m
  · rw [messageReceived_eq env net n m hm, messageReceived_eq env net _ m hm]
    show (match Dict.get? n.node.objects (m.deoj % 2 ^ 24) with | none => _ | some s => _) = _
    cases Dict.get? n.node.objects (m.deoj % 2 ^ 24) with
    | none => rfl
    | some s =>
      simp only []
      have e : LocalNode.deref { n with options := opts } s = n.deref s := by cases s <;> rfl
      rw [e]
      have e2 : ∀ o, LocalNode.putBack { n with options := opts } (m.deoj % 2 ^ 24) s o =
          { n.putBack (m.deoj % 2 ^ 24) s o with options := opts } := by intro o; cases s <;> rfl
      rw [e2]
      cases ((n.deref s).messageReceived env (received m)).result with
      | error e => rfl
      | ok res =>
        cases res with
        | none => rfl
        | some res =>
          simp only []
          rw [answer_eq, answer_eq]
          split <;> rfl
  · rw [messageReceived_unfit env net n m hm, messageReceived_unfit env net _ m hm]

/-- C50. Nothing else changes the options of a node, and nothing but the options changes. -/
theorem C50_only (ord : List Int → List Int) (n : LocalNode) (op : NodeOp) :
    ((∀ opt v, op ≠ .enable opt v) → (op.run ord n).options = n.options) ∧
    ∀ opt v, n.setEnabled opt v = { n with options := (n.setEnabled opt v).options } := by
  refine ⟨?_, ?_⟩
  · intro h
    cases op with
    | add o => rfl
    | receive env net m =>
      have := C49_no_effect env net n n.options m
      have e : ({ n with options := n.options } : LocalNode) = n := rfl
      rw [e] at this
      show (n.messageReceived env net m).1.options = _
      rw [this]
    | enable opt v => exact absurd rfl (h opt v)
    | start net caller =>
      show (n.start net caller).1.options = _
      unfold LocalNode.start
      rcases n.mgr.start net caller [] with ⟨g, e | (_ | _)⟩ <;> rfl
    | stop caller => rfl
    | announce net m => rfl
    | send net m a => rfl
    | update code f =>
      show (n.update code f).options = _
      unfold LocalNode.update
      split <;> rfl
  · intro opt v
    unfold LocalNode.setEnabled
    cases v <;> rfl

example : ([(1, false), (6, true), (2, false), (-1, true), (4, false)].foldl (fun n c => LocalNode.setEnabled n c.1 c.2)
    { profile := {} }).isEnabled 4 = false := by decide +kernel
example : ([(1, false), (6, true), (2, false), (-1, true), (4, false)].foldl (fun n c => LocalNode.setEnabled n c.1 c.2)
    { profile := {} }).isEnabled 3 = true := by decide +kernel


/-- C49. What there is instead: a message is treated the same whatever the options are. -/
theorem C49_no_effect_partial (env : Env) (net : Net) (n : LocalNode) (opts : Int) (m : Msg) :
    ({ n with options := opts } : LocalNode).messageReceived env net m =
      ({ (n.messageReceived env net m).1 with options := opts }, (n.messageReceived env net m).2) := C49_no_effect env net n opts m

/-- C49 as stated is false: with the option enabled (as it is initially), a write of property 0x81 that
comes from the node's own address takes effect, in every node a program can get (which has its profile). -/
theorem C49_self_message_false {ord : List Int → List Int} (hord : ValidOrder ord) :
    (∀ n, Reachable ord n → OwnProfile n → ∀ a, n.node.address = some a → n.isEnabled LocalNode.IGNORE_SELF_MESSAGE = true →
      ∀ env net d, d.length < 256 →
        let m : Msg := { tid := 1, seoj := 0x0EF001, deoj := 0x0EF001, esv := 0x60, props := [{ code := 0x81, data := d }], fromAddr := some a }
        Quiet env n.profile (received m) →
        (n.messageReceived env net m).1.profile.getPropertyData 0x81 = some d) ∧
    ∃ n, Reachable ord n ∧ OwnProfile n ∧ n.node.address = some ("10.0.0.2", 3610) ∧ n.isEnabled LocalNode.IGNORE_SELF_MESSAGE = true := by
  refine ⟨?_, ?_⟩
  · intro n hr hown a haddr hen env net d hd m hq
    have hinv := reachable_inv hord hr
    have hm : Encodable m := by
      have h : ¬ TwoSections m.esv := (by decide : ¬ TwoSections 0x60)
      unfold Encodable
      rw [if_neg h]
      refine ⟨(by decide : (0 : Int) ≤ 0x60 ∧ (0x60 : Int) < 256), by simp [m], ?_⟩
      intro p hp
      rw [List.mem_singleton.mp hp]
      exact ⟨(by decide : (0 : Int) ≤ 0x81), (by decide : (0x81 : Int) < 256), hd⟩
    rw [messageReceived_eq env net n m hm]
    have : m.deoj % 2 ^ 24 = 0x0EF001 := (by decide : (0x0EF001 : Int) % 2 ^ 24 = 0x0EF001)
    rw [this, hown]
    simp only [LocalNode.deref, LocalNode.putBack]
    have key : (n.profile.messageReceived env (received m)).obj.getPropertyData 0x81 = some d := by
      have h := (C16_write env n.profile (received m) hinv.prof.wf hinv.prof.handler hq (Or.inl rfl)).1 0x81
      rw [getPropertyData_eq, h]
      have hp := hinv.prof.props 0x81
      have hg : (deviceProp 0x0E 0xF0 0x81).map OProp.attrSet = some 1 := by decide +kernel
      rw [← hp] at hg
      cases hl : lookup n.profile.props 0x81 with
      | none => rw [hl] at hg; cases hg
      | some p =>
        rw [hl] at hg
        have hc : CanWrite p := Or.inl (by simpa using hg)
        simp only [Option.map_some]
        rw [if_pos hc]
        rfl
    cases (n.profile.messageReceived env (received m)).result with
    | error e => exact key
    | ok res =>
      simp only []
      rw [answer_same]
      exact key
  · obtain ⟨n, h1, h2, -, -, -, h5, -⟩ := reach_started hord 0 (by decide)
    obtain ⟨rnd, ctl, ops, ha, rfl⟩ := h1
    generalize hn : runOps ord (LocalNode.new ord rnd ctl).1 ops = n at *
    refine ⟨n.setEnabled 1 true, ⟨rnd, ctl, ops ++ [.enable 1 true], ?_, ?_⟩, ?_, ?_, ?_⟩
    · intro op h
      rcases List.mem_append.mp h with h | h
      · exact ha op h
      · rw [List.mem_singleton.mp h]; trivial
    · unfold runOps at hn ⊢
      rw [List.foldl_append, hn]
      rfl
    · exact h2
    · exact h5
    · have := C50_last n [(1, true)] 0
      show (n.setEnabled 1 true).isEnabled 1 = true
      simpa [bitAt] using this

/-! ## C75: the TID of an answer -/

theorem tid_bytes (m : Msg) : ((encode m).drop 2).take 2 = beDigits m.tid 2 := by
  have h : (beDigits m.tid 2).length = 2 := by simp [beDigits]
  unfold encode encHeader
  simp only [List.append_assoc, List.cons_append, List.nil_append, List.drop_succ_cons, List.drop_zero]
  rw [List.take_append_of_le_length (by omega), List.take_of_length_le (by omega)]

/-- C75 for requests with a TID other than 0: every datagram sent in answer has the TID of the request. -/
theorem C75_same_tid_partial {ord : List Int → List Int} (hord : ValidOrder ord) {n : LocalNode} (hr : Reachable ord n)
    (env : Env) (net : Net) (m : Msg) (hm : Encodable m) (hd : 0 ≤ m.deoj ∧ m.deoj < 2 ^ 24)
    (ht : 1 ≤ m.tid ∧ m.tid ≤ 65535) :
    ∃ new, (n.messageReceived env net m).1.mgr.log = n.mgr.log ++ new ∧
      ∀ x ∈ new, (x.1.bytes.drop 2).take 2 = beDigits m.tid 2 := by
  cases ho : n.getObject (.int m.deoj) with
  | none =>
    rw [C48_unknown env net n m hm hd ho]
    exact ⟨[], by simp, by simp⟩
  | some o =>
    obtain ⟨-, -, new, h1, h2, h3⟩ := C48_dispatch hord hr env net m hm hd o ho
    refine ⟨new, h1, ?_⟩
    by_cases hres : ∃ res, (o.messageReceived env (received m)).result = .ok (some res)
    · obtain ⟨res, hres⟩ := hres
      obtain ⟨t, ht1, -, hb, -⟩ := h3 res hres
      have htid : res.tid = m.tid := by
        rw [(C13_addressing env o (received m) res hres).1]
        show m.tid % 2 ^ 16 = m.tid
        omega
      intro x hx
      rw [(hb x hx).1, tid_bytes, ht1 (by omega), htid]
    · rw [h2 (fun res h => hres ⟨res, h⟩)]
      simp

/-- C75 as stated is false: the answer to a request with TID 0 never has TID 0 (it gets the next automatic
TID); and there are nodes that answer such a request. -/
theorem C75_same_tid_false {ord : List Int → List Int} (hord : ValidOrder ord) :
    (∀ n, Reachable ord n → ∀ env net m, Encodable m → 0 ≤ m.deoj ∧ m.deoj < 2 ^ 24 → m.tid = 0 →
      ∃ new, (n.messageReceived env net m).1.mgr.log = n.mgr.log ++ new ∧
        ∀ x ∈ new, (x.1.bytes.drop 2).take 2 ≠ beDigits m.tid 2) ∧
    ∃ n env net m, Reachable ord n ∧ Encodable m ∧ (0 ≤ m.deoj ∧ m.deoj < 2 ^ 24) ∧ m.tid = 0 ∧
      (n.messageReceived env net m).1.mgr.log.length = n.mgr.log.length + 1 := by
  refine ⟨?_, ?_⟩
  · intro n hr env net m hm hd ht
    cases ho : n.getObject (.int m.deoj) with
    | none =>
      rw [C48_unknown env net n m hm hd ho]
      exact ⟨[], by simp, by simp⟩
    | some o =>
      obtain ⟨-, -, new, h1, h2, h3⟩ := C48_dispatch hord hr env net m hm hd o ho
      refine ⟨new, h1, ?_⟩
      by_cases hres : ∃ res, (o.messageReceived env (received m)).result = .ok (some res)
      · obtain ⟨res, hres⟩ := hres
        obtain ⟨t, -, ht1, hb, -⟩ := h3 res hres
        have htid : res.tid = 0 := by
          rw [(C13_addressing env o (received m) res hres).1]
          show m.tid % 2 ^ 16 = 0
          omega
        have hr := ht1 htid
        intro x hx
        rw [(hb x hx).1, tid_bytes, ht]
        intro heq
        have e1 := congrArg toInt heq
        rw [toInt_beDigits, toInt_beDigits] at e1
        simp only [] at e1
        omega
      · rw [h2 (fun res h => hres ⟨res, h⟩)]
        simp
  · obtain ⟨n, h1, h2, h3, h4, h5, -⟩ := reach_started hord 1 (by decide)
    let m : Msg := { SearchMessage with fromAddr := some ("10.0.0.9", 3610) }
    have hq : IsReadOf m 0x0EF001 0xD6 := ⟨rfl, (by decide : (0x0EF001 : Int) % 2 ^ 24 = 0x0EF001), [], rfl, by decide⟩
    obtain ⟨-, i, b, hb, -⟩ := C46_answered_partial hord h1 h2 (by rw [h4]; simp) exEnv okNet (fun _ _ _ _ => rfl) h5 m
      ("10.0.0.9", 3610) rfl hq (fun _ _ => rfl)
    refine ⟨n, exEnv, okNet, m, h1, hq.encodable, by decide, rfl, ?_⟩
    rw [hb]
    simp

/-! ## C76: the interfaces given to start -/

/-- C76 as stated is false: `start([…])` with another address than that of the machine's interface
succeeds and opens servers on that interface only. -/
theorem C76_interfaces_false {ord : List Int → List Int} (hord : ValidOrder ord) :
    ∃ n, Reachable ord n ∧ ∃ net, (n.start net none ["192.168.0.7"]).2 = .ok true ∧
      ∀ s ∈ (n.start net none ["192.168.0.7"]).1.mgr.servers, s.ifaddr = "10.0.0.2" := by
  obtain ⟨n, h1, -⟩ := reach_many hord ⟨[], 0, 0⟩ 0 (by decide)
  have k1 := C53_start_works okNet n.mgr [] (fun _ _ _ => rfl) (fun _ => rfl) (by decide +kernel)
  have k2 := (C53_start_true okNet n.mgr [] k1).1
  refine ⟨n, h1, okNet, ?_⟩
  unfold LocalNode.start
  generalize n.mgr.start okNet none [] = q at *
  rcases q with ⟨g, r⟩
  simp only [] at k1 k2
  rw [k1]
  refine ⟨rfl, ?_⟩
  unfold Manager.addObserver
  simp only []
  rw [k2]
  decide +kernel

/-- C76, what there is instead: a started node listens and sends on every interface of the machine but
the loopback, and its address is that of the first. -/
theorem C76_interfaces_partial (n : LocalNode) (net : Net) (ifaddrs : List String)
    (h : (n.start net none ifaddrs).2 = .ok true) :
    (n.start net none ifaddrs).1.mgr.servers.map (fun s => (s.kind, s.ifaddr, s.open_)) =
      (addresses net.interfaces).flatMap (fun a => [(.unicast, a, true), (.multicast, a, true)]) ∧
    ∃ a as, addresses net.interfaces = a :: as ∧ (n.start net none ifaddrs).1.node.address = some (a, 3610) := by
  unfold LocalNode.start at h ⊢
  have k2 := C53_start_true net n.mgr []
  generalize n.mgr.start net none [] = q at *
  rcases q with ⟨g, e | (_ | _)⟩
  · cases h
  · cases h
  obtain ⟨k2, k3⟩ := k2 rfl
  have ea : addressesFor net [] = addresses net.interfaces := by
    unfold addressesFor
    rw [if_pos (by rfl)]
  rw [ea] at k2 k3
  simp only [] at k2 ⊢
  refine ⟨?_, ?_⟩
  · unfold Manager.addObserver
    simp only []
    rw [k2, List.map_map]
    unfold serversFor
    rw [List.map_flatMap]
    rfl
  · cases hc : addresses net.interfaces with
    | nil => exact absurd hc k3
    | cons a as =>
      refine ⟨a, as, rfl, ?_⟩
      rw [hc] at k2
      have e1 : g.ifaddr = a := by unfold Manager.ifaddr; rw [k2]; rfl
      have e2 : g.port = 3610 := by unfold Manager.port; rw [k2]; rfl
      rw [e1, e2]
      rfl

end Uecho
