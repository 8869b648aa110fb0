/- Properties C59–C63, C67 and C77–C83: what a controller knows, tells its listeners, and sends. -/
import Verif.Lemmas.Controller
import Verif.Lemmas.Calls

namespace Uecho
open Spec

/-! ### Found nodes -/

theorem nodes_keys (c : Ctl) (h : FoundInv c) : c.nodes.map ipOf = Dict.keys c.found := by
  unfold Ctl.nodes Dict.values Dict.keys
  rw [List.map_map]
  apply List.map_congr_left
  intro x hx
  obtain ⟨ip, r⟩ := x
  have := Dict.get?_of_mem c.found ip r h.keys hx
  obtain ⟨p, hp⟩ := (h.nodes ip r this).addr
  show ipOf r = ip
  unfold ipOf
  rw [hp]

/-- C59. After any use of a controller: there is at most one node per address; the node found under an
address is the one of the latest valid instance list from there, with the profile and the instances listed
and linked to the controller; there is none if there was no such list. -/
theorem C59_nodes {ord : List Int → List Int} (hord : ValidOrder ord) {c : Ctl} {ops : List CtlOp} (h : CtlReach ord c ops) :
    (c.nodes.map ipOf).Nodup ∧
    (∀ ip, latest (heard ops) ip = none → ∀ r ∈ c.nodes, ipOf r ≠ ip) ∧
    (∀ ip a l, latest (heard ops) ip = some (a, l) → ∃ r ∈ c.nodes, r.node.address = some a ∧ a.1 = ip ∧ r.linked = true ∧
      r.node.objectList.map Obj.code = addCodes [0x0EF001] l) := by
  obtain ⟨hi, hk⟩ := reach_knows hord h
  refine ⟨by rw [nodes_keys c hi]; exact hi.keys, ?_, ?_⟩
  · intro ip hl r hr e
    have h1 := hk ip
    rw [hl, Option.map_none, Option.map_eq_none_iff, Dict.get?_eq_none_iff] at h1
    apply h1
    rw [← nodes_keys c hi, ← e]
    exact List.mem_map_of_mem hr
  · intro ip a l hl
    have h1 := hk ip
    rw [hl, Option.map_some] at h1
    obtain ⟨r, hr, he⟩ := Option.map_eq_some_iff.mp h1
    injection he with e1 e2
    have hri := hi.nodes ip r hr
    refine ⟨r, List.mem_map_of_mem (f := Prod.snd) (Dict.mem_of_get? _ _ _ hr), e1, ?_, hri.linked, ?_⟩
    · obtain ⟨p, hp⟩ := hri.addr
      rw [e1] at hp
      injection hp with hp
      exact congrArg Prod.fst hp
    · rw [← e2]
      unfold Node.objectList Dict.values Dict.keys
      rw [List.map_map]
      apply List.map_congr_left
      intro x hx
      exact (hri.objs x.1 x.2 (Dict.get?_of_mem _ _ _ hri.keys hx)).2

/-- C59. `get_node` with a pair returns the node with that address among `nodes`, whatever the port. -/
theorem C59_get_node {ord : List Int → List Int} (hord : ValidOrder ord) {c : Ctl} {ops : List CtlOp} (h : CtlReach ord c ops)
    (cenv : CEnv) (ip : String) (p : Int) :
    (latest (heard ops) ip = none → c.getNode cenv (.pair (ip, p)) = .ok none) ∧
    ∀ a l, latest (heard ops) ip = some (a, l) → ∃ r ∈ c.nodes, c.getNode cenv (.pair (ip, p)) = .ok (some r) ∧ r.node.address = some a := by
  obtain ⟨hi, hk⟩ := reach_knows hord h
  have hg : c.getNode cenv (.pair (ip, p)) = .ok (Dict.get? c.found ip) := getNodeLoop_pair cenv (ip, p) c.found
  rw [hg]
  have h1 := hk ip
  constructor
  · intro hl
    rw [hl, Option.map_none, Option.map_eq_none_iff] at h1
    rw [h1]
  · intro a l hl
    rw [hl, Option.map_some] at h1
    obtain ⟨r, hr, he⟩ := Option.map_eq_some_iff.mp h1
    injection he with e1 e2
    exact ⟨r, List.mem_map_of_mem (f := Prod.snd) (Dict.mem_of_get? _ _ _ hr), by rw [hr], e1⟩

theorem find_key (d : Dict String Remote) (ip : String) : (d.find? fun x => decide (x.1 = ip)).map Prod.snd = Dict.get? d ip := by
  induction d with
  | nil => rfl
  | cons x d ih =>
    obtain ⟨k, r⟩ := x
    unfold Dict.get?
    by_cases h : k = ip
    · simp [h]
    · simp [h, ih]

/-- C59. `get_node` with an address that resolves to itself finds the same node. -/
theorem C59_by_address (c : Ctl) (cenv : CEnv) (ip : String) (p : Int) (hres : cenv.resolve ip = .ok ip) :
    c.getNode cenv (.str ip) = c.getNode cenv (.pair (ip, p)) := by
  unfold Ctl.getNode
  rw [getNodeLoop_str cenv ip ip hres, getNodeLoop_pair]
  simp only [or_self]
  rw [find_key]

/-- C59. `get_node` with a host name that is not itself an address finds the node at the address it
resolves to. -/
theorem C59_by_name (c : Ctl) (cenv : CEnv) (s ip : String) (p : Int) (hres : cenv.resolve s = .ok ip) (hs : s ∉ Dict.keys c.found) :
    c.getNode cenv (.str s) = c.getNode cenv (.pair (ip, p)) := by
  unfold Ctl.getNode
  rw [getNodeLoop_str cenv s ip hres, getNodeLoop_pair, ← find_key]
  have : c.found.find? (fun x => decide (x.1 = s ∨ x.1 = ip)) = c.found.find? (fun x => decide (x.1 = ip)) := by
    have : ∀ d : Dict String Remote, s ∉ Dict.keys d → d.find? (fun x => decide (x.1 = s ∨ x.1 = ip)) = d.find? (fun x => decide (x.1 = ip)) := by
      intro d hd
      induction d with
      | nil => rfl
      | cons x d ih =>
        obtain ⟨k, r⟩ := x
        simp only [Dict.keys, List.map_cons, List.mem_cons, not_or] at hd
        have h1 : ¬ k = s := fun e => hd.1 e.symm
        by_cases h2 : k = ip
        · simp [h2]
        · rw [List.find?_cons_of_neg (by simp [h1, h2]), List.find?_cons_of_neg (by simp [h2])]
          exact ih hd.2
    exact this c.found hs
  rw [this]

/-- An announcement of instances (from a node at `ip`). -/
def exList (ip : String) (codes : List Int) : Msg :=
  { tid := 5, seoj := 0x0EF001, deoj := 0x0EF001, esv := 0x73, fromAddr := some (ip, 3610)
    props := [{ code := 0xD5, data := UInt8.ofNat codes.length :: codeBytes codes }] }

/-- Nobody raises; names resolve to themselves. -/
def calmEnv : CEnv := { resolve := fun s => .ok s, listen := fun _ _ _ => none }

theorem calmEnv_calm : Calm calmEnv := fun _ _ _ => rfl

theorem exEnv_stable : CodeStable exEnv := fun _ _ => ⟨fun _ => rfl, fun _ _ => rfl⟩

/-- A history: a listener, two announcements of a node (with different instances), one of another. -/
def exHistory : List CtlOp :=
  [.listen 7, .receive exEnv calmEnv okNet (exList "10.0.0.9" [0x029101]),
   .receive exEnv calmEnv okNet (exList "10.0.0.8" [0x013001]),
   .receive exEnv calmEnv okNet (exList "10.0.0.9" [0x029101, 0x029102])]

theorem exHistory_allowed : ∀ op ∈ exHistory, op.Allowed := by
  have h : ∀ m, Delivered m → (CtlOp.receive exEnv calmEnv okNet m).Allowed := fun m hm => ⟨hm, calmEnv_calm, exEnv_stable⟩
  intro op hop
  simp only [exHistory, List.mem_cons, List.not_mem_nil, or_false] at hop
  rcases hop with rfl | rfl | rfl | rfl
  · trivial
  · exact h _ ⟨by decide +kernel, rfl⟩
  · exact h _ ⟨by decide +kernel, rfl⟩
  · exact h _ ⟨by decide +kernel, rfl⟩

def exRandom : NodeProfile.Random := ⟨[], 0, 0⟩

theorem exHistory_reach {ord : List Int → List Int} :
    CtlReach ord (runCtl ord (Ctl.new ord exRandom).1 exHistory) exHistory := ⟨exRandom, exHistory_allowed, rfl⟩

example : (latest (heard exHistory) "10.0.0.9", latest (heard exHistory) "10.0.0.8", latest (heard exHistory) "10.0.0.7") =
    (some (("10.0.0.9", 3610), [0x029101, 0x029102]), some (("10.0.0.8", 3610), [0x013001]), none) := by decide +kernel

/-! ### Listeners -/

/-- What a valid instance list makes listeners hear. -/
theorem list_told {ord : List Int → List Int} (hord : ValidOrder ord) {c : Ctl} {ops : List CtlOp} (h : CtlReach ord c ops)
    (env : Env) {cenv : CEnv} (hc : Calm cenv) (net : Net) (m : Msg) (hd : Delivered m) (a : Addr) (l : List Int) (ha : announced m = some (a, l)) :
    toldAll (c.messageReceived ord env cenv net m).1 = toldAll c ++ tellAll c.listeners (.nodeAdd a.1) ++
      (changes (devObj ord 0x0EF001) m.props).flatMap (fun i => tellAll c.listeners (.propertyUpdated a.1 0x0EF001 i.code i.data)) ++
      (if changes (devObj ord 0x0EF001) m.props = [] then [] else tellAll c.listeners (.objectUpdated a.1 0x0EF001) ++ tellAll c.listeners (.nodeAdd a.1)) := by
  obtain ⟨hi, -⟩ := reach_knows hord h
  have hx := ha
  unfold announced at ha
  split at ha
  · rename_i hcond
    obtain ⟨he, hdeoj⟩ := hcond
    split at ha
    · rename_i b l' hf hl
      cases ha
      have h2 : ¬ TwoSections m.esv := by unfold TwoSections; omega
      rcases receive_cases hord env hc net c hi m a hf hd.1 with ⟨-, e, -⟩ | ⟨-, e, -⟩
      · rw [e] at hx; cases hx
      · rw [e, received_props m h2, hdeoj]
        unfold afterList reportTold
        rw [hx]
        simp only []
        rw [Dict.get?_set, if_pos rfl]
        simp only []
        rw [listedNode_get?, if_pos (Or.inl rfl)]
        simp only []
        rw [← List.append_assoc]
        congr 1
        congr 1
        exact toldAll_notify c _ _ _ rfl
    · cases ha
  · cases ha

/-- C60 but for what the name says of later lists: a valid instance list makes every listener hear
`node_add` with the sender's node, in the order of registration, before anything else. That later lists from
the same address should be told as updates instead is false (next theorem). -/
theorem C60_addition_partial {ord : List Int → List Int} (hord : ValidOrder ord) {c : Ctl} {ops : List CtlOp} (h : CtlReach ord c ops)
    (env : Env) {cenv : CEnv} (hc : Calm cenv) (net : Net) (m : Msg) (hd : Delivered m) (a : Addr) (l : List Int) (ha : announced m = some (a, l)) :
    ∃ rest, toldAll (c.messageReceived ord env cenv net m).1 = toldAll c ++ tellAll c.listeners (.nodeAdd a.1) ++ rest := by
  rw [list_told hord h env hc net m hd a l ha, List.append_assoc]
  exact ⟨_, rfl⟩

example : announced (exList "10.0.0.9" [0x029101]) = some (("10.0.0.9", 3610), [0x029101]) := by decide +kernel

/-- nobody is ever told of an updated node -/
theorem never_updated {ord : List Int → List Int} (hord : ValidOrder ord) {c : Ctl} {ops : List CtlOp} (h : CtlReach ord c ops) :
    ∀ x ∈ toldAll c, ∀ ip, x.2 ≠ .nodeUpdated ip := by
  obtain ⟨rnd, ha, rfl⟩ := h
  obtain ⟨n, hn, -⟩ := ctl_new hord rnd
  rw [hn]
  have h0 : Knows { ln := n } [] := ⟨⟨by simp [Dict.keys], by intro ip r h; cases h⟩, by intro ip; rfl⟩
  have key : ∀ (ops : List CtlOp) (c : Ctl) (ms : List Msg), Knows c ms → (∀ op ∈ ops, op.Allowed) → (∀ x ∈ toldAll c, ∀ ip, x.2 ≠ .nodeUpdated ip) →
      ∀ x ∈ toldAll (runCtl ord c ops), ∀ ip, x.2 ≠ .nodeUpdated ip := by
    intro ops
    induction ops with
    | nil => intro c ms _ _ h; exact h
    | cons op ops ih =>
      intro c ms hk ha hx
      apply ih (op.run ord c) _ (knows_step hord c ms hk op (ha op List.mem_cons_self)) (fun x hx => ha x (List.mem_cons_of_mem _ hx))
      by_cases hop : ∃ env cenv net m, op = .receive env cenv net m
      · obtain ⟨env, cenv, net, m, rfl⟩ := hop
        obtain ⟨hd, hc, -⟩ := ha _ List.mem_cons_self
        obtain ⟨a, hfa⟩ := Option.isSome_iff_exists.mp hd.2
        have htell : ∀ (ls : List Nat) (t : Told), (∀ ip, t ≠ .nodeUpdated ip) → ∀ x ∈ tellAll ls t, ∀ ip, x.2 ≠ .nodeUpdated ip := by
          intro ls t ht x hx ip
          obtain ⟨y, -, rfl⟩ := List.mem_map.mp hx
          exact ht ip
        rcases receive_cases hord env hc net c hk.1 m a hfa hd.1 with ⟨-, -, e, -⟩ | ⟨-, e, -⟩
        · show ∀ x ∈ toldAll (c.messageReceived ord env cenv net m).1, _
          rw [e]; exact hx
        · show ∀ x ∈ toldAll (c.messageReceived ord env cenv net m).1, _
          rw [e]
          intro x hmem
          rcases List.mem_append.mp hmem with hmem | hmem
          · revert hmem
            unfold afterList
            cases announced m with
            | none => exact hx x
            | some y =>
              obtain ⟨b, l⟩ := y
              intro hmem
              have := (toldAll_notify c (Call.nodeAdd { node := listedNode ord b l }) c.found _ rfl)
              unfold toldAll at hmem
              rw [show List.map _ _ = _ from this] at hmem
              rcases List.mem_append.mp hmem with hmem | hmem
              · exact hx x hmem
              · exact htell _ _ (by intro ip; simp [told]) x hmem
          · revert hmem
            unfold reportTold
            cases Dict.get? (afterList ord c m).found a.1 with
            | none => intro h; cases h
            | some r =>
              simp only []
              cases Dict.get? r.node.objects (m.deoj % 2 ^ 24) with
              | none => intro h; cases h
              | some o =>
                intro hmem
                simp only [] at hmem
                rcases List.mem_append.mp hmem with hmem | hmem
                · obtain ⟨i, -, hmem⟩ := List.mem_flatMap.mp hmem
                  exact htell _ _ (by intro ip; simp) x hmem
                · split at hmem
                  · cases hmem
                  · rcases List.mem_append.mp hmem with hmem | hmem
                    · exact htell _ _ (by intro ip; simp) x hmem
                    · exact htell _ _ (by intro ip; simp) x hmem
      · have := (run_other ord c op (fun env cenv net m e => hop ⟨env, cenv, net, m, e⟩)).2
        unfold toldAll
        rw [this]
        exact hx
  exact key ops _ [] h0 ha (by intro x hx; cases hx)

/-- C60 as stated is false: no listener of any controller is ever told of an updated node; in a history
with two lists from one address there was somebody to tell. -/
theorem C60_updates_false {ord : List Int → List Int} (hord : ValidOrder ord) :
    (∀ c ops, CtlReach ord c ops → ∀ x ∈ toldAll c, ∀ ip, x.2 ≠ .nodeUpdated ip) ∧
    ∃ c ops, CtlReach ord c ops ∧ c.listeners = [7] ∧ ((heard ops).filterMap announced).map (fun x => x.1.1) = ["10.0.0.9", "10.0.0.8", "10.0.0.9"] := by
  refine ⟨fun c ops h => never_updated hord h, _, exHistory, exHistory_reach, ?_, by decide +kernel⟩
  obtain ⟨n, hn, -⟩ := ctl_new hord exRandom
  rw [hn]
  have hl : ∀ (c : Ctl) (m : Msg) (a : Addr), FoundInv c → m.fromAddr = some a → Encodable m →
      (c.messageReceived ord exEnv calmEnv okNet m).1.listeners = c.listeners := by
    intro c m a hi ha hm
    rcases receive_cases hord exEnv calmEnv_calm okNet c hi m a ha hm with ⟨-, -, -, e⟩ | ⟨-, -, e⟩ <;> exact e
  have hinv : ∀ (c : Ctl) (m : Msg), FoundInv c → Delivered m → FoundInv (c.messageReceived ord exEnv calmEnv okNet m).1 :=
    fun c m hi hd => receive_inv_found hord exEnv calmEnv_calm okNet c hi m hd
  have d1 : Delivered (exList "10.0.0.9" [0x029101]) := ⟨by decide +kernel, rfl⟩
  have d2 : Delivered (exList "10.0.0.8" [0x013001]) := ⟨by decide +kernel, rfl⟩
  have d3 : Delivered (exList "10.0.0.9" [0x029101, 0x029102]) := ⟨by decide +kernel, rfl⟩
  have i0 : FoundInv (({ ln := n } : Ctl).addListener 7) := ⟨by simp [Dict.keys, Ctl.addListener], by intro ip r h; cases h⟩
  have i1 := hinv _ _ i0 d1
  have i2 := hinv _ _ i1 d2
  show ((((({ ln := n } : Ctl).addListener 7).messageReceived ord exEnv calmEnv okNet (exList "10.0.0.9" [0x029101])).1.messageReceived ord exEnv calmEnv okNet
    (exList "10.0.0.8" [0x013001])).1.messageReceived ord exEnv calmEnv okNet (exList "10.0.0.9" [0x029101, 0x029102])).1.listeners = [7]
  rw [hl _ _ ("10.0.0.9", 3610) i2 rfl d3.1, hl _ _ ("10.0.0.8", 3610) i1 rfl d2.1, hl _ _ ("10.0.0.9", 3610) i0 rfl d1.1]
  rfl

/-- The profile of a freshly found node knows 0xD5 and 0xD6, without data. -/
theorem profile_lists {ord : List Int → List Int} (hord : ValidOrder ord) (pc : Int) (h : pc = 0xD5 ∨ pc = 0xD6) :
    ∃ p, lookup (devObj ord 0x0EF001).props pc = some p ∧ p.data = [] := by
  obtain ⟨o, h1, -, -, -, -, h6⟩ := C39_device_properties ord hord (.int 0x0EF001) 0x0EF001 rfl
  have ho : devObj ord 0x0EF001 = o := by unfold devObj; rw [h1]
  rw [ho]
  have hd : ∀ pc, pc = 0xD5 ∨ pc = 0xD6 → (deviceProp 0x0E 0xF0 pc).map OProp.data = some [] := by
    rintro pc (rfl | rfl)
    · decide +kernel
    · decide +kernel
  have := h6 pc (by omega) (by omega) (by omega)
  rw [this]
  have h7 := hd pc h
  rw [show (0x0EF001 : Int) / 65536 % 256 = 0x0E from by decide, show (0x0EF001 : Int) / 256 % 256 = 0xF0 from by decide]
  cases hp : deviceProp 0x0E 0xF0 pc with
  | none => rw [hp] at h7; cases h7
  | some p =>
    rw [hp] at h7
    exact ⟨p, rfl, by injection h7⟩

/-- C60 is false also of a single message: every valid instance list, be it the first from its address, is
told to every listener as an addition twice. -/
theorem C60_twice_false {ord : List Int → List Int} (hord : ValidOrder ord) {c : Ctl} {ops : List CtlOp} (h : CtlReach ord c ops)
    (env : Env) {cenv : CEnv} (hc : Calm cenv) (net : Net) (m : Msg) (hd : Delivered m) (a : Addr) (l : List Int) (ha : announced m = some (a, l)) :
    ∃ mid, toldAll (c.messageReceived ord env cenv net m).1 =
      toldAll c ++ tellAll c.listeners (.nodeAdd a.1) ++ mid ++ tellAll c.listeners (.nodeAdd a.1) := by
  rw [list_told hord h env hc net m hd a l ha]
  have hne : changes (devObj ord 0x0EF001) m.props ≠ [] := by
    unfold announced at ha
    split at ha
    · split at ha
      · rename_i hl
        unfold instanceListOf at hl
        split at hl
        · cases hl
        · rename_i p ps hp
          split at hl
          · rename_i hpc
            split at hl
            · cases hl
            · rename_i b rest hpd
              rw [hp]
              obtain ⟨q, hq, hqd⟩ := profile_lists hord p.code hpc
              unfold changes
              rw [hq]
              simp only []
              rw [if_neg (by rw [hqd, hpd]; simp)]
              simp
          · cases hl
      · cases ha
    · cases ha
  rw [if_neg hne]
  refine ⟨(changes (devObj ord 0x0EF001) m.props).flatMap (fun i => tellAll c.listeners (.propertyUpdated a.1 0x0EF001 i.code i.data)) ++
    tellAll c.listeners (.objectUpdated a.1 0x0EF001), ?_⟩
  simp only [List.append_assoc]

/-- C77. A report (0x72 or 0x73 to the node profile, not an instance list) from a known node makes every
listener hear of each property whose stored data it changes, in order, then, if there was any, of the object
and of the node; nothing else. -/
theorem C77_told {ord : List Int → List Int} (hord : ValidOrder ord) {c : Ctl} {ops : List CtlOp} (h : CtlReach ord c ops)
    (env : Env) {cenv : CEnv} (hc : Calm cenv) (net : Net) (m : Msg) (hd : Delivered m) (he : m.esv = 0x72 ∨ m.esv = 0x73)
    (hdeoj : m.deoj % 2 ^ 24 = 0x0EF001) (hl : instanceListOf m = .notAList) (a : Addr) (ha : m.fromAddr = some a)
    (r : Remote) (hk : c.getNode cenv (.pair a) = .ok (some r)) (o : Obj) (ho : r.node.getObject (.int 0x0EF001) = some o) :
    (c.messageReceived ord env cenv net m).2 = .ok () ∧
    toldAll (c.messageReceived ord env cenv net m).1 = toldAll c ++
      (changes o m.props).flatMap (fun i => tellAll c.listeners (.propertyUpdated a.1 0x0EF001 i.code i.data)) ++
      (if changes o m.props = [] then [] else tellAll c.listeners (.objectUpdated a.1 0x0EF001) ++ tellAll c.listeners (.nodeAdd a.1)) := by
  obtain ⟨hi, -⟩ := reach_knows hord h
  have hk' : Dict.get? c.found a.1 = some r := by
    have := (getNodeLoop_pair cenv a c.found).symm.trans hk
    injection this
  have ho' : Dict.get? r.node.objects 0x0EF001 = some o := ho
  have h2 : ¬ TwoSections m.esv := by unfold TwoSections; omega
  have hann : announced m = none := by
    unfold announced
    rw [if_pos ⟨he, hdeoj⟩, hl]
    cases m.fromAddr <;> rfl
  have hal : afterList ord c m = c := by unfold afterList; rw [hann]
  obtain ⟨c', e1, -, -, -, -, e6⟩ := response_known hord env hc net c hi m a ha hd.1 (by unfold Reports; omega)
    (fun x => x.2 hdeoj) (by rintro ⟨-, x⟩; rw [hl] at x; cases x) r (by rw [hal]; exact hk')
  rw [hal, hdeoj, received_props m h2] at e6
  rw [e1]
  refine ⟨rfl, ?_⟩
  show toldAll (c'.receiveResponse (received m)) = _
  rw [(receiveResponse_found c' (received m)).2.2.2, e6]
  unfold reportTold
  rw [hk']
  simp only []
  rw [ho', List.append_assoc]

/-- After the example history the node at 10.0.0.9 is known, with a profile object and the instances listed. -/
theorem exKnown {ord : List Int → List Int} (hord : ValidOrder ord) (cenv : CEnv) (code : Int) (hcode : code ∈ [0x0EF001, 0x029101, 0x029102]) :
    ∃ r o, (runCtl ord (Ctl.new ord exRandom).1 exHistory).getNode cenv (.pair ("10.0.0.9", 3610)) = .ok (some r) ∧
      r.node.getObject (.int code) = some o := by
  obtain ⟨hi, hk⟩ := reach_knows hord exHistory_reach
  have h1 := hk "10.0.0.9"
  rw [show latest (heard exHistory) "10.0.0.9" = some (("10.0.0.9", 3610), [0x029101, 0x029102]) by decide +kernel, Option.map_some] at h1
  obtain ⟨r, hr, he⟩ := Option.map_eq_some_iff.mp h1
  injection he with e1 e2
  have hmem : code ∈ Dict.keys r.node.objects := by
    rw [e2]
    exact (mem_addCodes _ _ _).mpr (by
      simp only [List.mem_cons, List.not_mem_nil, or_false] at hcode ⊢
      exact hcode)
  obtain ⟨o, ho⟩ := Option.isSome_iff_exists.mp ((Dict.get?_isSome_iff _ _).mpr hmem)
  refine ⟨r, o, ?_, ho⟩
  unfold Ctl.getNode
  rw [getNodeLoop_pair]
  show Except.ok (Dict.get? _ "10.0.0.9") = _
  rw [hr]

/-- A report of one property, of a device or of the profile. -/
def exReport (seoj : Int) : Msg :=
  { tid := 6, seoj := seoj, deoj := 0x0EF001, esv := 0x73, fromAddr := some ("10.0.0.9", 3610)
    props := [{ code := 0x80, data := [0x31] }] }

example : Delivered (exReport 0x0EF001) ∧ instanceListOf (exReport 0x0EF001) = .notAList := ⟨⟨by decide +kernel, rfl⟩, rfl⟩

/-! ### Reported values -/

/-- What a report changes, of any controller: nothing but the object of the sender's node named by DEOJ. -/
theorem report_effect {ord : List Int → List Int} (hord : ValidOrder ord) {c : Ctl} {ops : List CtlOp} (h : CtlReach ord c ops)
    (env : Env) {cenv : CEnv} (hc : Calm cenv) (net : Net) (m : Msg) (hd : Delivered m) (he : m.esv = 0x72 ∨ m.esv = 0x73)
    (hl : instanceListOf m = .notAList) (a : Addr) (ha : m.fromAddr = some a)
    (r : Remote) (hk : Dict.get? c.found a.1 = some r) :
    (m.deoj % 2 ^ 24 = 0x0EF001 → ∀ o, Dict.get? r.node.objects 0x0EF001 = some o →
      (c.messageReceived ord env cenv net m).1.found = Dict.modify c.found a.1 (fun _ => r.putObj 0x0EF001 (afterWrites o m.props))) ∧
    (m.deoj % 2 ^ 24 ≠ 0x0EF001 → (c.messageReceived ord env cenv net m).1.found = c.found) := by
  obtain ⟨hi, -⟩ := reach_knows hord h
  constructor
  · intro hdeoj o ho
    have h2 : ¬ TwoSections m.esv := by unfold TwoSections; omega
    have hann : announced m = none := by
      unfold announced
      rw [if_pos ⟨he, hdeoj⟩, hl]
      cases m.fromAddr <;> rfl
    have hal : afterList ord c m = c := by unfold afterList; rw [hann]
    obtain ⟨c', e1, e2, -⟩ := response_known hord env hc net c hi m a ha hd.1 (by unfold Reports; omega)
      (fun x => x.2 hdeoj) (by rintro ⟨-, x⟩; rw [hl] at x; cases x) r (by rw [hal]; exact hk)
    rw [e1]
    show (c'.receiveResponse (received m)).found = _
    rw [(receiveResponse_found c' (received m)).1, e2, hal, hdeoj, received_props m h2]
    unfold reportTo
    rw [hk]
    simp only []
    rw [ho]
  · intro hdeoj
    rw [response_misdirected ord env cenv net c m hd.1 he hdeoj]

/-- C61 for the node profile, the only object whose reports are stored where they belong: after a report
from the profile of a known node to the controller's profile, the controller's copy of the profile holds, for
every property it knows, the (last) value reported; the rest of the node and the other nodes are unchanged. -/
theorem C61_profile_partial {ord : List Int → List Int} (hord : ValidOrder ord) {c : Ctl} {ops : List CtlOp} (h : CtlReach ord c ops)
    (env : Env) {cenv : CEnv} (hc : Calm cenv) (net : Net) (m : Msg) (hd : Delivered m) (he : m.esv = 0x72 ∨ m.esv = 0x73)
    (_hseoj : m.seoj % 2 ^ 24 = 0x0EF001) (hdeoj : m.deoj % 2 ^ 24 = 0x0EF001) (hl : instanceListOf m = .notAList)
    (a : Addr) (ha : m.fromAddr = some a)
    (r : Remote) (hk : c.getNode cenv (.pair a) = .ok (some r)) (o : Obj) (ho : r.node.getObject (.int 0x0EF001) = some o) :
    let c' := (c.messageReceived ord env cenv net m).1
    ∃ r', c'.getNode cenv (.pair a) = .ok (some r') ∧
      (∀ x, x ≠ 0x0EF001 → r'.node.getObject (.int x) = r.node.getObject (.int x)) ∧
      (∃ o', r'.node.getObject (.int 0x0EF001) = some o' ∧
        ∀ pc, lookup o'.props pc = (lookup o.props pc).map (fun p => { p with data := (lastFor m.props pc).getD p.data })) ∧
      ∀ b : Addr, b.1 ≠ a.1 → c'.getNode cenv (.pair b) = c.getNode cenv (.pair b) := by
  intro c'
  have hk' : Dict.get? c.found a.1 = some r := by
    have := (getNodeLoop_pair cenv a c.found).symm.trans hk
    injection this
  have ho' : Dict.get? r.node.objects 0x0EF001 = some o := ho
  have e := (report_effect hord h env hc net m hd he hl a ha r hk').1 hdeoj o ho'
  change c'.found = _ at e
  have hg : ∀ b, c'.getNode cenv (.pair b) = .ok (Dict.get? c'.found b.1) := fun b => getNodeLoop_pair cenv b c'.found
  refine ⟨r.putObj 0x0EF001 (afterWrites o m.props), ?_, ?_, ?_, ?_⟩
  · rw [hg, e, Dict.get?_modify, if_pos rfl, hk']
    rfl
  · intro x hx
    show Dict.get? (r.putObj _ _).node.objects x = Dict.get? r.node.objects x
    rw [get?_putObj, if_neg (fun e => hx e.symm)]
  · refine ⟨afterWrites o m.props, ?_, lookup_afterWrites o m.props⟩
    show Dict.get? (r.putObj _ _).node.objects 0x0EF001 = _
    rw [get?_putObj, if_pos rfl, ho']
    rfl
  · intro b hb
    rw [hg, e, Dict.get?_modify, if_neg (fun e => hb e.symm)]
    exact (getNodeLoop_pair cenv b c.found).symm

/-- C61 as stated is false of every device: whatever a message from a device (not an instance list) reports,
and to whom ever, the controller's copy of the device is unchanged. What was reported to the controller's
profile is stored in the copy of the remote profile instead. -/
theorem C61_device_false {ord : List Int → List Int} (hord : ValidOrder ord) :
    (∀ c ops, CtlReach ord c ops → ∀ env cenv, Calm cenv → ∀ net m, Delivered m → (m.esv = 0x72 ∨ m.esv = 0x73) →
      instanceListOf m = .notAList → m.seoj % 2 ^ 24 ≠ 0x0EF001 → ∀ a, m.fromAddr = some a →
      ∀ r, c.getNode cenv (.pair a) = .ok (some r) →
        ∃ r', (c.messageReceived ord env cenv net m).1.getNode cenv (.pair a) = .ok (some r') ∧
          r'.node.getObject (.int (m.seoj % 2 ^ 24)) = r.node.getObject (.int (m.seoj % 2 ^ 24)) ∧
          ∀ o, m.deoj % 2 ^ 24 = 0x0EF001 → r.node.getObject (.int 0x0EF001) = some o →
            r'.node.getObject (.int 0x0EF001) = some (afterWrites o m.props)) ∧
    ∃ c ops r o, CtlReach ord c ops ∧ c.getNode calmEnv (.pair ("10.0.0.9", 3610)) = .ok (some r) ∧
      r.node.getObject (.int 0x029101) = some o ∧ Delivered (exReport 0x029101) ∧ (exReport 0x029101).seoj = 0x029101 := by
  refine ⟨?_, ?_⟩
  · intro c ops h env cenv hc net m hd he hl hseoj a ha r hk
    have hk' : Dict.get? c.found a.1 = some r := by
      have := (getNodeLoop_pair cenv a c.found).symm.trans hk
      injection this
    obtain ⟨h1, h2⟩ := report_effect hord h env hc net m hd he hl a ha r hk'
    have hg : ∀ b, (c.messageReceived ord env cenv net m).1.getNode cenv (.pair b) =
      .ok (Dict.get? (c.messageReceived ord env cenv net m).1.found b.1) := fun b => getNodeLoop_pair cenv b _
    by_cases hdeoj : m.deoj % 2 ^ 24 = 0x0EF001
    · obtain ⟨hi, hkn⟩ := reach_knows hord h
      have hpo : ∃ o, Dict.get? r.node.objects 0x0EF001 = some o := by
        apply Option.isSome_iff_exists.mp
        rw [Dict.get?_isSome_iff]
        have := hkn a.1
        rw [hk', Option.map_some] at this
        obtain ⟨x, -, hx⟩ := Option.map_eq_some_iff.mp this.symm
        injection hx with x1 x2
        rw [← x2]
        exact (mem_addCodes _ _ _).mpr (Or.inl (by simp))
      obtain ⟨o, ho⟩ := hpo
      have e := h1 hdeoj o ho
      refine ⟨r.putObj 0x0EF001 (afterWrites o m.props), ?_, ?_, ?_⟩
      · rw [hg, e, Dict.get?_modify, if_pos rfl, hk']
        rfl
      · show Dict.get? (r.putObj _ _).node.objects _ = Dict.get? r.node.objects _
        rw [get?_putObj, if_neg (fun e => hseoj e.symm)]
      · intro o' _ ho'
        have : o' = o := by
          have : some o' = some o := ho'.symm.trans ho
          injection this
        subst this
        show Dict.get? (r.putObj _ _).node.objects 0x0EF001 = _
        rw [get?_putObj, if_pos rfl, ho]
        rfl
    · refine ⟨r, ?_, rfl, fun o x => absurd x hdeoj⟩
      rw [hg, h2 hdeoj, hk']
  · obtain ⟨r, o, h1, h2⟩ := exKnown hord calmEnv 0x029101 (by decide)
    exact ⟨_, _, r, o, exHistory_reach, h1, h2, ⟨by decide +kernel, rfl⟩, rfl⟩

/-! ### Exceptions -/

/-- C62 exactly: a message other than a request makes `message_received` raise in exactly three cases, given
that no listener raises: it is a notification or a read response to something else than the node profile; it
is one with an empty instance list; it reports something from an address from which no valid instance list has
come. (For requests, what the node's `message_received` raises is raised, C19, C46.) -/
theorem C62_raises_partial {ord : List Int → List Int} (hord : ValidOrder ord) {c : Ctl} {ops : List CtlOp} (h : CtlReach ord c ops)
    (env : Env) {cenv : CEnv} (hc : Calm cenv) (net : Net) (m : Msg) (hd : Delivered m) (a : Addr) (ha : m.fromAddr = some a) :
    (ESV.isRequest m.esv = true → (c.messageReceived ord env cenv net m).2 = (c.ln.messageReceived env net m).2) ∧
    (ESV.isRequest m.esv = false → ((∃ e, (c.messageReceived ord env cenv net m).2 = .error e) ↔
      ((m.esv = 0x72 ∨ m.esv = 0x73) ∧ (m.deoj % 2 ^ 24 ≠ 0x0EF001 ∨ instanceListOf m = .empty)) ∨
      ((m.esv = 0x72 ∨ m.esv = 0x73 ∨ m.esv = 0x7E) ∧ latest (heard ops ++ [m]) a.1 = none))) := by
  obtain ⟨hi, hk⟩ := reach_knows hord h
  constructor
  · intro hr
    rw [request_eq ord env cenv net c m hr]
  · intro hr
    have hfound : Dict.get? (afterList ord c m).found a.1 = none ↔ latest (heard ops ++ [m]) a.1 = none := by
      rw [latest_append]
      unfold afterList
      cases hx : announced m with
      | none =>
        have := hk a.1
        simp only []
        constructor
        · intro e
          rw [e, Option.map_none] at this
          exact Option.map_eq_none_iff.mp this.symm
        · intro e
          rw [e, Option.map_none] at this
          exact Option.map_eq_none_iff.mp this
      | some x =>
        obtain ⟨b, l⟩ := x
        have hb : b = a := by
          unfold announced at hx
          split at hx
          · rw [ha] at hx
            split at hx
            · rename_i b' l' e1 e2
              cases hx
              injection e1 with e1
              exact e1.symm
            · cases hx
          · cases hx
        subst hb
        simp only []
        rw [Dict.get?_set, if_pos rfl, if_pos trivial]
        constructor <;> (intro x; cases x)
    by_cases hrep : Reports m
    · by_cases hok : (m.esv = 0x72 ∨ m.esv = 0x73) ∧ m.deoj % 2 ^ 24 ≠ 0x0EF001
      · rw [response_misdirected ord env cenv net c m hd.1 hok.1 hok.2]
        exact ⟨fun _ => Or.inl ⟨hok.1, Or.inl hok.2⟩, fun _ => ⟨_, rfl⟩⟩
      · by_cases hne : (m.esv = 0x72 ∨ m.esv = 0x73) ∧ instanceListOf m = .empty
        · have hdeoj : m.deoj % 2 ^ 24 = 0x0EF001 := by
            by_contra hdeoj
            exact hok ⟨hne.1, hdeoj⟩
          rw [response_empty hord env hc net c m a ha hd.1 hne.1 hdeoj hne.2]
          exact ⟨fun _ => Or.inl ⟨hne.1, Or.inr hne.2⟩, fun _ => ⟨_, rfl⟩⟩
        · cases hf : Dict.get? (afterList ord c m).found a.1 with
          | none =>
            rw [response_unknown hord env hc net c hi m a ha hd.1 hrep hok hne hf]
            exact ⟨fun _ => Or.inr ⟨hrep, hfound.mp hf⟩, fun _ => ⟨_, rfl⟩⟩
          | some r =>
            obtain ⟨c', e1, -⟩ := response_known hord env hc net c hi m a ha hd.1 hrep hok hne r hf
            rw [e1]
            constructor
            · rintro ⟨e, he⟩
              cases he
            · rintro (⟨h1, h2 | h2⟩ | ⟨-, h2⟩)
              · exact absurd ⟨h1, h2⟩ hok
              · exact absurd ⟨h1, h2⟩ hne
              · rw [hfound.mpr h2] at hf
                cases hf
    · rw [response_other env net c m hd.1 hr hrep]
      constructor
      · rintro ⟨e, he⟩
        cases he
      · unfold Reports at hrep
        rintro (⟨h1, -⟩ | ⟨h1, -⟩) <;> omega

/-- C62 as stated is false: of every controller, in each of the three ways, by messages that decode. -/
theorem C62_raises_false {ord : List Int → List Int} (hord : ValidOrder ord) {c : Ctl} {ops : List CtlOp} (h : CtlReach ord c ops)
    (env : Env) {cenv : CEnv} (hc : Calm cenv) (net : Net) (ip : String) :
    (c.messageReceived ord env cenv net { exReport 0x029101 with deoj := 0x05FF01 }).2 = .error .attributeError ∧
    (c.messageReceived ord env cenv net { exList ip [] with props := [{ code := 0xD5, data := [] }] }).2 = .error .indexError ∧
    (latest (heard ops) ip = none → (c.messageReceived ord env cenv net { exReport 0x029101 with fromAddr := some (ip, 3610) }).2 = .error .attributeError) := by
  obtain ⟨hi, hk⟩ := reach_knows hord h
  refine ⟨?_, ?_, ?_⟩
  · rw [response_misdirected ord env cenv net c _ (by decide +kernel) (Or.inr rfl) (by decide +kernel)]
  · rw [response_empty hord env hc net c _ (ip, 3610) rfl (by
      have : ∀ m : Msg, m.esv = 0x73 → m.props = [{ code := 0xD5, data := [] }] → Encodable m := by
        intro m h1 h2
        unfold Encodable
        rw [h1, h2, if_neg (by decide)]
        decide
      exact this _ rfl rfl) (Or.inr rfl) (by show (0x0EF001 : Int) % 2 ^ 24 = 0x0EF001; decide) rfl]
  · intro hl
    have hal : afterList ord c { exReport 0x029101 with fromAddr := some (ip, 3610) } = c := rfl
    rw [response_unknown hord env hc net c hi _ (ip, 3610) rfl (by
      have : ∀ m : Msg, m.esv = 0x73 → m.props = [{ code := 0x80, data := [0x31] }] → Encodable m := by
        intro m h1 h2
        unfold Encodable
        rw [h1, h2, if_neg (by decide)]
        decide
      exact this _ rfl rfl) (Or.inr (Or.inl rfl))
      (by rintro ⟨-, x⟩; exact x (by show (0x0EF001 : Int) % 2 ^ 24 = 0x0EF001; decide))
      (by rintro ⟨-, x⟩; cases x)
      (by
        rw [hal]
        have := hk ip
        rw [hl, Option.map_none] at this
        exact Option.map_eq_none_iff.mp this)]

example : latest (heard exHistory) "10.0.0.7" = none := by decide +kernel

/-! ### What a controller sends -/

/-- C63 but for SEOJ: what a controller sends for a device it hosts is the device's answer, to whom it is for,
with SEOJ 0x0EF001. -/
theorem C63_answers_partial {ord : List Int → List Int} (hord : ValidOrder ord) {c : Ctl} {ops : List CtlOp} (h : CtlReach ord c ops)
    (env : Env) (cenv : CEnv) (net : Net) (m : Msg) (hm : Encodable m) (hr : ESV.isRequest m.esv = true) (hd : 0 ≤ m.deoj ∧ m.deoj < 2 ^ 24) (o : Obj)
    (ho : c.ln.getObject (.int m.deoj) = some o) :
    let r := o.messageReceived env (received m)
    let c' := (c.messageReceived ord env cenv net m).1
    ∃ new, c'.ln.mgr.log = c.ln.mgr.log ++ new ∧
      ((∀ res, r.result ≠ .ok (some res)) → new = []) ∧
      (∀ res, r.result = .ok (some res) → ∃ t, (res.tid ≠ 0 → t = res.tid) ∧ (res.tid = 0 → 1 ≤ t ∧ t ≤ 65535) ∧
        ∀ x ∈ new, x.1.bytes = encode { res with tid := t, seoj := 0x0EF001 } ∧
          some x.1.dest = if res.esv = 0x73 ∨ res.esv = 0x74 then some ("224.0.23.0", 3610) else m.fromAddr) := by
  intro r c'
  obtain ⟨hln, hctl⟩ := reach_ln hord h
  have hc' : c' = { c with ln := (c.ln.messageReceived env net m).1 } := by
    show (c.messageReceived ord env cenv net m).1 = _
    rw [request_eq ord env cenv net c m hr]
  obtain ⟨-, -, new, h1, h2, h3⟩ := C48_dispatch hord hln env net m hm hd o ho
  rw [hc']
  refine ⟨new, h1, h2, ?_⟩
  intro res hres
  obtain ⟨t, t1, t2, t3, -⟩ := h3 res hres
  refine ⟨t, t1, t2, ?_⟩
  intro x hx
  have := t3 x hx
  rw [if_pos hctl] at this
  exact this

/-- C63 as stated is false of every controller and every device it hosts: whatever it sends in answer to a
request for the device decodes to a message from 0x0EF001, and there are such answers (to a read). -/
theorem C63_answers_false {ord : List Int → List Int} (hord : ValidOrder ord) :
    (∀ c ops, CtlReach ord c ops → ∀ env cenv net m o, Encodable m → ESV.isRequest m.esv = true → 0 ≤ m.deoj ∧ m.deoj < 2 ^ 24 →
      m.deoj ≠ 0x0EF001 → c.ln.getObject (.int m.deoj) = some o → (∀ res, (o.messageReceived env (received m)).result = .ok (some res) → Encodable res) →
      ∃ new, (c.messageReceived ord env cenv net m).1.ln.mgr.log = c.ln.mgr.log ++ new ∧
        ∀ x ∈ new, ∀ a q, x.1.bytes.length ≤ 1024 → Decodes x.1.bytes a q → q.seoj = 0x0EF001 ∧ q.seoj ≠ m.deoj) ∧
    ∃ c ops net m o, CtlReach ord c ops ∧ Encodable m ∧ ESV.isRequest m.esv = true ∧ c.ln.getObject (.int m.deoj) = some o ∧ m.deoj = 0x029101 ∧
      (c.messageReceived ord exEnv calmEnv net m).1.ln.mgr.log.length = c.ln.mgr.log.length + 1 := by
  refine ⟨?_, ?_⟩
  · intro c ops h env cenv net m o hm hr hd hne ho hfit
    obtain ⟨new, h1, h2, h3⟩ := C63_answers_partial hord h env cenv net m hm hr hd o ho
    refine ⟨new, h1, ?_⟩
    intro x hx a q hlen hq
    rcases hres : (o.messageReceived env (received m)).result with e | (_ | res)
    · rw [h2 (by intro res hh; rw [hres] at hh; cases hh)] at hx; cases hx
    · rw [h2 (by intro res hh; rw [hres] at hh; cases hh)] at hx; cases hx
    · obtain ⟨t, -, -, t3⟩ := h3 res hres
      have hb := (t3 x hx).1
      have hen : Encodable ({ res with tid := t, seoj := 0x0EF001 } : Msg) := hfit res hres
      rw [hb] at hq hlen
      have := decodes_unique hq (decodes_encode _ hen hlen a)
      subst this
      have hs : ({ onWire ({ res with tid := t, seoj := 0x0EF001 } : Msg) with fromAddr := some a } : Msg).seoj = 0x0EF001 := by
        show (0x0EF001 : Int) % 2 ^ 24 = 0x0EF001
        decide
      exact ⟨hs, by rw [hs]; exact fun e => hne e.symm⟩
  · obtain ⟨c, h1, h2, h3⟩ := ctl_device hord exObj
    let m : Msg := { tid := 9, seoj := 0x05FF01, deoj := 0x029101, esv := 0x62, fromAddr := some ("10.0.0.3", 3610), props := [{ code := 0x80 }] }
    have hm : Encodable m := by decide +kernel
    refine ⟨c, _, okNet, m, exObj, h1, hm, rfl, h2, rfl, ?_⟩
    rw [request_eq ord exEnv calmEnv okNet c m rfl]
    obtain ⟨k1, k2⟩ := read_known exEnv exObj (received m) (by decide) rfl (fun _ _ => rfl) rfl (by decide +kernel) (by decide +kernel)
    have := (C48_sent exEnv okNet (fun _ _ _ _ => rfl) h3 m hm (by decide) ("10.0.0.3", 3610) rfl exObj h2 _ k2 (by decide +kernel)).2
    rw [if_neg (by decide)] at this
    exact this

/-- C67. The request builders: ESV, SEOJ, DEOJ as documented, TID still to be assigned, no properties yet. -/
theorem C67_builders (d : Int) :
    ReadRequest d = { esv := 0x62, seoj := 0x0EF001, deoj := d } ∧
    WriteRequest d = { esv := 0x60, seoj := 0x0EF001, deoj := d } ∧
    WriteResponseRequiredRequest d = { esv := 0x61, seoj := 0x0EF001, deoj := d } ∧
    WriteReadRequest d = { esv := 0x6E, seoj := 0x0EF001, deoj := d } ∧
    SearchMessage = { esv := 0x62, seoj := 0x0EF001, deoj := 0x0EF001, props := [{ code := 0xD6, data := [] }] } :=
  ⟨rfl, rfl, rfl, rfl, rfl⟩

/-- C67. On a machine that can send, `search()` returns True after sending, through every running interface,
one datagram to 224.0.23.0:3610: a read of 0xD6 from 0x0EF001 to 0x0EF001 with a TID other than 0. -/
theorem C67_search {ord : List Int → List Int} (hord : ValidOrder ord) {c : Ctl} {ops : List CtlOp} (h : CtlReach ord c ops)
    (net : Net) (hs : NetWorks net) (hw : CanSend c.ln.mgr) :
    (c.search net).2 = .ok true ∧ ∃ hi lo : UInt8, (hi, lo) ≠ (0, 0) ∧
      (c.search net).1.ln.mgr.log = c.ln.mgr.log ++ (working c.ln.mgr.servers).map (fun s =>
        (⟨s.ifaddr, ("224.0.23.0", 3610), [0x10, 0x81, hi, lo, 0x0E, 0xF0, 0x01, 0x0E, 0xF0, 0x01, 0x62, 0x01, 0xD6, 0x00]⟩, 14)) ∧
      (c.search net).1.found = c.found ∧ (c.search net).1.last = c.last := by
  obtain ⟨hln, hctl⟩ := reach_ln hord h
  have hout : outgoing c.ln SearchMessage = SearchMessage := by unfold outgoing; rw [if_pos hctl]; rfl
  have hm : Encodable SearchMessage := by decide +kernel
  obtain ⟨-, -, h1, h2⟩ := C54_works net c.ln.mgr SearchMessage ("", 0) hm hw hs
  obtain ⟨-, -, -, -, -, -, -, t, ad, h3⟩ := C54_announce net c.ln.mgr SearchMessage hm
  have ht := op_tid c.ln.mgr (.announce net SearchMessage) (reachable_tid hord hln)
  simp only [MgrOp.message] at ht
  rw [if_pos (show SearchMessage.tid = 0 from rfl), h3] at ht
  have ht2 := ht.2
  simp only [] at ht2
  have hr : 1 ≤ t ∧ t ≤ 65535 := by
    have := reachable_tid hord hln
    omega
  have heq : c.search net = ({ c with ln := { c.ln with mgr := (c.ln.mgr.announce net SearchMessage).1 } }, (c.ln.mgr.announce net SearchMessage).2.2) := by
    unfold Ctl.search Ctl.announceMessage
    simp only []
    rw [announceMessage_eq, hout]
  rw [heq]
  refine ⟨h2, UInt8.ofNat (t / 256 % 256).toNat, UInt8.ofNat (t % 256).toNat, ?_, ?_, rfl, rfl⟩
  · intro e
    injection e with e1 e2
    have e1' := congrArg UInt8.toNat e1
    have e2' := congrArg UInt8.toNat e2
    simp at e1' e2'
    omega
  · simp only []
    rw [h1, h3]
    congr 1
    apply List.map_congr_left
    intro s _
    have : encode ({ SearchMessage with tid := t, toAddr := ad } : Msg) =
        [0x10, 0x81, UInt8.ofNat (t / 256 % 256).toNat, UInt8.ofNat (t % 256).toNat, 0x0E, 0xF0, 0x01, 0x0E, 0xF0, 0x01, 0x62, 0x01, 0xD6, 0x00] := by
      have h2 : ¬ TwoSections ({ SearchMessage with tid := t, toAddr := ad } : Msg).esv := (by decide : ¬ TwoSections 0x62)
      unfold encode encHeader encBody
      rw [if_neg h2]
      have e1 : beDigits t 2 = [UInt8.ofNat (t / 256 % 256).toNat, UInt8.ofNat (t % 256).toNat] := by
        unfold beDigits
        simp [List.range_succ]
      have e2 : beDigits 0x0EF001 3 = [0x0E, 0xF0, 0x01] := by decide
      show _ ++ beDigits t 2 ++ beDigits 0x0EF001 3 ++ beDigits 0x0EF001 3 ++ _ ++ _ = _
      rw [e1, e2]
      rfl
    rw [this]
    rfl

example {ord : List Int → List Int} (hord : ValidOrder ord) : ∃ c ops, CtlReach ord c ops ∧ CanSend c.ln.mgr ∧ NetWorks okNet := by
  obtain ⟨c, h1, -, h3⟩ := ctl_device hord exObj
  exact ⟨c, _, h1, h3, fun _ _ _ _ => rfl⟩

/-! ### Further properties -/

/-- C78 where names resolve: `get_node` returns the node whose address the argument is or resolves to, else None;
with a pair it never raises. -/
theorem C78_get_node_partial (c : Ctl) (cenv : CEnv) :
    (∀ a, ∃ x, c.getNode cenv (.pair a) = .ok x) ∧
    (∀ s ip, cenv.resolve s = .ok ip → ∃ x, c.getNode cenv (.str s) = .ok x ∧ ∀ r, x = some r → ∃ k, (k, r) ∈ c.found ∧ (k = s ∨ k = ip)) ∧
    (c.found = [] → ∀ s, c.getNode cenv (.str s) = .ok none) := by
  refine ⟨fun a => ⟨_, getNodeLoop_pair cenv a c.found⟩, ?_, ?_⟩
  · intro s ip h
    refine ⟨_, getNodeLoop_str cenv s ip h c.found, ?_⟩
    intro r hr
    obtain ⟨x, hx, rfl⟩ := Option.map_eq_some_iff.mp hr
    have := List.find?_some hx
    simp only [decide_eq_true_eq] at this
    exact ⟨x.1, List.mem_of_find?_eq_some hx, this⟩
  · intro h s
    unfold Ctl.getNode
    rw [h]
    rfl

/-- C78 as stated is false: as soon as a node is known, `get_node` raises for every name that does not resolve and
is not the address of the first node, even if it is the address of another known node. -/
theorem C78_get_node_false {ord : List Int → List Int} (hord : ValidOrder ord) (cenv : CEnv) (hres : cenv.resolve "10.0.0.8" = .error .osError)
    (hres' : cenv.resolve "nobody" = .error .osError) :
    ∃ c ops, CtlReach ord c ops ∧ latest (heard ops) "10.0.0.8" ≠ none ∧
      c.getNode cenv (.str "10.0.0.8") = .error .osError ∧ c.getNode cenv (.str "nobody") = .error .osError := by
  obtain ⟨hi, hk⟩ := reach_knows hord (exHistory_reach (ord := ord))
  refine ⟨_, exHistory, exHistory_reach, by decide +kernel, ?_⟩
  obtain ⟨n, hn, -⟩ := ctl_new hord exRandom
  have hkeys : ∃ r l, (runCtl ord (Ctl.new ord exRandom).1 exHistory).found = ("10.0.0.9", r) :: l := by
    rw [hn]
    -- the first node found stays first
    have first : ∀ (c : Ctl) (m : Msg) (a : Addr), FoundInv c → m.fromAddr = some a → Encodable m →
        (∃ r l, c.found = ("10.0.0.9", r) :: l) → ∃ r l, (c.messageReceived ord exEnv calmEnv okNet m).1.found = ("10.0.0.9", r) :: l := by
      have hset : ∀ (f : Dict String Remote) (k : String) (v : Remote), (∃ r l, f = ("10.0.0.9", r) :: l) → ∃ r l, Dict.set f k v = ("10.0.0.9", r) :: l := by
        rintro f k v ⟨r, l, rfl⟩
        unfold Dict.set
        split
        · rename_i e; exact ⟨v, l, rfl⟩
        · exact ⟨r, _, rfl⟩
      have hmod : ∀ (f : Dict String Remote) (k : String) (v : Remote), (∃ r l, f = ("10.0.0.9", r) :: l) → ∃ r l, Dict.modify f k (fun _ => v) = ("10.0.0.9", r) :: l := by
        rintro f k v ⟨r, l, rfl⟩
        unfold Dict.modify
        split
        · exact ⟨_, l, rfl⟩
        · exact ⟨r, _, rfl⟩
      intro c m a hi ha hm hf
      rcases receive_cases hord exEnv calmEnv_calm okNet c hi m a ha hm with ⟨e, -⟩ | ⟨e, -⟩
      · rw [e]; exact hf
      · rw [e]
        have h1 : ∃ r l, (afterList ord c m).found = ("10.0.0.9", r) :: l := by
          unfold afterList
          split
          · exact hf
          · exact hset _ _ _ hf
        unfold reportTo
        split
        · exact h1
        · split
          · exact h1
          · exact hmod _ _ _ h1
    have hinv : ∀ (c : Ctl) (m : Msg), FoundInv c → Delivered m → FoundInv (c.messageReceived ord exEnv calmEnv okNet m).1 :=
      fun c m hi hd => receive_inv_found hord exEnv calmEnv_calm okNet c hi m hd
    have d1 : Delivered (exList "10.0.0.9" [0x029101]) := ⟨by decide +kernel, rfl⟩
    have d2 : Delivered (exList "10.0.0.8" [0x013001]) := ⟨by decide +kernel, rfl⟩
    have d3 : Delivered (exList "10.0.0.9" [0x029101, 0x029102]) := ⟨by decide +kernel, rfl⟩
    have i0 : FoundInv (({ ln := n } : Ctl).addListener 7) := ⟨by simp [Dict.keys, Ctl.addListener], by intro ip r h; cases h⟩
    have i1 := hinv _ _ i0 d1
    have i2 := hinv _ _ i1 d2
    refine first _ _ ("10.0.0.9", 3610) i2 rfl d3.1 (first _ _ ("10.0.0.8", 3610) i1 rfl d2.1 ?_)
    have hk1 := knows_step hord (({ ln := n } : Ctl).addListener 7) [] ⟨i0, by intro ip; rfl⟩
      (.receive exEnv calmEnv okNet (exList "10.0.0.9" [0x029101])) ⟨d1, calmEnv_calm, exEnv_stable⟩
    have hone : Dict.keys (CtlOp.run ord (({ ln := n } : Ctl).addListener 7) (.receive exEnv calmEnv okNet (exList "10.0.0.9" [0x029101]))).found = ["10.0.0.9"] := by
      have hin : ∀ ip, ip ∈ Dict.keys (CtlOp.run ord (({ ln := n } : Ctl).addListener 7) (.receive exEnv calmEnv okNet (exList "10.0.0.9" [0x029101]))).found ↔ ip = "10.0.0.9" := by
        intro ip
        rw [← Dict.get?_isSome_iff]
        have := hk1.2 ip
        rw [show ([] ++ heard [CtlOp.receive exEnv calmEnv okNet (exList "10.0.0.9" [0x029101])]) = [] ++ [exList "10.0.0.9" [0x029101]] from rfl, latest_append, show announced (exList "10.0.0.9" [0x029101]) = some (("10.0.0.9", 3610), [0x029101]) by decide +kernel] at this
        simp only [] at this
        by_cases e : "10.0.0.9" = ip
        · rw [if_pos e] at this
          obtain ⟨r, hr, -⟩ := Option.map_eq_some_iff.mp this
          rw [hr]
          simp [e]
        · rw [if_neg e] at this
          have h0 : latest [] ip = none := rfl
          rw [h0, Option.map_none, Option.map_eq_none_iff] at this
          rw [this]
          simp only [Option.isSome_none, Bool.false_eq_true, false_iff]
          exact fun x => e x.symm
      have hnd := hk1.1.keys
      generalize Dict.keys (CtlOp.run ord (({ ln := n } : Ctl).addListener 7) (.receive exEnv calmEnv okNet (exList "10.0.0.9" [0x029101]))).found = ks at hin hnd
      match ks, hin, hnd with
      | [], hin, _ => exact absurd ((hin "10.0.0.9").mpr rfl) (by simp)
      | [k], hin, _ => rw [(hin k).mp List.mem_cons_self]
      | k :: k' :: ks, hin, hnd =>
        exfalso
        have e1 := (hin k).mp List.mem_cons_self
        have e2 := (hin k').mp (List.mem_cons_of_mem _ List.mem_cons_self)
        rw [e1, e2] at hnd
        simp at hnd
    generalize hf : (CtlOp.run ord (({ ln := n } : Ctl).addListener 7) (.receive exEnv calmEnv okNet (exList "10.0.0.9" [0x029101]))).found = f at hone
    have hf' : ((({ ln := n } : Ctl).addListener 7).messageReceived ord exEnv calmEnv okNet (exList "10.0.0.9" [0x029101])).1.found = f := hf
    show ∃ r l, ((({ ln := n } : Ctl).addListener 7).messageReceived ord exEnv calmEnv okNet (exList "10.0.0.9" [0x029101])).1.found = ("10.0.0.9", r) :: l
    rw [hf']
    match f, hone with
    | (k, r) :: l, hone =>
      have : k = "10.0.0.9" := by
        simp only [Dict.keys, List.map_cons] at hone
        injection hone
      exact ⟨r, l, by rw [this]⟩
  obtain ⟨r, l, hl⟩ := hkeys
  constructor
  · unfold Ctl.getNode
    rw [hl]
    unfold Ctl.getNodeLoop
    simp only [hres]
    rw [if_neg (by decide)]
  · unfold Ctl.getNode
    rw [hl]
    unfold Ctl.getNodeLoop
    simp only [hres']
    rw [if_neg (by decide)]


/-- The parts of a valid instance list. -/
theorem announced_parts {m : Msg} {a : Addr} {l : List Int} (h : announced m = some (a, l)) :
    (m.esv = 0x72 ∨ m.esv = 0x73) ∧ m.deoj % 2 ^ 24 = 0x0EF001 ∧ m.fromAddr = some a ∧ instanceListOf m = .codes l := by
  unfold announced at h
  split at h
  · rename_i hc
    split at h
    · rename_i hf hl
      cases h
      exact ⟨hc.1, hc.2, hf, hl⟩
    · cases h
  · cases h

/-- How a valid instance list is received, whatever the listeners do. -/
theorem list_received {ord : List Int → List Int} (hord : ValidOrder ord) (c : Ctl) (env : Env) (cenv : CEnv) (net : Net) (m : Msg) (hm : Encodable m)
    (a : Addr) (l : List Int) (ha : announced m = some (a, l)) :
    c.messageReceived ord env cenv net m =
      match c.notify cenv (.nodeAdd { node := listedNode ord a l, linked := false }) with
      | (c, some e) => (c, .error e)
      | (c, none) =>
        match ({ c with found := Dict.set c.found a.1 { node := listedNode ord a l, linked := true } } : Ctl).updateProperties cenv (received m) with
        | (c, .error e) => (c, .error e)
        | (c, .ok _) => (c.receiveResponse (received m), .ok ()) := by
  obtain ⟨he, hd, hf, hl⟩ := announced_parts ha
  have h2 : ¬ TwoSections m.esv := by unfold TwoSections; omega
  rw [response_eq ord env cenv net c m (by rcases he with e | e <;> rw [e] <;> rfl) hm]
  unfold Ctl.receiveProfile Msg.isNodeProfileMessage
  rw [if_neg (show ¬ ((received m).esv ≠ ESV.NOTIFICATION ∧ (received m).esv ≠ ESV.READ_RESPONSE) from
      (by omega : ¬ (m.esv ≠ 0x73 ∧ m.esv ≠ 0x72))), if_neg (show ¬ ((received m).deoj ≠ NodeProfile.CODE) from not_not.mpr hd)]
  simp only []
  rw [remoteNode_new hord]
  simp only [parseMessage_eq hord, received_list m h2, hl, show (received m).fromAddr = some a from hf]
  unfold Ctl.addFoundNode
  simp only [Ctl.notifyNodeUpdated, ite_self]
  have hrep := reports_yes (received m).esv (by show m.esv = _ ∨ m.esv = _ ∨ m.esv = _; omega)
  have hp : ∀ c : Ctl, c.receiveProperties cenv (received m) = c.updateProperties cenv (received m) := by
    intro c
    unfold Ctl.receiveProperties
    rw [if_pos hrep]
  unfold listedNode
  rcases c.notify cenv _ with ⟨c1, (_ | e)⟩
  · simp only [hp]
    rfl
  · rfl

/-- C79 as stated is false of every controller: when listeners hear `node_add` for an instance list, the node they
are given is not linked to the controller yet, and the controller's table is still the one before: if the address
is new, `get_node` finds nothing. -/
theorem C79_not_yet_false {ord : List Int → List Int} (hord : ValidOrder ord) {c : Ctl} {ops : List CtlOp} (h : CtlReach ord c ops)
    (env : Env) {cenv : CEnv} (hc : Calm cenv) (net : Net) (m : Msg) (hd : Delivered m) (a : Addr) (l : List Int) (ha : announced m = some (a, l)) :
    (∃ rest, (c.messageReceived ord env cenv net m).1.calls =
      c.calls ++ c.listeners.map (fun x => (x, c.found, Call.nodeAdd { node := listedNode ord a l, linked := false })) ++ rest) ∧
    (latest (heard ops) a.1 = none → ∀ p, Ctl.getNodeLoop cenv (.pair (a.1, p)) c.found = .ok none) := by
  constructor
  · rw [list_received hord c env cenv net m hd.1 a l ha, notify_calm hc]
    simp only []
    generalize hc1 : ({ c with found := _, calls := _ } : Ctl) = c1
    obtain ⟨-, more, hm, -⟩ := follows_updateProperties cenv c1 (received m)
    have hcalls : c1.calls = c.calls ++ c.listeners.map (fun x => (x, c.found, Call.nodeAdd { node := listedNode ord a l, linked := false })) := by
      rw [← hc1]
    rw [hcalls] at hm
    generalize Ctl.updateProperties cenv _ (received m) = q at hm ⊢
    rcases q with ⟨c2, (e | u)⟩
    · exact ⟨more, hm⟩
    · refine ⟨more, ?_⟩
      simp only [] at hm ⊢
      rw [← hm]
      unfold Ctl.receiveResponse
      split
      · split
        · split <;> rfl
        · rfl
      · rfl
  · intro hn p
    exact (C59_get_node hord h cenv a.1 p).1 hn

/-- C79 for what does hold: after the message is received the node is in the table, linked. -/
theorem C79_afterwards_partial {ord : List Int → List Int} (hord : ValidOrder ord) {c : Ctl} {ops : List CtlOp} (h : CtlReach ord c ops)
    (env : Env) {cenv : CEnv} (hc : Calm cenv) (hs : CodeStable env) (net : Net) (m : Msg) (hd : Delivered m) (a : Addr) (l : List Int) (ha : announced m = some (a, l)) (p : Int) :
    ∃ r, (c.messageReceived ord env cenv net m).1.getNode cenv (.pair (a.1, p)) = .ok (some r) ∧ r.linked = true ∧ r.node.address = some a := by
  have hk := knows_step hord c (heard ops) (reach_knows hord h) (.receive env cenv net m) ⟨hd, hc, hs⟩
  have h1 := hk.2 a.1
  rw [show heard [CtlOp.receive env cenv net m] = [m] from rfl, latest_append, ha] at h1
  simp only [if_true] at h1
  obtain ⟨r, hr, he⟩ := Option.map_eq_some_iff.mp h1
  injection he with e1 e2
  refine ⟨r, ?_, (hk.1.nodes a.1 r hr).linked, e1⟩
  have hg := getNodeLoop_pair cenv (a.1, p) (CtlOp.run ord c (.receive env cenv net m)).found
  exact hg.trans (congrArg Except.ok hr)

/-- C80 for the listeners registered before: they have been told. -/
theorem C80_before_partial {ord : List Int → List Int} (hord : ValidOrder ord) (c : Ctl) (env : Env) (cenv : CEnv) (net : Net) (m : Msg) (hm : Encodable m)
    (a : Addr) (l : List Int) (ha : announced m = some (a, l)) (xs ys : List Nat) (hl : c.listeners = xs ++ ys)
    (hx : ∀ x ∈ xs, ∀ t call, cenv.listen x t call = none) :
    ∃ rest, toldAll (c.messageReceived ord env cenv net m).1 = toldAll c ++ tellAll xs (.nodeAdd a.1) ++ rest := by
  have key : ∃ rest, (c.messageReceived ord env cenv net m).1.calls =
      (c.calls ++ xs.map (fun x => (x, c.found, Call.nodeAdd { node := listedNode ord a l, linked := false }))) ++ rest := by
    rw [list_received hord c env cenv net m hm a l ha]
    unfold Ctl.notify
    rw [hl, notify_append cenv _ xs ys hx]
    obtain ⟨hs, -, h2⟩ := notify_calls cenv (.nodeAdd { node := listedNode ord a l, linked := false }) ys
      { c with calls := c.calls ++ xs.map (fun x => (x, c.found, Call.nodeAdd { node := listedNode ord a l, linked := false })) }
    generalize Ctl.notifyLoop cenv _ ys _ = q at h2 ⊢
    rcases q with ⟨c1, (_ | e)⟩
    · simp only [] at h2 ⊢
      obtain ⟨-, more, hm, -⟩ := follows_updateProperties cenv { c1 with found := Dict.set c1.found a.1 { node := listedNode ord a l, linked := true } } (received m)
      generalize Ctl.updateProperties cenv _ (received m) = q at hm ⊢
      rcases q with ⟨c2, (e | u)⟩
      · refine ⟨hs.map (fun l' => (l', c.found, Call.nodeAdd { node := listedNode ord a l, linked := false })) ++ more, hm.trans ?_⟩
        rw [h2]
        simp
      · have : (c2.receiveResponse (received m)).calls = c2.calls := by
          unfold Ctl.receiveResponse
          split
          · split
            · split <;> rfl
            · rfl
          · rfl
        refine ⟨hs.map (fun l' => (l', c.found, Call.nodeAdd { node := listedNode ord a l, linked := false })) ++ more, (this.trans hm).trans ?_⟩
        rw [h2]
        simp
    · simp only [] at h2 ⊢
      exact ⟨_, by rw [h2]⟩
  obtain ⟨rest, hr⟩ := key
  refine ⟨rest.map fun x => (x.1, told x.2.2), ?_⟩
  unfold toldAll
  rw [hr]
  simp [tellAll, told, ipOf, listedNode, Function.comp_def]

example : ∃ (c : Ctl) (cenv : CEnv), c.listeners = [8] ++ [7] ∧ (∀ x ∈ [8], ∀ t call, cenv.listen x t call = none) ∧
    ∀ t r, cenv.listen 7 t (.nodeAdd r) = some (.user 3) :=
  ⟨{ ln := (Ctl.new List.dedup exRandom).1.ln, listeners := [8, 7] }, { resolve := fun s => .ok s, listen := fun x _ _ => if x = 7 then some (.user 3) else none },
    rfl, fun x hx _ _ => by simp at hx; rw [hx]; rfl, fun _ _ => rfl⟩

/-- C80 as stated is false of every controller: if the first listener raises when it hears of a node, `message_received`
raises that exception, nobody else is told, and the node is not stored. -/
theorem C80_raising_false {ord : List Int → List Int} (hord : ValidOrder ord) (c : Ctl) (env : Env) (cenv : CEnv) (net : Net) (m : Msg) (hm : Encodable m)
    (a : Addr) (l : List Int) (ha : announced m = some (a, l)) (x : Nat) (ys : List Nat) (hl : c.listeners = x :: ys) (e : Exc)
    (hx : ∀ t r, cenv.listen x t (.nodeAdd r) = some e) :
    (c.messageReceived ord env cenv net m).2 = .error e ∧ (c.messageReceived ord env cenv net m).1.found = c.found ∧
    toldAll (c.messageReceived ord env cenv net m).1 = toldAll c ++ [(x, .nodeAdd a.1)] := by
  rw [list_received hord c env cenv net m hm a l ha]
  unfold Ctl.notify
  rw [hl]
  unfold Ctl.notifyLoop
  simp only [hx]
  refine ⟨trivial, trivial, ?_⟩
  simp [toldAll, told, ipOf, listedNode]

example : ∃ (c : Ctl) (cenv : CEnv), c.listeners = [7, 8] ∧ ∀ t r, cenv.listen 7 t (.nodeAdd r) = some (.user 3) :=
  ⟨{ ln := (Ctl.new List.dedup exRandom).1.ln, listeners := [7, 8] }, { resolve := fun s => .ok s, listen := fun x _ _ => if x = 7 then some (.user 3) else none },
    rfl, fun _ _ => rfl⟩

/-- The node known at an address after a valid instance list from there. -/
theorem after_list {ord : List Int → List Int} (hord : ValidOrder ord) {c : Ctl} {ops : List CtlOp} (h : CtlReach ord c ops)
    (env : Env) {cenv : CEnv} (hc : Calm cenv) (net : Net) (m : Msg) (hd : Delivered m) (a : Addr) (l : List Int) (ha : announced m = some (a, l)) :
    ∃ r, Dict.get? (c.messageReceived ord env cenv net m).1.found a.1 = some r ∧
      ∀ code, Dict.get? r.node.objects code = if code = 0x0EF001 then some (afterWrites (devObj ord 0x0EF001) m.props)
        else if code ∈ l then some (devObj ord code) else none := by
  obtain ⟨he, hdeoj, hf, -⟩ := announced_parts ha
  have h2 : ¬ TwoSections m.esv := by unfold TwoSections; omega
  rcases receive_cases hord env hc net c (reach_knows hord h).1 m a hf hd.1 with ⟨-, e, -⟩ | ⟨e, -, -⟩
  · rw [e] at ha; cases ha
  · rw [e, hdeoj, received_props m h2]
    unfold afterList reportTo
    rw [ha]
    simp only []
    rw [Dict.get?_set, if_pos rfl]
    simp only []
    rw [listedNode_get?, if_pos (Or.inl rfl)]
    simp only []
    rw [Dict.get?_modify, if_pos rfl, Dict.get?_set, if_pos rfl]
    refine ⟨_, rfl, ?_⟩
    intro code
    simp only []
    rw [get?_putObj]
    simp only []
    rw [listedNode_get?]
    by_cases h1 : code = 0x0EF001
    · subst h1
      simp
    · rw [if_neg (fun e => h1 e.symm), if_neg h1]
      simp [h1]

/-- C81 as stated is false: every valid instance list from an address makes the controller forget all it learned
from there; the objects are new ones, and only what the message itself says about the profile is kept. There is a
history in which a value was known and is gone. -/
theorem C81_rediscovery_false {ord : List Int → List Int} (hord : ValidOrder ord) :
    (∀ c ops, CtlReach ord c ops → ∀ env cenv, Calm cenv → ∀ net m, Delivered m → ∀ a l, announced m = some (a, l) →
      ∃ r, (c.messageReceived ord env cenv net m).1.getNode cenv (.pair a) = .ok (some r) ∧
        (∀ code ∈ l, code ≠ 0x0EF001 → r.node.getObject (.int code) = some (devObj ord code)) ∧
        r.node.getObject (.int 0x0EF001) = some (afterWrites (devObj ord 0x0EF001) m.props)) ∧
    ∃ c ops r o, CtlReach ord c ops ∧ c.getNode calmEnv (.pair ("10.0.0.9", 3610)) = .ok (some r) ∧
      r.node.getObject (.int 0x0EF001) = some o ∧ (lookup o.props 0x80).map OProp.data = some [0x31] ∧
      ∃ r' o', (c.messageReceived ord exEnv calmEnv okNet (exList "10.0.0.9" [0x029101])).1.getNode calmEnv (.pair ("10.0.0.9", 3610)) = .ok (some r') ∧
        r'.node.getObject (.int 0x0EF001) = some o' ∧ (lookup o'.props 0x80).map OProp.data = some [] := by
  have gen : ∀ c ops, CtlReach ord c ops → ∀ env cenv, Calm cenv → ∀ net m, Delivered m → ∀ a l, announced m = some (a, l) →
      ∃ r, (c.messageReceived ord env cenv net m).1.getNode cenv (.pair a) = .ok (some r) ∧
        (∀ code ∈ l, code ≠ 0x0EF001 → r.node.getObject (.int code) = some (devObj ord code)) ∧
        r.node.getObject (.int 0x0EF001) = some (afterWrites (devObj ord 0x0EF001) m.props) := by
    intro c ops h env cenv hc net m hd a l ha
    obtain ⟨r, h1, h2⟩ := after_list hord h env hc net m hd a l ha
    refine ⟨r, ?_, ?_, ?_⟩
    · exact (getNodeLoop_pair cenv a _).trans (congrArg Except.ok h1)
    · intro code hm hn
      show Dict.get? r.node.objects code = _
      rw [h2, if_neg hn, if_pos hm]
    · show Dict.get? r.node.objects 0x0EF001 = _
      rw [h2, if_pos rfl]
  refine ⟨gen, ?_⟩
  have d1 : Delivered (exReport 0x0EF001) := ⟨by decide +kernel, rfl⟩
  have h80 : (lookup (devObj ord 0x0EF001).props 0x80).map OProp.data = some [] := by
    obtain ⟨o, h1, -, -, -, -, h6⟩ := C39_device_properties ord hord (.int 0x0EF001) 0x0EF001 rfl
    have ho : devObj ord 0x0EF001 = o := by unfold devObj; rw [h1]
    rw [ho, h6 0x80 (by omega) (by omega) (by omega), show (0x0EF001 : Int) / 65536 % 256 = 0x0E from by decide,
      show (0x0EF001 : Int) / 256 % 256 = 0xF0 from by decide]
    decide +kernel
  have hr0 : CtlReach ord (runCtl ord (Ctl.new ord exRandom).1 (exHistory ++ [.receive exEnv calmEnv okNet (exReport 0x0EF001)]))
      (exHistory ++ [.receive exEnv calmEnv okNet (exReport 0x0EF001)]) := by
    refine ⟨exRandom, ?_, rfl⟩
    intro op hop
    rcases List.mem_append.mp hop with hop | hop
    · exact exHistory_allowed op hop
    · simp only [List.mem_cons, List.not_mem_nil, or_false] at hop
      subst hop
      exact ⟨d1, calmEnv_calm, exEnv_stable⟩
  obtain ⟨r, o, hk, ho⟩ := exKnown hord calmEnv 0x0EF001 (by decide)
  -- the history before the report ends with a list, so the profile is new but for that list
  have hprev : (lookup o.props 0x80).isSome = true := by
    obtain ⟨c0, hc0⟩ : ∃ c0, c0 = runCtl ord (Ctl.new ord exRandom).1 [.listen 7, .receive exEnv calmEnv okNet (exList "10.0.0.9" [0x029101]),
      .receive exEnv calmEnv okNet (exList "10.0.0.8" [0x013001])] := ⟨_, rfl⟩
    have hr1 : CtlReach ord c0 [.listen 7, .receive exEnv calmEnv okNet (exList "10.0.0.9" [0x029101]),
      .receive exEnv calmEnv okNet (exList "10.0.0.8" [0x013001])] := by
      refine ⟨exRandom, fun op hop => exHistory_allowed op ?_, hc0⟩
      unfold exHistory
      simp only [List.mem_cons, List.not_mem_nil, or_false] at hop ⊢
      tauto
    obtain ⟨r', h1, -, h3⟩ := gen c0 _ hr1 exEnv calmEnv calmEnv_calm okNet (exList "10.0.0.9" [0x029101, 0x029102]) ⟨by decide +kernel, rfl⟩
      ("10.0.0.9", 3610) [0x029101, 0x029102] (by decide +kernel)
    have he : (c0.messageReceived ord exEnv calmEnv okNet (exList "10.0.0.9" [0x029101, 0x029102])).1 = runCtl ord (Ctl.new ord exRandom).1 exHistory := by
      rw [hc0]; rfl
    rw [he, hk] at h1
    injection h1 with h1
    injection h1 with h1
    subst h1
    rw [ho] at h3
    injection h3 with h3
    subst h3
    rw [lookup_afterWrites]
    cases hl : lookup (devObj ord 0x0EF001).props 0x80 with
    | none => rw [hl] at h80; cases h80
    | some p => rfl
  obtain ⟨r1, k1, -, ⟨o1, k2, k3⟩, -⟩ := C61_profile_partial hord exHistory_reach exEnv calmEnv_calm okNet (exReport 0x0EF001) d1 (Or.inr rfl) rfl rfl rfl
    ("10.0.0.9", 3610) rfl r hk o ho
  refine ⟨_, _, r1, o1, hr0, ?_, k2, ?_, ?_⟩
  · rw [runCtl, List.foldl_append]
    exact k1
  · rw [k3]
    obtain ⟨p, hp⟩ := Option.isSome_iff_exists.mp hprev
    rw [hp]
    rfl
  · obtain ⟨r', h1, -, h3⟩ := gen _ _ hr0 exEnv calmEnv calmEnv_calm okNet (exList "10.0.0.9" [0x029101]) ⟨by decide +kernel, rfl⟩
      ("10.0.0.9", 3610) [0x029101] (by decide +kernel)
    refine ⟨r', _, h1, h3, ?_⟩
    rw [lookup_afterWrites]
    cases hl : lookup (devObj ord 0x0EF001).props 0x80 with
    | none => rw [hl] at h80; cases h80
    | some p =>
      rw [hl] at h80
      exact h80

/-- C84. What is known about an address changes only by messages from there. -/
theorem C84_isolated {ord : List Int → List Int} (hord : ValidOrder ord) {c : Ctl} {ops : List CtlOp} (h : CtlReach ord c ops)
    (env : Env) {cenv : CEnv} (hc : Calm cenv) (net : Net) (m : Msg) (hd : Delivered m) (a b : Addr) (ha : m.fromAddr = some a) (hb : b.1 ≠ a.1) :
    (c.messageReceived ord env cenv net m).1.getNode cenv (.pair b) = c.getNode cenv (.pair b) := by
  unfold Ctl.getNode
  rw [getNodeLoop_pair, getNodeLoop_pair]
  congr 1
  rcases receive_cases hord env hc net c (reach_knows hord h).1 m a ha hd.1 with ⟨e, -⟩ | ⟨e, -, -⟩
  · rw [e]
  · rw [e]
    have h1 : Dict.get? (afterList ord c m).found b.1 = Dict.get? c.found b.1 := by
      unfold afterList
      cases hx : announced m with
      | none => rfl
      | some x =>
        obtain ⟨a', l⟩ := x
        have : a' = a := by
          have := (announced_parts hx).2.2.1
          rw [ha] at this
          injection this with this
          exact this.symm
        subst this
        simp only []
        rw [Dict.get?_set, if_neg (fun e => hb e.symm)]
    rw [← h1]
    unfold reportTo
    split
    · rfl
    · split
      · rfl
      · rw [Dict.get?_modify, if_neg (fun e => hb e.symm)]

/-- C84. Calls other than the receiving of messages change nothing of what is known. -/
theorem C84_calls (ord : List Int → List Int) (c : Ctl) (op : CtlOp) (h : ∀ env cenv net m, op ≠ .receive env cenv net m) (cenv : CEnv) (x : PyAddr) :
    (op.run ord c).nodes = c.nodes ∧ (op.run ord c).getNode cenv x = c.getNode cenv x := by
  unfold Ctl.nodes Ctl.getNode
  rw [(run_other ord c op h).1]
  exact ⟨rfl, rfl⟩

example : ∀ env cenv net m, CtlOp.stop none ≠ .receive env cenv net m := by intro _ _ _ _ h; cases h

/-- C81 for all other messages: as long as no instance list comes from the node's address, a known property keeps
its data unless the message names it. -/
theorem C81_kept_partial {ord : List Int → List Int} (hord : ValidOrder ord) {c : Ctl} {ops : List CtlOp} (h : CtlReach ord c ops)
    (env : Env) {cenv : CEnv} (hc : Calm cenv) (net : Net) (m : Msg) (hd : Delivered m) (hn : announced m = none)
    (b : Addr) (r : Remote) (hk : c.getNode cenv (.pair b) = .ok (some r)) (code : Int) (o : Obj) (ho : r.node.getObject (.int code) = some o)
    (pc : Int) (hpc : ∀ i ∈ (received m).props, i.code ≠ pc) :
    ∃ r' o', (c.messageReceived ord env cenv net m).1.getNode cenv (.pair b) = .ok (some r') ∧ r'.node.getObject (.int code) = some o' ∧
      lookup o'.props pc = lookup o.props pc := by
  obtain ⟨a, ha⟩ := Option.isSome_iff_exists.mp hd.2
  have hk' : Dict.get? c.found b.1 = some r := by
    have := (getNodeLoop_pair cenv b c.found).symm.trans hk
    injection this
  have ho' : Dict.get? r.node.objects code = some o := ho
  by_cases hb : b.1 = a.1
  · have hal : afterList ord c m = c := by unfold afterList; rw [hn]
    rcases receive_cases hord env hc net c (reach_knows hord h).1 m a ha hd.1 with ⟨e, -⟩ | ⟨e, -, -⟩
    · refine ⟨r, o, ?_, ho, rfl⟩
      exact (getNodeLoop_pair cenv b _).trans (congrArg Except.ok (by rw [e]; exact hk'))
    · rw [hal] at e
      have hg := getNodeLoop_pair cenv b (c.messageReceived ord env cenv net m).1.found
      have : ∃ r', Dict.get? (c.messageReceived ord env cenv net m).1.found b.1 = some r' ∧ ∃ o', Dict.get? r'.node.objects code = some o' ∧
          lookup o'.props pc = lookup o.props pc := by
        rw [e, hb]
        unfold reportTo
        rw [hb] at hk'
        rw [hk']
        simp only []
        cases hx : Dict.get? r.node.objects (m.deoj % 2 ^ 24) with
        | none => exact ⟨r, hk', o, ho', rfl⟩
        | some ox =>
          simp only []
          rw [Dict.get?_modify, if_pos rfl, hk']
          refine ⟨_, rfl, ?_⟩
          simp only []
          rw [get?_putObj]
          by_cases hcode : m.deoj % 2 ^ 24 = code
          · rw [if_pos hcode, ho']
            refine ⟨_, rfl, ?_⟩
            rw [hcode, ho'] at hx
            injection hx with hx
            subst hx
            rw [lookup_afterWrites]
            have : lastFor (received m).props pc = none := by
              unfold lastFor
              rw [List.filter_eq_nil_iff.mpr (fun i hi => by simpa using hpc i hi)]
              rfl
            rw [this]
            cases lookup o.props pc <;> rfl
          · rw [if_neg hcode]
            exact ⟨o, ho', rfl⟩
      obtain ⟨r', h1, o', h2, h3⟩ := this
      exact ⟨r', o', hg.trans (congrArg Except.ok h1), h2, h3⟩
  · refine ⟨r, o, ?_, ho, rfl⟩
    rw [C84_isolated hord h env hc net m hd a b ha hb]
    exact hk

/-- C82 for all other messages: which nodes are known at which address and which objects they have changes only by
notifications and read responses whose first property is a complete instance list. -/
theorem C82_lists_partial {ord : List Int → List Int} (hord : ValidOrder ord) {c : Ctl} {ops : List CtlOp} (h : CtlReach ord c ops)
    (op : CtlOp) (ha : op.Allowed) (ip : String)
    (hne : (Dict.get? (op.run ord c).found ip).map (fun r => (r.node.address, Dict.keys r.node.objects)) ≠
      (Dict.get? c.found ip).map (fun r => (r.node.address, Dict.keys r.node.objects))) :
    ∃ env cenv net m a l, op = .receive env cenv net m ∧ (m.esv = 0x72 ∨ m.esv = 0x73) ∧ m.deoj % 2 ^ 24 = 0x0EF001 ∧
      m.fromAddr = some a ∧ a.1 = ip ∧ instanceListOf m = .codes l := by
  by_cases hop : ∃ env cenv net m, op = .receive env cenv net m
  · obtain ⟨env, cenv, net, m, rfl⟩ := hop
    have hk := reach_knows hord h
    have hk' := knows_step hord c (heard ops) hk _ ha
    rw [hk.2 ip, hk'.2 ip, show heard [CtlOp.receive env cenv net m] = [m] from rfl, latest_append] at hne
    cases hx : announced m with
    | none => rw [hx] at hne; exact absurd rfl hne
    | some x =>
      obtain ⟨a, l⟩ := x
      rw [hx] at hne
      simp only [] at hne
      obtain ⟨h1, h2, h3, h4⟩ := announced_parts hx
      refine ⟨env, cenv, net, m, a, l, rfl, h1, h2, h3, ?_, h4⟩
      by_contra hip
      rw [if_neg hip] at hne
      exact hne rfl
  · exact absurd (by rw [(run_other ord c op (fun env cenv net m e => hop ⟨env, cenv, net, m, e⟩)).1]) hne

/-- C82 as stated is false: which object a list comes from is not looked at; a property 0xD5 or 0xD6 of any device is
taken for a list of its node's instances. -/
theorem C82_source_false {ord : List Int → List Int} (hord : ValidOrder ord) :
    (∀ m s, announced { m with seoj := s } = announced m) ∧
    ∃ c ops r, CtlReach ord c ops ∧ (∀ m ∈ heard ops, m.seoj = 0x013001) ∧
      c.getNode calmEnv (.pair ("10.0.0.9", 3610)) = .ok (some r) ∧ r.node.objectList.map Obj.code = [0x0EF001, 0x029101] := by
  refine ⟨fun m s => rfl, ?_⟩
  have hm : Delivered { exList "10.0.0.9" [0x029101] with seoj := 0x013001 } := ⟨by decide +kernel, rfl⟩
  have hr : CtlReach ord (runCtl ord (Ctl.new ord exRandom).1 [.receive exEnv calmEnv okNet { exList "10.0.0.9" [0x029101] with seoj := 0x013001 }])
      [.receive exEnv calmEnv okNet { exList "10.0.0.9" [0x029101] with seoj := 0x013001 }] := by
    refine ⟨exRandom, ?_, rfl⟩
    intro op hop
    simp only [List.mem_cons, List.not_mem_nil, or_false] at hop
    subst hop
    exact ⟨hm, calmEnv_calm, exEnv_stable⟩
  have hl : latest (heard [.receive exEnv calmEnv okNet { exList "10.0.0.9" [0x029101] with seoj := 0x013001 }]) "10.0.0.9" =
    some (("10.0.0.9", 3610), [0x029101]) := by decide +kernel
  obtain ⟨r, -, h1, h2⟩ := (C59_get_node hord hr calmEnv "10.0.0.9" 3610).2 _ _ hl
  obtain ⟨r', hr', -, -, -, h3⟩ := (C59_nodes hord hr).2.2 "10.0.0.9" _ _ hl
  have hi := (reach_knows hord hr).1
  refine ⟨_, _, r, hr, by simp [heard], h1, ?_⟩
  have hk := (reach_knows hord hr).2 "10.0.0.9"
  rw [hl] at hk
  obtain ⟨r0, k1, k2⟩ := Option.map_eq_some_iff.mp hk
  have hg := (getNodeLoop_pair calmEnv ("10.0.0.9", 3610) _).symm.trans h1
  injection hg with hg
  simp only [] at hg
  rw [k1] at hg
  injection hg with hg
  subst hg
  injection k2 with k2 k3
  have hri := hi.nodes _ _ k1
  have : r0.node.objectList.map Obj.code = Dict.keys r0.node.objects := by
    unfold Node.objectList Dict.values Dict.keys
    rw [List.map_map]
    apply List.map_congr_left
    intro x hx
    exact (hri.objs x.1 x.2 (Dict.get?_of_mem _ _ _ hri.keys hx)).2
  rw [this, k3]
  decide

/-- C83. Whatever is received, only registered listeners are called; what has been called stays. -/
theorem C83_registered (ord : List Int → List Int) (env : Env) (cenv : CEnv) (net : Net) (c : Ctl) (m : Msg) :
    (c.messageReceived ord env cenv net m).1.listeners = c.listeners ∧
    ∃ more, (c.messageReceived ord env cenv net m).1.calls = c.calls ++ more ∧ ∀ x ∈ more, x.1 ∈ c.listeners :=
  follows_receive ord env cenv net c m

/-- C83. `remove_listener` takes back one registration, the first, and leaves the others as they are; for a listener
that is not registered it raises ValueError and changes nothing. -/
theorem C83_remove (c : Ctl) (l : Nat) :
    (l ∉ c.listeners → c.removeListener l = (c, .error .valueError)) ∧
    (∀ xs ys, l ∉ xs → c.listeners = xs ++ l :: ys →
      (c.removeListener l).2 = .ok () ∧ (c.removeListener l).1.listeners = xs ++ ys ∧ (c.removeListener l).1.found = c.found ∧
      (c.removeListener l).1.calls = c.calls) ∧
    (c.addListener l).listeners = c.listeners ++ [l] := by
  refine ⟨?_, ?_, rfl⟩
  · intro h
    unfold Ctl.removeListener
    rw [if_neg h]
  · intro xs ys hx hl
    unfold Ctl.removeListener
    rw [if_pos (by rw [hl]; simp)]
    refine ⟨rfl, ?_, rfl, rfl⟩
    show c.listeners.erase l = _
    rw [hl, List.erase_append_right _ hx, List.erase_cons_head]

/-- C83. A listener registered once and removed hears nothing of later messages. -/
theorem C83_silent (ord : List Int → List Int) (env : Env) (cenv : CEnv) (net : Net) (c : Ctl) (m : Msg) (l : Nat) (xs ys : List Nat)
    (hx : l ∉ xs) (hy : l ∉ ys) (hl : c.listeners = xs ++ l :: ys) :
    (toldAll ((c.removeListener l).1.messageReceived ord env cenv net m).1).filter (fun x => decide (x.1 = l)) = (toldAll c).filter (fun x => decide (x.1 = l)) := by
  obtain ⟨-, h1, -, h2⟩ := (C83_remove c l).2.1 xs ys hx hl
  obtain ⟨-, more, h3, h4⟩ := C83_registered ord env cenv net (c.removeListener l).1 m
  unfold toldAll
  rw [h3, h2, List.map_append, List.filter_append]
  have : (more.map (fun x => (x.1, told x.2.2))).filter (fun x => decide (x.1 = l)) = [] := by
    rw [List.filter_eq_nil_iff]
    intro x hx'
    obtain ⟨y, hy', rfl⟩ := List.mem_map.mp hx'
    have := h4 y hy'
    rw [h1] at this
    simp only [decide_eq_true_eq]
    intro e
    rw [e] at this
    rcases List.mem_append.mp this with h | h
    · exact hx h
    · exact hy h
  rw [this, List.append_nil]

example : ∃ c : Ctl, c.listeners = [3] ++ 7 :: [4] ∧ 7 ∉ [3] ∧ 7 ∉ [4] :=
  ⟨{ ln := (Ctl.new List.dedup exRandom).1.ln, listeners := [3, 7, 4] }, rfl, by decide, by decide⟩

end Uecho
