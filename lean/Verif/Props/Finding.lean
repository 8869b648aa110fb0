/- C128: the receiving threads of a controller at the same time. -/
import Verif.Lemmas.Finding
import Verif.Props.EndToEnd

namespace Uecho.Finding
open Spec

/-- C128. However the receiving threads of a controller are interrupted by each other, its table never has two nodes of one address, and the node of an address is the one of the list
that was stored last, with exactly the objects of that list; it belongs to the controller, except while the thread that stored it is about to see to that. -/
theorem C128_table_partial {ord : List Int → List Int} (hord : ValidOrder ord) {c : Ctl} {ops : List CtlOp} (h : CtlReach ord c ops) (es : List Ev) (hd : ∀ m ∈ arriving es, Delivered m) :
    (Dict.keys (run ord (ofCtl c) es).table).Nodup ∧
    (∀ ip, (Dict.get? (run ord (ofCtl c) es).table ip).map (fun r => (r.node.address, Dict.keys r.node.objects)) =
      (latest (heard ops ++ stores ord (ofCtl c) es) ip).map (fun x => (some x.1, addCodes [0x0EF001] x.2))) ∧
    ((∀ t m i, (run ord (ofCtl c) es).pc t ≠ .link m i) → ∀ ip r, Dict.get? (run ord (ofCtl c) es).table ip = some r → r.linked = true) := by
  have hk := reach_knows hord h
  have hi := ofCtl_inv hk
  have h1 := run_inv hord es _ _ hi hd
  refine ⟨by rw [keys_table]; exact h1.keys, fun ip => ?_, fun hno ip r hr => ?_⟩
  · rw [get?_table, Option.map_map]
    exact h1.knows ip
  · have h2 := run_owned hord es _ _ hi (ofCtl_owned hk.1) hd
    rw [get?_table] at hr
    cases hx : Dict.get? (run ord (ofCtl c) es).found ip with
    | none => rw [hx] at hr; cases hr
    | some i =>
      rw [hx] at hr
      cases hr
      rcases h2 ip i hx with h3 | ⟨t, m, h3⟩
      · exact h3
      · exact absurd h3 (hno t m i)

/-- Two nodes that were not known announce themselves to two threads, which take turns. -/
def exTurns : List Ev :=
  [.recv 0 (exList "10.0.0.8" [0x013001]), .recv 1 (exList "10.0.0.9" [0x029101, 0x029102])] ++ (List.replicate 12 [Ev.tick 0, .tick 1]).flatten

theorem exTurns_delivered : ∀ m ∈ arriving exTurns, Delivered m := by
  intro m hm
  have e : arriving exTurns = [exList "10.0.0.8" [0x013001], exList "10.0.0.9" [0x029101, 0x029102]] := rfl
  rw [e] at hm
  simp only [List.mem_cons, List.not_mem_nil, or_false] at hm
  rcases hm with rfl | rfl <;> (unfold Delivered; decide +kernel)

example {ord : List Int → List Int} (hord : ValidOrder ord) : ∃ c ops, CtlReach ord c ops ∧ (∀ m ∈ arriving exTurns, Delivered m) := by
  obtain ⟨c, h1, -, -⟩ := ctl_device hord exObj
  exact ⟨c, _, h1, exTurns_delivered⟩

/-- On an empty table, taking turns this way, both nodes are stored, linked and left in the table by threads that come to their end. -/
example : (Dict.keys (run List.dedup { heap := fun _ => { node := {} }, next := 0, found := [] } exTurns).table = ["10.0.0.8", "10.0.0.9"]) ∧
    (stores List.dedup { heap := fun _ => { node := {} }, next := 0, found := [] } exTurns).map announced =
      [some (("10.0.0.8", 3610), [0x013001]), some (("10.0.0.9", 3610), [0x029101, 0x029102])] := by
  decide +kernel

/-- C128. A list that is handed to a thread with nothing to do is stored, whatever the other threads do meanwhile, before that thread can be done with it. -/
theorem C128_stored_partial {ord : List Int → List Int} (hord : ValidOrder ord) (s : St) (t : Nat) (m : Msg) (hd : Delivered m) (hl : (announced m).isSome)
    (hfree : s.pc t = .idle ∨ s.pc t = .done (.ok ())) (es : List Ev) (hn : NoMore t es) (r : Except Exc Unit) (hr : (run ord s (.recv t m :: es)).pc t = .done r) :
    received m ∈ stores ord s (.recv t m :: es) ∧ announced (received m) = announced m := by
  have h0 : OnWay t m ([] ++ storedBy s (.recv t m)) (step ord s (.recv t m)) := by
    left
    rcases hfree with e | e <;> simp only [step, e] <;> exact goto_pc _ _ _
  have h1 := onWay_run hord hd (Option.isSome_iff_exists.mp hl) es _ _ h0 hn
  refine ⟨?_, announced_received m⟩
  have e : run ord s (.recv t m :: es) = run ord (step ord s (.recv t m)) es := rfl
  rw [e] at hr
  rcases h1 with h | ⟨i, h⟩ | ⟨i, h⟩ | h
  · rw [hr] at h; cases h
  · rw [hr] at h; cases h
  · rw [hr] at h; cases h
  · exact h

/-- A list with two devices, and a thread that has nothing to do. -/
example : Delivered (exList "10.0.0.9" [0x029101, 0x029102]) ∧ (announced (exList "10.0.0.9" [0x029101, 0x029102])).isSome ∧ ∀ c, (ofCtl c).pc 3 = .idle :=
  ⟨by unfold Delivered; decide +kernel, by decide +kernel, fun _ => rfl⟩

/-- C128. As long as the messages come from addresses that are already in the table, no thread is ended by an exception, and a thread that is given a message and enough of the
processor gets done with it, whatever the others do. -/
theorem C128_known_partial {ord : List Int → List Int} (hord : ValidOrder ord) (c : Ctl) (es : List Ev)
    (hd : ∀ m ∈ arriving es, Delivered m ∧ Fit m ∧ From (Dict.keys c.found) m) :
    (∀ t e, (run ord (ofCtl c) es).pc t ≠ .done (.error e)) ∧
    Dict.keys (run ord (ofCtl c) es).table = Dict.keys c.found ∧
    (∀ pre t m post, es = pre ++ .recv t m :: post → (run ord (ofCtl c) pre).pc t = .idle ∨ (run ord (ofCtl c) pre).pc t = .done (.ok ()) → NoMore t post →
      c.found.length + 2 * m.props.length + 7 ≤ ticks t post → (run ord (ofCtl c) es).pc t = .done (.ok ())) := by
  have h0 := run_known hord es _ ofCtl_known hd
  refine ⟨?_, ?_, ?_⟩
  · intro t e he
    have := (h0.pcs t).1
    rw [he] at this
    exact this
  · rw [keys_table]; exact h0.keys
  · rintro pre t m post rfl hfree hn ht
    have hap : ∀ m' ∈ arriving (.recv t m :: post), Delivered m' ∧ Fit m' ∧ From (Dict.keys c.found) m' := fun m' h' => hd m' (by
      unfold arriving at h' ⊢
      rw [List.filterMap_append]
      exact List.mem_append_right _ h')
    have h1 := run_known hord pre _ ofCtl_known (fun m' h' => hd m' (by
      unfold arriving at h' ⊢
      rw [List.filterMap_append]
      exact List.mem_append_left _ h'))
    have e : run ord (ofCtl c) (pre ++ .recv t m :: post) = run ord (step ord (run ord (ofCtl c) pre) (.recv t m)) post := by
      unfold run
      rw [List.foldl_append]
      rfl
    rw [e] at h0 ⊢
    generalize run ord (ofCtl c) pre = s at *
    have hs : (step ord s (.recv t m)).pc t = .start m := by
      rcases hfree with e | e <;> simp only [step, e] <;> exact goto_pc _ _ _
    have h2 := step_known hord h1 (.recv t m) (fun t' m' he => by cases he; exact hap m (by simp [arriving]))
    obtain ⟨w1, w2⟩ := run_weight hord t post _ h2 (fun m' h' => hap m' (by
      unfold arriving at h' ⊢
      simp only [List.filterMap_cons]
      exact List.mem_cons_of_mem _ h')) hn (by rw [hs]; intro e; cases e)
    have hw : weight (Dict.keys c.found) ((run ord (step ord s (.recv t m)) post).pc t) = 0 := by
      rw [hs] at w1
      have hl : (Dict.keys c.found).length = c.found.length := List.length_map _
      have hpr : (received m).props.length ≤ m.props.length := by
        show (if TwoSections m.esv then [] else m.props).length ≤ _
        split <;> simp
      have hwt : weight (Dict.keys c.found) (.start m) = (Dict.keys c.found).length + 2 * (received m).props.length + 7 := rfl
      rw [hwt, hl] at w1
      omega
    have hk := h0.pcs t
    generalize (run ord (step ord s (.recv t m)) post).pc t = p at *
    cases p with
    | done r =>
      cases r with
      | ok u => rfl
      | error e => exact hk.1.elim
    | idle => exact absurd rfl w2
    | _ => simp only [weight] at hw; omega

/-- A controller that knows a node, which announces itself again, twice at the same time. -/
example {ord : List Int → List Int} (hord : ValidOrder ord) : ∃ c ops, CtlReach ord c ops ∧
    ∀ m ∈ arriving [.recv 0 (exList "10.0.0.9" [0x029101]), .recv 1 (exList "10.0.0.9" [0x013001])], Delivered m ∧ Fit m ∧ From (Dict.keys c.found) m := by
  obtain ⟨_, c, _, ops, -, -, -, h1, -, h2⟩ := ctl_ready hord
  refine ⟨c, ops, h1, ?_⟩
  intro m hm
  have hk : "10.0.0.9" ∈ Dict.keys c.found := h2
  have e : arriving [.recv 0 (exList "10.0.0.9" [0x029101]), .recv 1 (exList "10.0.0.9" [0x013001])] = [exList "10.0.0.9" [0x029101], exList "10.0.0.9" [0x013001]] := rfl
  rw [e] at hm
  simp only [List.mem_cons, List.not_mem_nil, or_false] at hm
  rcases hm with rfl | rfl
  · refine ⟨by unfold Delivered; decide +kernel, ⟨fun h => h.2 (by decide), fun h => ?_⟩, ("10.0.0.9", 3610), rfl, hk⟩
    have e : instanceListOf (exList "10.0.0.9" [0x029101]) = .codes [0x029101] := by rfl
    rw [e] at h
    cases h.2
  · refine ⟨by unfold Delivered; decide +kernel, ⟨fun h => h.2 (by decide), fun h => ?_⟩, ("10.0.0.9", 3610), rfl, hk⟩
    have e : instanceListOf (exList "10.0.0.9" [0x013001]) = .codes [0x013001] := by rfl
    rw [e] at h
    cases h.2

/-- C128. A thread that is not interrupted does what `Model/Controller` says, whatever the other threads are in the middle of: the same table, the same calls of listeners, the same end. -/
theorem C128_alone_partial {ord : List Int → List Int} (hord : ValidOrder ord) {c : Ctl} {ops : List CtlOp} (h : CtlReach ord c ops) (env : Env) {cenv : CEnv} (hcalm : Calm cenv) (net : Net)
    (s : St) (hs : Shows s c) (t : Nat) (hfree : s.pc t = .idle ∨ s.pc t = .done (.ok ())) (m : Msg) (hd : Delivered m) (hr : ESV.isRequest m.esv = false) :
    ∃ k s', run ord s (.recv t m :: List.replicate k (.tick t)) = s' ∧ s'.pc t = .done (c.messageReceived ord env cenv net m).2 ∧
      s'.table = (c.messageReceived ord env cenv net m).1.found ∧ s'.told = toldAll (c.messageReceived ord env cenv net m).1 ∧ Shows s' (c.messageReceived ord env cenv net m).1 := by
  obtain ⟨s', ⟨k, g1⟩, g2, g3⟩ := message_alone hord env hcalm net t s c hs (reach_knows hord h).1 m hd hr
  refine ⟨k, s', ?_, g2, g3.table, g3.told, g3⟩
  rw [← g1]
  show run ord (step ord s (.recv t m)) _ = _
  rcases hfree with e | e <;> simp only [step, e]

/-- The state of a controller with no thread at work shows the controller. -/
example {ord : List Int → List Int} (hord : ValidOrder ord) : ∃ c ops, CtlReach ord c ops ∧ Shows (ofCtl c) c ∧ (ofCtl c).pc 0 = .idle ∧ Calm calmEnv ∧
    Delivered (exList "10.0.0.9" [0x029101]) ∧ ESV.isRequest (exList "10.0.0.9" [0x029101]).esv = false := by
  obtain ⟨c, h1, -, -⟩ := ctl_device hord exObj
  exact ⟨c, _, h1, ofCtl_shows c, rfl, calmEnv_calm, by unfold Delivered; decide +kernel, by decide⟩

/-- C128, what is false. Two nodes announce themselves to any controller at the same time, one of them new: if the second is stored while the thread of the first is looking for its node,
that thread is ended by an exception and takes nothing any more, although both nodes are now in the table. -/
theorem C128_raises_false {ord : List Int → List Int} (hord : ValidOrder ord) (c : Ctl) (t1 t2 : Nat) (ht : t1 ≠ t2) (m1 m2 : Msg) (hd1 : Delivered m1) (hd2 : Delivered m2)
    (a1 a2 : Addr) (l1 l2 : List Int) (h1 : announced m1 = some (a1, l1)) (h2 : announced m2 = some (a2, l2)) (hne : a1.1 ≠ a2.1) (hnew : a2.1 ∉ Dict.keys c.found) :
    ∃ es, arriving es = [m2, m1] ∧ (run ord (ofCtl c) es).pc t1 = .done (.error .runtimeError) ∧
      (∀ es', (run ord (ofCtl c) (es ++ es')).pc t1 = .done (.error .runtimeError)) ∧
      a1.1 ∈ Dict.keys (run ord (ofCtl c) es).table ∧ a2.1 ∈ Dict.keys (run ord (ofCtl c) es).table := by
  obtain ⟨S, hS⟩ : ∃ S, S = step ord (ofCtl c) (.recv t2 m2) := ⟨_, rfl⟩
  have hS' : S = (ofCtl c).goto t2 (.start m2) := hS
  have hf : S.found = (ofCtl c).found := by rw [hS']; rfl
  have hp1 : S.pc t1 = .idle := by
    rw [hS']
    exact if_neg ht
  have hp2 : S.pc t2 = .start m2 := by rw [hS']; exact goto_pc _ _ _
  obtain ⟨k1, g1⟩ := list_alone hord t1 S m1 hd1.1 a1 l1 h1
  -- the first thread has stored its node and begins to look for it
  have hrep : (ESV.isNotification (received m1).esv || ESV.isReadResponse (received m1).esv) = true := by
    have e : (received m1).esv = m1.esv := rfl
    rw [e]
    unfold announced at h1
    split at h1
    · rename_i hc
      rcases hc.1 with e | e <;> rw [e] <;> decide
    · cases h1
  obtain ⟨X, hX⟩ : ∃ X, X = tick ord ((listed ord S a1 l1).goto t1 (.report (received m1))) t1 := ⟨_, rfl⟩
  have hX' : X = (listed ord S a1 l1).goto t1 (.look (received m1) 0 (Dict.set S.found a1.1 S.next).length) := by
    rw [hX]
    simp only [tick, goto_pc]
    rw [if_pos hrep, goto_goto]
    rfl
  have hXf : X.found = Dict.set S.found a1.1 S.next := by rw [hX']; rfl
  have hX2 : X.pc t2 = .start m2 := by
    rw [hX']
    show (if t2 = t1 then _ else S.pc t2) = _
    rw [if_neg (Ne.symm ht), hp2]
  -- the second thread stores its own
  obtain ⟨k2, g2⟩ := list_alone hord t2 X m2 hd2.1 a2 l2 h2
  rw [← stay X t2 _ hX2] at g2
  obtain ⟨Y, hY⟩ : ∃ Y, Y = (listed ord X a2 l2).goto t2 (.report (received m2)) := ⟨_, rfl⟩
  rw [← hY] at g2
  have hYf : Y.found = Dict.set X.found a2.1 X.next := by rw [hY]; rfl
  have hY1 : Y.pc t1 = .look (received m1) 0 X.found.length := by
    rw [hY, hXf]
    show (if t1 = t2 then _ else X.pc t1) = _
    rw [if_neg ht, hX']
    exact goto_pc _ _ _
  have hlen : X.found.length ≠ Y.found.length := by
    have hno : a2.1 ∉ Dict.keys X.found := by
      rw [hXf, ← Dict.get?_eq_none_iff, Dict.get?_set, if_neg hne, Dict.get?_eq_none_iff, hf, keys_ofCtl]
      exact hnew
    have := congrArg List.length (Dict.keys_set X.found a2.1 X.next)
    rw [if_neg hno, List.length_append] at this
    unfold Dict.keys at this
    rw [List.length_map, List.length_map] at this
    rw [hYf, this]
    simp
  have hend : (tick ord Y t1).pc t1 = .done (.error .runtimeError) := by
    simp only [tick, hY1]
    rw [if_pos hlen]
    exact goto_pc _ _ _
  have hendf : (tick ord Y t1).found = Y.found := by
    simp only [tick, hY1]
    rw [if_pos hlen]
    rfl
  have hrun : run ord (ofCtl c) (.recv t2 m2 :: .recv t1 m1 :: (List.replicate k1 (.tick t1) ++ (.tick t1 :: (List.replicate k2 (.tick t2) ++ [.tick t1])))) = tick ord Y t1 := by
    show run ord (step ord (step ord (ofCtl c) (.recv t2 m2)) (.recv t1 m1)) _ = _
    rw [← hS]
    have e : step ord S (.recv t1 m1) = S.goto t1 (.start m1) := by simp only [step, hp1]
    rw [e]
    unfold run at *
    rw [List.foldl_append, g1, List.foldl_cons]
    show List.foldl _ (tick ord _ t1) _ = _
    rw [← hX, List.foldl_append, g2]
    rfl
  have harr : ∀ k t, arriving (List.replicate k (Ev.tick t)) = [] := by
    intro k t
    unfold arriving
    rw [List.filterMap_eq_nil_iff]
    intro x hx
    rw [(List.mem_replicate.mp hx).2]
  have happ : ∀ x y, arriving (x ++ y) = arriving x ++ arriving y := fun x y => List.filterMap_append
  refine ⟨_, ?_, by rw [hrun]; exact hend, fun es' => ?_, ?_, ?_⟩
  · have e : ∀ es', arriving (.recv t2 m2 :: .recv t1 m1 :: es') = m2 :: m1 :: arriving es' := fun _ => rfl
    have e' : ∀ es', arriving (.tick t1 :: es') = arriving es' := fun _ => rfl
    rw [e, happ, harr, List.nil_append, e', happ, harr]
    rfl
  · unfold run at hrun ⊢
    rw [List.foldl_append, hrun]
    exact run_dead ord t1 _ es' _ hend
  · rw [hrun, keys_table, hendf, hYf, hXf, ← Dict.get?_isSome_iff, Dict.get?_set, if_neg (Ne.symm hne), Dict.get?_set, if_pos rfl]
    rfl
  · rw [hrun, keys_table, hendf, hYf, ← Dict.get?_isSome_iff, Dict.get?_set, if_pos rfl]
    rfl

/-- Two new nodes and a controller that knows none. -/
example {ord : List Int → List Int} (hord : ValidOrder ord) : ∃ c ops, CtlReach ord c ops ∧ "10.0.0.9" ∉ Dict.keys c.found ∧
    Delivered (exList "10.0.0.8" [0x013001]) ∧ Delivered (exList "10.0.0.9" [0x029101]) ∧
    announced (exList "10.0.0.8" [0x013001]) = some (("10.0.0.8", 3610), [0x013001]) ∧ announced (exList "10.0.0.9" [0x029101]) = some (("10.0.0.9", 3610), [0x029101]) := by
  obtain ⟨c, _, ops, _, h1, -, h2, -⟩ := ctl_ready hord
  exact ⟨c, ops, h1, by rw [h2]; simp, by unfold Delivered; decide +kernel, by unfold Delivered; decide +kernel, by decide +kernel, by decide +kernel⟩

end Uecho.Finding
