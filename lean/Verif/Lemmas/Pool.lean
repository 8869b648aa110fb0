/- Lemmas on programs with several nodes (`Model/Pool`). -/
import Verif.Spec.Pool
import Verif.Lemmas.Dict
import Verif.Lemmas.Dispatch

namespace Uecho.Pool
open Spec

/-! ### Tables -/

theorem get?_view {α β : Type} (f : α → β) (t : Dict Int α) (c : Int) :
    Dict.get? (t.map fun kr => (kr.1, f kr.2)) c = (Dict.get? t c).map f := by
  induction t with
  | nil => rfl
  | cons kr t ih =>
    obtain ⟨k, r⟩ := kr
    rw [List.map_cons, Dict.get?_cons, Dict.get?_cons, ih]
    by_cases hk : k = c
    · rw [if_pos hk, if_pos hk]; rfl
    · rw [if_neg hk, if_neg hk]

theorem set_view {α β : Type} (f : α → β) (t : Dict Int α) (c : Int) (r : α) :
    (Dict.set t c r).map (fun kr => (kr.1, f kr.2)) = Dict.set (t.map fun kr => (kr.1, f kr.2)) c (f r) := by
  induction t with
  | nil => rfl
  | cons kr t ih =>
    obtain ⟨k, r'⟩ := kr
    simp only [Dict.set, List.map_cons]
    by_cases hk : k = c
    · rw [if_pos hk, if_pos hk]; rfl
    · rw [if_neg hk, if_neg hk, List.map_cons, ih]

theorem slot_other (h : Heap) (j : Nat) (o : Obj) (r : Ref) (hr : r ≠ .obj j) :
    slotOf { h with objs := fun k => if k = j then o else h.objs k } r = slotOf h r := by
  cases r with
  | profile => rfl
  | obj k =>
    have : k ≠ j := fun e => hr (by rw [e])
    simp only [slotOf, if_neg this]

theorem map_other (h : Heap) (j : Nat) (o : Obj) (t : Dict Int Ref) (ht : ∀ c, (c, Ref.obj j) ∉ t) :
    t.map (fun kr => (kr.1, slotOf { h with objs := fun k => if k = j then o else h.objs k } kr.2)) = t.map fun kr => (kr.1, slotOf h kr.2) := by
  apply List.map_congr_left
  rintro ⟨c, r⟩ hm
  have : r ≠ .obj j := fun e => ht c (e ▸ hm)
  simp only [slot_other h j o r this]

theorem map_change (h : Heap) (j : Nat) (o : Obj) (c : Int) (t : Dict Int Ref) (hn : (Dict.keys t).Nodup) (hc : (c, Ref.obj j) ∈ t)
    (hu : ∀ c', (c', Ref.obj j) ∈ t → c' = c) :
    t.map (fun kr => (kr.1, slotOf { h with objs := fun k => if k = j then o else h.objs k } kr.2)) =
      Dict.modify (t.map fun kr => (kr.1, slotOf h kr.2)) c (fun _ => .user o) := by
  induction t with
  | nil => cases hc
  | cons kr t ih =>
    obtain ⟨k, r⟩ := kr
    have hn' : k ∉ Dict.keys t ∧ (Dict.keys t).Nodup := List.nodup_cons.mp hn
    have hkeys : ∀ c' r', (c', r') ∈ t → c' ∈ Dict.keys t := fun c' r' hm => List.mem_map.mpr ⟨_, hm, rfl⟩
    simp only [List.map_cons, Dict.modify]
    by_cases hk : k = c
    · subst hk
      have hr : r = .obj j := by
        rcases List.mem_cons.mp hc with e | e
        · exact ((Prod.mk.inj e).2).symm
        · exact absurd (hkeys _ _ e) hn'.1
      subst hr
      rw [if_pos rfl, map_other h j o t (fun c' hm => hn'.1 (hu c' (List.mem_cons_of_mem _ hm) ▸ hkeys _ _ hm))]
      simp only [slotOf, if_pos]
    · have hr : r ≠ .obj j := fun e => hk (hu k (e ▸ List.mem_cons_self))
      have hc' : (c, Ref.obj j) ∈ t := by
        rcases List.mem_cons.mp hc with e | e
        · exact absurd (Prod.mk.inj e).1.symm hk
        · exact e
      rw [if_neg hk, slot_other h j o r hr, ih hn'.2 hc' (fun c' hm => hu c' (List.mem_cons_of_mem _ hm))]

theorem keyOf_some {t : Dict Int Ref} {j : Nat} {c : Int} (h : keyOf t j = some c) : (c, Ref.obj j) ∈ t := by
  unfold keyOf at h
  cases hf : t.find? (fun kr => decide (kr.2 = .obj j)) with
  | none => rw [hf] at h; cases h
  | some kr =>
    rw [hf] at h
    have h1 := List.mem_of_find?_eq_some hf
    have h2 := List.find?_some hf
    obtain ⟨k, r⟩ := kr
    have e1 : k = c := by simpa using h
    have e2 : r = .obj j := by simpa using h2
    rw [← e1, ← e2]; exact h1

theorem keyOf_none {t : Dict Int Ref} {j : Nat} (h : keyOf t j = none) (c : Int) : (c, Ref.obj j) ∉ t := by
  unfold keyOf at h
  rw [Option.map_eq_none_iff, List.find?_eq_none] at h
  intro hm
  exact h _ hm (by simp)

/-! ### Objects that are in one place -/

/-- Every object is in the table of at most one node, under at most one code. -/
structure Apart (h : Heap) : Prop where
  keys : ∀ i, (Dict.keys (h.nodes i).table).Nodup
  one : ∀ i i' c c' j, (c, Ref.obj j) ∈ (h.nodes i).table → (c', Ref.obj j) ∈ (h.nodes i').table → i = i' ∧ c = c'

theorem setNode_same (h : Heap) (i : Nat) (n : HNode) : (setNode h i n).nodes i = n := if_pos rfl

theorem setNode_other (h : Heap) {i k : Nat} (n : HNode) (hk : k ≠ i) : (setNode h i n).nodes k = h.nodes k := if_neg hk

theorem view_setNode_other (h : Heap) {i k : Nat} (n : HNode) (hk : k ≠ i) : nodeView (setNode h i n) k = nodeView h k := by
  unfold nodeView
  rw [setNode_other h n hk]
  rfl

theorem deref_view (h : Heap) (i : Nat) (r : Ref) : (nodeView h i).deref (slotOf h r) = deref h i r := by cases r <;> rfl

theorem get_view (h : Heap) (i : Nat) (c : Int) : Dict.get? (nodeView h i).node.objects c = (Dict.get? (h.nodes i).table c).map (slotOf h) :=
  get?_view _ _ _

theorem tables_change (h : Heap) (j : Nat) (o : Obj) (i : Nat) :
    (({ h with objs := fun k => if k = j then o else h.objs k } : Heap).nodes i).table = (h.nodes i).table := rfl

/-- An object is changed: the node that has it sees it, the others do not. -/
theorem view_change {h : Heap} (ha : Apart h) (j : Nat) (o : Obj) (i : Nat) :
    nodeView { h with objs := fun k => if k = j then o else h.objs k } i =
      match keyOf (h.nodes i).table j with
      | some c => (nodeView h i).putBack c (.user (h.objs j)) o
      | none => nodeView h i := by
  cases hk : keyOf (h.nodes i).table j with
  | some c =>
    have hm := keyOf_some hk
    have := map_change h j o c _ (ha.keys i) hm (fun c' hm' => (ha.one i i c' c j hm' hm).2)
    simp only [nodeView, LocalNode.putBack]
    rw [this]
  | none =>
    simp only [nodeView]
    rw [map_other h j o _ (keyOf_none hk)]

theorem keyOf_get {h : Heap} (ha : Apart h) {i : Nat} {c : Int} {j : Nat} (hg : Dict.get? (h.nodes i).table c = some (.obj j)) (k : Nat) :
    keyOf (h.nodes k).table j = if k = i then some c else none := by
  have hm := Dict.mem_of_get? _ _ _ hg
  cases hk : keyOf (h.nodes k).table j with
  | some c' =>
    have := ha.one k i c' c j (keyOf_some hk) hm
    rw [if_pos this.1, this.2]
  | none =>
    by_cases e : k = i
    · subst e; exact absurd hm (keyOf_none hk c)
    · rw [if_neg e]

/-- What the object that handled a message has become is seen by its node alone. -/
theorem view_store {h : Heap} (ha : Apart h) {i : Nat} {c : Int} {r : Ref} (hg : Dict.get? (h.nodes i).table c = some r) (o : Obj) (k : Nat) :
    nodeView (store h i r o) k = if k = i then (nodeView h i).putBack c (slotOf h r) o else nodeView h k := by
  cases r with
  | profile =>
    by_cases e : k = i
    · subst e
      rw [if_pos rfl]
      simp only [store, nodeView, setNode_same, LocalNode.putBack, slotOf]
      rfl
    · rw [if_neg e]; exact view_setNode_other h _ e
  | obj j =>
    have := view_change ha j o k
    rw [keyOf_get ha hg k] at this
    by_cases e : k = i
    · subst e
      rw [if_pos rfl] at this ⊢
      exact this
    · rw [if_neg e] at this ⊢
      exact this

theorem store_table (h : Heap) (i : Nat) (r : Ref) (o : Obj) (k : Nat) : ((store h i r o).nodes k).table = (h.nodes k).table := by
  cases r with
  | profile =>
    by_cases e : k = i
    · subst e; simp only [store, setNode_same]
    · exact congrArg HNode.table (setNode_other h _ e)
  | obj j => rfl

theorem setBase_table (h : Heap) (i : Nat) (b : LocalNode) (k : Nat) :
    ((setNode h i { h.nodes i with base := b }).nodes k).table = (h.nodes k).table := by
  by_cases e : k = i
  · subst e; rw [setNode_same]
  · rw [setNode_other h _ e]

/-! ### What does not look at the table -/

theorem answer_objects (net : Net) (n : LocalNode) (x : Node Slot) (req : Msg) (r : Option Msg) :
    LocalNode.answer net { n with node := x } req r = ({ (n.answer net req r).1 with node := x }, (n.answer net req r).2) := by
  cases r with
  | none => rfl
  | some res =>
    simp only [LocalNode.answer]
    by_cases hn : ESV.isNotification res.esv = true
    · rw [if_pos hn, if_pos hn]
      simp only [LocalNode.announceMessage]
      rcases n.mgr.announce net (if n.controller = true then { res with seoj := NodeProfile.CODE } else res) with ⟨g, m, e | b⟩ <;> rfl
    · rw [if_neg hn, if_neg hn]
      simp only [LocalNode.sendMessage]
      rcases n.mgr.send net (if n.controller = true then { res with seoj := NodeProfile.CODE } else res) req.fromAddr with ⟨g, m, e | b⟩ <;> rfl

theorem answer_node (net : Net) (n : LocalNode) (req : Msg) (r : Option Msg) : (n.answer net req r).1.node = n.node := by
  rw [answer_same]

theorem view_answer (net : Net) (h : Heap) (i : Nat) (req : Msg) (r : Option Msg) :
    nodeView (setNode h i { h.nodes i with base := ((h.nodes i).base.answer net req r).1 }) i = ((nodeView h i).answer net req r).1 ∧
    ((h.nodes i).base.answer net req r).2 = ((nodeView h i).answer net req r).2 := by
  have := answer_objects net (h.nodes i).base (nodeView h i).node req r
  have e : nodeView h i = { (h.nodes i).base with node := (nodeView h i).node } := rfl
  rw [e, this]
  refine ⟨?_, rfl⟩
  simp only [nodeView, setNode_same]
  rw [answer_node]
  rfl

/-- Which operations do not touch the table of the node. -/
def Idle : NodeOp → Prop
  | .enable _ _ | .start _ _ | .stop _ | .announce _ _ | .send _ _ _ => True
  | _ => False

theorem view_onBase (ord : List Int → List Int) (h : Heap) (i : Nat) (op : NodeOp) (hi : Idle op) (k : Nat) :
    nodeView (onBase ord h i op) k = if k = i then op.run ord (nodeView h i) else nodeView h k := by
  by_cases e : k = i
  · subst e
    rw [if_pos rfl]
    cases op with
    | enable opt v =>
      simp only [onBase, nodeView, setNode_same, NodeOp.run, LocalNode.setEnabled]
      cases v <;> rfl
    | start net caller =>
      simp only [onBase, nodeView, setNode_same, NodeOp.run, LocalNode.start]
      rcases (h.nodes k).base.mgr.start net caller [] with ⟨g, e | b⟩
      · rfl
      · cases b <;> rfl
    | stop caller => simp only [onBase, nodeView, setNode_same, NodeOp.run, LocalNode.stop]; rfl
    | announce net m => simp only [onBase, nodeView, setNode_same, NodeOp.run, LocalNode.announceMessage]; rfl
    | send net m a => simp only [onBase, nodeView, setNode_same, NodeOp.run, LocalNode.sendMessage]; rfl
    | add o => exact hi.elim
    | receive env net m => exact hi.elim
    | update c f => exact hi.elim
  · rw [if_neg e]; exact view_setNode_other h _ e

/-! ### Receiving -/

theorem receive_views {h : Heap} (ha : Apart h) (env : Env) (net : Net) (i : Nat) (m : Msg) :
    nodeView (messageReceived env net h i m).1 i = ((nodeView h i).messageReceived env net m).1 ∧
    (messageReceived env net h i m).2 = ((nodeView h i).messageReceived env net m).2 ∧
    (∀ k, k ≠ i → nodeView (messageReceived env net h i m).1 k = nodeView h k) ∧
    (∀ k, ((messageReceived env net h i m).1.nodes k).table = (h.nodes k).table) := by
  have e1 : ∀ opt, (nodeView h i).isEnabled opt = (h.nodes i).base.isEnabled opt := fun _ => rfl
  have e2 : (nodeView h i).isSelfMessage m = (h.nodes i).base.isSelfMessage m := rfl
  unfold messageReceived LocalNode.messageReceived
  simp only [e1, e2]
  by_cases hs : ((h.nodes i).base.isEnabled LocalNode.IGNORE_SELF_MESSAGE && LocalNode.truthy ((h.nodes i).base.isSelfMessage m)) = true
  · rw [if_pos hs, if_pos hs]; exact ⟨rfl, rfl, fun _ _ => rfl, fun _ => rfl⟩
  · rw [if_neg hs, if_neg hs]
    cases Msg.copyOf (some m) with
    | error e => exact ⟨rfl, rfl, fun _ _ => rfl, fun _ => rfl⟩
    | ok req =>
      simp only []
      have hget : (nodeView h i).node.getObject (.int req.deoj) = (Dict.get? (h.nodes i).table (setCode 0 (.int req.deoj)).1).map (slotOf h) := get_view h i _
      rw [hget]
      cases hg : Dict.get? (h.nodes i).table (setCode 0 (.int req.deoj)).1 with
      | none => exact ⟨rfl, rfl, fun _ _ => rfl, fun _ => rfl⟩
      | some r =>
        simp only [Option.map_some, deref_view]
        have hv := fun o k => view_store ha hg o k
        have ht := fun o k => store_table h i r o k
        generalize (deref h i r).messageReceived env req = q
        specialize hv q.obj
        specialize ht q.obj
        have hvi := hv i
        rw [if_pos rfl] at hvi
        have hdeoj : (setCode 0 (.int req.deoj)).1 = req.deoj := rfl
        rw [hdeoj] at hvi
        cases q.result with
        | error e =>
          exact ⟨hvi, rfl, fun k hk => by have := hv k; rw [if_neg hk] at this; exact this, ht⟩
        | ok res =>
          simp only []
          obtain ⟨w1, w2⟩ := view_answer net (store h i r q.obj) i req res
          rw [hvi] at w1 w2
          refine ⟨w1, w2, fun k hk => ?_, fun k => ?_⟩
          · rw [view_setNode_other _ _ hk]
            have := hv k; rw [if_neg hk] at this; exact this
          · rw [setBase_table]; exact ht k

/-! ### Adding -/

theorem add_view (ord : List Int → List Int) (h : Heap) (i j : Nat) :
    nodeView (addObject ord h i j).1 i = ((nodeView h i).addObject ord (h.objs j)).1 ∧
    (addObject ord h i j).2 = ((nodeView h i).addObject ord (h.objs j)).2 ∧
    (∀ k, k ≠ i → nodeView (addObject ord h i j).1 k = nodeView h k) ∧
    ((addObject ord h i j).1.nodes i).table = Dict.set (h.nodes i).table (h.objs j).code (.obj j) ∧
    (∀ k, k ≠ i → ((addObject ord h i j).1.nodes k).table = (h.nodes k).table) := by
  have hobjs : (nodeView h i).node.put (h.objs j).code (.user (h.objs j)) =
      { (h.nodes i).base.node with objects := (Dict.set (h.nodes i).table (h.objs j).code (.obj j)).map fun kr => (kr.1, slotOf h kr.2) } := by
    simp only [Node.put, nodeView]
    rw [set_view]
    rfl
  have hcodes : (LocalNode.objs { nodeView h i with node := (nodeView h i).node.put (h.objs j).code (.user (h.objs j)) }).map Obj.code =
      (Dict.values (Dict.set (h.nodes i).table (h.objs j).code (.obj j))).map fun r => (deref h i r).code := by
    rw [hobjs]
    simp only [LocalNode.objs, Node.objectList, Dict.values, List.map_map]
    apply List.map_congr_left
    rintro ⟨c, r⟩ -
    cases r <;> rfl
  have hq : (nodeView h i).profile = (h.nodes i).base.profile := rfl
  unfold LocalNode.addObject LocalNode.refresh addObject
  simp only [hcodes]
  refine ⟨?_, ?_, fun k hk => ?_, ?_, fun k hk => ?_⟩
  · rw [hobjs]
    simp only [nodeView, setNode_same]
    rfl
  · rfl
  · simp only [nodeView, setNode_other h _ hk]
    rfl
  · simp only [setNode_same]
  · simp only [setNode_other h _ hk]

theorem mem_set {t : Dict Int Ref} {c k : Int} {r r' : Ref} (h : (k, r') ∈ Dict.set t c r) : (k = c ∧ r' = r) ∨ (k, r') ∈ t := by
  induction t with
  | nil =>
    simp only [Dict.set, List.mem_singleton, Prod.mk.injEq] at h
    exact Or.inl h
  | cons kr t ih =>
    obtain ⟨k1, r1⟩ := kr
    simp only [Dict.set] at h
    by_cases e : k1 = c
    · rw [if_pos e] at h
      rcases List.mem_cons.mp h with e' | e'
      · exact Or.inl ⟨(Prod.mk.inj e').1.trans e, (Prod.mk.inj e').2⟩
      · exact Or.inr (List.mem_cons_of_mem _ e')
    · rw [if_neg e] at h
      rcases List.mem_cons.mp h with e' | e'
      · exact Or.inr (e' ▸ List.mem_cons_self)
      · rcases ih e' with w | w
        · exact Or.inl w
        · exact Or.inr (List.mem_cons_of_mem _ w)

/-- Objects that are in some table. -/
def InUse (h : Heap) (j : Nat) : Prop := ∃ i c, (c, Ref.obj j) ∈ (h.nodes i).table

theorem add_apart (ord : List Int → List Int) {h : Heap} (ha : Apart h) (i j : Nat) (hj : ¬ InUse h j) :
    Apart (addObject ord h i j).1 ∧ ∀ k, InUse (addObject ord h i j).1 k → k = j ∨ InUse h k := by
  obtain ⟨-, -, -, h4, h5⟩ := add_view ord h i j
  have hmem : ∀ k c j', (c, Ref.obj j') ∈ ((addObject ord h i j).1.nodes k).table →
      (k = i ∧ c = (h.objs j).code ∧ j' = j) ∨ (c, Ref.obj j') ∈ (h.nodes k).table := by
    intro k c j' hm
    by_cases e : k = i
    · subst e
      rw [h4] at hm
      rcases mem_set hm with ⟨w1, w2⟩ | w
      · exact Or.inl ⟨rfl, w1, Ref.obj.inj w2⟩
      · exact Or.inr w
    · rw [h5 k e] at hm; exact Or.inr hm
  refine ⟨⟨fun k => ?_, fun k k' c c' j' h1 h2 => ?_⟩, ?_⟩
  · by_cases e : k = i
    · subst e; rw [h4]; exact Dict.nodup_keys_set _ _ _ (ha.keys k)
    · rw [h5 k e]; exact ha.keys k
  · rcases hmem k c j' h1 with ⟨a1, a2, a3⟩ | a <;> rcases hmem k' c' j' h2 with ⟨b1, b2, b3⟩ | b
    · exact ⟨a1.trans b1.symm, a2.trans b2.symm⟩
    · subst a3; exact absurd ⟨k', c', b⟩ hj
    · subst b3; exact absurd ⟨k, c, a⟩ hj
    · exact ha.one k k' c c' j' a b
  · rintro k ⟨i', c, hm⟩
    rcases hmem i' c k hm with ⟨-, -, a⟩ | a
    · exact Or.inl a
    · exact Or.inr ⟨i', c, a⟩

theorem apart_of_tables {h h' : Heap} (ha : Apart h) (ht : ∀ k, (h'.nodes k).table = (h.nodes k).table) :
    Apart h' ∧ ∀ j, InUse h' j → InUse h j := by
  refine ⟨⟨fun i => by rw [ht]; exact ha.keys i, fun i i' c c' j h1 h2 => ?_⟩, ?_⟩
  · rw [ht] at h1 h2; exact ha.one i i' c c' j h1 h2
  · rintro j ⟨i, c, hm⟩
    rw [ht] at hm
    exact ⟨i, c, hm⟩

/-! ### One step -/

theorem onBase_table (ord : List Int → List Int) (h : Heap) (i : Nat) (op : NodeOp) (k : Nat) : ((onBase ord h i op).nodes k).table = (h.nodes k).table :=
  setBase_table h i _ k

theorem step_view (ord : List Int → List Int) {h : Heap} (ha : Apart h) (op : Op) (i : Nat) :
    nodeView (step ord h op) i = runOps ord (nodeView h i) (forNode i h op) := by
  have idle : ∀ (k : Nat) (o : NodeOp), Idle o → nodeView (onBase ord h k o) i = runOps ord (nodeView h i) (if k = i then [o] else []) := by
    intro k o ho
    rw [view_onBase ord h k o ho i]
    by_cases e : k = i
    · subst e; rw [if_pos rfl, if_pos rfl]; rfl
    · rw [if_neg e, if_neg (Ne.symm e)]; rfl
  cases op with
  | add k j =>
    obtain ⟨h1, -, h3, -, -⟩ := add_view ord h k j
    simp only [step, forNode]
    by_cases e : k = i
    · subst e; rw [if_pos rfl]; exact h1
    · rw [if_neg e]; exact h3 i (Ne.symm e)
  | receive k env net m =>
    obtain ⟨h1, -, h3, -⟩ := receive_views ha env net k m
    simp only [step, forNode]
    by_cases e : k = i
    · subst e; rw [if_pos rfl]; exact h1
    · rw [if_neg e]; exact h3 i (Ne.symm e)
  | change j f =>
    simp only [step, forNode]
    rw [view_change ha j _ i]
    cases hk : keyOf (h.nodes i).table j with
    | none => rfl
    | some c =>
      show (nodeView h i).putBack c (.user (h.objs j)) (f (h.objs j)) = (nodeView h i).update c f
      have hg : Dict.get? (nodeView h i).node.objects c = some (.user (h.objs j)) := by
        rw [get_view, Dict.get?_of_mem _ _ _ (ha.keys i) (keyOf_some hk)]; rfl
      unfold LocalNode.update
      rw [hg]
  | enable k opt v => exact idle k _ trivial
  | start k net caller => exact idle k _ trivial
  | stop k caller => exact idle k _ trivial
  | announce k net m => exact idle k _ trivial
  | send k net m a => exact idle k _ trivial

theorem step_apart (ord : List Int → List Int) {h : Heap} (ha : Apart h) (op : Op) (hj : ∀ j ∈ addedObjs [op], ¬ InUse h j) :
    Apart (step ord h op) ∧ ∀ k, InUse (step ord h op) k → k ∈ addedObjs [op] ∨ InUse h k := by
  have same : ∀ h' : Heap, (∀ k, (h'.nodes k).table = (h.nodes k).table) → Apart h' ∧ ∀ k, InUse h' k → k ∈ addedObjs [op] ∨ InUse h k := by
    intro h' ht
    obtain ⟨h1, h2⟩ := apart_of_tables ha ht
    exact ⟨h1, fun k hk => Or.inr (h2 k hk)⟩
  cases op with
  | add i j =>
    obtain ⟨h1, h2⟩ := add_apart ord ha i j (hj j (by simp [addedObjs]))
    refine ⟨h1, fun k hk => ?_⟩
    rcases h2 k hk with e | e
    · exact Or.inl (by simp [addedObjs, e])
    · exact Or.inr e
  | receive i env net m => exact same _ (receive_views ha env net i m).2.2.2
  | change j f => exact same _ (fun _ => rfl)
  | enable k opt v => exact same _ (onBase_table ord h k _)
  | start k net caller => exact same _ (onBase_table ord h k _)
  | stop k caller => exact same _ (onBase_table ord h k _)
  | announce k net m => exact same _ (onBase_table ord h k _)
  | send k net m a => exact same _ (onBase_table ord h k _)

theorem addedObjs_cons (op : Op) (ops : List Op) : addedObjs (op :: ops) = addedObjs [op] ++ addedObjs ops := by
  unfold addedObjs
  rw [← List.filterMap_append]; rfl

theorem run_views (ord : List Int → List Int) (i : Nat) : ∀ (ops : List Op) (h : Heap), Apart h → (addedObjs ops).Nodup → (∀ j ∈ addedObjs ops, ¬ InUse h j) →
    nodeView (run ord h ops) i = runOps ord (nodeView h i) (lifeOf ord i h ops) ∧ Apart (run ord h ops) := by
  intro ops
  induction ops with
  | nil => intro h ha _ _; exact ⟨rfl, ha⟩
  | cons op ops ih =>
    intro h ha hn hu
    rw [addedObjs_cons] at hn hu
    obtain ⟨hn1, hn2, hn3⟩ := List.nodup_append.mp hn
    obtain ⟨s1, s2⟩ := step_apart ord ha op (fun j hj => hu j (List.mem_append_left _ hj))
    obtain ⟨i1, i2⟩ := ih (step ord h op) s1 hn2 (fun j hj hin => by
      rcases s2 j hin with w | w
      · exact hn3 j w j hj rfl
      · exact hu j (List.mem_append_right _ hj) w)
    refine ⟨?_, i2⟩
    show nodeView (run ord (step ord h op) ops) i = _
    rw [i1, step_view ord ha op i]
    show _ = runOps ord (nodeView h i) (forNode i h op ++ lifeOf ord i (step ord h op) ops)
    unfold runOps
    rw [List.foldl_append]

theorem apart_none {h : Heap} (hn : NoObjects h) : Apart h ∧ ∀ j, ¬ InUse h j := by
  have hno : ∀ i c j, (c, Ref.obj j) ∉ (h.nodes i).table := by
    intro i c j hm
    rw [hn i] at hm
    simp at hm
  refine ⟨⟨fun i => ?_, fun i i' c c' j h1 _ => absurd h1 (hno i c j)⟩, ?_⟩
  · rw [hn i]; simp [Dict.keys]
  · rintro j ⟨i, c, hm⟩; exact hno i c j hm

/-! ### Objects in several places -/

/-- Whoever else has it, the object itself handles the message. -/
theorem receive_object (env : Env) (net : Net) (h : Heap) (i j : Nat) (m : Msg) (hm : Encodable m)
    (hg : Dict.get? (h.nodes i).table (m.deoj % 2 ^ 24) = some (.obj j)) :
    (messageReceived env net h i m).1.objs = (fun k => if k = j then ((h.objs j).messageReceived env (received m)).obj else h.objs k) ∧
    ∀ k, ((messageReceived env net h i m).1.nodes k).table = (h.nodes k).table := by
  unfold messageReceived
  simp only []
  rw [if_neg (by rw [not_self]; simp)]
  obtain ⟨c, h1, -, -, -, h2⟩ := (C10_copy m).1 hm
  rw [h1, h2]
  have hd : Dict.get? (h.nodes i).table (setCode 0 (.int (received m).deoj)).1 = some (.obj j) := hg
  show _ = _ ∧ _
  simp only []
  unfold received at hd
  rw [hd]
  simp only [deref]
  have ht := fun o k => store_table h i (.obj j) o k
  unfold received
  cases ((h.objs j).messageReceived env { onWire m with fromAddr := m.fromAddr, toAddr := m.toAddr }).result with
  | error e => exact ⟨rfl, ht _⟩
  | ok res => exact ⟨rfl, fun k => by simp only []; rw [setBase_table]; exact ht _ k⟩

theorem object_view (h : Heap) (i j : Nat) (c : Int) (hg : Dict.get? (h.nodes i).table c = some (.obj j)) :
    (nodeView h i).getObject (.int c) = some (h.objs j) := by
  have : (nodeView h i).node.getObject (.int c) = (Dict.get? (h.nodes i).table c).map (slotOf h) := get_view h i c
  unfold LocalNode.getObject
  rw [this, hg]
  rfl

end Uecho.Pool
