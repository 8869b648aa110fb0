/- Lemmas for C128. -/
import Verif.Spec.Finding
import Verif.Lemmas.Controller

namespace Uecho.Finding
open Spec

/-- What reports do not change about a node. -/
def shape (r : Remote) : Option Addr × List Int := (r.node.address, Dict.keys r.node.objects)

theorem get?_table (s : St) (k : String) : Dict.get? s.table k = (Dict.get? s.found k).map s.heap := by
  unfold St.table
  induction s.found with
  | nil => rfl
  | cons kv d ih =>
    obtain ⟨k', i⟩ := kv
    show Dict.get? ((k', s.heap i) :: _) k = _
    rw [Dict.get?_cons, Dict.get?_cons]
    by_cases h : k' = k
    · rw [if_pos h, if_pos h]; rfl
    · rw [if_neg h, if_neg h]; exact ih

theorem keys_table (s : St) : Dict.keys s.table = Dict.keys s.found := by
  unfold St.table Dict.keys
  rw [List.map_map]
  rfl

/-- What a message makes of a thread that starts on it. -/
theorem tick_start {ord : List Int → List Int} (hord : ValidOrder ord) (s : St) (t : Nat) (m : Msg) (hp : s.pc t = .start m) (a : Addr) (ha : m.fromAddr = some a)
    (hm : Encodable m) : tick ord s t =
      if ESV.isRequest m.esv then s.goto t (.done (.ok ()))
      else if ¬ (m.esv = 0x72 ∨ m.esv = 0x73) then s.goto t (.report (received m))
      else if m.deoj % 2 ^ 24 ≠ 0x0EF001 then s.goto t (.done (.error .attributeError))
      else match instanceListOf m with
        | .notAList => s.goto t (.report (received m))
        | .short => s.goto t (.report (received m))
        | .empty => s.goto t (.done (.error .indexError))
        | .codes l => ({ s.setNode s.next { node := listedNode ord a l } with next := s.next + 1 }).goto t (.tell (received m) s.next) := by
  simp only [tick, hp, isResponse_eq]
  by_cases hr : ESV.isRequest m.esv = true
  · simp only [hr, Bool.not_true, if_true]
  · have hr' : ESV.isRequest m.esv = false := by simpa using hr
    simp only [hr', Bool.not_false, Bool.true_eq_false, Bool.false_eq_true, if_false]
    have hcp : Msg.copyOf (some m) = .ok (received m) := by
      obtain ⟨x, h1, -, -, -, h2⟩ := (C10_copy m).1 hm
      rw [h1, h2]
      rfl
    rw [hcp]
    simp only [Msg.isNodeProfileMessage]
    by_cases h1 : m.esv = 0x72 ∨ m.esv = 0x73
    · have h2 : ¬ TwoSections m.esv := by unfold TwoSections; omega
      rw [if_neg (show ¬ ((received m).esv ≠ ESV.NOTIFICATION ∧ (received m).esv ≠ ESV.READ_RESPONSE) from
        (by omega : ¬ (m.esv ≠ 0x73 ∧ m.esv ≠ 0x72))), if_neg (not_not.mpr h1)]
      by_cases h3 : m.deoj % 2 ^ 24 = 0x0EF001
      · rw [if_neg (show ¬ ((received m).deoj ≠ NodeProfile.CODE) from not_not.mpr h3), if_neg (not_not.mpr h3)]
        simp only [remoteNode_new hord, parseMessage_eq hord, received_list m h2]
        cases instanceListOf m with
        | notAList => rfl
        | short => rfl
        | empty => rfl
        | codes l =>
          have : (received m).fromAddr = some a := ha
          simp only [this]
          rfl
      · rw [if_pos (show (received m).deoj ≠ NodeProfile.CODE from h3), if_pos h3]
    · rw [if_pos (show ((received m).esv ≠ ESV.NOTIFICATION ∧ (received m).esv ≠ ESV.READ_RESPONSE) from
        (by omega : (m.esv ≠ 0x73 ∧ m.esv ≠ 0x72))), if_pos h1]

theorem announced_received (m : Msg) : announced (received m) = announced m := by
  unfold announced
  have e : (received m).deoj % 2 ^ 24 = m.deoj % 2 ^ 24 := by show m.deoj % 2 ^ 24 % 2 ^ 24 = _; omega
  have e' : (received m).esv = m.esv := rfl
  rw [e, e']
  by_cases h : (m.esv = 0x72 ∨ m.esv = 0x73) ∧ m.deoj % 2 ^ 24 = 0x0EF001
  · rw [if_pos h, if_pos h, received_list m (by unfold TwoSections; omega)]
    rfl
  · rw [if_neg h, if_neg h]

/-- A thread holds on to nodes that exist, and the one it is about to store is the one its message describes. -/
def PcOk (next : Nat) (heap : Nat → Remote) : Pc → Prop
  | .start m => Delivered m
  | .tell m i => i < next ∧ ∃ a l, announced m = some (a, l) ∧ shape (heap i) = (some a, addCodes [0x0EF001] l)
  | .store m i => i < next ∧ ∃ a l, announced m = some (a, l) ∧ shape (heap i) = (some a, addCodes [0x0EF001] l)
  | .link _ i => i < next
  | .item m i _ _ => i < next ∧ m.deoj ∈ Dict.keys (heap i).node.objects
  | .put m i _ _ => i < next ∧ m.deoj ∈ Dict.keys (heap i).node.objects
  | _ => True

theorem PcOk.mono {next next' : Nat} {heap heap' : Nat → Remote} (hn : next ≤ next') (hs : ∀ j, j < next → shape (heap' j) = shape (heap j)) {p : Pc}
    (h : PcOk next heap p) : PcOk next' heap' p := by
  have hk : ∀ j, j < next → Dict.keys (heap' j).node.objects = Dict.keys (heap j).node.objects := fun j hj => congrArg Prod.snd (hs j hj)
  cases p with
  | tell m i => obtain ⟨h1, a, l, h2, h3⟩ := h; exact ⟨by omega, a, l, h2, by rw [hs i h1]; exact h3⟩
  | store m i => obtain ⟨h1, a, l, h2, h3⟩ := h; exact ⟨by omega, a, l, h2, by rw [hs i h1]; exact h3⟩
  | link m i => exact Nat.lt_of_lt_of_le h hn
  | item m i _ _ => exact ⟨by have := h.1; omega, by rw [hk i h.1]; exact h.2⟩
  | put m i _ _ => exact ⟨by have := h.1; omega, by rw [hk i h.1]; exact h.2⟩
  | _ => exact h

/-- What holds at every moment, if the nodes of the messages `ms` have been stored so far. -/
structure Inv (ms : List Msg) (s : St) : Prop where
  keys : (Dict.keys s.found).Nodup
  nodes : ∀ k i, Dict.get? s.found k = some i → i < s.next
  knows : ∀ ip, (Dict.get? s.found ip).map (fun i => shape (s.heap i)) = (latest ms ip).map (fun x => (some x.1, addCodes [0x0EF001] x.2))
  pcs : ∀ t, PcOk s.next s.heap (s.pc t)

/-- A step that leaves the table alone. -/
theorem Inv.still {ms : List Msg} {s s' : St} (h : Inv ms s) (t : Nat) (p : Pc) (hf : s'.found = s.found) (hn : s.next ≤ s'.next)
    (hs : ∀ j, j < s.next → shape (s'.heap j) = shape (s.heap j)) (hpc : s'.pc = fun u => if u = t then p else s.pc u) (hp : PcOk s'.next s'.heap p) : Inv ms s' := by
  refine ⟨by rw [hf]; exact h.keys, ?_, ?_, ?_⟩
  · intro k i hi
    rw [hf] at hi
    exact Nat.lt_of_lt_of_le (h.nodes k i hi) hn
  · intro ip
    rw [hf, ← h.knows ip]
    cases hi : Dict.get? s.found ip with
    | none => rfl
    | some i => simp only [Option.map_some]; rw [hs i (h.nodes ip i hi)]
  · intro u
    rw [hpc]
    simp only []
    by_cases hu : u = t
    · rw [if_pos hu]; exact hp
    · rw [if_neg hu]; exact (h.pcs u).mono hn hs

theorem shape_putObj (r : Remote) (c : Int) (o : Obj) : shape (r.putObj c o) = shape r := by
  unfold shape Remote.putObj
  simp only [Dict.keys_modify]

theorem shape_setNode (s : St) (i : Nat) (r : Remote) (h : shape r = shape (s.heap i)) (j : Nat) : shape ((s.setNode i r).heap j) = shape (s.heap j) := by
  show shape (if j = i then r else s.heap j) = _
  by_cases e : j = i
  · rw [if_pos e, h, e]
  · rw [if_neg e]

theorem ip_of_shape {r : Remote} {a : Addr} {l : List Int} (h : shape r = (some a, l)) : r.node.ip = a.1 := ip_of_address _ _ (congrArg Prod.fst h)

theorem tick_inv {ord : List Int → List Int} (hord : ValidOrder ord) {ms : List Msg} {s : St} (h : Inv ms s) (t : Nat) :
    Inv (ms ++ storedBy s (.tick t)) (tick ord s t) := by
  have hp := h.pcs t
  cases hpc : s.pc t with
  | start m =>
    rw [hpc] at hp
    obtain ⟨a, ha⟩ := Option.isSome_iff_exists.mp hp.2
    rw [show storedBy s (.tick t) = [] by simp only [storedBy, hpc], List.append_nil, tick_start hord s t m hpc a ha hp.1]
    split
    · exact h.still t _ rfl (Nat.le_refl _) (fun _ _ => rfl) rfl trivial
    · split
      · exact h.still t _ rfl (Nat.le_refl _) (fun _ _ => rfl) rfl trivial
      · split
        · exact h.still t _ rfl (Nat.le_refl _) (fun _ _ => rfl) rfl trivial
        · rename_i h1 h2 h3
          split
          · exact h.still t _ rfl (Nat.le_refl _) (fun _ _ => rfl) rfl trivial
          · exact h.still t _ rfl (Nat.le_refl _) (fun _ _ => rfl) rfl trivial
          · exact h.still t _ rfl (Nat.le_refl _) (fun _ _ => rfl) rfl trivial
          · rename_i l hl
            refine h.still t _ rfl (Nat.le_succ _) ?_ rfl ⟨Nat.lt_succ_self _, a, l, ?_, ?_⟩
            · intro j hj
              show shape (if j = s.next then _ else s.heap j) = _
              rw [if_neg (by omega)]
            · rw [announced_received]
              unfold announced
              rw [if_pos ⟨not_not.mp h2, not_not.mp h3⟩, ha, hl]
            · show shape (if s.next = s.next then { node := listedNode ord a l } else s.heap s.next) = _
              rw [if_pos rfl]
              show (some a, Dict.keys (listedNode ord a l).objects) = _
              rw [listedNode_keys]
  | tell m i =>
    rw [hpc] at hp
    simp only [storedBy, hpc, List.append_nil, tick]
    exact h.still t _ rfl (Nat.le_refl _) (fun _ _ => rfl) rfl hp
  | store m i =>
    rw [hpc] at hp
    obtain ⟨hi, a, l, h1, h2⟩ := hp
    simp only [storedBy, hpc, tick]
    rw [ip_of_shape h2]
    refine ⟨Dict.nodup_keys_set _ _ _ h.keys, ?_, ?_, ?_⟩
    · intro k j hj
      change Dict.get? (Dict.set s.found a.1 i) k = some j at hj
      rw [Dict.get?_set] at hj
      split at hj
      · cases hj; exact hi
      · exact h.nodes k j hj
    · intro ip
      show (Dict.get? (Dict.set s.found a.1 i) ip).map (fun i => shape (s.heap i)) = _
      rw [Dict.get?_set, latest_append, h1]
      simp only []
      by_cases e : a.1 = ip
      · rw [if_pos e, if_pos e, Option.map_some, Option.map_some, h2]
      · rw [if_neg e, if_neg e]; exact h.knows ip
    · intro u
      show PcOk s.next s.heap (if u = t then _ else s.pc u)
      by_cases e : u = t
      · rw [if_pos e]; exact hi
      · rw [if_neg e]; exact h.pcs u
  | link m i =>
    rw [hpc] at hp
    simp only [storedBy, hpc, List.append_nil, tick]
    exact h.still t _ rfl (Nat.le_refl _) (fun j _ => shape_setNode s i _ (by rfl) j) rfl trivial
  | report m =>
    simp only [storedBy, hpc, List.append_nil, tick]
    split <;> exact h.still t _ rfl (Nat.le_refl _) (fun _ _ => rfl) rfl trivial
  | look m pos used =>
    simp only [storedBy, hpc, List.append_nil, tick]
    split
    · exact h.still t _ rfl (Nat.le_refl _) (fun _ _ => rfl) rfl trivial
    · split
      · exact h.still t _ rfl (Nat.le_refl _) (fun _ _ => rfl) rfl trivial
      · rename_i k i hki
        split
        · split
          · exact h.still t _ rfl (Nat.le_refl _) (fun _ _ => rfl) rfl trivial
          · rename_i o ho
            refine h.still t _ rfl (Nat.le_refl _) (fun _ _ => rfl) rfl ⟨?_, ?_⟩
            · exact h.nodes k i (Dict.get?_of_mem _ _ _ h.keys (List.mem_of_getElem? hki))
            · exact (Dict.get?_isSome_iff _ _).mp (by
                have e : Dict.get? (s.heap i).node.objects m.deoj = some o := ho
                show (Dict.get? (s.heap i).node.objects m.deoj).isSome
                rw [e]
                rfl)
        · exact h.still t _ rfl (Nat.le_refl _) (fun _ _ => rfl) rfl trivial
  | item m i todo upd =>
    rw [hpc] at hp
    rw [show storedBy s (.tick t) = [] by simp only [storedBy, hpc], List.append_nil]
    cases todo with
    | nil =>
      simp only [hpc, tick]
      split <;> exact h.still t _ rfl (Nat.le_refl _) (fun _ _ => rfl) rfl trivial
    | cons p todo =>
      simp only [hpc, tick]
      split
      · exact h.still t _ rfl (Nat.le_refl _) (fun _ _ => rfl) rfl hp
      · split <;> exact h.still t _ rfl (Nat.le_refl _) (fun _ _ => rfl) rfl hp
  | put m i p todo =>
    rw [hpc] at hp
    simp only [storedBy, hpc, List.append_nil, tick]
    split
    · exact h
    · rename_i o ho
      refine h.still t _ rfl (Nat.le_refl _) (fun j _ => shape_setNode s i _ (shape_putObj _ _ _) j) rfl ⟨hp.1, ?_⟩
      have := congrArg Prod.snd (shape_setNode s i ((s.heap i).putObj m.deoj (o.storeData p.code p.data)) (shape_putObj _ _ _) i)
      show m.deoj ∈ Dict.keys ((s.setNode i ((s.heap i).putObj m.deoj (o.storeData p.code p.data))).heap i).node.objects
      rw [show Dict.keys ((s.setNode i ((s.heap i).putObj m.deoj (o.storeData p.code p.data))).heap i).node.objects = Dict.keys (s.heap i).node.objects from this]
      exact hp.2
  | idle => simp only [storedBy, hpc, List.append_nil, tick]; exact h
  | done r => simp only [storedBy, hpc, List.append_nil, tick]; exact h

theorem step_inv {ord : List Int → List Int} (hord : ValidOrder ord) {ms : List Msg} {s : St} (h : Inv ms s) (e : Ev) (he : ∀ t m, e = .recv t m → Delivered m) :
    Inv (ms ++ storedBy s e) (step ord s e) := by
  cases e with
  | tick t => exact tick_inv hord h t
  | recv t m =>
    rw [show storedBy s (.recv t m) = [] from rfl, List.append_nil]
    have := he t m rfl
    unfold step
    simp only []
    split
    · exact h.still t _ rfl (Nat.le_refl _) (fun _ _ => rfl) rfl this
    · exact h.still t _ rfl (Nat.le_refl _) (fun _ _ => rfl) rfl this
    · exact h

theorem run_inv {ord : List Int → List Int} (hord : ValidOrder ord) (es : List Ev) : ∀ (ms : List Msg) (s : St), Inv ms s → (∀ m ∈ arriving es, Delivered m) →
    Inv (ms ++ stores ord s es) (run ord s es) := by
  induction es with
  | nil => intro ms s h _; simpa [stores, run] using h
  | cons e es ih =>
    intro ms s h hd
    have h1 := step_inv hord h e (fun t m he => hd m (by rw [he]; simp [arriving]))
    have := ih _ _ h1 (fun m hm => hd m (by
      unfold arriving at hm ⊢
      rw [List.filterMap_cons]
      split
      · exact hm
      · exact List.mem_cons_of_mem _ hm))
    rw [List.append_assoc] at this
    exact this

/-! ### The controller at rest -/

theorem table_ofCtl (c : Ctl) : (ofCtl c).table = c.found := by
  unfold St.table ofCtl
  simp only []
  apply List.ext_getElem
  · simp [Dict.keys]
  · intro i h1 h2
    simp [Dict.keys, Dict.values, List.getElem?_map, List.getElem?_eq_getElem h2]

theorem keys_ofCtl (c : Ctl) : Dict.keys (ofCtl c).found = Dict.keys c.found := by
  rw [← keys_table, table_ofCtl]

theorem found_lt (c : Ctl) (k : String) (i : Nat) (h : (k, i) ∈ (ofCtl c).found) : i < (ofCtl c).next := by
  have : (k, i) ∈ (Dict.keys c.found).zipIdx := h
  rw [List.mem_zipIdx_iff_getElem?] at this
  have := (List.getElem?_eq_some_iff.mp this).1
  simpa [Dict.keys, ofCtl] using this

theorem ofCtl_inv {c : Ctl} {ms : List Msg} (h : Knows c ms) : Inv ms (ofCtl c) := by
  refine ⟨by rw [keys_ofCtl]; exact h.1.keys, fun k i hi => found_lt c k i (Dict.mem_of_get? _ _ _ hi), ?_, fun _ => trivial⟩
  intro ip
  rw [← h.2 ip, ← table_ofCtl c, get?_table, Option.map_map]
  rfl

/-! ### What a thread does to itself -/

theorem tick_other (ord : List Int → List Int) (s : St) (t u : Nat) (h : u ≠ t) : (tick ord s t).pc u = s.pc u := by
  have key : ∀ (s' : St) (p : Pc), s'.pc = s.pc → (s'.goto t p).pc u = s.pc u := by
    intro s' p hs
    show (if u = t then p else s'.pc u) = _
    rw [if_neg h, hs]
  unfold tick
  split
  · rfl
  · split
    · exact key _ _ rfl
    · split
      · exact key _ _ rfl
      · split
        · exact key _ _ rfl
        · exact key _ _ rfl
        · split
          · exact key _ _ rfl
          · split <;> exact key _ _ rfl
  · exact key _ _ rfl
  · exact key _ _ rfl
  · exact key _ _ rfl
  · split <;> exact key _ _ rfl
  · split
    · exact key _ _ rfl
    · split
      · exact key _ _ rfl
      · split
        · split <;> exact key _ _ rfl
        · exact key _ _ rfl
  · split <;> exact key _ _ rfl
  · split
    · exact key _ _ rfl
    · split <;> exact key _ _ rfl
  · split
    · rfl
    · exact key _ _ rfl
  · rfl

theorem step_other (ord : List Int → List Int) (s : St) (u : Nat) (e : Ev) (h : e ≠ .tick u) (h' : ∀ m, e ≠ .recv u m) : (step ord s e).pc u = s.pc u := by
  cases e with
  | tick t => exact tick_other ord s t u (fun e => h (by rw [e]))
  | recv t m =>
    have hne : u ≠ t := fun e => h' m (by rw [e])
    unfold step
    simp only []
    split <;> first | rfl | (show (if u = t then _ else s.pc u) = _; rw [if_neg hne])

theorem goto_pc (s : St) (t : Nat) (p : Pc) : (s.goto t p).pc t = p := if_pos rfl

/-- The node of a list is stored before its thread gets to anything that comes later. -/
def OnWay (t : Nat) (m : Msg) (ms : List Msg) (s : St) : Prop :=
  s.pc t = .start m ∨ (∃ i, s.pc t = .tell (received m) i) ∨ (∃ i, s.pc t = .store (received m) i) ∨ received m ∈ ms

theorem onWay_step {ord : List Int → List Int} (hord : ValidOrder ord) {t : Nat} {m : Msg} (hd : Delivered m) (hl : ∃ x, announced m = some x) {ms : List Msg} {s : St}
    (h : OnWay t m ms s) (e : Ev) (he : ∀ m', e ≠ .recv t m') : OnWay t m (ms ++ storedBy s e) (step ord s e) := by
  by_cases h1 : e = .tick t
  · subst h1
    rcases h with h | ⟨i, h⟩ | ⟨i, h⟩ | h
    · right; left
      obtain ⟨a, ha⟩ := Option.isSome_iff_exists.mp hd.2
      show ∃ i, (tick ord s t).pc t = _
      rw [tick_start hord s t m h a ha hd.1]
      obtain ⟨x, hx⟩ := hl
      unfold announced at hx
      split at hx
      · rename_i hc
        rw [ha] at hx
        have hr : ¬ (ESV.isRequest m.esv = true) := by rcases hc.1 with e | e <;> rw [e] <;> decide
        rw [if_neg hr, if_neg (not_not.mpr hc.1), if_neg (not_not.mpr hc.2)]
        cases hi : instanceListOf m with
        | codes l => exact ⟨_, goto_pc _ _ _⟩
        | _ => rw [hi] at hx; simp at hx
      · cases hx
    · right; right; left
      refine ⟨i, ?_⟩
      show (tick ord s t).pc t = _
      simp only [tick, h]
      exact goto_pc _ _ _
    · right; right; right
      simp [storedBy, h]
    · right; right; right
      exact List.mem_append_left _ h
  · have := step_other ord s t e h1 he
    rcases h with h | ⟨i, h⟩ | ⟨i, h⟩ | h
    · exact Or.inl (this.trans h)
    · exact Or.inr (Or.inl ⟨i, this.trans h⟩)
    · exact Or.inr (Or.inr (Or.inl ⟨i, this.trans h⟩))
    · exact Or.inr (Or.inr (Or.inr (List.mem_append_left _ h)))

theorem onWay_run {ord : List Int → List Int} (hord : ValidOrder ord) {t : Nat} {m : Msg} (hd : Delivered m) (hl : ∃ x, announced m = some x) (es : List Ev) :
    ∀ (ms : List Msg) (s : St), OnWay t m ms s → NoMore t es → OnWay t m (ms ++ stores ord s es) (run ord s es) := by
  induction es with
  | nil => intro ms s h _; simpa [stores, run] using h
  | cons e es ih =>
    intro ms s h hn
    have := ih _ _ (onWay_step hord hd hl h e (hn e List.mem_cons_self)) (fun e' h' => hn e' (List.mem_cons_of_mem _ h'))
    rw [List.append_assoc] at this
    exact this

/-! ### When all who report are known -/

/-- Where a thread can be if the addresses in the table are `K` and remain so. -/
def KnownPc (K : List String) (heap : Nat → Remote) : Pc → Prop
  | .start m => Fit m ∧ From K m
  | .tell m i => (heap i).node.ip ∈ K ∧ From K m
  | .store m i => (heap i).node.ip ∈ K ∧ From K m
  | .link m _ => From K m
  | .report m => From K m
  | .look m pos used => used = K.length ∧ ∃ a, m.fromAddr = some a ∧ ∃ j, pos ≤ j ∧ K[j]? = some a.1
  | .done (.error _) => False
  | _ => True

structure KnownInv (K : List String) (s : St) : Prop where
  keys : Dict.keys s.found = K
  nodes : ∀ kv ∈ s.found, kv.2 < s.next
  pcs : ∀ t, KnownPc K s.heap (s.pc t) ∧ PcOk s.next s.heap (s.pc t)

theorem KnownPc.mono {K : List String} {next : Nat} {heap heap' : Nat → Remote} (hs : ∀ j, j < next → shape (heap' j) = shape (heap j)) {p : Pc}
    (h : KnownPc K heap p) (h' : PcOk next heap p) : KnownPc K heap' p := by
  have hk : ∀ j, j < next → (heap' j).node.ip = (heap j).node.ip := by
    intro j hj
    have : (heap' j).node.address = (heap j).node.address := congrArg Prod.fst (hs j hj)
    unfold Node.ip
    rw [this]
  cases p with
  | tell m i => exact ⟨by rw [hk i h'.1]; exact h.1, h.2⟩
  | store m i => exact ⟨by rw [hk i h'.1]; exact h.1, h.2⟩
  | done r => cases r <;> exact h
  | _ => exact h

theorem mem_set (d : Dict String Nat) (k : String) (v : Nat) (kv : String × Nat) (h : kv ∈ Dict.set d k v) : kv ∈ d ∨ kv = (k, v) := by
  induction d with
  | nil => right; simpa [Dict.set] using h
  | cons x d ih =>
    obtain ⟨k1, v1⟩ := x
    simp only [Dict.set] at h
    split at h
    · rename_i e
      rcases List.mem_cons.mp h with h | h
      · right; rw [h, e]
      · left; exact List.mem_cons_of_mem _ h
    · rcases List.mem_cons.mp h with h | h
      · left; rw [h]; exact List.mem_cons_self
      · rcases ih h with h | h
        · left; exact List.mem_cons_of_mem _ h
        · right; exact h

theorem KnownInv.still {K : List String} {s s' : St} (h : KnownInv K s) (t : Nat) (p : Pc) (hf : s'.found = s.found) (hn : s.next ≤ s'.next)
    (hs : ∀ j, j < s.next → shape (s'.heap j) = shape (s.heap j)) (hpc : s'.pc = fun u => if u = t then p else s.pc u) (hp : PcOk s'.next s'.heap p)
    (hk : KnownPc K s'.heap p) : KnownInv K s' := by
  refine ⟨by rw [hf]; exact h.keys, by rw [hf]; exact fun kv hkv => Nat.lt_of_lt_of_le (h.nodes kv hkv) hn, ?_⟩
  intro u
  rw [hpc]
  simp only []
  by_cases hu : u = t
  · rw [if_pos hu]; exact ⟨hk, hp⟩
  · rw [if_neg hu]; exact ⟨(h.pcs u).1.mono hs (h.pcs u).2, (h.pcs u).2.mono hn hs⟩

/-- How many steps a thread has before it at most. -/
def weight (K : List String) : Pc → Nat
  | .idle => 0
  | .start m => K.length + 2 * (received m).props.length + 7
  | .tell m _ => K.length + 2 * m.props.length + 6
  | .store m _ => K.length + 2 * m.props.length + 5
  | .link m _ => K.length + 2 * m.props.length + 4
  | .report m => K.length + 2 * m.props.length + 3
  | .look m pos _ => (K.length - pos) + 2 * m.props.length + 2
  | .item _ _ todo _ => 2 * todo.length + 1
  | .put _ _ _ todo => 2 * todo.length + 2
  | .done _ => 0

theorem from_received {K : List String} {m : Msg} (h : From K m) : From K (received m) := h

theorem tick_known {ord : List Int → List Int} (hord : ValidOrder ord) {K : List String} {s : St} (h : KnownInv K s) (t : Nat) :
    KnownInv K (tick ord s t) ∧ weight K ((tick ord s t).pc t) ≤ weight K (s.pc t) - 1 ∧ (s.pc t ≠ .idle → (tick ord s t).pc t ≠ .idle) := by
  obtain ⟨hk, hp⟩ := h.pcs t
  cases hpc : s.pc t with
  | start m =>
    rw [hpc] at hp hk
    obtain ⟨a, ha, haK⟩ := hk.2
    rw [tick_start hord s t m hpc a ha hp.1]
    split
    · exact ⟨h.still t _ rfl (Nat.le_refl _) (fun _ _ => rfl) rfl trivial trivial, by rw [goto_pc]; simp [weight], by rw [goto_pc]; simp⟩
    · split
      · exact ⟨h.still t _ rfl (Nat.le_refl _) (fun _ _ => rfl) rfl trivial (from_received hk.2), by rw [goto_pc]; simp only [weight]; omega, by rw [goto_pc]; simp⟩
      · split
        · rename_i h1 h2 h3
          exact absurd ⟨not_not.mp h2, h3⟩ hk.1.1
        · rename_i h1 h2 h3
          split
          · exact ⟨h.still t _ rfl (Nat.le_refl _) (fun _ _ => rfl) rfl trivial (from_received hk.2), by rw [goto_pc]; simp only [weight]; omega, by rw [goto_pc]; simp⟩
          · exact ⟨h.still t _ rfl (Nat.le_refl _) (fun _ _ => rfl) rfl trivial (from_received hk.2), by rw [goto_pc]; simp only [weight]; omega, by rw [goto_pc]; simp⟩
          · rename_i hl
            exact absurd ⟨not_not.mp h2, hl⟩ hk.1.2
          · rename_i l hl
            refine ⟨h.still t _ rfl (Nat.le_succ _) ?_ rfl ⟨Nat.lt_succ_self _, a, l, ?_, ?_⟩ ⟨?_, from_received hk.2⟩, by rw [goto_pc]; simp only [weight]; omega, by rw [goto_pc]; simp⟩
            · intro j hj
              show shape (if j = s.next then _ else s.heap j) = _
              rw [if_neg (by omega)]
            · rw [announced_received]
              unfold announced
              rw [if_pos ⟨not_not.mp h2, not_not.mp h3⟩, ha, hl]
            · show shape (if s.next = s.next then { node := listedNode ord a l } else s.heap s.next) = _
              rw [if_pos rfl]
              show (some a, Dict.keys (listedNode ord a l).objects) = _
              rw [listedNode_keys]
            · show (if s.next = s.next then ({ node := listedNode ord a l } : Remote) else s.heap s.next).node.ip ∈ K
              rw [if_pos rfl]
              exact haK
  | tell m i =>
    rw [hpc] at hp hk
    simp only [hpc, tick]
    exact ⟨h.still t _ rfl (Nat.le_refl _) (fun _ _ => rfl) rfl hp hk, by rw [goto_pc]; simp only [weight]; omega, by rw [goto_pc]; simp⟩
  | store m i =>
    rw [hpc] at hp hk
    simp only [hpc, tick]
    refine ⟨⟨?_, ?_, ?_⟩, by rw [goto_pc]; simp only [weight]; omega, by rw [goto_pc]; simp⟩
    · show Dict.keys (Dict.set s.found _ i) = K
      rw [Dict.keys_set, if_pos (by rw [h.keys]; exact hk.1)]
      exact h.keys
    · intro kv hkv
      change kv ∈ Dict.set s.found (s.heap i).node.ip i at hkv
      rcases mem_set _ _ _ _ hkv with h1 | h1
      · exact h.nodes kv h1
      · rw [h1]; exact hp.1
    · intro u
      show KnownPc K s.heap (if u = t then _ else s.pc u) ∧ PcOk s.next s.heap (if u = t then _ else s.pc u)
      by_cases e : u = t
      · rw [if_pos e]; exact ⟨hk.2, hp.1⟩
      · rw [if_neg e]; exact h.pcs u
  | link m i =>
    rw [hpc] at hp hk
    simp only [hpc, tick]
    exact ⟨h.still t _ rfl (Nat.le_refl _) (fun j _ => shape_setNode s i _ (by rfl) j) rfl trivial hk, by rw [goto_pc]; simp only [weight]; omega, by rw [goto_pc]; simp⟩
  | report m =>
    rw [hpc] at hk
    have hlen : s.found.length = K.length := by rw [← h.keys]; simp [Dict.keys]
    simp only [hpc, tick]
    split
    · refine ⟨h.still t _ rfl (Nat.le_refl _) (fun _ _ => rfl) rfl trivial ⟨hlen, ?_⟩, by rw [goto_pc]; simp only [weight]; omega, by rw [goto_pc]; simp⟩
      obtain ⟨a, ha, haK⟩ := hk
      obtain ⟨j, hj⟩ := List.getElem?_of_mem haK
      exact ⟨a, ha, j, Nat.zero_le _, hj⟩
    · exact ⟨h.still t _ rfl (Nat.le_refl _) (fun _ _ => rfl) rfl trivial trivial, by rw [goto_pc]; simp [weight], by rw [goto_pc]; simp⟩
  | look m pos used =>
    rw [hpc] at hk
    have hlen : s.found.length = K.length := by rw [← h.keys]; simp [Dict.keys]
    obtain ⟨hu, a, ha, j, hj, hK⟩ := hk
    have hjl := (List.getElem?_eq_some_iff.mp hK).1
    simp only [hpc, tick]
    rw [if_neg (by rw [hu, hlen]; simp)]
    split
    · rename_i hn
      have := List.getElem?_eq_none_iff.mp hn
      omega
    · rename_i k i hki
      have hkK : K[pos]? = some k := by rw [← h.keys]; simp [Dict.keys, hki]
      split
      · split
        · exact ⟨h.still t _ rfl (Nat.le_refl _) (fun _ _ => rfl) rfl trivial trivial, by rw [goto_pc]; simp [weight], by rw [goto_pc]; simp⟩
        · rename_i o ho
          refine ⟨h.still t _ rfl (Nat.le_refl _) (fun _ _ => rfl) rfl ⟨h.nodes _ (List.mem_of_getElem? hki), ?_⟩ trivial, by rw [goto_pc]; simp only [weight]; omega, by rw [goto_pc]; simp⟩
          apply (Dict.get?_isSome_iff _ _).mp
          have e : Dict.get? (s.heap i).node.objects m.deoj = some o := ho
          show (Dict.get? (s.heap i).node.objects m.deoj).isSome
          rw [e]
          rfl
      · rename_i hne
        refine ⟨h.still t _ rfl (Nat.le_refl _) (fun _ _ => rfl) rfl trivial ⟨hu, a, ha, j, ?_, hK⟩, by rw [goto_pc]; simp only [weight]; omega, by rw [goto_pc]; simp⟩
        by_contra hlt
        have : j = pos := by omega
        rw [this, hkK] at hK
        apply hne
        unfold matchesKey
        rw [ha]
        simp only [Option.some.inj hK, decide_true]
  | item m i todo upd =>
    rw [hpc] at hp
    cases todo with
    | nil =>
      simp only [hpc, tick]
      split
      · exact ⟨h.still t _ rfl (Nat.le_refl _) (fun _ _ => rfl) rfl trivial trivial, by rw [goto_pc]; simp [weight], by rw [goto_pc]; simp⟩
      · exact ⟨h.still t _ rfl (Nat.le_refl _) (fun _ _ => rfl) rfl trivial trivial, by rw [goto_pc]; simp [weight], by rw [goto_pc]; simp⟩
    | cons p todo =>
      simp only [hpc, tick]
      split
      · exact ⟨h.still t _ rfl (Nat.le_refl _) (fun _ _ => rfl) rfl hp trivial, by rw [goto_pc]; simp only [weight, List.length_cons]; omega, by rw [goto_pc]; simp⟩
      · split
        · exact ⟨h.still t _ rfl (Nat.le_refl _) (fun _ _ => rfl) rfl hp trivial, by rw [goto_pc]; simp only [weight, List.length_cons]; omega, by rw [goto_pc]; simp⟩
        · exact ⟨h.still t _ rfl (Nat.le_refl _) (fun _ _ => rfl) rfl hp trivial, by rw [goto_pc]; simp only [weight, List.length_cons]; omega, by rw [goto_pc]; simp⟩
  | put m i p todo =>
    rw [hpc] at hp
    simp only [hpc, tick]
    split
    · rename_i hn
      exact absurd hp.2 ((Dict.get?_eq_none_iff _ _).mp hn)
    · rename_i o ho
      refine ⟨h.still t _ rfl (Nat.le_refl _) (fun j _ => shape_setNode s i _ (shape_putObj _ _ _) j) rfl ⟨hp.1, ?_⟩ trivial, by rw [goto_pc]; simp only [weight]; omega, by rw [goto_pc]; simp⟩
      have := congrArg Prod.snd (shape_setNode s i ((s.heap i).putObj m.deoj (o.storeData p.code p.data)) (shape_putObj _ _ _) i)
      show m.deoj ∈ Dict.keys ((s.setNode i ((s.heap i).putObj m.deoj (o.storeData p.code p.data))).heap i).node.objects
      rw [show Dict.keys ((s.setNode i ((s.heap i).putObj m.deoj (o.storeData p.code p.data))).heap i).node.objects = Dict.keys (s.heap i).node.objects from this]
      exact hp.2
  | idle => simp only [tick, hpc]; exact ⟨h, by simp [weight], fun h => absurd rfl h⟩
  | done r => simp only [tick, hpc]; exact ⟨h, by simp [weight], by simp⟩

theorem step_known {ord : List Int → List Int} (hord : ValidOrder ord) {K : List String} {s : St} (h : KnownInv K s) (e : Ev)
    (he : ∀ t m, e = .recv t m → Delivered m ∧ Fit m ∧ From K m) : KnownInv K (step ord s e) := by
  cases e with
  | tick t => exact (tick_known hord h t).1
  | recv t m =>
    obtain ⟨h1, h2⟩ := he t m rfl
    unfold step
    simp only []
    split
    · exact h.still t _ rfl (Nat.le_refl _) (fun _ _ => rfl) rfl h1 h2
    · exact h.still t _ rfl (Nat.le_refl _) (fun _ _ => rfl) rfl h1 h2
    · exact h

theorem run_known {ord : List Int → List Int} (hord : ValidOrder ord) {K : List String} (es : List Ev) : ∀ s : St, KnownInv K s →
    (∀ m ∈ arriving es, Delivered m ∧ Fit m ∧ From K m) → KnownInv K (run ord s es) := by
  induction es with
  | nil => intro s h _; exact h
  | cons e es ih =>
    intro s h hd
    refine ih _ (step_known hord h e (fun t m he => hd m (by rw [he]; simp [arriving]))) (fun m hm => hd m ?_)
    unfold arriving at hm ⊢
    rw [List.filterMap_cons]
    split
    · exact hm
    · exact List.mem_cons_of_mem _ hm

theorem run_weight {ord : List Int → List Int} (hord : ValidOrder ord) {K : List String} (t : Nat) (es : List Ev) : ∀ s : St, KnownInv K s →
    (∀ m ∈ arriving es, Delivered m ∧ Fit m ∧ From K m) → NoMore t es → s.pc t ≠ .idle →
    weight K ((run ord s es).pc t) ≤ weight K (s.pc t) - ticks t es ∧ (run ord s es).pc t ≠ .idle := by
  induction es with
  | nil => intro s _ _ _ hi; exact ⟨by simp [run, ticks], hi⟩
  | cons e es ih =>
    intro s h hd hn hi
    have h1 := step_known hord h e (fun t m he => hd m (by rw [he]; simp [arriving]))
    have hd' : ∀ m ∈ arriving es, Delivered m ∧ Fit m ∧ From K m := by
      intro m hm
      apply hd
      unfold arriving at hm ⊢
      rw [List.filterMap_cons]
      split
      · exact hm
      · exact List.mem_cons_of_mem _ hm
    have hn' : NoMore t es := fun e' h' => hn e' (List.mem_cons_of_mem _ h')
    by_cases he : e = .tick t
    · subst he
      obtain ⟨-, k2, k3⟩ := tick_known hord h t
      obtain ⟨r1, r2⟩ := ih (step ord s (.tick t)) h1 hd' hn' (k3 hi)
      refine ⟨Nat.le_trans r1 ?_, r2⟩
      have : weight K ((step ord s (.tick t)).pc t) ≤ weight K (s.pc t) - 1 := k2
      simp only [ticks, if_true]
      omega
    · have hpc := step_other ord s t e he (hn e List.mem_cons_self)
      obtain ⟨r1, r2⟩ := ih (step ord s e) h1 hd' hn' (by rw [hpc]; exact hi)
      refine ⟨Nat.le_trans r1 ?_, r2⟩
      rw [hpc]
      have : ticks t (e :: es) = ticks t es := by
        cases e with
        | recv u m => rfl
        | tick u =>
          have : u ≠ t := fun e' => he (by rw [e'])
          simp [ticks, this]
      omega

theorem ofCtl_known {c : Ctl} : KnownInv (Dict.keys c.found) (ofCtl c) :=
  ⟨keys_ofCtl c, fun kv h => found_lt c kv.1 kv.2 h, fun _ => ⟨trivial, trivial⟩⟩

/-! ### A thread that is not interrupted -/

/-- Thread `t` alone gets from one state to the other. -/
def Goes (ord : List Int → List Int) (t : Nat) (s s' : St) : Prop := ∃ k, run ord s (List.replicate k (.tick t)) = s'

theorem Goes.refl (ord : List Int → List Int) (t : Nat) (s : St) : Goes ord t s s := ⟨0, rfl⟩

theorem Goes.step {ord : List Int → List Int} {t : Nat} {s s' : St} (h : Goes ord t (tick ord s t) s') : Goes ord t s s' := by
  obtain ⟨k, h⟩ := h
  exact ⟨k + 1, h⟩

theorem goto_goto (s : St) (t : Nat) (p q : Pc) : (s.goto t p).goto t q = s.goto t q := by
  unfold St.goto
  congr 1
  funext u
  by_cases h : u = t
  · simp [h]
  · simp [h]

/-- The table is searched from the beginning. -/
theorem look_alone (ord : List Int → List Int) (t : Nat) (m : Msg) (a : Addr) (ha : m.fromAddr = some a) (s : St) (n : Nat) : ∀ pos, s.found.length - pos = n →
    Dict.get? (s.found.drop pos : Dict String Nat) a.1 = Dict.get? s.found a.1 →
    Goes ord t (s.goto t (.look m pos s.found.length)) (s.goto t (match Dict.get? s.found a.1 with
      | none => .done (.error .attributeError)
      | some i => match Dict.get? (s.heap i).node.objects m.deoj with
        | none => .done (.ok ())
        | some _ => .item m i m.props false)) := by
  induction n with
  | zero =>
    intro pos hn hd
    apply Goes.step
    rw [List.drop_eq_nil_of_le (by omega)] at hd
    rw [← hd]
    simp only [tick, goto_pc]
    rw [if_neg (show ¬ (s.found.length ≠ (s.goto t _).found.length) from not_not.mpr rfl)]
    rw [show (s.goto t (.look m pos s.found.length)).found[pos]? = none from List.getElem?_eq_none_iff.mpr (by show s.found.length ≤ pos; omega)]
    simp only [goto_goto]
    exact Goes.refl _ _ _
  | succ n ih =>
    intro pos hn hd
    have hlt : pos < s.found.length := by omega
    apply Goes.step
    have hg : s.found[pos]? = some s.found[pos] := List.getElem?_eq_getElem hlt
    have hdrop : s.found.drop pos = s.found[pos] :: s.found.drop (pos + 1) := List.drop_eq_getElem_cons hlt
    generalize s.found[pos] = x at hg hdrop
    obtain ⟨k, i⟩ := x
    rw [hdrop, Dict.get?_cons] at hd
    simp only [tick, goto_pc]
    rw [if_neg (show ¬ (s.found.length ≠ (s.goto t _).found.length) from not_not.mpr rfl)]
    rw [show (s.goto t (.look m pos s.found.length)).found[pos]? = some (k, i) from hg]
    simp only [goto_goto]
    have hmk : matchesKey m k = decide (a.1 = k) := by unfold matchesKey; rw [ha]
    rw [hmk]
    by_cases e : k = a.1
    · rw [if_pos e] at hd
      rw [if_pos (by simp [e]), ← hd]
      simp only []
      rw [show ((s.goto t (.look m pos s.found.length)).heap i).node.getObject (.int m.deoj) = Dict.get? (s.heap i).node.objects m.deoj from rfl]
      cases Dict.get? (s.heap i).node.objects m.deoj with
      | none => exact Goes.refl _ _ _
      | some o => exact Goes.refl _ _ _
    · rw [if_neg e] at hd
      rw [if_neg (by simpa using fun h => e (Eq.symm h))]
      exact ih (pos + 1) (by omega) hd

/-- The node with the reported data in it. -/
theorem item_alone (ord : List Int → List Int) (t : Nat) (m : Msg) (i : Nat) (todo : List PProp) : ∀ (s : St) (o : Obj) (upd : Bool), WellFormed o →
    Dict.get? (s.heap i).node.objects m.deoj = some o →
    Goes ord t (s.goto t (.item m i todo upd)) (({ s.setNode i ((s.heap i).putObj m.deoj (afterWrites o todo)) with
      told := s.told ++ (changes o todo).flatMap (fun p : PProp => tellAll s.listeners (.propertyUpdated (s.heap i).node.ip m.deoj p.code p.data)) ++
        (if upd || !(changes o todo).isEmpty then tellAll s.listeners (.objectUpdated (s.heap i).node.ip m.deoj) ++ tellAll s.listeners (.nodeAdd (s.heap i).node.ip) else []) }).goto t (.done (.ok ()))) := by
  induction todo with
  | nil =>
    intro s o upd hw ho
    apply Goes.step
    have hid : s.setNode i ((s.heap i).putObj m.deoj (afterWrites o [])) = s := by
      rw [afterWrites_nil, putObj_same _ _ _ ho]
      unfold St.setNode
      congr 1
      funext j
      by_cases h : j = i
      · rw [if_pos h, h]
      · rw [if_neg h]
    rw [hid]
    simp only [tick, goto_pc, changes, List.flatMap_nil, List.append_nil, List.isEmpty_nil, Bool.not_true, Bool.or_false]
    cases upd with
    | true =>
      simp only [if_true]
      refine ⟨0, ?_⟩
      show St.goto _ _ _ = _
      unfold St.say St.goto
      simp only [St.mk.injEq, true_and]
      refine ⟨by simp, ?_⟩
      funext u
      by_cases h : u = t <;> simp [h]
    | false =>
      simp only [Bool.false_eq_true, if_false, goto_goto, List.append_nil]
      exact Goes.refl _ _ _
  | cons p todo ih =>
    intro s o upd hw ho
    apply Goes.step
    have hcons : afterWrites o (p :: todo) = afterWrites (afterWrites o [p]) todo := by rw [afterWrites_append]; rfl
    have hst : o.storeData p.code p.data = afterWrites o [p] := storeData_eq o p.code p.data hw.1
    have hid := afterWrites_same o p hw
    have hgo : ((s.goto t (.item m i (p :: todo) upd)).heap i).node.getObject (.int m.deoj) = some o := ho
    simp only [tick, goto_pc, hgo, Option.bind_some, getProperty_eq]
    cases hl : lookup o.props p.code with
    | none =>
      simp only [goto_goto]
      rw [show changes o (p :: todo) = changes o todo by simp only [changes, hl], hcons, hid (by intro q hq; rw [hl] at hq; cases hq)]
      exact ih s o upd hw ho
    | some q =>
      simp only [goto_goto]
      by_cases hd : q.data = p.data
      · rw [if_neg (by simpa using hd), show changes o (p :: todo) = changes o todo by simp only [changes, hl, if_pos hd], hcons, hid (by intro r hr; rw [hl] at hr; cases hr; exact hd)]
        exact ih s o upd hw ho
      · rw [if_pos hd, show changes o (p :: todo) = p :: changes (afterWrites o [p]) todo by simp only [changes, hl, if_neg hd]]
        apply Goes.step
        have hgo' : ((s.goto t (.put m i p todo)).heap i).node.getObject (.int m.deoj) = some o := ho
        simp only [tick, goto_pc, hgo']
        rw [hst]
        have hw1 := wf_afterWrites o [p] hw
        obtain ⟨S, hS⟩ : ∃ S, S = (s.setNode i ((s.heap i).putObj m.deoj (afterWrites o [p]))).say (.propertyUpdated (s.heap i).node.ip m.deoj p.code p.data) := ⟨_, rfl⟩
        have hSi : S.heap i = (s.heap i).putObj m.deoj (afterWrites o [p]) := by rw [hS]; exact if_pos rfl
        have := ih S (afterWrites o [p]) true hw1 (by rw [hSi, get?_putObj, if_pos rfl, ho]; rfl)
        have e1 : (St.say (St.setNode (s.goto t (Pc.put m i p todo)) i (((s.goto t (Pc.put m i p todo)).heap i).putObj m.deoj (afterWrites o [p])))
            (Told.propertyUpdated ((s.goto t (Pc.put m i p todo)).heap i).node.ip m.deoj p.code p.data)).goto t (Pc.item m i todo true) = S.goto t (.item m i todo true) := by
          rw [hS]
          exact goto_goto (St.say (St.setNode s i _) _) t _ _
        rw [e1]
        refine Eq.mp ?_ this
        congr 2
        rw [hcons, hSi, putObj_putObj]
        have hip : ((s.heap i).putObj m.deoj (afterWrites o [p])).node.ip = (s.heap i).node.ip := rfl
        have hls : S.listeners = s.listeners := by rw [hS]; rfl
        have htl : S.told = s.told ++ tellAll s.listeners (.propertyUpdated (s.heap i).node.ip m.deoj p.code p.data) := by rw [hS]; rfl
        rw [hls, htl, hip]
        have hsn : S.setNode i ((s.heap i).putObj m.deoj (afterWrites (afterWrites o [p]) todo)) =
            { s.setNode i ((s.heap i).putObj m.deoj (afterWrites (afterWrites o [p]) todo)) with told := S.told } := by
          rw [hS]
          unfold St.setNode St.say
          congr 1
          funext j
          by_cases h : j = i <;> simp [h]
        rw [hsn]
        simp

theorem Goes.trans {ord : List Int → List Int} {t : Nat} {s s' s'' : St} (h : Goes ord t s s') (h' : Goes ord t s' s'') : Goes ord t s s'' := by
  obtain ⟨k, h⟩ := h
  obtain ⟨k', h'⟩ := h'
  refine ⟨k + k', ?_⟩
  rw [List.replicate_add]
  unfold run at *
  rw [List.foldl_append, h, h']

theorem map_set (d : Dict String Nat) (k : String) (i : Nat) (f : Nat → Remote) :
    (Dict.set d k i).map (fun kv => (kv.1, f kv.2)) = Dict.set (d.map fun kv => (kv.1, f kv.2)) k (f i) := by
  induction d with
  | nil => rfl
  | cons x d ih =>
    obtain ⟨k1, v1⟩ := x
    simp only [Dict.set, List.map_cons]
    by_cases e : k1 = k
    · rw [if_pos e, if_pos e]; rfl
    · rw [if_neg e, if_neg e, List.map_cons, ih]

theorem values_set (d : Dict String Nat) (k : String) (i : Nat) (h : (Dict.values d).Nodup) (hi : i ∉ Dict.values d) : (Dict.values (Dict.set d k i)).Nodup := by
  have hsub : ∀ (d : Dict String Nat) j, j ∈ Dict.values (Dict.set d k i) → j = i ∨ j ∈ Dict.values d := by
    intro d j hj
    unfold Dict.values at hj ⊢
    obtain ⟨kv, h1, rfl⟩ := List.mem_map.mp hj
    rcases mem_set _ _ _ _ h1 with h2 | h2
    · right; exact List.mem_map_of_mem h2
    · left; rw [h2]
  induction d with
  | nil => simp [Dict.set, Dict.values]
  | cons x d ih =>
    obtain ⟨k1, v1⟩ := x
    simp only [Dict.values, List.map_cons, List.nodup_cons, List.mem_cons, not_or] at h hi
    simp only [Dict.set]
    by_cases e : k1 = k
    · rw [if_pos e]
      simp only [Dict.values, List.map_cons, List.nodup_cons]
      exact ⟨hi.2, h.2⟩
    · rw [if_neg e]
      simp only [Dict.values, List.map_cons, List.nodup_cons]
      refine ⟨?_, ih h.2 hi.2⟩
      intro hm
      rcases hsub d v1 hm with h3 | h3
      · exact hi.1 h3.symm
      · exact h.1 h3

theorem map_setNode (d : Dict String Nat) (k : String) (i : Nat) (f : Nat → Remote) (r : Remote) (h : (Dict.values d).Nodup) (hk : Dict.get? d k = some i) :
    d.map (fun kv => (kv.1, if kv.2 = i then r else f kv.2)) = Dict.modify (d.map fun kv => (kv.1, f kv.2)) k (fun _ => r) := by
  induction d with
  | nil => cases hk
  | cons x d ih =>
    obtain ⟨k1, v1⟩ := x
    simp only [Dict.values, List.map_cons, List.nodup_cons] at h
    rw [Dict.get?_cons] at hk
    simp only [Dict.modify, List.map_cons]
    by_cases e : k1 = k
    · rw [if_pos e] at hk
      cases hk
      rw [if_pos e, if_pos rfl]
      congr 1
      apply List.map_congr_left
      intro kv hkv
      rw [if_neg (fun e' => h.1 (by rw [← e']; exact List.mem_map_of_mem hkv))]
    · rw [if_neg e] at hk
      rw [if_neg e, if_neg (fun e' => h.1 (by rw [e']; exact List.mem_map_of_mem (Dict.mem_of_get? _ _ _ hk))), ih h.2 hk]

/-- The state of the threads shows the controller, and nodes are not shared between addresses. -/
structure Shows (s : St) (c : Ctl) : Prop where
  table : s.table = c.found
  told : s.told = toldAll c
  listeners : s.listeners = c.listeners
  uniq : (Dict.values s.found).Nodup
  lt : ∀ kv ∈ s.found, kv.2 < s.next

theorem report_alone (ord : List Int → List Int) (t : Nat) (s : St) (f : Dict String Remote) (htab : s.table = f) (hu : (Dict.values s.found).Nodup) (hlt : ∀ kv ∈ s.found, kv.2 < s.next)
    (hf : ∀ ip r, Dict.get? f ip = some r → RemoteInv ip r) (m : Msg) (a : Addr) (ha : m.fromAddr = some a) (hrep : Reports m) :
    ∃ s', Goes ord t (s.goto t (.report m)) s' ∧ s'.pc t = .done (if (Dict.get? f a.1).isSome then .ok () else .error .attributeError) ∧
      s'.table = reportTo f a.1 m.deoj m.props ∧ s'.told = s.told ++ reportTold f s.listeners a.1 m.deoj m.props ∧ s'.listeners = s.listeners ∧
      s'.found = s.found ∧ s'.next = s.next := by
  have h1 : Goes ord t (s.goto t (.report m)) (s.goto t (.look m 0 s.found.length)) := by
    apply Goes.step
    simp only [tick, goto_pc]
    rw [if_pos (reports_yes m.esv hrep), goto_goto]
    exact Goes.refl _ _ _
  have h2 := h1.trans (look_alone ord t m a ha s _ 0 rfl rfl)
  have hg := get?_table s a.1
  rw [htab] at hg
  unfold reportTo reportTold
  cases hi : Dict.get? s.found a.1 with
  | none =>
    rw [hi] at h2 hg
    rw [hg]
    exact ⟨_, h2, goto_pc _ _ _, htab, by simp [St.goto], rfl, rfl, rfl⟩
  | some i =>
    rw [hi] at h2 hg
    rw [hg]
    simp only [Option.map_some, Option.isSome_some, if_true] at h2 ⊢
    have hr := hf a.1 (s.heap i) hg
    cases ho : Dict.get? (s.heap i).node.objects m.deoj with
    | none =>
      rw [ho] at h2
      exact ⟨_, h2, goto_pc _ _ _, htab, by simp [St.goto], rfl, rfl, rfl⟩
    | some o =>
      rw [ho] at h2
      have hip : (s.heap i).node.ip = a.1 := by obtain ⟨port, hp⟩ := hr.addr; exact ip_of_address _ (a.1, port) hp
      have h3 := h2.trans (item_alone ord t m i m.props s o false (hr.objs _ _ ho).1 ho)
      refine ⟨_, h3, goto_pc _ _ _, ?_, ?_, rfl, rfl, rfl⟩
      · show s.found.map (fun kv => (kv.1, if kv.2 = i then _ else s.heap kv.2)) = _
        rw [map_setNode _ a.1 _ _ _ hu hi]
        rw [show (s.found.map fun kv => (kv.1, s.heap kv.2)) = f from htab]
      · show s.told ++ _ ++ _ = _
        rw [hip, List.append_assoc]
        congr 2
        by_cases hch : changes o m.props = []
        · rw [hch]; rfl
        · rw [if_neg hch]
          have : (changes o m.props).isEmpty = false := by
            cases hx : changes o m.props with
            | nil => exact absurd hx hch
            | cons x l => rfl
          rw [this]
          rfl

/-- The state once the node of a list has been stored and linked. -/
def listed (ord : List Int → List Int) (s : St) (a : Addr) (l : List Int) : St :=
  { s with
    heap := fun j => if j = s.next then { node := listedNode ord a l, linked := true } else s.heap j
    next := s.next + 1
    found := Dict.set s.found a.1 s.next
    told := s.told ++ tellAll s.listeners (.nodeAdd a.1) }

theorem list_alone {ord : List Int → List Int} (hord : ValidOrder ord) (t : Nat) (s : St) (m : Msg) (hm : Encodable m) (a : Addr) (l : List Int) (ha : announced m = some (a, l)) :
    Goes ord t (s.goto t (.start m)) ((listed ord s a l).goto t (.report (received m))) := by
  unfold announced at ha
  split at ha
  · rename_i hc
    cases hf : m.fromAddr with
    | none => rw [hf] at ha; cases ha
    | some b =>
      cases hl : instanceListOf m with
      | codes l' =>
        rw [hf, hl] at ha
        simp only [Option.some.injEq, Prod.mk.injEq] at ha
        obtain ⟨rfl, rfl⟩ := ha
        have hr : ¬ (ESV.isRequest m.esv = true) := by rcases hc.1 with e | e <;> rw [e] <;> decide
        apply Goes.step
        rw [tick_start hord _ t m (goto_pc _ _ _) b hf hm, if_neg hr, if_neg (not_not.mpr hc.1), if_neg (not_not.mpr hc.2), hl]
        simp only []
        apply Goes.step
        simp only [tick, goto_pc]
        apply Goes.step
        simp only [tick, goto_pc]
        apply Goes.step
        simp only [tick, goto_pc]
        refine ⟨0, ?_⟩
        show St.goto _ _ _ = _
        have hb : (listedNode ord b l').ip = b.1 := rfl
        unfold listed St.goto St.setNode St.say
        simp only [if_true, hb, St.mk.injEq, true_and, and_true]
        refine ⟨?_, ?_⟩
        · funext j
          by_cases h : j = s.next <;> simp [h]
        · funext u
          by_cases h : u = t <;> simp [h]
      | _ => rw [hf, hl] at ha; cases ha
  · cases ha

theorem listed_table (ord : List Int → List Int) (s : St) (a : Addr) (l : List Int) (hlt : ∀ kv ∈ s.found, kv.2 < s.next) :
    (listed ord s a l).table = Dict.set s.table a.1 { node := listedNode ord a l, linked := true } := by
  unfold listed St.table
  simp only []
  rw [map_set s.found a.1 s.next (fun j => if j = s.next then { node := listedNode ord a l, linked := true } else s.heap j), if_pos rfl]
  congr 1
  apply List.map_congr_left
  intro kv hkv
  have := hlt kv hkv
  rw [if_neg (by omega)]

theorem afterList_told (ord : List Int → List Int) (c : Ctl) (m : Msg) (a : Addr) (l : List Int) (h : announced m = some (a, l)) :
    toldAll (afterList ord c m) = toldAll c ++ tellAll c.listeners (.nodeAdd a.1) := by
  unfold afterList
  rw [h]
  unfold toldAll tellAll
  simp only [List.map_append, List.map_map]
  rfl

/-- A thread that handles a message without being interrupted does what `Model/Controller` says. -/
theorem message_alone {ord : List Int → List Int} (hord : ValidOrder ord) (env : Env) {cenv : CEnv} (hcalm : Calm cenv) (net : Net) (t : Nat) (s : St) (c : Ctl) (hs : Shows s c)
    (hi : FoundInv c) (m : Msg) (hd : Delivered m) (hr : ESV.isRequest m.esv = false) :
    ∃ s', Goes ord t (s.goto t (.start m)) s' ∧ s'.pc t = .done (c.messageReceived ord env cenv net m).2 ∧ Shows s' (c.messageReceived ord env cenv net m).1 := by
  obtain ⟨hm, hf⟩ := hd
  obtain ⟨a, ha⟩ := Option.isSome_iff_exists.mp hf
  have hnr : ¬ (ESV.isRequest m.esv = true) := by rw [hr]; simp
  have hstart := tick_start hord (s.goto t (.start m)) t m (goto_pc _ _ _) a ha hm
  rw [if_neg hnr] at hstart
  have hshow : ∀ p, Shows (s.goto t p) c := fun p => ⟨hs.table, hs.told, hs.listeners, hs.uniq, hs.lt⟩
  by_cases hrep : Reports m
  · by_cases hok : (m.esv = 0x72 ∨ m.esv = 0x73) ∧ m.deoj % 2 ^ 24 ≠ 0x0EF001
    · rw [response_misdirected ord env cenv net c m hm hok.1 hok.2]
      refine ⟨_, Goes.step ⟨0, rfl⟩, ?_, ?_⟩
      · show (tick ord (s.goto t (.start m)) t).pc t = _
        rw [hstart, if_neg (not_not.mpr hok.1), if_pos hok.2, goto_pc]
      · show Shows (tick ord (s.goto t (.start m)) t) c
        rw [hstart, if_neg (not_not.mpr hok.1), if_pos hok.2, goto_goto]
        exact hshow _
    · by_cases hne : (m.esv = 0x72 ∨ m.esv = 0x73) ∧ instanceListOf m = .empty
      · have hdj : m.deoj % 2 ^ 24 = 0x0EF001 := by
          by_contra hdj
          exact hok ⟨hne.1, hdj⟩
        rw [response_empty hord env hcalm net c m a ha hm hne.1 hdj hne.2]
        refine ⟨_, Goes.step ⟨0, rfl⟩, ?_, ?_⟩
        · show (tick ord (s.goto t (.start m)) t).pc t = _
          rw [hstart, if_neg (not_not.mpr hne.1), if_neg (not_not.mpr hdj), hne.2, goto_pc]
        · show Shows (tick ord (s.goto t (.start m)) t) c
          rw [hstart, if_neg (not_not.mpr hne.1), if_neg (not_not.mpr hdj), hne.2]
          simp only [goto_goto]
          exact hshow _
      · -- the node, if any, is stored; then the report is taken
        obtain ⟨S, hS, hSs⟩ : ∃ S, Goes ord t (s.goto t (.start m)) (S.goto t (.report (received m))) ∧ Shows S (afterList ord c m) := by
          cases hx : announced m with
          | some x =>
            obtain ⟨b, l⟩ := x
            refine ⟨_, list_alone hord t s m hm b l hx, ?_, ?_, ?_, ?_, ?_⟩
            · rw [listed_table ord s b l hs.lt, hs.table]
              unfold afterList
              rw [hx]
            · rw [afterList_told ord c m b l hx]
              show s.told ++ tellAll s.listeners _ = _
              rw [hs.told, hs.listeners]
            · unfold afterList
              rw [hx]
              exact hs.listeners
            · refine values_set _ _ _ hs.uniq (fun hmem => ?_)
              obtain ⟨kv, h1, h2⟩ := List.mem_map.mp hmem
              have := hs.lt kv h1
              omega
            · intro kv hkv
              rcases mem_set _ _ _ _ hkv with h1 | h1
              · have := hs.lt kv h1
                show kv.2 < s.next + 1
                omega
              · rw [h1]; exact Nat.lt_succ_self _
          | none =>
            refine ⟨s, Goes.step ?_, ?_⟩
            · rw [hstart]
              split
              · rw [goto_goto]; exact Goes.refl _ _ _
              · rename_i h2
                have h2 := not_not.mp h2
                have hdj : m.deoj % 2 ^ 24 = 0x0EF001 := by
                  by_contra hdj
                  exact hok ⟨h2, hdj⟩
                rw [if_neg (not_not.mpr hdj)]
                unfold announced at hx
                rw [if_pos ⟨h2, hdj⟩, ha] at hx
                cases hl : instanceListOf m with
                | codes l => rw [hl] at hx; cases hx
                | empty => exact absurd ⟨h2, hl⟩ hne
                | notAList => simp only [goto_goto]; exact Goes.refl _ _ _
                | short => simp only [goto_goto]; exact Goes.refl _ _ _
            · unfold afterList
              rw [hx]
              exact hs
        have hai := afterList_inv hord c hi m
        obtain ⟨s', g1, g2, g3, g4, g5, g6, g7⟩ := report_alone ord t S _ hSs.table hSs.uniq hSs.lt hai.nodes (received m) a ha hrep
        refine ⟨s', hS.trans g1, ?_⟩
        have hdjr : (received m).deoj = m.deoj % 2 ^ 24 := rfl
        rw [hdjr] at g3 g4
        cases hk : Dict.get? (afterList ord c m).found a.1 with
        | none =>
          rw [hk] at g2
          rw [response_unknown hord env hcalm net c hi m a ha hm hrep hok hne hk]
          refine ⟨g2, ?_, ?_, g5.trans hSs.listeners, by rw [g6]; exact hSs.uniq, by rw [g6, g7]; exact hSs.lt⟩
          · rw [g3]
            unfold reportTo
            rw [hk]
          · rw [g4, hSs.told]
            unfold reportTold
            rw [hk]
            simp
        | some r =>
          rw [hk] at g2
          obtain ⟨c', e1, e2, e3, e4, e5, e6⟩ := response_known hord env hcalm net c hi m a ha hm hrep hok hne r hk
          obtain ⟨f1, f2, f3, f4⟩ := receiveResponse_found c' (received m)
          have hal : (afterList ord c m).listeners = c.listeners := by unfold afterList; split <;> rfl
          rw [e1]
          refine ⟨g2, ?_, ?_, ?_, by rw [g6]; exact hSs.uniq, by rw [g6, g7]; exact hSs.lt⟩
          · rw [g3, f1, e2]
          · rw [g4, f4, e6, hSs.told, hSs.listeners, hal]
          · rw [g5, f3, e5, hSs.listeners, hal]
  · rw [response_other env net c m hm hr hrep]
    have h1 : ¬ (m.esv = 0x72 ∨ m.esv = 0x73) := by unfold Reports at hrep; omega
    obtain ⟨f1, f2, f3, f4⟩ := receiveResponse_found c (received m)
    refine ⟨s.goto t (.done (.ok ())), Goes.step (Goes.step ⟨0, ?_⟩), goto_pc _ _ _, ?_⟩
    · show tick ord (tick ord (s.goto t (.start m)) t) t = _
      rw [hstart, if_pos h1, goto_goto]
      simp only [tick, goto_pc]
      rw [if_neg (reports_no (received m).esv hr hrep), goto_goto]
    · exact ⟨hs.table.trans f1.symm, hs.told.trans f4.symm, hs.listeners.trans f3.symm, hs.uniq, hs.lt⟩

theorem ofCtl_shows (c : Ctl) : Shows (ofCtl c) c := by
  refine ⟨table_ofCtl c, rfl, rfl, ?_, fun kv h => found_lt c kv.1 kv.2 h⟩
  show ((Dict.keys c.found).zipIdx.map Prod.snd).Nodup
  rw [List.zipIdx_map_snd]
  exact List.nodup_range'

/-- Every node in the table belongs to the controller, or a thread is about to see to that. -/
def Owned (s : St) : Prop := ∀ k i, Dict.get? s.found k = some i → (s.heap i).linked = true ∨ ∃ t m, s.pc t = .link m i

theorem Owned.still {s s' : St} (h : Owned s) {ms : List Msg} (hi : Inv ms s) (t : Nat) (p : Pc) (hf : s'.found = s.found)
    (hs : ∀ j, j < s.next → (s.heap j).linked = true → (s'.heap j).linked = true) (hpc : s'.pc = fun u => if u = t then p else s.pc u) (hn : ∀ m i, s.pc t ≠ .link m i) :
    Owned s' := by
  intro k i hk
  rw [hf] at hk
  rcases h k i hk with h1 | ⟨u, m, h1⟩
  · exact .inl (hs i (hi.nodes k i hk) h1)
  · refine .inr ⟨u, m, ?_⟩
    rw [hpc]
    show (if u = t then p else s.pc u) = _
    rw [if_neg (by rintro rfl; exact hn _ _ h1)]
    exact h1

theorem tick_owned {ord : List Int → List Int} (hord : ValidOrder ord) {ms : List Msg} {s : St} (hi : Inv ms s) (h : Owned s) (t : Nat) : Owned (tick ord s t) := by
  have hp := hi.pcs t
  cases hpc : s.pc t with
  | start m =>
    rw [hpc] at hp
    obtain ⟨a, ha⟩ := Option.isSome_iff_exists.mp hp.2
    rw [tick_start hord s t m hpc a ha hp.1]
    have hn : ∀ m i, s.pc t ≠ .link m i := by intro m i e; rw [hpc] at e; cases e
    split
    · exact h.still hi t _ rfl (fun _ _ e => e) rfl hn
    · split
      · exact h.still hi t _ rfl (fun _ _ e => e) rfl hn
      · split
        · exact h.still hi t _ rfl (fun _ _ e => e) rfl hn
        · split
          · exact h.still hi t _ rfl (fun _ _ e => e) rfl hn
          · exact h.still hi t _ rfl (fun _ _ e => e) rfl hn
          · exact h.still hi t _ rfl (fun _ _ e => e) rfl hn
          · refine h.still hi t _ rfl ?_ rfl hn
            intro j hj e
            show (if j = s.next then _ else s.heap j : Remote).linked = true
            rw [if_neg (by omega)]
            exact e
  | tell m i =>
    simp only [hpc, tick]
    exact h.still hi t _ rfl (fun _ _ e => e) rfl (by intro m i e; rw [hpc] at e; cases e)
  | store m i =>
    simp only [hpc, tick]
    intro k j hj
    change Dict.get? (Dict.set s.found (s.heap i).node.ip i) k = some j at hj
    rw [Dict.get?_set] at hj
    split at hj
    · cases hj
      exact .inr ⟨t, m, goto_pc _ _ _⟩
    · rcases h k j hj with h1 | ⟨u, m', h1⟩
      · exact .inl h1
      · refine .inr ⟨u, m', ?_⟩
        show (if u = t then _ else s.pc u) = _
        rw [if_neg (by rintro rfl; rw [hpc] at h1; cases h1)]
        exact h1
  | link m i =>
    simp only [hpc, tick]
    intro k j hj
    by_cases e : j = i
    · refine .inl ?_
      show (if j = i then _ else s.heap j : Remote).linked = true
      rw [if_pos e]
    · rcases h k j hj with h1 | ⟨u, m', h1⟩
      · refine .inl ?_
        show (if j = i then _ else s.heap j : Remote).linked = true
        rw [if_neg e]
        exact h1
      · refine .inr ⟨u, m', ?_⟩
        show (if u = t then _ else s.pc u) = _
        rw [if_neg (by rintro rfl; rw [hpc] at h1; cases h1; exact e rfl)]
        exact h1
  | report m =>
    simp only [hpc, tick]
    split <;> exact h.still hi t _ rfl (fun _ _ e => e) rfl (by intro m i e; rw [hpc] at e; cases e)
  | look m pos used =>
    have hn : ∀ m i, s.pc t ≠ .link m i := by intro m i e; rw [hpc] at e; cases e
    simp only [hpc, tick]
    split
    · exact h.still hi t _ rfl (fun _ _ e => e) rfl hn
    · split
      · exact h.still hi t _ rfl (fun _ _ e => e) rfl hn
      · split
        · split <;> exact h.still hi t _ rfl (fun _ _ e => e) rfl hn
        · exact h.still hi t _ rfl (fun _ _ e => e) rfl hn
  | item m i todo upd =>
    have hn : ∀ m i, s.pc t ≠ .link m i := by intro m i e; rw [hpc] at e; cases e
    cases todo with
    | nil =>
      simp only [hpc, tick]
      split <;> exact h.still hi t _ rfl (fun _ _ e => e) rfl hn
    | cons p todo =>
      simp only [hpc, tick]
      split
      · exact h.still hi t _ rfl (fun _ _ e => e) rfl hn
      · split <;> exact h.still hi t _ rfl (fun _ _ e => e) rfl hn
  | put m i p todo =>
    have hn : ∀ m i, s.pc t ≠ .link m i := by intro m i e; rw [hpc] at e; cases e
    simp only [hpc, tick]
    split
    · exact h
    · refine h.still hi t _ rfl ?_ rfl hn
      intro j _ e
      show (if j = i then _ else s.heap j : Remote).linked = true
      by_cases e' : j = i
      · rw [if_pos e']; rw [e'] at e; exact e
      · rw [if_neg e']; exact e
  | idle => simp only [hpc, tick]; exact h
  | done r => simp only [hpc, tick]; exact h

theorem run_owned {ord : List Int → List Int} (hord : ValidOrder ord) (es : List Ev) : ∀ (ms : List Msg) (s : St), Inv ms s → Owned s → (∀ m ∈ arriving es, Delivered m) →
    Owned (run ord s es) := by
  induction es with
  | nil => intro ms s _ h _; exact h
  | cons e es ih =>
    intro ms s hi h hd
    have h1 : ∀ t m, e = .recv t m → Delivered m := fun t m he => hd m (by rw [he]; simp [arriving])
    refine ih _ _ (step_inv hord hi e h1) ?_ (fun m hm => hd m ?_)
    · cases e with
      | tick t => exact tick_owned hord hi h t
      | recv t m =>
        simp only [step]
        split
        · rename_i hpc
          exact h.still hi t _ rfl (fun _ _ e => e) rfl (by intro m i e; rw [hpc] at e; cases e)
        · rename_i hpc
          exact h.still hi t _ rfl (fun _ _ e => e) rfl (by intro m i e; rw [hpc] at e; cases e)
        · exact h
    · unfold arriving at hm ⊢
      rw [List.filterMap_cons]
      split
      · exact hm
      · exact List.mem_cons_of_mem _ hm

theorem ofCtl_owned {c : Ctl} (hi : FoundInv c) : Owned (ofCtl c) := by
  intro k i hk
  refine .inl ?_
  have h1 : Dict.get? (ofCtl c).table k = some ((ofCtl c).heap i) := by rw [get?_table, hk]; rfl
  rw [table_ofCtl] at h1
  exact (hi.nodes k _ h1).linked

/-- A thread that has ended with an exception stays that way. -/
theorem run_dead (ord : List Int → List Int) (t : Nat) (e : Exc) (es : List Ev) : ∀ s : St, s.pc t = .done (.error e) → (run ord s es).pc t = .done (.error e) := by
  induction es with
  | nil => intro s h; exact h
  | cons x es ih =>
    intro s h
    refine ih _ ?_
    by_cases h1 : x = .tick t
    · rw [h1]
      show (tick ord s t).pc t = _
      simp only [tick, h]
    · by_cases h2 : ∃ m, x = .recv t m
      · obtain ⟨m, rfl⟩ := h2
        simp only [step, h]
      · rw [step_other ord s t x h1 (fun m hm => h2 ⟨m, hm⟩)]
        exact h

theorem stay (s : St) (t : Nat) (p : Pc) (h : s.pc t = p) : s = s.goto t p := by
  unfold St.goto
  have : (fun u => if u = t then p else s.pc u) = s.pc := by
    funext u
    by_cases e : u = t
    · rw [if_pos e, e, h]
    · rw [if_neg e]
  rw [this]

end Uecho.Finding
