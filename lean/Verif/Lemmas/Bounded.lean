/- Lemmas about how much data objects hold. -/
import Verif.Lemmas.Linked
import Verif.Props.Shape
import Verif.Props.Std

namespace Uecho
open Spec

/-- Every property of the object holds at most so many bytes. -/
def Within (b : Nat) (o : Obj) : Prop := ∀ pc p, lookup o.props pc = some p → p.data.length ≤ b

theorem extendBytes_length (l : List Int) : ∀ buf b, SuperObj.extendBytes buf l = .ok b → b.length = buf.length + l.length := by
  induction l with
  | nil => intro buf b h; injection h with h; rw [← h]; rfl
  | cons c l ih =>
    intro buf b h
    unfold SuperObj.extendBytes Msg.appendByte at h
    split at h
    · cases h
    · rename_i buf' hb
      split at hb
      · injection hb with hb
        rw [ih _ _ h, ← hb]
        simp only [List.length_append, List.length_cons, List.length_nil]
        omega
      · cases hb

theorem mapBytes_length (n : Nat) (l : List Int) (b : Bytes) (h : SuperObj.mapBytes n l = .ok b) : b.length = 1 + l.length := by
  unfold SuperObj.mapBytes Msg.appendByte at h
  split at h
  · cases h
  · rename_i buf' hb
    split at hb
    · injection hb with hb
      rw [extendBytes_length _ _ _ h, ← hb]
      rfl
    · cases hb

/-- A property map that is stored has at most 17 bytes; nothing else changes. -/
theorem setPropertyMap_within (o o' : Obj) (code : Int) (l : List Int) (h : SuperObj.setPropertyMap o code l = (o', .ok true)) :
    (∀ p, lookup o'.props code = some p → p.data.length ≤ 17) ∧ ∀ pc, pc ≠ code → lookup o'.props pc = lookup o.props pc := by
  have put : ∀ mb : Bytes, mb.length ≤ 17 → (let (o1, r) := o.setPropertyData code mb; (o1, Except.ok (ε := Exc) r)) = (o', Except.ok true) →
      (∀ p, lookup o'.props code = some p → p.data.length ≤ 17) ∧ ∀ pc, pc ≠ code → lookup o'.props pc = lookup o.props pc := by
    intro mb hm he
    unfold Obj.setPropertyData at he
    cases hg : o.getProperty code with
    | none => rw [hg] at he; simp at he
    | some q =>
      rw [hg] at he
      have he := congrArg Prod.fst he
      simp only [] at he
      subst he
      constructor
      · intro p hp
        rw [lookup_eq] at hp
        unfold Obj.storeData at hp
        simp only [Dict.get?_modify, if_true] at hp
        obtain ⟨q', -, rfl⟩ := Option.map_eq_some_iff.mp hp
        exact hm
      · intro pc hne
        rw [lookup_eq, lookup_eq]
        unfold Obj.storeData
        simp only [Dict.get?_modify]
        rw [if_neg (fun e => hne e.symm)]
  unfold SuperObj.setPropertyMap at h
  split at h
  · injection h with h1 h2
    injection h2 with h2
    cases h2
  · split at h
    · injection h with h1 h2; cases h2
    · rename_i mb hmb
      split at h
      · rename_i hf
        refine put mb ?_ h
        rw [mapBytes_length _ _ _ hmb]
        have : l.length ≤ 15 := of_decide_eq_true hf
        omega
      · split at h
        · injection h with h1 h2; cases h2
        · rename_i mb2 hmb2
          refine put mb2 ?_ h
          rw [mapBytes_length _ _ _ hmb2, format2Codes_eq, encFold_length, List.length_replicate]

/-- A standard device holds nothing but its maps, of at most 17 bytes each; it has at most one property for each code from 0x80 to 0xFF. -/
theorem devObj_within {ord : List Int → List Int} (hord : ValidOrder ord) (k : Int) : Within 17 (devObj ord k) ∧ ∀ kp ∈ (devObj ord k).props, 0x80 ≤ kp.1 ∧ kp.1 < 0x100 := by
  obtain ⟨-, h2, -, -, -, -, h3, h4, h5, -⟩ := dev_shape hord k (k / 65536 % 256) (k / 256 % 256)
  have hd : devObj ord k = (SuperObj.updateMaps ord (addAll ord { SuperObj.new with code := k }
      (classProps 0 0 ++ classProps (k / 65536 % 256) (k / 256 % 256))).1).1 := by
    unfold devObj
    rw [dev_eq hord (.int k) k rfl]
  rw [hd]
  refine ⟨?_, h3⟩
  generalize (addAll ord { SuperObj.new with code := k } (classProps 0 0 ++ classProps (k / 65536 % 256) (k / 256 % 256))).1 = o at h2 h3 h4 h5
  intro pc p hp
  by_cases hm : pc ≠ 0x9D ∧ pc ≠ 0x9E ∧ pc ≠ 0x9F
  · have e := h5 pc hm.1 hm.2.1 hm.2.2
    rw [← h4 pc, hp] at e
    injection e with e
    rw [e]
    exact Nat.zero_le _
  · unfold SuperObj.updateMaps at h2 hp
    simp only [] at h2 hp
    rcases e1 : SuperObj.setPropertyMap o SuperObj.ANNO_PROPERTY_MAP (ord (SuperObj.annoList o)) with ⟨o1, x | (_ | _)⟩
    · rw [e1] at h2; cases h2
    · rw [e1] at h2; cases h2
    · rw [e1] at h2 hp
      simp only [] at h2 hp
      obtain ⟨a1, a2⟩ := setPropertyMap_within _ _ _ _ e1
      rcases e2 : SuperObj.setPropertyMap o1 SuperObj.GET_PROPERTY_MAP (ord (SuperObj.getList o)) with ⟨o2, x | (_ | _)⟩
      · rw [e2] at h2; cases h2
      · rw [e2] at h2; cases h2
      · rw [e2] at h2 hp
        simp only [] at h2 hp
        obtain ⟨b1, b2⟩ := setPropertyMap_within _ _ _ _ e2
        obtain ⟨c1, c2⟩ := setPropertyMap_within _ _ _ _ (Prod.ext rfl h2 : SuperObj.setPropertyMap o2 SuperObj.SET_PROPERTY_MAP (ord (SuperObj.setList o)) = (_, .ok true))
        by_cases n1 : pc = 0x9E
        · rw [n1] at hp; exact c1 p hp
        · rw [c2 pc n1] at hp
          by_cases n2 : pc = 0x9F
          · rw [n2] at hp; exact b1 p hp
          · rw [b2 pc n2] at hp
            have n3 : pc = 0x9D := by omega
            rw [n3] at hp; exact a1 p hp

theorem lastFor_within (l : List PProp) (c : Int) (b : Nat) (h : ∀ x ∈ l, x.data.length ≤ b) (d : Bytes) (hd : lastFor l c = some d) : d.length ≤ b := by
  unfold lastFor at hd
  obtain ⟨x, hx, rfl⟩ := Option.map_eq_some_iff.mp hd
  obtain ⟨l', hx⟩ := List.getLast?_eq_some_iff.mp hx
  have : x ∈ l.filter (fun i => decide (i.code = c)) := by rw [hx]; simp
  exact h x (List.mem_filter.mp this).1

theorem afterWrites_within (o : Obj) (l : List PProp) (b : Nat) (h : Within b o) (hl : ∀ x ∈ l, x.data.length ≤ b) : Within b (afterWrites o l) := by
  intro pc p hp
  rw [lookup_afterWrites] at hp
  obtain ⟨q, hq, rfl⟩ := Option.map_eq_some_iff.mp hp
  cases hlf : lastFor l pc with
  | none => rw [hlf] at hp; simpa using h pc q hq
  | some d => simpa using lastFor_within l pc b hl d hlf

/-- The properties of a received message hold at most 255 bytes each. -/
theorem received_within (m : Msg) (h : Encodable m) : (∀ x ∈ (received m).props, x.data.length ≤ 255) ∧ ∀ x ∈ (received m).setProps, x.data.length ≤ 255 := by
  obtain ⟨-, h⟩ := h
  have e1 : (received m).props = if TwoSections m.esv then [] else m.props := rfl
  have e2 : (received m).setProps = if TwoSections m.esv then m.setProps else [] := rfl
  rw [e1, e2]
  split at h
  · rename_i ht
    rw [if_pos ht, if_pos ht]
    exact ⟨fun x hx => absurd hx (by simp), fun x hx => Nat.le_of_lt_succ (h.1.2 x hx).2.2⟩
  · rename_i ht
    rw [if_neg ht, if_neg ht]
    exact ⟨fun x hx => Nat.le_of_lt_succ (h.2 x hx).2.2, fun x hx => absurd hx (by simp)⟩

/-- An instance list announced in a message has at most 84 codes. -/
theorem announced_length (m : Msg) (h : Encodable m) (a : Addr) (l : List Int) (ha : announced m = some (a, l)) : l.length ≤ 84 := by
  unfold announced at ha
  split at ha
  · rename_i hc
    have ht : ¬ TwoSections m.esv := by unfold TwoSections; omega
    obtain ⟨-, h⟩ := h
    rw [if_neg ht] at h
    split at ha
    · rename_i a' l' hf hl
      injection ha with ha
      injection ha with ha1 ha2
      subst ha2
      unfold instanceListOf at hl
      split at hl
      · cases hl
      · rename_i p ps hp
        have hlen := (h.2 p (by rw [hp]; simp)).2.2
        split at hl
        · split at hl
          · cases hl
          · rename_i b rest hb
            rw [hb, List.length_cons] at hlen
            split at hl
            · cases hl
            · injection hl with hl
              rw [← hl]
              have : ∀ k (r : Bytes), (listedCodes k r).length = k := by
                intro k
                induction k with
                | zero => intro r; rfl
                | succ k ih => intro r; simp [listedCodes, ih]
              rw [this]
              omega
        · cases hl
    · cases ha
  · cases ha

theorem addCodes_length (cs : List Int) : ∀ l, (addCodes l cs).length ≤ l.length + cs.length := by
  induction cs with
  | nil => intro l; exact Nat.le_refl _
  | cons c cs ih =>
    intro l
    have : addCodes l (c :: cs) = addCodes (if c ∈ l then l else l ++ [c]) cs := rfl
    rw [this]
    have h := ih (if c ∈ l then l else l ++ [c])
    split at h
    · rename_i hc
      rw [if_pos hc]
      simp only [List.length_cons]; omega
    · rename_i hc
      rw [if_neg hc]
      simp only [List.length_append, List.length_cons, List.length_nil] at h ⊢; omega

/-- What is held about found nodes is short. -/
def Modest (found : Dict String Remote) : Prop := ∀ ip r, Dict.get? found ip = some r → ∀ k o, Dict.get? r.node.objects k = some o → Within 255 o

theorem afterList_modest {ord : List Int → List Int} (hord : ValidOrder ord) {c : Ctl} (h : Modest c.found) (m : Msg) : Modest (afterList ord c m).found := by
  unfold afterList
  cases announced m with
  | none => exact h
  | some x =>
    obtain ⟨a, l⟩ := x
    intro ip r hr k o ho
    simp only [] at hr
    rw [Dict.get?_set] at hr
    split at hr
    · cases hr
      rw [listedNode_get?] at ho
      split at ho
      · cases ho
        exact fun pc p hp => Nat.le_trans ((devObj_within hord k).1 pc p hp) (by omega)
      · cases ho
    · exact h ip r hr k o ho

theorem reportTo_modest {found : Dict String Remote} (h : Modest found) (ip : String) (d : Int) (props : List PProp) (hp : ∀ x ∈ props, x.data.length ≤ 255) :
    Modest (reportTo found ip d props) := by
  unfold reportTo
  cases hf : Dict.get? found ip with
  | none => exact h
  | some r =>
    simp only []
    cases ho : Dict.get? r.node.objects d with
    | none => exact h
    | some o =>
      intro ip' r' hr' k o' ho'
      simp only [] at hr'
      rw [Dict.get?_modify] at hr'
      split at hr'
      · rename_i e
        subst e
        rw [hf] at hr'
        cases hr'
        rw [get?_putObj] at ho'
        split at ho'
        · rename_i e
          subst e
          rw [ho] at ho'
          cases ho'
          exact afterWrites_within o props 255 (h ip r hf d o ho) hp
        · exact h ip r hf k o' ho'
      · exact h ip' r' hr' k o' ho'

theorem found_modest {ord : List Int → List Int} (hord : ValidOrder ord) {c : Ctl} {ops : List CtlOp} (h : CtlReach ord c ops) : Modest c.found := by
  obtain ⟨rnd, ha, rfl⟩ := h
  induction ops using List.reverseRecOn with
  | nil =>
    obtain ⟨n, hn, -⟩ := ctl_new hord rnd
    intro ip r hr
    rw [hn] at hr
    cases hr
  | append_singleton ops op ih =>
    have ha' : ∀ op ∈ ops, CtlOp.Allowed op := fun x hx => ha x (List.mem_append_left _ hx)
    have ih := ih ha'
    have hk := (reach_knows hord ⟨rnd, ha', rfl⟩).1
    have hop := ha op (by simp)
    have e : runCtl ord (Ctl.new ord rnd).1 (ops ++ [op]) = op.run ord (runCtl ord (Ctl.new ord rnd).1 ops) := by
      unfold runCtl
      rw [List.foldl_append]
      rfl
    rw [e]
    generalize runCtl ord (Ctl.new ord rnd).1 ops = c at ih hk
    by_cases hr : ∃ env cenv net m, op = .receive env cenv net m
    · obtain ⟨env, cenv, net, m, rfl⟩ := hr
      obtain ⟨hd, hc, -⟩ := hop
      obtain ⟨a, hfa⟩ := Option.isSome_iff_exists.mp hd.2
      show Modest (c.messageReceived ord env cenv net m).1.found
      rcases receive_cases hord env hc net c hk m a hfa hd.1 with ⟨e, -⟩ | ⟨e, -⟩
      · rw [e]; exact ih
      · rw [e]
        exact reportTo_modest (afterList_modest hord ih m) _ _ _ (received_within m hd.1).1
    · rw [(run_other ord c op (fun env cenv net m e => hr ⟨env, cenv, net, m, e⟩)).1]
      exact ih

/-- Distinct codes from 0x80 to 0xFF are at most 128. -/
theorem codes_length (l : List Int) (hn : l.Nodup) (h : ∀ c ∈ l, 0x80 ≤ c ∧ c < 0x100) : l.length ≤ 128 := by
  have hs : l ⊆ (List.range 128).map (fun (i : Nat) => 0x80 + (i : Int)) := by
    intro c hc
    obtain ⟨h1, h2⟩ := h c hc
    exact List.mem_map.mpr ⟨(c - 0x80).toNat, List.mem_range.mpr (by omega), by omega⟩
  have := (List.subperm_of_subset hn hs).length_le
  simpa using this

end Uecho
