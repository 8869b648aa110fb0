import Verif.Props.Std
import Verif.Props.Request
import Verif.Model.LocalNode
import Verif.Spec.Node

namespace Uecho
open Spec

/-! ### Setting data -/

theorem afterWrites_absent (o : Obj) (c : Int) (d : Bytes) (h : lookup o.props c = none) :
    afterWrites o [{ code := c, data := d }] = o := by
  rw [afterWrites_eq]
  have : Dict.mapKV o.props (fun k p => { p with data := (lastFor [{ code := c, data := d }] k).getD p.data }) = o.props := by
    conv => rhs; rw [← Dict.mapKV_id o.props]
    unfold Dict.mapKV
    apply List.map_congr_left
    intro kp hkp
    have hne : c ≠ kp.1 := by
      rintro rfl
      rw [lookup_eq, Dict.get?_eq_none_iff] at h
      exact h (List.mem_map_of_mem hkp)
    simp [lastFor, hne]
  rw [this]

theorem setPropertyData_eq (o : Obj) (c : Int) (d : Bytes) (hw : WellFormed o) :
    o.setPropertyData c d = (afterWrites o [{ code := c, data := d }], (lookup o.props c).isSome) := by
  unfold Obj.setPropertyData
  rw [getProperty_eq]
  cases h : lookup o.props c with
  | none => rw [afterWrites_absent o c d h]; rfl
  | some p => rw [storeData_eq _ _ _ hw.1]; rfl

theorem getPropertyData_eq (o : Obj) (c : Int) : o.getPropertyData c = (lookup o.props c).map OProp.data := by
  unfold Obj.getPropertyData
  rw [← lookup_eq]
  cases lookup o.props c <;> rfl

theorem getPropertyData_afterWrites (o : Obj) (items : List PProp) (c : Int) :
    (afterWrites o items).getPropertyData c = (lookup o.props c).map (fun p => (lastFor items c).getD p.data) := by
  rw [getPropertyData_eq, lookup_afterWrites]
  cases lookup o.props c <;> rfl

/-! ### The lists computed by the node profile -/

theorem isNodeProfile_eq (c : Int) : NodeProfile.isNodeProfile c = decide (IsProfileCode c) := by
  unfold NodeProfile.isNodeProfile IsProfileCode NodeProfile.CODE NodeProfile.READ_ONLY_CODE
  by_cases h1 : c = 0x0EF001
  · simp [h1]
  · by_cases h2 : c = 0x0EF002 <;> simp [h1, h2]

theorem instancesOf_cons (c : Int) (cs : List Int) :
    instancesOf (c :: cs) = if IsProfileCode c then instancesOf cs else c :: instancesOf cs := by
  unfold instancesOf
  rw [List.filter_cons]
  by_cases h : IsProfileCode c <;> simp [h]

theorem instanceLoop_eq (codes : List Int) : ∀ cnt l, NodeProfile.instanceLoop codes cnt l =
    (cnt + (instancesOf codes).length, l ++ codeBytes (instancesOf codes)) := by
  induction codes with
  | nil => intro cnt l; simp [NodeProfile.instanceLoop, instancesOf, codeBytes]
  | cons c cs ih =>
    intro cnt l
    unfold NodeProfile.instanceLoop
    rw [isNodeProfile_eq, instancesOf_cons]
    by_cases h : IsProfileCode c
    · simp only [h, decide_true, if_true]; exact ih cnt l
    · simp only [h, decide_false, Bool.false_eq_true, if_false]
      rw [ih, fromInt_eq_beDigits]
      simp only [List.length_cons, codeBytes, List.flatMap_cons, List.append_assoc]
      congr 1; omega

/-- The classes listed so far, as a list of pairs. -/
theorem hasSameClass_eq (l : List (Int × Int)) (g c : Int) (hl : ∀ gc ∈ l, (0 ≤ gc.1 ∧ gc.1 < 256) ∧ 0 ≤ gc.2 ∧ gc.2 < 256) :
    NodeProfile.hasSameClass (classBytes l) g c = decide ((g, c) ∈ l) := by
  induction l with
  | nil => simp [classBytes, NodeProfile.hasSameClass]
  | cons gc l ih =>
    obtain ⟨⟨h1, h2⟩, h3, h4⟩ := hl gc (List.mem_cons_self ..)
    have e1 : (((UInt8.ofNat gc.1.toNat).toNat : Nat) : Int) = gc.1 := toNat_ofNat_lt ⟨h1, h2⟩
    have e2 : (((UInt8.ofNat gc.2.toNat).toNat : Nat) : Int) = gc.2 := toNat_ofNat_lt ⟨h3, h4⟩
    show NodeProfile.hasSameClass (UInt8.ofNat gc.1.toNat :: UInt8.ofNat gc.2.toNat :: classBytes l) g c = _
    unfold NodeProfile.hasSameClass
    rw [e1, e2, ih (fun x hx => hl x (List.mem_cons_of_mem _ hx))]
    by_cases h : gc.1 = g ∧ gc.2 = c
    · rw [if_pos h]
      have : (g, c) = gc := Prod.ext h.1.symm h.2.symm
      simp [this]
    · rw [if_neg h]
      have : (g, c) ≠ gc := fun e => h ⟨by rw [← e], by rw [← e]⟩
      simp [this]

theorem classOf_range (c : Int) : (0 ≤ (classOf c).1 ∧ (classOf c).1 < 256) ∧ 0 ≤ (classOf c).2 ∧ (classOf c).2 < 256 := by
  unfold classOf; simp only []; omega

theorem classLoop_eq (codes : List Int) : ∀ cnt (l : List (Int × Int)) (seen : List Int),
    ListsClasses l seen → ∃ l', ListsClasses l' (seen ++ instancesOf codes) ∧
    NodeProfile.classLoop codes cnt (classBytes l) = (cnt + codes.length, classBytes l') := by
  induction codes with
  | nil => intro cnt l seen h; exact ⟨l, by simpa [instancesOf] using h, rfl⟩
  | cons c cs ih =>
    intro cnt l seen h
    have hl : ∀ gc ∈ l, (0 ≤ gc.1 ∧ gc.1 < 256) ∧ 0 ≤ gc.2 ∧ gc.2 < 256 := by
      intro gc hgc
      obtain ⟨x, -, rfl⟩ := (h.2 gc).mp hgc
      exact classOf_range x
    unfold NodeProfile.classLoop
    rw [isNodeProfile_eq, instancesOf_cons, groupCode_eq, classCode_eq, hasSameClass_eq l _ _ hl]
    have e : cnt + 1 + cs.length = cnt + (c :: cs).length := by simp only [List.length_cons]; omega
    by_cases hp : IsProfileCode c
    · simp only [hp, decide_true, if_true]
      obtain ⟨l', h1, h2⟩ := ih (cnt + 1) l seen h
      exact ⟨l', h1, by rw [h2, e]⟩
    · simp only [hp, decide_false, Bool.false_eq_true, if_false, decide_eq_true_eq]
      by_cases hm : (c / 65536 % 256, c / 256 % 256) ∈ l
      · rw [if_pos hm]
        have h' : ListsClasses l (seen ++ [c]) := by
          refine ⟨h.1, fun gc => ?_⟩
          rw [h.2]
          constructor
          · rintro ⟨x, hx, rfl⟩; exact ⟨x, List.mem_append_left _ hx, rfl⟩
          · rintro ⟨x, hx, rfl⟩
            rw [List.mem_append, List.mem_singleton] at hx
            rcases hx with hx | rfl
            · exact ⟨x, hx, rfl⟩
            · exact (h.2 _).mp hm
        obtain ⟨l', h1, h2⟩ := ih (cnt + 1) l _ h'
        exact ⟨l', by simpa using h1, by rw [h2, e]⟩
      · rw [if_neg hm]
        have h' : ListsClasses (l ++ [classOf c]) (seen ++ [c]) := by
          refine ⟨?_, fun gc => ?_⟩
          · rw [List.nodup_append]
            refine ⟨h.1, by simp, ?_⟩
            intro a ha b hb
            rw [List.mem_singleton] at hb
            subst hb
            exact fun e => hm (show classOf c ∈ l from e ▸ ha)
          · rw [List.mem_append, List.mem_singleton, h.2]
            constructor
            · rintro (⟨x, hx, rfl⟩ | rfl)
              · exact ⟨x, List.mem_append_left _ hx, rfl⟩
              · exact ⟨c, by simp, rfl⟩
            · rintro ⟨x, hx, rfl⟩
              rw [List.mem_append, List.mem_singleton] at hx
              rcases hx with hx | rfl
              · exact Or.inl ⟨x, hx, rfl⟩
              · exact Or.inr rfl
        obtain ⟨l', h1, h2⟩ := ih (cnt + 1) _ _ h'
        refine ⟨l', by simpa using h1, ?_⟩
        rw [← e, ← h2]
        unfold classBytes
        rw [List.flatMap_append]
        rfl

/-! ### The node profile -/

/-- The properties that describe the node. -/
def HasLists (o : Obj) : Prop :=
  (lookup o.props 0xD3).isSome = true ∧ (lookup o.props 0xD4).isSome = true ∧ (lookup o.props 0xD5).isSome = true ∧
  (lookup o.props 0xD6).isSome = true ∧ (lookup o.props 0xD7).isSome = true

/-- What never changes in a node profile object. -/
structure GoodProfile (o : Obj) : Prop where
  code : o.code = 0x0EF001
  handler : o.handler = .self_
  wf : WellFormed o
  range : ∀ c ∈ o.props.map Prod.fst, 0x80 ≤ c ∧ c < 0x100
  props : ∀ pc, (lookup o.props pc).map (fun p => { p with data := [] }) = deviceProp 0x0E 0xF0 pc

theorem GoodProfile.of_skeleton {o o' : Obj} (h : GoodProfile o) (hs : skeleton o' = skeleton o) : GoodProfile o' where
  code := (congrArg Obj.code hs).trans h.code
  handler := (congrArg Obj.handler hs).trans h.handler
  wf := wf_of_skeleton hs h.wf
  range := by rw [keys_of_skeleton hs]; exact h.range
  props := fun pc => (known_of_skeleton hs pc).trans (h.props pc)

theorem GoodProfile.known {o : Obj} (h : GoodProfile o) (pc : Int) :
    (lookup o.props pc).isSome = (deviceProp 0x0E 0xF0 pc).isSome := by
  rw [← h.props pc]; simp

theorem profile_known : (deviceProp 0x0E 0xF0 0x9D).isSome = true ∧ (deviceProp 0x0E 0xF0 0x9E).isSome = true ∧
    (deviceProp 0x0E 0xF0 0x9F).isSome = true ∧ (deviceProp 0x0E 0xF0 0xD3).isSome = true ∧
    (deviceProp 0x0E 0xF0 0xD4).isSome = true ∧ (deviceProp 0x0E 0xF0 0xD5).isSome = true ∧
    (deviceProp 0x0E 0xF0 0xD6).isSome = true ∧ (deviceProp 0x0E 0xF0 0xD7).isSome = true := by decide +kernel

theorem GoodProfile.maps {o : Obj} (h : GoodProfile o) : HasMaps o :=
  ⟨by rw [h.known]; exact profile_known.1, by rw [h.known]; exact profile_known.2.1,
   by rw [h.known]; exact profile_known.2.2.1⟩

theorem GoodProfile.lists {o : Obj} (h : GoodProfile o) : HasLists o := by
  obtain ⟨-, -, -, h3, h4, h5, h6, h7⟩ := profile_known
  exact ⟨by rw [h.known]; exact h3, by rw [h.known]; exact h4, by rw [h.known]; exact h5,
    by rw [h.known]; exact h6, by rw [h.known]; exact h7⟩

/-- `_update_map_properties` on a node profile. -/
theorem updateMapProperties_eq {ord : List Int → List Int} (hord : ValidOrder ord) (o : Obj) (codes : List Int)
    (hg : GoodProfile o) :
    ∃ l ms, ListsClasses l (instancesOf codes) ∧ (∀ i ∈ ms, i.code = 0x9D ∨ i.code = 0x9E ∨ i.code = 0x9F) ∧
    NodeProfile.updateMapProperties ord o codes = (afterWrites o
      ([{ code := 0xD3, data := beDigits (instancesOf codes).length 3 },
        { code := 0xD5, data := byteOf (instancesOf codes).length :: codeBytes (instancesOf codes) },
        { code := 0xD6, data := byteOf (instancesOf codes).length :: codeBytes (instancesOf codes) },
        { code := 0xD4, data := beDigits codes.length 2 },
        { code := 0xD7, data := byteOf codes.length :: classBytes l }] ++ ms), .ok true) := by
  obtain ⟨k3, k4, k5, k6, k7⟩ := hg.lists
  obtain ⟨l, hl, hc⟩ := classLoop_eq codes 0 [] [] ⟨List.nodup_nil, by simp⟩
  rw [List.nil_append] at hl
  simp only [Nat.zero_add] at hc
  have hc' : NodeProfile.classLoop codes 0 [] = (codes.length, classBytes l) := hc
  have one : ∀ v : Int, fromInt v 1 = [byteOf v] := by
    intro v; rw [fromInt_succ]; simp [fromInt]
  have g : ∀ items, GoodProfile (afterWrites o items) := fun items => hg.of_skeleton (skeleton_afterWrites o items)
  have ks : ∀ items c, (lookup (afterWrites o items).props c).isSome = (lookup o.props c).isSome := by
    intro items c; rw [lookup_afterWrites]; simp
  have hall := updateMaps_all hord (afterWrites o
    [{ code := 0xD3, data := beDigits (instancesOf codes).length 3 },
     { code := 0xD5, data := byteOf (instancesOf codes).length :: codeBytes (instancesOf codes) },
     { code := 0xD6, data := byteOf (instancesOf codes).length :: codeBytes (instancesOf codes) },
     { code := 0xD4, data := beDigits codes.length 2 },
     { code := 0xD7, data := byteOf codes.length :: classBytes l }]) (g _).wf
     (byteCodes_of_keys (g _).wf.1 (g _).range) (g _).maps
  generalize kindData ord _ .anno = d1, kindData ord _ .get = d2, kindData ord _ .set = d3 at hall
  refine ⟨l, [{ code := 0x9D, data := d1 }, { code := 0x9F, data := d2 }, { code := 0x9E, data := d3 }], hl, by simp, ?_⟩
  · unfold NodeProfile.updateMapProperties NodeProfile.updateInstance NodeProfile.updateClass
      NodeProfile.NUMBER_OF_SELF_NODE_INSTANCES NodeProfile.INSTANCE_LIST_NOTIFICATION NodeProfile.SELF_NODE_INSTANCE_LIST_S
      NodeProfile.NUMBER_OF_SELF_NODE_CLASSES NodeProfile.SELF_NODE_CLASS_LIST_S
    rw [instanceLoop_eq, hc']
    simp only [List.nil_append, Nat.zero_add, one, List.cons_append]
    rw [setPropertyData_eq _ _ _ hg.wf, k3]
    simp only []
    rw [setPropertyData_eq _ _ _ (g _).wf, ks, k5]
    simp only [afterWrites_append]
    rw [setPropertyData_eq _ _ _ (g _).wf, ks, k6]
    simp only [afterWrites_append]
    rw [setPropertyData_eq _ _ _ (g _).wf, ks, k4]
    simp only [afterWrites_append]
    rw [setPropertyData_eq _ _ _ (g _).wf, ks, k7]
    simp only [afterWrites_append, List.cons_append, List.nil_append, fromInt_eq_beDigits]
    rw [hall]
    simp only [afterWrites_append, List.cons_append, List.nil_append]

/-! ### Construction -/

theorem setPropertyMap_code (o : Obj) (n code : Int) (m : List Int) :
    SuperObj.setPropertyMap { o with code := n } code m =
      ({ (SuperObj.setPropertyMap o code m).1 with code := n }, (SuperObj.setPropertyMap o code m).2) := by
  unfold SuperObj.setPropertyMap
  have h1 : ({ o with code := n } : Obj).hasProperty code = o.hasProperty code := rfl
  have h2 : ∀ d, Obj.setPropertyData ({ o with code := n } : Obj) code d =
      ({ (o.setPropertyData code d).1 with code := n }, (o.setPropertyData code d).2) := by
    intro d
    unfold Obj.setPropertyData
    have : ({ o with code := n } : Obj).getProperty code = o.getProperty code := rfl
    rw [this]
    cases o.getProperty code <;> rfl
  rw [h1]
  split
  · rfl
  · cases SuperObj.mapBytes m.length m with
    | error e => rfl
    | ok mb =>
      simp only []
      split
      · rw [h2]
      · cases SuperObj.mapBytes OProp.FORMAT2_MAP_SIZE (SuperObj.format2Codes m) with
        | error e => rfl
        | ok mb => simp only []; rw [h2]

theorem updateMaps_code (ord : List Int → List Int) (o : Obj) (n : Int) :
    SuperObj.updateMaps ord { o with code := n } =
      ({ (SuperObj.updateMaps ord o).1 with code := n }, (SuperObj.updateMaps ord o).2) := by
  unfold SuperObj.updateMaps
  have h1 : SuperObj.annoList { o with code := n } = SuperObj.annoList o := rfl
  have h2 : SuperObj.getList { o with code := n } = SuperObj.getList o := rfl
  have h3 : SuperObj.setList { o with code := n } = SuperObj.setList o := rfl
  simp only [h1, h2, h3]
  rw [setPropertyMap_code]
  rcases SuperObj.setPropertyMap o SuperObj.ANNO_PROPERTY_MAP (ord (SuperObj.annoList o)) with ⟨o1, e | b⟩
  · rfl
  · cases b with
    | false => rfl
    | true =>
      simp only []
      rw [setPropertyMap_code]
      rcases SuperObj.setPropertyMap o1 SuperObj.GET_PROPERTY_MAP (ord (SuperObj.getList o)) with ⟨o2, e | b⟩
      · rfl
      · cases b with
        | false => rfl
        | true => simp only []; rw [setPropertyMap_code]

theorem addAll_code (ord : List Int → List Int) (n : Int) (ps : List OProp) : ∀ (o : Obj),
    addAll ord { o with code := n } ps = ({ (addAll ord o ps).1 with code := n }, (addAll ord o ps).2) := by
  induction ps with
  | nil => intro o; rfl
  | cons p ps ih =>
    intro o
    rw [addAll_cons, addAll_cons]
    have : SuperObj.addProperty ord { o with code := n } p =
        ({ (SuperObj.addProperty ord o p).1 with code := n }, (SuperObj.addProperty ord o p).2) := by
      unfold SuperObj.addProperty
      have : ({ o with code := n } : Obj).addPropertyBase p = { o.addPropertyBase p with code := n } := rfl
      simp only [this]
      rw [updateMaps_code]
      rcases SuperObj.updateMaps ord (o.addPropertyBase p) with ⟨o1, e | b⟩ <;> rfl
    rw [this]
    rcases SuperObj.addProperty ord o p with ⟨o1, e | b⟩
    · rfl
    · exact ih o1

/-- A profile object is built like a device. -/
theorem profile_new_eq {ord : List Int → List Int} (hord : ValidOrder ord) (n : Int) :
    ProfileObj.new ord stdObjects (.int n) = StdObj.new ord stdObjects (.int n) := by
  rw [dev_eq hord (.int n) n rfl]
  unfold ProfileObj.new ProfileObj.setCode
  have e0 : dbGetObject stdObjects StdObj.SUPER_CODE = Dict.get? stdObjects (0, 0) := by
    show Dict.get? stdObjects (groupCode 0, classCode 0) = _
    rw [groupCode_eq, classCode_eq]; rfl
  have e1 : dbGetObject stdObjects (.int n) = Dict.get? stdObjects (n / 65536 % 256, n / 256 % 256) := by
    show Dict.get? stdObjects (groupCode n, classCode n) = _
    rw [groupCode_eq, classCode_eq]
  rw [e0, e1, setObjectProperties_eq]
  have hs := (dev_shape hord n (n / 65536 % 256) (n / 256 % 256)).1
  simp only [addAll_append] at hs ⊢
  have hcode := addAll_code ord n (classProps 0 0) SuperObj.new
  rw [hcode] at hs ⊢
  rcases ha : addAll ord SuperObj.new (classProps 0 0) with ⟨o1, e | u⟩
  · rw [ha] at hs; simp at hs
  · rw [ha] at hs
    simp only [] at hs ⊢
    have : setCode o1.code (.int n) = (n, true) := rfl
    rw [this]
    simp only []
    rw [setObjectProperties_eq]
    rcases hb : addAll ord { o1 with code := n } (classProps (n / 65536 % 256) (n / 256 % 256)) with ⟨o2, e | u⟩
    · rw [hb] at hs; simp at hs
    · rfl

theorem goodProfile_fresh {ord : List Int → List Int} (hord : ValidOrder ord) :
    ∃ o, ProfileObj.new ord stdObjects (.int 0x0EF001) = (o, .ok true) ∧ GoodProfile o ∧ o.observers = [] := by
  obtain ⟨-, h2, h3, h4, h5, h6, h7, h8, -⟩ := dev_shape hord 0x0EF001 (0x0EF001 / 65536 % 256) (0x0EF001 / 256 % 256)
  rw [profile_new_eq hord, dev_eq hord (.int 0x0EF001) 0x0EF001 rfl]
  refine ⟨_, Prod.ext rfl h2, ⟨h3, h4, h6, ?_, h8⟩, h5⟩
  intro c hc
  rw [List.mem_map] at hc
  obtain ⟨kp, hkp, rfl⟩ := hc
  exact h7 kp hkp

theorem initial_eq (o : Obj) (rnd : NodeProfile.Random) (hw : WellFormed o) :
    NodeProfile.initial o rnd = afterWrites o
      [{ code := 0x80, data := [0x30] }, { code := 0x82, data := [0x01, 0x0D, 0x01, 0x00] },
       { code := 0x83, data := [0xFE, 0x00, 0x00, 0x00] ++ rnd.id }, { code := 0xBF, data := [rnd.u1 &&& 0xC0, rnd.u2] }] := by
  have w : ∀ items, WellFormed (afterWrites o items) := fun items => wf_afterWrites o items hw
  unfold NodeProfile.initial
  rw [setPropertyData_eq _ _ _ hw]
  simp only []
  rw [setPropertyData_eq _ _ _ (w _)]
  simp only [afterWrites_append]
  rw [setPropertyData_eq _ _ _ (w _)]
  simp only [afterWrites_append]
  rw [setPropertyData_eq _ _ _ (w _)]
  simp only [afterWrites_append]
  have e1 : fromInt 0x30 1 = [0x30] := by decide
  have e2 : fromInt NodeProfile.ECHONET_LITE_VERSION 4 = [0x01, 0x0D, 0x01, 0x00] := by decide
  rw [e1, e2]
  rfl

end Uecho
