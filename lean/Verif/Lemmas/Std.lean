/- Lemmas about the standard tables and the database. -/
import Verif.Model.Database
import Verif.Spec.Std
import Verif.Props.PropertyMap
import Verif.Props.Store

namespace Uecho
open Spec

theorem attr_eq (r : RawAttr) : toAttribute (.str r.text) = ruleOf r := by cases r <;> decide +kernel

theorem stdProperty_eq (l : Int × RawAttr × RawAttr × RawAttr) : stdProperty l = propOf l := by
  unfold stdProperty readerProperty propOf; simp only [attr_eq]

theorem foldl_add (ps : List OProp) : ∀ (o : Obj), WellFormed o →
    WellFormed (ps.foldl Obj.addPropertyBase o) ∧
    (∀ c, lookup (ps.foldl Obj.addPropertyBase o).props c = (lastProp ps c).or (lookup o.props c)) ∧
    (∀ c ∈ (ps.foldl Obj.addPropertyBase o).props.map Prod.fst, c ∈ o.props.map Prod.fst ∨ ∃ p ∈ ps, p.code = c) ∧
    (ps.foldl Obj.addPropertyBase o).code = o.code ∧ (ps.foldl Obj.addPropertyBase o).handler = o.handler ∧
    (ps.foldl Obj.addPropertyBase o).observers = o.observers := by
  induction ps with
  | nil => intro o hw; exact ⟨hw, fun c => by simp [lastProp], fun c h => Or.inl h, rfl, rfl, rfl⟩
  | cons p ps ih =>
    intro o hw
    obtain ⟨i1, i2, i3, i4, i5, i6⟩ := ih (o.addPropertyBase p) (wf_addPropertyBase o p hw)
    simp only [List.foldl_cons]
    refine ⟨i1, ?_, ?_, i4, i5, i6⟩
    · intro c
      rw [i2, lastProp_cons, lookup_addPropertyBase]
      cases hl : lastProp ps c with
      | some q => rfl
      | none =>
        by_cases hc : c = p.code
        · subst hc; simp
        · simp [hc, Ne.symm hc]
    · intro c hc
      rcases i3 c hc with h | ⟨q, hq, hqc⟩
      · rw [keys_addPropertyBase] at h
        split at h
        · exact Or.inl h
        · rw [List.mem_append, List.mem_singleton] at h
          rcases h with h | h
          · exact Or.inl h
          · exact Or.inr ⟨p, List.mem_cons_self .., h.symm⟩
      · exact Or.inr ⟨q, List.mem_cons_of_mem _ hq, hqc⟩

theorem lastProp_lines (e : StdEntry) (c : Int) :
    lastProp (e.props.map stdProperty) c = (lineFor e c).map propOf := by
  unfold lastProp lineFor
  rw [List.filter_map]
  have hf : ((fun p : OProp => decide (p.code = c)) ∘ stdProperty) = fun l => decide (l.1 = c) := by
    funext l; rfl
  rw [hf, List.getLast?_map]
  congr 1
  funext l; exact stdProperty_eq l

/-! The whole tables, checked line by line. -/

/-- What is checked of each entry. -/
def EntryOk (e : StdEntry) : Prop :=
  e.key = (e.group, e.cls) ∧ (0 ≤ e.group ∧ e.group < 256) ∧ (0 ≤ e.cls ∧ e.cls < 256) ∧
    ∀ l ∈ e.props, 0x80 ≤ l.1 ∧ l.1 < 0x100

instance (e : StdEntry) : Decidable (EntryOk e) := by unfold EntryOk; infer_instance

theorem scsl_ok : ∀ e ∈ StdData.scsl, EntryOk e := by decide +kernel
theorem mra_ok : ∀ e ∈ StdData.mra, EntryOk e := by decide +kernel

theorem entryIn_mem {t : List StdEntry} {g c : Int} {e : StdEntry} (h : entryIn t g c = some e) :
    e ∈ t ∧ e.key = (g, c) := by
  have := List.mem_of_getLast? h
  rw [List.mem_filter] at this
  exact ⟨this.1, by simpa using this.2⟩

theorem stdClass_mem {g c : Int} {e : StdEntry} (h : stdClass g c = some e) :
    (e ∈ StdData.mra ∨ e ∈ StdData.scsl) ∧ e.key = (g, c) := by
  unfold stdClass at h
  cases hm : entryIn StdData.mra g c with
  | some e' =>
    rw [hm] at h; simp only [Option.some_or, Option.some.injEq] at h; subst h
    exact ⟨Or.inl (entryIn_mem hm).1, (entryIn_mem hm).2⟩
  | none =>
    rw [hm] at h; simp only [Option.none_or] at h
    exact ⟨Or.inr (entryIn_mem h).1, (entryIn_mem h).2⟩

theorem stdClass_ok {g c : Int} {e : StdEntry} (h : stdClass g c = some e) :
    EntryOk e ∧ e.key = (g, c) := by
  obtain ⟨h1 | h1, h2⟩ := stdClass_mem h
  · exact ⟨mra_ok e h1, h2⟩
  · exact ⟨scsl_ok e h1, h2⟩

/-! The dictionaries. -/

theorem get?_foldl_set {κ ν α : Type} [DecidableEq κ] (f : α → κ) (g : α → ν) (l : List α) : ∀ (d : Dict κ ν) (k : κ),
    Dict.get? (l.foldl (fun d e => Dict.set d (f e) (g e)) d) k =
      (((l.filter fun e => decide (f e = k)).getLast?).map g).or (Dict.get? d k) := by
  induction l with
  | nil => intro d k; simp
  | cons a l ih =>
    intro d k
    rw [List.foldl_cons, ih, Dict.get?_set]
    by_cases h : f a = k
    · rw [List.filter_cons_of_pos (by simpa using h), List.getLast?_cons, if_pos h]
      cases (List.filter (fun e => decide (f e = k)) l).getLast? <;> rfl
    · rw [List.filter_cons_of_neg (by simpa using h), if_neg h]

theorem get?_tableDict (t : List StdEntry) (g c : Int) :
    Dict.get? (tableDict t) (g, c) = (entryIn t g c).map stdObject := by
  unfold tableDict
  rw [get?_foldl_set]
  simp [entryIn]

theorem nodup_foldl_set {κ ν α : Type} [DecidableEq κ] (f : α → κ) (g : α → ν) (l : List α) : ∀ (d : Dict κ ν),
    (Dict.keys d).Nodup → (Dict.keys (l.foldl (fun d e => Dict.set d (f e) (g e)) d)).Nodup := by
  induction l with
  | nil => intro d h; exact h
  | cons a l ih => intro d h; rw [List.foldl_cons]; exact ih _ (Dict.nodup_keys_set d _ _ h)

theorem getLast?_filter_nodup {κ ν : Type} [DecidableEq κ] (d : Dict κ ν) (h : (Dict.keys d).Nodup) (k : κ) :
    ((d.filter fun kv => decide (kv.1 = k)).getLast?).map Prod.snd = Dict.get? d k := by
  induction d with
  | nil => rfl
  | cons kv d ih =>
    obtain ⟨k', v⟩ := kv
    have h' : (Dict.keys d).Nodup := (List.nodup_cons.mp h).2
    have hk : k' ∉ Dict.keys d := (List.nodup_cons.mp h).1
    rw [Dict.get?_cons]
    by_cases hkk : k' = k
    · rw [List.filter_cons_of_pos (by simpa using hkk), if_pos hkk]
      have : (d.filter fun kv => decide (kv.1 = k)) = [] := by
        rw [List.filter_eq_nil_iff]
        intro kv hkv
        simp only [decide_eq_true_eq]
        intro he
        exact hk (by rw [hkk, ← he]; exact List.mem_map_of_mem hkv)
      rw [this]; rfl
    · rw [List.filter_cons_of_neg (by simpa using hkk), if_neg hkk, ih h']

theorem get?_update {κ ν : Type} [DecidableEq κ] (d e : Dict κ ν) (h : (Dict.keys e).Nodup) (k : κ) :
    Dict.get? (Dict.update d e) k = (Dict.get? e k).or (Dict.get? d k) := by
  unfold Dict.update
  rw [get?_foldl_set, getLast?_filter_nodup e h]

theorem nodup_tableDict (t : List StdEntry) : (Dict.keys (tableDict t)).Nodup := by
  unfold tableDict
  exact nodup_foldl_set _ _ t [] (by simp [Dict.keys])

theorem get?_stdObjects (g c : Int) : Dict.get? stdObjects (g, c) = (stdClass g c).map stdObject := by
  unfold stdObjects stdClass
  rw [get?_update _ _ (nodup_tableDict _), get?_update _ _ (nodup_tableDict _), get?_tableDict, get?_tableDict]
  cases entryIn StdData.mra g c <;> cases entryIn StdData.scsl g c <;> rfl

theorem tuple2_code (g c : Int) : setClassCode (setGroupCode 0 g) c = g % 256 * 65536 + c % 256 * 256 := by
  have h1 : setClassCode (setGroupCode 0 g) c = setClassCode (setGroupCode 0 (g % 256)) (c % 256) := by
    unfold setClassCode setGroupCode
    simp only [pyAnd_255, Int.emod_emod_of_dvd, Int.dvd_refl]
  have hg : g % 256 = ((g % 256).toNat : Int) := by omega
  have hc : c % 256 = ((c % 256).toNat : Int) := by omega
  have := setCode_tuple2 0 (g % 256).toNat (c % 256).toNat (by omega) (by omega)
  simp only [setCode, Prod.mk.injEq, and_true] at this
  rw [h1, hg, hc, this]
  unfold codeOf
  omega

theorem tuple3_code (g c i : Int) : setInstanceCode (setClassCode (setGroupCode 0 g) c) i =
    g % 256 * 65536 + c % 256 * 256 + i % 256 := by
  have h1 : setInstanceCode (setClassCode (setGroupCode 0 g) c) i =
      setInstanceCode (setClassCode (setGroupCode 0 (g % 256)) (c % 256)) (i % 256) := by
    unfold setInstanceCode setClassCode setGroupCode
    simp only [pyAnd_255, Int.emod_emod_of_dvd, Int.dvd_refl]
  have hg : g % 256 = ((g % 256).toNat : Int) := by omega
  have hc : c % 256 = ((c % 256).toNat : Int) := by omega
  have hi : i % 256 = ((i % 256).toNat : Int) := by omega
  have := setCode_tuple3 0 (g % 256).toNat (c % 256).toNat (i % 256).toNat (by omega) (by omega) (by omega)
  simp only [setCode, Prod.mk.injEq, and_true] at this
  rw [h1, hg, hc, hi, this]
  unfold codeOf
  omega

theorem loaded_stdObject {g c : Int} {e : StdEntry} (h : stdClass g c = some e) : Loaded g c e (stdObject e) := by
  obtain ⟨⟨hk, hg, hc, hl⟩, hkey⟩ := stdClass_ok h
  rw [hk, Prod.mk.injEq] at hkey
  obtain ⟨rfl, rfl⟩ := hkey
  obtain ⟨i1, i2, i3, i4, i5, i6⟩ := foldl_add (e.props.map stdProperty)
    { code := setClassCode (setGroupCode 0 e.group) e.cls } ⟨by simp, by simp⟩
  refine ⟨?_, i1, ?_, ?_, ⟨i5, i6⟩⟩
  · unfold stdObject; rw [i4]; show setClassCode (setGroupCode 0 e.group) e.cls = _; rw [tuple2_code]; omega
  · intro pc
    unfold stdObject
    rw [i2, lastProp_lines]
    simp [lookup]
  · intro kp hkp
    rcases i3 kp.1 (List.mem_map_of_mem hkp) with hh | ⟨p, hp, hpc⟩
    · simp at hh
    · rw [List.mem_map] at hp
      obtain ⟨l, hl', rfl⟩ := hp
      rw [← hpc]; exact hl l hl'

/-! Construction of standard objects. -/

theorem addCopies_eq (ord : List Int → List Int) (ps : List OProp) : ∀ o, StdObj.addCopies ord o ps = addAll ord o ps := by
  induction ps with
  | nil => intro o; rfl
  | cons p ps ih =>
    intro o
    unfold StdObj.addCopies addAll
    rcases SuperObj.addProperty ord o p with ⟨o', e | b⟩
    · rfl
    · exact ih o'

theorem addAll_cons (ord : List Int → List Int) (p : OProp) (ps : List OProp) (o : Obj) :
    addAll ord o (p :: ps) = match SuperObj.addProperty ord o p with
      | (o, .error e) => (o, .error e)
      | (o, .ok _) => addAll ord o ps := rfl

theorem addAll_append (ord : List Int → List Int) (ps qs : List OProp) : ∀ o,
    addAll ord o (ps ++ qs) = match addAll ord o ps with
      | (o, .error e) => (o, .error e)
      | (o, .ok _) => addAll ord o qs := by
  induction ps with
  | nil => intro o; rfl
  | cons p ps ih =>
    intro o
    rw [List.cons_append, addAll_cons, addAll_cons]
    rcases SuperObj.addProperty ord o p with ⟨o', e | b⟩
    · rfl
    · exact ih o'

theorem lastProp_append (ps qs : List OProp) (c : Int) :
    lastProp (ps ++ qs) c = (lastProp qs c).or (lastProp ps c) := by
  unfold lastProp
  rw [List.filter_append, List.getLast?_append]

theorem lastProp_values (d : Dict Int OProp) (hn : (d.map Prod.fst).Nodup) (hc : ∀ kp ∈ d, kp.2.code = kp.1) (c : Int) :
    lastProp (Dict.values d) c = lookup d c := by
  rw [lookup_eq, ← getLast?_filter_nodup d hn]
  unfold lastProp Dict.values
  rw [List.filter_map, List.getLast?_map]
  congr 2
  apply List.filter_congr
  intro kp hkp
  simp [hc kp hkp]

/-- Outside the maps an object holds exactly what was added last. -/
theorem addAll_exact {ord : List Int → List Int} (hord : ValidOrder ord) (ps : List OProp) : ∀ (o : Obj), WellFormed o →
    (∀ c ∈ o.props.map Prod.fst, 0x80 ≤ c ∧ c < 0x100) → (∀ p ∈ ps, 0x80 ≤ p.code ∧ p.code < 0x100) →
    (addAll ord o ps).1.code = o.code ∧ (addAll ord o ps).1.observers = o.observers ∧
    (addAll ord o ps).1.ustate = o.ustate ∧
    ∀ c, c ≠ 0x9D → c ≠ 0x9E → c ≠ 0x9F → lookup (addAll ord o ps).1.props c = (lastProp ps c).or (lookup o.props c) := by
  induction ps with
  | nil => intro o _ _ _; exact ⟨rfl, rfl, rfl, fun c _ _ _ => by simp [addAll, lastProp]⟩
  | cons p ps ih =>
    intro o hw hc hp
    obtain ⟨o', he, hu, hsb, hw', hc'⟩ := addProperty_shape hord o p hw hc (hp p (List.mem_cons_self ..))
    have hadd : addAll ord o (p :: ps) = addAll ord o' ps := by
      conv => lhs; unfold addAll
      rw [he]
    obtain ⟨i1, i2, i3, i4⟩ := ih o' hw' hc' (fun q hq => hp q (List.mem_cons_of_mem _ hq))
    rw [hadd]
    have s1 := congrArg Obj.code hsb.1
    have s2 := congrArg Obj.observers hsb.1
    have s3 := congrArg Obj.ustate hsb.1
    refine ⟨i1.trans s1, i2.trans s2, i3.trans s3, ?_⟩
    intro c h1 h2 h3
    rw [i4 c h1 h2 h3, lastProp_cons, hsb.2 c h1 h2 h3, lookup_addPropertyBase]
    cases hl : lastProp ps c with
    | some q => rfl
    | none =>
      by_cases hcc : c = p.code
      · subst hcc; simp
      · simp [hcc, Ne.symm hcc]

/-- The properties copied from the database for a class. -/
def classProps (g c : Int) : List OProp :=
  match stdClass g c with
  | none => []
  | some e => Dict.values (stdObject e).props

theorem setObjectProperties_eq (ord : List Int → List Int) (o : Obj) (g c : Int) :
    StdObj.setObjectProperties ord o (Dict.get? stdObjects (g, c)) = addAll ord o (classProps g c) := by
  rw [get?_stdObjects]
  unfold classProps StdObj.setObjectProperties
  cases stdClass g c with
  | none => rfl
  | some e => exact addCopies_eq ord _ o

theorem classProps_range (g c : Int) : ∀ p ∈ classProps g c, 0x80 ≤ p.code ∧ p.code < 0x100 := by
  unfold classProps
  intro p hp
  cases h : stdClass g c with
  | none => rw [h] at hp; simp at hp
  | some e =>
    rw [h] at hp
    have hl := loaded_stdObject h
    simp only [Dict.values, List.mem_map] at hp
    obtain ⟨kp, hkp, rfl⟩ := hp
    have := hl.wf.2 kp hkp
    rw [this]; exact hl.codes kp hkp

theorem lastProp_classProps (g c pc : Int) :
    lastProp (classProps g c) pc = ((stdClass g c).bind (lineFor · pc)).map propOf := by
  unfold classProps
  cases h : stdClass g c with
  | none => rfl
  | some e =>
    have hl := loaded_stdObject h
    simp only []
    rw [lastProp_values _ hl.wf.1 hl.wf.2, hl.props]
    rfl

theorem lastProp_device (g c pc : Int) :
    lastProp (classProps 0 0 ++ classProps g c) pc = deviceProp g c pc := by
  rw [lastProp_append, lastProp_classProps, lastProp_classProps]
  unfold deviceProp
  cases ((stdClass g c).bind (lineFor · pc)) <;> rfl

/-- The super class has the three maps. -/
theorem super_maps : (deviceProp 0 0 0x9D).isSome = true ∧ (deviceProp 0 0 0x9E).isSome = true ∧
    (deviceProp 0 0 0x9F).isSome = true := by decide +kernel

theorem device_maps (g c : Int) : (deviceProp g c 0x9D).isSome = true ∧ (deviceProp g c 0x9E).isSome = true ∧
    (deviceProp g c 0x9F).isSome = true := by
  have aux : ∀ pc, (deviceProp 0 0 pc).isSome = true → (deviceProp g c pc).isSome = true := by
    intro pc h
    unfold deviceProp at h ⊢
    cases hg : ((stdClass g c).bind (lineFor · pc)) with
    | some l => rfl
    | none =>
      cases h0 : ((stdClass 0 0).bind (lineFor · pc)) with
      | none => rw [h0] at h; simp at h
      | some l => rfl
  exact ⟨aux _ super_maps.1, aux _ super_maps.2.1, aux _ super_maps.2.2⟩

attribute [irreducible] classProps

end Uecho
