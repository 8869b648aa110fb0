import Verif.Lemmas.PropertyMap

namespace Uecho
open Spec

/-- The list `_update_property_map_properties` collects for a map. -/
def listOf (k : MapKind) (o : Obj) : List Int :=
  (o.props.filter fun kp => decide (k.lists kp.2)).map fun kp => kp.2.code

theorem values_filter_map (d : Dict Int OProp) (f : OProp → Bool) :
    (d.values.filter f).map OProp.code = (d.filter fun kp => f kp.2).map fun kp => kp.2.code := by
  induction d with
  | nil => rfl
  | cons kp d ih =>
    obtain ⟨k, p⟩ := kp
    have hv : Dict.values ((k, p) :: d) = p :: Dict.values d := rfl
    rw [hv, List.filter_cons, List.filter_cons]
    by_cases h : f p = true
    · simp [h, ih]
    · simp [h, ih]

theorem isAnnounceRequired_eq (p : OProp) : p.isAnnounceRequired = decide (MustAnnounce p) := by
  unfold OProp.isAnnounceRequired OProp.isAttributeRequired OProp.REQUIRED MustAnnounce
  by_cases h : p.attrAnno = 1 <;> simp [h]

theorem annoList_eq (o : Obj) : SuperObj.annoList o = listOf .anno o := by
  unfold SuperObj.annoList listOf
  rw [values_filter_map]
  congr 1

theorem getList_eq (o : Obj) : SuperObj.getList o = listOf .get o := by
  unfold SuperObj.getList listOf
  rw [values_filter_map]
  congr 1
  apply List.filter_congr
  intro kp _
  rw [isReadEnabled_eq]
  rfl

theorem setList_eq (o : Obj) : SuperObj.setList o = listOf .set o := by
  unfold SuperObj.setList listOf
  rw [values_filter_map]
  congr 1
  apply List.filter_congr
  intro kp _
  rw [isWriteEnabled_eq]
  rfl

theorem listOf_keys (k : MapKind) (o : Obj) (hw : WellFormed o) :
    listOf k o = (o.props.filter fun kp => decide (k.lists kp.2)).map Prod.fst := by
  unfold listOf
  apply List.map_congr_left
  intro kp hkp
  exact hw.2 kp (List.mem_of_mem_filter hkp)

theorem nodup_listOf (k : MapKind) (o : Obj) (hw : WellFormed o) : (listOf k o).Nodup := by
  rw [listOf_keys k o hw]
  exact hw.1.sublist (List.Sublist.map _ List.filter_sublist)

theorem mem_props_iff (o : Obj) (hw : WellFormed o) (c : Int) (p : OProp) :
    (c, p) ∈ o.props ↔ lookup o.props c = some p := by
  rw [lookup_eq]
  exact ⟨Dict.get?_of_mem o.props c p hw.1, Dict.mem_of_get? o.props c p⟩

theorem mem_listOf (k : MapKind) (o : Obj) (hw : WellFormed o) (c : Int) :
    c ∈ listOf k o ↔ Having o k.lists c := by
  rw [listOf_keys k o hw]
  unfold Having
  simp only [List.mem_map, List.mem_filter, decide_eq_true_eq]
  constructor
  · rintro ⟨⟨c', p⟩, ⟨hm, hl⟩, rfl⟩; exact ⟨p, (mem_props_iff o hw c' p).mp hm, hl⟩
  · rintro ⟨p, hp, hl⟩; exact ⟨(c, p), ⟨(mem_props_iff o hw c p).mpr hp, hl⟩, rfl⟩

theorem listOf_length (k : MapKind) (o : Obj) : (listOf k o).length = countOf o k.lists := by
  unfold listOf countOf; rw [List.length_map]

theorem ord_perm {ord : List Int → List Int} (hord : ValidOrder ord) {l : List Int} (h : l.Nodup) :
    (ord l).Perm l :=
  (List.perm_ext_iff_of_nodup (hord l).1 h).mpr (hord l).2

theorem listOf_range (k : MapKind) (o : Obj) (hw : WellFormed o) (hb : ByteCodes o) :
    ∀ c ∈ listOf k o, 0 ≤ c ∧ c < 256 := by
  intro c hc
  obtain ⟨p, hp, -⟩ := (mem_listOf k o hw c).mp hc
  exact hb.1 _ ((mem_props_iff o hw c p).mpr hp)

theorem listOf_short (k : MapKind) (o : Obj) (hb : ByteCodes o) : (listOf k o).length < 256 := by
  rw [listOf_length]
  exact lt_of_le_of_lt (List.length_filter_le _ _) hb.2

/-- The map data computed for a kind. -/
def kindData (ord : List Int → List Int) (o : Obj) (k : MapKind) : Bytes := mapData (ord (listOf k o))

theorem setPropertyMap_kind {ord : List Int → List Int} (hord : ValidOrder ord) (o o' : Obj) (k : MapKind)
    (hw : WellFormed o) (hb : ByteCodes o) (hs : skeleton o' = skeleton o) :
    SuperObj.setPropertyMap o' k.code (ord (listOf k o)) =
      if (lookup o.props k.code).isSome = true then (afterWrites o' [{ code := k.code, data := kindData ord o k }], .ok true)
      else (o', .ok false) := by
  have hp := ord_perm hord (nodup_listOf k o hw)
  have hw' := wf_of_skeleton hs hw
  by_cases h : (lookup o.props k.code).isSome = true
  · rw [if_pos h, setPropertyMap_ok o' k.code _ (by rw [isSome_of_skeleton hs]; exact h)
      (by rw [hp.length_eq]; exact listOf_short k o hb)
      (fun c hc => listOf_range k o hw hb c (hp.mem_iff.mp hc)), storeData_eq _ _ _ hw'.1]
    rfl
  · rw [if_neg h]
    unfold SuperObj.setPropertyMap
    have : o'.hasProperty k.code = false := by
      unfold Obj.hasProperty
      rw [getProperty_eq]
      have : (lookup o'.props k.code).isSome = false := by rw [isSome_of_skeleton hs]; simpa using h
      cases hl : lookup o'.props k.code with
      | none => rfl
      | some p => rw [hl] at this; simp at this
    rw [if_pos this]

/-- `_update_property_map_properties` on any object with byte codes: never raises; writes the maps in
the order announce, get, set, up to the first missing one. -/
theorem updateMaps_eq {ord : List Int → List Int} (hord : ValidOrder ord) (o : Obj) (hw : WellFormed o)
    (hb : ByteCodes o) :
    SuperObj.updateMaps ord o =
      if (lookup o.props 0x9D).isSome = false then (o, .ok false)
      else if (lookup o.props 0x9F).isSome = false then
        (afterWrites o [{ code := 0x9D, data := kindData ord o .anno }], .ok false)
      else if (lookup o.props 0x9E).isSome = false then
        (afterWrites o [{ code := 0x9D, data := kindData ord o .anno }, { code := 0x9F, data := kindData ord o .get }], .ok false)
      else
        (afterWrites o [{ code := 0x9D, data := kindData ord o .anno }, { code := 0x9F, data := kindData ord o .get },
          { code := 0x9E, data := kindData ord o .set }], .ok true) := by
  unfold SuperObj.updateMaps
  simp only [annoList_eq, getList_eq, setList_eq]
  have h1 := setPropertyMap_kind hord o o .anno hw hb rfl
  have e1 : SuperObj.ANNO_PROPERTY_MAP = MapKind.anno.code := rfl
  have e2 : SuperObj.GET_PROPERTY_MAP = MapKind.get.code := rfl
  have e3 : SuperObj.SET_PROPERTY_MAP = MapKind.set.code := rfl
  rw [e1, e2, e3, h1]
  have c1 : MapKind.anno.code = 0x9D := rfl
  have c2 : MapKind.get.code = 0x9F := rfl
  have c3 : MapKind.set.code = 0x9E := rfl
  simp only [c1]
  by_cases p1 : (lookup o.props 0x9D).isSome = true
  · rw [if_pos p1, if_neg (by simp [p1])]
    simp only []
    have hs1 := skeleton_afterWrites o [{ code := 0x9D, data := kindData ord o .anno }]
    rw [setPropertyMap_kind hord o _ .get hw hb hs1]
    simp only [c2]
    by_cases p2 : (lookup o.props 0x9F).isSome = true
    · rw [if_pos p2, if_neg (by simp [p2])]
      simp only []
      rw [afterWrites_append]
      have hs2 := skeleton_afterWrites o ([{ code := 0x9D, data := kindData ord o .anno }] ++
        [{ code := 0x9F, data := kindData ord o .get }])
      rw [setPropertyMap_kind hord o _ .set hw hb hs2]
      simp only [c3]
      by_cases p3 : (lookup o.props 0x9E).isSome = true
      · rw [if_pos p3, if_neg (by simp [p3]), afterWrites_append]
        rfl
      · rw [if_neg p3, if_pos (by simpa using p3)]
        rfl
    · rw [if_neg p2, if_pos (by simpa using p2)]
  · rw [if_neg p1, if_pos (by simpa using p1)]

theorem updateMaps_all {ord : List Int → List Int} (hord : ValidOrder ord) (o : Obj) (hw : WellFormed o)
    (hb : ByteCodes o) (hm : HasMaps o) :
    SuperObj.updateMaps ord o =
      (afterWrites o [{ code := 0x9D, data := kindData ord o .anno }, { code := 0x9F, data := kindData ord o .get },
          { code := 0x9E, data := kindData ord o .set }], .ok true) := by
  rw [updateMaps_eq hord o hw hb, if_neg (by simp [hm.1]), if_neg (by simp [hm.2.2]), if_neg (by simp [hm.2.1])]

/-- Only data of map properties change. -/
theorem updateMaps_shape {ord : List Int → List Int} (hord : ValidOrder ord) (o : Obj) (hw : WellFormed o)
    (hb : ByteCodes o) :
    ∃ items b, SuperObj.updateMaps ord o = (afterWrites o items, .ok b) ∧
      ∀ i ∈ items, i.code = 0x9D ∨ i.code = 0x9E ∨ i.code = 0x9F := by
  rw [updateMaps_eq hord o hw hb]
  split
  · exact ⟨[], false, by rw [afterWrites_nil], by simp⟩
  split
  · exact ⟨_, _, rfl, by simp⟩
  split
  · exact ⟨_, _, rfl, by simp⟩
  · exact ⟨_, _, rfl, by simp⟩

theorem lookup_updateMaps_kind {ord : List Int → List Int} (hord : ValidOrder ord) (o : Obj) (hw : WellFormed o)
    (hb : ByteCodes o) (hm : HasMaps o) (k : MapKind) :
    ∃ p, lookup (SuperObj.updateMaps ord o).1.props k.code = some p ∧ p.data = kindData ord o k := by
  rw [updateMaps_all hord o hw hb hm]
  simp only []
  rw [lookup_afterWrites]
  have hp : (lookup o.props k.code).isSome = true := by
    cases k
    · exact hm.1
    · exact hm.2.1
    · exact hm.2.2
  obtain ⟨p, hp⟩ := Option.isSome_iff_exists.mp hp
  rw [hp]
  refine ⟨_, rfl, ?_⟩
  cases k <;> rfl

theorem wf_addPropertyBase (o : Obj) (p : OProp) (hw : WellFormed o) : WellFormed (o.addPropertyBase p) := by
  unfold Obj.addPropertyBase
  refine ⟨Dict.nodup_keys_set o.props p.code p hw.1, ?_⟩
  intro kp hkp
  have hn := Dict.nodup_keys_set o.props p.code p hw.1
  have h1 : Dict.get? (Dict.set o.props p.code p) kp.1 = some kp.2 := Dict.get?_of_mem _ _ _ hn hkp
  rw [Dict.get?_set] at h1
  split at h1
  · rename_i h; injection h1 with h1; rw [← h1]; exact h
  · exact hw.2 kp (Dict.mem_of_get? _ _ _ h1)

theorem lookup_addPropertyBase (o : Obj) (p : OProp) (c : Int) :
    lookup (o.addPropertyBase p).props c = if c = p.code then some p else lookup o.props c := by
  rw [lookup_eq, lookup_eq]
  unfold Obj.addPropertyBase
  simp only [Dict.get?_set]
  by_cases h : c = p.code
  · subst h; simp
  · simp [h, Ne.symm h]

theorem keys_addPropertyBase (o : Obj) (p : OProp) :
    (o.addPropertyBase p).props.map Prod.fst =
      if p.code ∈ o.props.map Prod.fst then o.props.map Prod.fst else o.props.map Prod.fst ++ [p.code] := by
  have := Dict.keys_set o.props p.code p
  exact this

end Uecho
