/- Properties C26–C30 (property maps). -/
import Verif.Lemmas.SuperObject
import Verif.Props.Request

namespace Uecho
open Spec

/-- C26. `property_map_codes` returns on all data; a list it returns has as many entries as the first
byte says. -/
theorem C26_total (data : Bytes) :
    ∃ r, OProp.propertyMapCodes data = .ok r ∧
      ∀ l, r = .codes l → ∃ n rest, data = n :: rest ∧ l.length = n.toNat := by
  refine ⟨_, propertyMapCodes_eq data, ?_⟩
  intro l h
  cases data with
  | nil => cases h
  | cons c rest =>
    refine ⟨c, rest, rfl, ?_⟩
    simp only [] at h
    split at h
    · split at h
      · rename_i h1 h2; injection h with h; subst h; simp [h2]
      · cases h
    · split at h
      · injection h with h; subst h; simp [fill]; omega
      · cases h

example : OProp.propertyMapCodes [2, 0x80, 0xFF] = .ok (.codes [0x80, 0xFF]) := by decide
example : OProp.propertyMapCodes [2, 0x80] = .ok .false := by decide

/-! ### C29: maps sent by others -/

/-- C29, as stated: false. -/
theorem C29_peer_maps_false :
    ¬ ∀ data codes, IsMapOf data codes → Lists data (fun c => c ∈ codes) := by
  intro h
  -- 0x80–0x8F and 0xC0
  obtain ⟨l, h1, h2, h3⟩ := h
    (17 :: 0x11 :: List.replicate 15 1)
    [0x80, 0x81, 0x82, 0x83, 0x84, 0x85, 0x86, 0x87, 0x88, 0x89, 0x8A, 0x8B, 0x8C, 0x8D, 0x8E, 0x8F, 0xC0]
    ⟨by decide, by decide, by
      rw [if_neg (by decide)]
      exact ⟨0x11 :: List.replicate 15 1, by decide, by decide, by decide +kernel⟩⟩
  have e : OProp.propertyMapCodes (17 :: 0x11 :: List.replicate 15 1) = .ok (.codes
    [0x80, 0x81, 0x82, 0x83, 0x84, 0x85, 0x86, 0x87, 0x88, 0x89, 0x8A, 0x8B, 0x8C, 0x8D, 0x8E, 0x8F, 0]) := by
    decide +kernel
  rw [e] at h1
  injection h1 with h1
  injection h1 with h1
  subst h1
  have := (h3 0xC0).mpr (by decide)
  revert this; decide

theorem lists_iff_of_decode {data : Bytes} {l : List Int} (h : OProp.propertyMapCodes data = .ok (.codes l))
    (P : Int → Prop) : Lists data P ↔ l.Nodup ∧ ∀ c, c ∈ l ↔ P c := by
  constructor
  · rintro ⟨l', h1, h2, h3⟩
    rw [h] at h1
    injection h1 with h1
    injection h1 with h1
    subst h1
    exact ⟨h2, h3⟩
  · rintro ⟨h2, h3⟩; exact ⟨l, h, h2, h3⟩

/-- C29, what holds: a conforming map is read correctly exactly when it is short (under 16 codes) or
all its codes are below 0xC0. In every case the result has the right length, all its codes below 0xC0
are there, and each code of 0xC0 or more is replaced by a 0 at the end. Missing: maps of 16 or more
codes with a code ≥ 0xC0. -/
theorem C29_peer_maps_partial (data : Bytes) (codes : List Int) (h : IsMapOf data codes) :
    (Lists data (fun c => c ∈ codes) ↔ codes.length < 16 ∨ ∀ c ∈ codes, c < 0xC0) ∧
    (16 ≤ codes.length → ∃ low, OProp.propertyMapCodes data = .ok (.codes (low ++ List.replicate (codes.length - low.length) 0)) ∧
      low.Nodup ∧ ∀ c, c ∈ low ↔ c ∈ codes ∧ c < 0xC0) := by
  obtain ⟨hn, hr, hd⟩ := h
  by_cases hlt : codes.length < 16
  · rw [if_pos hlt] at hd
    subst hd
    have hm : UInt8.ofNat codes.length :: codes.map (fun c => UInt8.ofNat c.toNat) = mapData codes := by
      unfold mapData; rw [if_pos (by omega)]
    rw [hm]
    have hdec := lists_mapData_short codes hn (fun c hc => by have := hr c hc; omega) (by omega)
    refine ⟨?_, fun h => by omega⟩
    rw [lists_iff_of_decode hdec]
    exact ⟨fun _ => Or.inl hlt, fun _ => ⟨hn, fun c => Iff.rfl⟩⟩
  · rw [if_neg hlt] at hd
    obtain ⟨rows, hrl, rfl, hbits⟩ := hd
    have hlen : codes.length ≤ 128 := by
      have hsub : codes ⊆ (List.range 128).map (fun n : Nat => (0x80 : Int) + n) := by
        intro c hc
        have := hr c hc
        rw [List.mem_map]
        exact ⟨(c - 0x80).toNat, by rw [List.mem_range]; omega, by omega⟩
      have := (List.subperm_of_subset hn hsub).length_le
      simpa using this
    have hcnt : (UInt8.ofNat codes.length).toNat = codes.length := by
      have := toNat_ofNat_lt (v := (codes.length : Int)) (by omega)
      rw [Int.toNat_natCast] at this
      omega
    have hmem : ∀ c, c ∈ gridCodes rows (List.range 16) ↔ c ∈ codes ∧ c < 0xC0 := by
      intro c
      rw [mem_gridCodes]
      constructor
      · rintro ⟨i, hi, j, hj, hb, rfl⟩
        exact ⟨(hbits i hi j (by omega)).mp hb, by omega⟩
      · rintro ⟨hc, hlt⟩
        have := hr c hc
        refine ⟨((c - 0x80) % 16).toNat, by omega, ((c - 0x80) / 16).toNat, by omega, ?_, by omega⟩
        rw [hbits _ (by omega) _ (by omega)]
        have : 128 + 16 * (((c - 0x80) / 16).toNat : Int) + (((c - 0x80) % 16).toNat : Int) = c := by omega
        rw [this]; exact hc
    have hgn := nodup_gridCodes rows
    have hgl : (gridCodes rows (List.range 16)).length ≤ codes.length :=
      (List.subperm_of_subset hgn (fun c hc => ((hmem c).mp hc).1)).length_le
    have hdec : OProp.propertyMapCodes (UInt8.ofNat codes.length :: rows) = .ok (.codes
        (gridCodes rows (List.range 16) ++ List.replicate (codes.length - (gridCodes rows (List.range 16)).length) 0)) := by
      rw [propertyMapCodes_eq]
      simp only [hcnt, hrl, if_true]
      rw [if_neg (by omega)]
      simp only [fill]
      rw [List.take_of_length_le hgl]
    constructor
    · rw [lists_iff_of_decode hdec]
      constructor
      · rintro ⟨-, h3⟩
        right
        intro c hc
        have := (h3 c).mpr hc
        rw [List.mem_append] at this
        rcases this with h | h
        · exact ((hmem c).mp h).2
        · rw [List.mem_replicate] at h
          have := hr c hc
          omega
      · intro hor
        have hall : ∀ c ∈ codes, c < 0xC0 := by
          rcases hor with h | h
          · omega
          · exact h
        have hsame : (gridCodes rows (List.range 16)).Perm codes := by
          rw [List.perm_ext_iff_of_nodup hgn hn]
          intro c
          rw [hmem]
          exact ⟨fun h => h.1, fun h => ⟨h, hall c h⟩⟩
        rw [hsame.length_eq, Nat.sub_self, List.replicate_zero, List.append_nil]
        exact ⟨hgn, fun c => hsame.mem_iff⟩
    · intro _
      exact ⟨_, hdec, hgn, hmem⟩

/-- a correct long map: 0x80–0x8F, 0x90, read correctly -/
example : IsMapOf (17 :: 3 :: List.replicate 15 1)
    [0x80, 0x81, 0x82, 0x83, 0x84, 0x85, 0x86, 0x87, 0x88, 0x89, 0x8A, 0x8B, 0x8C, 0x8D, 0x8E, 0x8F, 0x90] :=
  ⟨by decide, by decide, by
    rw [if_neg (by decide)]
    exact ⟨3 :: List.replicate 15 1, by decide, by decide, by decide +kernel⟩⟩

/-! ### C27, C28: own maps -/

/-- C27. After the maps of an object are recomputed (whatever the iteration order of sets), each map
with at most 15 entries decodes to exactly the codes of the properties it is about. Nothing but the
data of the three map properties changes. -/
theorem C27_short_maps (ord : List Int → List Int) (hord : ValidOrder ord) (o : Obj) (hw : WellFormed o)
    (hb : ByteCodes o) (hm : HasMaps o) :
    let r := SuperObj.updateMaps ord o
    r.2 = .ok true ∧ skeleton r.1 = skeleton o ∧
    (∀ c, c ≠ 0x9D → c ≠ 0x9E → c ≠ 0x9F → lookup r.1.props c = lookup o.props c) ∧
    ∀ k : MapKind, countOf o k.lists ≤ 15 →
      ∃ p, lookup r.1.props k.code = some p ∧ Lists p.data (Having o k.lists) := by
  intro r
  have hr : r = _ := updateMaps_all hord o hw hb hm
  refine ⟨by rw [hr], by rw [hr]; exact skeleton_afterWrites _ _, ?_, ?_⟩
  · intro c h1 h2 h3
    rw [hr]
    simp only []
    rw [lookup_afterWrites]
    have : lastFor [{ code := 0x9D, data := kindData ord o .anno }, { code := 0x9F, data := kindData ord o .get },
          { code := 0x9E, data := kindData ord o .set }] c = none := by
      unfold lastFor
      simp [Ne.symm h1, Ne.symm h2, Ne.symm h3]
    rw [this]
    cases lookup o.props c <;> rfl
  · intro k hk
    obtain ⟨p, hp, hd⟩ := lookup_updateMaps_kind hord o hw hb hm k
    refine ⟨p, hp, ?_⟩
    rw [hd]
    have hperm := ord_perm hord (nodup_listOf k o hw)
    have hlen : (ord (listOf k o)).length ≤ 15 := by rw [hperm.length_eq, listOf_length]; exact hk
    unfold kindData
    rw [lists_iff_of_decode (lists_mapData_short _ (hord _).1
      (fun c hc => listOf_range k o hw hb c (hperm.mem_iff.mp hc)) hlen)]
    exact ⟨(hord _).1, fun c => by rw [hperm.mem_iff, mem_listOf k o hw]⟩

/-- an object with its three map properties and set/get differences -/
def exMaps : Obj :=
  { code := 0x029101
    handler := .self_
    props := [(0x80, { code := 0x80, data := [0x30], attrGet := 1, attrSet := 1, attrAnno := 1 }),
              (0xB0, { code := 0xB0, attrSet := 2, attrAnno := 2 }),
              (0x9D, { code := 0x9D, attrGet := 1 }), (0x9E, { code := 0x9E, attrGet := 1 }),
              (0x9F, { code := 0x9F, attrGet := 1 })] }
/-- the elements at their last occurrence: a valid order -/
example : ValidOrder List.dedup := fun l => ⟨l.nodup_dedup, fun _ => List.mem_dedup⟩
example : WellFormed exMaps ∧ ByteCodes exMaps ∧ HasMaps exMaps ∧ countOf exMaps MapKind.get.lists = 4 := by decide
example : ((SuperObj.updateMaps List.dedup exMaps).1.props.map fun kp => kp.2.data) =
    [[0x30], [], [1, 0x80], [2, 0x80, 0xB0], [4, 0x80, 0x9D, 0x9E, 0x9F]] := by decide

/-- 17 readable properties 0x80–0x8D and the maps -/
def exLong : Obj :=
  { code := 0x029101
    handler := .self_
    props := ([0x80, 0x81, 0x82, 0x83, 0x84, 0x85, 0x86, 0x87, 0x88, 0x89, 0x8A, 0x8B, 0x8C, 0x8D, 0x9D, 0x9E, 0x9F]).map
      fun c => (c, { code := c, attrGet := 1 }) }

/-- C28, as stated: false. -/
theorem C28_long_maps_false :
    ¬ ∀ (ord : List Int → List Int) (o : Obj), ValidOrder ord → WellFormed o → ByteCodes o → HasMaps o →
      (∀ kp ∈ o.props, 0x80 ≤ kp.1) → ∀ k : MapKind, 16 ≤ countOf o k.lists →
      ∃ p, lookup (SuperObj.updateMaps ord o).1.props k.code = some p ∧ Lists p.data (Having o k.lists) := by
  intro h
  obtain ⟨p, hp, l, h1, h2, h3⟩ := h List.dedup exLong (fun l => ⟨l.nodup_dedup, fun _ => List.mem_dedup⟩)
    (by decide) (by decide) (by decide) (by decide) .get (by decide)
  have e : lookup (SuperObj.updateMaps List.dedup exLong).1.props MapKind.get.code =
    some { code := 0x9F, attrGet := 1, data := [16, 1, 1, 1, 1, 1, 1, 1, 1, 1, 1, 1, 1, 1, 3, 2, 2] } := by decide +kernel
  rw [e] at hp
  injection hp with hp
  subst hp
  have e2 : OProp.propertyMapCodes [16, 1, 1, 1, 1, 1, 1, 1, 1, 1, 1, 1, 1, 1, 3, 2, 2] = .ok (.codes
    [0x80, 0x81, 0x82, 0x83, 0x84, 0x85, 0x86, 0x87, 0x88, 0x89, 0x8A, 0x8B, 0x8C, 0x8D, 0x9D, 0x9E]) := by decide +kernel
  rw [e2] at h1
  injection h1 with h1
  injection h1 with h1
  subst h1
  have := (h3 0x9F).mpr ⟨{ code := 0x9F, attrGet := 1 }, by decide, by decide⟩
  revert this; decide

/-- C28, what holds: a map with 16 or more entries (codes 0x80–0xFF) decodes correctly exactly when
it has 16 and all are below 0xC0; it always decodes to 16 entries, each listed or 0, and every one
of them below 0xC0. Missing: all other long maps. -/
theorem C28_long_maps_partial (ord : List Int → List Int) (hord : ValidOrder ord) (o : Obj) (hw : WellFormed o)
    (hb : ByteCodes o) (hm : HasMaps o) (hc : ∀ kp ∈ o.props, 0x80 ≤ kp.1) (k : MapKind) (hk : 16 ≤ countOf o k.lists) :
    ∃ p, lookup (SuperObj.updateMaps ord o).1.props k.code = some p ∧
      (Lists p.data (Having o k.lists) ↔ countOf o k.lists = 16 ∧ ∀ c, Having o k.lists c → c < 0xC0) ∧
      ∃ l, OProp.propertyMapCodes p.data = .ok (.codes l) ∧ l.length = 16 ∧
        ∀ c ∈ l, c = 0 ∨ (Having o k.lists c ∧ c < 0xC0) := by
  obtain ⟨p, hp, hd⟩ := lookup_updateMaps_kind hord o hw hb hm k
  refine ⟨p, hp, ?_⟩
  rw [hd]
  have hperm := ord_perm hord (nodup_listOf k o hw)
  have hlen : (ord (listOf k o)).length = countOf o k.lists := by rw [hperm.length_eq, listOf_length]
  have hmem : ∀ c, c ∈ ord (listOf k o) ↔ Having o k.lists c := fun c => by rw [hperm.mem_iff, mem_listOf k o hw]
  have hrange : ∀ c ∈ ord (listOf k o), 0x80 ≤ c ∧ c < 0x100 := by
    intro c hc'
    have h1 := listOf_range k o hw hb c (hperm.mem_iff.mp hc')
    obtain ⟨q, hq, -⟩ := (hmem c).mp hc'
    have h2 := hc _ ((mem_props_iff o hw c q).mpr hq)
    simp only [] at h2
    omega
  unfold kindData
  have hdec := decode_mapData_long (ord (listOf k o)) (by omega)
  have hg := mem_grid_encRows (ord (listOf k o)) hrange
  have hgn := nodup_gridCodes (encRows (ord (listOf k o)))
  set G := gridCodes (encRows (ord (listOf k o))) (List.range 16) with hG
  constructor
  · rw [lists_iff_of_decode hdec]
    constructor
    · rintro ⟨hn, hall⟩
      have hlen2 : (fill 16 G).2.length = 16 := by simp [fill]; omega
      have hperm2 : (fill 16 G).2.Perm (ord (listOf k o)) := by
        rw [List.perm_ext_iff_of_nodup hn (hord _).1]
        intro c; rw [hall, hmem]
      refine ⟨by rw [← hlen, ← hperm2.length_eq, hlen2], ?_⟩
      intro c hcP
      have h1 := (hall c).mpr hcP
      simp only [fill, List.mem_append] at h1
      rcases h1 with h | h
      · exact ((hg c).mp (List.mem_of_mem_take h)).2
      · rw [List.mem_replicate] at h
        have := hrange c ((hmem c).mpr hcP)
        omega
    · rintro ⟨h16, hlow⟩
      have hsame : G.Perm (ord (listOf k o)) := by
        rw [List.perm_ext_iff_of_nodup hgn (hord _).1]
        intro c
        rw [hg]
        exact ⟨fun h => h.1, fun h => ⟨h, hlow c ((hmem c).mp h)⟩⟩
      have hGl : G.length = 16 := by rw [hsame.length_eq, hlen, h16]
      have : (fill 16 G).2 = G := by
        simp only [fill]
        rw [List.take_of_length_le (by omega), hGl]; simp
      rw [this]
      exact ⟨hgn, fun c => by rw [hsame.mem_iff, hmem]⟩
  · refine ⟨_, hdec, by simp [fill]; omega, ?_⟩
    intro c hcl
    simp only [fill, List.mem_append] at hcl
    rcases hcl with h | h
    · right
      have := (hg c).mp (List.mem_of_mem_take h)
      exact ⟨(hmem c).mp this.1, this.2⟩
    · left; rw [List.mem_replicate] at h; exact h.2

/-- exactly 16 readable properties: the announced set is still right -/
def exSixteen : Obj := { exLong with props := exLong.props.drop 1 }
example : WellFormed exSixteen ∧ ByteCodes exSixteen ∧ HasMaps exSixteen ∧ countOf exSixteen MapKind.get.lists = 16 := by
  decide

/-! ### C30: maps follow `add_property` -/

/-- Adding properties one after the other, stopping at an exception. -/
def addAll (ord : List Int → List Int) (o : Obj) : List OProp → Obj × Except Exc Unit
  | [] => (o, .ok ())
  | p :: ps =>
    match SuperObj.addProperty ord o p with
    | (o, .error e) => (o, .error e)
    | (o, .ok _) => addAll ord o ps

/-- The last property of the list with a given code. -/
def lastProp (ps : List OProp) (c : Int) : Option OProp := (ps.filter fun p => decide (p.code = c)).getLast?

/-- the properties of two objects agree but for data of map properties -/
def SameButMaps (o o' : Obj) : Prop := skeleton o' = skeleton o ∧
  ∀ c, c ≠ 0x9D → c ≠ 0x9E → c ≠ 0x9F → lookup o'.props c = lookup o.props c

theorem byteCodes_of_keys {o : Obj} (hn : (o.props.map Prod.fst).Nodup)
    (h : ∀ c ∈ o.props.map Prod.fst, 0x80 ≤ c ∧ c < 0x100) : ByteCodes o := by
  have hsub : o.props.map Prod.fst ⊆ (List.range 128).map (fun n : Nat => (0x80 : Int) + n) := by
    intro c hc
    have := h c hc
    rw [List.mem_map]
    exact ⟨(c - 0x80).toNat, by rw [List.mem_range]; omega, by omega⟩
  have := (List.subperm_of_subset hn hsub).length_le
  simp only [List.length_map, List.length_range] at this
  refine ⟨?_, by omega⟩
  intro kp hkp
  have := h kp.1 (List.mem_map_of_mem hkp)
  omega

theorem keys_of_skeleton {o o' : Obj} (h : skeleton o' = skeleton o) :
    o'.props.map Prod.fst = o.props.map Prod.fst := by
  have h1 := congrArg (fun x : Obj => x.props.map Prod.fst) h
  simp only [skeleton, List.map_map] at h1
  exact h1

theorem having_of_skeleton {o o' : Obj} (h : skeleton o' = skeleton o) (k : MapKind) (c : Int) :
    Having o' k.lists c ↔ Having o k.lists c := by
  have aux : ∀ {o o' : Obj}, skeleton o' = skeleton o → Having o' k.lists c → Having o k.lists c := by
    rintro o o' h ⟨p, hp, hl⟩
    obtain ⟨q, hq, -, h1, h2, h3⟩ := lookup_some_of_skeleton h hp
    refine ⟨q, hq, ?_⟩
    cases k <;> simp only [MapKind.lists, MustAnnounce, CanWrite, CanRead] at hl ⊢ <;> simp [h1, h2, h3, hl]
  exact ⟨aux h, aux h.symm⟩

theorem countOf_of_skeleton {o o' : Obj} (h : skeleton o' = skeleton o) (hw : WellFormed o) (k : MapKind) :
    countOf o' k.lists = countOf o k.lists := by
  rw [← listOf_length, ← listOf_length]
  apply List.Perm.length_eq
  rw [List.perm_ext_iff_of_nodup (nodup_listOf k o' (wf_of_skeleton h hw)) (nodup_listOf k o hw)]
  intro c
  rw [mem_listOf k o' (wf_of_skeleton h hw), mem_listOf k o hw, having_of_skeleton h]

/-- One `add_property` on an object whose codes, with the new one, are in 0x80–0xFF. -/
theorem addProperty_shape {ord : List Int → List Int} (hord : ValidOrder ord) (o : Obj) (p : OProp) (hw : WellFormed o)
    (hc : ∀ c ∈ o.props.map Prod.fst, 0x80 ≤ c ∧ c < 0x100) (hp : 0x80 ≤ p.code ∧ p.code < 0x100) :
    ∃ o', SuperObj.addProperty ord o p = (o', .ok true) ∧ (SuperObj.updateMaps ord (o.addPropertyBase p)).1 = o' ∧
      SameButMaps (o.addPropertyBase p) o' ∧ WellFormed o' ∧ (∀ c ∈ o'.props.map Prod.fst, 0x80 ≤ c ∧ c < 0x100) := by
  have hw1 := wf_addPropertyBase o p hw
  have hk : ∀ c ∈ (o.addPropertyBase p).props.map Prod.fst, 0x80 ≤ c ∧ c < 0x100 := by
    intro c hcc
    rw [keys_addPropertyBase] at hcc
    split at hcc
    · exact hc c hcc
    · rw [List.mem_append, List.mem_singleton] at hcc
      rcases hcc with h | h
      · exact hc c h
      · rw [h]; exact hp
  obtain ⟨items, b, he, hi⟩ := updateMaps_shape hord _ hw1 (byteCodes_of_keys hw1.1 hk)
  refine ⟨afterWrites (o.addPropertyBase p) items, ?_, by rw [he], ⟨skeleton_afterWrites _ _, ?_⟩, wf_afterWrites _ _ hw1, ?_⟩
  · unfold SuperObj.addProperty; simp only []; rw [he]
  · intro c h1 h2 h3
    rw [lookup_afterWrites]
    have : lastFor items c = none := by
      unfold lastFor
      have : items.filter (fun i => decide (i.code = c)) = [] := by
        rw [List.filter_eq_nil_iff]
        intro i hii
        have := hi i hii
        simp only [decide_eq_true_eq]
        omega
      rw [this]; rfl
    rw [this]
    cases lookup (o.addPropertyBase p).props c <;> rfl
  · rw [keys_afterWrites]; exact hk

theorem lastProp_cons (p : OProp) (ps : List OProp) (c : Int) :
    lastProp (p :: ps) c = (lastProp ps c).or (if p.code = c then some p else none) := by
  unfold lastProp
  by_cases h : p.code = c
  · rw [List.filter_cons_of_pos (by simpa using h), List.getLast?_cons, if_pos h]
    cases (List.filter (fun p => decide (p.code = c)) ps).getLast? <;> rfl
  · rw [List.filter_cons_of_neg (by simpa using h), if_neg h]
    cases (List.filter (fun p => decide (p.code = c)) ps).getLast? <;> rfl

theorem addAll_shape {ord : List Int → List Int} (hord : ValidOrder ord) (ps : List OProp) : ∀ (o : Obj), WellFormed o →
    (∀ c ∈ o.props.map Prod.fst, 0x80 ≤ c ∧ c < 0x100) → (∀ p ∈ ps, 0x80 ≤ p.code ∧ p.code < 0x100) →
    let r := addAll ord o ps
    r.2 = .ok () ∧ WellFormed r.1 ∧ (∀ c ∈ r.1.props.map Prod.fst, 0x80 ≤ c ∧ c < 0x100) ∧ r.1.handler = o.handler ∧
    (∀ c, (lookup r.1.props c).map (fun p => { p with data := [] }) =
        ((lastProp ps c).or (lookup o.props c)).map (fun p => { p with data := [] })) ∧
    (ps ≠ [] → ∃ o1, WellFormed o1 ∧ (∀ c ∈ o1.props.map Prod.fst, 0x80 ≤ c ∧ c < 0x100) ∧
      (SuperObj.updateMaps ord o1).1 = r.1 ∧ skeleton r.1 = skeleton o1) := by
  induction ps with
  | nil =>
    intro o hw hc _
    exact ⟨rfl, hw, hc, rfl, fun c => by simp [addAll, lastProp], fun h => absurd rfl h⟩
  | cons p ps ih =>
    intro o hw hc hp
    obtain ⟨o', he, hu, hsb, hw', hc'⟩ := addProperty_shape hord o p hw hc (hp p (List.mem_cons_self ..))
    have ih := ih o' hw' hc' (fun q hq => hp q (List.mem_cons_of_mem _ hq))
    simp only [] at ih
    have hadd : addAll ord o (p :: ps) = addAll ord o' ps := by
      conv => lhs; unfold addAll
      rw [he]
    simp only [hadd]
    obtain ⟨i1, i2, i3, i4, i5, i6⟩ := ih
    refine ⟨i1, i2, i3, ?_, ?_, ?_⟩
    · rw [i4, handler_of_skeleton hsb.1]; rfl
    · intro c
      rw [i5, lastProp_cons]
      have := known_of_skeleton hsb.1 c
      rw [lookup_addPropertyBase] at this
      cases hl : lastProp ps c with
      | some q => rfl
      | none =>
        simp only [Option.none_or]
        rw [this]
        by_cases hcc : c = p.code
        · subst hcc; simp
        · simp [hcc, Ne.symm hcc]
    · intro _
      by_cases hps : ps = []
      · subst hps
        refine ⟨o.addPropertyBase p, wf_addPropertyBase o p hw, ?_, hu, hsb.1⟩
        have := keys_of_skeleton hsb.1
        rw [← this]; exact hc'
      · exact i6 hps

/-- C30. A `SuperObject` (any device) built by any sequence of `add_property` calls with codes
0x80–0xFF: no call raises, the properties are those added last under each code, and once the three
map properties are there each map with at most 15 entries decodes to exactly the codes of the
properties with the access it is about. -/
theorem C30_maps_follow (ord : List Int → List Int) (hord : ValidOrder ord) (ps : List OProp)
    (hp : ∀ p ∈ ps, 0x80 ≤ p.code ∧ p.code < 0x100) :
    let r := addAll ord SuperObj.new ps
    r.2 = .ok () ∧ WellFormed r.1 ∧
    (∀ k : MapKind, ∀ c, Having r.1 k.lists c ↔ ∃ p, lastProp ps c = some p ∧ k.lists p) ∧
    (HasMaps r.1 → ∀ k : MapKind, countOf r.1 k.lists ≤ 15 →
      ∃ p, lookup r.1.props k.code = some p ∧ Lists p.data (Having r.1 k.lists)) := by
  intro r
  obtain ⟨h1, h2, h3, h4, h5, h6⟩ := addAll_shape hord ps SuperObj.new ⟨by decide, by decide⟩ (by decide) hp
  refine ⟨h1, h2, ?_, ?_⟩
  · intro k c
    have hc := h5 c
    have hn : lookup SuperObj.new.props c = none := rfl
    rw [hn, Option.or_none] at hc
    have attr : ∀ p q : OProp, ({ p with data := [] } : OProp) = { q with data := [] } → (k.lists p ↔ k.lists q) := by
      intro p q h
      have a1 := congrArg OProp.attrGet h
      have a2 := congrArg OProp.attrSet h
      have a3 := congrArg OProp.attrAnno h
      simp only [] at a1 a2 a3
      cases k <;> simp only [MapKind.lists, MustAnnounce, CanWrite, CanRead, a1, a2, a3]
    unfold Having
    cases hl : lookup r.1.props c with
    | none =>
      rw [show lookup (addAll ord SuperObj.new ps).1.props c = none from hl] at hc
      cases hq : lastProp ps c with
      | none => simp
      | some q => rw [hq] at hc; simp at hc
    | some p =>
      rw [show lookup (addAll ord SuperObj.new ps).1.props c = some p from hl] at hc
      cases hq : lastProp ps c with
      | none => rw [hq] at hc; simp at hc
      | some q =>
        rw [hq] at hc
        simp only [Option.map_some, Option.some.injEq] at hc
        simp [attr p q hc]
  · intro hm k hk
    by_cases hps : ps = []
    · subst hps; exact absurd hm.1 (by show ¬ (lookup SuperObj.new.props 0x9D).isSome = true; decide)
    · obtain ⟨o1, w1, k1, u1, s1⟩ := h6 hps
      have hm1 : HasMaps o1 := by
        obtain ⟨a, b, c⟩ := hm
        exact ⟨by rw [← isSome_of_skeleton s1]; exact a, by rw [← isSome_of_skeleton s1]; exact b,
          by rw [← isSome_of_skeleton s1]; exact c⟩
      obtain ⟨-, -, -, h⟩ := C27_short_maps ord hord o1 w1 (byteCodes_of_keys w1.1 k1) hm1
      obtain ⟨p, hp1, hp2⟩ := h k (by rw [← countOf_of_skeleton s1 w1]; exact hk)
      rw [u1] at hp1
      refine ⟨p, hp1, ?_⟩
      obtain ⟨l, a, b, c⟩ := hp2
      exact ⟨l, a, b, fun x => by rw [c, having_of_skeleton s1]⟩

/-- C30, continued: no history of received messages spoils a map whose property is not writable. -/
theorem C30_maps_survive_requests (o : Obj) (hist : List (Env × Msg)) (hw : WellFormed o) (hh : o.handler = .self_)
    (k : MapKind) (p : OProp) (hp : lookup o.props k.code = some p) (hnw : ¬ CanWrite p)
    (hl : Lists p.data (Having o k.lists)) :
    lookup (afterHistory o hist).props k.code = some p ∧ Lists p.data (Having (afterHistory o hist) k.lists) := by
  obtain ⟨h1, -, h3⟩ := C23_write_protection o hist hw hh
  obtain ⟨p', hp', -, -, -, h⟩ := h3 _ _ hp
  rw [h hnw] at hp'
  refine ⟨hp', ?_⟩
  obtain ⟨l, a, b, c⟩ := hl
  exact ⟨l, a, b, fun x => by rw [c, having_of_skeleton h1]⟩

example : HasMaps (addAll List.dedup SuperObj.new [{ code := 0x9E, attrGet := 1 }, { code := 0x80, attrGet := 1, attrSet := 2 },
    { code := 0x9D, attrGet := 1 }, { code := 0x9F, attrGet := 1 }, { code := 0x80, attrGet := 1 }]).1 := by decide
example : (addAll List.dedup SuperObj.new [{ code := 0x9E, attrGet := 1 }, { code := 0x80, attrGet := 1, attrSet := 2 },
    { code := 0x9D, attrGet := 1 }, { code := 0x9F, attrGet := 1 }, { code := 0x80, attrGet := 1 }]).1.props.map
      (fun kp => kp.2.data) = [[0], [], [0], [4, 0x9E, 0x80, 0x9D, 0x9F]] := by decide

end Uecho
