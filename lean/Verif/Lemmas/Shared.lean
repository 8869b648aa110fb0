/- Lemmas for C97. -/
import Verif.Model.Shared
import Verif.Spec.Shared
import Verif.Lemmas.Linked
import Verif.Props.Std

namespace Uecho.Shared
open Spec

/-- The tables after somebody has set data. -/
def afterAll (T : Tables) (ws : List Write) : Tables := ws.foldl (fun T w => (setData T (.int w.n) w.pc w.data).1) T

/-- The items set for a class. -/
def itemsOf (ws : List Write) (k : Int × Int) : List PProp := (ws.filter fun w => decide (clsOf w.n = k)).map fun w => { code := w.pc, data := w.data }

theorem key_eq (n : Int) : (groupCode n, classCode n) = clsOf n := by
  unfold clsOf
  rw [groupCode_eq, classCode_eq]

theorem get?_afterAll (ws : List Write) (T : Tables) (hT : ∀ k o, Dict.get? T k = some o → WellFormed o) : ∀ k,
    Dict.get? (afterAll T ws) k = (Dict.get? T k).map fun o => afterWrites o (itemsOf ws k) := by
  induction ws generalizing T with
  | nil =>
    intro k
    show Dict.get? T k = _
    have : (fun o => afterWrites o (itemsOf [] k)) = id := by funext o; exact afterWrites_nil o
    rw [this, Option.map_id]
    rfl
  | cons w ws ih =>
    intro k
    show Dict.get? (afterAll (setData T (.int w.n) w.pc w.data).1 ws) k = _
    have hstep : ∀ k, Dict.get? (setData T (.int w.n) w.pc w.data).1 k = (Dict.get? T k).map fun o => afterWrites o (itemsOf [w] k) := by
      intro k
      unfold setData
      simp only [setCode, key_eq]
      by_cases hk : clsOf w.n = k
      · subst hk
        have hi : itemsOf [w] (clsOf w.n) = [{ code := w.pc, data := w.data }] := by simp [itemsOf]
        cases hg : Dict.get? T (clsOf w.n) with
        | none => simp only [hg]; rfl
        | some o =>
          simp only []
          rw [Dict.get?_modify, if_pos rfl, hg, setPropertyData_eq _ _ _ (hT _ _ hg), hi]
          rfl
      · have hi : itemsOf [w] k = [] := by simp [itemsOf, hk]
        have : (fun o => afterWrites o (itemsOf [w] k)) = id := by rw [hi]; funext o; exact afterWrites_nil o
        rw [this, Option.map_id]
        cases hg : Dict.get? T (clsOf w.n) with
        | none => rfl
        | some o =>
          simp only []
          rw [Dict.get?_modify, if_neg hk]
          rfl
    rw [ih]
    · rw [hstep, Option.map_map]
      congr 1
      funext o
      show afterWrites (afterWrites o (itemsOf [w] k)) (itemsOf ws k) = _
      rw [afterWrites_append, show itemsOf [w] k ++ itemsOf ws k = itemsOf (w :: ws) k from by
        unfold itemsOf
        rw [← List.map_append, ← List.filter_append]
        rfl]
    · intro k o h
      rw [hstep, Option.map_eq_some_iff] at h
      obtain ⟨o', h1, rfl⟩ := h
      exact wf_afterWrites _ _ (hT k o' h1)

theorem std_wf {k : Int × Int} {o : Obj} (h : Dict.get? stdObjects k = some o) : WellFormed o := by
  obtain ⟨g, c⟩ := k
  rw [get?_stdObjects, Option.map_eq_some_iff] at h
  obtain ⟨e, he, rfl⟩ := h
  exact (loaded_stdObject he).wf

/-- The properties devices of a class copy. -/
def tableProps (ws : List Write) (k : Int × Int) : List OProp :=
  match stdClass k.1 k.2 with
  | none => []
  | some e => Dict.values (afterWrites (stdObject e) (itemsOf ws k)).props

theorem get?_std (ws : List Write) (k : Int × Int) :
    Dict.get? (afterAll stdObjects ws) k = (stdClass k.1 k.2).map fun e => afterWrites (stdObject e) (itemsOf ws k) := by
  rw [get?_afterAll _ _ (fun _ _ => std_wf), show k = (k.1, k.2) from rfl, get?_stdObjects, Option.map_map]
  rfl

theorem addCopies_eq {own : Owner} (h : own.deepcopy = .ok ()) (ord : List Int → List Int) (ps : List OProp) : ∀ o, addCopies ord own o ps = addAll ord o ps := by
  induction ps with
  | nil => intro o; rfl
  | cons p ps ih =>
    intro o
    unfold addCopies addAll OProp.copy
    simp only [h]
    rcases SuperObj.addProperty ord o p with ⟨o', e | b⟩
    · rfl
    · exact ih o'

theorem setObjectProperties_eq {own : Int × Int → Owner} (k : Int × Int) (h : (own k).deepcopy = .ok ()) (ord : List Int → List Int) (ws : List Write) (o : Obj) :
    setObjectProperties ord own (afterAll stdObjects ws) o k = addAll ord o (tableProps ws k) := by
  unfold setObjectProperties tableProps
  rw [get?_std]
  cases stdClass k.1 k.2 with
  | none => rfl
  | some e => exact addCopies_eq h ord _ o

theorem tableProps_range (ws : List Write) (k : Int × Int) : ∀ p ∈ tableProps ws k, 0x80 ≤ p.code ∧ p.code < 0x100 := by
  unfold tableProps
  intro p hp
  cases h : stdClass k.1 k.2 with
  | none => rw [h] at hp; simp at hp
  | some e =>
    rw [h] at hp
    have hl := loaded_stdObject h
    simp only [Dict.values, List.mem_map] at hp
    obtain ⟨kp, hkp, rfl⟩ := hp
    rw [(wf_afterWrites _ _ hl.wf).2 kp hkp]
    have : kp.1 ∈ (afterWrites (stdObject e) (itemsOf ws k)).props.map Prod.fst := List.mem_map_of_mem hkp
    rw [keys_afterWrites] at this
    obtain ⟨kp', h1, h2⟩ := List.mem_map.mp this
    rw [← h2]
    exact hl.codes kp' h1

theorem lastFor_itemsOf (ws : List Write) (k : Int × Int) (pc : Int) : lastFor (itemsOf ws k) pc = written ws k pc := by
  induction ws with
  | nil => rfl
  | cons w ws ih =>
    have : itemsOf (w :: ws) k = itemsOf [w] k ++ itemsOf ws k := by
      unfold itemsOf
      rw [← List.map_append, ← List.filter_append]
      rfl
    rw [this, lastFor_append, ih]
    show _ = (written ws k pc).or (if clsOf w.n = k ∧ w.pc = pc then some w.data else none)
    congr 1
    unfold itemsOf
    by_cases hk : clsOf w.n = k
    · by_cases hp : w.pc = pc
      · simp [lastFor, hk, hp]
      · simp [lastFor, hk, hp]
    · simp [lastFor, hk]

theorem lastProp_tableProps (ws : List Write) (k : Int × Int) (pc : Int) : lastProp (tableProps ws k) pc = sharedLine ws k pc := by
  unfold tableProps sharedLine
  cases h : stdClass k.1 k.2 with
  | none => rfl
  | some e =>
    have hl := loaded_stdObject h
    have hw := wf_afterWrites _ (itemsOf ws k) hl.wf
    simp only []
    rw [lastProp_values _ hw.1 hw.2, lookup_afterWrites, hl.props, lastFor_itemsOf, Option.map_map]
    rfl

/-- Objects made from properties with byte codes among which the three maps are. -/
theorem build_shape {ord : List Int → List Int} (hord : ValidOrder ord) (n : Int) (ps : List OProp) (hr : ∀ p ∈ ps, 0x80 ≤ p.code ∧ p.code < 0x100)
    (hm : ∀ pc, pc = 0x9D ∨ pc = 0x9E ∨ pc = 0x9F → (lastProp ps pc).isSome = true) :
    let r1 := addAll ord { SuperObj.new with code := n } ps
    let r := SuperObj.updateMaps ord r1.1
    r1.2 = .ok () ∧ r.2 = .ok true ∧ r.1.code = n ∧
    (∀ pc, (lookup r.1.props pc).map (fun p => { p with data := [] }) = (lastProp ps pc).map (fun p => { p with data := [] })) ∧
    ∀ pc, pc ≠ 0x9D → pc ≠ 0x9E → pc ≠ 0x9F → lookup r.1.props pc = lastProp ps pc := by
  intro r1 r
  have hw0 : WellFormed ({ SuperObj.new with code := n } : Obj) := ⟨List.nodup_nil, fun kp h => absurd h List.not_mem_nil⟩
  have hk0 : ∀ c ∈ ({ SuperObj.new with code := n } : Obj).props.map Prod.fst, 0x80 ≤ c ∧ c < 0x100 :=
    fun c h => absurd h List.not_mem_nil
  have hl0 : ∀ pc, lookup ({ SuperObj.new with code := n } : Obj).props pc = none := fun pc => rfl
  obtain ⟨a1, a2, a3, -, a5, -⟩ := addAll_shape hord _ _ hw0 hk0 hr
  obtain ⟨b1, -, -, b3⟩ := addAll_exact hord _ _ hw0 hk0 hr
  have a5' : ∀ pc, (lookup r1.1.props pc).map (fun p => { p with data := [] }) = (lastProp ps pc).map (fun p => { p with data := [] }) := by
    intro pc
    have := a5 pc
    rw [hl0, Option.or_none] at this
    exact this
  have isS : ∀ pc, (lookup r1.1.props pc).isSome = (lastProp ps pc).isSome := by
    intro pc
    have := congrArg Option.isSome (a5' pc)
    simpa using this
  have hm : HasMaps r1.1 := ⟨by rw [isS]; exact hm _ (by simp), by rw [isS]; exact hm _ (by simp), by rw [isS]; exact hm _ (by simp)⟩
  have hall := updateMaps_all hord r1.1 a2 (byteCodes_of_keys a2.1 a3) hm
  have hsk : skeleton r.1 = skeleton r1.1 := by
    show skeleton (SuperObj.updateMaps ord r1.1).1 = _
    rw [hall]; exact skeleton_afterWrites _ _
  refine ⟨a1, by show (SuperObj.updateMaps ord r1.1).2 = _; rw [hall], (congrArg Obj.code hsk).trans b1, ?_, ?_⟩
  · intro pc
    rw [known_of_skeleton hsk, a5']
  · intro pc h1 h2 h3
    show lookup (SuperObj.updateMaps ord r1.1).1.props pc = _
    rw [hall, lookup_afterWrites]
    have : lastFor [{ code := 0x9D, data := kindData ord r1.1 .anno }, { code := 0x9F, data := kindData ord r1.1 .get },
        { code := 0x9E, data := kindData ord r1.1 .set }] pc = none := by
      unfold lastFor
      simp [Ne.symm h1, Ne.symm h2, Ne.symm h3]
    rw [this]
    have h := b3 pc h1 h2 h3
    rw [hl0, Option.or_none] at h
    simp only [Option.getD_none]
    rw [show lookup r1.1.props pc = _ from h]
    cases lastProp ps pc <;> rfl

theorem addCopies_error {own : Owner} {e : Exc} (h : own.deepcopy = .error e) (ord : List Int → List Int) (ps : List OProp) (hne : ps ≠ []) (o : Obj) :
    (addCopies ord own o ps).2 = .error e := by
  cases ps with
  | nil => exact absurd rfl hne
  | cons p ps =>
    unfold addCopies OProp.copy
    simp only [h]

end Uecho.Shared
