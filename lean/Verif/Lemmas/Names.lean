import Verif.Spec.Names
import Verif.Lemmas.Remote

namespace Uecho
open Spec

theorem addCodes_snoc (l cs : List Int) (x : Int) : addCodes l (cs ++ [x]) = if x ∈ addCodes l cs then addCodes l cs else addCodes l cs ++ [x] := by
  rw [addCodes_append]; rfl

/-- Adding a list without its repetitions is adding the list. -/
theorem addCodes_addCodes (l cs : List Int) : addCodes l (addCodes [] cs) = addCodes l cs := by
  induction cs using List.reverseRecOn with
  | nil => rfl
  | append_singleton cs x ih =>
    rw [addCodes_snoc, addCodes_snoc]
    by_cases hx : x ∈ addCodes [] cs
    · rw [if_pos hx, ih, if_pos]
      rw [mem_addCodes] at hx ⊢
      right; simpa using hx
    · rw [if_neg hx, addCodes_snoc, ih]

/-! ### Keys of objects -/

theorem keys_foldl_add (ps : List OProp) : ∀ o : Obj, (ps.foldl Obj.addPropertyBase o).props.map Prod.fst = addCodes (o.props.map Prod.fst) (ps.map OProp.code) := by
  induction ps with
  | nil => intro o; rfl
  | cons p ps ih =>
    intro o
    show (ps.foldl Obj.addPropertyBase (o.addPropertyBase p)).props.map Prod.fst = _
    rw [ih, keys_addPropertyBase]
    rfl

theorem keys_addAll {ord : List Int → List Int} (hord : ValidOrder ord) (ps : List OProp) : ∀ (o : Obj), WellFormed o →
    (∀ c ∈ o.props.map Prod.fst, 0x80 ≤ c ∧ c < 0x100) → (∀ p ∈ ps, 0x80 ≤ p.code ∧ p.code < 0x100) →
    (addAll ord o ps).1.props.map Prod.fst = addCodes (o.props.map Prod.fst) (ps.map OProp.code) := by
  induction ps with
  | nil => intro o _ _ _; rfl
  | cons p ps ih =>
    intro o hw hc hp
    obtain ⟨o', he, -, hsb, hw', hc'⟩ := addProperty_shape hord o p hw hc (hp p List.mem_cons_self)
    rw [addAll_cons, he]
    simp only []
    rw [ih o' hw' hc' (fun q hq => hp q (List.mem_cons_of_mem _ hq)), keys_of_skeleton hsb.1, keys_addPropertyBase]
    rfl

theorem keys_stdObject (e : StdEntry) : (stdObject e).props.map Prod.fst = addCodes [] (e.props.map fun l => l.1) := by
  unfold stdObject
  rw [keys_foldl_add, List.map_map]
  rfl

theorem classProps_codes (g c : Int) : (classProps g c).map OProp.code = addCodes [] (listedLines g c) := by
  unfold classProps listedLines
  cases h : stdClass g c with
  | none => rfl
  | some e =>
    have hl := loaded_stdObject h
    simp only []
    rw [← keys_stdObject]
    unfold Dict.values
    rw [List.map_map]
    apply List.map_congr_left
    intro kp hkp
    exact hl.wf.2 kp hkp

theorem device_keys {ord : List Int → List Int} (hord : ValidOrder ord) (code : PyCode) (n : Int) (h : setCode 0 code = (n, true)) :
    (StdObj.new ord stdObjects code).1.props.map Prod.fst = deviceCodes (n / 65536 % 256) (n / 256 % 256) := by
  have hr : ∀ p ∈ classProps 0 0 ++ classProps (n / 65536 % 256) (n / 256 % 256), 0x80 ≤ p.code ∧ p.code < 0x100 := by
    intro p hp
    rw [List.mem_append] at hp
    rcases hp with h | h
    · exact classProps_range _ _ p h
    · exact classProps_range _ _ p h
  obtain ⟨-, -, -, -, -, -, -, -, -, -, -, -, sk⟩ := dev_shape hord n (n / 65536 % 256) (n / 256 % 256)
  have hk := keys_addAll hord _ ({ SuperObj.new with code := n } : Obj) ⟨List.nodup_nil, fun kp h => absurd h List.not_mem_nil⟩
    (fun c h => absurd h List.not_mem_nil) hr
  rw [dev_eq hord code n h, keys_of_skeleton sk, hk, List.map_append, addCodes_append, classProps_codes, classProps_codes, addCodes_addCodes, addCodes_addCodes]
  rfl

/-! ### Labels -/

theorem label_foldl {α : Type} (f : α → Int) (g : α → Option PropLabel) (ps : List α) : ∀ l : Label,
    (ps.foldl (fun l p => l.addProperty (f p) (g p)) l).name = l.name ∧
    Dict.keys (ps.foldl (fun l p => l.addProperty (f p) (g p)) l).props = addCodes (Dict.keys l.props) (ps.map f) ∧
    ∀ k, Dict.get? (ps.foldl (fun l p => l.addProperty (f p) (g p)) l).props k =
      (((ps.filter fun p => decide (f p = k)).getLast?).map g).or (Dict.get? l.props k) := by
  induction ps with
  | nil => intro l; exact ⟨rfl, rfl, fun k => by simp⟩
  | cons p ps ih =>
    intro l
    obtain ⟨h1, h2, h3⟩ := ih (l.addProperty (f p) (g p))
    refine ⟨h1, ?_, ?_⟩
    · show Dict.keys (ps.foldl (fun l p => l.addProperty (f p) (g p)) (l.addProperty (f p) (g p))).props = _
      rw [h2]
      unfold Label.addProperty
      rw [Dict.keys_set]
      rfl
    · intro k
      show Dict.get? (ps.foldl (fun l p => l.addProperty (f p) (g p)) (l.addProperty (f p) (g p))).props k = _
      rw [h3]
      unfold Label.addProperty
      simp only [Dict.get?_set, List.filter_cons]
      by_cases hk : f p = k
      · simp only [hk, decide_true, if_true]
        cases hx : (ps.filter fun p => decide (f p = k)).getLast? with
        | none =>
          rw [List.getLast?_eq_none_iff] at hx
          rw [hx]; rfl
        | some y =>
          rw [List.getLast?_cons, hx]; rfl
      · rw [if_neg (by simpa using hk), if_neg (by simpa using hk)]

theorem ofEntry_label (e : NameEntry) : (Label.ofEntry e).name = e.name ∧ Dict.keys (Label.ofEntry e).props = addCodes [] (e.props.map fun l => l.1) ∧
    ∀ k, Dict.get? (Label.ofEntry e).props k = (nameLine e k).map some := by
  obtain ⟨h1, h2, h3⟩ := label_foldl (fun p : Int × String × String × Nat => p.1) (fun p => some ⟨p.2.1, p.2.2.1, p.2.2.2⟩) e.props { name := e.name }
  refine ⟨h1, h2, fun k => ?_⟩
  show Dict.get? (e.props.foldl (fun (l : Label) p => l.addProperty p.1 (some ⟨p.2.1, p.2.2.1, p.2.2.2⟩)) { name := e.name }).props k = _
  rw [h3]
  unfold nameLine
  rw [Option.map_map]
  simp only [show Dict.get? ({ name := e.name } : Label).props k = none from rfl, Option.or_none]
  rfl

theorem setObjectProperties_label (l : Label) (s : Label) (hn : (Dict.keys s.props).Nodup) :
    (l.setObjectProperties (some s)).name = s.name ∧ Dict.keys (l.setObjectProperties (some s)).props = addCodes (Dict.keys l.props) (Dict.keys s.props) ∧
    ∀ k, Dict.get? (l.setObjectProperties (some s)).props k = (Dict.get? s.props k).or (Dict.get? l.props k) := by
  obtain ⟨h1, h2, h3⟩ := label_foldl (fun kp : Int × Option PropLabel => kp.1) (fun kp => kp.2) s.props { l with name := s.name }
  refine ⟨h1, h2, fun k => ?_⟩
  show Dict.get? (s.props.foldl (fun (l : Label) kp => l.addProperty kp.1 kp.2) { l with name := s.name }).props k = _
  rw [h3, getLast?_filter_nodup s.props hn]

theorem nodup_keys_ofEntry (e : NameEntry) : (Dict.keys (Label.ofEntry e).props).Nodup := by
  rw [(ofEntry_label e).2.1]
  exact nodup_addCodes _ _ List.nodup_nil

theorem get?_stdNames (g c : Int) : Dict.get? stdNames (g, c) = (classNames g c).map Label.ofEntry := by
  have ht : ∀ t : List NameEntry, Dict.get? (tableNames t) (g, c) = (namesIn t g c).map Label.ofEntry := by
    intro t
    unfold tableNames
    rw [get?_foldl_set]
    simp [namesIn]
  have hn : ∀ t : List NameEntry, (Dict.keys (tableNames t)).Nodup := fun t => nodup_foldl_set _ _ t [] (by simp [Dict.keys])
  unfold stdNames classNames
  rw [get?_update _ _ (hn _), get?_update _ _ (hn _), ht, ht]
  cases namesIn StdNames.mra g c <;> cases namesIn StdNames.scsl g c <;> rfl

/-- The two generated tables are about the same lines. -/
theorem same_mra : (StdNames.mra.map fun e => (e.key, e.props.map fun l => l.1)) = StdData.mra.map fun e => (e.key, e.props.map fun l => l.1) := by decide +kernel
theorem same_scsl : (StdNames.scsl.map fun e => (e.key, e.props.map fun l => l.1)) = StdData.scsl.map fun e => (e.key, e.props.map fun l => l.1) := by decide +kernel

theorem same_in (t : List NameEntry) (t' : List StdEntry)
    (h : (t.map fun e => (e.key, e.props.map fun l => l.1)) = t'.map fun e => (e.key, e.props.map fun l => l.1)) (g c : Int) :
    (namesIn t g c).map (fun e => e.props.map fun l => l.1) = (entryIn t' g c).map fun e => e.props.map fun l => l.1 := by
  have h1 : (namesIn t g c).map (fun e => (e.key, e.props.map fun l => l.1)) =
      ((t.map fun e => (e.key, e.props.map fun l => l.1)).filter fun x => decide (x.1 = (g, c))).getLast? := by
    unfold namesIn
    rw [List.filter_map, List.getLast?_map]
    rfl
  have h2 : (entryIn t' g c).map (fun e => (e.key, e.props.map fun l => l.1)) =
      ((t'.map fun e => (e.key, e.props.map fun l => l.1)).filter fun x => decide (x.1 = (g, c))).getLast? := by
    unfold entryIn
    rw [List.filter_map, List.getLast?_map]
    rfl
  have h3 := congrArg (Option.map Prod.snd) (h1.trans ((congrArg (fun l => (l.filter fun x => decide (x.1 = (g, c))).getLast?) h).trans h2.symm))
  simpa [Option.map_map, Function.comp_def] using h3

theorem classNames_codes (g c : Int) : (classNames g c).map (fun e => e.props.map fun l => l.1) = (stdClass g c).map fun e => e.props.map fun l => l.1 := by
  have h1 := same_in _ _ same_mra g c
  have h2 := same_in _ _ same_scsl g c
  unfold classNames stdClass
  revert h1 h2
  cases namesIn StdNames.mra g c <;> cases entryIn StdData.mra g c <;> cases namesIn StdNames.scsl g c <;> cases entryIn StdData.scsl g c <;> simp
  exact fun h _ => h

theorem dbGetLabel_eq (code : PyCode) (n : Int) (h : setCode 0 code = (n, true)) :
    dbGetLabel code = (classNames (n / 65536 % 256) (n / 256 % 256)).map Label.ofEntry := by
  unfold dbGetLabel
  rw [h]
  simp only []
  rw [groupCode_eq, classCode_eq, get?_stdNames]

/-- Copying the labels of a class. -/
theorem copied (l : Label) (g c : Int) :
    (l.setObjectProperties ((classNames g c).map Label.ofEntry)).name = (match classNames g c with | none => l.name | some e => e.name) ∧
    Dict.keys (l.setObjectProperties ((classNames g c).map Label.ofEntry)).props = addCodes (Dict.keys l.props) (listedLines g c) ∧
    ∀ k, Dict.get? (l.setObjectProperties ((classNames g c).map Label.ofEntry)).props k =
      (((classNames g c).bind (nameLine · k)).map some).or (Dict.get? l.props k) := by
  have hc := classNames_codes g c
  unfold listedLines
  cases hn : classNames g c with
  | none =>
    rw [hn] at hc
    cases hs : stdClass g c with
    | none => exact ⟨rfl, rfl, fun k => rfl⟩
    | some e => rw [hs] at hc; cases hc
  | some e =>
    rw [hn] at hc
    cases hs : stdClass g c with
    | none => rw [hs] at hc; cases hc
    | some e' =>
      rw [hs] at hc
      simp only [Option.map_some, Option.some.injEq] at hc
      obtain ⟨h1, h2, h3⟩ := setObjectProperties_label l (Label.ofEntry e) (nodup_keys_ofEntry e)
      obtain ⟨e1, e2, e3⟩ := ofEntry_label e
      refine ⟨h1.trans e1, ?_, fun k => ?_⟩
      · show Dict.keys (l.setObjectProperties (some (Label.ofEntry e))).props = _
        rw [h2, e2, addCodes_addCodes, hc]
      · show Dict.get? (l.setObjectProperties (some (Label.ofEntry e))).props k = _
        rw [h3, e3]
        rfl

end Uecho
