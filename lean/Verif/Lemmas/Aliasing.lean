/- Lemmas for C130: objects that share no property behave like objects by themselves. -/
import Verif.Spec.Aliasing
import Verif.Lemmas.Dict

namespace Uecho
open Spec

namespace Alias

/-- The properties in the table of an object. -/
def refs (h : Heap) (i : Nat) : List Nat := Dict.values (h.objs i).table

/-- What an operation on object `i` leaves alone. -/
def Frame (h h' : Heap) (i : Nat) : Prop := h'.objs = h.objs ∧ ∀ k, k ∉ refs h i → h'.cells k = h.cells k

theorem Frame.refl (h : Heap) (i : Nat) : Frame h h i := ⟨rfl, fun _ _ => rfl⟩

theorem Frame.refs {h h' : Heap} {i : Nat} (f : Frame h h' i) (j : Nat) : refs h' j = refs h j := by unfold Alias.refs; rw [f.1]

theorem Frame.trans {h h' h'' : Heap} {i : Nat} (f : Frame h h' i) (g : Frame h' h'' i) : Frame h h'' i :=
  ⟨g.1.trans f.1, fun k hk => (g.2 k (by rw [f.refs]; exact hk)).trans (f.2 k hk)⟩

theorem Frame.view {h h' : Heap} {i : Nat} (f : Frame h h' i) (j : Nat) (hd : ∀ r ∈ Alias.refs h j, r ∉ Alias.refs h i) : view h' j = view h j := by
  unfold Spec.view
  rw [f.1]
  congr 1
  apply List.map_congr_left
  intro kr hkr
  rw [f.2 kr.2 (hd kr.2 (List.mem_map_of_mem hkr))]

/-- An operation on object `i` of the heap does what the operation on the object by itself does. -/
def Sim {α : Type} (h : Heap) (i : Nat) (x : Heap × α) (y : Obj × α) : Prop := view x.1 i = y.1 ∧ x.2 = y.2 ∧ Frame h x.1 i

theorem Sim.of_frame {α : Type} {h h' : Heap} {i : Nat} {x : Heap × α} {y : Obj × α} (f : Frame h h' i) (s : Sim h' i x y) : Sim h i x y :=
  ⟨s.1, s.2.1, f.trans s.2.2⟩

theorem get?_map {κ ν μ : Type} [DecidableEq κ] (d : Dict κ ν) (f : ν → μ) (k : κ) : Dict.get? (d.map fun kv => (kv.1, f kv.2)) k = (Dict.get? d k).map f := by
  induction d with
  | nil => rfl
  | cons kv d ih =>
    obtain ⟨a, b⟩ := kv
    simp only [List.map_cons, Dict.get?_cons]
    split
    · rfl
    · exact ih

theorem set_map {κ ν μ : Type} [DecidableEq κ] (d : Dict κ ν) (f : ν → μ) (k : κ) (v : ν) :
    (Dict.set d k v).map (fun kv => (kv.1, f kv.2)) = Dict.set (d.map fun kv => (kv.1, f kv.2)) k (f v) := by
  induction d with
  | nil => rfl
  | cons kv d ih =>
    obtain ⟨a, b⟩ := kv
    simp only [List.map_cons, Dict.set]
    split
    · rfl
    · rw [List.map_cons, ih]

theorem view_getProperty (h : Heap) (i : Nat) (c : Int) : (view h i).getProperty c = getProperty h i c :=
  get?_map (h.objs i).table (fun r => (h.cells r).prop) c

theorem view_values (h : Heap) (i : Nat) : Dict.values (view h i).props = properties h i := by
  show ((h.objs i).table.map _).map Prod.snd = ((h.objs i).table.map Prod.snd).map _
  rw [List.map_map, List.map_map]
  rfl

theorem mem_refs {h : Heap} {i r : Nat} {c : Int} (hr : getRef h i c = some r) : r ∈ refs h i :=
  List.mem_map_of_mem (Dict.mem_of_get? _ _ _ hr)

theorem storeRef_frame (h : Heap) (i r : Nat) (d : Bytes) (hr : r ∈ refs h i) : Frame h (storeRef h r d) i := by
  refine ⟨rfl, fun k hk => ?_⟩
  show (if k = r then _ else h.cells k) = _
  rw [if_neg]
  rintro rfl
  exact hk hr

theorem modify_shared (cells : Nat → Cell) (r : Nat) (d : Bytes) (c : Int) (l : Dict Int Nat) (hn : (Dict.values l).Nodup) (hr : Dict.get? l c = some r) :
    (l.map fun kr => (kr.1, (if kr.2 = r then { cells r with prop := { (cells r).prop with data := d } } else cells kr.2 : Cell).prop)) =
      Dict.modify (l.map fun kr => (kr.1, (cells kr.2).prop)) c (fun p => { p with data := d }) := by
  induction l with
  | nil => cases hr
  | cons kr l ih =>
    obtain ⟨a, b⟩ := kr
    rw [Dict.get?_cons] at hr
    have hb : b ∉ Dict.values l := (List.nodup_cons.mp hn).1
    simp only [List.map_cons, Dict.modify]
    by_cases hac : a = c
    · rw [if_pos hac] at hr ⊢
      injection hr with hr
      subst hr
      rw [if_pos rfl]
      congr 1
      apply List.map_congr_left
      intro kr hkr
      rw [if_neg]
      intro e
      exact hb (e ▸ List.mem_map_of_mem hkr)
    · rw [if_neg hac] at hr ⊢
      rw [if_neg, ih (List.nodup_cons.mp hn).2 hr]
      rintro rfl
      exact hb (List.mem_map_of_mem (Dict.mem_of_get? _ _ _ hr))

theorem view_storeRef {h : Heap} {i r : Nat} {c : Int} (hn : (refs h i).Nodup) (hr : getRef h i c = some r) (d : Bytes) :
    view (storeRef h r d) i = (view h i).storeData c d := by
  unfold Spec.view Obj.storeData
  simp only []
  congr 1
  exact modify_shared h.cells r d c (h.objs i).table hn hr

theorem setPropertyData_sim (h : Heap) (i : Nat) (hn : (refs h i).Nodup) (c : Int) (d : Bytes) :
    Sim h i (setPropertyData h i c d) ((view h i).setPropertyData c d) := by
  unfold setPropertyData Obj.setPropertyData
  rw [view_getProperty]
  unfold getProperty
  cases hr : getRef h i c with
  | none => exact ⟨rfl, rfl, Frame.refl h i⟩
  | some r => exact ⟨view_storeRef hn hr d, rfl, storeRef_frame h i r d (mem_refs hr)⟩

theorem setPropertyMap_sim (h : Heap) (i : Nat) (hn : (refs h i).Nodup) (c : Int) (m : List Int) :
    Sim h i (setPropertyMap h i c m) (SuperObj.setPropertyMap (view h i) c m) := by
  have hh : (view h i).hasProperty c = (getRef h i c).isSome := by
    unfold Obj.hasProperty
    rw [view_getProperty]
    unfold getProperty
    cases getRef h i c <;> rfl
  unfold setPropertyMap SuperObj.setPropertyMap
  rw [hh]
  split
  · exact ⟨rfl, rfl, Frame.refl h i⟩
  · cases SuperObj.mapBytes m.length m with
    | error e => exact ⟨rfl, rfl, Frame.refl h i⟩
    | ok mb =>
      simp only []
      split
      · obtain ⟨h1, h2, h3⟩ := setPropertyData_sim h i hn c mb
        exact ⟨h1, congrArg Except.ok h2, h3⟩
      · cases SuperObj.mapBytes OProp.FORMAT2_MAP_SIZE (SuperObj.format2Codes m) with
        | error e => exact ⟨rfl, rfl, Frame.refl h i⟩
        | ok mb =>
          obtain ⟨h1, h2, h3⟩ := setPropertyData_sim h i hn c mb
          exact ⟨h1, congrArg Except.ok h2, h3⟩

theorem updateMaps_sim (ord : List Int → List Int) (h : Heap) (i : Nat) (hn : (refs h i).Nodup) :
    Sim h i (updateMaps ord h i) (SuperObj.updateMaps ord (view h i)) := by
  unfold updateMaps SuperObj.updateMaps SuperObj.annoList SuperObj.getList SuperObj.setList
  rw [view_values]
  generalize ord (((properties h i).filter fun p => p.isAnnounceRequired).map OProp.code) = l1
  generalize ord (((properties h i).filter fun p => p.isReadEnabled).map OProp.code) = l2
  generalize ord (((properties h i).filter fun p => p.isWriteEnabled).map OProp.code) = l3
  simp only []
  have s1 := setPropertyMap_sim h i hn SuperObj.ANNO_PROPERTY_MAP l1
  generalize setPropertyMap h i SuperObj.ANNO_PROPERTY_MAP l1 = x at s1 ⊢
  generalize SuperObj.setPropertyMap (view h i) SuperObj.ANNO_PROPERTY_MAP l1 = y at s1 ⊢
  obtain ⟨h1, rx⟩ := x
  obtain ⟨o1, ry⟩ := y
  obtain ⟨e1, e2, f1⟩ := s1
  simp only [] at e1 e2 f1
  subst e1 e2
  rcases rx with e | (_ | _)
  · exact ⟨rfl, rfl, f1⟩
  · exact ⟨rfl, rfl, f1⟩
  · simp only []
    have hn1 : (refs h1 i).Nodup := by rw [f1.refs]; exact hn
    have s2 := setPropertyMap_sim h1 i hn1 SuperObj.GET_PROPERTY_MAP l2
    generalize setPropertyMap h1 i SuperObj.GET_PROPERTY_MAP l2 = x at s2 ⊢
    generalize SuperObj.setPropertyMap (view h1 i) SuperObj.GET_PROPERTY_MAP l2 = y at s2 ⊢
    obtain ⟨h2, rx⟩ := x
    obtain ⟨o2, ry⟩ := y
    obtain ⟨e1, e2, f2⟩ := s2
    simp only [] at e1 e2 f2
    subst e1 e2
    rcases rx with e | (_ | _)
    · exact ⟨rfl, rfl, f1.trans f2⟩
    · exact ⟨rfl, rfl, f1.trans f2⟩
    · simp only []
      have hn2 : (refs h2 i).Nodup := by rw [f2.refs]; exact hn1
      exact Sim.of_frame (f1.trans f2) (setPropertyMap_sim h2 i hn2 SuperObj.SET_PROPERTY_MAP l3)

/-! ### Requests -/

theorem writeRequested_eq (env : Env) (h : Heap) (i r : Nat) (d : Bytes) :
    (view h i).callWrite env (h.cells r).prop d = (view h i, .ok (writeRequested h i r)) := by
  show (view h i, (view h i).superWrite (h.cells r).prop) = _
  unfold Obj.superWrite writeRequested
  rw [view_getProperty]
  cases getProperty h i (h.cells r).prop.code <;> rfl

theorem readRequested_eq (env : Env) (h : Heap) (i : Nat) (r : Option Nat) :
    (view h i).callRead env (r.map fun r => (h.cells r).prop) = (view h i, readRequested h i r) := by
  show (view h i, (view h i).superRead (r.map fun r => (h.cells r).prop)) = _
  cases r with
  | none => rfl
  | some r =>
    simp only [Option.map_some]
    unfold Obj.superRead readRequested
    simp only []
    rw [view_getProperty]
    cases getProperty h i (h.cells r).prop.code <;> rfl

theorem setLoop_sim (env : Env) (i : Nat) (ms : List PProp) : ∀ (h : Heap) (cnt : Nat) (acc : List PProp), (refs h i).Nodup →
    Sim h i ((setLoop i h ms cnt acc).1, Except.ok (setLoop i h ms cnt acc).2) (Obj.setLoop env (view h i) ms cnt acc) := by
  induction ms with
  | nil => intro h cnt acc _; exact ⟨rfl, rfl, Frame.refl h i⟩
  | cons mp ms ih =>
    intro h cnt acc hn
    unfold setLoop Obj.setLoop
    rw [view_getProperty]
    unfold getProperty
    cases hr : getRef h i mp.code with
    | none => exact ih h _ _ hn
    | some r =>
      simp only [Option.map_some]
      rw [writeRequested_eq]
      cases writeRequested h i r with
      | false => exact ih h _ _ hn
      | true =>
        simp only [if_true]
        rw [← view_storeRef hn hr]
        have f := storeRef_frame h i r mp.data (mem_refs hr)
        exact Sim.of_frame f (ih _ _ _ (by rw [f.refs]; exact hn))

theorem getLoop_sim (env : Env) (i : Nat) (ms : List PProp) (h : Heap) : ∀ (cnt : Nat) (acc : List PProp),
    Obj.getLoop env (view h i) ms cnt acc = (view h i, getLoop i h ms cnt acc) := by
  induction ms with
  | nil => intro cnt acc; rfl
  | cons mp ms ih =>
    intro cnt acc
    unfold getLoop Obj.getLoop
    have hg : (view h i).getProperty mp.code = (getRef h i mp.code).map fun r => (h.cells r).prop := view_getProperty h i mp.code
    rw [hg, readRequested_eq]
    have hd : (view h i).getPropertyData mp.code = (getRef h i mp.code).map fun r => (h.cells r).prop.data := by
      have : (view h i).getPropertyData mp.code = ((view h i).getProperty mp.code).map OProp.data := by
        unfold Obj.getPropertyData Obj.getProperty
        cases Dict.get? (view h i).props mp.code <;> rfl
      rw [this, hg, Option.map_map]
      rfl
    cases hr : getRef h i mp.code with
    | none => rfl
    | some r =>
      rcases readRequested h i (some r) with e | (_ | _)
      · rfl
      · exact ih _ _
      · simp only [Option.map_some]
        rw [hd, hr]
        exact ih _ _

theorem plainLoop_sim (env : Env) (i : Nat) (esv : Int) (ms : List PProp) : ∀ (h : Heap) (cnt : Nat) (acc : List PProp), (refs h i).Nodup →
    Sim h i (plainLoop i esv h ms cnt acc) (Obj.plainLoop env esv (view h i) ms cnt acc) := by
  induction ms with
  | nil => intro h cnt acc _; exact ⟨rfl, rfl, Frame.refl h i⟩
  | cons mp ms ih =>
    intro h cnt acc hn
    unfold plainLoop Obj.plainLoop
    have hg : (view h i).getProperty mp.code = (getRef h i mp.code).map fun r => (h.cells r).prop := view_getProperty h i mp.code
    have hd : (view h i).getPropertyData mp.code = (getRef h i mp.code).map fun r => (h.cells r).prop.data := by
      have : (view h i).getPropertyData mp.code = ((view h i).getProperty mp.code).map OProp.data := by
        unfold Obj.getPropertyData Obj.getProperty
        cases Dict.get? (view h i).props mp.code <;> rfl
      rw [this, hg, Option.map_map]
      rfl
    rw [hg]
    cases hr : getRef h i mp.code with
    | none => exact ih h _ _ hn
    | some r =>
      simp only [Option.map_some]
      split
      · have := readRequested_eq env h i (some r)
        simp only [Option.map_some] at this
        rw [this]
        rcases readRequested h i (some r) with e | (_ | _)
        · exact ⟨rfl, rfl, Frame.refl h i⟩
        · exact ih h _ _ hn
        · simp only []
          rw [hd, hr]
          exact ih h _ _ hn
      · split
        · rw [writeRequested_eq]
          cases writeRequested h i r with
          | false => exact ih h _ _ hn
          | true =>
            simp only [if_true]
            rw [← view_storeRef hn hr]
            have f := storeRef_frame h i r mp.data (mem_refs hr)
            exact Sim.of_frame f (ih _ _ _ (by rw [f.refs]; exact hn))
        · exact ih h _ _ hn

theorem messageReceived_sim (env : Env) (h : Heap) (i : Nat) (hn : (refs h i).Nodup) (m : Msg) :
    Sim h i (messageReceived h i m) (((view h i).messageReceived env m).obj, ((view h i).messageReceived env m).result) := by
  have he : (view h i).messageReceived env m = { obj := ((view h i).handleRequest env m).1, notified := [], result := ((view h i).handleRequest env m).2 } := rfl
  rw [he]
  unfold messageReceived Obj.handleRequest
  have hh : ¬ (view h i).handler = .none := by show ¬ (HandlerRef.self_ = HandlerRef.none); decide
  rw [if_neg hh]
  split
  · exact ⟨rfl, rfl, Frame.refl h i⟩
  simp only []
  split
  · have s := setLoop_sim env i m.setProps h 0 [] hn
    generalize setLoop i h m.setProps 0 [] = x at s ⊢
    generalize Obj.setLoop env (view h i) m.setProps 0 [] = y at s ⊢
    obtain ⟨h1, cnt, sps⟩ := x
    obtain ⟨o1, ry⟩ := y
    obtain ⟨e1, e2, f1⟩ := s
    simp only [] at e1 e2 f1
    subst e1 e2
    simp only []
    rw [getLoop_sim]
    rcases getLoop i h1 m.getProps cnt [] with e | ⟨c, g⟩
    · exact ⟨rfl, rfl, f1⟩
    · exact ⟨rfl, rfl, f1⟩
  · have s := plainLoop_sim env i m.esv m.props h 0 [] hn
    generalize plainLoop i m.esv h m.props 0 [] = x at s ⊢
    generalize Obj.plainLoop env m.esv (view h i) m.props 0 [] = y at s ⊢
    obtain ⟨h1, rx⟩ := x
    obtain ⟨o1, ry⟩ := y
    obtain ⟨e1, e2, f1⟩ := s
    simp only [] at e1 e2 f1
    subst e1 e2
    rcases rx with e | ⟨c, g⟩
    · exact ⟨rfl, rfl, f1⟩
    · exact ⟨rfl, rfl, f1⟩

/-! ### Programs -/

/-- No property is in two tables, or in one table twice; those still to be added are in none, and as they were made. -/
structure Sep (made : Nat → OProp) (h : Heap) (ops : List Op) : Prop where
  once : ∀ i, (refs h i).Nodup
  apart : ∀ i j r, r ∈ refs h i → r ∈ refs h j → i = j
  later : ∀ r ∈ addedProps ops, (∀ i, r ∉ refs h i) ∧ (h.cells r).prop = made r
  nodup : (addedProps ops).Nodup

theorem addedProps_sub (op : Op) (ops : List Op) : ∀ r ∈ addedProps ops, r ∈ addedProps (op :: ops) := by
  intro r hr
  unfold addedProps at *
  rw [List.filterMap_cons]
  split
  · exact hr
  · exact List.mem_cons_of_mem _ hr

theorem Sep.of_frame {made : Nat → OProp} {h h' : Heap} {i : Nat} {ops : List Op} (s : Sep made h ops) (f : Frame h h' i) : Sep made h' ops where
  once j := by rw [f.refs]; exact s.once j
  apart a b r := by rw [f.refs, f.refs]; exact s.apart a b r
  later r hr := ⟨fun j => by rw [f.refs]; exact (s.later r hr).1 j, by rw [f.2 r ((s.later r hr).1 i)]; exact (s.later r hr).2⟩
  nodup := s.nodup

theorem Sep.tail {made : Nat → OProp} {h : Heap} {op : Op} {ops : List Op} (s : Sep made h (op :: ops)) : Sep made h ops where
  once := s.once
  apart := s.apart
  later r hr := s.later r (addedProps_sub op ops r hr)
  nodup := by
    have := s.nodup
    unfold addedProps at *
    rw [List.filterMap_cons] at this
    split at this
    · exact this
    · exact (List.nodup_cons.mp this).2

theorem mem_values_set (d : Dict Int Nat) (c : Int) (v r : Nat) (hr : r ∈ Dict.values (Dict.set d c v)) : r = v ∨ r ∈ Dict.values d := by
  induction d with
  | nil => left; simpa [Dict.set, Dict.values] using hr
  | cons kv d ih =>
    obtain ⟨a, b⟩ := kv
    unfold Dict.set at hr
    unfold Dict.values at *
    split at hr
    · simp only [List.map_cons, List.mem_cons] at hr ⊢
      rcases hr with hr | hr
      · exact Or.inl hr
      · exact Or.inr (Or.inr hr)
    · simp only [List.map_cons, List.mem_cons] at hr ⊢
      rcases hr with hr | hr
      · exact Or.inr (Or.inl hr)
      · rcases ih hr with h | h
        · exact Or.inl h
        · exact Or.inr (Or.inr h)

theorem nodup_values_set (d : Dict Int Nat) (c : Int) (v : Nat) (hv : v ∉ Dict.values d) (hn : (Dict.values d).Nodup) : (Dict.values (Dict.set d c v)).Nodup := by
  induction d with
  | nil => simp [Dict.set, Dict.values]
  | cons kv d ih =>
    obtain ⟨a, b⟩ := kv
    have hn' := List.nodup_cons.mp hn
    have hv' : v ≠ b ∧ v ∉ Dict.values d := by
      unfold Dict.values at *
      simpa using hv
    unfold Dict.set
    split
    · exact List.nodup_cons.mpr ⟨hv'.2, hn'.2⟩
    · refine List.nodup_cons.mpr ⟨?_, ih hv'.2 hn'.2⟩
      intro hb
      rcases mem_values_set d c v b hb with e | e
      · exact hv'.1 e.symm
      · exact hn'.1 e

theorem refs_add (h : Heap) (i r j : Nat) : refs (addPropertyBase h i r) j =
    if j = i then Dict.values (Dict.set (h.objs i).table (h.cells r).prop.code r) else refs h j := by
  unfold refs addPropertyBase
  simp only []
  split <;> rfl

theorem cells_add (h : Heap) (i r k : Nat) : ((addPropertyBase h i r).cells k).prop = (h.cells k).prop := by
  unfold addPropertyBase
  simp only []
  split
  · rename_i e; rw [e]
  · rfl

theorem view_add (h : Heap) (i r : Nat) : view (addPropertyBase h i r) i = (view h i).addPropertyBase (h.cells r).prop := by
  unfold Spec.view Obj.addPropertyBase
  simp only [cells_add]
  show Obj.mk (if i = i then _ else _ : HObj).code _ _ _ _ = _
  rw [if_pos rfl]
  congr 1
  show ((if i = i then _ else _ : HObj).table).map _ = _
  rw [if_pos rfl]
  exact set_map (h.objs i).table (fun r => (h.cells r).prop) _ r

theorem view_add_other (h : Heap) (i r j : Nat) (hj : j ≠ i) : view (addPropertyBase h i r) j = view h j := by
  unfold Spec.view
  simp only [cells_add]
  have : (addPropertyBase h i r).objs j = h.objs j := by show (if j = i then _ else _) = _; rw [if_neg hj]
  rw [this]

/-- One operation of a program. -/
theorem step_sim (ord : List Int → List Int) (made : Nat → OProp) (h : Heap) (op : Op) (ops : List Op) (s : Sep made h (op :: ops)) :
    view (step ord h op).1 op.target = (alone ord made (view h op.target) op).1 ∧ (step ord h op).2 = (alone ord made (view h op.target) op).2 ∧
    (∀ j, j ≠ op.target → view (step ord h op).1 j = view h j) ∧ Sep made (step ord h op).1 ops := by
  have apart : ∀ i j, j ≠ i → ∀ r ∈ refs h j, r ∉ refs h i := fun i j hj r h1 h2 => hj (s.apart j i r h1 h2)
  cases op with
  | setData i c d =>
    obtain ⟨h1, h2, h3⟩ := setPropertyData_sim h i (s.once i) c d
    exact ⟨h1, by show Out.bool (.ok _) = Out.bool (.ok _); rw [h2]; rfl, fun j hj => h3.view j (apart i j hj), s.tail.of_frame h3⟩
  | receive i m =>
    obtain ⟨h1, h2, h3⟩ := messageReceived_sim ⟨fun _ => ⟨fun o _ => (o, .ok false), fun o _ _ => (o, .ok false)⟩, fun _ _ => none⟩ h i (s.once i) m
    exact ⟨h1, by show Out.answer _ = Out.answer _; rw [h2]; rfl, fun j hj => h3.view j (apart i j hj), s.tail.of_frame h3⟩
  | add i r =>
    have hnd : (r :: addedProps ops).Nodup := s.nodup
    obtain ⟨l1, l2⟩ := s.later r (List.mem_cons_self)
    have sb : Sep made (addPropertyBase h i r) ops := by
      refine ⟨?_, ?_, ?_, (List.nodup_cons.mp hnd).2⟩
      · intro j
        rw [refs_add]
        split
        · exact nodup_values_set _ _ _ (l1 i) (s.once i)
        · exact s.once j
      · intro a b k ha hb
        rw [refs_add] at ha hb
        have cases_ : ∀ x, (k ∈ if x = i then Dict.values (Dict.set (h.objs i).table (h.cells r).prop.code r) else refs h x) → (k = r ∧ x = i) ∨ k ∈ refs h x := by
          intro x hx
          split at hx
          · rename_i e
            rcases mem_values_set _ _ _ _ hx with e' | e'
            · exact Or.inl ⟨e', e⟩
            · exact Or.inr (e ▸ e')
          · exact Or.inr hx
        rcases cases_ a ha with ⟨e1, e2⟩ | ha
        · rcases cases_ b hb with ⟨e3, e4⟩ | hb
          · rw [e2, e4]
          · exact absurd (e1 ▸ hb) (l1 b)
        · rcases cases_ b hb with ⟨e3, e4⟩ | hb
          · exact absurd (e3 ▸ ha) (l1 a)
          · exact s.apart a b k ha hb
      · intro k hk
        obtain ⟨k1, k2⟩ := s.later k (addedProps_sub (.add i r) ops k hk)
        refine ⟨fun j hj => ?_, by rw [cells_add]; exact k2⟩
        rw [refs_add] at hj
        split at hj
        · rcases mem_values_set _ _ _ _ hj with e | e
          · exact (List.nodup_cons.mp hnd).1 (e ▸ hk)
          · exact k1 i e
        · exact k1 j hj
    have hu := updateMaps_sim ord (addPropertyBase h i r) i (sb.once i)
    have hv : view (addPropertyBase h i r) i = (view h i).addPropertyBase (made r) := by rw [view_add, l2]
    rw [hv] at hu
    obtain ⟨h1, h2, h3⟩ := hu
    have hstep : (step ord h (.add i r)).1 = (updateMaps ord (addPropertyBase h i r) i).1 := by
      show (addProperty ord h i r).1 = _
      unfold addProperty
      rcases updateMaps ord (addPropertyBase h i r) i with ⟨x, e | b⟩ <;> rfl
    have halone : (alone ord made (view h i) (.add i r)).1 = (SuperObj.updateMaps ord ((view h i).addPropertyBase (made r))).1 := by
      show (SuperObj.addProperty ord (view h i) (made r)).1 = _
      unfold SuperObj.addProperty
      simp only []
      rcases SuperObj.updateMaps ord ((view h i).addPropertyBase (made r)) with ⟨x, e | b⟩ <;> rfl
    refine ⟨by rw [hstep]; exact h1.trans halone.symm, ?_, ?_, ?_⟩
    · show Out.bool (addProperty ord h i r).2 = Out.bool (SuperObj.addProperty ord (view h i) (made r)).2
      unfold addProperty SuperObj.addProperty
      simp only []
      generalize updateMaps ord (addPropertyBase h i r) i = x at h2 ⊢
      generalize SuperObj.updateMaps ord ((view h i).addPropertyBase (made r)) = y at h2 ⊢
      obtain ⟨_, rx⟩ := x
      obtain ⟨_, ry⟩ := y
      simp only [] at h2
      subst h2
      cases rx <;> rfl
    · intro j hj
      rw [hstep, h3.view j (fun k a b => hj (sb.apart j i k a b))]
      exact view_add_other h i r j hj
    · rw [hstep]
      exact sb.of_frame h3

theorem run_sim (ord : List Int → List Int) (made : Nat → OProp) (ops : List Op) : ∀ (h : Heap), Sep made h ops → ∀ i,
    view (run ord h ops).1 i = (runAlone ord made (view h i) (about i ops)).1 ∧
    ((run ord h ops).2.filter fun x => decide (x.1 = i)).map Prod.snd = (runAlone ord made (view h i) (about i ops)).2 := by
  induction ops with
  | nil => intro h _ i; exact ⟨rfl, rfl⟩
  | cons op ops ih =>
    intro h s i
    obtain ⟨h1, h2, h3, h4⟩ := step_sim ord made h op ops s
    obtain ⟨i1, i2⟩ := ih (step ord h op).1 h4 i
    unfold about
    rw [List.filter_cons]
    have hr1 : (run ord h (op :: ops)).1 = (run ord (step ord h op).1 ops).1 := rfl
    have hr2 : (run ord h (op :: ops)).2 = (op.target, (step ord h op).2) :: (run ord (step ord h op).1 ops).2 := rfl
    rw [hr1, hr2, List.filter_cons]
    by_cases ht : op.target = i
    · subst ht
      simp only [decide_true, if_true, List.map_cons]
      rw [h1] at i1 i2
      exact ⟨i1, by rw [i2, h2]; rfl⟩
    · rw [h3 i (Ne.symm ht)] at i1 i2
      simp only [decide_eq_false ht, Bool.false_eq_true, if_false]
      exact ⟨i1, i2⟩

end Alias
end Uecho
