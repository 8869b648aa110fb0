/- C130: the objects of a program do not affect each other. -/
import Verif.Lemmas.Aliasing
import Verif.Spec.Handling

namespace Uecho
open Spec

/-- C130, what holds: if a program adds no property twice, each of its objects ends as if it had been alone, whatever the program and the network do to all of them and in whatever
order, and every call for it, and every answer it gives, is the one it would have given alone. -/
theorem C130_apart_partial (ord : List Int → List Int) (h : Alias.Heap) (hf : Fresh h) (ops : List Alias.Op) (hn : (addedProps ops).Nodup) (i : Nat) :
    let alone := runAlone ord (fun r => (h.cells r).prop) { code := (h.objs i).code, handler := .self_ } (about i ops)
    view (Alias.run ord h ops).1 i = alone.1 ∧ ((Alias.run ord h ops).2.filter fun x => decide (x.1 = i)).map Prod.snd = alone.2 := by
  have hr : ∀ j, Alias.refs h j = [] := by intro j; unfold Alias.refs; rw [hf j]; rfl
  have hv : view h i = { code := (h.objs i).code, handler := .self_ } := by unfold view; rw [hf i]; rfl
  have := Alias.run_sim ord (fun r => (h.cells r).prop) ops h
    ⟨fun j => by rw [hr]; exact List.nodup_nil, fun a b r ha => absurd ha (by rw [hr]; exact List.not_mem_nil), fun r _ => ⟨fun j => by rw [hr]; exact List.not_mem_nil, rfl⟩, hn⟩ i
  rw [hv] at this
  exact this

/-- C130, in full: false. Two objects that were given the same property: whatever a peer writes to one of them is read from the other. -/
theorem C130_shared_false (h : Alias.Heap) (i j r : Nat) (c : Int) (d : Bytes) (hi : Alias.getRef h i c = some r) (hj : Alias.getRef h j c = some r) (hc : (h.cells r).prop.code = c)
    (hw : CanWrite (h.cells r).prop) (hr : CanRead (h.cells r).prop) :
    ∃ h', Alias.messageReceived h i { tid := 1, seoj := 0x05FF01, deoj := (h.objs i).code, esv := 0x61, props := [{ code := c, data := d }] } =
        (h', .ok (some { tid := 1, seoj := (h.objs i).code, deoj := 0x05FF01, esv := 0x71, props := [{ code := c }] })) ∧
      Alias.messageReceived h' j { tid := 2, seoj := 0x05FF01, deoj := (h.objs j).code, esv := 0x62, props := [{ code := c }] } =
        (h', .ok (some { tid := 2, seoj := (h.objs j).code, deoj := 0x05FF01, esv := 0x72, props := [{ code := c, data := d }] })) := by
  have hwr : Alias.writeRequested h i r = true := by
    unfold Alias.writeRequested Alias.getProperty
    rw [hc, hi]
    show OProp.isWriteEnabled _ = true
    unfold CanWrite at hw
    unfold OProp.isWriteEnabled OProp.isAttributeEnabled
    rcases hw with hw | hw <;> simp [hw, OProp.REQUIRED, OProp.OPTIONAL]
  have hrd : ∀ d, Alias.readRequested (Alias.storeRef h r d) j (some r) = .ok true := by
    intro d
    have hcell : ((Alias.storeRef h r d).cells r).prop = { (h.cells r).prop with data := d } := by
      show (if r = r then _ else _ : Alias.Cell).prop = _; rw [if_pos rfl]
    unfold Alias.readRequested Alias.getProperty
    have hg : Alias.getRef (Alias.storeRef h r d) j c = some r := hj
    simp only [hcell, hc, hg, Option.map_some]
    unfold CanRead at hr
    unfold OProp.isReadEnabled OProp.isAttributeEnabled
    rcases hr with hr | hr <;> simp [hr, OProp.REQUIRED, OProp.OPTIONAL]
  refine ⟨Alias.storeRef h r d, ?_, ?_⟩
  · unfold Alias.messageReceived Alias.plainLoop
    simp only [hi, hwr]
    rfl
  · have hg : Alias.getRef (Alias.storeRef h r d) j c = some r := hj
    have hcell : ((Alias.storeRef h r d).cells r).prop.data = d := by
      show (if r = r then _ else _ : Alias.Cell).prop.data = _; rw [if_pos rfl]
    unfold Alias.messageReceived Alias.plainLoop
    simp only [hg, hrd, hcell]
    rfl

/-- No operation but `add_property` changes what `object` of a property refers to. -/
theorem updateMaps_owner (ord : List Int → List Int) (h : Alias.Heap) (i k : Nat) : ((Alias.updateMaps ord h i).1.cells k).owner = (h.cells k).owner ∧
    (Alias.updateMaps ord h i).1.objs = h.objs := by
  have hd : ∀ h c d, ((Alias.setPropertyData h i c d).1.cells k).owner = (h.cells k).owner ∧ (Alias.setPropertyData h i c d).1.objs = h.objs := by
    intro h c d
    unfold Alias.setPropertyData
    cases Alias.getRef h i c with
    | none => exact ⟨rfl, rfl⟩
    | some r =>
      refine ⟨?_, rfl⟩
      show (if k = r then _ else _ : Alias.Cell).owner = _
      split
      · rename_i e; rw [e]
      · rfl
  have hm : ∀ h c l, ((Alias.setPropertyMap h i c l).1.cells k).owner = (h.cells k).owner ∧ (Alias.setPropertyMap h i c l).1.objs = h.objs := by
    intro h c l
    unfold Alias.setPropertyMap
    split
    · exact ⟨rfl, rfl⟩
    · cases SuperObj.mapBytes l.length l with
      | error e => exact ⟨rfl, rfl⟩
      | ok mb =>
        simp only []
        split
        · exact hd _ _ _
        · cases SuperObj.mapBytes OProp.FORMAT2_MAP_SIZE (SuperObj.format2Codes l) with
          | error e => exact ⟨rfl, rfl⟩
          | ok mb => exact hd _ _ _
  unfold Alias.updateMaps
  generalize ord (((Alias.properties h i).filter fun p => p.isAnnounceRequired).map OProp.code) = l1
  generalize ord (((Alias.properties h i).filter fun p => p.isReadEnabled).map OProp.code) = l2
  generalize ord (((Alias.properties h i).filter fun p => p.isWriteEnabled).map OProp.code) = l3
  simp only []
  have h1 := hm h SuperObj.ANNO_PROPERTY_MAP l1
  generalize Alias.setPropertyMap h i SuperObj.ANNO_PROPERTY_MAP l1 = x at h1 ⊢
  rcases x with ⟨x1, e | (_ | _)⟩
  · exact h1
  · exact h1
  · simp only []
    have h2 := hm x1 SuperObj.GET_PROPERTY_MAP l2
    generalize Alias.setPropertyMap x1 i SuperObj.GET_PROPERTY_MAP l2 = x at h2 ⊢
    have h2' := h2.1.trans h1.1
    have h2'' := h2.2.trans h1.2
    rcases x with ⟨x2, e | (_ | _)⟩
    · exact ⟨h2', h2''⟩
    · exact ⟨h2', h2''⟩
    · obtain ⟨a, b⟩ := hm x2 SuperObj.SET_PROPERTY_MAP l3
      exact ⟨a.trans h2', b.trans h2''⟩

/-- C130: nor does a property that was added to two objects belong to both. The first still has it, but its `object`, in whose name `send_message` of the property sends, is the
second. -/
theorem C130_owner_false (ord : List Int → List Int) (h : Alias.Heap) (i j r : Nat) (hij : i ≠ j) :
    let h' := (Alias.addProperty ord (Alias.addProperty ord h i r).1 j r).1
    Alias.getRef h' i (h.cells r).prop.code = some r ∧ (h'.cells r).owner = some j := by
  have hadd : ∀ h i, (Alias.addProperty ord h i r).1 = (Alias.updateMaps ord (Alias.addPropertyBase h i r) i).1 := by
    intro h i
    unfold Alias.addProperty
    rcases Alias.updateMaps ord (Alias.addPropertyBase h i r) i with ⟨x, e | b⟩ <;> rfl
  intro h'
  have e : h' = (Alias.updateMaps ord (Alias.addPropertyBase (Alias.updateMaps ord (Alias.addPropertyBase h i r) i).1 j r) j).1 := by
    show (Alias.addProperty ord (Alias.addProperty ord h i r).1 j r).1 = _
    rw [hadd, hadd]
  rw [e]
  constructor
  · unfold Alias.getRef
    rw [(updateMaps_owner ord _ j r).2]
    show Dict.get? ((if i = j then _ else _ : Alias.HObj).table) _ = _
    rw [if_neg hij, (updateMaps_owner ord _ i r).2]
    show Dict.get? ((if i = i then _ else _ : Alias.HObj).table) _ = _
    rw [if_pos rfl]
    simp only [Dict.get?_set, if_true]
  · rw [(updateMaps_owner ord _ j r).1]
    show (if r = r then _ else _ : Alias.Cell).owner = _
    rw [if_pos rfl]

/-! ### Examples -/

/-- Properties 0 and 1 are an operation status and a brightness, property 2 another operation status; the objects are lights. -/
def exHeap : Alias.Heap where
  cells k := { prop := if k = 1 then { code := 0xB0, data := [0x41], attrGet := 1, attrSet := 1 } else { code := 0x80, data := [0x30], attrGet := 1, attrSet := 1 } }
  objs i := { code := 0x029101 + i }

/-- `C130_apart_partial`: two lights with properties of their own; the first is switched off by a peer, the second is asked. -/
example : Fresh exHeap ∧ (addedProps [.add 0 0, .add 1 2, .add 0 1, .receive 0 { esv := 0x60, props := [{ code := 0x80, data := [0x31] }] }, .receive 1 { esv := 0x62, props := [{ code := 0x80 }] }]).Nodup :=
  ⟨fun _ => rfl, by decide⟩
example : view (Alias.run List.dedup exHeap [.add 0 0, .add 1 2, .add 0 1, .receive 0 { esv := 0x60, props := [{ code := 0x80, data := [0x31] }] }]).1 1 =
    { code := 0x029102, props := [(0x80, { code := 0x80, data := [0x30], attrGet := 1, attrSet := 1 })], handler := .self_ } := by decide
example : (view (Alias.run List.dedup exHeap [.add 0 0, .add 1 2, .add 0 1, .receive 0 { esv := 0x60, props := [{ code := 0x80, data := [0x31] }] }]).1 0).getPropertyData 0x80 = some [0x31] := by decide

/-- `C130_shared_false`: one operation status for both. -/
example : let h := (Alias.run List.dedup exHeap [.add 0 0, .add 1 0]).1
    Alias.getRef h 0 0x80 = some 0 ∧ Alias.getRef h 1 0x80 = some 0 ∧ (h.cells 0).prop.code = 0x80 ∧ CanWrite (h.cells 0).prop ∧ CanRead (h.cells 0).prop := by decide

end Uecho
