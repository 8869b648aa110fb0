/- C119: what a device written as the documentation shows tells of itself. -/
import Verif.Props.Light

namespace Uecho
open Spec Light

/-- The loop over the properties of a read request, for a device with the documented handler. -/
theorem docRead_loop {env : Env} (he : env.handler 0 = Light.docHandler) {o : Obj} {d : Bytes} (hl : IsLight o d) (items : List PProp) :
    ∀ (cnt : Nat) (acc : List PProp), Obj.plainLoop env 0x62 o items cnt acc =
      (o, .ok (cnt + (items.filter fun i => i.code = 0x80).length, acc ++ items.map fun i => { code := i.code, data := if i.code = 0x80 then d else [] })) := by
  induction items with
  | nil => intro cnt acc; simp [Obj.plainLoop]
  | cons i items ih =>
    intro cnt acc
    unfold Obj.plainLoop
    rw [getProperty_eq]
    obtain hk | ⟨p, hk⟩ := Option.eq_none_or_eq_some (lookup o.props i.code)
    · rw [hk]
      have hne : i.code ≠ 0x80 := by
        intro e
        obtain ⟨p, h1, -⟩ := hl.status
        rw [e, h1] at hk
        cases hk
      simp only []
      rw [ih]
      simp [hne]
    · rw [hk]
      simp only [show ESV.isReadRequest 0x62 = true from rfl, if_true]
      obtain ⟨k1, k2⟩ := light_asked hl hk
      rw [callRead_light he hl.handler, show Light.docHandler.read o (some p) = Light.docRead o (some p) from rfl]
      unfold Light.docRead
      simp only [k1]
      by_cases hc : i.code = 0x80
      · rw [if_neg (by simpa using hc)]
        simp only []
        rw [ih]
        have hd : (o.getPropertyData i.code).getD p.data = d := by
          rw [getPropertyData_eq, hk]
          exact k2 hc
        rw [hd]
        simp [hc, Nat.add_assoc, Nat.add_comm 1]
      · rw [if_pos hc]
        simp only []
        rw [ih]
        simp [hc]

/-- How a device with the documented handler answers a read request, in every state. -/
theorem doc_reads {env : Env} (he : env.handler 0 = Light.docHandler) {o : Obj} {d : Bytes} (hl : IsLight o d) (m : Msg) (hm : m.esv = 0x62) (hs : OwnSections m)
    (hq : Quiet env o m) :
    (o.messageReceived env m).obj = o ∧
    (o.messageReceived env m).result = .ok (some { tid := m.tid, seoj := m.deoj, deoj := m.seoj, esv := if ∀ i ∈ m.props, i.code = (0x80 : Int) then 0x72 else 0x52,
                                                   props := m.props.map fun i => { code := i.code, data := if i.code = (0x80 : Int) then d else [] } }) := by
  rw [messageReceived_quiet env o m hq]
  unfold Obj.handleRequest
  rw [hm, hl.handler]
  rw [if_neg (by decide), if_neg (by simp), if_neg (by decide)]
  rw [docRead_loop he hl]
  have hs' : m.setProps = [] ∧ m.getProps = [] := by
    have := hs
    unfold OwnSections at this
    rw [hm] at this
    simpa using this
  refine ⟨rfl, ?_⟩
  simp only []
  unfold Obj.respond Msg.opc Msg.opcSet Msg.opcGet
  rw [hm, hs'.1, hs'.2]
  have hcount : (0 + (m.props.filter fun i => i.code = 0x80).length = m.props.length + ([] : List PProp).length + ([] : List PProp).length) ↔ ∀ i ∈ m.props, i.code = 0x80 := by
    simp only [Nat.zero_add, List.length_nil, Nat.add_zero]
    rw [List.length_filter_eq_length_iff]
    simp
  by_cases h : ∀ i ∈ m.props, i.code = 0x80
  · rw [if_pos h, if_neg (by decide), if_neg (by decide), if_pos (by decide), if_pos (hcount.mpr h)]
    rfl
  · rw [if_neg h, if_neg (by decide), if_neg (by decide), if_pos (by decide), if_neg (fun x => h (hcount.mp x))]
    rfl

/-- C119 is false: in every state a device written as documented refuses to tell its property maps (0x9D, 0x9E, 0x9F), and every other property but its operation status:
a request for any list of them is answered with 0x52 and no data. So no controller can learn what it has. -/
theorem C119_maps_false {env : Env} (he : env.handler 0 = Light.docHandler) {o : Obj} {d : Bytes} (hl : IsLight o d) (m : Msg) (hm : m.esv = 0x62) (hs : OwnSections m)
    (hq : Quiet env o m) (h1 : m.props ≠ []) (h2 : ∀ i ∈ m.props, i.code ≠ 0x80) :
    (o.messageReceived env m).result = .ok (some { tid := m.tid, seoj := m.deoj, deoj := m.seoj, esv := 0x52
                                                   props := m.props.map fun i => ({ code := i.code } : PProp) }) := by
  rw [(doc_reads he hl m hm hs hq).2, if_neg]
  · congr 3
    apply List.map_congr_left
    intro i hi
    rw [if_neg (h2 i hi)]
  · intro h
    obtain ⟨i, hi⟩ := List.exists_mem_of_ne_nil _ h1
    exact h2 i hi (h i hi)

/-- Although it has the maps: the new device holds the map of the properties that may be read. -/
example : ((lookup (Light.new List.dedup).props 0x9F).map OProp.data).isSome = true := by decide +kernel

example : IsLight (Light.new List.dedup) [] := light_new (fun l => ⟨l.nodup_dedup, fun _ => List.mem_dedup⟩)

/-- C119 (what holds): in every state the device tells its operation status when asked for nothing else. Missing: `C119_maps_false`. -/
theorem C119_status_partial {env : Env} (he : env.handler 0 = Light.docHandler) {o : Obj} {d : Bytes} (hl : IsLight o d) (m : Msg) (hm : m.esv = 0x62) (hs : OwnSections m)
    (hq : Quiet env o m) (hp : m.props = [{ code := 0x80 }]) :
    (o.messageReceived env m).obj = o ∧
    (o.messageReceived env m).result = .ok (some { tid := m.tid, seoj := m.deoj, deoj := m.seoj, esv := 0x72, props := [{ code := 0x80, data := d }] }) := by
  have := doc_reads he hl m hm hs hq
  rw [hp] at this
  simpa using this

/-- C119 (what holds): asked for its status and other properties, it tells the status among them, and refuses the rest. Missing: `C119_maps_false`. -/
theorem C119_rest_partial {env : Env} (he : env.handler 0 = Light.docHandler) {o : Obj} {d : Bytes} (hl : IsLight o d) (m : Msg) (hm : m.esv = 0x62) (hs : OwnSections m)
    (hq : Quiet env o m) : ∃ r, (o.messageReceived env m).result = .ok (some r) ∧ r.props.map PProp.code = m.props.map PProp.code ∧
      ∀ i ∈ r.props, i.data = if i.code = 0x80 then d else [] := by
  refine ⟨_, (doc_reads he hl m hm hs hq).2, ?_, ?_⟩
  · simp only [List.map_map]
    rfl
  · intro i hi
    obtain ⟨j, -, rfl⟩ := List.mem_map.mp hi
    rfl

end Uecho
