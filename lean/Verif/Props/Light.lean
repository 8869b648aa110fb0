/- C100–C103: the sample light, and the device of the documentation. -/
import Verif.Lemmas.Light
import Verif.Props.Running

namespace Uecho
open Spec Light

/-- The lamp is lit. -/
def Lit (o : Obj) : Prop := o.ustate = 1

instance (o : Obj) : Decidable (Lit o) := by unfold Lit; infer_instance

/-- What happens to a light: it is switched by its owner (`start` and `stop` of its node do that), or gets a message; everything else in the
program, observers included, is arbitrary. -/
inductive LightOp where
  | on
  | off
  | message (env : Env) (m : Msg)

def LightOp.Ok (h : Handler) : LightOp → Prop
  | .message env _ => env.handler 0 = h
  | _ => True

def lightStep (o : Obj) : LightOp → Obj
  | .on => Light.on o
  | .off => Light.off o
  | .message env m => (o.messageReceived env m).obj

def lightRun (o : Obj) (ops : List LightOp) : Obj := ops.foldl lightStep o

/-- A light with status d. -/
structure IsLight (o : Obj) (d : Bytes) : Prop where
  wf : WellFormed o
  handler : o.handler = .user 0
  status : ∃ p, lookup o.props 0x80 = some p ∧ p.attrGet = 1 ∧ p.data = d

theorem light_new {ord : List Int → List Int} (hord : ValidOrder ord) : IsLight (Light.new ord) [] := by
  obtain ⟨o, h1, -, -, h4, -, h6⟩ := C39_device_properties ord hord (.int 0x029101) 0x029101 rfl
  have h80 := h6 0x80 (by decide) (by decide) (by decide)
  have : deviceProp (0x029101 / 65536 % 256) (0x029101 / 256 % 256) 0x80 = some { code := 0x80, attrGet := 1, attrSet := 1, attrAnno := 1 } := by decide +kernel
  rw [this] at h80
  unfold Light.new
  rw [h1]
  exact ⟨h4, rfl, _, h80, rfl, rfl⟩

theorem callWrite_light {env : Env} {h : Handler} (he : env.handler 0 = h) {o : Obj} (ho : o.handler = .user 0) (p : OProp) (d : Bytes) :
    o.callWrite env p d = h.write o p d := by
  unfold Obj.callWrite; rw [ho]; simp only [he]

theorem callRead_light {env : Env} {h : Handler} (he : env.handler 0 = h) {o : Obj} (ho : o.handler = .user 0) (p : Option OProp) :
    o.callRead env p = h.read o p := by
  unfold Obj.callRead; rw [ho]; simp only [he]

theorem light_store {o : Obj} {d : Bytes} (h : IsLight o d) (d' : Bytes) (u : Nat) : IsLight { o.storeData 0x80 d' with ustate := u } d' := by
  obtain ⟨p, h1, h2, h3⟩ := h.status
  refine ⟨wf_storeData o 0x80 d' h.wf, h.handler, { p with data := d' }, ?_, h2, rfl⟩
  rw [show ({ o.storeData 0x80 d' with ustate := u } : Obj).props = (o.storeData 0x80 d').props from rfl, lookup_storeData, if_pos rfl, h1]
  rfl

theorem light_other {o : Obj} {d : Bytes} (h : IsLight o d) (c : Int) (hc : c ≠ 0x80) (d' : Bytes) : IsLight (o.storeData c d') d := by
  obtain ⟨p, h1, h2, h3⟩ := h.status
  refine ⟨wf_storeData o c d' h.wf, h.handler, p, ?_, h2, h3⟩
  rw [lookup_storeData, if_neg (Ne.symm hc), h1]

theorem on_eq {o : Obj} {d : Bytes} (h : IsLight o d) : Light.on o = { o.storeData 0x80 [0x30] with ustate := 1 } := by
  obtain ⟨p, h1, -⟩ := h.status
  unfold Light.on Obj.setPropertyInteger
  rw [show fromIntPy 0x30 1 = .ok [0x30] by decide]
  simp only [Obj.setPropertyData, getProperty_eq, h1]

theorem off_eq {o : Obj} {d : Bytes} (h : IsLight o d) : Light.off o = { o.storeData 0x80 [0x31] with ustate := 0 } := by
  obtain ⟨p, h1, -⟩ := h.status
  unfold Light.off Obj.setPropertyInteger
  rw [show fromIntPy 0x31 1 = .ok [0x31] by decide]
  simp only [Obj.setPropertyData, getProperty_eq, h1]

/-- Who is asked about what. -/
theorem light_asked {o : Obj} {d : Bytes} (h : IsLight o d) {c : Int} {p : OProp} (hp : lookup o.props c = some p) : p.code = c ∧ (c = 0x80 → p.data = d) := by
  refine ⟨code_of_lookup h.wf hp, ?_⟩
  rintro rfl
  obtain ⟨p', h1, -, h3⟩ := h.status
  rw [h1] at hp
  injection hp with hp
  rw [← hp]; exact h3

theorem read_same {o : Obj} {d : Bytes} (h : IsLight o d) (c : Int) (p : OProp) (hp : lookup o.props c = some p) : Light.read o (some p) = (o, .ok p.isReadEnabled) := by
  unfold Light.read
  simp only []
  rw [(light_asked h hp).1, getProperty_eq, hp]
  simp only [Obj.superRead]
  rw [(light_asked h hp).1, getProperty_eq, hp]

theorem read_obj (o : Obj) (p : Option OProp) : (Light.read o p).1 = o := by
  unfold Light.read
  split
  · rfl
  · split <;> rfl

/-- The data of the light and its lamp agree. -/
def Honest (o : Obj) : Prop := ∃ b rest, IsLight o (b :: rest) ∧ (b = 0x30 ∧ o.ustate = 1 ∨ b = 0x31 ∧ o.ustate = 0)

theorem storeData_twice (o : Obj) (c : Int) (d d' : Bytes) (hw : WellFormed o) (u : Nat) :
    ({ o.storeData c d with ustate := u } : Obj).storeData c d' = { o.storeData c d' with ustate := u } := by
  have hw' : WellFormed ({ o.storeData c d with ustate := u } : Obj) := wf_storeData o c d hw
  rw [storeData_eq _ c d' hw'.1]
  have : afterWrites ({ o.storeData c d with ustate := u } : Obj) [{ code := c, data := d' }] =
      { afterWrites (o.storeData c d) [{ code := c, data := d' }] with ustate := u } := rfl
  have h2 : afterWrites o ([{ code := c, data := d }] ++ [{ code := c, data := d' }]) = afterWrites o [{ code := c, data := d' }] := by
    unfold afterWrites
    congr 1
    apply List.map_congr_left
    intro kp _
    rw [lastFor_append]
    by_cases hk : c = kp.1
    · simp [lastFor, hk]
    · simp [lastFor, hk]
  rw [this, storeData_eq o c d hw.1, afterWrites_append, storeData_eq o c d' hw.1, h2]

/-- What a write to the status does. -/
theorem write_status {o : Obj} {d : Bytes} (h : IsLight o d) (p : OProp) (hp : lookup o.props 0x80 = some p) (d' : Bytes) :
    Light.write o p d' =
      if d.length ≠ 1 then (o, .ok false)
      else match d' with
        | [] => (o, .error .indexError)
        | b :: _ => if b = 0x30 then ({ o.storeData 0x80 [0x30] with ustate := 1 }, .ok true)
          else if b = 0x31 then ({ o.storeData 0x80 [0x31] with ustate := 0 }, .ok true) else (o, .ok false) := by
  unfold Light.write
  rw [if_pos (light_asked h hp).1, (light_asked h hp).2 rfl]
  split
  · rfl
  · cases d' with
    | nil => rfl
    | cons b rest =>
      simp only []
      by_cases h1 : b = 0x30
      · rw [if_neg (by simp [h1]), if_pos h1, if_pos h1, on_eq h]
      · by_cases h2 : b = 0x31
        · rw [if_neg (by simp [h2]), if_neg h1, if_neg h1, if_pos h2, off_eq h]
        · rw [if_pos ⟨h1, h2⟩, if_neg h1, if_neg h2]

theorem write_other {o : Obj} {d : Bytes} (h : IsLight o d) (c : Int) (hc : c ≠ 0x80) (p : OProp) (hp : lookup o.props c = some p) (d' : Bytes) :
    Light.write o p d' = (o, .ok p.isWriteEnabled) := by
  unfold Light.write
  rw [if_neg (by rw [(light_asked h hp).1]; exact hc)]
  simp only [Obj.superWrite]
  rw [(light_asked h hp).1, getProperty_eq, hp]

theorem kept_honest (env : Env) (he : env.handler 0 = Light.handler) : Kept env Honest := by
  constructor
  · rintro o p ⟨b, rest, hl, hb⟩
    rw [callRead_light he hl.handler, show Light.handler.read o p = Light.read o p from rfl, read_obj]
    exact ⟨b, rest, hl, hb⟩
  · rintro o c p d - ⟨b, rest, hl, hb⟩ hp
    rw [callWrite_light he hl.handler, show Light.handler.write o p d = Light.write o p d from rfl]
    by_cases hc : c = 0x80
    · subst hc
      rw [write_status hl p hp]
      split
      · exact ⟨fun o' h => by simp at h, fun o' h => by simp at h; subst h; exact ⟨b, rest, hl, hb⟩, fun o' e h => by simp at h⟩
      · cases d with
        | nil => exact ⟨fun o' h => by simp at h, fun o' h => by simp at h, fun o' e h => by simp at h; rw [← h.1]; exact ⟨b, rest, hl, hb⟩⟩
        | cons x xs =>
          simp only []
          by_cases h1 : x = 0x30
          · rw [if_pos h1]
            refine ⟨fun o' h => ?_, fun o' h => by simp at h, fun o' e h => by simp at h⟩
            injection h with h _
            subst h
            rw [storeData_twice o 0x80 _ _ hl.wf]
            exact ⟨x, xs, light_store hl _ _, Or.inl ⟨h1, rfl⟩⟩
          · rw [if_neg h1]
            by_cases h2 : x = 0x31
            · rw [if_pos h2]
              refine ⟨fun o' h => ?_, fun o' h => by simp at h, fun o' e h => by simp at h⟩
              injection h with h _
              subst h
              rw [storeData_twice o 0x80 _ _ hl.wf]
              exact ⟨x, xs, light_store hl _ _, Or.inr ⟨h2, rfl⟩⟩
            · rw [if_neg h2]
              exact ⟨fun o' h => by simp at h, fun o' h => by simp at h; subst h; exact ⟨b, rest, hl, hb⟩, fun o' e h => by simp at h⟩
    · rw [write_other hl c hc p hp]
      refine ⟨fun o' h => ?_, fun o' h => ?_, fun o' e h => by simp at h⟩
      · injection h with h _
        subst h
        exact ⟨b, rest, light_other hl c hc d, hb⟩
      · injection h with h _
        subst h
        exact ⟨b, rest, hl, hb⟩

theorem honest_run (ops : List LightOp) : ∀ o, (∀ x ∈ ops, x.Ok Light.handler) → Honest o → Honest (lightRun o ops) := by
  induction ops with
  | nil => intro o _ h; exact h
  | cons x ops ih =>
    intro o hx h
    apply ih _ (fun y hy => hx y (List.mem_cons_of_mem _ hy))
    obtain ⟨b, rest, hl, -⟩ := id h
    cases x with
    | on => show Honest (Light.on o); rw [on_eq hl]; exact ⟨_, _, light_store hl _ _, Or.inl ⟨rfl, rfl⟩⟩
    | off => show Honest (Light.off o); rw [off_eq hl]; exact ⟨_, _, light_store hl _ _, Or.inr ⟨rfl, rfl⟩⟩
    | message env m => exact (kept_honest env (hx _ List.mem_cons_self)).received o m (fun _ _ => trivial) h

theorem honest_start {ord : List Int → List Int} (hord : ValidOrder ord) : Honest (Light.on (Light.new ord)) := by
  rw [on_eq (light_new hord)]
  exact ⟨_, _, light_store (light_new hord) _ _, Or.inl ⟨rfl, rfl⟩⟩

/-- How a light answers that is asked for its status. -/
theorem light_answers {env : Env} (he : env.handler 0 = Light.handler) {o : Obj} {d : Bytes} (h : IsLight o d) (m : Msg) (hq : Quiet env o m) (hm : m.esv = 0x62)
    (hp : m.props = [{ code := 0x80 }]) (hs : OwnSections m) :
    (o.messageReceived env m).obj = o ∧
    (o.messageReceived env m).result = .ok (some { tid := m.tid, seoj := m.deoj, deoj := m.seoj, esv := 0x72, props := [{ code := 0x80, data := d }] }) := by
  obtain ⟨p, h1, h2, h3⟩ := h.status
  rw [messageReceived_quiet env o m hq]
  have hsec : m.setProps = [] ∧ m.getProps = [] := by
    unfold OwnSections at hs
    rwa [hm, if_neg (by decide)] at hs
  unfold Obj.handleRequest
  rw [hm, hp, h.handler]
  rw [if_neg (by decide), if_neg (by simp), if_neg (by decide)]
  unfold Obj.plainLoop
  rw [getProperty_eq, h1]
  simp only [show ESV.isReadRequest 0x62 = true from rfl, if_true]
  rw [callRead_light he h.handler, show Light.handler.read o (some p) = Light.read o (some p) from rfl, read_same h 0x80 p h1,
    show p.isReadEnabled = true by unfold OProp.isReadEnabled; rw [h2]; rfl]
  simp only [Obj.plainLoop]
  rw [getPropertyData_of_lookup h1]
  unfold Obj.respond Msg.opc Msg.opcSet Msg.opcGet
  rw [hm, hp, hsec.1, hsec.2, h3]
  exact ⟨trivial, rfl⟩

/-- C100: the sample light reports what it shows. After it has been started, whatever messages it got, and whatever happened while it handled
them, a read of its status is answered with 0x30 (first byte) if it is lit and with 0x31 if it is not. -/
theorem C100_reports {ord : List Int → List Int} (hord : ValidOrder ord) (ops : List LightOp) (hops : ∀ x ∈ ops, x.Ok Light.handler)
    (env : Env) (he : env.handler 0 = Light.handler) (m : Msg) (hm : m.esv = 0x62) (hp : m.props = [{ code := 0x80 }]) (hs : OwnSections m) :
    let o := lightRun (Light.on (Light.new ord)) ops
    Quiet env o m → ∃ rest, (o.messageReceived env m).obj = o ∧ (o.messageReceived env m).result = .ok (some
      { tid := m.tid, seoj := m.deoj, deoj := m.seoj, esv := 0x72, props := [{ code := 0x80, data := (if Lit o then 0x30 else 0x31) :: rest }] }) := by
  intro o hq
  obtain ⟨b, rest, hl, hb⟩ := honest_run ops _ hops (honest_start hord)
  refine ⟨rest, ?_⟩
  have := light_answers he hl m hq hm hp hs
  rcases hb with ⟨rfl, hu⟩ | ⟨rfl, hu⟩
  · rw [if_pos (show Lit o from hu)]; exact this
  · rw [if_neg (show ¬ Lit o by unfold Lit; rw [show o.ustate = 0 from hu]; decide)]; exact this

/-- Switched off by a message. -/
example : let env : Env := { exEnv with handler := fun _ => Light.handler }
    let o := lightRun (Light.on (Light.new List.dedup)) [.message env { esv := 0x60, props := [{ code := 0x80, data := [0x31] }] }]
    ¬ Lit o ∧ (lookup o.props 0x80).map OProp.data = some [0x31] := by decide +kernel

/-- A request that writes one property. -/
def writeOne (m : Msg) (c : Int) (d : Bytes) : Prop := m.esv = 0x61 ∧ m.props = [{ code := c, data := d }] ∧ m.setProps = [] ∧ m.getProps = []

/-- How an object handles it. -/
theorem write_one {env : Env} {h : Handler} (he : env.handler 0 = h) {o : Obj} (ho : o.handler = .user 0) {c : Int} {p : OProp} (hp : lookup o.props c = some p)
    (m : Msg) (d : Bytes) (hm : writeOne m c d) (hq : Quiet env o m) :
    ∀ o' x, h.write o p d = (o', x) →
      (o.messageReceived env m).obj = (if x = .ok true then o'.storeData c d else o') ∧
      (o.messageReceived env m).result = match (motive := Except Exc Bool → Except Exc (Option Msg)) x with
        | .error e => .error e
        | .ok true => .ok (some { tid := m.tid, seoj := m.deoj, deoj := m.seoj, esv := 0x71, props := [{ code := c }] })
        | .ok false => .ok (some { tid := m.tid, seoj := m.deoj, deoj := m.seoj, esv := 0x50, props := [{ code := c, data := d }] }) := by
  intro o' x hx
  obtain ⟨h1, h2, h3, h4⟩ := hm
  rw [messageReceived_quiet env o m hq]
  unfold Obj.handleRequest
  rw [h1, h2, ho]
  rw [if_neg (by decide), if_neg (by simp), if_neg (by decide)]
  unfold Obj.plainLoop
  rw [getProperty_eq, hp]
  simp only [show ESV.isReadRequest 0x61 = false from rfl, show ESV.isWriteRequest 0x61 = true from rfl, if_true, Bool.false_eq_true, if_false]
  rw [callWrite_light he ho, hx]
  rcases x with e | (_ | _)
  · exact ⟨rfl, rfl⟩
  · simp only [Obj.plainLoop]
    unfold Obj.respond Msg.opc Msg.opcSet Msg.opcGet
    rw [h1, h2, h3, h4]
    exact ⟨rfl, rfl⟩
  · simp only [Obj.plainLoop]
    unfold Obj.respond Msg.opc Msg.opcSet Msg.opcGet
    rw [h1, h2, h3, h4]
    exact ⟨rfl, rfl⟩

/-! ## C101: switching -/

/-- Every write to the status in the history carries one byte. -/
def LightOp.OneByte : LightOp → Prop
  | .message _ m => ∀ i ∈ writeItems m, i.code = 0x80 → i.data.length = 1
  | _ => True

/-- A light with a status of one byte. -/
def OneByteLight (o : Obj) : Prop := ∃ b, IsLight o [b]

/-- Kept, as far as the items of the message go. -/
theorem onebyte_loop {env : Env} (he : env.handler 0 = Light.handler) {o : Obj} (ho : OneByteLight o) {c : Int} {p : OProp} (hp : lookup o.props c = some p) (d : Bytes)
    (hd : c = 0x80 → d.length = 1) :
    (∀ o', o.callWrite env p d = (o', .ok true) → OneByteLight (o'.storeData c d)) ∧
    (∀ o', o.callWrite env p d = (o', .ok false) → OneByteLight o') ∧ (∀ o' e, o.callWrite env p d = (o', .error e) → OneByteLight o') := by
  obtain ⟨b, hl⟩ := ho
  rw [callWrite_light he hl.handler, show Light.handler.write o p d = Light.write o p d from rfl]
  by_cases hc : c = 0x80
  · subst hc
    have hd := hd rfl
    rw [write_status hl p hp, if_neg (by simp)]
    match d, hd with
    | [x], _ =>
      simp only []
      by_cases h1 : x = 0x30
      · rw [if_pos h1]
        refine ⟨fun o' h => ?_, fun o' h => by simp at h, fun o' e h => by simp at h⟩
        injection h with h _
        subst h
        rw [storeData_twice o 0x80 _ _ hl.wf]
        exact ⟨x, light_store hl _ _⟩
      · rw [if_neg h1]
        by_cases h2 : x = 0x31
        · rw [if_pos h2]
          refine ⟨fun o' h => ?_, fun o' h => by simp at h, fun o' e h => by simp at h⟩
          injection h with h _
          subst h
          rw [storeData_twice o 0x80 _ _ hl.wf]
          exact ⟨x, light_store hl _ _⟩
        · rw [if_neg h2]
          exact ⟨fun o' h => by simp at h, fun o' h => by simp at h; subst h; exact ⟨b, hl⟩, fun o' e h => by simp at h⟩
  · rw [write_other hl c hc p hp]
    refine ⟨fun o' h => ?_, fun o' h => ?_, fun o' e h => by simp at h⟩
    · injection h with h _
      subst h
      exact ⟨b, light_other hl c hc d⟩
    · injection h with h _
      subst h
      exact ⟨b, hl⟩

theorem onebyte_read {env : Env} (he : env.handler 0 = Light.handler) {o : Obj} (ho : OneByteLight o) (p : Option OProp) : OneByteLight (o.callRead env p).1 := by
  obtain ⟨b, hl⟩ := ho
  rw [callRead_light he hl.handler, show Light.handler.read o p = Light.read o p from rfl, read_obj]
  exact ⟨b, hl⟩

theorem kept_onebyte {env : Env} (he : env.handler 0 = Light.handler) : Kept env OneByteLight (fun c d => c = 0x80 → d.length = 1) :=
  ⟨fun _ p h => onebyte_read he h p, fun _ _ _ d hd h hp => onebyte_loop he h hp d hd⟩

theorem onebyte_run (ops : List LightOp) : ∀ o, (∀ x ∈ ops, x.Ok Light.handler ∧ x.OneByte) → OneByteLight o → OneByteLight (lightRun o ops) := by
  induction ops with
  | nil => intro o _ h; exact h
  | cons x ops ih =>
    intro o hx h
    apply ih _ (fun y hy => hx y (List.mem_cons_of_mem _ hy))
    obtain ⟨b, hl⟩ := id h
    obtain ⟨hx1, hx2⟩ := hx _ List.mem_cons_self
    cases x with
    | on => show OneByteLight (Light.on o); rw [on_eq hl]; exact ⟨_, light_store hl _ _⟩
    | off => show OneByteLight (Light.off o); rw [off_eq hl]; exact ⟨_, light_store hl _ _⟩
    | message env m =>
      exact (kept_onebyte hx1).received o m hx2 h

/-- C101 (what holds): as long as every write to its status carries one byte, the light obeys each command: it is lit or not as commanded,
reports it, and confirms it with 0x71. Missing: `C101_stuck_false`. -/
theorem C101_obeys_partial {ord : List Int → List Int} (hord : ValidOrder ord) (ops : List LightOp) (hops : ∀ x ∈ ops, x.Ok Light.handler ∧ x.OneByte)
    (env : Env) (he : env.handler 0 = Light.handler) (m : Msg) (b : UInt8) (hb : b = 0x30 ∨ b = 0x31) (hm : writeOne m 0x80 [b]) :
    let o := lightRun (Light.on (Light.new ord)) ops
    Quiet env o m →
    (Lit (o.messageReceived env m).obj ↔ b = 0x30) ∧ (lookup (o.messageReceived env m).obj.props 0x80).map OProp.data = some [b] ∧
    (o.messageReceived env m).result = .ok (some { tid := m.tid, seoj := m.deoj, deoj := m.seoj, esv := 0x71, props := [{ code := 0x80 }] }) := by
  intro o hq
  obtain ⟨c, hl⟩ := onebyte_run ops (Light.on (Light.new ord)) hops (by rw [on_eq (light_new hord)]; exact ⟨_, light_store (light_new hord) _ _⟩)
  obtain ⟨p, hp, -⟩ := hl.status
  have hwr := write_status hl p hp [b]
  rw [if_neg (by simp)] at hwr
  simp only [] at hwr
  rcases hb with rfl | rfl
  · rw [if_pos rfl] at hwr
    obtain ⟨h1, h2⟩ := write_one he hl.handler hp m _ hm hq _ _ hwr
    rw [if_pos rfl, storeData_twice _ _ _ _ hl.wf] at h1
    obtain ⟨p', k1, -, k3⟩ := (light_store hl [0x30] 1).status
    rw [h1, h2, k1]
    exact ⟨⟨fun _ => rfl, fun _ => rfl⟩, congrArg some k3, rfl⟩
  · rw [if_neg (by decide), if_pos rfl] at hwr
    obtain ⟨h1, h2⟩ := write_one he hl.handler hp m _ hm hq _ _ hwr
    rw [if_pos rfl, storeData_twice _ _ _ _ hl.wf] at h1
    obtain ⟨p', k1, -, k3⟩ := (light_store hl [0x31] 0).status
    rw [h1, h2, k1]
    exact ⟨⟨fun h => absurd (show (0 : Nat) = 1 from h) (by decide), fun h => absurd h (by decide)⟩, congrArg some k3, rfl⟩

example : writeOne { esv := 0x61, props := [{ code := 0x80, data := [0x31] }] } 0x80 [0x31] := ⟨rfl, rfl, rfl, rfl⟩

/-- A light whose status is d and that is in state u. -/
def Stuck (d : Bytes) (u : Nat) (o : Obj) : Prop := IsLight o d ∧ o.ustate = u

theorem kept_stuck {env : Env} (he : env.handler 0 = Light.handler) (d : Bytes) (hd : d.length ≠ 1) (u : Nat) : Kept env (Stuck d u) := by
  constructor
  · rintro o p ⟨hl, hu⟩
    rw [callRead_light he hl.handler, show Light.handler.read o p = Light.read o p from rfl, read_obj]
    exact ⟨hl, hu⟩
  · rintro o c p d' - ⟨hl, hu⟩ hp
    rw [callWrite_light he hl.handler, show Light.handler.write o p d' = Light.write o p d' from rfl]
    by_cases hc : c = 0x80
    · subst hc
      rw [write_status hl p hp, if_pos hd]
      exact ⟨fun o' h => by simp at h, fun o' h => by simp at h; subst h; exact ⟨hl, hu⟩, fun o' e h => by simp at h⟩
    · rw [write_other hl c hc p hp]
      refine ⟨fun o' h => ?_, fun o' h => ?_, fun o' e h => by simp at h⟩
      · injection h with h _
        subst h
        exact ⟨light_other hl c hc d', hu⟩
      · injection h with h _
        subst h
        exact ⟨hl, hu⟩

/-- Messages received one after the other. -/
def messages (o : Obj) (ms : List (Env × Msg)) : Obj := ms.foldl (fun o x => (o.messageReceived x.1 x.2).obj) o

theorem kept_messages {h : Handler} {I : Obj → Prop} (hk : ∀ env : Env, env.handler 0 = h → Kept env I) (ms : List (Env × Msg)) :
    ∀ o, (∀ x ∈ ms, x.1.handler 0 = h) → I o → I (messages o ms) := by
  induction ms with
  | nil => intro o _ h; exact h
  | cons x ms ih => intro o hx hi; exact ih _ (fun y hy => hx y (List.mem_cons_of_mem _ hy)) ((hk x.1 (hx x List.mem_cons_self)).received o x.2 (fun _ _ => trivial) hi)

/-- C101 is false: a write of more than one byte beginning with 0x30 or 0x31 is confirmed, and from then on no message whatsoever switches the light
any more: every command is refused, with 0x50, after any number of messages. -/
theorem C101_stuck_false {ord : List Int → List Int} (hord : ValidOrder ord) (env : Env) (he : env.handler 0 = Light.handler) (m : Msg) (b x : UInt8) (rest : Bytes)
    (hb : b = 0x30 ∨ b = 0x31) (hm : writeOne m 0x80 (b :: x :: rest)) (hq : Quiet env (Light.on (Light.new ord)) m)
    (ms : List (Env × Msg)) (hms : ∀ y ∈ ms, y.1.handler 0 = Light.handler) (env' : Env) (he' : env'.handler 0 = Light.handler) (m' : Msg) (d : Bytes) (hm' : writeOne m' 0x80 d) :
    let o := messages ((Light.on (Light.new ord)).messageReceived env m).obj ms
    ((Light.on (Light.new ord)).messageReceived env m).result = .ok (some { tid := m.tid, seoj := m.deoj, deoj := m.seoj, esv := 0x71, props := [{ code := 0x80 }] }) ∧
    (Quiet env' o m' → (o.messageReceived env' m').obj = o ∧ (Lit o ↔ b = 0x30) ∧ (lookup o.props 0x80).map OProp.data = some (b :: x :: rest) ∧
      (o.messageReceived env' m').result = .ok (some { tid := m'.tid, seoj := m'.deoj, deoj := m'.seoj, esv := 0x50, props := [{ code := 0x80, data := d }] })) := by
  intro o
  have hl : IsLight (Light.on (Light.new ord)) [0x30] := by rw [on_eq (light_new hord)]; exact light_store (light_new hord) _ _
  obtain ⟨p, hp, -⟩ := hl.status
  have hwr := write_status hl p hp (b :: x :: rest)
  rw [if_neg (by simp)] at hwr
  simp only [] at hwr
  have key : ((Light.on (Light.new ord)).messageReceived env m).result = .ok (some { tid := m.tid, seoj := m.deoj, deoj := m.seoj, esv := 0x71, props := [{ code := 0x80 }] }) ∧
      Stuck (b :: x :: rest) (if b = 0x30 then 1 else 0) ((Light.on (Light.new ord)).messageReceived env m).obj := by
    rcases hb with rfl | rfl
    · rw [if_pos rfl] at hwr
      obtain ⟨h1, h2⟩ := write_one he hl.handler hp m _ hm hq _ _ hwr
      rw [if_pos rfl, storeData_twice _ _ _ _ hl.wf] at h1
      rw [h1, h2]
      exact ⟨rfl, light_store hl _ _, rfl⟩
    · rw [if_neg (by decide), if_pos rfl] at hwr
      obtain ⟨h1, h2⟩ := write_one he hl.handler hp m _ hm hq _ _ hwr
      rw [if_pos rfl, storeData_twice _ _ _ _ hl.wf] at h1
      rw [h1, h2]
      exact ⟨rfl, light_store hl _ _, rfl⟩
  refine ⟨key.1, fun hq' => ?_⟩
  obtain ⟨k1, k2⟩ : Stuck (b :: x :: rest) (if b = 0x30 then 1 else 0) o :=
    kept_messages (fun env he => kept_stuck he _ (by simp) _) ms _ hms key.2
  obtain ⟨p', hp', -, hd'⟩ := k1.status
  have hwr' := write_status k1 p' hp' d
  rw [if_pos (by simp)] at hwr'
  obtain ⟨j1, j2⟩ := write_one he' k1.handler hp' m' d hm' hq' _ _ hwr'
  rw [if_neg (by simp)] at j1
  refine ⟨j1, ?_, ?_, j2⟩
  · unfold Lit
    rw [k2]
    rcases hb with rfl | rfl <;> decide
  · rw [hp']
    exact congrArg some hd'

example : writeOne { esv := 0x61, props := [{ code := 0x80, data := [0x31, 0xFF] }] } 0x80 [0x31, 0xFF] := ⟨rfl, rfl, rfl, rfl⟩

/-! ## C102: the device of the documentation -/

/-- C102 is false: a device written as documented refuses every write, after any messages, because its status has no data; and it reports that. -/
theorem C102_refuses_false {ord : List Int → List Int} (hord : ValidOrder ord) (ms : List (Env × Msg)) (hms : ∀ y ∈ ms, y.1.handler 0 = Light.docHandler)
    (env : Env) (he : env.handler 0 = Light.docHandler) (m : Msg) (d : Bytes) (c : Int) (hc : (lookup (Light.new ord).props c).isSome = true) (hm : writeOne m c d) :
    messages (Light.new ord) ms = Light.new ord ∧
    (Quiet env (Light.new ord) m → ((Light.new ord).messageReceived env m).obj = Light.new ord ∧
      ((Light.new ord).messageReceived env m).result = .ok (some { tid := m.tid, seoj := m.deoj, deoj := m.seoj, esv := 0x50, props := [{ code := c, data := d }] })) := by
  have hl := light_new hord
  have hw : ∀ (c : Int) (p : OProp) (d : Bytes), lookup (Light.new ord).props c = some p → Light.docWrite (Light.new ord) p d = (Light.new ord, .ok false) := by
    intro c p d hp
    unfold Light.docWrite
    by_cases h : p.code = 0x80
    · obtain ⟨k1, k2⟩ := light_asked hl hp
      rw [if_neg (by simpa using h), k2 (k1.symm.trans h), if_pos (by simp)]
    · rw [if_pos h]
  constructor
  · apply kept_messages (h := Light.docHandler) (I := fun o => o = Light.new ord) ?_ ms _ hms rfl
    intro env he
    constructor
    · rintro o p rfl
      rw [callRead_light he hl.handler]
      show (Light.docRead (Light.new ord) p).1 = _
      unfold Light.docRead
      cases p with
      | none => rfl
      | some p => simp only []; split <;> rfl
    · rintro o c p d - rfl hp
      rw [callWrite_light he hl.handler, show Light.docHandler.write (Light.new ord) p d = Light.docWrite (Light.new ord) p d from rfl, hw c p d hp]
      exact ⟨fun o' h => by simp at h, fun o' h => by simp at h; exact h.symm, fun o' e h => by simp at h⟩
  · intro hq
    obtain ⟨p, hp⟩ := Option.isSome_iff_exists.mp hc
    obtain ⟨j1, j2⟩ := write_one he hl.handler hp m d hm hq _ _ (hw c p d hp)
    exact ⟨j1, j2⟩

example : (lookup (Light.new List.dedup).props 0x80).isSome = true := by decide +kernel

/-- C102 (what holds): if its program has set its status to one byte, the device accepts 0x30 and 0x31 and refuses other single bytes. Missing:
`C102_refuses_false`. -/
theorem C102_set_partial {o : Obj} {x : UInt8} (hl : IsLight o [x]) (env : Env) (he : env.handler 0 = Light.docHandler) (m : Msg) (b : UInt8) (hm : writeOne m 0x80 [b])
    (hq : Quiet env o m) :
    (lookup (o.messageReceived env m).obj.props 0x80).map OProp.data = some (if b = 0x30 ∨ b = 0x31 then [b] else [x]) ∧
    (o.messageReceived env m).result = .ok (some { tid := m.tid, seoj := m.deoj, deoj := m.seoj, esv := if b = 0x30 ∨ b = 0x31 then 0x71 else 0x50,
                                                   props := [{ code := 0x80, data := if b = 0x30 ∨ b = 0x31 then [] else [b] }] }) := by
  obtain ⟨p, hp, -, hpd⟩ := hl.status
  obtain ⟨k1, k2⟩ := light_asked hl hp
  have hwr : Light.docWrite o p [b] = (o, .ok (decide (b = 0x30 ∨ b = 0x31))) := by
    unfold Light.docWrite
    rw [if_neg (by simpa using k1), hpd, if_neg (by simp)]
    by_cases h1 : b = 0x30
    · simp [h1]
    · by_cases h2 : b = 0x31
      · simp [h2]
      · simp [h1, h2]
  obtain ⟨j1, j2⟩ := write_one he hl.handler hp m _ hm hq _ _ hwr
  rw [j1, j2]
  by_cases h : b = 0x30 ∨ b = 0x31
  · simp only [h, decide_true, if_true]
    rw [lookup_storeData, if_pos rfl, hp]
    exact ⟨rfl, trivial⟩
  · simp only [h, decide_false, if_false]
    rw [if_neg (by simp), hp]
    exact ⟨congrArg some hpd, trivial⟩

/-- C102 (what holds): in every state a write of any other property is refused and changes nothing, whatever the property holds. -/
theorem C102_others_partial {o : Obj} {x : Bytes} (hl : IsLight o x) (env : Env) (he : env.handler 0 = Light.docHandler) (m : Msg) (c : Int) (hc : c ≠ 0x80) (d : Bytes)
    (hp : (lookup o.props c).isSome = true) (hm : writeOne m c d) (hq : Quiet env o m) :
    (o.messageReceived env m).obj = o ∧
    (o.messageReceived env m).result = .ok (some { tid := m.tid, seoj := m.deoj, deoj := m.seoj, esv := 0x50, props := [{ code := c, data := d }] }) := by
  obtain ⟨p, hp⟩ := Option.isSome_iff_exists.mp hp
  have hw : Light.docHandler.write o p d = (o, .ok false) := by
    show Light.docWrite o p d = _
    unfold Light.docWrite
    rw [if_pos (by rw [(light_asked hl hp).1]; exact hc)]
  exact write_one he hl.handler hp m d hm hq _ _ hw

/-- The device may hold one byte there that would do as a status. -/
example : IsLight ((Light.new List.dedup).storeData 0xB0 [0x30]) [] ∧
    (lookup ((Light.new List.dedup).storeData 0xB0 [0x30]).props 0xB0).map OProp.data = some [0x30] := by
  have h := light_new (ord := List.dedup) (fun l => ⟨l.nodup_dedup, fun _ => List.mem_dedup⟩)
  obtain ⟨p, h1, h2, h3⟩ := h.status
  refine ⟨⟨wf_storeData _ _ _ h.wf, h.handler, p, ?_, h2, h3⟩, by decide +kernel⟩
  rw [lookup_storeData, if_neg (by decide), h1]

example : IsLight { (Light.new List.dedup).storeData 0x80 [0x30] with ustate := 0 } [0x30] :=
  light_store (light_new (fun l => ⟨l.nodup_dedup, fun _ => List.mem_dedup⟩)) [0x30] 0

/-! ## C103: requests the light cannot cope with -/

/-- A write of no data to the status. -/
def emptyWrite : Msg := { tid := 1, seoj := 0x05FF01, deoj := 0x029101, esv := 0x60, props := [{ code := 0x80 }] }

/-- C103 is false: a datagram that writes no data to the status of a light with a status of one byte (in particular of one that has just been
started) raises in the light; the thread it arrives at ends, without an answer, and whatever comes later to that thread is lost. -/
theorem C103_empty_false {n : LocalNode} {o : Obj} {b : UInt8} (hn : Dict.get? n.node.objects 0x029101 = some (.user o)) (hl : IsLight o [b])
    (env : Env) (he : env.handler 0 = Light.handler) (hq : ∀ m, Quiet env o m) (net : Net) (alive : Nat → Bool) (i : Nat) (a : Addr) (later : List Arrival)
    (h : ∀ x ∈ later, x.thread = i) :
    let r := ((⟨n, alive⟩ : Running LocalNode).arrive (LocalNode.deliver env net) ⟨i, encode emptyWrite, a⟩)
    r.alive i = false ∧ r.st.mgr.log = n.mgr.log ∧ (r.arrivals (LocalNode.deliver env net) later).st = r.st := by
  intro r
  have hd : Decodes (encode emptyWrite) a { emptyWrite with fromAddr := some a } := decodes_encode emptyWrite (by decide) (by decide +kernel) a
  obtain ⟨hm, hrec, -, -⟩ := received_decoded hd
  have hres : (o.messageReceived env { emptyWrite with fromAddr := some a }).result = .error .indexError := by
    obtain ⟨p, hp, -⟩ := hl.status
    rw [messageReceived_quiet env o _ (hq _)]
    show (Obj.handleRequest env o _).2 = _
    unfold Obj.handleRequest
    rw [show ({ emptyWrite with fromAddr := some a } : Msg).esv = 0x60 from rfl, show ({ emptyWrite with fromAddr := some a } : Msg).props = [{ code := 0x80 }] from rfl,
      hl.handler, if_neg (by decide), if_neg (by simp), if_neg (by decide)]
    unfold Obj.plainLoop
    rw [getProperty_eq, hp]
    simp only [show ESV.isReadRequest 0x60 = false from rfl, show ESV.isWriteRequest 0x60 = true from rfl, if_true, Bool.false_eq_true, if_false]
    rw [callWrite_light he hl.handler, show Light.handler.write o p [] = Light.write o p [] from rfl, write_status hl p hp, if_neg (by simp)]
  have hdel : ∃ x, LocalNode.deliver env net n { emptyWrite with fromAddr := some a } = (x, some .indexError) ∧ x.mgr.log = n.mgr.log := by
    unfold LocalNode.deliver
    rw [messageReceived_eq env net n _ hm, hrec, show ({ emptyWrite with fromAddr := some a } : Msg).deoj % 2 ^ 24 = 0x029101 from rfl, hn]
    simp only [LocalNode.deref, LocalNode.putBack]
    rw [hres]
    exact ⟨_, rfl, rfl⟩
  obtain ⟨x, hx, hlog⟩ := hdel
  have hr : r.alive i = false ∧ r.st.mgr.log = n.mgr.log := by
    show ((⟨n, alive⟩ : Running LocalNode).arrive (LocalNode.deliver env net) ⟨i, encode emptyWrite, a⟩).alive i = false ∧
      ((⟨n, alive⟩ : Running LocalNode).arrive (LocalNode.deliver env net) ⟨i, encode emptyWrite, a⟩).st.mgr.log = n.mgr.log
    unfold Running.arrive
    simp only []
    by_cases ha : alive i = true
    · rw [if_pos ha, recvOne_ok _ n _ a _ hd, hx]
      exact ⟨if_pos rfl, hlog⟩
    · rw [if_neg ha]
      exact ⟨by simpa using ha, rfl⟩
  refine ⟨hr.1, hr.2, ?_⟩
  rw [dead_ignored _ i later _ hr.1, List.filter_eq_nil_iff.mpr (by intro y hy; simp [h y hy])]
  rfl

/-- The node of the sample: a light that is on. -/
example : let o := Light.on (Light.new List.dedup)
    IsLight o [0x30] ∧ Dict.get? ((LocalNode.new List.dedup exRandom false).1.addObject List.dedup o).1.node.objects 0x029101 = some (.user o) ∧ ∀ m, Quiet exEnv o m := by
  intro o
  have hord : ValidOrder List.dedup := fun l => ⟨l.nodup_dedup, fun _ => List.mem_dedup⟩
  have hc : o.code = 0x029101 := by decide +kernel
  refine ⟨?_, ?_, fun _ _ _ => rfl⟩
  · show IsLight (Light.on (Light.new List.dedup)) [0x30]
    rw [on_eq (light_new hord)]; exact light_store (light_new hord) _ _
  · unfold LocalNode.addObject LocalNode.refresh
    simp only []
    rw [show (({ (LocalNode.new List.dedup exRandom false).1 with node := (LocalNode.new List.dedup exRandom false).1.node.put o.code (.user o) } : LocalNode).node).objects =
      (LocalNode.new List.dedup exRandom false).1.node.objects.set o.code (.user o) from rfl, Dict.get?_set, if_pos hc]

theorem write_keys {o : Obj} {d : Bytes} (h : IsLight o d) (c : Int) (p : OProp) (hp : lookup o.props c = some p) (d' : Bytes) :
    (Light.write o p d').1.props.keys = o.props.keys := by
  by_cases hc : c = 0x80
  · subst hc
    rw [write_status h p hp]
    split
    · rfl
    · cases d' with
      | nil => rfl
      | cons b rest =>
        simp only []
        split
        · exact keys_storeData _ _ _
        · split
          · exact keys_storeData _ _ _
          · rfl
  · rw [write_other h c hc p hp]

theorem kept_keys (env : Env) (he : env.handler 0 = Light.handler) (ks : List Int) : Kept env (fun o => Honest o ∧ o.props.keys = ks) := by
  have hk := kept_honest env he
  constructor
  · rintro o p ⟨h, h2⟩
    refine ⟨hk.read o p h, ?_⟩
    obtain ⟨b, rest, hl, -⟩ := h
    rw [callRead_light he hl.handler, show Light.handler.read o p = Light.read o p from rfl, read_obj]
    exact h2
  · rintro o c p d hd ⟨h, h2⟩ hp
    obtain ⟨h3, h4, h5⟩ := hk.write o c p d hd h hp
    obtain ⟨b, rest, hl, -⟩ := h
    have hkey : (o.callWrite env p d).1.props.keys = ks := by
      rw [callWrite_light he hl.handler]
      exact (write_keys hl c p hp d).trans h2
    refine ⟨fun o' h => ⟨h3 o' h, ?_⟩, fun o' h => ⟨h4 o' h, ?_⟩, fun o' e h => ⟨h5 o' e h, ?_⟩⟩
    · rw [h] at hkey; exact (keys_storeData _ _ _).trans hkey
    · rw [h] at hkey; exact hkey
    · rw [h] at hkey; exact hkey

theorem keys_run {ks : List Int} (ops : List LightOp) : ∀ o, (∀ x ∈ ops, x.Ok Light.handler) → (Honest o ∧ o.props.keys = ks) →
    Honest (lightRun o ops) ∧ (lightRun o ops).props.keys = ks := by
  induction ops with
  | nil => intro o _ h; exact h
  | cons x ops ih =>
    intro o hx h
    apply ih _ (fun y hy => hx y (List.mem_cons_of_mem _ hy))
    refine ⟨honest_run [x] o (fun y hy => hx y (by simp at hy; subst hy; exact List.mem_cons_self)) h.1, ?_⟩
    obtain ⟨⟨b, rest, hl, -⟩, hk⟩ := id h
    cases x with
    | on => show (Light.on o).props.keys = ks; rw [on_eq hl]; exact (keys_storeData _ _ _).trans hk
    | off => show (Light.off o).props.keys = ks; rw [off_eq hl]; exact (keys_storeData _ _ _).trans hk
    | message env m => exact ((kept_keys env (hx _ List.mem_cons_self) ks).received o m (fun _ _ => trivial) h).2

/-- C103 is false also for a well-formed request that writes nothing: whatever the light got before, a write-read request that reads a property it does not have ends in an `AttributeError`, as
`property_read_requested` is given `None`. -/
theorem C103_unknown_false {ord : List Int → List Int} (hord : ValidOrder ord) (ops : List LightOp) (hops : ∀ x ∈ ops, x.Ok Light.handler) (env : Env) (he : env.handler 0 = Light.handler)
    (m : Msg) (c : Int) (hm : m.esv = 0x6E) (hset : m.setProps = []) (hget : m.getProps = [{ code := c }]) :
    let o := lightRun (Light.on (Light.new ord)) ops
    lookup o.props c = none → Quiet env o m → (o.messageReceived env m).obj = o ∧ (o.messageReceived env m).result = .error .attributeError := by
  intro o hc hq
  obtain ⟨b, rest, hl, -⟩ := honest_run ops _ hops (honest_start hord)
  have hh : o.handler = .user 0 := hl.handler
  rw [messageReceived_quiet env o m hq]
  unfold Obj.handleRequest
  rw [hm, hset, hget, hh]
  rw [if_neg (by decide), if_neg (by simp), if_pos (by decide)]
  simp only [Obj.setLoop, Obj.getLoop]
  rw [getProperty_eq, hc, callRead_light he hh]
  exact ⟨rfl, rfl⟩

/-- A property no light has. -/
example : lookup (lightRun (Light.on (Light.new List.dedup)) []).props 0xFF = none := by decide +kernel

/-- C103 (what holds): a light raises nothing on any request that neither writes no data to its status nor is a write-read request for a property it does
not have. Missing: `C103_empty_false`. -/
theorem C103_survives_partial {ord : List Int → List Int} (hord : ValidOrder ord) (ops : List LightOp) (hops : ∀ x ∈ ops, x.Ok Light.handler)
    (env : Env) (he : env.handler 0 = Light.handler) (m : Msg) (hw : ∀ i ∈ writeItems m, i.code = 0x80 → i.data ≠ [])
    (hk : m.esv = 0x6E → ∀ i ∈ m.getProps, (lookup (Light.new ord).props i.code).isSome = true) :
    let o := lightRun (Light.on (Light.new ord)) ops
    Quiet env o m → ∃ x, (o.messageReceived env m).result = .ok x := by
  intro o hq
  have hi : Honest o ∧ o.props.keys = (Light.new ord).props.keys := by
    refine keys_run ops _ hops ⟨honest_start hord, ?_⟩
    rw [on_eq (light_new hord)]
    exact keys_storeData _ _ _
  rw [messageReceived_quiet env o m hq]
  refine (kept_keys env he _).handle_ok o m (fun _ _ => trivial) hi ?_ ?_ ?_
  · rintro o ⟨⟨b, rest, hl, -⟩, -⟩ i hmem p hp
    rw [callWrite_light he hl.handler, show Light.handler.write o p i.data = Light.write o p i.data from rfl]
    by_cases hc : i.code = 0x80
    · rw [hc] at hp
      rw [write_status hl p hp]
      have hne := hw i hmem hc
      split
      · exact ⟨_, rfl⟩
      · cases hd : i.data with
        | nil => exact absurd hd hne
        | cons x xs =>
          simp only []
          split
          · exact ⟨_, rfl⟩
          · split
            · exact ⟨_, rfl⟩
            · exact ⟨_, rfl⟩
    · rw [write_other hl _ hc p hp]
      exact ⟨_, rfl⟩
  · rintro o ⟨⟨b, rest, hl, -⟩, -⟩ c p hp
    rw [callRead_light he hl.handler, show Light.handler.read o (some p) = Light.read o (some p) from rfl, read_same hl c p hp]
    exact ⟨_, rfl⟩
  · rintro h6 o ⟨-, hkey⟩ i hmem
    have := hk h6 i hmem
    rw [lookup_eq, Dict.get?_isSome_iff] at this ⊢
    rw [hkey]
    exact this

/-- A request with a refused status and a property the light does not have. -/
example : let m : Msg := { esv := 0x61, props := [{ code := 0x80, data := [0x42] }, { code := 0xFF }] }
    (∀ i ∈ writeItems m, i.code = 0x80 → i.data ≠ []) ∧ m.esv ≠ 0x6E := by decide

end Uecho
