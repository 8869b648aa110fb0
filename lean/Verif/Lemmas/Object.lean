import Verif.Spec.Handling
import Verif.Lemmas.Dict
import Verif.Lemmas.Message

namespace Uecho
open Spec

/-! ### Shapes and lookups -/

theorem lookup_eq (d : Dict Int OProp) (c : Int) : lookup d c = d.get? c := by
  induction d with
  | nil => rfl
  | cons kv d ih => obtain ⟨k, p⟩ := kv; rw [lookup, Dict.get?_cons, ih]

theorem getProperty_eq (o : Obj) (c : Int) : o.getProperty c = lookup o.props c := by
  rw [lookup_eq]; rfl

theorem afterWrites_eq (o : Obj) (items : List PProp) :
    afterWrites o items =
      { o with props := Dict.mapKV o.props (fun k p => { p with data := (lastFor items k).getD p.data }) } := rfl

theorem lookup_afterWrites (o : Obj) (items : List PProp) (c : Int) :
    lookup (afterWrites o items).props c =
      (lookup o.props c).map (fun p => { p with data := (lastFor items c).getD p.data }) := by
  rw [lookup_eq, lookup_eq, afterWrites_eq]
  simp only [Dict.get?_mapKV]

theorem lastFor_nil (c : Int) : lastFor [] c = none := rfl

theorem lastFor_append (a b : List PProp) (c : Int) :
    lastFor (a ++ b) c = (lastFor b c).or (lastFor a c) := by
  unfold lastFor
  rw [List.filter_append, List.getLast?_append]
  cases (List.filter (fun i => decide (i.code = c)) b).getLast? <;> simp

theorem afterWrites_nil (o : Obj) : afterWrites o [] = o := by
  rw [afterWrites_eq]
  simp only [lastFor_nil, Option.getD_none]
  have := Dict.mapKV_id o.props
  rw [show (fun (k : Int) (p : OProp) => ({ p with data := p.data } : OProp)) = fun _ v => v from rfl, this]

theorem afterWrites_append (o : Obj) (a b : List PProp) :
    afterWrites (afterWrites o a) b = afterWrites o (a ++ b) := by
  simp only [afterWrites_eq, Dict.mapKV_mapKV, lastFor_append]
  congr 1
  congr 1
  funext k p
  cases lastFor b k <;> simp

theorem storeData_eq (o : Obj) (c : Int) (d : Bytes) (h : (o.props.map Prod.fst).Nodup) :
    o.storeData c d = afterWrites o [{ code := c, data := d }] := by
  rw [afterWrites_eq, Obj.storeData, Dict.modify_eq_mapKV _ _ _ h]
  congr 1
  congr 1
  funext k p
  by_cases e : k = c
  · subst e; simp [lastFor]
  · simp [lastFor, e, Ne.symm e]

theorem skeleton_eq (o : Obj) :
    skeleton o = { o with props := Dict.mapKV o.props (fun _ p => { p with data := [] }) } := rfl

theorem skeleton_afterWrites (o : Obj) (a : List PProp) : skeleton (afterWrites o a) = skeleton o := by
  simp only [skeleton_eq, afterWrites_eq, Dict.mapKV_mapKV]

theorem keys_afterWrites (o : Obj) (a : List PProp) :
    (afterWrites o a).props.map Prod.fst = o.props.map Prod.fst := by
  have := Dict.keys_mapKV o.props (fun k p => { p with data := (lastFor a k).getD p.data })
  exact this

theorem wf_afterWrites (o : Obj) (a : List PProp) (h : WellFormed o) : WellFormed (afterWrites o a) := by
  refine ⟨by rw [keys_afterWrites]; exact h.1, ?_⟩
  intro kp hkp
  simp only [afterWrites, List.mem_map] at hkp
  obtain ⟨kp', hm, rfl⟩ := hkp
  exact h.2 kp' hm

theorem known_of_skeleton {o o' : Obj} (h : skeleton o' = skeleton o) (c : Int) :
    (lookup o'.props c).map (fun p => { p with data := [] }) =
      (lookup o.props c).map (fun p => { p with data := [] }) := by
  rw [lookup_eq, lookup_eq]
  have h1 := congrArg Obj.props h
  simp only [skeleton_eq] at h1
  have h2 := congrArg (fun d => Dict.get? d c) h1
  simpa only [Dict.get?_mapKV] using h2

theorem isSome_of_skeleton {o o' : Obj} (h : skeleton o' = skeleton o) (c : Int) :
    (lookup o'.props c).isSome = (lookup o.props c).isSome := by
  have := congrArg Option.isSome (known_of_skeleton h c)
  simpa using this

theorem lookup_some_of_skeleton {o o' : Obj} (h : skeleton o' = skeleton o) {c : Int} {p : OProp}
    (hp : lookup o'.props c = some p) :
    ∃ q, lookup o.props c = some q ∧ q.code = p.code ∧ q.attrGet = p.attrGet ∧ q.attrSet = p.attrSet ∧
      q.attrAnno = p.attrAnno := by
  have := known_of_skeleton h c
  rw [hp] at this
  cases hq : lookup o.props c with
  | none => rw [hq] at this; simp at this
  | some q =>
    rw [hq] at this
    simp only [Option.map_some, Option.some.injEq, OProp.mk.injEq] at this
    exact ⟨q, rfl, this.1.symm, this.2.2.1.symm, this.2.2.2.1.symm, this.2.2.2.2.symm⟩

theorem handler_of_skeleton {o o' : Obj} (h : skeleton o' = skeleton o) : o'.handler = o.handler := by
  have := congrArg Obj.handler h; exact this

theorem wf_of_skeleton {o o' : Obj} (h : skeleton o' = skeleton o) (hw : WellFormed o) : WellFormed o' := by
  have h1 := congrArg Obj.props h
  simp only [skeleton_eq] at h1
  have hk : o'.props.map Prod.fst = o.props.map Prod.fst := by
    have h2 := congrArg (List.map Prod.fst) h1
    simpa [Dict.mapKV, Function.comp_def] using h2
  have hwc : ∀ o : Obj, (∀ kp ∈ o.props, kp.2.code = kp.1) ↔
      ∀ kp ∈ (Dict.mapKV o.props (fun _ p => ({ p with data := [] } : OProp))), kp.2.code = kp.1 := by
    intro o
    simp only [Dict.mapKV, List.mem_map]
    constructor
    · rintro h _ ⟨kp, hm, rfl⟩; exact h kp hm
    · intro h kp hm; exact h (kp.1, { kp.2 with data := [] }) ⟨kp, hm, rfl⟩
  refine ⟨by rw [hk]; exact hw.1, ?_⟩
  rw [hwc, h1, ← hwc]; exact hw.2

theorem code_of_lookup {o : Obj} (hw : WellFormed o) {c : Int} {p : OProp} (h : lookup o.props c = some p) :
    p.code = c := by
  rw [lookup_eq] at h
  exact hw.2 _ (Dict.mem_of_get? _ _ _ h)

/-! ### The default handler follows the attribute policy -/

theorem isAttributeEnabled_iff (v : Int) : OProp.isAttributeEnabled v = true ↔ v = 1 ∨ v = 2 := by
  unfold OProp.isAttributeEnabled OProp.REQUIRED OProp.OPTIONAL
  by_cases h1 : v = 1
  · simp [h1]
  · by_cases h2 : v = 2 <;> simp [h1, h2]

theorem isReadEnabled_eq (p : OProp) : p.isReadEnabled = decide (CanRead p) := by
  rw [Bool.eq_iff_iff, decide_eq_true_iff]; exact isAttributeEnabled_iff _

theorem isWriteEnabled_eq (p : OProp) : p.isWriteEnabled = decide (CanWrite p) := by
  rw [Bool.eq_iff_iff, decide_eq_true_iff]; exact isAttributeEnabled_iff _

theorem follows_default (env : Env) (o : Obj) (hw : WellFormed o) (hh : o.handler = .self_) :
    Follows env o (attrPolicy o) := by
  refine ⟨by rw [hh]; simp, ?_⟩
  intro o' hs c p hp
  have hh' : o'.handler = .self_ := by rw [handler_of_skeleton hs, hh]
  have hc := code_of_lookup (wf_of_skeleton hs hw) hp
  obtain ⟨q, hq, h1, h2, h3, h4⟩ := lookup_some_of_skeleton hs hp
  constructor
  · unfold Obj.callRead
    rw [hh']
    simp only [Obj.superRead, getProperty_eq, hc, hp, attrPolicy, hq, isReadEnabled_eq]
    simp only [CanRead, h2]
  · intro d
    unfold Obj.callWrite
    rw [hh']
    simp only [Obj.superWrite, getProperty_eq, hc, hp, attrPolicy, hq, isWriteEnabled_eq]
    simp only [CanWrite, h3]

theorem follows_of_skeleton {env : Env} {o o' : Obj} {P : Policy} (h : skeleton o' = skeleton o)
    (hf : Follows env o P) : Follows env o' P :=
  ⟨by rw [handler_of_skeleton h]; exact hf.1, fun o'' h' => hf.2 o'' (h'.trans h)⟩

theorem attrPolicy_of_skeleton {o o' : Obj} (h : skeleton o' = skeleton o) : attrPolicy o' = attrPolicy o := by
  unfold attrPolicy
  congr 1
  · funext c
    have := known_of_skeleton h c
    cases h1 : lookup o'.props c <;> cases h2 : lookup o.props c <;> rw [h1, h2] at this <;> simp at this
    simp only [CanRead, this.2.1]
  · funext c _
    have := known_of_skeleton h c
    cases h1 : lookup o'.props c <;> cases h2 : lookup o.props c <;> rw [h1, h2] at this <;> simp at this
    simp only [CanWrite, this.2.2.1]

theorem acceptedWrites_of_skeleton {o o' : Obj} {P : Policy} (h : skeleton o' = skeleton o)
    (items : List PProp) : acceptedWrites o' P items = acceptedWrites o P items := by
  unfold acceptedWrites
  congr 1
  funext i
  rw [isSome_of_skeleton h]

/-! ### The loops -/

/-- The response item to a write item. -/
def writeResp (o : Obj) (P : Policy) (i : PProp) : PProp :=
  { code := i.code
    data := if (lookup o.props i.code).isSome && !P.canWrite i.code i.data then i.data else [] }

theorem writeResp_of_skeleton {o o' : Obj} {P : Policy} (h : skeleton o' = skeleton o) :
    writeResp o' P = writeResp o P := by
  funext i; unfold writeResp; rw [isSome_of_skeleton h]

/-- The response item to a read item. -/
def readResp (o : Obj) (P : Policy) (i : PProp) : PProp := { code := i.code, data := readValue o P i.code }

theorem setLoop_follows (env : Env) (P : Policy) (o : Obj) (items : List PProp) (cnt : Nat)
    (acc : List PProp) (hn : (o.props.map Prod.fst).Nodup) (hf : Follows env o P) :
    Obj.setLoop env o items cnt acc =
      (afterWrites o (acceptedWrites o P items),
       .ok (cnt + (acceptedWrites o P items).length, acc ++ items.map (writeResp o P))) := by
  induction items generalizing o cnt acc with
  | nil => simp [Obj.setLoop, acceptedWrites, afterWrites_nil]
  | cons i items ih =>
    unfold Obj.setLoop
    rw [getProperty_eq]
    cases hl : lookup o.props i.code with
    | none =>
      simp only []
      rw [ih o _ _ hn hf]
      have ha : acceptedWrites o P (i :: items) = acceptedWrites o P items := by
        simp [acceptedWrites, hl]
      rw [ha]
      simp [writeResp, hl]
    | some p =>
      simp only []
      rw [(hf.2 o rfl _ _ hl).2]
      cases hw : P.canWrite i.code i.data with
      | true =>
        simp only []
        have ha : acceptedWrites o P (i :: items) = i :: acceptedWrites o P items := by
          simp [acceptedWrites, hl, hw]
        rw [storeData_eq _ _ _ hn]
        have hs := skeleton_afterWrites o [{ code := i.code, data := i.data }]
        rw [ih _ _ _ (by rw [keys_afterWrites]; exact hn) (follows_of_skeleton hs hf), ha,
          acceptedWrites_of_skeleton hs, afterWrites_append, writeResp_of_skeleton hs]
        simp only [List.singleton_append, List.length_cons, List.map_cons]
        simp only [writeResp, hl, hw, Prod.mk.injEq, Except.ok.injEq, true_and]
        refine ⟨by omega, by simp⟩
      | false =>
        simp only []
        have ha : acceptedWrites o P (i :: items) = acceptedWrites o P items := by
          simp [acceptedWrites, hl, hw]
        rw [ih o _ _ hn hf, ha]
        simp [writeResp, hl, hw]

theorem getPropertyData_of_lookup {o : Obj} {c : Int} {p : OProp} (h : lookup o.props c = some p) :
    o.getPropertyData c = some p.data := by
  unfold Obj.getPropertyData
  rw [lookup_eq] at h; rw [h]

/-- Items naming a stored property the policy lets read. -/
def acceptedReads (o : Obj) (P : Policy) (items : List PProp) : List PProp :=
  items.filter fun i => (lookup o.props i.code).isSome && P.canRead i.code

theorem plainLoop_read (env : Env) (P : Policy) (o : Obj) (esv : Int) (hesv : ESV.isReadRequest esv = true)
    (items : List PProp) (cnt : Nat) (acc : List PProp) (hf : Follows env o P) :
    Obj.plainLoop env esv o items cnt acc =
      (o, .ok (cnt + (acceptedReads o P items).length, acc ++ items.map (readResp o P))) := by
  induction items generalizing cnt acc with
  | nil => simp [Obj.plainLoop, acceptedReads]
  | cons i items ih =>
    unfold Obj.plainLoop
    rw [getProperty_eq]
    cases hl : lookup o.props i.code with
    | none =>
      simp only []
      rw [ih]
      simp [readResp, readValue, hl, acceptedReads]
    | some p =>
      simp only [hesv, if_true]
      rw [(hf.2 o rfl _ _ hl).1]
      cases hr : P.canRead i.code with
      | true =>
        simp only [getPropertyData_of_lookup hl, Option.getD_some]
        rw [ih]
        simp only [acceptedReads, readResp, readValue, hl, hr, List.map_cons, List.filter_cons, Option.isSome_some,
          Bool.and_true, if_true, List.length_cons, Prod.mk.injEq, Except.ok.injEq, true_and]
        refine ⟨by omega, by simp⟩
      | false =>
        simp only []
        rw [ih]
        simp [readResp, readValue, hl, hr, acceptedReads]

theorem plainLoop_write (env : Env) (P : Policy) (o : Obj) (esv : Int)
    (hr : ESV.isReadRequest esv = false) (hwr : ESV.isWriteRequest esv = true) (items : List PProp) (cnt : Nat)
    (acc : List PProp) (hn : (o.props.map Prod.fst).Nodup) (hf : Follows env o P) :
    Obj.plainLoop env esv o items cnt acc =
      (afterWrites o (acceptedWrites o P items),
       .ok (cnt + (acceptedWrites o P items).length, acc ++ items.map (writeResp o P))) := by
  have key : ∀ (o : Obj) (items : List PProp) (cnt : Nat) (acc : List PProp),
      Obj.plainLoop env esv o items cnt acc = Obj.setLoop env o items cnt acc := by
    intro o items
    induction items generalizing o with
    | nil => intros; rfl
    | cons i items ih =>
      intro cnt acc
      unfold Obj.plainLoop Obj.setLoop
      cases o.getProperty i.code with
      | none => exact ih _ _ _
      | some p =>
        simp only [hr, hwr, Bool.false_eq_true, if_false, if_true]
        split <;> simp_all
  rw [key]; exact setLoop_follows env P o items cnt acc hn hf

theorem plainLoop_neither (env : Env) (o : Obj) (esv : Int)
    (hr : ESV.isReadRequest esv = false) (hwr : ESV.isWriteRequest esv = false) (items : List PProp) (cnt : Nat)
    (acc : List PProp) :
    Obj.plainLoop env esv o items cnt acc =
      (o, .ok (cnt, acc ++ items.map (fun i => { code := i.code }))) := by
  induction items generalizing cnt acc with
  | nil => simp [Obj.plainLoop]
  | cons i items ih =>
    unfold Obj.plainLoop
    cases o.getProperty i.code with
    | none => simp only []; rw [ih]; simp
    | some p =>
      simp only [hr, hwr, Bool.false_eq_true, if_false]
      rw [ih]; simp

theorem getLoop_known (env : Env) (P : Policy) (o : Obj) (items : List PProp) (cnt : Nat) (acc : List PProp)
    (hf : Follows env o P) (hk : ∀ i ∈ items, (lookup o.props i.code).isSome = true) :
    Obj.getLoop env o items cnt acc =
      (o, .ok (cnt + (acceptedReads o P items).length, acc ++ items.map (readResp o P))) := by
  induction items generalizing cnt acc with
  | nil => simp [Obj.getLoop, acceptedReads]
  | cons i items ih =>
    have hk' : ∀ i ∈ items, (lookup o.props i.code).isSome = true := fun j hj => hk j (by simp [hj])
    unfold Obj.getLoop
    rw [getProperty_eq]
    have := hk i (by simp)
    cases hl : lookup o.props i.code with
    | none => rw [hl] at this; simp at this
    | some p =>
      rw [(hf.2 o rfl _ _ hl).1]
      cases hr : P.canRead i.code with
      | true =>
        simp only [getPropertyData_of_lookup hl]
        rw [ih _ _ hk']
        simp only [acceptedReads, readResp, readValue, hl, hr, List.map_cons, List.filter_cons, Option.isSome_some,
          Bool.and_true, if_true, List.length_cons, Prod.mk.injEq, Except.ok.injEq, true_and]
        refine ⟨by omega, by simp⟩
      | false =>
        simp only []
        rw [ih _ _ hk']
        simp [readResp, readValue, hl, hr, acceptedReads]

/-- With the default handler, an unknown Get code raises. -/
theorem getLoop_unknown (env : Env) (o : Obj) (items : List PProp) (cnt : Nat) (acc : List PProp)
    (hw : WellFormed o) (hh : o.handler = .self_)
    (hk : ∃ i ∈ items, lookup o.props i.code = none) :
    Obj.getLoop env o items cnt acc = (o, .error .attributeError) := by
  induction items generalizing cnt acc with
  | nil => simp at hk
  | cons i items ih =>
    unfold Obj.getLoop
    rw [getProperty_eq]
    cases hl : lookup o.props i.code with
    | none => simp [Obj.callRead, hh, Obj.superRead]
    | some p =>
      have hk' : ∃ i ∈ items, lookup o.props i.code = none := by
        obtain ⟨j, hj, hjn⟩ := hk
        rcases List.mem_cons.mp hj with rfl | hj
        · rw [hl] at hjn; cases hjn
        · exact ⟨j, hj, hjn⟩
      rw [((follows_default env o hw hh).2 o rfl _ _ hl).1]
      cases (attrPolicy o).canRead i.code with
      | true =>
        simp only [getPropertyData_of_lookup hl]
        exact ih _ _ hk'
      | false => simp only []; exact ih _ _ hk'

/-! ### Codes of the response -/

theorem setLoop_codes (env : Env) (o : Obj) (items : List PProp) (cnt : Nat) (acc : List PProp) (o' : Obj)
    (cnt' : Nat) (acc' : List PProp) (h : Obj.setLoop env o items cnt acc = (o', .ok (cnt', acc'))) :
    acc'.map PProp.code = acc.map PProp.code ++ items.map PProp.code := by
  induction items generalizing o cnt acc with
  | nil => simp only [Obj.setLoop, Prod.mk.injEq, Except.ok.injEq] at h; simp [h.2.2]
  | cons i items ih =>
    unfold Obj.setLoop at h
    split at h
    · rw [ih _ _ _ h]; simp
    · split at h
      · simp at h
      · rw [ih _ _ _ h]; simp
      · rw [ih _ _ _ h]; simp

theorem getLoop_codes (env : Env) (o : Obj) (items : List PProp) (cnt : Nat) (acc : List PProp) (o' : Obj)
    (cnt' : Nat) (acc' : List PProp) (h : Obj.getLoop env o items cnt acc = (o', .ok (cnt', acc'))) :
    acc'.map PProp.code = acc.map PProp.code ++ items.map PProp.code := by
  induction items generalizing o cnt acc with
  | nil => simp only [Obj.getLoop, Prod.mk.injEq, Except.ok.injEq] at h; simp [h.2.2]
  | cons i items ih =>
    unfold Obj.getLoop at h
    split at h
    · simp at h
    · split at h
      · rw [ih _ _ _ h]; simp
      · simp at h
    · rw [ih _ _ _ h]; simp

theorem plainLoop_codes (env : Env) (esv : Int) (o : Obj) (items : List PProp) (cnt : Nat) (acc : List PProp)
    (o' : Obj) (cnt' : Nat) (acc' : List PProp)
    (h : Obj.plainLoop env esv o items cnt acc = (o', .ok (cnt', acc'))) :
    acc'.map PProp.code = acc.map PProp.code ++ items.map PProp.code := by
  induction items generalizing o cnt acc with
  | nil => simp only [Obj.plainLoop, Prod.mk.injEq, Except.ok.injEq] at h; simp [h.2.2]
  | cons i items ih =>
    unfold Obj.plainLoop at h
    split at h
    · rw [ih _ _ _ h]; simp
    · split at h
      · split at h
        · simp at h
        · rw [ih _ _ _ h]; simp
        · rw [ih _ _ _ h]; simp
      · split at h
        · split at h
          · simp at h
          · rw [ih _ _ _ h]; simp
          · rw [ih _ _ _ h]; simp
        · rw [ih _ _ _ h]; simp

/-! ### Observers -/

theorem notify_quiet (env : Env) (m : Msg) (l : List Nat) (h : ∀ n ∈ l, env.observe n m = none) :
    Obj.notify env m l = (l, none) := by
  induction l with
  | nil => rfl
  | cons n l ih =>
    unfold Obj.notify
    rw [h n (by simp)]
    simp [ih (fun k hk => h k (by simp [hk]))]

theorem notify_loud (env : Env) (m : Msg) (l : List Nat) (e : Exc) (h : (Obj.notify env m l).2 = some e) :
    ¬ ∀ n ∈ l, env.observe n m = none := by
  intro hq; rw [notify_quiet env m l hq] at h; simp at h

theorem notify_none_iff (env : Env) (m : Msg) (l : List Nat) :
    (Obj.notify env m l).2 = none ↔ ∀ n ∈ l, env.observe n m = none := by
  constructor
  · induction l with
    | nil => simp
    | cons n l ih =>
      unfold Obj.notify
      cases hn : env.observe n m with
      | some e => simp
      | none =>
        simp only []
        intro h k hk
        rcases List.mem_cons.mp hk with rfl | hk
        · exact hn
        · exact ih h k hk
  · intro h; rw [notify_quiet env m l h]

theorem messageReceived_quiet (env : Env) (o : Obj) (m : Msg) (h : Quiet env o m) :
    o.messageReceived env m =
      { obj := (o.handleRequest env m).1, notified := o.observers, result := (o.handleRequest env m).2 } := by
  unfold Obj.messageReceived
  rw [notify_quiet env m _ h]

theorem messageReceived_loud (env : Env) (o : Obj) (m : Msg) (h : ¬ Quiet env o m) :
    (o.messageReceived env m).obj = o ∧ ∃ e, (o.messageReceived env m).result = .error e := by
  unfold Obj.messageReceived
  have := (notify_none_iff env m o.observers).not.mpr h
  split
  · rename_i l e he; simp
  · rename_i l he; rw [he] at this; simp at this

end Uecho
