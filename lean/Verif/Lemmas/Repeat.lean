/- Taking in the same message twice: objects, nodes, controllers. -/
import Verif.Lemmas.Controller
import Verif.Props.Node

namespace Uecho
open Spec

theorem lastFor_none {items : List PProp} {c : Int} (h : ∀ i ∈ items, i.code ≠ c) : lastFor items c = none := by
  unfold lastFor
  rw [List.filter_eq_nil_iff.mpr (fun i hi => by simp [h i hi])]
  rfl

theorem afterWrites_congr (o : Obj) (a b : List PProp) (h : ∀ c, lastFor a c = lastFor b c) : afterWrites o a = afterWrites o b := by
  unfold afterWrites
  simp only [h]

theorem afterWrites_twice (o : Obj) (ms : List PProp) : afterWrites (afterWrites o ms) ms = afterWrites o ms := by
  rw [afterWrites_append]
  apply afterWrites_congr
  intro c
  rw [lastFor_append]
  cases lastFor ms c <;> rfl

theorem reachable_receive {ord : List Int → List Int} {n : LocalNode} (h : Reachable ord n) {env : Env} (hs : CodeStable env)
    (net : Net) (m : Msg) : Reachable ord (n.messageReceived env net m).1 := by
  obtain ⟨rnd, ctl, ops, ha, rfl⟩ := h
  refine ⟨rnd, ctl, ops ++ [.receive env net m], ?_, ?_⟩
  · intro op hop
    rcases List.mem_append.mp hop with h | h
    · exact ha op h
    · rw [List.mem_singleton.mp h]
      exact hs
  · unfold runOps
    rw [List.foldl_append]
    rfl

/-- A response the controller evaluates. -/
def Taken (m : Msg) : Prop :=
  Reports m ∧ ¬ ((m.esv = 0x72 ∨ m.esv = 0x73) ∧ m.deoj % 2 ^ 24 ≠ 0x0EF001) ∧
  ¬ ((m.esv = 0x72 ∨ m.esv = 0x73) ∧ instanceListOf m = .empty)

theorem receiveResponse_last (c c' : Ctl) (m : Msg) (h : c'.last = (c.receiveResponse m).last) :
    (c'.receiveResponse m).last = c'.last := by
  unfold Ctl.receiveResponse at h ⊢
  cases hw : c.last.isWaiting with
  | false =>
    rw [hw] at h
    simp only [Bool.false_eq_true, if_false] at h
    rw [h, hw]
    simp [h]
  | true =>
    rw [hw] at h
    simp only [if_true] at h
    cases hreq : c.last.request with
    | none => rw [hreq] at h; simp only [] at h; rw [h, hw, hreq]; simp [h]
    | some req =>
      rw [hreq] at h
      simp only [] at h
      by_cases hm : req.isResponseMessage m = true
      · rw [if_pos hm] at h
        have : c'.last.isWaiting = false := by rw [h]; simp [Post.isWaiting]
        rw [this]
        simp
      · rw [if_neg hm] at h
        rw [h, hw, hreq]
        simp only [if_true]
        rw [if_neg hm]
        exact h

theorem afterList_set {ord : List Int → List Int} (c : Ctl) (m : Msg) : (afterList ord c m).found = match announced m with
    | none => c.found
    | some (a, l) => Dict.set c.found a.1 { node := listedNode ord a l, linked := true } := by
  unfold afterList
  split <;> rename_i h <;> rw [h]

theorem set_modify {ν : Type} (d : Dict String ν) (k : String) (f : ν → ν) (v : ν) :
    Dict.set (Dict.modify (Dict.set d k v) k f) k v = Dict.set d k v := by
  induction d with
  | nil => simp [Dict.set, Dict.modify]
  | cons x d ih =>
    obtain ⟨k', v'⟩ := x
    by_cases hk : k' = k
    · simp [Dict.set, Dict.modify, hk]
    · simp [Dict.set, Dict.modify, hk, ih]

theorem set_set {ν : Type} (d : Dict String ν) (k : String) (v : ν) : Dict.set (Dict.set d k v) k v = Dict.set d k v := by
  induction d with
  | nil => simp [Dict.set]
  | cons x d ih =>
    obtain ⟨k', v'⟩ := x
    by_cases hk : k' = k
    · simp [Dict.set, hk]
    · simp [Dict.set, hk, ih]

/-- A report taken in twice leaves what it leaves when taken in once. -/
theorem reportTo_twice (f : Dict String Remote) (ip : String) (d : Int) (props : List PProp) :
    reportTo (reportTo f ip d props) ip d props = reportTo f ip d props := by
  unfold reportTo
  cases hf : Dict.get? f ip with
  | none => simp only []; rw [hf]
  | some r =>
    simp only []
    cases ho : Dict.get? r.node.objects d with
    | none => simp only []; rw [hf]; simp only []; rw [ho]
    | some o =>
      simp only []
      rw [Dict.get?_modify, if_pos rfl, hf]
      simp only [Option.map_some]
      rw [get?_putObj, if_pos rfl, ho]
      simp only [Option.map_some]
      rw [Dict.modify_modify_const, putObj_putObj, afterWrites_twice]

theorem taken_known {ord : List Int → List Int} (hord : ValidOrder ord) (env : Env) {cenv : CEnv} (h : Calm cenv) (net : Net) (c : Ctl) (hi : FoundInv c)
    (m : Msg) (a : Addr) (ha : m.fromAddr = some a) (hm : Encodable m) (ht : Taken m) :
    let f := reportTo (afterList ord c m).found a.1 (m.deoj % 2 ^ 24) (received m).props
    (c.messageReceived ord env cenv net m).1.found = f ∧ (c.messageReceived ord env cenv net m).1.ln = c.ln ∧
    (c.messageReceived ord env cenv net m).1.last =
      (if (Dict.get? (afterList ord c m).found a.1).isSome then (c.receiveResponse (received m)).last else c.last) ∧
    (c.messageReceived ord env cenv net m).2 =
      (if (Dict.get? (afterList ord c m).found a.1).isSome then .ok () else .error .attributeError) := by
  intro f
  cases hk : Dict.get? (afterList ord c m).found a.1 with
  | none =>
    rw [response_unknown hord env h net c hi m a ha hm ht.1 ht.2.1 ht.2.2 hk]
    have hln : (afterList ord c m).ln = c.ln ∧ (afterList ord c m).last = c.last := by
      unfold afterList; split <;> exact ⟨rfl, rfl⟩
    refine ⟨?_, hln.1, by simpa using hln.2, rfl⟩
    show _ = f
    simp only [f]
    unfold reportTo
    rw [hk]
  | some r =>
    obtain ⟨c', e1, e2, e3, e4, e5, e6⟩ := response_known hord env h net c hi m a ha hm ht.1 ht.2.1 ht.2.2 r hk
    rw [e1]
    obtain ⟨f1, f2, -⟩ := receiveResponse_found c' (received m)
    refine ⟨f1.trans e2, f2.trans e3, ?_, rfl⟩
    simp only [Option.isSome_some, if_true]
    unfold Ctl.receiveResponse
    rw [e4]
    cases c.last.isWaiting with
    | false => exact e4
    | true =>
      simp only [if_true]
      cases c.last.request with
      | none => exact e4
      | some req =>
        simp only []
        split
        · rfl
        · exact e4

theorem changes_nil (items : List PProp) : ∀ (o : Obj), (∀ i ∈ items, ∀ p, lookup o.props i.code = some p → p.data = i.data) →
    changes o items = [] := by
  induction items with
  | nil => intro o _; rfl
  | cons i items ih =>
    intro o h
    unfold changes
    cases hl : lookup o.props i.code with
    | none => exact ih o (fun j hj => h j (List.mem_cons_of_mem _ hj))
    | some p =>
      simp only []
      rw [if_pos (h i List.mem_cons_self p hl)]
      exact ih o (fun j hj => h j (List.mem_cons_of_mem _ hj))

theorem lastFor_own (items : List PProp) (hn : (items.map PProp.code).Nodup) (i : PProp) (hi : i ∈ items) :
    lastFor items i.code = some i.data := by
  induction items with
  | nil => cases hi
  | cons j items ih =>
    have hn' := List.nodup_cons.mp hn
    have happ : j :: items = [j] ++ items := rfl
    rw [happ, lastFor_append]
    rcases List.mem_cons.mp hi with rfl | hi
    · rw [lastFor_none (fun k hk e => hn'.1 (List.mem_map.mpr ⟨k, hk, e⟩))]
      simp [lastFor]
    · rw [ih hn'.2 hi]
      rfl

/-- A report that names no property twice changes nothing when it is taken in again. -/
theorem reportTold_twice (f : Dict String Remote) (ls : List Nat) (ip : String) (d : Int) (props : List PProp)
    (hn : (props.map PProp.code).Nodup) : reportTold (reportTo f ip d props) ls ip d props = [] := by
  unfold reportTo
  cases hf : Dict.get? f ip with
  | none => unfold reportTold; simp only []; rw [hf]
  | some r =>
    simp only []
    cases ho : Dict.get? r.node.objects d with
    | none => unfold reportTold; simp only []; rw [hf]; simp only []; rw [ho]
    | some o =>
      simp only []
      unfold reportTold
      rw [Dict.get?_modify, if_pos rfl, hf]
      simp only [Option.map_some]
      rw [get?_putObj, if_pos rfl, ho]
      simp only [Option.map_some]
      have : changes (afterWrites o props) props = [] := by
        apply changes_nil
        intro i hi p hp
        rw [lookup_afterWrites, lastFor_own props hn i hi] at hp
        obtain ⟨q, -, rfl⟩ := Option.map_eq_some_iff.mp hp
        rfl
      rw [this]
      rfl

/-- A message the controller evaluates is reported to the object it comes from, anything else tells nobody. -/
theorem receive_told {ord : List Int → List Int} (hord : ValidOrder ord) (env : Env) {cenv : CEnv} (h : Calm cenv) (net : Net) (c : Ctl) (hi : FoundInv c)
    (m : Msg) (a : Addr) (ha : m.fromAddr = some a) (hm : Encodable m) :
    (Taken m → (c.messageReceived ord env cenv net m).1.listeners = c.listeners ∧
      toldAll (c.messageReceived ord env cenv net m).1 = toldAll (afterList ord c m) ++
        reportTold (afterList ord c m).found c.listeners a.1 (m.deoj % 2 ^ 24) (received m).props) ∧
    (¬ Taken m → toldAll (c.messageReceived ord env cenv net m).1 = toldAll c) := by
  refine ⟨fun ht => ?_, fun ht => ?_⟩
  · cases hk : Dict.get? (afterList ord c m).found a.1 with
    | none =>
      rw [response_unknown hord env h net c hi m a ha hm ht.1 ht.2.1 ht.2.2 hk]
      unfold reportTold
      rw [hk]
      refine ⟨?_, by simp⟩
      unfold afterList
      split <;> rfl
    | some r =>
      obtain ⟨c', e1, -, -, -, e5, e6⟩ := response_known hord env h net c hi m a ha hm ht.1 ht.2.1 ht.2.2 r hk
      obtain ⟨-, -, f3, f4⟩ := receiveResponse_found c' (received m)
      rw [e1]
      exact ⟨f3.trans e5, f4.trans e6⟩
  · by_cases hr : ESV.isRequest m.esv = true
    · rw [request_eq ord env cenv net c m hr]; rfl
    have hr' : ESV.isRequest m.esv = false := by simpa using hr
    by_cases hrep : Reports m
    · by_cases hok : (m.esv = 0x72 ∨ m.esv = 0x73) ∧ m.deoj % 2 ^ 24 ≠ 0x0EF001
      · rw [response_misdirected ord env cenv net c m hm hok.1 hok.2]
      · by_cases hne : (m.esv = 0x72 ∨ m.esv = 0x73) ∧ instanceListOf m = .empty
        · have hd : m.deoj % 2 ^ 24 = 0x0EF001 := by
            by_contra hd
            exact hok ⟨hne.1, hd⟩
          rw [response_empty hord env h net c m a ha hm hne.1 hd hne.2]
        · exact absurd ⟨hrep, hok, hne⟩ ht
    · rw [response_other env net c m hm hr' hrep]
      exact (receiveResponse_found c (received m)).2.2.2

end Uecho
