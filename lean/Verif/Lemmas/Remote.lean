import Verif.Lemmas.LocalNode
import Verif.Props.Std

namespace Uecho
open Spec

/-! ### Code lists -/

theorem listedCodes_length (k : Nat) : ∀ b, (listedCodes k b).length = k := by
  induction k with
  | zero => intro b; rfl
  | succ k ih => intro b; simp [listedCodes, ih]

theorem listedCodes_codeBytes (l : List Int) (t : Bytes) :
    listedCodes l.length (codeBytes l ++ t) = l.map (· % 2 ^ 24) := by
  induction l with
  | nil => rfl
  | cons c l ih =>
    have h3 : (beDigits c 3).length = 3 := by simp [beDigits]
    have e1 : (codeBytes (c :: l) ++ t).take 3 = beDigits c 3 := by
      unfold codeBytes
      rw [List.flatMap_cons, List.append_assoc, List.take_append_of_le_length (by omega), List.take_of_length_le (by omega)]
    have e2 : (codeBytes (c :: l) ++ t).drop 3 = codeBytes l ++ t := by
      unfold codeBytes
      rw [List.flatMap_cons, List.append_assoc, List.drop_append_of_le_length (by omega), List.drop_of_length_le (by omega), List.nil_append]
    rw [List.length_cons, listedCodes, e1, e2, ih, List.map_cons, ← toInt_eq_beValue, ← fromInt_eq_beDigits, toInt_fromInt]
    rfl

theorem codeBytes_length (l : List Int) : (codeBytes l).length = 3 * l.length := by
  induction l with
  | nil => rfl
  | cons c l ih =>
    have h3 : (beDigits c 3).length = 3 := by simp [beDigits]
    unfold codeBytes at ih ⊢
    rw [List.flatMap_cons, List.length_append, ih, h3, List.length_cons]
    omega

theorem addCodes_append (l cs ds : List Int) : addCodes l (cs ++ ds) = addCodes (addCodes l cs) ds := by
  unfold addCodes; rw [List.foldl_append]

theorem mem_addCodes (cs : List Int) : ∀ (l : List Int) (c : Int), c ∈ addCodes l cs ↔ c ∈ l ∨ c ∈ cs := by
  induction cs with
  | nil => intro l c; simp [addCodes]
  | cons x cs ih =>
    intro l c
    have : addCodes l (x :: cs) = addCodes (if x ∈ l then l else l ++ [x]) cs := rfl
    rw [this, ih]
    by_cases h : x ∈ l
    · rw [if_pos h, List.mem_cons]
      constructor
      · rintro (h | h)
        · exact Or.inl h
        · exact Or.inr (Or.inr h)
      · rintro (h' | rfl | h')
        · exact Or.inl h'
        · exact Or.inl h
        · exact Or.inr h'
    · rw [if_neg h, List.mem_append, List.mem_singleton, List.mem_cons, or_assoc]

theorem nodup_addCodes (cs : List Int) : ∀ (l : List Int), l.Nodup → (addCodes l cs).Nodup := by
  induction cs with
  | nil => intro l h; exact h
  | cons x cs ih =>
    intro l h
    have : addCodes l (x :: cs) = addCodes (if x ∈ l then l else l ++ [x]) cs := rfl
    rw [this]
    apply ih
    by_cases hx : x ∈ l
    · rw [if_pos hx]; exact h
    · rw [if_neg hx]
      rw [List.nodup_append]
      refine ⟨h, by simp, ?_⟩
      intro a ha b hb
      rw [List.mem_singleton] at hb
      subst hb
      rintro rfl
      exact hx ha

theorem addCodes_fresh (cs : List Int) : ∀ (l : List Int), (l ++ cs).Nodup → addCodes l cs = l ++ cs := by
  induction cs with
  | nil => intro l _; simp [addCodes]
  | cons x cs ih =>
    intro l h
    have : addCodes l (x :: cs) = addCodes (if x ∈ l then l else l ++ [x]) cs := rfl
    have hx : x ∉ l := by
      intro hx
      rw [List.nodup_append] at h
      exact h.2.2 x hx x List.mem_cons_self rfl
    rw [this, if_neg hx, ih _ (by simpa using h)]
    simp

/-! ### Remote nodes -/

/-- The object a remote node gets for a code. -/
def devObj (ord : List Int → List Int) (c : Int) : Obj := (StdObj.new ord stdObjects (.int c)).1

theorem std_new {ord : List Int → List Int} (hord : ValidOrder ord) (c : Int) :
    StdObj.new ord stdObjects (.int c) = (devObj ord c, .ok true) ∧ (devObj ord c).code = c ∧ WellFormed (devObj ord c) ∧
    (devObj ord c).handler = .self_ := by
  obtain ⟨o, h1, h2, h3, h4, -⟩ := C39_device_properties ord hord (.int c) c rfl
  unfold devObj
  rw [h1]
  exact ⟨rfl, h2, h4, h3⟩

/-- The table of a remote node after the codes have been added. -/
def addDevices (ord : List Int → List Int) (d : Dict Int Obj) (cs : List Int) : Dict Int Obj :=
  cs.foldl (fun d c => Dict.set d c (devObj ord c)) d

theorem keys_addDevices (ord : List Int → List Int) (cs : List Int) : ∀ d, Dict.keys (addDevices ord d cs) = addCodes (Dict.keys d) cs := by
  induction cs with
  | nil => intro d; rfl
  | cons c cs ih =>
    intro d
    have : addDevices ord d (c :: cs) = addDevices ord (Dict.set d c (devObj ord c)) cs := rfl
    rw [this, ih, Dict.keys_set]
    rfl

theorem get?_addDevices (ord : List Int → List Int) (cs : List Int) : ∀ d c, Dict.get? (addDevices ord d cs) c =
    if c ∈ cs then some (devObj ord c) else Dict.get? d c := by
  induction cs with
  | nil => intro d c; rfl
  | cons x cs ih =>
    intro d c
    have : addDevices ord d (x :: cs) = addDevices ord (Dict.set d x (devObj ord x)) cs := rfl
    rw [this, ih, Dict.get?_set]
    by_cases h1 : c ∈ cs
    · rw [if_pos h1, if_pos (List.mem_cons_of_mem _ h1)]
    · rw [if_neg h1]
      by_cases h2 : x = c
      · subst h2
        rw [if_pos rfl, if_pos List.mem_cons_self]
      · rw [if_neg h2, if_neg]
        simp only [List.mem_cons, not_or]
        exact ⟨fun h => h2 h.symm, h1⟩

theorem parseLoop_eq {ord : List Int → List Int} (hord : ValidOrder ord) (data : Bytes) (k : Nat) : ∀ (n : Nat) (node : Node Obj),
    RemoteNode.parseLoop ord data k n node =
      ({ node with objects := addDevices ord node.objects (listedCodes k (data.drop (3 * n + 1))) }, .ok true) := by
  induction k with
  | zero => intro n node; rfl
  | succ k ih =>
    intro n node
    unfold RemoteNode.parseLoop
    have e : toInt (pySlice data (RemoteNode.CODE_SIZE * n + 1) (RemoteNode.CODE_SIZE * n + 1 + RemoteNode.CODE_SIZE)) =
        (beValue ((data.drop (3 * n + 1)).take 3) : Int) := by
      rw [toInt_eq_beValue]
      unfold pySlice RemoteNode.CODE_SIZE
      rw [show 3 * n + 1 + 3 - (3 * n + 1) = 3 by omega]
    simp only [e]
    rw [(std_new hord _).1]
    simp only []
    rw [ih]
    simp only [Node.addObject, Node.put, (std_new hord _).2.1]
    rw [listedCodes, List.drop_drop, show 3 * n + 1 + 3 = 3 * (n + 1) + 1 by omega]
    rfl

theorem remoteNode_new {ord : List Int → List Int} (hord : ValidOrder ord) (a : Option Addr) :
    RemoteNode.new ord a = .ok { address := a, objects := [(0x0EF001, devObj ord 0x0EF001)] } := by
  unfold RemoteNode.new
  rw [(std_new hord _).1]
  simp only []
  have := (std_new hord 0x0EF001).2.1
  cases a with
  | none => simp only [Node.setAddress, Node.addObject, Node.put, this]; rfl
  | some a => simp only [Node.setAddress, Node.addObject, Node.put, this]; rfl

theorem parseMessage_eq {ord : List Int → List Int} (hord : ValidOrder ord) (node : Node Obj) (m : Msg) :
    RemoteNode.parseMessage ord node m = match instanceListOf m with
      | .notAList => (node, .ok false)
      | .empty => (node, .error .indexError)
      | .short => (node, .ok false)
      | .codes l => ({ node with objects := addDevices ord node.objects l }, .ok true) := by
  unfold RemoteNode.parseMessage instanceListOf
  cases hp : m.props with
  | nil => rfl
  | cons p ps =>
    simp only []
    by_cases hc : p.code = 0xD5 ∨ p.code = 0xD6
    · rw [if_pos hc, if_neg (show ¬ (p.code ≠ NodeProfile.INSTANCE_LIST_NOTIFICATION ∧ p.code ≠ NodeProfile.SELF_NODE_INSTANCE_LIST_S) from
        (by omega : ¬ (p.code ≠ 0xD5 ∧ p.code ≠ 0xD6)))]
      cases hd : p.data with
      | nil => rfl
      | cons b rest =>
        simp only []
        by_cases hl : rest.length < 3 * b.toNat
        · rw [if_pos hl, if_pos (by simp only [List.length_cons, RemoteNode.CODE_SIZE]; omega)]
        · rw [if_neg hl, if_neg (by simp only [List.length_cons, RemoteNode.CODE_SIZE]; omega)]
          rw [parseLoop_eq hord]
          rfl
    · rw [if_neg hc, if_pos (show p.code ≠ NodeProfile.INSTANCE_LIST_NOTIFICATION ∧ p.code ≠ NodeProfile.SELF_NODE_INSTANCE_LIST_S from
        (by omega : p.code ≠ 0xD5 ∧ p.code ≠ 0xD6))]

end Uecho
