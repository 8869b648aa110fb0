/- C95: looking at the found nodes while messages are received. -/
import Verif.Lemmas.Iterate
import Verif.Lemmas.Controller

namespace Uecho.Iter

/-- The events of a schedule: k steps of the thread. -/
def ticks (k : Nat) : List (Ev String Remote) := List.replicate k .tick

/-- Alone, the loops are what `Model/Controller` says. -/
theorem C95_alone_partial (c : Ctl) (cenv : CEnv) (addr : PyAddr) :
    run nodes (c.found, .fresh) (ticks (c.found.length + 2)) = (c.found, .returned c.nodes) ∧
    run (getNode cenv addr) (c.found, .fresh) (ticks (c.found.length + 2)) =
      (c.found, match c.getNode cenv addr with | .error e => .raised e | .ok r => .returned r) := by
  constructor
  · show run nodes (c.found, .inside 0 c.found.length []) (ticks (c.found.length + 1)) = _
    unfold ticks
    rw [run_alone nodes c.found c.found 0 [] _ (by simp) (Nat.le_refl _)]
    have : ∀ (l : List (String × Remote)) (acc : List Remote), finish nodes acc l = .returned (acc ++ l.map Prod.snd) := by
      intro l
      induction l with
      | nil => intro acc; simp [finish, nodes]
      | cons kv l ih =>
        intro acc
        show finish nodes (acc ++ [kv.2]) l = _
        rw [ih]
        simp
    rw [this]
    rfl
  · show run (getNode cenv addr) (c.found, .inside 0 c.found.length ()) (ticks (c.found.length + 1)) = _
    unfold ticks
    rw [run_alone _ c.found c.found 0 () _ (by simp) (Nat.le_refl _)]
    unfold Ctl.getNode
    congr 1
    generalize c.found = l
    induction l with
    | nil => rfl
    | cons kr l ih =>
      obtain ⟨k, r⟩ := kr
      unfold finish Ctl.getNodeLoop
      cases addr with
      | str s =>
        have hb : (getNode cenv (.str s)).body () k r = if s = k then .ok (.inr (some r))
            else match cenv.resolve s with
              | .error e => .error e
              | .ok ip => if ip = k then .ok (.inr (some r)) else .ok (.inl ()) := rfl
        rw [hb]
        by_cases e : s = k
        · simp only [e, if_true]
        · simp only [e, if_false]
          rcases hres : cenv.resolve s with e | ip
          · rfl
          · simp only []
            by_cases e' : ip = k
            · simp only [e', if_true]
            · simp only [e', if_false]
              exact ih
      | pair a =>
        simp only [getNode]
        by_cases e : a.1 = k
        · simp only [e, if_true]
        · simp only [e, if_false]
          exact ih
      | other =>
        simp only [getNode]
        exact ih

/-- C95 is false of `nodes`: whatever nodes are known, if a new one is stored at any moment after the loop has begun and before it
is through, RuntimeError is raised. -/
theorem C95_nodes_false (d : Dict String Remote) (ip : String) (r : Remote) (hn : ip ∉ Dict.keys d) (k : Nat) (hk : k ≤ d.length) :
    (run nodes (d, .fresh) (ticks (k + 1) ++ [.put ip r, .tick])).2 = .raised .runtimeError := by
  rw [run_append]
  have h : ∀ k, k ≤ d.length → run nodes (d, .fresh) (ticks (k + 1)) = (d, .inside k d.length ((d.take k).map Prod.snd)) := by
    intro k
    induction k with
    | zero => intro _; rfl
    | succ k ih =>
      intro hk
      have e : ticks (k + 1 + 1) = ticks (k + 1) ++ [.tick] := by unfold ticks; rw [List.replicate_succ' (n := k + 1)]
      rw [e, run_append, ih (by omega)]
      show (d, tick nodes d (.inside k d.length _)) = _
      rw [tick_inside, if_neg (not_not.mpr rfl)]
      have hlt : k < d.length := by omega
      rw [List.getElem?_eq_getElem hlt]
      show (d, Reader.inside (k + 1) d.length ((d.take k).map Prod.snd ++ [(d[k]).2])) = _
      rw [List.take_succ_eq_append_getElem hlt, List.map_append]
      rfl
  rw [h k hk]
  show tick nodes (Dict.set d ip r) (.inside k d.length _) = _
  rw [tick_inside, if_pos]
  rw [Dict.set_of_not_mem d ip r hn]
  simp

/-- C95 is false of `get_node` as well: the node asked for is known, at position j; a new one is stored before the loop gets
there. The receiving threads themselves call `get_node` for every report; the exception ends them (C55). -/
theorem C95_get_node_false (cenv : CEnv) (d : Dict String Remote) (a : Addr) (j : Nat) (hj : (Dict.keys d)[j]? = some a.1) (hd : (Dict.keys d).Nodup)
    (ip : String) (r : Remote) (hn : ip ∉ Dict.keys d) (k : Nat) (hk : k ≤ j) :
    (run (getNode cenv (.pair a)) (d, .fresh) (ticks (k + 1) ++ [.put ip r, .tick])).2 = .raised .runtimeError := by
  rw [run_append]
  have h : ∀ k, k ≤ j → run (getNode cenv (.pair a)) (d, .fresh) (ticks (k + 1)) = (d, .inside k d.length ()) := by
    intro k
    induction k with
    | zero => intro _; rfl
    | succ k ih =>
      intro hk
      have e : ticks (k + 1 + 1) = ticks (k + 1) ++ [.tick] := by unfold ticks; rw [List.replicate_succ' (n := k + 1)]
      rw [e, run_append, ih (by omega)]
      show (d, tick (getNode cenv (.pair a)) d (.inside k d.length ())) = _
      rw [tick_inside, if_neg (not_not.mpr rfl)]
      have hjl : j < (Dict.keys d).length := by
        by_contra hc
        rw [List.getElem?_eq_none (by omega)] at hj
        cases hj
      have hlt : k < d.length := by unfold Dict.keys at hjl; rw [List.length_map] at hjl; omega
      rw [List.getElem?_eq_getElem hlt]
      have hne : a.1 ≠ (d[k]).1 := by
        intro e
        have h1 : (Dict.keys d)[k]? = some a.1 := by
          unfold Dict.keys
          rw [List.getElem?_map, List.getElem?_eq_getElem hlt, e]
          rfl
        have := (List.nodup_iff_getElem?_ne_getElem?.mp hd) k j (by omega) hjl
        rw [h1, hj] at this
        exact this rfl
      simp only [getNode, if_neg hne]
  rw [h k hk]
  show tick (getNode cenv (.pair a)) (Dict.set d ip r) (.inside k d.length ()) = _
  rw [tick_inside, if_pos]
  rw [Dict.set_of_not_mem d ip r hn]
  simp

/-- C95 (what holds of `nodes`): if other threads store meanwhile only under addresses that are known, nothing is raised, and when it
returns, every known address has its place in the result, with a node that was stored for it at some moment during the call. Missing:
`C95_nodes_false`. -/
theorem C95_nodes_partial (d : Dict String Remote) (hd : (Dict.keys d).Nodup) (es : List (Ev String Remote))
    (hp : ∀ k v, Ev.put k v ∈ es → k ∈ Dict.keys d) :
    (∀ e, (run nodes (d, .fresh) es).2 ≠ .raised e) ∧
    ∀ l, (run nodes (d, .fresh) es).2 = .returned l → l.length = d.length ∧
      ∀ (i : Nat) k v, (Dict.keys d)[i]? = some k → l[i]? = some v → Stored nodes d es k v := by
  have := nodes_inv d hd es hp
  constructor
  · intro e he
    rw [he] at this
    exact this
  · intro l hl
    rw [hl] at this
    exact this

/-- C95 (what holds of `get_node`): under the same condition nothing is raised, and what is returned for an address is a node
that was stored for it at some moment during the call, or None if it is not known. Missing: `C95_get_node_false`. -/
theorem C95_get_node_partial (cenv : CEnv) (d : Dict String Remote) (hd : (Dict.keys d).Nodup) (a : Addr) (es : List (Ev String Remote))
    (hp : ∀ k v, Ev.put k v ∈ es → k ∈ Dict.keys d) :
    (∀ e, (run (getNode cenv (.pair a)) (d, .fresh) es).2 ≠ .raised e) ∧
    ((run (getNode cenv (.pair a)) (d, .fresh) es).2 = .returned none → a.1 ∉ Dict.keys d) ∧
    ∀ v, (run (getNode cenv (.pair a)) (d, .fresh) es).2 = .returned (some v) → Stored (getNode cenv (.pair a)) d es a.1 v := by
  have := get_inv cenv a d hd es hp
  refine ⟨fun e he => ?_, fun he => ?_, fun v he => ?_⟩ <;> (rw [he] at this; exact this)

/-- Two nodes are known; the second is replaced while they are listed. -/
example (n : Node Obj) : ∃ l, (run nodes ([("a", ⟨n, false⟩), ("b", ⟨n, false⟩)], .fresh) (ticks 2 ++ [.put "b" ⟨n, true⟩] ++ ticks 2)).2 = .returned l ∧
    l.map (·.linked) = [false, true] := ⟨_, rfl, rfl⟩

end Uecho.Iter
