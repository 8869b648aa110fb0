/- Lemmas for C95. -/
import Verif.Model.Iterate
import Verif.Lemmas.Dict
import Mathlib.Data.List.Induction

namespace Uecho.Iter

variable {κ ν α ρ : Type} [DecidableEq κ]

/-- What a loop does with the entries that are left if nobody interferes. -/
def finish (L : Loop κ ν α ρ) (acc : α) : List (κ × ν) → Reader α ρ
  | [] => .returned (L.fin acc)
  | (k, v) :: l =>
    match L.body acc k v with
    | .error e => .raised e
    | .ok (.inl acc) => finish L acc l
    | .ok (.inr r) => .returned r

/-- Through with the loop. -/
def Reader.over : Reader α ρ → Prop
  | .returned _ | .raised _ => True
  | _ => False

theorem run_cons (L : Loop κ ν α ρ) (s : Dict κ ν × Reader α ρ) (e : Ev κ ν) (es : List (Ev κ ν)) : run L s (e :: es) = run L (step L s e) es := rfl

theorem run_append (L : Loop κ ν α ρ) (s : Dict κ ν × Reader α ρ) (es fs : List (Ev κ ν)) : run L s (es ++ fs) = run L (run L s es) fs :=
  List.foldl_append

theorem tick_inside (L : Loop κ ν α ρ) (d : Dict κ ν) (pos used : Nat) (acc : α) : tick L d (.inside pos used acc) =
    if used ≠ d.length then .raised .runtimeError
    else match d[pos]? with
      | none => .returned (L.fin acc)
      | some (k, v) =>
        match L.body acc k v with
        | .error e => .raised e
        | .ok (.inl acc) => .inside (pos + 1) used acc
        | .ok (.inr r) => .returned r := rfl

theorem tick_over (L : Loop κ ν α ρ) (d : Dict κ ν) (r : Reader α ρ) (h : r.over) : tick L d r = r := by
  cases r <;> first | rfl | exact absurd h id

theorem run_over (L : Loop κ ν α ρ) (es : List (Ev κ ν)) : ∀ (d : Dict κ ν) (r : Reader α ρ), r.over → (run L (d, r) es).2 = r := by
  induction es with
  | nil => intro d r _; rfl
  | cons e es ih =>
    intro d r h
    rw [run_cons]
    cases e with
    | tick => show (run L (d, tick L d r) es).2 = r; rw [tick_over L d r h]; exact ih d r h
    | put k v => exact ih _ r h

/-- A loop nobody interferes with. -/
theorem run_alone (L : Loop κ ν α ρ) (d : Dict κ ν) (l : List (κ × ν)) : ∀ (pos : Nat) (acc : α) (n : Nat), d.drop pos = l → l.length + 1 ≤ n →
    run L (d, .inside pos d.length acc) (List.replicate n .tick) = (d, finish L acc l) := by
  have keep : ∀ n (r : Reader α ρ), r.over → run L (d, r) (List.replicate n .tick) = (d, r) := by
    intro n
    induction n with
    | zero => intro r _; rfl
    | succ n ih =>
      intro r h
      show run L (d, tick L d r) (List.replicate n .tick) = _
      rw [tick_over L d r h]
      exact ih r h
  induction l with
  | nil =>
    intro pos acc n hl hn
    obtain ⟨n, rfl⟩ : ∃ n', n = n' + 1 := ⟨n - 1, by simp at hn; omega⟩
    have hg : d[pos]? = none := by
      rw [List.getElem?_eq_none_iff]
      simpa using hl
    show run L (d, tick L d (.inside pos d.length acc)) (List.replicate n .tick) = _
    have : tick L d (.inside pos d.length acc) = .returned (L.fin acc) := by
      rw [tick_inside, if_neg (not_not.mpr rfl), hg]
    rw [this]
    exact keep _ _ trivial
  | cons kv l ih =>
    intro pos acc n hl hn
    obtain ⟨n, rfl⟩ : ∃ n', n = n' + 1 := ⟨n - 1, by simp at hn; omega⟩
    obtain ⟨k, v⟩ := kv
    have hg : d[pos]? = some (k, v) := by
      have := congrArg (fun x => x[0]?) hl
      simpa using this
    have hd : d.drop (pos + 1) = l := by
      rw [← List.tail_drop, hl]; rfl
    show run L (d, tick L d (.inside pos d.length acc)) (List.replicate n .tick) = _
    have : tick L d (.inside pos d.length acc) = match L.body acc k v with
        | .error e => .raised e
        | .ok (.inl acc) => .inside (pos + 1) d.length acc
        | .ok (.inr r) => .returned r := by
      rw [tick_inside, if_neg (not_not.mpr rfl), hg]
    rw [this]
    unfold finish
    rcases hb : L.body acc k v with e | (acc' | r)
    · exact keep _ _ trivial
    · exact ih (pos + 1) acc' n hd (by simp at hn ⊢; omega)
    · exact keep _ _ trivial

theorem getElem?_set (d : Dict κ ν) (k : κ) (v : ν) (h : k ∈ Dict.keys d) (hn : (Dict.keys d).Nodup) (i : Nat) :
    (Dict.set d k v)[i]? = (d[i]?).map fun kv => if kv.1 = k then (k, v) else kv := by
  induction d generalizing i with
  | nil => simp [Dict.keys] at h
  | cons kv d ih =>
    obtain ⟨k', v'⟩ := kv
    unfold Dict.set
    by_cases e : k' = k
    · subst e
      rw [if_pos rfl]
      cases i with
      | zero => simp
      | succ i =>
        rw [List.getElem?_cons_succ, List.getElem?_cons_succ]
        have hk : k' ∉ Dict.keys d := (List.nodup_cons.mp hn).1
        cases hi : d[i]? with
        | none => rfl
        | some kv =>
          have hm : kv ∈ d := List.mem_of_getElem? hi
          have : kv.1 ≠ k' := fun e => hk (e ▸ List.mem_map_of_mem (f := Prod.fst) hm)
          simp [this]
    · rw [if_neg e]
      have hk : k ∈ Dict.keys d := by
        rcases List.mem_cons.mp h with h | h
        · exact absurd h.symm e
        · exact h
      cases i with
      | zero => simp [e]
      | succ i =>
        rw [List.getElem?_cons_succ, List.getElem?_cons_succ]
        exact ih hk (List.nodup_cons.mp hn).2 i

theorem keys_set_mem (d : Dict κ ν) (k : κ) (v : ν) (h : k ∈ Dict.keys d) : Dict.keys (Dict.set d k v) = Dict.keys d := by
  rw [Dict.keys_set, if_pos h]

/-- Storing under keys that are there leaves the keys alone. -/
theorem run_keys (L : Loop κ ν α ρ) (es : List (Ev κ ν)) : ∀ (d : Dict κ ν) (r : Reader α ρ), (∀ k v, Ev.put k v ∈ es → k ∈ Dict.keys d) →
    Dict.keys (run L (d, r) es).1 = Dict.keys d := by
  induction es with
  | nil => intro d r _; rfl
  | cons e es ih =>
    intro d r h
    rw [run_cons]
    cases e with
    | tick => exact ih d _ (fun k v hm => h k v (List.mem_cons_of_mem _ hm))
    | put k v =>
      have hk := keys_set_mem d k v (h k v List.mem_cons_self)
      show Dict.keys (run L (Dict.set d k v, r) es).1 = _
      rw [ih (Dict.set d k v) r (fun k' v' hm => by rw [hk]; exact h k' v' (List.mem_cons_of_mem _ hm)), hk]

theorem length_of_keys {d d' : Dict κ ν} (h : Dict.keys d' = Dict.keys d) : d'.length = d.length := by
  have := congrArg List.length h
  simpa [Dict.keys] using this

/-- v was stored under k at some moment of the schedule. -/
def Stored {α ρ : Type} (L : Loop String Remote α ρ) (d : Dict String Remote) (es : List (Ev String Remote)) (k : String) (v : Remote) : Prop :=
  ∃ es1, es1 <+: es ∧ Dict.get? (run L (d, .fresh) es1).1 k = some v

theorem Stored.grow {α ρ : Type} {L : Loop String Remote α ρ} {d : Dict String Remote} {es : List (Ev String Remote)} {k : String} {v : Remote}
    (h : Stored L d es k v) (e : Ev String Remote) : Stored L d (es ++ [e]) k v := by
  obtain ⟨es1, h3, h4⟩ := h
  exact ⟨es1, h3.trans (List.prefix_append _ _), h4⟩

/-- The state of `nodes` after a schedule. -/
def NodesInv (d : Dict String Remote) (es : List (Ev String Remote)) : Reader (List Remote) (List Remote) → Prop
  | .fresh => True
  | .inside pos used acc => used = d.length ∧ acc.length = pos ∧ pos ≤ d.length ∧
      ∀ (i : Nat) k v, (Dict.keys d)[i]? = some k → acc[i]? = some v → Stored nodes d es k v
  | .returned l => l.length = d.length ∧ ∀ (i : Nat) k v, (Dict.keys d)[i]? = some k → l[i]? = some v → Stored nodes d es k v
  | .raised _ => False

theorem nodes_inv (d : Dict String Remote) (hd : (Dict.keys d).Nodup) (es : List (Ev String Remote)) (hp : ∀ k v, Ev.put k v ∈ es → k ∈ Dict.keys d) :
    NodesInv d es (run nodes (d, .fresh) es).2 := by
  induction es using List.reverseRecOn with
  | nil => trivial
  | append_singleton es e ih =>
    have hp' : ∀ k v, Ev.put k v ∈ es → k ∈ Dict.keys d := fun k v hm => hp k v (List.mem_append_left _ hm)
    have ih := ih hp'
    have hk := run_keys nodes es d .fresh hp'
    rw [run_append]
    generalize hs : run nodes (d, .fresh) es = s at ih hk
    obtain ⟨d', r⟩ := s
    simp only [] at ih hk
    have hlen := length_of_keys hk
    have keep : NodesInv d (es ++ [e]) r := by
      cases r with
      | fresh => trivial
      | inside pos used acc => exact ⟨ih.1, ih.2.1, ih.2.2.1, fun i k v h1 h2 => (ih.2.2.2 i k v h1 h2).grow e⟩
      | returned l => exact ⟨ih.1, fun i k v h1 h2 => (ih.2 i k v h1 h2).grow e⟩
      | raised e => exact ih
    cases e with
    | put k v => exact keep
    | tick =>
      show NodesInv d (es ++ [.tick]) (tick nodes d' r)
      cases r with
      | fresh =>
        refine ⟨hlen, rfl, Nat.zero_le _, ?_⟩
        intro i k v _ h
        cases h
      | returned l => exact keep
      | raised e => exact keep
      | inside pos used acc =>
        obtain ⟨i1, i2, i3, i4⟩ := ih
        rw [tick_inside, if_neg (not_not.mpr (i1.trans hlen.symm))]
        cases hg : d'[pos]? with
        | none =>
          have := List.getElem?_eq_none_iff.mp hg
          exact ⟨by show acc.length = _; omega, fun i k v h1 h2 => (i4 i k v h1 h2).grow _⟩
        | some kv =>
          obtain ⟨k0, v0⟩ := kv
          have hlt : pos < d'.length := by
            by_contra hc
            rw [List.getElem?_eq_none (by omega)] at hg
            cases hg
          refine ⟨i1, by simp [i2], by omega, ?_⟩
          intro i k v h1 h2
          by_cases hi : i < pos
          · rw [List.getElem?_append_left (by omega)] at h2
            exact (i4 i k v h1 h2).grow _
          · have hi' : i = pos := by
              by_contra hne
              rw [List.getElem?_eq_none (by simp; omega)] at h2
              cases h2
            subst hi'
            rw [List.getElem?_append_right (by omega), i2, Nat.sub_self] at h2
            have h2 : v0 = v := by simpa using h2
            subst h2
            refine ⟨es, List.prefix_append _ _, ?_⟩
            rw [hs]
            have hkk : k0 = k := by
              rw [← hk] at h1
              unfold Dict.keys at h1
              rw [List.getElem?_map, hg] at h1
              simpa using h1
            subst hkk
            exact Dict.get?_of_mem d' k0 v0 (by rw [hk]; exact hd) (List.mem_of_getElem? hg)

/-- The state of `get_node` after a schedule. -/
def GetInv (cenv : CEnv) (a : Addr) (d : Dict String Remote) (es : List (Ev String Remote)) : Reader Unit (Option Remote) → Prop
  | .fresh => True
  | .inside pos used _ => used = d.length ∧ a.1 ∉ (Dict.keys d).take pos
  | .returned none => a.1 ∉ Dict.keys d
  | .returned (some v) => Stored (getNode cenv (.pair a)) d es a.1 v
  | .raised _ => False

theorem get_inv (cenv : CEnv) (a : Addr) (d : Dict String Remote) (hd : (Dict.keys d).Nodup) (es : List (Ev String Remote))
    (hp : ∀ k v, Ev.put k v ∈ es → k ∈ Dict.keys d) : GetInv cenv a d es (run (getNode cenv (.pair a)) (d, .fresh) es).2 := by
  induction es using List.reverseRecOn with
  | nil => trivial
  | append_singleton es e ih =>
    have hp' : ∀ k v, Ev.put k v ∈ es → k ∈ Dict.keys d := fun k v hm => hp k v (List.mem_append_left _ hm)
    have ih := ih hp'
    have hk := run_keys (getNode cenv (.pair a)) es d .fresh hp'
    rw [run_append]
    generalize hs : run (getNode cenv (.pair a)) (d, .fresh) es = s at ih hk
    obtain ⟨d', r⟩ := s
    simp only [] at ih hk
    have hlen := length_of_keys hk
    have keep : GetInv cenv a d (es ++ [e]) r := by
      cases r with
      | fresh => trivial
      | inside pos used acc => exact ih
      | returned l =>
        cases l with
        | none => exact ih
        | some v => exact Stored.grow ih e
      | raised e => exact ih
    cases e with
    | put k v => exact keep
    | tick =>
      show GetInv cenv a d (es ++ [.tick]) (tick (getNode cenv (.pair a)) d' r)
      cases r with
      | fresh => exact ⟨hlen, by simp⟩
      | returned l => exact keep
      | raised e => exact keep
      | inside pos used acc =>
        obtain ⟨i1, i2⟩ := ih
        rw [tick_inside, if_neg (not_not.mpr (i1.trans hlen.symm))]
        cases hg : d'[pos]? with
        | none =>
          have := List.getElem?_eq_none_iff.mp hg
          show a.1 ∉ Dict.keys d
          rw [List.take_of_length_le (by unfold Dict.keys; rw [List.length_map]; omega)] at i2
          exact i2
        | some kv =>
          obtain ⟨k0, v0⟩ := kv
          have hkp : (Dict.keys d)[pos]? = some k0 := by
            rw [← hk]
            unfold Dict.keys
            rw [List.getElem?_map, hg]
            rfl
          by_cases e : a.1 = k0
          · have hb : (getNode cenv (.pair a)).body acc k0 v0 = .ok (.inr (some v0)) := by simp [getNode, e]
            simp only [hb]
            refine ⟨es, List.prefix_append _ _, ?_⟩
            rw [hs, e]
            exact Dict.get?_of_mem d' k0 v0 (by rw [hk]; exact hd) (List.mem_of_getElem? hg)
          · have hb : (getNode cenv (.pair a)).body acc k0 v0 = .ok (.inl ()) := by simp [getNode, e]
            simp only [hb]
            refine ⟨i1, ?_⟩
            have hlt : pos < (Dict.keys d).length := by
              by_contra hc
              rw [List.getElem?_eq_none (by omega)] at hkp
              cases hkp
            rw [List.take_succ_eq_append_getElem hlt]
            rw [List.getElem?_eq_getElem hlt] at hkp
            injection hkp with hkp
            rw [List.mem_append, List.mem_singleton, hkp]
            rintro (h | h)
            · exact i2 h
            · exact e h

end Uecho.Iter
