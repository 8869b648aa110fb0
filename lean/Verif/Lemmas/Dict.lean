import Verif.Model.Py
import Mathlib.Tactic.Common

namespace Uecho
namespace Dict
variable {κ ν : Type} [DecidableEq κ]
set_option linter.unusedSectionVars false

@[simp] theorem get?_nil (k : κ) : get? ([] : Dict κ ν) k = none := rfl

theorem get?_cons (k' : κ) (v : ν) (d : Dict κ ν) (k : κ) :
    get? ((k', v) :: d) k = if k' = k then some v else get? d k := rfl

theorem get?_set (d : Dict κ ν) (k : κ) (v : ν) (k' : κ) :
    (d.set k v).get? k' = if k = k' then some v else d.get? k' := by
  induction d with
  | nil => simp [set, get?]
  | cons kv d ih =>
    obtain ⟨k1, v1⟩ := kv
    simp only [set]
    by_cases h : k1 = k
    · subst h; simp only [if_true, get?_cons]; by_cases h' : k1 = k' <;> simp [h']
    · simp only [h, if_false, get?_cons, ih]
      by_cases h' : k1 = k'
      · subst h'; simp [Ne.symm h]
      · simp [h']

theorem get?_modify (d : Dict κ ν) (k : κ) (f : ν → ν) (k' : κ) :
    (d.modify k f).get? k' = if k = k' then (d.get? k').map f else d.get? k' := by
  induction d with
  | nil => simp [modify]
  | cons kv d ih =>
    obtain ⟨k1, v1⟩ := kv
    simp only [modify]
    by_cases h : k1 = k
    · subst h; simp only [if_true, get?_cons]; by_cases h' : k1 = k' <;> simp [h']
    · simp only [h, if_false, get?_cons, ih]
      by_cases h' : k1 = k'
      · subst h'; simp [Ne.symm h]
      · simp [h']

theorem keys_modify (d : Dict κ ν) (k : κ) (f : ν → ν) : (d.modify k f).keys = d.keys := by
  induction d with
  | nil => rfl
  | cons kv d ih =>
    obtain ⟨k1, v1⟩ := kv
    simp only [modify]
    by_cases h : k1 = k
    · simp [h, keys]
    · simp only [h, if_false]; simpa [keys] using ih

theorem get?_eq_none_iff (d : Dict κ ν) (k : κ) : d.get? k = none ↔ k ∉ d.keys := by
  induction d with
  | nil => simp [keys]
  | cons kv d ih =>
    obtain ⟨k1, v1⟩ := kv
    rw [get?_cons]
    by_cases h : k1 = k
    · subst h; simp [keys]
    · simp only [h, if_false, ih, keys, List.map_cons, List.mem_cons, not_or]
      constructor
      · intro h'; exact ⟨fun e => h e.symm, h'⟩
      · exact fun h' => h'.2

theorem get?_isSome_iff (d : Dict κ ν) (k : κ) : (d.get? k).isSome ↔ k ∈ d.keys := by
  have := get?_eq_none_iff d k
  cases h : d.get? k with
  | none => rw [h] at this; simp at this; simp [this]
  | some v => rw [h] at this; simp at this; simp [this]

theorem keys_set (d : Dict κ ν) (k : κ) (v : ν) :
    (d.set k v).keys = if k ∈ d.keys then d.keys else d.keys ++ [k] := by
  induction d with
  | nil => simp [set, keys]
  | cons kv d ih =>
    obtain ⟨k1, v1⟩ := kv
    simp only [set]
    by_cases h : k1 = k
    · subst h; simp [keys]
    · simp only [h, if_false]
      simp only [keys, List.map_cons, List.mem_cons] at ih ⊢
      rw [ih]
      by_cases hm : k ∈ List.map Prod.fst d
      · simp [hm]
      · simp [hm, Ne.symm h]

theorem nodup_keys_set (d : Dict κ ν) (k : κ) (v : ν) (h : d.keys.Nodup) : (d.set k v).keys.Nodup := by
  rw [keys_set]
  by_cases hm : k ∈ d.keys
  · simpa [hm] using h
  · simp only [hm, if_false]
    rw [List.nodup_append]
    exact ⟨h, by simp, by intro a ha b hb; simp at hb; subst hb; exact fun e => hm (e ▸ ha)⟩

theorem mem_of_get? (d : Dict κ ν) (k : κ) (v : ν) (h : d.get? k = some v) : (k, v) ∈ d := by
  induction d with
  | nil => simp at h
  | cons kv d ih =>
    obtain ⟨k1, v1⟩ := kv
    rw [get?_cons] at h
    by_cases e : k1 = k
    · subst e; simp only [if_true, Option.some.injEq] at h; subst h; simp
    · simp only [e, if_false] at h; exact List.mem_cons_of_mem _ (ih h)

theorem get?_of_mem (d : Dict κ ν) (k : κ) (v : ν) (hn : d.keys.Nodup) (h : (k, v) ∈ d) :
    d.get? k = some v := by
  induction d with
  | nil => simp at h
  | cons kv d ih =>
    obtain ⟨k1, v1⟩ := kv
    simp only [keys, List.map_cons, List.nodup_cons] at hn
    rw [get?_cons]
    rcases List.mem_cons.mp h with h | h
    · simp only [Prod.mk.injEq] at h; simp [h.1, h.2]
    · have : k1 ≠ k := by
        rintro rfl; exact hn.1 (List.mem_map.mpr ⟨_, h, rfl⟩)
      simp only [this, if_false]
      exact ih hn.2 h

/-- values replaced pointwise, keys kept -/
def mapKV (d : Dict κ ν) (f : κ → ν → ν) : Dict κ ν := d.map (fun kv => (kv.1, f kv.1 kv.2))

theorem mapKV_cons (k : κ) (v : ν) (d : Dict κ ν) (f : κ → ν → ν) :
    mapKV ((k, v) :: d) f = (k, f k v) :: mapKV d f := rfl

theorem get?_mapKV (d : Dict κ ν) (f : κ → ν → ν) (k : κ) :
    (d.mapKV f).get? k = (d.get? k).map (f k) := by
  induction d with
  | nil => rfl
  | cons kv d ih =>
    obtain ⟨k1, v1⟩ := kv
    show get? ((k1, f k1 v1) :: mapKV d f) k = _
    rw [get?_cons, get?_cons]
    by_cases h : k1 = k
    · subst h; simp
    · simp [h, ih]

theorem keys_mapKV (d : Dict κ ν) (f : κ → ν → ν) : (d.mapKV f).keys = d.keys := by
  simp [mapKV, keys, Function.comp_def]

theorem modify_eq_mapKV (d : Dict κ ν) (k : κ) (f : ν → ν) (h : d.keys.Nodup) :
    d.modify k f = d.mapKV (fun k' v => if k' = k then f v else v) := by
  induction d with
  | nil => rfl
  | cons kv d ih =>
    obtain ⟨k1, v1⟩ := kv
    simp only [keys, List.map_cons, List.nodup_cons] at h
    simp only [modify]
    rw [mapKV_cons]
    by_cases e : k1 = k
    · subst e
      simp only [if_true]
      congr 1
      have : ∀ kv ∈ d, kv.1 ≠ k1 := fun kv hkv e => h.1 (List.mem_map.mpr ⟨kv, hkv, e⟩)
      unfold mapKV
      conv => lhs; rw [← List.map_id d]
      apply List.map_congr_left
      intro kv hkv
      simp [this kv hkv]
    · simp only [e, if_false]
      rw [ih h.2]

theorem mapKV_mapKV (d : Dict κ ν) (f g : κ → ν → ν) :
    (d.mapKV f).mapKV g = d.mapKV (fun k v => g k (f k v)) := by
  simp [mapKV, Function.comp_def]

theorem mapKV_id (d : Dict κ ν) : d.mapKV (fun _ v => v) = d := by
  simp [mapKV]

theorem set_of_mem (d : Dict κ ν) (k : κ) (v : ν) (h : k ∈ d.keys) :
    d.set k v = d.modify k (fun _ => v) := by
  induction d with
  | nil => simp [keys] at h
  | cons kv d ih =>
    obtain ⟨k1, v1⟩ := kv
    simp only [set, modify]
    by_cases e : k1 = k
    · simp [e]
    · simp only [e, if_false]
      rw [ih]
      simp only [keys, List.map_cons, List.mem_cons] at h ⊢
      exact h.resolve_left (fun h' => e h'.symm)

theorem set_of_not_mem (d : Dict κ ν) (k : κ) (v : ν) (h : k ∉ d.keys) :
    d.set k v = d ++ [(k, v)] := by
  induction d with
  | nil => rfl
  | cons kv d ih =>
    obtain ⟨k1, v1⟩ := kv
    simp only [keys, List.map_cons, List.mem_cons, not_or] at h
    simp only [set]
    rw [if_neg (fun e => h.1 e.symm)]
    rw [ih h.2]; rfl

end Dict
end Uecho
