/-
Lemmas for C144: how long messages are.
-/
import Verif.Lemmas.EndToEnd

namespace Uecho
open Spec

theorem encItems_length (ps : List PProp) : (encItems ps).length = 2 * ps.length + (ps.map fun p => p.data.length).sum := by
  induction ps with
  | nil => rfl
  | cons p ps ih =>
    unfold encItems at ih ⊢
    rw [List.flatMap_cons, List.length_append, ih]
    unfold encItem
    simp only [List.length_cons, List.map_cons, List.sum_cons]
    omega

theorem encSection_length (ps : List PProp) : (encSection ps).length = 1 + 2 * ps.length + (ps.map fun p => p.data.length).sum := by
  unfold encSection
  rw [List.length_cons, encItems_length]
  omega

theorem sum_bound (ps : List PProp) (h : ∀ p ∈ ps, p.data.length ≤ 255) : (ps.map fun p => p.data.length).sum ≤ 255 * ps.length := by
  induction ps with
  | nil => simp
  | cons p ps ih =>
    have h1 := h p List.mem_cons_self
    have h2 := ih fun q hq => h q (List.mem_cons_of_mem _ hq)
    simp only [List.map_cons, List.sum_cons, List.length_cons]
    omega

/-- The number of items in the lists of a message. -/
def items (m : Msg) : Nat := m.props.length + m.setProps.length + m.getProps.length

theorem encode_most (m : Msg) (hm : Encodable m) : (encode m).length ≤ 13 + 257 * items m := by
  rw [encode_length]
  obtain ⟨-, h⟩ := hm
  unfold encBody items
  by_cases ht : TwoSections m.esv
  · rw [if_pos ht] at h ⊢
    have h1 := sum_bound m.setProps fun p hp => by have := (h.1.2 p hp).2.2; omega
    have h2 := sum_bound m.getProps fun p hp => by have := (h.2.2 p hp).2.2; omega
    rw [List.length_append, encSection_length, encSection_length]
    omega
  · rw [if_neg ht] at h ⊢
    have h1 := sum_bound m.props fun p hp => by have := (h.2 p hp).2.2; omega
    rw [encSection_length]
    omega

theorem encode_least (m : Msg) : 12 + 2 * items (onWire m) ≤ (encode m).length := by
  rw [encode_length]
  unfold encBody items onWire
  by_cases ht : TwoSections m.esv
  · simp only [if_pos ht, List.length_append, encSection_length, List.length_nil]
    omega
  · simp only [if_neg ht, encSection_length, List.length_nil]
    omega

end Uecho
