/- What was sent stays sent. -/
import Verif.Lemmas.Step

namespace Uecho
open Spec

theorem use_sent (R : RefRun) (u : Use) : ∀ s ∈ R.sent, s ∈ (R.use u).1.sent := by
  intro s hs
  cases u with
  | arrive x =>
    show s ∈ (R.arrive x).sent
    unfold RefRun.arrive
    split
    · exact List.mem_append_left _ hs
    · exact hs
  | announce m => exact List.mem_append_left _ hs
  | send m a => exact List.mem_append_left _ hs
  | store o c b => exact hs

theorem ctlUse_sent (fresh : Int → Int → Option Bytes) (R : RefCtlRun) (u : CtlUse) : ∀ s ∈ R.sent, s ∈ (R.use fresh u).1.sent := by
  intro s hs
  cases u with
  | device u =>
    cases u with
    | arrive x =>
      show s ∈ (R.arrive fresh x).sent
      unfold RefCtlRun.arrive
      split
      · exact List.mem_append_left _ hs
      · exact hs
    | announce m => exact List.mem_append_left _ hs
    | send m a => exact List.mem_append_left _ hs
    | store o c b => exact hs
  | sendTo m d => exact List.mem_append_left _ hs
  | post m d => exact List.mem_append_left _ hs
  | search => exact List.mem_append_left _ hs
  | listen l => exact hs
  | unlisten l =>
    simp only [RefCtlRun.use]
    split <;> exact hs

theorem step_carried (fresh : Int → Int → Option Bytes) (N : RefNet) (e : Incident) {ip dst : String} {b : Bytes} (h : N.Carried RefRun.sent RefCtlRun.sent ip dst b) :
    (N.step RefRun.use (RefCtlRun.use fresh) e).1.Carried RefRun.sent RefCtlRun.sent ip dst b := by
  obtain ⟨s, h1, h2⟩ := h
  cases e with
  | device x u =>
    cases hd : N.devices x with
    | none => simp only [Home.step, hd]; exact ⟨s, h1, h2⟩
    | some R =>
      simp only [Home.step, hd]
      refine ⟨s, ?_, h2⟩
      rcases h1 with ⟨r, k1, k2⟩ | h1
      · left
        by_cases e : ip = x
        · refine ⟨(R.use u).1, if_pos e, ?_⟩
          rw [e, hd] at k1
          injection k1 with k1
          rw [← k1] at k2
          exact use_sent R u s k2
        · exact ⟨r, (if_neg e).trans k1, k2⟩
      · exact .inr h1
  | controller x u =>
    cases hd : N.controllers x with
    | none => simp only [Home.step, hd]; exact ⟨s, h1, h2⟩
    | some R =>
      simp only [Home.step, hd]
      refine ⟨s, ?_, h2⟩
      rcases h1 with h1 | ⟨r, k1, k2⟩
      · exact .inl h1
      · right
        by_cases e : ip = x
        · refine ⟨(R.use fresh u).1, if_pos e, ?_⟩
          rw [e, hd] at k1
          injection k1 with k1
          rw [← k1] at k2
          exact ctlUse_sent fresh R u s k2
        · exact ⟨r, (if_neg e).trans k1, k2⟩

theorem run_carried (fresh : Int → Int → Option Bytes) (es : List Incident) : ∀ (N : RefNet) {ip dst : String} {b : Bytes}, N.Carried RefRun.sent RefCtlRun.sent ip dst b →
    (N.run RefRun.use (RefCtlRun.use fresh) es).1.Carried RefRun.sent RefCtlRun.sent ip dst b := by
  induction es with
  | nil => intro N ip dst b h; exact h
  | cons e es ih => intro N ip dst b h; exact ih _ (step_carried fresh N e h)

end Uecho
