/- Receiving only adds calls of registered listeners. -/
import Verif.Lemmas.Controller

namespace Uecho
open Spec

theorem notify_calls (cenv : CEnv) (call : Call) (ls : List Nat) : ∀ c : Ctl, ∃ hs : List Nat, (∀ x ∈ hs, x ∈ ls) ∧
    (Ctl.notifyLoop cenv call ls c).1 = { c with calls := c.calls ++ hs.map (fun l => (l, c.found, call)) } := by
  induction ls with
  | nil => intro c; exact ⟨[], by simp, by simp [Ctl.notifyLoop]⟩
  | cons l ls ih =>
    intro c
    unfold Ctl.notifyLoop
    simp only []
    cases cenv.listen l c.found call with
    | some e => exact ⟨[l], by simp, rfl⟩
    | none =>
      obtain ⟨hs, h1, h2⟩ := ih { c with calls := c.calls ++ [(l, c.found, call)] }
      refine ⟨l :: hs, ?_, ?_⟩
      · intro x hx
        rcases List.mem_cons.mp hx with rfl | hx
        · exact List.mem_cons_self
        · exact List.mem_cons_of_mem _ (h1 x hx)
      · simp only []
        rw [h2]
        simp

theorem notify_append (cenv : CEnv) (call : Call) (xs ys : List Nat) (h : ∀ x ∈ xs, ∀ t call, cenv.listen x t call = none) : ∀ c : Ctl,
    Ctl.notifyLoop cenv call (xs ++ ys) c = Ctl.notifyLoop cenv call ys { c with calls := c.calls ++ xs.map (fun l => (l, c.found, call)) } := by
  induction xs with
  | nil => intro c; simp
  | cons x xs ih =>
    intro c
    rw [List.cons_append, Ctl.notifyLoop]
    simp only [h x List.mem_cons_self]
    rw [ih (fun y hy => h y (List.mem_cons_of_mem _ hy))]
    simp

/-- `c'` came from `c` by calls of listeners of `c` and changes of the table. -/
def Follows (c c' : Ctl) : Prop :=
  c'.listeners = c.listeners ∧ ∃ more, c'.calls = c.calls ++ more ∧ ∀ x ∈ more, x.1 ∈ c.listeners

theorem Follows.refl (c : Ctl) : Follows c c := ⟨rfl, [], by simp, by simp⟩

theorem Follows.trans {a b c : Ctl} (h : Follows a b) (h' : Follows b c) : Follows a c := by
  obtain ⟨h1, m1, h2, h3⟩ := h
  obtain ⟨h1', m2, h2', h3'⟩ := h'
  refine ⟨h1'.trans h1, m1 ++ m2, by rw [h2', h2, List.append_assoc], ?_⟩
  intro x hx
  rcases List.mem_append.mp hx with hx | hx
  · exact h3 x hx
  · rw [← h1]; exact h3' x hx

theorem follows_notify (cenv : CEnv) (c : Ctl) (call : Call) : Follows c (c.notify cenv call).1 := by
  obtain ⟨hs, h1, h2⟩ := notify_calls cenv call c.listeners c
  unfold Ctl.notify
  rw [h2]
  refine ⟨rfl, _, rfl, ?_⟩
  intro x hx
  obtain ⟨y, hy, rfl⟩ := List.mem_map.mp hx
  exact h1 y hy

theorem follows_updateLoop (cenv : CEnv) (ip : String) (code : Int) (ms : List PProp) : ∀ (c : Ctl) (r : Remote) (o : Obj) (u : Bool),
    Follows c (Ctl.updateLoop cenv ip code ms c r o u).1 := by
  induction ms with
  | nil => intro c r o u; exact Follows.refl c
  | cons mp ms ih =>
    intro c r o u
    unfold Ctl.updateLoop
    split
    · exact ih c r o u
    · split
      · have h1 := follows_notify cenv (c.putRemote ip (r.putObj code (o.storeData mp.code mp.data)))
          (.propertyUpdated (r.putObj code (o.storeData mp.code mp.data)) (o.storeData mp.code mp.data).code mp.code mp.data)
        have h0 : Follows c (c.putRemote ip (r.putObj code (o.storeData mp.code mp.data))) := ⟨rfl, [], by simp [Ctl.putRemote], by simp⟩
        simp only []
        generalize Ctl.notify cenv _ _ = q at h1 ⊢
        rcases q with ⟨c', (_ | e)⟩
        · exact (h0.trans h1).trans (ih _ _ _ _)
        · exact h0.trans h1
      · exact ih c r o u

theorem follows_updateProperties (cenv : CEnv) (c : Ctl) (m : Msg) : Follows c (c.updateProperties cenv m).1 := by
  unfold Ctl.updateProperties
  split
  · exact Follows.refl c
  · exact Follows.refl c
  · rename_i r _
    split
    · exact Follows.refl c
    · rename_i o _
      have h1 := follows_updateLoop cenv r.node.ip m.deoj m.props c r o false
      generalize Ctl.updateLoop cenv r.node.ip m.deoj m.props c r o false = q at h1 ⊢
      rcases q with ⟨c1, r1, (e | (_ | _))⟩
      · exact h1
      · exact h1
      · simp only []
        have h2 := follows_notify cenv c1 (.objectUpdated r1 o.code)
        generalize Ctl.notify cenv c1 _ = q at h2 ⊢
        rcases q with ⟨c2, (_ | e)⟩
        · simp only []
          have h3 := follows_notify cenv c2 (.nodeAdd r1)
          unfold Ctl.notifyNodeUpdated
          generalize Ctl.notify cenv c2 _ = q at h3 ⊢
          rcases q with ⟨c3, (_ | e)⟩
          · exact (h1.trans h2).trans h3
          · exact (h1.trans h2).trans h3
        · exact h1.trans h2

theorem follows_receiveProfile (ord : List Int → List Int) (cenv : CEnv) (c : Ctl) (m : Msg) : Follows c (c.receiveProfile ord cenv m).1 := by
  unfold Ctl.receiveProfile
  split
  · exact Follows.refl c
  · exact Follows.refl c
  · split
    · exact Follows.refl c
    · split
      · exact Follows.refl c
      · exact Follows.refl c
      · rename_i node _
        unfold Ctl.addFoundNode
        simp only [Ctl.notifyNodeUpdated, ite_self]
        have h1 := follows_notify cenv c (.nodeAdd { node := node })
        generalize Ctl.notify cenv c _ = q at h1 ⊢
        rcases q with ⟨c1, (_ | e)⟩
        · exact h1.trans ⟨rfl, [], by simp, by simp⟩
        · exact h1

theorem follows_receive (ord : List Int → List Int) (env : Env) (cenv : CEnv) (net : Net) (c : Ctl) (m : Msg) :
    Follows c (c.messageReceived ord env cenv net m).1 := by
  unfold Ctl.messageReceived
  split
  · exact Follows.refl c
  · generalize (if ESV.isRequest m.esv = true then c.ln.messageReceived env net m else (c.ln, Except.ok ())) = q
    rcases q with ⟨n, (e | u)⟩
    · exact ⟨rfl, [], by simp, by simp⟩
    · have h0 : Follows c { c with ln := n } := ⟨rfl, [], by simp, by simp⟩
      simp only []
      split
      · exact h0
      · split
        · exact h0
        · rename_i msg _
          have h1 := follows_receiveProfile ord cenv { c with ln := n } msg
          generalize Ctl.receiveProfile ord cenv _ msg = q at h1 ⊢
          rcases q with ⟨c1, (e | u)⟩
          · exact h0.trans h1
          · simp only []
            have h2 : Follows c1 (c1.receiveProperties cenv msg).1 := by
              unfold Ctl.receiveProperties
              split
              · exact follows_updateProperties cenv c1 msg
              · exact Follows.refl c1
            generalize Ctl.receiveProperties cenv c1 msg = q at h2 ⊢
            rcases q with ⟨c2, (e | u)⟩
            · exact (h0.trans h1).trans h2
            · refine ((h0.trans h1).trans h2).trans ?_
              show Follows c2 (c2.receiveResponse msg)
              unfold Ctl.receiveResponse
              split
              · split
                · split
                  · exact ⟨rfl, [], by simp, by simp⟩
                  · exact Follows.refl _
                · exact Follows.refl _
              · exact Follows.refl _

end Uecho
