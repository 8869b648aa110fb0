import Verif.Spec.Several
import Verif.Lemmas.Session
import Verif.Lemmas.Storm

namespace Uecho
open Spec

theorem ctls_put_self (C : Ctls) (i : Nat) (c : Ctl) : C.put i c i = c := if_pos rfl
theorem ctls_put_other (C : Ctls) {i j : Nat} (c : Ctl) (h : j ≠ i) : C.put i c j = C j := if_neg h

/-- What is true of a machine whoever asks it. -/
def Able (ord : List Int → List Int) (H : Machines) (ip : String) (obj : Int) : Prop :=
  ∃ h, H ip = some h ∧ h.addr = (ip, 3610) ∧ Reachable ord h.node ∧ h.node.controller = false ∧ CanSend h.node.mgr ∧ NetWorks h.net ∧ CodeStable h.env ∧
    ∃ o, h.node.getObject (.int obj) = some o ∧ WellFormed o ∧ o.handler = .self_ ∧ ∀ m, Quiet h.env o m

/-- What is true of a controller whomever it asks. -/
def Asks (ord : List Int → List Int) (k : Side) (c : Ctl) : Prop :=
  (∃ ops, CtlReach ord c ops) ∧ CanSend c.ln.mgr ∧ NetWorks k.cnet ∧ Calm k.cenv ∧ CodeStable k.cuser

theorem serves_iff (ord : List Int → List Int) (k : Side) (c : Ctl) (H : Machines) (ip : String) (obj : Int) :
    Serves ord k c H ip obj ↔ Able ord H ip obj ∧ Asks ord k c ∧ (0 ≤ obj ∧ obj < 2 ^ 24) ∧ Found c ip := by
  constructor
  · rintro ⟨⟨h, a1, a2, ⟨b1, b2, b3, b4, b5⟩, ⟨c1, c2, c3, c4, c5⟩, o, d1, d2, d3, d4⟩, e1, e2⟩
    exact ⟨⟨h, a1, a2, b3, b4, b5, c1, c4, o, d1, d2, d3, d4⟩, ⟨b1, b2, c2, c3, c5⟩, e1, e2⟩
  · rintro ⟨⟨h, a1, a2, b3, b4, b5, c1, c4, o, d1, d2, d3, d4⟩, ⟨b1, b2, c2, c3, c5⟩, e1, e2⟩
    exact ⟨⟨h, a1, a2, ⟨b1, b2, b3, b4, b5⟩, ⟨c1, c2, c3, c4, c5⟩, o, d1, d2, d3, d4⟩, e1, e2⟩

/-- A request of one controller: the machines stay able to answer all the others. -/
theorem request_step {ord : List Int → List Int} (hord : ValidOrder ord) (K : Nat → Side) (C : Ctls) (H : Machines) (i : Nat) (r : Req)
    (hs : Serves ord (K i) (C i) H r.ip r.obj) (hf : H.store.Fits [r]) :
    ∃ h c1 n1 t, H r.ip = some h ∧
      Exchange ord ((K i).world h) (K i).addr h.addr (.str r.ip) (C i) h.node r.message c1 n1 { H.store.answer r with tid := t, fromAddr := some (r.ip, 3610) } ∧
      (H.put r.ip n1).store = H.store.after r ∧
      ∀ d : Deed, d.Ready ord K C H → d.Ready ord K (C.put i c1) (H.put r.ip n1) := by
  obtain ⟨f1, f2, f3, f5, -⟩ := hf
  obtain ⟨h, c1, n1, t, a1, a2, a3, a4⟩ := session_step hord (K i) (C i) H r hs f1 f2 f3 f5
  refine ⟨h, c1, n1, t, a1, a2, a3, ?_⟩
  have hself := a4 _ _ hs
  have ⟨s1, s2, s3, s4⟩ := (serves_iff ..).mp hs
  have ⟨t1, t2, t3, t4⟩ := (serves_iff ..).mp hself
  have hable : ∀ ip obj, 0 ≤ obj ∧ obj < 2 ^ 24 → Able ord H ip obj → Able ord (H.put r.ip n1) ip obj := by
    intro ip obj hc hab
    by_cases e : ip = r.ip
    · subst e
      exact ((serves_iff ..).mp (a4 _ obj ((serves_iff ..).mpr ⟨hab, s2, hc, s4⟩))).1
    · obtain ⟨g, g1, g2⟩ := hab
      exact ⟨g, by unfold Machines.put; rw [if_neg e]; exact g1, g2⟩
  intro d hd
  cases d with
  | request j q =>
    by_cases e : j = i
    · subst e
      show Serves ord (K j) (C.put j c1 j) _ _ _
      rw [ctls_put_self]
      exact a4 _ _ hd
    · show Serves ord (K j) (C.put i c1 j) _ _ _
      rw [ctls_put_other C c1 e]
      obtain ⟨u1, u2, u3, u4⟩ := (serves_iff ..).mp hd
      exact (serves_iff ..).mpr ⟨hable _ _ u3 u1, u2, u3, u4⟩
  | assign ip obj code data =>
    obtain ⟨u1, g, u2, u3⟩ := hd
    refine ⟨u1, ?_⟩
    by_cases e : ip = r.ip
    · obtain ⟨g', g1, -, g3, -⟩ := t1
      exact ⟨g', by rw [e]; exact g1, g3⟩
    · exact ⟨g, by unfold Machines.put; rw [if_neg e]; exact u2, u3⟩
  | hear j m =>
    obtain ⟨u1, u2, u3⟩ := hd
    refine ⟨u1, ?_, u3⟩
    by_cases e : j = i
    · subst e
      rw [ctls_put_self]
      exact t2.1
    · rw [ctls_put_other C c1 e]
      exact u2

/-- In a node a program can get, an object under another code than 0x0EF001 is one the program has added. -/
theorem user_slot {ord : List Int → List Int} (hord : ValidOrder ord) {n : LocalNode} (hr : Reachable ord n) {k : Int} (hk : k ≠ 0x0EF001) {s : Slot}
    (h : Dict.get? n.node.objects k = some s) : ∃ o, s = .user o := by
  cases s with
  | user o => exact ⟨o, rfl⟩
  | profile =>
    exfalso
    have hi := reachable_inv hord hr
    have := hi.own _ (Dict.mem_of_get? _ _ _ h)
    exact hk (this.symm.trans hi.prof.code)

theorem set_code_same (o : Obj) (c : Int) (d : Bytes) : (o.setPropertyData c d).1.code = o.code := by
  unfold Obj.setPropertyData
  split <;> rfl

theorem set_lookup (o : Obj) (c : Int) (d : Bytes) (c' : Int) :
    lookup (o.setPropertyData c d).1.props c' = (lookup o.props c').map fun p => if c' = c then { p with data := d } else p := by
  unfold Obj.setPropertyData
  have hg : o.getProperty c = lookup o.props c := by rw [getProperty_eq]
  rw [hg]
  obtain h | ⟨p, h⟩ := Option.eq_none_or_eq_some (lookup o.props c)
  · rw [h]
    by_cases e : c' = c
    · subst e
      rw [h]
      rfl
    · simp only [if_neg e, Option.map_id']
  · rw [h]
    show lookup (Dict.modify _ _ _) _ = _
    rw [lookup_eq, Dict.get?_modify, lookup_eq]
    by_cases e : c' = c
    · subst e
      simp
    · rw [if_neg (fun x => e x.symm)]
      simp [e]

theorem update_get (n : LocalNode) (k : Int) (f : Obj → Obj) (k' : Int) (hu : ∀ s, Dict.get? n.node.objects k = some s → ∃ o, s = .user o) :
    (n.update k f).getObject (.int k') = if k' = k then (n.getObject (.int k)).map f else n.getObject (.int k') := by
  have hg : ∀ (n : LocalNode) (k : Int), n.getObject (.int k) = (Dict.get? n.node.objects k).map n.deref := fun _ _ => rfl
  unfold LocalNode.update
  obtain h | ⟨s, h⟩ := Option.eq_none_or_eq_some (Dict.get? n.node.objects k)
  · rw [h]
    by_cases e : k' = k
    · subst e
      simp only [hg, h]
      rfl
    · rw [if_neg e]
  · obtain ⟨o, rfl⟩ := hu s h
    rw [h]
    show (Dict.get? (Dict.modify n.node.objects k fun _ => .user (f o)) k').map n.deref = _
    rw [Dict.get?_modify]
    by_cases e : k' = k
    · subst e
      rw [if_pos rfl, if_pos rfl, hg, h]
      rfl
    · rw [if_neg (fun x => e x.symm), if_neg e]
      rfl

/-- The program at a device gives a property new data. -/
theorem assign_step {ord : List Int → List Int} (hord : ValidOrder ord) (K : Nat → Side) (C : Ctls) (H : Machines) (ip : String) (obj code : Int) (data : Bytes)
    (hd : (Deed.assign ip obj code data).Ready ord K C H) :
    ∃ h, H ip = some h ∧
      (H.put ip (h.node.update obj fun o => (o.setPropertyData code data).1)).store = H.store.assign ip obj code data ∧
      ∀ d : Deed, d.Ready ord K C H → d.Ready ord K C (H.put ip (h.node.update obj fun o => (o.setPropertyData code data).1)) := by
  obtain ⟨hobj, h, hh, hr⟩ := hd
  have hget := fun k' => update_get h.node obj (fun o => (o.setPropertyData code data).1) k' (fun s hs => user_slot hord hr hobj hs)
  have hr' : Reachable ord (h.node.update obj fun o => (o.setPropertyData code data).1) := by
    obtain ⟨rnd, ctl, ops, ha, e⟩ := hr
    refine ⟨rnd, ctl, ops ++ [.update obj fun o => (o.setPropertyData code data).1], ?_, ?_⟩
    · intro op hop
      rcases List.mem_append.mp hop with hop | hop
      · exact ha op hop
      · rw [List.mem_singleton.mp hop]
        exact fun o => set_code_same o code data
    · rw [e]
      unfold runOps
      rw [List.foldl_append]
      rfl
  have hput : (H.put ip (h.node.update obj fun o => (o.setPropertyData code data).1)) ip = some { h with node := h.node.update obj fun o => (o.setPropertyData code data).1 } := by
    unfold Machines.put; rw [if_pos rfl, hh]; rfl
  generalize hn : (h.node.update obj fun o => (o.setPropertyData code data).1) = n1 at hget hr' hput
  have hsame : n1.controller = h.node.controller ∧ n1.mgr = h.node.mgr := by
    rw [← hn]
    unfold LocalNode.update
    split <;> exact ⟨rfl, rfl⟩
  refine ⟨h, hh, ?_, ?_⟩
  · rw [hn]
    funext ip' k' c'
    by_cases e : ip' = ip
    · subst e
      rw [store_host hput]
      unfold Store.assign
      rw [store_host hh]
      show entryOf n1 k' c' = _
      unfold entryOf
      rw [hget k']
      by_cases e2 : k' = obj
      · subst e2
        rw [if_pos rfl]
        cases h.node.getObject (.int k') with
        | none => simp
        | some o =>
          simp only [Option.map_some, Option.bind_some, set_lookup]
          cases lookup o.props c' with
          | none => simp
          | some p =>
            by_cases e3 : c' = code
            · subst e3
              simp [CanRead, CanWrite]
            · simp [e3]
      · rw [if_neg e2, if_neg (fun x => e2 x.2.1)]
    · unfold Store.assign
      rw [if_neg (fun x => e x.1)]
      unfold Machines.store Machines.put
      rw [if_neg e]
  · rw [hn]
    have hable : ∀ ip' obj', Able ord H ip' obj' → Able ord (H.put ip n1) ip' obj' := by
      intro ip' obj' ⟨g, a1, a2, b3, b4, b5, c1, c4, o, d1, d2, d3, d4⟩
      by_cases e : ip' = ip
      · subst e
        rw [hh] at a1
        obtain rfl := Option.some.inj a1
        refine ⟨_, hput, a2, hr', hsame.1.trans b4, by rw [hsame.2]; exact b5, c1, c4, ?_⟩
        by_cases e2 : obj' = obj
        · subst e2
          have hsk : skeleton (o.setPropertyData code data).1 = skeleton o := by
            rw [setPropertyData_eq o code data d2]
            exact skeleton_afterWrites o _
          refine ⟨(o.setPropertyData code data).1, ?_, wf_of_skeleton hsk d2, (handler_of_skeleton hsk).trans d3, ?_⟩
          · show n1.getObject _ = _
            rw [hget, if_pos rfl, d1]
            rfl
          · intro m x hx
            have hobs : (o.setPropertyData code data).1.observers = o.observers := by
              have := congrArg Obj.observers hsk
              exact this
            rw [hobs] at hx
            exact d4 m x hx
        · exact ⟨o, by show n1.getObject _ = _; rw [hget, if_neg e2]; exact d1, d2, d3, d4⟩
      · exact ⟨g, by unfold Machines.put; rw [if_neg e]; exact a1, a2, b3, b4, b5, c1, c4, o, d1, d2, d3, d4⟩
    intro d hd
    cases d with
    | request j q =>
      obtain ⟨u1, u2⟩ := (serves_iff ..).mp hd
      exact (serves_iff ..).mpr ⟨hable _ _ u1, u2⟩
    | assign ip' obj' code' data' =>
      obtain ⟨u1, g, u2, u3⟩ := hd
      refine ⟨u1, ?_⟩
      by_cases e : ip' = ip
      · subst e
        exact ⟨_, hput, hr'⟩
      · exact ⟨g, by unfold Machines.put; rw [if_neg e]; exact u2, u3⟩
    | hear j m => exact hd

/-- What a controller has found it does not forget. -/
theorem found_receive {ord : List Int → List Int} (hord : ValidOrder ord) {c : Ctl} {ops : List CtlOp} (h : CtlReach ord c ops) (env : Env) {cenv : CEnv} (hc : Calm cenv)
    (hs : CodeStable env) (net : Net) (m : Msg) (hm : Delivered m) (ip : String) (hf : Found c ip) : Found (c.messageReceived ord env cenv net m).1 ip := by
  have h2 := ctl_snoc h (.receive env cenv net m) ⟨hm, hc, hs⟩
  have k1 := (reach_knows hord h).2 ip
  have k2 := (reach_knows hord h2).2 ip
  obtain ⟨x, hx⟩ := Option.isSome_iff_exists.mp ((Dict.get?_isSome_iff _ _).mpr hf)
  rw [heard_append, show heard [CtlOp.receive env cenv net m] = [m] from rfl, latest_append] at k2
  apply (Dict.get?_isSome_iff _ _).mp
  change (Dict.get? (c.messageReceived ord env cenv net m).1.found ip).map _ = _ at k2
  rw [hx] at k1
  generalize Dict.get? (c.messageReceived ord env cenv net m).1.found ip = z at k2 ⊢
  cases z with
  | some _ => rfl
  | none =>
    exfalso
    simp only [Option.map_none, Option.map_some] at k1 k2
    split at k2
    · rw [← k1] at k2; cases k2
    · split at k2
      · cases k2
      · rw [← k1] at k2; cases k2

/-- Something reaches a controller. -/
theorem hear_step {ord : List Int → List Int} (hord : ValidOrder ord) (K : Nat → Side) (C : Ctls) (H : Machines) (i : Nat) (m : Msg)
    (hd : (Deed.hear i m).Ready ord K C H) :
    ∀ d : Deed, d.Ready ord K C H → d.Ready ord K (C.put i ((C i).messageReceived ord (K i).cuser (K i).cenv (K i).cnet m).1) H := by
  obtain ⟨h1, ⟨ops, h2⟩, h3, h4⟩ := hd
  have h5 := ctl_snoc h2 (.receive (K i).cuser (K i).cenv (K i).cnet m) ⟨h1, h3, h4⟩
  intro d hd
  cases d with
  | request j q =>
    by_cases e : j = i
    · subst e
      show Serves ord (K j) (C.put j _ j) _ _ _
      rw [ctls_put_self]
      obtain ⟨u1, ⟨v1, v2, v3, v4, v5⟩, u3, u4⟩ := (serves_iff ..).mp hd
      refine (serves_iff ..).mpr ⟨u1, ⟨⟨_, h5⟩, ?_, v3, v4, v5⟩, u3, found_receive hord h2 _ h3 h4 _ m h1 _ u4⟩
      unfold CanSend at v2 ⊢
      rw [ctl_ln]
      split
      · obtain ⟨-, -, -, e, -⟩ := node_sends (K j).cuser (K j).cnet (C j).ln m
        rw [e]
        exact v2
      · exact v2
    · show Serves ord (K j) (C.put i _ j) _ _ _
      rw [ctls_put_other C _ e]
      exact hd
  | assign ip obj code data => exact hd
  | hear j m' =>
    obtain ⟨u1, u2, u3⟩ := hd
    refine ⟨u1, ?_, u3⟩
    by_cases e : j = i
    · subst e
      rw [ctls_put_self]
      exact ⟨_, h5⟩
    · rw [ctls_put_other C _ e]
      exact u2

end Uecho
