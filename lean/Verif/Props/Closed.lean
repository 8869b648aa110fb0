/- C152, C153: networks in which only what was sent arrives. -/
import Verif.Lemmas.Closed
import Verif.Lemmas.Bounded
import Verif.Props.Whole

namespace Uecho
open Spec

theorem nodeEntry_eq (n : LocalNode) (o c : Int) : nodeEntry n o c = (deviceOf n).entry o c := by
  unfold nodeEntry RefDevice.entry deviceOf
  simp only [Option.bind_map]
  rfl

theorem plain_short {env : Env} {n : LocalNode} (h : PlainNode env n) : Short (deviceOf n) := by
  intro o c e he
  rw [← nodeEntry_eq] at he
  unfold nodeEntry at he
  obtain ⟨ob, h1, h2⟩ := Option.bind_eq_some_iff.mp he
  obtain ⟨p, h3, rfl⟩ := Option.map_eq_some_iff.mp h2
  have := (h o ob h1).2.2.2 c p h3
  show p.data.length < 256
  omega

theorem store_short {D : RefDevice} (h : Short D) {o c : Int} {b : Bytes} (hb : b.length ≤ 255) : Short (D.store o c b) := by
  intro o' c' e he
  rw [entry_store] at he
  split at he
  · obtain ⟨e0, -, rfl⟩ := Option.map_eq_some_iff.mp he
    show b.length < 256
    omega
  · exact h o' c' e he

/-! ### C152 -/

theorem writes_wire {o c so k : Int} {m : Msg} (h : Writes o c (onWire { m with seoj := so, tid := k })) : Writes o c m := by
  obtain ⟨h1, h2⟩ := h
  refine ⟨by have h1 : m.deoj % 2 ^ 24 % 2 ^ 24 = o := h1; omega, ?_⟩
  rcases h2 with ⟨h2, i, hi, hc⟩ | ⟨h2, i, hi, hc⟩
  · refine .inl ⟨h2, i, ?_, hc⟩
    simp only [onWire] at hi
    split at hi
    · cases hi
    · exact hi
  · refine .inr ⟨h2, i, ?_, hc⟩
    simp only [onWire] at hi
    split at hi
    · exact hi
    · cases hi

theorem not_writes {o c : Int} {w : Msg} (h1 : w.esv ≠ 0x60) (h2 : w.esv ≠ 0x61) (h3 : w.esv ≠ 0x6E) : ¬ Writes o c w := by
  rintro ⟨-, ⟨h | h, -⟩ | ⟨h, -⟩⟩
  · exact h1 h
  · exact h2 h
  · exact h3 h

/-- Nothing on its way to this address writes this property. -/
def NoWriter (ip : String) (o c : Int) (dst : String) (m : Msg) : Prop := (dst = ip ∨ dst = everyone) → ¬ Writes o c m

def StaysD (ip : String) (o c : Int) (E : Option Entry) (ip' : String) (D : RefDevice) : Prop := Short D ∧ (ip' = ip → D.entry o c = E)

theorem stays_dev {ip : String} {o c : Int} {E : Option Entry} (ip' : String) (D : RefDevice) (d : Bytes) (a : Addr) (hq : StaysD ip o c E ip' D)
    (hm : ∀ m, readMsg (d.take 1024) = some m → NoWriter ip o c ip' m ∨ NoWriter ip o c everyone m) :
    StaysD ip o c E ip' (D.actual d a).1 ∧ ∀ s ∈ (D.actual d a).2.1, Fine (NoWriter ip o c) s := by
  refine ⟨⟨actual_short hq.1 d a, fun hip => ?_⟩, fun s hs w hw _ => ?_⟩
  · rcases actual_entry D d a o c with h | ⟨m, e0, e, hr, -, -, hw, -⟩
    · rw [h]; exact hq.2 hip
    · rcases hm m hr with k | k
      · exact absurd hw (k (.inl hip))
      · exact absurd hw (k (.inr rfl))
  · obtain ⟨h1, h2, h3, -⟩ := actual_sends hq.1 d a s hs w hw
    exact not_writes h1 h2 h3

theorem stays_keeps (fresh : Int → Int → Option Bytes) (ip : String) (o c : Int) (E E' : Option Entry) :
    Keeps fresh (NoWriter ip o c) (StaysD ip o c E) (fun ip' C => StaysD ip o c E' ip' C.dev) where
  dev := stays_dev
  ctl := by
    intro ip' C d a hq hm
    rcases ctl_cases fresh C d a with h | ⟨h1, h2⟩
    · rw [h]; exact stays_dev ip' C.dev d a hq hm
    · refine ⟨?_, by rw [h1]; intro s hs; cases hs⟩
      rcases h2 with h2 | ⟨m, -, h2⟩
      · rw [h2]; exact hq
      · rw [h2, actualReport_dev, actualList_dev]; exact hq
  num := fun _ _ _ h => h
  cnum := fun _ _ _ h => h
  ask := fun _ _ _ h => h
  lis := fun _ _ _ h => h

theorem home_devices {N : RealNet} {ip : String} {R : RefRun} (h : (homeOf N).devices ip = some R) : ∃ r, N.devices ip = some r ∧ R = runOf r := by
  obtain ⟨r, h1, h2⟩ := Option.map_eq_some_iff.mp h
  exact ⟨r, h1, h2.symm⟩

theorem home_controllers {N : RealNet} {ip : String} {R : RefCtlRun} (h : (homeOf N).controllers ip = some R) : ∃ r, N.controllers ip = some r ∧ R = ctlRunOf r := by
  obtain ⟨r, h1, h2⟩ := Option.map_eq_some_iff.mp h
  exact ⟨r, h1, h2.symm⟩

theorem home_netKeeps {OK : String → Msg → Prop} {QD : String → RefDevice → Prop} {QC : String → RefController → Prop} {N : RealNet}
    (hs : ∀ dst m, N.Said sentBy sentByCtl dst m → OK dst m) (hd : ∀ ip r, N.devices ip = some r → QD ip (deviceOf r.st)) (hc : ∀ ip r, N.controllers ip = some r → QC ip (controllerOf r.st)) :
    NetKeeps OK QD QC (homeOf N) := by
  refine ⟨fun ip R hR => ?_, fun ip R hR => ?_⟩
  · obtain ⟨r, hr, rfl⟩ := home_devices hR
    exact ⟨hd ip r hr, fun s hs' m hm => hs _ m ⟨ip, s, .inl ⟨r, hr, hs'⟩, rfl, hm⟩⟩
  · obtain ⟨r, hr, rfl⟩ := home_controllers hR
    exact ⟨hc ip r hr, fun s hs' m hm => hs _ m ⟨ip, s, .inr ⟨r, hr, hs'⟩, rfl, hm⟩⟩

/-- C152. Only who writes a property changes it: in a closed network, whatever its devices and controllers ask each other, announce, search, answer and lose, a property of the device at an
address, and of the controller at it, may be read and written and holds data as before, unless its own program stores data in it, or someone sends a message that writes it to this address or
to everyone, or had done so before. Nothing a node sends by itself, no answer and no announcement, ever writes. -/
theorem C152_only_writers {ord : List Int → List Int} (hord : ValidOrder ord) (env : Env) (hc : CodeStable env) (cenv : CEnv) (hcalm : Calm cenv) (net : Net) (hs : NetWorks net)
    (N : RealNet) (h : Built ord env N) (es : List Incident) (hf : ∀ e ∈ es, e.Fair) (hmay : N.May (nodeUse env net) (ctlUse ord env cenv net) sentBy sentByCtl es)
    (ip : String) (o c : Int)
    (hbefore : ∀ m, N.Said sentBy sentByCtl ip m ∨ N.Said sentBy sentByCtl "224.0.23.0" m → ¬ Writes o c m)
    (hsays : ∀ e ∈ es, ∀ dst m, e.says = some (dst, m) → dst = none ∨ dst = some ip ∨ dst = some "224.0.23.0" → ¬ Writes o c m)
    (hstores : ∀ e ∈ es, ∀ b, e.stores ≠ some (ip, o, c, b)) :
    let q := N.run (nodeUse env net) (ctlUse ord env cenv net) es
    (∀ r r', N.devices ip = some r → q.1.devices ip = some r' → nodeEntry r'.st o c = nodeEntry r.st o c) ∧
    ∀ r r', N.controllers ip = some r → q.1.controllers ip = some r' → nodeEntry r'.st.ln o c = nodeEntry r.st.ln o c := by
  intro q
  obtain ⟨k1, -, k3⟩ := C150_network hord env hc cenv hcalm net hs N h es hf
  let E : Option Entry := (N.devices ip).bind fun r => (deviceOf r.st).entry o c
  let E' : Option Entry := (N.controllers ip).bind fun r => (deviceOf r.st.ln).entry o c
  have hk := stays_keeps (freshData ord) ip o c E E'
  have h0 : NetKeeps (NoWriter ip o c) (StaysD ip o c E) (fun ip' C => StaysD ip o c E' ip' C.dev) (homeOf N) := by
    refine home_netKeeps ?_ ?_ ?_
    · rintro dst m hm (rfl | hd)
      · exact hbefore m (.inl hm)
      · rw [hd] at hm; exact hbefore m (.inr hm)
    · intro ip' r hr
      refine ⟨plain_short (h.dev ip' r hr).2.1, ?_⟩
      rintro rfl
      show _ = (N.devices ip').bind _
      rw [hr]; rfl
    · intro ip' r hr
      refine ⟨plain_short (h.ctl ip' r hr).2.1, ?_⟩
      rintro rfl
      show _ = (N.controllers ip').bind _
      rw [hr]; rfl
  have hstay : ∀ (E : Option Entry) (ip' : String) (o' c' : Int) (b : Bytes), b.length ≤ 255 → (ip' = ip → ¬ (o = o' ∧ c = c')) → ∀ D, StaysD ip o c E ip' D → StaysD ip o c E ip' (D.store o' c' b) := by
    intro E ip' o' c' b hb hne D hD
    refine ⟨store_short hD.1 hb, fun hip => ?_⟩
    rw [entry_store, if_neg (hne hip)]
    exact hD.2 hip
  have hfine : ∀ e ∈ es, FineUse (NoWriter ip o c) (StaysD ip o c E) (fun ip' C => StaysD ip o c E' ip' C.dev) e := by
    intro e he
    refine ⟨?_, ?_, ?_⟩
    · intro dst m hsay _ so k hdst hw
      refine hsays e he dst m hsay ?_ (writes_wire hw)
      cases dst with
      | none => exact .inl rfl
      | some x =>
        rcases hdst with hdst | hdst
        · exact .inr (.inl (congrArg some hdst))
        · exact .inr (.inr (congrArg some hdst))
    · rintro ip' o' c' b rfl D hD
      have hfair := hf _ he
      refine hstay E ip' o' c' b hfair.2 ?_ D hD
      rintro rfl ⟨rfl, rfl⟩
      exact hstores _ he b rfl
    · rintro ip' o' c' b rfl C hD
      have hfair := hf _ he
      refine hstay E' ip' o' c' b hfair.2 ?_ C.dev hD
      rintro rfl ⟨rfl, rfl⟩
      exact hstores _ he b rfl
  have hend := keeps_run hk es (homeOf N) h0 hfine (k3.mp hmay)
  rw [← k1] at hend
  refine ⟨fun r r' hr hr' => ?_, fun r r' hr hr' => ?_⟩
  · rw [nodeEntry_eq, nodeEntry_eq]
    have : (deviceOf r'.st).entry o c = E := (hend.dev ip (runOf r') (by show (q.1.devices ip).map runOf = _; rw [hr']; rfl)).1.2 rfl
    rw [this]
    show (N.devices ip).bind _ = _
    rw [hr]; rfl
  · rw [nodeEntry_eq, nodeEntry_eq]
    have : (deviceOf r'.st.ln).entry o c = E' := (hend.ctl ip (ctlRunOf r') (by show (q.1.controllers ip).map ctlRunOf = _; rw [hr']; rfl)).1.2 rfl
    rw [this]
    show (N.controllers ip).bind _ = _
    rw [hr]; rfl

/-- C152. And whatever is sent that writes the property was sent so by a program: a message to this address, or to everyone, that writes it too; or it had been sent before. -/
theorem C152_sent {ord : List Int → List Int} (hord : ValidOrder ord) (env : Env) (hc : CodeStable env) (cenv : CEnv) (hcalm : Calm cenv) (net : Net) (hs : NetWorks net)
    (N : RealNet) (h : Built ord env N) (es : List Incident) (hf : ∀ e ∈ es, e.Fair) (hmay : N.May (nodeUse env net) (ctlUse ord env cenv net) sentBy sentByCtl es)
    (dst : String) (o c : Int) (m : Msg) (hm : (N.run (nodeUse env net) (ctlUse ord env cenv net) es).1.Said sentBy sentByCtl dst m) (hw : Writes o c m) :
    N.Said sentBy sentByCtl dst m ∨ ∃ e ∈ es, ∃ d m', e.says = some (d, m') ∧ d.getD "224.0.23.0" = dst ∧ Writes o c m' ∧ Encodable m' ∧ m = onWire { m' with seoj := m.seoj, tid := m.tid } := by
  obtain ⟨k1, -, k3⟩ := C150_network hord env hc cenv hcalm net hs N h es hf
  let OK : String → Msg → Prop := fun dst m => Writes o c m →
    N.Said sentBy sentByCtl dst m ∨ ∃ e ∈ es, ∃ d m', e.says = some (d, m') ∧ d.getD "224.0.23.0" = dst ∧ Writes o c m' ∧ Encodable m' ∧ m = onWire { m' with seoj := m.seoj, tid := m.tid }
  have hk : Keeps (freshData ord) OK (fun _ => Short) (fun _ C => Short C.dev) := by
    have hdev : ∀ (D : RefDevice) d a, Short D → Short (D.actual d a).1 ∧ ∀ s ∈ (D.actual d a).2.1, Fine OK s := by
      intro D d a hq
      refine ⟨actual_short hq d a, fun s hs w hw hwr => ?_⟩
      obtain ⟨h1, h2, h3, -⟩ := actual_sends hq d a s hs w hw
      exact absurd hwr (not_writes h1 h2 h3)
    refine ⟨fun ip D d a hq _ => hdev D d a hq, ?_, fun _ _ _ h => h, fun _ _ _ h => h, fun _ _ _ h => h, fun _ _ _ h => h⟩
    intro ip C d a hq hm
    rcases ctl_cases (freshData ord) C d a with h | ⟨h1, h2⟩
    · rw [h]; exact hdev C.dev d a hq
    · refine ⟨?_, by rw [h1]; intro s hs; cases hs⟩
      rcases h2 with h2 | ⟨m, -, h2⟩
      · rw [h2]; exact hq
      · rw [h2, actualReport_dev, actualList_dev]; exact hq
  have h0 : NetKeeps OK (fun _ => Short) (fun _ C => Short C.dev) (homeOf N) :=
    home_netKeeps (fun dst m hm _ => .inl hm) (fun ip r hr => plain_short (h.dev ip r hr).2.1) fun ip r hr => plain_short (h.ctl ip r hr).2.1
  have hfine : ∀ e ∈ es, FineUse OK (fun _ => Short) (fun _ C => Short C.dev) e := by
    intro e he
    refine ⟨?_, ?_, ?_⟩
    · intro d m' hsay hen so k hwr
      refine .inr ⟨e, he, d, m', hsay, rfl, writes_wire hwr, hen, ?_⟩
      simp only [onWire, Int.emod_emod_of_dvd _ (Int.dvd_refl _)]
    · rintro ip' o' c' b rfl D hD
      exact store_short hD (hf _ he).2
    · rintro ip' o' c' b rfl C hD
      exact store_short hD (hf _ he).2
  have hend := keeps_run hk es (homeOf N) h0 hfine (k3.mp hmay)
  rw [← k1] at hend
  obtain ⟨ip, s, hsent, hdst, hread⟩ := hm
  rw [← hdst]
  rcases hsent with ⟨r, hr, hsr⟩ | ⟨r, hr, hsr⟩
  · have hr : N.Said sentBy sentByCtl s.dest.1 m ∨ _ :=
      (hend.dev ip (runOf r) (by show ((N.run (nodeUse env net) (ctlUse ord env cenv net) es).1.devices ip).map runOf = _; rw [hr]; rfl)).2 s hsr m hread hw
    exact hr
  · have hr : N.Said sentBy sentByCtl s.dest.1 m ∨ _ :=
      (hend.ctl ip (ctlRunOf r) (by show ((N.run (nodeUse env net) (ctlUse ord env cenv net) es).1.controllers ip).map ctlRunOf = _; rw [hr]; rfl)).2 s hsr m hread hw
    exact hr

/-! ### C153 -/

def HoldsD (S : Bytes → Prop) (D : RefDevice) : Prop := Short D ∧ ∀ o c e, D.entry o c = some e → S e.data

theorem made_wire {S : Bytes → Prop} {m : Msg} (h : Made S m) (so k : Int) : Made S (onWire { m with seoj := so, tid := k }) := by
  refine ⟨?_, ?_, ?_⟩ <;> intro i hi <;> simp only [onWire] at hi <;> split at hi
  · cases hi
  · exact h.1 i hi
  · exact h.2.1 i hi
  · cases hi
  · exact h.2.2 i hi
  · cases hi

theorem made_dev {S : Bytes → Prop} (hnil : S []) (ip : String) (D : RefDevice) (d : Bytes) (a : Addr) (hq : HoldsD S D)
    (hm : ∀ m, readMsg (d.take 1024) = some m → Made S m ∨ Made S m) :
    HoldsD S (D.actual d a).1 ∧ ∀ s ∈ (D.actual d a).2.1, Fine (fun _ => Made S) s := by
  have hitem : ∀ m, readMsg (d.take 1024) = some m → ∀ i, i ∈ m.props ∨ i ∈ m.setProps → S i.data := by
    intro m hr i hi
    have := (hm m hr).elim id id
    rcases hi with hi | hi
    · exact this.1 i hi
    · exact this.2.1 i hi
  have hent : ∀ o c e, (D.actual d a).1.entry o c = some e → S e.data := by
    intro o c e he
    rcases actual_entry D d a o c with h | ⟨m, e0, e', hr, k1, k2, -, -, -, k3⟩
    · exact hq.2 o c e (by rw [← h]; exact he)
    · rw [k2] at he
      injection he with he
      subst he
      rcases k3 with k3 | ⟨-, i, hi, k3⟩
      · rw [k3]; exact hq.2 o c e0 k1
      · rw [k3]; exact hitem m hr i hi
  refine ⟨⟨actual_short hq.1 d a, hent⟩, fun s hs w hw => ?_⟩
  obtain ⟨-, -, -, m, hr, h1, h2, h3⟩ := actual_sends hq.1 d a s hs w hw
  have go : ∀ b, (b = [] ∨ (∃ i, (i ∈ m.props ∨ i ∈ m.setProps) ∧ b = i.data) ∨ ∃ o c e, (D.actual d a).1.entry o c = some e ∧ b = e.data) → S b := by
    rintro b (rfl | ⟨i, hi, rfl⟩ | ⟨o, c, e, he, rfl⟩)
    · exact hnil
    · exact hitem m hr i hi
    · exact hent o c e he
  exact ⟨fun i hi => go _ (h1 i hi), fun i hi => go _ (h2 i hi), fun i hi => go _ (h3 i hi)⟩

theorem putsData_from (S : Bytes → Prop) (is : List PProp) : ∀ data : Int → Option Bytes, (∀ c b, data c = some b → S b) → (∀ i ∈ is, S i.data) → ∀ c b, putsData data is c = some b → S b := by
  induction is with
  | nil => intro data h _; exact h
  | cons i is ih =>
    intro data h hi
    refine ih (putData data i) ?_ fun j hj => hi j (List.mem_cons_of_mem _ hj)
    intro c b hb
    unfold putData at hb
    split at hb
    · obtain ⟨x, -, rfl⟩ := Option.map_eq_some_iff.mp hb
      exact hi i (List.mem_cons_self ..)
    · exact h c b hb

theorem newsIn_mem (is : List PProp) : ∀ (data : Int → Option Bytes), ∀ i ∈ newsIn data is, i ∈ is := by
  induction is with
  | nil => intro data i hi; cases hi
  | cons j is ih =>
    intro data i hi
    unfold newsIn at hi
    split at hi
    · exact List.mem_cons_of_mem _ (ih _ i hi)
    · split at hi
      · exact List.mem_cons_of_mem _ (ih _ i hi)
      · rcases List.mem_cons.mp hi with rfl | hi
        · exact List.mem_cons_self ..
        · exact List.mem_cons_of_mem _ (ih _ i hi)

theorem told_mem {ls : List Nat} {t : Told} {x : Nat × Told} (h : x ∈ tellAll ls t) : x.2 = t := by
  obtain ⟨l, -, rfl⟩ := List.mem_map.mp h
  rfl

theorem shows_list {S : Bytes → Prop} {fresh : Int → Int → Option Bytes} (hfresh : ∀ o c b, fresh o c = some b → S b) {C : RefController} (h : C.Shows S) (a : Addr) (m : Msg) :
    (C.actualList fresh a m).Shows S := by
  unfold RefController.actualList
  split
  swap
  · exact h
  split
  swap
  · exact h
  rename_i l _
  refine ⟨?_, ?_, h.2.2⟩
  · intro ip N o c b hN hb
    have hN : (if ip = a.1 then some (RefController.listed fresh a l) else C.node ip) = some N := hN
    split at hN
    · injection hN with hN
      rw [← hN] at hb
      have hb : (if o ∈ addCodes [0x0EF001] l then fresh o else fun _ => none) c = some b := hb
      split at hb
      · exact hfresh o c b hb
      · cases hb
    · exact h.1 ip N o c b hN hb
  · intro l' ip o c b hm
    rcases List.mem_append.mp hm with hm | hm
    · exact h.2.1 l' ip o c b hm
    · have := told_mem hm
      cases this

theorem shows_answered {S : Bytes → Prop} {C : RefController} (h : C.Shows S) {m : Msg} (hm : Made S m) : (C.answered m).Shows S := by
  unfold RefController.answered
  split
  · refine ⟨h.1, h.2.1, ?_⟩
    intro m' h'
    injection h' with h'
    rw [← h']
    exact hm
  · exact h

theorem shows_report {S : Bytes → Prop} {C : RefController} (h : C.Shows S) {ip : String} {N : RefNode} (hN : C.node ip = some N) (o : Int) (is : List PProp) (hi : ∀ i ∈ is, S i.data) :
    (C.report ip N o (.nodeAdd ip) is).Shows S := by
  unfold RefController.report
  split
  swap
  · exact h
  refine ⟨?_, ?_, h.2.2⟩
  · intro ip' N' o' c b h1 h2
    have h1 : (if ip' = ip then some { N with data := fun o' => if o' = o then putsData (N.data o) is else N.data o' } else C.node ip') = some N' := h1
    split at h1
    · injection h1 with h1
      rw [← h1] at h2
      have h2 : (if o' = o then putsData (N.data o) is else N.data o') c = some b := h2
      split at h2
      · exact putsData_from S is (N.data o) (fun c b hb => h.1 ip N o c b hN hb) hi c b h2
      · exact h.1 ip N o' c b hN h2
    · exact h.1 ip' N' o' c b h1 h2
  · intro l ip' o' c b hm
    rcases List.mem_append.mp hm with hm | hm
    · rcases List.mem_append.mp hm with hm | hm
      · exact h.2.1 l ip' o' c b hm
      · obtain ⟨i, hi1, hi2⟩ := List.mem_flatMap.mp hm
        have := told_mem hi2
        injection this with _ _ _ hb
        rw [hb]
        exact hi i (newsIn_mem is _ i hi1)
    · split at hm
      · cases hm
      · rcases List.mem_append.mp hm with hm | hm
        · have := told_mem hm; cases this
        · have := told_mem hm; cases this

theorem actualReport_shows {S : Bytes → Prop} {C : RefController} (h : C.Shows S) (a : Addr) {m : Msg} (hm : Made S m) : (C.actualReport a m).1.Shows S := by
  have hm' : Made S { m with fromAddr := some a } := hm
  unfold RefController.actualReport
  split
  · split
    · exact h
    · rename_i N hN
      exact shows_answered (shows_report h hN _ _ hm.1) hm'
  · exact shows_answered h hm'

theorem made_keeps {S : Bytes → Prop} (hnil : S []) {fresh : Int → Int → Option Bytes} (hfresh : ∀ o c b, fresh o c = some b → S b) :
    Keeps fresh (fun _ => Made S) (fun _ => HoldsD S) (fun _ C => HoldsD S C.dev ∧ C.Shows S) where
  dev := fun ip D d a => made_dev hnil ip D d a
  ctl := by
    intro ip C d a hq hm
    rcases ctl_cases fresh C d a with h | ⟨h1, h2⟩
    · rw [h]
      obtain ⟨k1, k2⟩ := made_dev hnil ip C.dev d a hq.1 hm
      exact ⟨⟨k1, hq.2⟩, k2⟩
    · refine ⟨?_, by rw [h1]; intro s hs; cases hs⟩
      rcases h2 with h2 | ⟨m, hr, h2⟩
      · rw [h2]; exact hq
      · rw [h2]
        refine ⟨by rw [actualReport_dev, actualList_dev]; exact hq.1, ?_⟩
        exact actualReport_shows (shows_list hfresh hq.2 a m) a ((hm m hr).elim id id)
  num := fun _ _ _ h => h
  cnum := fun _ _ _ h => h
  ask := fun _ _ _ h => ⟨h.1, h.2.1, h.2.2.1, by intro m hm; cases hm⟩
  lis := fun _ _ _ h => h

/-- All data of a network are in `S`: what devices and controllers hold, what controllers know of others, told their listeners and got as answers, and what is in the datagrams sent. -/
structure AllIn (S : Bytes → Prop) (N : RealNet) : Prop where
  held : ∀ ip r, N.devices ip = some r → ∀ o c e, nodeEntry r.st o c = some e → S e.data
  own : ∀ ip r, N.controllers ip = some r → ∀ o c e, nodeEntry r.st.ln o c = some e → S e.data
  shown : ∀ ip r, N.controllers ip = some r → (controllerOf r.st).Shows S
  sent : ∀ dst m, N.Said sentBy sentByCtl dst m → Made S m

/-- C153. Nothing is made up: in a closed network every value that is held anywhere, known anywhere, told to a listener, given as an answer or sent to anyone is empty, what an object that was
never written holds, one that was there before, or one that a program gave, in a message it sent or in a store. (Take for `S` exactly these.) -/
theorem C153_no_invention {ord : List Int → List Int} (hord : ValidOrder ord) (env : Env) (hc : CodeStable env) (cenv : CEnv) (hcalm : Calm cenv) (net : Net) (hs : NetWorks net)
    (N : RealNet) (h : Built ord env N) (es : List Incident) (hf : ∀ e ∈ es, e.Fair) (hmay : N.May (nodeUse env net) (ctlUse ord env cenv net) sentBy sentByCtl es)
    (S : Bytes → Prop) (hnil : S []) (hfresh : ∀ o c b, freshData ord o c = some b → S b) (hbefore : AllIn S N)
    (hsays : ∀ e ∈ es, ∀ dst m, e.says = some (dst, m) → Made S m) (hstores : ∀ e ∈ es, ∀ ip o c b, e.stores = some (ip, o, c, b) → S b) :
    AllIn S (N.run (nodeUse env net) (ctlUse ord env cenv net) es).1 := by
  obtain ⟨k1, -, k3⟩ := C150_network hord env hc cenv hcalm net hs N h es hf
  have h0 : NetKeeps (fun _ => Made S) (fun _ => HoldsD S) (fun _ C => HoldsD S C.dev ∧ C.Shows S) (homeOf N) := by
    refine home_netKeeps hbefore.sent ?_ ?_
    · intro ip r hr
      refine ⟨plain_short (h.dev ip r hr).2.1, fun o c e he => ?_⟩
      rw [← nodeEntry_eq] at he
      exact hbefore.held ip r hr o c e he
    · intro ip r hr
      refine ⟨⟨plain_short (h.ctl ip r hr).2.1, fun o c e he => ?_⟩, hbefore.shown ip r hr⟩
      have he : (deviceOf r.st.ln).entry o c = some e := he
      rw [← nodeEntry_eq] at he
      exact hbefore.own ip r hr o c e he
  have hstay : ∀ (o c : Int) (b : Bytes), b.length ≤ 255 → S b → ∀ D, HoldsD S D → HoldsD S (D.store o c b) := by
    intro o c b hb hS D hD
    refine ⟨store_short hD.1 hb, fun o' c' e he => ?_⟩
    rw [entry_store] at he
    split at he
    · obtain ⟨e0, -, rfl⟩ := Option.map_eq_some_iff.mp he
      exact hS
    · exact hD.2 o' c' e he
  have hfine : ∀ e ∈ es, FineUse (fun _ => Made S) (fun _ => HoldsD S) (fun _ C => HoldsD S C.dev ∧ C.Shows S) e := by
    intro e he
    refine ⟨fun dst m hsay _ so k => made_wire (hsays e he dst m hsay) so k, ?_, ?_⟩
    · rintro ip o c b rfl D hD
      have hfair := hf _ he
      exact hstay o c b hfair.2 (hstores _ he ip o c b rfl) D hD
    · rintro ip o c b rfl C hC
      have hfair := hf _ he
      exact ⟨hstay o c b hfair.2 (hstores _ he ip o c b rfl) C.dev hC.1, hC.2⟩
  have hend := keeps_run (made_keeps hnil hfresh) es (homeOf N) h0 hfine (k3.mp hmay)
  rw [← k1] at hend
  generalize (N.run (nodeUse env net) (ctlUse ord env cenv net) es).1 = q at hend
  have hD : ∀ ip r, q.devices ip = some r → (homeOf q).devices ip = some (runOf r) := by intro ip r hr; show (q.devices ip).map runOf = _; rw [hr]; rfl
  have hC : ∀ ip r, q.controllers ip = some r → (homeOf q).controllers ip = some (ctlRunOf r) := by intro ip r hr; show (q.controllers ip).map ctlRunOf = _; rw [hr]; rfl
  refine ⟨?_, ?_, ?_, ?_⟩
  · intro ip r hr o c e he
    rw [nodeEntry_eq] at he
    exact (hend.dev ip _ (hD ip r hr)).1.2 o c e he
  · intro ip r hr o c e he
    rw [nodeEntry_eq] at he
    exact (hend.ctl ip _ (hC ip r hr)).1.1.2 o c e he
  · intro ip r hr
    exact (hend.ctl ip _ (hC ip r hr)).1.2
  · rintro dst m ⟨ip, s, ⟨r, hr, hs'⟩ | ⟨r, hr, hs'⟩, rfl, hm⟩
    · exact (hend.dev ip _ (hD ip r hr)).2 s hs' m hm
    · exact (hend.ctl ip _ (hC ip r hr)).2 s hs' m hm

/-! ### A network -/

/-- In the network of the light and the controller only the search of the controller has been sent. -/
theorem exHome_said (dst : String) (m : Msg) (h : exHome.Said sentBy sentByCtl dst m) : m.esv = 0x62 ∧ Made (fun b => b.length ≤ 20) m := by
  have key : (((sentBy ⟨exRunning, fun _ => true⟩) ++ sentByCtl ⟨exSeeing, fun _ => true⟩).all fun s => (readMsg (s.bytes.take 1024)).all fun m => decide (m.esv = 0x62) &&
      (m.props.all fun i => decide (i.data.length ≤ 20)) && (m.setProps.all fun i => decide (i.data.length ≤ 20)) && m.getProps.all fun i => decide (i.data.length ≤ 20)) = true := by
    decide +kernel
  obtain ⟨ip, s, hs, -, hr⟩ := h
  have hmem : s ∈ (sentBy ⟨exRunning, fun _ => true⟩) ++ sentByCtl ⟨exSeeing, fun _ => true⟩ := by
    rcases hs with ⟨r, h1, h2⟩ | ⟨r, h1, h2⟩
    · have h1 : (if ip = "10.0.0.9" then some (⟨exRunning, fun _ => true⟩ : Running LocalNode) else none) = some r := h1
      split at h1
      · injection h1 with h1; rw [← h1] at h2; exact List.mem_append_left _ h2
      · cases h1
    · have h1 : (if ip = "10.0.0.2" then some (⟨exSeeing, fun _ => true⟩ : Running Ctl) else none) = some r := h1
      split at h1
      · injection h1 with h1; rw [← h1] at h2; exact List.mem_append_right _ h2
      · cases h1
  have := List.all_eq_true.mp key s hmem
  rw [hr] at this
  simp only [Option.all_some, Bool.and_eq_true, List.all_eq_true, decide_eq_true_eq] at this
  exact ⟨this.1.1.1, this.1.1.2, this.1.2, this.2⟩

theorem entries_short {n : LocalNode} (h : n.node.objects.all (fun s => (n.deref s.2).props.all (fun x => decide (x.2.data.length ≤ 20))) = true) (o c : Int) (e : Entry)
    (he : nodeEntry n o c = some e) : e.data.length ≤ 20 := by
  obtain ⟨ob, h1, h2⟩ := Option.bind_eq_some_iff.mp he
  obtain ⟨p, h3, rfl⟩ := Option.map_eq_some_iff.mp h2
  obtain ⟨s, hg, rfl⟩ := Option.map_eq_some_iff.mp h1
  exact lookup_length _ _ (List.all_eq_true.mp h (o, s) (Dict.mem_of_get? _ _ _ hg)) c p h3

theorem exHome_short : AllIn (fun b => b.length ≤ 20) exHome := by
  refine ⟨?_, ?_, ?_, fun dst m h => (exHome_said dst m h).2⟩
  · intro ip r h1 o c e he
    have h1 : (if ip = "10.0.0.9" then some (⟨exRunning, fun _ => true⟩ : Running LocalNode) else none) = some r := h1
    split at h1
    · injection h1 with h1
      rw [← h1] at he
      exact entries_short (by decide +kernel) o c e he
    · cases h1
  · intro ip r h1 o c e he
    have h1 : (if ip = "10.0.0.2" then some (⟨exSeeing, fun _ => true⟩ : Running Ctl) else none) = some r := h1
    split at h1
    · injection h1 with h1
      rw [← h1] at he
      exact entries_short (n := exSeeing.ln) (by decide +kernel) o c e he
    · cases h1
  · intro ip r h1
    have h1 : (if ip = "10.0.0.2" then some (⟨exSeeing, fun _ => true⟩ : Running Ctl) else none) = some r := h1
    split at h1
    · injection h1 with h1
      rw [← h1]
      have hk : exSeeing.found.isEmpty = true ∧ (toldAll exSeeing).isEmpty = true ∧ exSeeing.last.response.isNone = true := by decide +kernel
      refine ⟨?_, ?_, ?_⟩
      · intro ip N o c b h
        have h : (Dict.get? exSeeing.found ip).map nodeOf = some N := h
        rw [List.isEmpty_iff.mp hk.1] at h
        cases h
      · intro l ip o c b h
        have h : (l, Told.propertyUpdated ip o c b) ∈ toldAll exSeeing := h
        rw [List.isEmpty_iff.mp hk.2.1] at h
        cases h
      · intro m h
        have h : exSeeing.last.response = some m := h
        rw [h] at hk
        cases hk.2.2
    · cases h1

/-- The hypotheses of `C152_only_writers` and of `C153_no_invention`: an afternoon in this network. Nobody writes the state of the light, so it is what it was; and no data are longer than 20 bytes. -/
example : exHome.May (nodeUse exEnv okNet) (ctlUse List.dedup exEnv calmEnv okNet) sentBy sentByCtl exAfternoon ∧
    (∀ m, exHome.Said sentBy sentByCtl "10.0.0.9" m ∨ exHome.Said sentBy sentByCtl "224.0.23.0" m → ¬ Writes 0x029101 0x80 m) ∧
    (∀ e ∈ exAfternoon, ∀ dst m, e.says = some (dst, m) → ¬ Writes 0x029101 0x80 m ∧ Made (fun b => b.length ≤ 20) m) ∧
    (∀ e ∈ exAfternoon, e.stores = none) ∧ (∀ o c b, freshData List.dedup o c = some b → b.length ≤ 20) ∧ AllIn (fun b => b.length ≤ 20) exHome := by
  have hord : ValidOrder List.dedup := fun l => ⟨l.nodup_dedup, fun _ => List.mem_dedup⟩
  have hf : ∀ e ∈ exAfternoon, e.Fair := by
    intro e he
    simp only [exAfternoon, List.mem_cons, List.not_mem_nil, or_false] at he
    rcases he with rfl | rfl | rfl | rfl | rfl <;> trivial
  obtain ⟨h1, h2, h3⟩ := C150_network hord exEnv exEnv_stable calmEnv calmEnv_calm okNet (fun _ _ _ _ => rfl) exHome exHome_built exAfternoon hf
  refine ⟨h3.mpr (mayB_spec _ _ _ (by decide +kernel)), ?_, ?_, ?_, ?_, ?_⟩
  · intro m hm
    have := hm.elim (fun h => (exHome_said _ m h).1) fun h => (exHome_said _ m h).1
    exact not_writes (by rw [this]; decide) (by rw [this]; decide) (by rw [this]; decide)
  · intro e he dst m hm
    simp only [exAfternoon, List.mem_cons, List.not_mem_nil, or_false] at he
    rcases he with rfl | rfl | rfl | rfl | rfl
    · injection hm with hm; injection hm with _ hm; subst hm
      exact ⟨not_writes (by decide) (by decide) (by decide), by decide, by decide, by decide⟩
    · cases hm
    · cases hm
    · injection hm with hm; injection hm with _ hm; subst hm
      exact ⟨not_writes (by decide) (by decide) (by decide), by decide, by decide, by decide⟩
    · cases hm
  · intro e he
    simp only [exAfternoon, List.mem_cons, List.not_mem_nil, or_false] at he
    rcases he with rfl | rfl | rfl | rfl | rfl <;> rfl
  · intro o c b hb
    obtain ⟨p, hp, rfl⟩ := Option.map_eq_some_iff.mp hb
    have := (devObj_within hord o).1 c p hp
    show p.data.length ≤ 20
    omega
  · exact exHome_short

/-- The controller switches the light on: `C152_only_writers` needs that nobody writes. -/
def exEvening : List Incident := [
  .controller "10.0.0.2" (.sendTo { deoj := 0x029101, esv := 0x60, props := [{ code := 0x80, data := [0x31] }] } (.str "10.0.0.9")),
  .device "10.0.0.9" (.arrive ⟨0, [0x10, 0x81, 0, 2, 0x0E, 0xF0, 1, 2, 0x91, 1, 0x60, 1, 0x80, 1, 0x31], ("10.0.0.2", 3610)⟩)]

/-- This may happen, and the light is on afterwards. -/
example : exHome.May (nodeUse exEnv okNet) (ctlUse List.dedup exEnv calmEnv okNet) sentBy sentByCtl exEvening ∧
    (exHome.devices "10.0.0.9").bind (fun r => (nodeEntry r.st 0x029101 0x80).map Entry.data) = some [0x30] ∧
    ((exHome.run (nodeUse exEnv okNet) (ctlUse List.dedup exEnv calmEnv okNet) exEvening).1.devices "10.0.0.9").bind (fun r => (nodeEntry r.st 0x029101 0x80).map Entry.data) = some [0x31] := by
  have hord : ValidOrder List.dedup := fun l => ⟨l.nodup_dedup, fun _ => List.mem_dedup⟩
  have hf : ∀ e ∈ exEvening, e.Fair := by
    intro e he
    simp only [exEvening, List.mem_cons, List.not_mem_nil, or_false] at he
    rcases he with rfl | rfl <;> trivial
  obtain ⟨h1, h2, h3⟩ := C150_network hord exEnv exEnv_stable calmEnv calmEnv_calm okNet (fun _ _ _ _ => rfl) exHome exHome_built exEvening hf
  exact ⟨h3.mpr (mayB_spec _ _ _ (by decide +kernel)), by decide +kernel, by decide +kernel⟩

end Uecho
