/- C70: several threads handle messages for one object. -/
import Verif.Lemmas.Threads
import Verif.Props.Request

namespace Uecho
open Spec Par

theorem forall₂_map_eq {α β : Type} (g : α → β) {l : List α} {l' : List β} (h : List.Forall₂ (fun a b => b = g a) l l') : l' = l.map g := by
  induction h with
  | nil => rfl
  | cons h1 _ ih => rw [h1, ih]; rfl

theorem forall₂_left {α β : Type} {P : α → Prop} {R : α → β → Prop} {l : List α} {l' : List β} (h : List.Forall₂ (fun a b => P a ∧ R a b) l l') {a : α} (ha : a ∈ l) : P a := by
  induction h with
  | nil => cases ha
  | cons x _ ih =>
    rcases List.mem_cons.mp ha with rfl | ha
    · exact x.1
    · exact ih ha

theorem count_writes (o : Obj) (k : Kind) (hk : k = .set ∨ k = .write) (l : List PProp) :
    ((l.map (Prod.mk k)).filter (counts o)).length = (acceptedWrites o (attrPolicy o) l).length := by
  rw [List.filter_map, List.length_map]
  unfold acceptedWrites
  congr 2
  funext i
  have : (counts o ∘ Prod.mk k) i = (attrPolicy o).canWrite i.code i.data := by rcases hk with rfl | rfl <;> rfl
  rw [this]
  cases hc : (attrPolicy o).canWrite i.code i.data with
  | true => rw [known_of_canWrite hc]; rfl
  | false => simp

theorem count_reads (o : Obj) (k : Kind) (hk : k = .get ∨ k = .read) (l : List PProp) :
    ((l.map (Prod.mk k)).filter (counts o)).length = (acceptedReads o (attrPolicy o) l).length := by
  rw [List.filter_map, List.length_map]
  unfold acceptedReads
  congr 2
  funext i
  have : (counts o ∘ Prod.mk k) i = (attrPolicy o).canRead i.code := by rcases hk with rfl | rfl <;> rfl
  rw [this]
  cases hc : (attrPolicy o).canRead i.code with
  | true => rw [known_of_canRead hc]; rfl
  | false => simp

theorem respond_props (m a : Msg) (n : Nat) (ps : List PProp) (b : Msg) (h : Obj.respond m a n = some b) :
    Obj.respond m { a with props := ps } n = some { b with props := ps } := by
  unfold Obj.respond at h ⊢
  simp only [] at h ⊢
  split at h <;> rename_i h1
  · rw [if_pos h1]; split at h <;> rename_i h2
    · cases h
    · rw [if_neg h2]; injection h with h; rw [← h]
  rw [if_neg h1]
  split at h <;> rename_i h1
  · rw [if_pos h1]; split at h <;> rename_i h2
    · rw [if_pos h2]; injection h with h; rw [← h]
    · rw [if_neg h2]; injection h with h; rw [← h]
  rw [if_neg h1]
  split at h <;> rename_i h1
  · rw [if_pos h1]; split at h <;> rename_i h2
    · rw [if_pos h2]; injection h with h; rw [← h]
    · rw [if_neg h2]; injection h with h; rw [← h]
  rw [if_neg h1]
  split at h <;> rename_i h1
  · rw [if_pos h1]; split at h <;> rename_i h2
    · rw [if_pos h2]; injection h with h; rw [← h]
    · rw [if_neg h2]; injection h with h; rw [← h]
  rw [if_neg h1]
  split at h <;> rename_i h1
  · rw [if_pos h1]; split at h <;> rename_i h2
    · rw [if_pos h2]; injection h with h; rw [← h]
    · rw [if_neg h2]; injection h with h; rw [← h]
  rw [if_neg h1]
  split at h <;> rename_i h1
  · rw [if_pos h1]; split at h <;> rename_i h2
    · rw [if_pos h2]; injection h with h; rw [← h]
    · cases h
  · cases h

/-- C70. Whatever the interleaving: a message that has been answered has had all its permitted writes stored, in
order; the answer is the one the object would have given alone, except for the data read; and each of these is
the property's data at a moment while the message was being handled, after its own writes. -/
theorem C70_answers {o : Obj} (hw : WellFormed o) (hh : o.handler = .self_) (env : Env) {s : Sys} (hs : Possible o s)
    (l l' : List Event) (t : Nat) (m : Msg) (r : Option Msg) (h : s.log = l ++ .answer t m r :: l') :
    ∃ before during r', l = before ++ .recv t m :: during ∧ Busy t during ∧
      storesOf t during = acceptedWrites o (attrPolicy o) (writeItems m) ∧
      (o.handleRequest env m).2 = .ok r' ∧
      (m.esv ≠ 0x62 → m.esv ≠ 0x6E → r = r') ∧
      (m.esv = 0x62 → ∃ a ps, r' = some a ∧ r = some { a with props := ps } ∧
        List.Forall₂ (ReadBack o (before ++ [.recv t m]) t m during) m.props ps) ∧
      (m.esv = 0x6E → ∃ a ps, r' = some a ∧ r = some { a with getProps := ps } ∧
        List.Forall₂ (ReadBack o (before ++ [.recv t m]) t m during) m.getProps ps) := by
  have hi := possible_inv hw hh hs
  obtain ⟨b, d, h1, h2, h3⟩ := hi.answers l t m r l' h
  have hfol := follows_default env o hw hh
  rcases h3 with ⟨hr, rfl, rfl⟩ | ⟨f, rfl, htodo, rfl, hf⟩
  · have hnot : m.esv ∉ [0x60, 0x61, 0x62, 0x63, 0x6E, 0x74] := by
      intro hm
      simp only [List.mem_cons, List.not_mem_nil, or_false] at hm
      rcases hm with c | c | c | c | c | c <;> (rw [c] at hr; exact absurd hr (by decide))
    refine ⟨b, [], none, h1, h2, ?_, by rw [handle_not_request env o m (.inl hnot)], fun _ _ => rfl, fun c => ?_, fun c => ?_⟩
    · have : writeItems m = [] := by
        unfold writeItems
        simp only [List.mem_cons, List.not_mem_nil, or_false, not_or] at hnot
        rw [if_neg (by omega), if_neg (by omega)]
      rw [this]; rfl
    · exact absurd (by rw [c]; simp) hnot
    · exact absurd (by rw [c]; simp) hnot
  · have hreq := hf.isReq
    have hcnt := hf.cnt
    have hsets := hf.sets
    have hgets := hf.gets
    have hprops := hf.props
    have hst := hf.stored
    obtain ⟨m, todo, cnt, sets, gets, props⟩ := f
    simp only [Frame.result] at *
    refine ⟨b, d, ?_⟩
    -- requests with one list of properties
    have hplain : m.esv ≠ 0x6E → ∀ k, (k = .read ∨ k = .write ∨ k = .pass) → items m = m.props.map (Prod.mk k) →
        sets = [] ∧ gets = [] ∧ List.Forall₂ (fun i r => Served o (b ++ [.recv t m]) t m d (k, i) r) m.props props := by
      intro _ k hk hit
      rw [hit] at hsets hgets hprops
      have e1 : (m.props.map (Prod.mk k)).filter (fun x => decide (x.1 = .set)) = [] := by
        rw [List.filter_eq_nil_iff]
        intro x hx
        obtain ⟨y, -, rfl⟩ := List.mem_map.mp hx
        rcases hk with rfl | rfl | rfl <;> simp
      have e2 : (m.props.map (Prod.mk k)).filter (fun x => decide (x.1 = .get)) = [] := by
        rw [List.filter_eq_nil_iff]
        intro x hx
        obtain ⟨y, -, rfl⟩ := List.mem_map.mp hx
        rcases hk with rfl | rfl | rfl <;> simp
      have e3 : (m.props.map (Prod.mk k)).filter (fun x => decide (x.1 ≠ .set ∧ x.1 ≠ .get)) = m.props.map (Prod.mk k) := by
        rw [List.filter_eq_self]
        intro x hx
        obtain ⟨y, -, rfl⟩ := List.mem_map.mp hx
        rcases hk with rfl | rfl | rfl <;> simp
      rw [e1] at hsets
      rw [e2] at hgets
      rw [e3, List.forall₂_map_left_iff] at hprops
      cases hsets
      cases hgets
      exact ⟨rfl, rfl, hprops⟩
    have hesv : m.esv = 0x60 ∨ m.esv = 0x61 ∨ m.esv = 0x62 ∨ m.esv = 0x63 ∨ m.esv = 0x74 ∨ m.esv = 0x6E := by
      by_contra hc
      simp only [not_or] at hc
      unfold ESV.isRequest ESV.WRITE_REQUEST ESV.WRITE_REQUEST_RESPONSE_REQUIRED ESV.READ_REQUEST ESV.NOTIFICATION_REQUEST ESV.WRITE_READ_REQUEST
        ESV.NOTIFICATION_RESPONSE_REQUIRED at hreq
      rw [if_neg hc.1, if_neg hc.2.1, if_neg hc.2.2.1, if_neg hc.2.2.2.1, if_neg hc.2.2.2.2.2, if_neg hc.2.2.2.2.1] at hreq
      cases hreq
    by_cases hwr : m.esv = 0x60 ∨ m.esv = 0x61
    · have hit : items m = m.props.map (Prod.mk .write) := by
        unfold items
        rcases hwr with c | c <;> (rw [c]; rfl)
      obtain ⟨rfl, rfl, hp⟩ := hplain (by omega) .write (.inr (.inl rfl)) hit
      have hp := forall₂_map_eq (writeResp o (attrPolicy o)) hp
      have hwi : writeItems m = m.props := by unfold writeItems; rw [if_pos hwr]
      have hwit : wItems (m.props.map (Prod.mk .write)) = m.props := by simp [wItems, List.filterMap_map, Function.comp_def]
      rw [hit, hwit] at hst
      rw [hit, count_writes o .write (.inr rfl)] at hcnt
      refine ⟨_, h1, h2, by rw [hst, hwi], by rw [handle_plain_write env (attrPolicy o) o m hw.1 hfol hwr], fun _ _ => ?_, fun c => by omega, fun c => by omega⟩
      rw [hcnt, hp]
      rfl
    by_cases hrd : m.esv = 0x62
    · have hit : items m = m.props.map (Prod.mk .read) := by unfold items; rw [hrd]; rfl
      obtain ⟨rfl, rfl, hp⟩ := hplain (by omega) .read (.inl rfl) hit
      have hwi : writeItems m = [] := by unfold writeItems; rw [if_neg hwr, if_neg (by omega)]
      have hwit : wItems (m.props.map (Prod.mk .read)) = [] := by simp [wItems]
      rw [hit, hwit] at hst
      rw [hit, count_reads o .read (.inr rfl)] at hcnt
      have hsome : ∃ a, Obj.respond m { replyTo m with props := m.props.map (readResp o (attrPolicy o)) } (acceptedReads o (attrPolicy o) m.props).length = some a := by
        unfold Obj.respond
        simp only []
        rw [if_neg (by rw [hrd]; decide), if_neg (by rw [hrd]; decide), if_pos (show m.esv = ESV.READ_REQUEST from hrd)]
        split <;> exact ⟨_, rfl⟩
      obtain ⟨a, ha⟩ := hsome
      refine ⟨some a, h1, h2, by rw [hst, hwi], by rw [handle_read env (attrPolicy o) o m hfol hrd, ha], fun c => absurd hrd c, fun _ => ⟨a, props, rfl, ?_, hp⟩, fun c => by omega⟩
      rw [hcnt]
      exact respond_props m _ _ props a ha
    by_cases hnn : m.esv = 0x63 ∨ m.esv = 0x74
    · have hit : items m = m.props.map (Prod.mk .pass) := by
        unfold items
        rcases hnn with c | c <;> (rw [c]; rfl)
      obtain ⟨rfl, rfl, hp⟩ := hplain (by omega) .pass (.inr (.inr rfl)) hit
      have hp := forall₂_map_eq (fun i : PProp => ({ code := i.code } : PProp)) hp
      have hwi : writeItems m = [] := by unfold writeItems; rw [if_neg hwr, if_neg (by omega)]
      have hwit : wItems (m.props.map (Prod.mk .pass)) = [] := by simp [wItems]
      rw [hit, hwit] at hst
      have hz : ((m.props.map (Prod.mk Kind.pass)).filter (counts o)) = [] := by
        rw [List.filter_eq_nil_iff]
        intro x hx
        obtain ⟨y, -, rfl⟩ := List.mem_map.mp hx
        simp [counts]
      rw [hit, hz] at hcnt
      refine ⟨_, h1, h2, by rw [hst, hwi], by rw [handle_neither env o m (by rw [hh]; simp) hnn], fun _ _ => ?_, fun c => by omega, fun c => by omega⟩
      rw [hcnt, hp]
      rfl
    have h6e : m.esv = 0x6E := by omega
    have hit : items m = m.setProps.map (Prod.mk .set) ++ m.getProps.map (Prod.mk .get) := by unfold items; rw [h6e]; rfl
    have hs1 : (items m).filter (fun x => decide (x.1 = .set)) = m.setProps.map (Prod.mk .set) := by
      rw [hit, List.filter_append, List.filter_eq_self.mpr, List.filter_eq_nil_iff.mpr, List.append_nil]
      · intro x hx; obtain ⟨y, -, rfl⟩ := List.mem_map.mp hx; simp
      · intro x hx; obtain ⟨y, -, rfl⟩ := List.mem_map.mp hx; simp
    have hs2 : (items m).filter (fun x => decide (x.1 = .get)) = m.getProps.map (Prod.mk .get) := by
      rw [hit, List.filter_append, List.filter_eq_nil_iff.mpr, List.filter_eq_self.mpr, List.nil_append]
      · intro x hx; obtain ⟨y, -, rfl⟩ := List.mem_map.mp hx; simp
      · intro x hx; obtain ⟨y, -, rfl⟩ := List.mem_map.mp hx; simp
    have hs3 : (items m).filter (fun x => decide (x.1 ≠ .set ∧ x.1 ≠ .get)) = [] := by
      rw [hit, List.filter_eq_nil_iff]
      intro x hx
      rcases List.mem_append.mp hx with hx | hx <;> (obtain ⟨y, -, rfl⟩ := List.mem_map.mp hx; simp)
    rw [hs1, List.forall₂_map_left_iff] at hsets
    rw [hs2, List.forall₂_map_left_iff] at hgets
    rw [hs3] at hprops
    cases hprops
    have hp := forall₂_map_eq (writeResp o (attrPolicy o)) hsets
    have hwi : writeItems m = m.setProps := by unfold writeItems; rw [if_neg hwr, if_pos h6e]
    have hwit : wItems (items m) = m.setProps := by
      rw [hit, wItems_append]
      simp [wItems, List.filterMap_map]
    rw [hwit] at hst
    rw [hit, List.filter_append, List.length_append, count_writes o .set (.inl rfl), count_reads o .get (.inl rfl)] at hcnt
    have hkn : ∀ i ∈ m.getProps, (lookup o.props i.code).isSome = true := by
      exact fun i hi => forall₂_left (P := fun i => (lookup o.props i.code).isSome = true) hgets hi
    have hg : List.Forall₂ (ReadBack o (b ++ [.recv t m]) t m d) m.getProps gets := hgets.imp fun _ _ x => x.2
    have hacc : (acceptedReads (afterWrites o (acceptedWrites o (attrPolicy o) m.setProps)) (attrPolicy o) m.getProps).length =
        (acceptedReads o (attrPolicy o) m.getProps).length := by
      unfold acceptedReads
      congr 2
      funext i
      rw [isSome_of_skeleton (skeleton_afterWrites o _)]
    have hseq := handle_write_read env (attrPolicy o) o m hw.1 hfol h6e hkn
    simp only [] at hseq
    rw [hacc] at hseq
    have hne : ∀ n g g', ∃ a, Obj.respond m { replyTo m with setProps := sets, getProps := g } n = some a ∧
        Obj.respond m { replyTo m with setProps := sets, getProps := g' } n = some { a with getProps := g' } := by
      intro n g g'
      unfold Obj.respond
      simp only []
      have c1 : ¬ m.esv = ESV.WRITE_REQUEST := by rw [h6e]; decide
      have c2 : ¬ m.esv = ESV.WRITE_REQUEST_RESPONSE_REQUIRED := by rw [h6e]; decide
      have c3 : ¬ m.esv = ESV.READ_REQUEST := by rw [h6e]; decide
      have c4 : m.esv = ESV.WRITE_READ_REQUEST := h6e
      simp only [if_neg c1, if_neg c2, if_neg c3, if_pos c4]
      split <;> exact ⟨_, rfl, rfl⟩
    obtain ⟨a, a1, a2⟩ := hne ((acceptedWrites o (attrPolicy o) m.setProps).length + (acceptedReads o (attrPolicy o) m.getProps).length)
      (m.getProps.map (readResp (afterWrites o (acceptedWrites o (attrPolicy o) m.setProps)) (attrPolicy o))) gets
    refine ⟨some a, h1, h2, by rw [hst, hwi], by rw [hseq, ← hp, a1], fun _ c => absurd h6e c, fun c => by omega, fun _ => ⟨a, gets, rfl, ?_, hg⟩⟩
    rw [hcnt]
    exact a2

/-- C70. A thread that is not interrupted leaves the object, and answers, as described by the function run by
one thread (of which C15-C22 speak). -/
theorem C70_uninterrupted (env : Env) (s : Sys) (t : Nat) (m : Msg) (hidle : s.pc t = .idle) (hh : s.obj.handler = .self_) (hq : Quiet env s.obj m) :
    ∃ n s', s.exec (.recv t m :: List.replicate n (.run t)) = some s' ∧ s'.obj = (s.obj.messageReceived env m).obj ∧
      match (s.obj.messageReceived env m).result with
      | .ok r => s'.pc t = .idle ∧ ∃ l, s'.log = l ++ [.answer t m r]
      | .error _ => s'.pc t = .crashed := by
  obtain ⟨n, s', h⟩ := alone env s t m hidle hh
  refine ⟨n, s', ?_⟩
  rw [messageReceived_quiet env s.obj m hq]
  exact h

theorem writes_app {o : Obj} {c : Int} (log : List Event) (h : ∀ t d, Event.store t c d ∉ log) : lastFor (writes log) c = lastFor (appWrites log) c := by
  induction log using List.reverseRecOn with
  | nil => rfl
  | append_singleton log e ih =>
    have ih := ih fun t d hh => h t d (List.mem_append_left _ hh)
    rw [writes_append, appWrites_append, lastFor_append, lastFor_append, ih]
    congr 1
    cases e with
    | store t c' d =>
      have hne : c' ≠ c := by
        rintro rfl
        exact h t d (by simp)
      simp [writes, appWrites, lastFor, hne]
    | _ => rfl

/-- C70. Whatever the interleaving: nothing but data changes, and the data of a property that is not
write-enabled are what the application has last stored, or the initial ones. -/
theorem C70_protected {o : Obj} (hw : WellFormed o) (hh : o.handler = .self_) {s : Sys} (hs : Possible o s) :
    skeleton s.obj = skeleton o ∧
    ∀ c p, lookup o.props c = some p → ¬ CanWrite p → lookup s.obj.props c = some { p with data := (lastFor (appWrites s.log) c).getD p.data } := by
  have hi := possible_inv hw hh hs
  refine ⟨by rw [hi.obj, skeleton_afterWrites], ?_⟩
  intro c p hp hc
  rw [hi.obj, lookup_afterWrites, hp, writes_app (o := o) s.log]
  · rfl
  · intro t d hm
    have := hi.stores t c d hm
    unfold attrPolicy at this
    simp only [hp, decide_eq_true_eq] at this
    exact hc this

/-- C70. Whatever the interleaving: only a write-read request that gets an unknown property ends a thread. -/
theorem C70_ends_only {o : Obj} (hw : WellFormed o) (hh : o.handler = .self_) {s : Sys} (hs : Possible o s) (t : Nat) (m : Msg) (h : Event.crash t m ∈ s.log) :
    m.esv = 0x6E ∧ ∃ i ∈ m.getProps, lookup o.props i.code = none :=
  (possible_inv hw hh hs).crashes t m h

theorem lastFor_writes_own {t : Nat} {c : Int} (l : List Event) (h : ∀ e ∈ l, (∀ u d, e = .store u c d → u = t) ∧ ∀ d, e ≠ .app c d) :
    lastFor (writes l) c = lastFor (storesOf t l) c := by
  induction l using List.reverseRecOn with
  | nil => rfl
  | append_singleton l e ih =>
    have ih := ih fun x hx => h x (List.mem_append_left _ hx)
    have he := h e (by simp)
    rw [writes_append, storesOf_append, lastFor_append, lastFor_append, ih]
    congr 1
    cases e with
    | store u c' d =>
      by_cases hc : c' = c
      · subst hc
        have := he.1 u d rfl
        simp [writes, storesOf, lastFor, this]
      · by_cases hu : u = t
        · simp [writes, storesOf, lastFor, hu]
        · simp [writes, storesOf, lastFor, hc, hu]
    | app c' d =>
      have hc : c' ≠ c := by
        rintro rfl
        exact he.2 d rfl
      simp [writes, storesOf, lastFor, hc]
    | _ => rfl

theorem forall₂_right {α β : Type} {R : α → β → Prop} {l : List α} {l' : List β} (h : List.Forall₂ R l l') {b : β} (hb : b ∈ l') : ∃ a ∈ l, R a b := by
  induction h with
  | nil => cases hb
  | cons x _ ih =>
    rcases List.mem_cons.mp hb with rfl | hb
    · exact ⟨_, List.mem_cons_self, x⟩
    · obtain ⟨a, h1, h2⟩ := ih hb
      exact ⟨a, List.mem_cons_of_mem _ h1, h2⟩

/-- C70 (the part that holds). A write-read request reads back what it has written to a property to which
nobody else writes while it is being handled. What is missing is the case that somebody does. -/
theorem C70_reads_own_writes_partial {o : Obj} (hw : WellFormed o) (hh : o.handler = .self_) {s : Sys} (hs : Possible o s)
    (l l' : List Event) (t : Nat) (m a : Msg) (h : s.log = l ++ .answer t m (some a) :: l') (he : m.esv = 0x6E)
    (c : Int) (p : OProp) (hp : lookup o.props c = some p) (hr : CanRead p) (hwr : CanWrite p) (d : Bytes) (hd : lastFor m.setProps c = some d)
    (hno : ∀ before during, l = before ++ .recv t m :: during → Busy t during → ∀ e ∈ during, (∀ u d, e = .store u c d → u = t) ∧ ∀ d, e ≠ .app c d) :
    ∀ i ∈ a.getProps, i.code = c → i.data = d := by
  have env : Env := { handler := fun _ => { read := fun o _ => (o, .ok true), write := fun o _ _ => (o, .ok true) }, observe := fun _ _ => none }
  obtain ⟨before, during, r', h1, h2, h3, h4, -, -, h5⟩ := C70_answers hw hh env hs l l' t m (some a) h
  obtain ⟨a', ps, -, e, hps⟩ := h5 he
  injection e with e
  intro i hi hc
  rw [e] at hi
  obtain ⟨j, -, hj1, hj2⟩ := forall₂_right hps hi
  have hjc : j.code = c := by rw [← hj1]; exact hc
  have hcan : (attrPolicy o).canRead j.code = true := by
    rw [hjc]
    unfold attrPolicy
    simp only [hp, decide_eq_true_eq]
    exact hr
  rw [if_pos hcan, hjc] at hj2
  obtain ⟨x, y, hx, hst, hdat⟩ := hj2
  have hwi : writeItems m = m.setProps := by unfold writeItems; rw [if_neg (by omega), if_pos he]
  have hown := lastFor_writes_own x fun e he => hno before during h1 h2 e (by rw [hx]; exact List.mem_append_left _ he)
  rw [hst, hwi, lastFor_accepted o m.setProps c p hp, if_pos hwr, hd] at hown
  unfold dataAt at hdat
  rw [hp, writes_append, lastFor_append, hown] at hdat
  simpa using hdat.symm

/-! ### What is violated -/

/-- `SetC` 0x80 := 2 -/
def exSet2 : Msg := { tid := 2, seoj := 0x05FF01, deoj := 0x029101, esv := 0x61, props := [{ code := 0x80, data := [2] }] }
/-- `SetGet` 0x80 := 1, and read it -/
def exSetGet : Msg := { tid := 1, seoj := 0x05FF01, deoj := 0x029101, esv := 0x6E, setProps := [{ code := 0x80, data := [1] }], getProps := [{ code := 0x80 }] }

/-- C70 (violated). Two threads: a write-read request that writes 1 to a property, and whose write is accepted,
is answered that its data are 2. -/
theorem C70_reads_own_writes_false : ∃ s a, Possible exObj s ∧ Event.answer 0 exSetGet (some a) ∈ s.log ∧ a.esv = 0x7E ∧
    a.setProps = [{ code := 0x80 }] ∧ a.getProps = [{ code := 0x80, data := [2] }] := by
  have h : ∃ s, Sys.exec { obj := exObj } [.recv 0 exSetGet, .run 0, .run 0, .recv 1 exSet2, .run 1, .run 1, .run 1, .run 0, .run 0, .run 0] = some s ∧
      Event.answer 0 exSetGet (some { tid := 1, seoj := 0x029101, deoj := 0x05FF01, esv := 0x7E, setProps := [{ code := 0x80 }], getProps := [{ code := 0x80, data := [2] }] }) ∈ s.log :=
    ⟨_, rfl, by decide⟩
  obtain ⟨s, h1, h2⟩ := h
  exact ⟨s, _, ⟨_, h1⟩, h2, rfl, rfl, rfl⟩

/-- an object with two properties that may be written and read -/
def exTwo : Obj :=
  { code := 0x029101, handler := .self_, props := [(0x80, { code := 0x80, data := [0], attrGet := 1, attrSet := 1 }), (0xB0, { code := 0xB0, data := [0], attrGet := 1, attrSet := 1 })] }
def exSetBoth : Msg := { tid := 2, deoj := 0x029101, esv := 0x61, props := [{ code := 0x80, data := [1] }, { code := 0xB0, data := [1] }] }
def exGetBoth : Msg := { tid := 1, deoj := 0x029101, esv := 0x62, props := [{ code := 0x80 }, { code := 0xB0 }] }

/-- C70 (violated). Requests are not atomic: of a request that writes two properties, a concurrent read sees one
of the writes only, an answer that is given neither before nor after it. -/
theorem C70_atomic_false : (∃ s a, Possible exTwo s ∧ Event.answer 0 exGetBoth (some a) ∈ s.log ∧
      (∀ e ∈ s.log, ∀ c d, e ≠ .app c d) ∧ (∀ t m, Event.recv t m ∈ s.log → m = exGetBoth ∨ m = exSetBoth) ∧
      a.props = [{ code := 0x80, data := [0] }, { code := 0xB0, data := [1] }]) ∧
    ∀ env, (∃ a, (exTwo.handleRequest env exGetBoth).2 = .ok (some a) ∧ a.props = [{ code := 0x80, data := [0] }, { code := 0xB0, data := [0] }]) ∧
      (∃ a, ((exTwo.handleRequest env exSetBoth).1.handleRequest env exGetBoth).2 = .ok (some a) ∧
        a.props = [{ code := 0x80, data := [1] }, { code := 0xB0, data := [1] }]) := by
  constructor
  · have h : ∃ s, Sys.exec { obj := exTwo } [.recv 0 exGetBoth, .run 0, .run 0, .recv 1 exSetBoth, .run 1, .run 1, .run 1, .run 1, .run 1, .run 0, .run 0, .run 0] = some s ∧
        s.log = [.recv 0 exGetBoth, .recv 1 exSetBoth, .store 1 0x80 [1], .store 1 0xB0 [1],
          .answer 1 exSetBoth (some { tid := 2, seoj := 0x029101, esv := 0x71, props := [{ code := 0x80 }, { code := 0xB0 }] }),
          .answer 0 exGetBoth (some { tid := 1, seoj := 0x029101, esv := 0x72, props := [{ code := 0x80, data := [0] }, { code := 0xB0, data := [1] }] })] :=
      ⟨_, rfl, by decide⟩
    obtain ⟨s, h1, h2⟩ := h
    refine ⟨s, _, ⟨_, h1⟩, by rw [h2]; simp; rfl, ?_, ?_, rfl⟩
    · rw [h2]
      intro e he c d
      simp only [List.mem_cons, List.not_mem_nil, or_false] at he
      rcases he with rfl | rfl | rfl | rfl | rfl | rfl <;> (intro e; cases e)
    · intro t m
      rw [h2]
      intro he
      simp only [List.mem_cons, List.not_mem_nil, or_false, reduceCtorEq, Event.recv.injEq] at he
      rcases he with ⟨-, rfl⟩ | ⟨-, rfl⟩
      · exact .inl rfl
      · exact .inr rfl
  · intro env
    exact ⟨⟨_, rfl, rfl⟩, ⟨_, rfl, rfl⟩⟩

/-! ### The hypotheses can be met -/

example : WellFormed exObj ∧ exObj.handler = .self_ := by decide
/-- The request of `C70_reads_own_writes_partial`, while another thread writes another property. -/
example : ∃ s, Sys.exec { obj := exTwo } [.recv 0 { exSetGet with tid := 3 }, .run 0, .run 0,
      .recv 1 { exSet2 with props := [{ code := 0xB0, data := [5] }] }, .run 1, .run 1, .run 0, .run 0, .run 0] = some s ∧
    s.log = [.recv 0 { exSetGet with tid := 3 }, .store 0 0x80 [1], .recv 1 { exSet2 with props := [{ code := 0xB0, data := [5] }] }, .store 1 0xB0 [5],
      .answer 0 { exSetGet with tid := 3 } (some { tid := 3, seoj := 0x029101, deoj := 0x05FF01, esv := 0x7E, setProps := [{ code := 0x80 }], getProps := [{ code := 0x80, data := [1] }] })] :=
  ⟨_, rfl, by decide⟩
/-- A property that is not write-enabled: a write to it is refused while the application changes it. -/
example : ∃ s, Sys.exec { obj := exObj } [.recv 0 { exSet2 with props := [{ code := 0x81, data := [5] }] }, .run 0, .app 0x81 [8], .run 0] = some s ∧
    lookup s.obj.props 0x81 = some { code := 0x81, data := [8], attrGet := 2 } := ⟨_, rfl, by decide⟩

end Uecho
