/- C135: property maps when properties are added by several threads. -/
import Verif.Lemmas.Mapping
import Verif.Props.PropertyMap

namespace Uecho.Mapping
open Spec

variable {ord : List Int → List Int}

/-- What is asked of an object and of the properties the threads add to it: codes in 0x80–0xFF, the object has its three maps, which are right,
and nobody adds a map. -/
structure Fair (o : Obj) (es : List Ev) : Prop where
  wf : WellFormed o
  range : ∀ kp ∈ o.props, 0x80 ≤ kp.1 ∧ kp.1 < 0x100
  maps : ∀ k : MapKind, ∃ p, lookup o.props k.code = some p ∧ Lists p.data (Having o k.lists)
  calls : ∀ i p, .call i p ∈ es → (0x80 ≤ p.code ∧ p.code < 0x100) ∧ ∀ k : MapKind, p.code ≠ k.code

/-- At some moment of the run `c` was to be listed in map `k`. -/
def Was (ord : List Int → List Int) (o : Obj) (es : List Ev) (k : MapKind) (c : Int) : Prop :=
  ∃ fs, fs <+: es ∧ Having (run ord (start o) fs).obj k.lists c

/-- At some moment of the run it was not. -/
def WasNot (ord : List Int → List Int) (o : Obj) (es : List Ev) (k : MapKind) (c : Int) : Prop :=
  ∃ fs, fs <+: es ∧ ¬ Having (run ord (start o) fs).obj k.lists c

theorem run_inv (hord : ValidOrder ord) (o : Obj) (es : List Ev) (h : Fair o es) : Inv (Was ord o es) (WasNot ord o es) (run ord (start o) es) := by
  induction es using List.reverseRecOn with
  | nil =>
    refine ⟨h.wf, ?_, fun k c => ⟨fun x => ⟨[], List.prefix_rfl, x⟩, fun x => ⟨[], List.prefix_rfl, x⟩⟩, fun i => trivial, ?_⟩
    · intro c hc
      obtain ⟨kp, hk, rfl⟩ := List.mem_map.mp hc
      exact h.range kp hk
    · intro k
      obtain ⟨p, hp, l, h1, h2, h3⟩ := h.maps k
      refine ⟨p, hp, l, h2, ⟨?_, fun c hc => ⟨[], List.prefix_rfl, fun x => hc ((h3 c).mpr x)⟩⟩, fun _ => ⟨l, h1, h2, fun _ => Iff.rfl⟩⟩
      intro c hc
      obtain ⟨q, hq, hl⟩ := (h3 c).mp hc
      exact ⟨⟨[], List.prefix_rfl, q, hq, hl⟩, h.range _ ((mem_props_iff o h.wf c q).mpr hq)⟩
  | append_singleton es e ih =>
    have ih := ih ⟨h.wf, h.range, h.maps, fun i p hp => h.calls i p (List.mem_append_left _ hp)⟩
    have hr : run ord (start o) (es ++ [e]) = step ord (run ord (start o) es) e := run_append _ _ _
    have hpre : ∀ {fs}, fs <+: es → fs <+: es ++ [e] := fun hf => hf.trans (List.prefix_append _ _)
    rw [hr]
    refine step_inv hord (ih.mono (fun k c ⟨fs, hf, x⟩ => ⟨fs, hpre hf, x⟩) (fun k c ⟨fs, hf, x⟩ => ⟨fs, hpre hf, x⟩)) e
      (fun i p he => h.calls i p (by rw [he]; simp)) ?_
    intro k c
    rw [← hr]
    exact ⟨fun x => ⟨_, List.prefix_rfl, x⟩, fun x => ⟨_, List.prefix_rfl, x⟩⟩

/-- C135 (what holds). Whatever the threads do, at every moment each map decodes to a list without repetition in which every code was to be listed at some moment of the run, and every other
was not to be listed at some moment; provided that no more than 15 codes ever were. Missing: that a map lists what the object has once all `add_property` have returned
(`C135_lost_false`). -/
theorem C135_maps_partial (hord : ValidOrder ord) (o : Obj) (es : List Ev) (h : Fair o es) (k : MapKind)
    (hs : ∃ L : List Int, L.length ≤ 15 ∧ ∀ c, Was ord o es k c → c ∈ L) :
    ∃ p l, lookup (run ord (start o) es).obj.props k.code = some p ∧ OProp.propertyMapCodes p.data = .ok (.codes l) ∧ l.Nodup ∧
      (∀ c ∈ l, Was ord o es k c) ∧ ∀ c, c ∉ l → WasNot ord o es k c := by
  obtain ⟨p, hp, l, h1, h2, h3⟩ := (run_inv hord o es h).maps k
  obtain ⟨L, hL, hall⟩ := hs
  have hlen : l.length ≤ 15 := le_trans (List.subperm_of_subset h1 fun c hc => hall c (h2.1 c hc).1).length_le hL
  obtain ⟨l', g1, g2, g3⟩ := h3 hlen
  exact ⟨p, l', hp, g1, g2, fun c hc => (h2.1 c ((g3 c).mp hc)).1, fun c hc => h2.2 c fun x => hc ((g3 c).mpr x)⟩

/-- C135 (what holds). `add_property` of a thread that is not interrupted, called at any moment whatever the others are in the middle of, does what it does in a program of one thread: it returns
True, the other threads are where they were, and each map with at most 15 entries lists exactly what the object has. -/
theorem C135_alone (hord : ValidOrder ord) (o : Obj) (es : List Ev) (i : Nat) (p : OProp) (h : Fair o (es ++ [.call i p]))
    (hi : (run ord (start o) es).pc i = .idle ∨ ∃ r, (run ord (start o) es).pc i = .done r) :
    ∃ n, let s := run ord (start o) es
      let t := run ord (start o) (es ++ .call i p :: List.replicate n (.go i))
      t.pc i = .done (.ok true) ∧ (∀ j, j ≠ i → t.pc j = s.pc j) ∧ t.obj = (SuperObj.addProperty ord s.obj p).1 ∧
      lookup t.obj.props p.code = some p ∧
      ∀ k : MapKind, countOf t.obj k.lists ≤ 15 → ∃ q, lookup t.obj.props k.code = some q ∧ Lists q.data (Having t.obj k.lists) := by
  obtain ⟨n, hn⟩ := add_alone (ord := ord) (run ord (start o) es) i p hi
  refine ⟨n, ?_⟩
  intro s t
  have hs := run_inv hord o es ⟨h.wf, h.range, h.maps, fun i p hp => h.calls i p (List.mem_append_left _ hp)⟩
  obtain ⟨hc1, hc2⟩ := h.calls i p (by simp)
  have ht : t = _ := (run_append _ _ _).trans hn
  have hkeys : ∀ c ∈ (s.obj.addPropertyBase p).props.map Prod.fst, 0x80 ≤ c ∧ c < 0x100 := by
    intro c hc
    rw [show (s.obj.addPropertyBase p).props.map Prod.fst = _ from keys_addPropertyBase s.obj p] at hc
    split at hc
    · exact hs.range c hc
    · rw [List.mem_append, List.mem_singleton] at hc
      rcases hc with hc | rfl
      · exact hs.range c hc
      · exact hc1
  have hw := wf_addPropertyBase s.obj p hs.wf
  have hhas : HasMaps (s.obj.addPropertyBase p) := by
    have : ∀ k : MapKind, (lookup (s.obj.addPropertyBase p).props k.code).isSome = true := by
      intro k
      obtain ⟨q, hq, -⟩ := hs.maps k
      rw [lookup_addPropertyBase, if_neg (fun e => hc2 k e.symm), hq]
      rfl
    exact ⟨this .anno, this .set, this .get⟩
  obtain ⟨r1, r2, r3, r4⟩ := C27_short_maps ord hord _ hw (byteCodes_of_keys hw.1 hkeys) hhas
  have hadd : SuperObj.addProperty ord s.obj p = ((SuperObj.updateMaps ord (s.obj.addPropertyBase p)).1, .ok true) := by
    unfold SuperObj.addProperty
    simp only []
    generalize SuperObj.updateMaps ord (s.obj.addPropertyBase p) = u at r1 ⊢
    obtain ⟨u1, u2⟩ := u
    simp only [] at r1
    rw [r1]
  rw [ht]
  have hadd1 := congrArg Prod.fst hadd
  have hadd2 := congrArg Prod.snd hadd
  simp only [] at hadd1 hadd2
  refine ⟨by rw [← hadd2]; exact goto_self _ _ _, fun j hj => goto_other _ _ hj, rfl, ?_, ?_⟩
  · show lookup (SuperObj.addProperty ord s.obj p).1.props _ = _
    rw [hadd1, r3 _ (hc2 .anno) (hc2 .set) (hc2 .get), lookup_addPropertyBase, if_pos rfl]
  · intro k hk
    change countOf (SuperObj.addProperty ord s.obj p).1 k.lists ≤ 15 at hk
    show ∃ q, lookup (SuperObj.addProperty ord s.obj p).1.props k.code = some q ∧ Lists q.data (Having (SuperObj.addProperty ord s.obj p).1 k.lists)
    rw [hadd1] at hk ⊢
    rw [countOf_of_skeleton r2 hw k] at hk
    obtain ⟨q, hq, l, l1, l2, l3⟩ := r4 k hk
    exact ⟨q, hq, l, l1, l2, fun c => (l3 c).trans (having_of_skeleton r2 k c).symm⟩

/-- What threads are about to store they were called with. -/
theorem from_calls (o : Obj) : ∀ gs, ∀ j q, (run ord (start o) gs).pc j = .store q → ∃ j', .call j' q ∈ gs := by
  intro gs
  induction gs using List.reverseRecOn with
  | nil => intro j q hq; cases hq
  | append_singleton gs e ih =>
    intro j q hq
    rw [run_append] at hq
    have old : ∀ j', (run ord (start o) gs).pc j' = .store q → ∃ j', .call j' q ∈ gs ++ [e] := fun j' hj' => by
      obtain ⟨j'', h''⟩ := ih j' q hj'
      exact ⟨j'', List.mem_append_left _ h''⟩
    have other : ∀ {k x}, (∀ q, x ≠ .store q) → ((run ord (start o) gs).goto k x).pc j = .store q → ∃ j', .call j' q ∈ gs ++ [e] := by
      intro k x hx hq
      by_cases hj : j = k
      · subst hj; rw [goto_self] at hq; exact absurd hq (hx q)
      · rw [goto_other _ _ hj] at hq; exact old j hq
    cases e with
    | call k q' =>
      change (step ord _ (.call k q')).pc j = _ at hq
      by_cases hc : (run ord (start o) gs).pc k = .idle ∨ ∃ r, (run ord (start o) gs).pc k = .done r
      · rw [step_call hc] at hq
        by_cases hj : j = k
        · subst hj; rw [goto_self] at hq; injection hq with hq; subst hq; exact ⟨j, by simp⟩
        · rw [goto_other _ _ hj] at hq; exact old j hq
      · rw [step_busy hc] at hq; exact old j hq
    | go k =>
      change (step ord _ (.go k)).pc j = _ at hq
      cases hc : (run ord (start o) gs).pc k with
      | idle => rw [step_idle (Or.inl hc)] at hq; exact old j hq
      | done r => rw [step_idle (Or.inr ⟨r, hc⟩)] at hq; exact old j hq
      | store q' => rw [step_store hc] at hq; exact other (by simp) hq
      | loop r =>
        cases r with
        | fresh => rw [step_loop hc id] at hq; exact other (by simp) hq
        | inside pos used acc => rw [step_loop hc id] at hq; exact other (by simp) hq
        | returned g => rw [step_returned hc] at hq; exact other (by simp) hq
        | raised e => rw [step_raised hc] at hq; exact other (by simp) hq
      | write t =>
        cases t with
        | nil => rw [step_written hc] at hq; exact other (by simp) hq
        | cons x t =>
          obtain ⟨c, l⟩ := x
          rw [step_write hc] at hq
          generalize SuperObj.setPropertyMap (run ord (start o) gs).obj c l = x at hq
          obtain ⟨o', e | b⟩ := x
          · exact other (x := .done (.error e)) (by simp) hq
          · cases b
            · exact other (x := .done (.ok true)) (by simp) hq
            · exact other (x := .write t) (by simp) hq

/-- The codes of the properties the threads are called with. -/
def added : List Ev → List Int
  | [] => []
  | .call _ p :: es => p.code :: added es
  | .go _ :: es => added es

theorem mem_added {es : List Ev} {i : Nat} {p : OProp} (h : .call i p ∈ es) : p.code ∈ added es := by
  induction es with
  | nil => cases h
  | cons e es ih =>
    rcases List.mem_cons.mp h with rfl | h'
    · simp [added]
    · cases e <;> simp [added, ih h']

/-- The object has no codes but those it had and those of the calls. -/
theorem codes_from (hord : ValidOrder ord) (o : Obj) (es : List Ev) (h : Fair o es) :
    ∀ fs, fs <+: es → ∀ c ∈ Dict.keys (run ord (start o) fs).obj.props, c ∈ Dict.keys o.props ++ added es := by
  intro fs
  induction fs using List.reverseRecOn with
  | nil => intro _ c hc; exact List.mem_append_left _ hc
  | append_singleton fs e ih =>
    intro hf
    have hf' : fs <+: es := (List.prefix_append _ _).trans hf
    have hin := run_inv hord o fs ⟨h.wf, h.range, h.maps, fun i p hp => h.calls i p (hf'.subset hp)⟩
    have ih := ih hf'
    have from' := from_calls (ord := ord) o fs
    rw [run_append]
    generalize run ord (start o) fs = s at hin ih from'
    show ∀ c ∈ Dict.keys (step ord s e).obj.props, _
    cases e with
    | call k q =>
      by_cases hc : s.pc k = .idle ∨ ∃ r, s.pc k = .done r
      · rw [step_call hc]; exact ih
      · rw [step_busy hc]; exact ih
    | go k =>
      cases hc : s.pc k with
      | idle => rw [step_idle (Or.inl hc)]; exact ih
      | done r => rw [step_idle (Or.inr ⟨r, hc⟩)]; exact ih
      | store q =>
        rw [step_store hc]
        intro c hm
        rw [show Dict.keys _ = _ from keys_addPropertyBase s.obj q] at hm
        split at hm
        · exact ih c hm
        · rw [List.mem_append, List.mem_singleton] at hm
          rcases hm with hm | rfl
          · exact ih c hm
          · obtain ⟨j, hj⟩ := from' k q hc
            exact List.mem_append_right _ (mem_added (hf'.subset hj))
      | loop r =>
        cases r with
        | fresh => rw [step_loop hc id]; exact ih
        | inside pos used acc => rw [step_loop hc id]; exact ih
        | returned g => rw [step_returned hc]; exact ih
        | raised e => rw [step_raised hc]; exact ih
      | write t =>
        cases t with
        | nil => rw [step_written hc]; exact ih
        | cons x t =>
          obtain ⟨k', -, hs, -⟩ := write_inv (ord := ord) hin hc
          rw [hs]
          intro c hm
          exact ih c (by rw [← show _ = Dict.keys s.obj.props from keys_afterWrites s.obj _]; exact hm)

/-- C135. No more than 15 codes are ever to be listed if the object ends up with no more than 15 properties. -/
theorem C135_few (hord : ValidOrder ord) (o : Obj) (es : List Ev) (h : Fair o es) (hn : o.props.length + (added es).length ≤ 15) (k : MapKind) :
    ∃ L : List Int, L.length ≤ 15 ∧ ∀ c, Was ord o es k c → c ∈ L := by
  refine ⟨Dict.keys o.props ++ added es, by simpa [Dict.keys] using hn, ?_⟩
  rintro c ⟨fs, hf, p, hp, -⟩
  refine codes_from hord o es h fs hf c ?_
  rw [lookup_eq] at hp
  exact (Dict.get?_isSome_iff _ _).mp (by rw [hp]; rfl)

/-- Thread `i` has still to store `p`, or it is there; other properties with its code are not to come. -/
def Pending (i : Nat) (p : OProp) (s : St) : Prop :=
  (∀ j q, s.pc j = .store q → q.code = p.code → q = p) ∧ (s.pc i = .store p ∨ lookup s.obj.props p.code = some p)

theorem stores_goto {s : St} {p : OProp} (h : ∀ j q, s.pc j = .store q → q.code = p.code → q = p) (i : Nat) {x : Pc}
    (hx : ∀ q, x = .store q → q.code = p.code → q = p) : ∀ j q, (s.goto i x).pc j = .store q → q.code = p.code → q = p := by
  intro j q hq
  by_cases hj : j = i
  · subst hj; rw [goto_self] at hq; exact hx q hq
  · rw [goto_other _ _ hj] at hq; exact h j q hq

theorem pending_goto {s : St} {i : Nat} {p : OProp} (h : Pending i p s) {j : Nat} (hj : ∀ q, s.pc j ≠ .store q) {x : Pc} (hx : ∀ q, x ≠ .store q) :
    Pending i p (s.goto j x) := by
  refine ⟨stores_goto h.1 j fun q hq => absurd hq (hx q), ?_⟩
  rcases h.2 with h2 | h2
  · left
    by_cases hij : i = j
    · subst hij; exact absurd h2 (hj p)
    · rw [goto_other _ _ hij]; exact h2
  · exact Or.inr h2

theorem pending_step {Y N : MapKind → Int → Prop} {s : St} (hi : Inv Y N s) {i : Nat} {p : OProp} (hp : ∀ k : MapKind, p.code ≠ k.code)
    (h : Pending i p s) (e : Ev) (he : ∀ j q, e = .call j q → q.code = p.code → q = p) : Pending i p (step ord s e) := by
  cases e with
  | call j q =>
    by_cases hc : s.pc j = .idle ∨ ∃ r, s.pc j = .done r
    · rw [step_call hc]
      refine ⟨stores_goto h.1 j fun q' hq' => by injection hq' with hq'; subst hq'; exact he j q rfl, ?_⟩
      rcases h.2 with h2 | h2
      · left
        by_cases hij : i = j
        · subst hij; rw [h2] at hc; rcases hc with hc | ⟨_, hc⟩ <;> cases hc
        · rw [goto_other _ _ hij]; exact h2
      · exact Or.inr h2
    · rw [step_busy hc]; exact h
  | go j =>
    cases hc : s.pc j with
    | idle => rw [step_idle (Or.inl hc)]; exact h
    | done r => rw [step_idle (Or.inr ⟨r, hc⟩)]; exact h
    | store q =>
      rw [step_store hc]
      refine ⟨stores_goto h.1 j (fun q' hq' => by cases hq'), ?_⟩
      by_cases hq : q.code = p.code
      · right
        show lookup (s.obj.addPropertyBase q).props _ = _
        rw [h.1 j q hc hq, lookup_addPropertyBase, if_pos rfl]
      · rcases h.2 with h2 | h2
        · left
          by_cases hij : i = j
          · subst hij; rw [h2] at hc; injection hc with hc; rw [hc] at hq; exact absurd rfl hq
          · show (s.goto j _).pc i = _
            rw [goto_other _ _ hij]; exact h2
        · right
          show lookup (s.obj.addPropertyBase q).props _ = _
          rw [lookup_addPropertyBase, if_neg (fun e => hq e.symm)]
          exact h2
    | loop r =>
      cases r with
      | fresh => rw [step_loop hc id]; exact pending_goto h (by simp [hc]) (by simp)
      | inside pos used acc => rw [step_loop hc id]; exact pending_goto h (by simp [hc]) (by simp)
      | returned g => rw [step_returned hc]; exact pending_goto h (by simp [hc]) (by simp)
      | raised e => rw [step_raised hc]; exact pending_goto h (by simp [hc]) (by simp)
    | write t =>
      cases t with
      | nil => rw [step_written hc]; exact pending_goto h (by simp [hc]) (by simp)
      | cons x t =>
        obtain ⟨k, -, hs, -⟩ := write_inv (ord := ord) hi hc
        rw [hs]
        have := pending_goto (x := .write t) h (j := j) (by simp [hc]) (by simp)
        refine ⟨this.1, this.2.imp id fun h2 => ?_⟩
        show lookup (afterWrites s.obj _).props _ = _
        change lookup s.obj.props p.code = some p at h2
        rw [lookup_afterWrites, h2]
        have : lastFor [{ code := k.code, data := mapData x.2 }] p.code = none := by
          simp [lastFor, Ne.symm (hp k)]
        rw [this]
        rfl

/-- C135 (what holds). Once an `add_property` is through, whether it returned or raised, and from then on, the object has the property, unless some thread adds another with its code.
Missing: that it does not raise (`C135_raises_false`). -/
theorem C135_kept_partial (hord : ValidOrder ord) (o : Obj) (es fs : List Ev) (i : Nat) (p : OProp) (r : Except Exc Bool) (h : Fair o (es ++ .call i p :: fs))
    (hi : (run ord (start o) es).pc i = .idle ∨ ∃ r, (run ord (start o) es).pc i = .done r)
    (hd : (run ord (start o) (es ++ .call i p :: fs)).pc i = .done r) :
    (r = .ok true ∨ r = .error .runtimeError) ∧
    ((∀ j q, .call j q ∈ es ++ .call i p :: fs → q.code = p.code → q = p) →
      lookup (run ord (start o) (es ++ .call i p :: fs)).obj.props p.code = some p) := by
  constructor
  · have := (run_inv hord o _ h).pcs i
    rw [hd] at this
    exact this
  · intro hall
    have hp := (h.calls i p (by simp)).2
    have fair : ∀ {gs}, gs <+: es ++ .call i p :: fs → Fair o gs := fun hg => ⟨h.wf, h.range, h.maps, fun i p hp => h.calls i p (hg.subset hp)⟩
    have stores : ∀ gs, gs <+: es ++ .call i p :: fs → ∀ j q, (run ord (start o) gs).pc j = .store q → q.code = p.code → q = p := by
      intro gs hg j q hq hc
      obtain ⟨j', hj'⟩ := from_calls o gs j q hq
      exact hall j' q (hg.subset hj') hc
    have key : ∀ gs, gs <+: fs → Pending i p (run ord (start o) (es ++ .call i p :: gs)) := by
      intro gs
      induction gs using List.reverseRecOn with
      | nil =>
        intro _
        have hr : run ord (start o) (es ++ [.call i p]) = (run ord (start o) es).goto i (.store p) := by
          rw [run_append]; exact step_call (ord := ord) hi p
        refine ⟨stores _ ?_, Or.inl (by rw [hr, goto_self])⟩
        exact ⟨fs, by simp⟩
      | append_singleton gs e ih =>
        intro hg
        have hg' : gs <+: fs := (List.prefix_append _ _).trans hg
        have hpre : es ++ .call i p :: gs <+: es ++ .call i p :: fs := by
          obtain ⟨t, rfl⟩ := hg'
          exact ⟨t, by simp⟩
        have e1 : es ++ .call i p :: (gs ++ [e]) = (es ++ .call i p :: gs) ++ [e] := by simp
        rw [e1, run_append]
        refine pending_step (run_inv hord o _ (fair hpre)) hp (ih hg') e ?_
        intro j q hjq hc
        refine hall j q ?_ hc
        rw [← hjq]
        have : e ∈ fs := hg.subset (by simp)
        simp [this]
    rcases (key fs List.prefix_rfl).2 with h2 | h2
    · rw [h2] at hd; cases hd
    · exact h2

/-! ### What fails, and examples -/

/-- An object with nothing but its maps, readable and right. -/
def bare : Obj :=
  { code := 0x029101
    handler := .self_
    props := [(0x9D, { code := 0x9D, data := [0], attrGet := 1 }), (0x9E, { code := 0x9E, data := [0], attrGet := 1 }),
              (0x9F, { code := 0x9F, data := [3, 0x9D, 0x9E, 0x9F], attrGet := 1 })] }

def onOff : OProp := { code := 0x80, data := [0x30], attrGet := 1, attrSet := 1, attrAnno := 1 }
def place : OProp := { code := 0x81, data := [0], attrGet := 1, attrSet := 1 }

/-- Thread `i` goes on `n` times. -/
def gos (i n : Nat) : List Ev := List.replicate n (.go i)

theorem bare_lists (k : MapKind) : ∃ p, lookup bare.props k.code = some p ∧ Lists p.data (Having bare k.lists) := by
  have hb : ∀ c, Having bare k.lists c ↔ c ∈ listOf k bare := fun c => (mem_listOf k bare (by decide) c).symm
  have key : ∀ p : OProp, ∀ l, OProp.propertyMapCodes p.data = .ok (.codes l) → l.Nodup → (∀ c, c ∈ l ↔ c ∈ listOf k bare) →
      Lists p.data (Having bare k.lists) := fun p l h1 h2 h3 => ⟨l, h1, h2, fun c => (h3 c).trans (hb c).symm⟩
  cases k with
  | anno => exact ⟨{ code := 0x9D, data := [0], attrGet := 1 }, by decide, key _ [] (by decide) (by decide) (by rw [show listOf .anno bare = [] by decide]; exact fun _ => Iff.rfl)⟩
  | set => exact ⟨{ code := 0x9E, data := [0], attrGet := 1 }, by decide, key _ [] (by decide) (by decide) (by rw [show listOf .set bare = [] by decide]; exact fun _ => Iff.rfl)⟩
  | get =>
    refine ⟨{ code := 0x9F, data := [3, 0x9D, 0x9E, 0x9F], attrGet := 1 }, by decide, key _ [0x9D, 0x9E, 0x9F] (by decide) (by decide) ?_⟩
    have : listOf .get bare = [0x9D, 0x9E, 0x9F] := by decide
    rw [this]
    exact fun _ => Iff.rfl

theorem bare_fair (es : List Ev) (h : ∀ i p, .call i p ∈ es → p = onOff ∨ p = place) : Fair bare es := by
  refine ⟨by decide, by decide, bare_lists, ?_⟩
  intro i p hp
  rcases h i p hp with rfl | rfl
  · exact ⟨by decide, fun k => by cases k <;> decide⟩
  · exact ⟨by decide, fun k => by cases k <;> decide⟩

/-- Thread 1 has gathered the codes when thread 2 adds a property, and writes the maps afterwards. -/
def lostRun : List Ev := .call 1 onOff :: gos 1 8 ++ .call 2 place :: gos 2 13 ++ gos 1 4

/-- C135 (what fails). Two threads add a property each, both `add_property` return True and no thread is in one any more; the object has both properties, readable, but its Get map has only one of them. -/
theorem C135_lost_false : (run List.dedup (start bare) lostRun).pc 1 = .done (.ok true) ∧ (run List.dedup (start bare) lostRun).pc 2 = .done (.ok true) ∧
    Having (run List.dedup (start bare) lostRun).obj MapKind.get.lists 0x81 ∧
    (lookup (run List.dedup (start bare) lostRun).obj.props 0x9F).map OProp.data = some [4, 0x9D, 0x9E, 0x9F, 0x80] := by
  have h : lookup (run List.dedup (start bare) lostRun).obj.props 0x81 = some place ∧
    (lookup (run List.dedup (start bare) lostRun).obj.props 0x9F).map OProp.data = some [4, 0x9D, 0x9E, 0x9F, 0x80] := by decide +kernel
  exact ⟨by with_unfolding_all rfl, by with_unfolding_all rfl, ⟨place, h.1, by show CanRead place; decide⟩, h.2⟩

/-- A thread is about to ask for the next property when another adds one. -/
def raisesRun : List Ev := [.call 1 onOff, .call 2 place] ++ gos 1 3 ++ gos 2 1 ++ gos 1 2

/-- C135 (what fails). `add_property` can raise `RuntimeError`, with the property in the object and in none of the maps. -/
theorem C135_raises_false : (run List.dedup (start bare) raisesRun).pc 1 = .done (.error .runtimeError) ∧
    lookup (run List.dedup (start bare) raisesRun).obj.props 0x80 = some onOff ∧
    (lookup (run List.dedup (start bare) raisesRun).obj.props 0x9F).map OProp.data = some [3, 0x9D, 0x9E, 0x9F] := by
  have h : lookup (run List.dedup (start bare) raisesRun).obj.props 0x80 = some onOff ∧
    (lookup (run List.dedup (start bare) raisesRun).obj.props 0x9F).map OProp.data = some [3, 0x9D, 0x9E, 0x9F] := by decide +kernel
  exact ⟨by with_unfolding_all rfl, h⟩

/-- `C135_maps_partial` in the failing runs. -/
example : Fair bare lostRun ∧ bare.props.length + (added lostRun).length ≤ 15 ∧ Fair bare raisesRun ∧ bare.props.length + (added raisesRun).length ≤ 15 :=
  ⟨bare_fair _ (by intro i p hp; simp [lostRun, gos] at hp; tauto), by decide, bare_fair _ (by intro i p hp; simp [raisesRun, gos] at hp; tauto), by decide⟩

/-- The hypothesis of `C135_alone` in the middle of the failing run. -/
example : Fair bare ((.call 1 onOff :: gos 1 8) ++ [.call 2 place]) ∧ (run List.dedup (start bare) (.call 1 onOff :: gos 1 8)).pc 2 = .idle :=
  ⟨bare_fair _ (by intro i p hp; simp [gos] at hp; tauto), by with_unfolding_all rfl⟩

/-- `C135_kept_partial` where `add_property` raised. -/
example : (run List.dedup (start bare) []).pc 1 = .idle ∧
    (run List.dedup (start bare) ([] ++ .call 1 onOff :: ([.call 2 place] ++ gos 1 3 ++ gos 2 1 ++ gos 1 2))).pc 1 = .done (.error .runtimeError) :=
  ⟨rfl, by with_unfolding_all rfl⟩

end Uecho.Mapping
