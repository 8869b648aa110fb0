/- What holds in every state of an object to which several threads add properties. -/
import Verif.Model.Mapping
import Verif.Lemmas.SuperObject
import Verif.Lemmas.Iterate

namespace Uecho.Mapping
open Spec

variable {ord : List Int → List Int}

theorem goto_self (s : St) (i : Nat) (p : Pc) : (s.goto i p).pc i = p := by simp [St.goto]

theorem goto_other (s : St) {i j : Nat} (p : Pc) (h : j ≠ i) : (s.goto i p).pc j = s.pc j := by simp [St.goto, h]

theorem goto_goto (s : St) (i : Nat) (p q : Pc) : (s.goto i p).goto i q = s.goto i q := by
  simp only [St.goto, St.mk.injEq, true_and]
  funext j
  by_cases h : j = i <;> simp [h]

/-- The codes gathered for a map. -/
def Gathered.of (g : Gathered) : MapKind → List Int
  | .anno => g.anno
  | .get => g.get
  | .set => g.set

/-- What the loop does with one property. -/
def Gathered.add (g : Gathered) (p : OProp) : Gathered :=
  ⟨if p.isAnnounceRequired then g.anno ++ [p.code] else g.anno,
   if p.isReadEnabled then g.get ++ [p.code] else g.get,
   if p.isWriteEnabled then g.set ++ [p.code] else g.set⟩

theorem add_of (g : Gathered) (p : OProp) (k : MapKind) : (g.add p).of k = if k.lists p then g.of k ++ [p.code] else g.of k := by
  cases k with
  | anno =>
    show (if p.isAnnounceRequired = true then _ else _) = _
    rw [isAnnounceRequired_eq]
    simp only [decide_eq_true_eq]
    rfl
  | get =>
    show (if p.isReadEnabled = true then _ else _) = _
    rw [isReadEnabled_eq]
    simp only [decide_eq_true_eq]
    rfl
  | set =>
    show (if p.isWriteEnabled = true then _ else _) = _
    rw [isWriteEnabled_eq]
    simp only [decide_eq_true_eq]
    rfl

theorem mem_writes {g : Gathered} {x : Int × List Int} (h : x ∈ writes ord g) : ∃ k : MapKind, x = (k.code, ord (g.of k)) := by
  simp only [writes, List.mem_cons, List.not_mem_nil, or_false] at h
  rcases h with rfl | rfl | rfl
  · exact ⟨.anno, rfl⟩
  · exact ⟨.get, rfl⟩
  · exact ⟨.set, rfl⟩

theorem run_cons (s : St) (e : Ev) (es : List Ev) : run ord s (e :: es) = run ord (step ord s e) es := rfl

theorem run_append (s : St) (es fs : List Ev) : run ord s (es ++ fs) = run ord (run ord s es) fs := List.foldl_append

/-! ### Steps -/

section
variable {s : St} {i : Nat}

theorem step_call (h : s.pc i = .idle ∨ ∃ r, s.pc i = .done r) (p : OProp) : step ord s (.call i p) = s.goto i (.store p) := by
  rcases h with h | ⟨r, h⟩ <;> simp only [step, h]

theorem step_busy (h : ¬ (s.pc i = .idle ∨ ∃ r, s.pc i = .done r)) (p : OProp) : step ord s (.call i p) = s := by
  cases hp : s.pc i with
  | idle => exact absurd (Or.inl hp) h
  | done r => exact absurd (Or.inr ⟨r, hp⟩) h
  | store p => simp only [step, hp]
  | loop r => simp only [step, hp]
  | write t => simp only [step, hp]

theorem step_idle (h : s.pc i = .idle ∨ ∃ r, s.pc i = .done r) : step ord s (.go i) = s := by
  rcases h with h | ⟨r, h⟩ <;> simp only [step, h]

theorem step_store {p : OProp} (h : s.pc i = .store p) : step ord s (.go i) =
    { s.goto i (.loop .fresh) with obj := s.obj.addPropertyBase p } := by simp only [step, h]

theorem step_returned {g : Gathered} (h : s.pc i = .loop (.returned g)) : step ord s (.go i) = s.goto i (.write (writes ord g)) := by
  simp only [step, h]

theorem step_raised {e : Exc} (h : s.pc i = .loop (.raised e)) : step ord s (.go i) = s.goto i (.done (.error e)) := by simp only [step, h]

theorem step_loop {r : Iter.Reader Gathered Gathered} (h : s.pc i = .loop r) (hr : ¬ r.over) :
    step ord s (.go i) = s.goto i (.loop (Iter.tick gather s.obj.props r)) := by
  cases r with
  | fresh => simp only [step, h]
  | inside pos used acc => simp only [step, h]
  | returned l => exact absurd trivial hr
  | raised e => exact absurd trivial hr

theorem step_written (h : s.pc i = .write []) : step ord s (.go i) = s.goto i (.done (.ok true)) := by simp only [step, h]

theorem step_write {c : Int} {l : List Int} {todo : List (Int × List Int)} (h : s.pc i = .write ((c, l) :: todo)) :
    step ord s (.go i) = match SuperObj.setPropertyMap s.obj c l with
      | (o, .error e) => { s.goto i (.done (.error e)) with obj := o }
      | (o, .ok false) => { s.goto i (.done (.ok true)) with obj := o }
      | (o, .ok true) => { s.goto i (.write todo) with obj := o } := by
  simp only [step, h]
  rfl

end

/-! ### Invariant -/

/-- Every code of `l` is one of `Y`, every other one of `N`. -/
def Fits (Y N : MapKind → Int → Prop) (k : MapKind) (l : List Int) : Prop := (∀ c ∈ l, Y k c ∧ 0x80 ≤ c ∧ c < 0x100) ∧ ∀ c, c ∉ l → N k c

/-- `data` lists the codes of such a list, if it is short. -/
def Shows (Y N : MapKind → Int → Prop) (k : MapKind) (data : Bytes) : Prop :=
  ∃ l : List Int, l.Nodup ∧ Fits Y N k l ∧ (l.length ≤ 15 → Lists data (· ∈ l))

def PcOk (Y N : MapKind → Int → Prop) (keys : List Int) : Pc → Prop
  | .idle | .loop .fresh => True
  | .store p => (0x80 ≤ p.code ∧ p.code < 0x100) ∧ ∀ k : MapKind, p.code ≠ k.code
  | .loop (.inside pos _ g) => pos ≤ keys.length ∧ ∀ k, (∀ c ∈ g.of k, Y k c ∧ 0x80 ≤ c ∧ c < 0x100) ∧ ∀ c ∈ keys.take pos, c ∉ g.of k → N k c
  | .loop (.returned g) => ∀ k, Fits Y N k (g.of k)
  | .loop (.raised e) => e = .runtimeError
  | .write todo => ∀ x ∈ todo, ∃ k : MapKind, x.1 = k.code ∧ x.2.Nodup ∧ Fits Y N k x.2
  | .done r => r = .ok true ∨ r = .error .runtimeError

/-- `Y k c` stands for "`c` was to be listed in map `k` at some moment", `N k c` for "was not". -/
structure Inv (Y N : MapKind → Int → Prop) (s : St) : Prop where
  wf : WellFormed s.obj
  range : ∀ c ∈ Dict.keys s.obj.props, 0x80 ≤ c ∧ c < 0x100
  now : ∀ k c, (Having s.obj k.lists c → Y k c) ∧ (¬ Having s.obj k.lists c → N k c)
  pcs : ∀ i, PcOk Y N (Dict.keys s.obj.props) (s.pc i)
  maps : ∀ k : MapKind, ∃ p, lookup s.obj.props k.code = some p ∧ Shows Y N k p.data

theorem Fits.mono {Y N Y' N' : MapKind → Int → Prop} (hY : ∀ k c, Y k c → Y' k c) (hN : ∀ k c, N k c → N' k c) {k : MapKind} {l : List Int}
    (h : Fits Y N k l) : Fits Y' N' k l := ⟨fun c hc => ⟨hY k c (h.1 c hc).1, (h.1 c hc).2⟩, fun c hc => hN k c (h.2 c hc)⟩

theorem PcOk.mono {Y N Y' N' : MapKind → Int → Prop} (hY : ∀ k c, Y k c → Y' k c) (hN : ∀ k c, N k c → N' k c) {keys keys' : List Int}
    (hk : keys <+: keys') : ∀ {p : Pc}, PcOk Y N keys p → PcOk Y' N' keys' p
  | .idle, _ | .loop .fresh, _ => trivial
  | .loop (.raised _), h | .store _, h | .done _, h => h
  | .loop (.inside pos used g), ⟨h1, h2⟩ => by
    obtain ⟨t, rfl⟩ := hk
    refine ⟨by rw [List.length_append]; omega, fun k => ⟨fun c hc => ⟨hY k c ((h2 k).1 c hc).1, ((h2 k).1 c hc).2⟩, ?_⟩⟩
    rw [List.take_append_of_le_length h1]
    exact fun c hc hn => hN k c ((h2 k).2 c hc hn)
  | .loop (.returned g), h => fun k => (h k).mono hY hN
  | .write _, h => fun x hx => by
    obtain ⟨k, h1, h2, h3⟩ := h x hx
    exact ⟨k, h1, h2, h3.mono hY hN⟩

theorem Inv.mono {Y N Y' N' : MapKind → Int → Prop} (hY : ∀ k c, Y k c → Y' k c) (hN : ∀ k c, N k c → N' k c) {s : St} (h : Inv Y N s) :
    Inv Y' N' s :=
  ⟨h.wf, h.range, fun k c => ⟨fun x => hY k c ((h.now k c).1 x), fun x => hN k c ((h.now k c).2 x)⟩,
    fun i => (h.pcs i).mono hY hN List.prefix_rfl, fun k => by
      obtain ⟨p, hp, l, h1, h2, h3⟩ := h.maps k
      exact ⟨p, hp, l, h1, h2.mono hY hN, h3⟩⟩

theorem pcs_goto {Y N : MapKind → Int → Prop} {s : St} {keys : List Int} (h : ∀ i, PcOk Y N keys (s.pc i)) (i : Nat) (p : Pc)
    (hp : PcOk Y N keys p) : ∀ j, PcOk Y N keys ((s.goto i p).pc j) := by
  intro j
  by_cases hj : j = i
  · subst hj; rw [goto_self]; exact hp
  · rw [goto_other s p hj]; exact h j

theorem goto_inv {Y N : MapKind → Int → Prop} {s : St} (h : Inv Y N s) (i : Nat) (p : Pc) (hp : PcOk Y N (Dict.keys s.obj.props) p) :
    Inv Y N (s.goto i p) := ⟨h.wf, h.range, h.now, pcs_goto h.pcs i p hp, h.maps⟩

/-- What a thread in the loop does next. -/
theorem tick_ok {Y N : MapKind → Int → Prop} {s : St} (h : Inv Y N s) {r : Iter.Reader Gathered Gathered}
    (hr : PcOk Y N (Dict.keys s.obj.props) (.loop r)) : PcOk Y N (Dict.keys s.obj.props) (.loop (Iter.tick gather s.obj.props r)) := by
  match r, hr with
  | .fresh, _ =>
    refine ⟨by omega, fun k => ⟨?_, by simp⟩⟩
    intro c hc
    cases k <;> simp [gather, Gathered.of] at hc
  | .returned g, hr => exact hr
  | .raised e, hr => exact hr
  | .inside pos used g, ⟨h1, h2⟩ =>
    rw [Iter.tick_inside]
    by_cases hu : used = s.obj.props.length
    · rw [if_neg (by simpa using hu)]
      cases hd : s.obj.props[pos]? with
      | none =>
        have hl : s.obj.props.length ≤ pos := List.getElem?_eq_none_iff.mp hd
        intro k
        refine ⟨(h2 k).1, fun c hc => ?_⟩
        by_cases hk : c ∈ Dict.keys s.obj.props
        · refine (h2 k).2 c ?_ hc
          rw [List.take_of_length_le (by simpa [Dict.keys] using hl)]
          exact hk
        · refine (h.now k c).2 ?_
          rintro ⟨p, hp, -⟩
          rw [lookup_eq] at hp
          exact hk ((Dict.get?_isSome_iff _ _).mp (by rw [hp]; rfl))
      | some kv =>
        obtain ⟨c, p⟩ := kv
        have hlt : pos < s.obj.props.length := by
          by_contra hc
          rw [List.getElem?_eq_none_iff.mpr (by omega)] at hd
          cases hd
        have hk : (Dict.keys s.obj.props)[pos]? = some c := by simp [Dict.keys, hd]
        have hmem : (c, p) ∈ s.obj.props := List.mem_of_getElem? hd
        have hcode : p.code = c := h.wf.2 _ hmem
        have hlook := (mem_props_iff s.obj h.wf c p).mp hmem
        show PcOk Y N _ (.loop (.inside (pos + 1) used (g.add p)))
        refine ⟨by simp [Dict.keys]; omega, fun k => ⟨?_, ?_⟩⟩
        · intro x hx
          rw [add_of] at hx
          split at hx
          · rename_i hl
            rw [List.mem_append, List.mem_singleton] at hx
            rcases hx with hx | hx
            · exact (h2 k).1 x hx
            · rw [hx, hcode]; exact ⟨(h.now k c).1 ⟨p, hlook, hl⟩, h.range c (List.mem_map.mpr ⟨_, hmem, rfl⟩)⟩
          · exact (h2 k).1 x hx
        · intro x hx hn
          rw [add_of] at hn
          rw [List.take_add_one, hk, List.mem_append] at hx
          rcases hx with hx | hx
          · refine (h2 k).2 x hx (fun hc => hn ?_)
            split
            · exact List.mem_append_left _ hc
            · exact hc
          · have hx : x = c := by simpa using hx
            subst hx
            refine (h.now k x).2 ?_
            rintro ⟨q, hq, hl⟩
            rw [hlook] at hq
            injection hq with hq
            subst hq
            rw [if_pos hl] at hn
            exact hn (by simp [hcode])
    · rw [if_pos hu]
      exact rfl

theorem kind_code_inj {k k' : MapKind} (h : k.code = k'.code) : k = k' := by
  cases k <;> cases k' <;> first | rfl | exact absurd h (by decide)

theorem short_of_range {l : List Int} (hn : l.Nodup) (h : ∀ c ∈ l, 0x80 ≤ c ∧ c < 0x100) : l.length < 256 := by
  have hsub : l ⊆ (List.range 128).map (fun n : Nat => (0x80 : Int) + n) := by
    intro c hc
    have := h c hc
    rw [List.mem_map]
    exact ⟨(c - 0x80).toNat, by rw [List.mem_range]; omega, by omega⟩
  have := (List.subperm_of_subset hn hsub).length_le
  simp at this
  omega

/-- A map is written. -/
theorem write_inv {Y N : MapKind → Int → Prop} {s : St} (h : Inv Y N s) {i : Nat} {x : Int × List Int}
    {todo : List (Int × List Int)} (hp : s.pc i = .write (x :: todo)) :
    ∃ k : MapKind, x.1 = k.code ∧ step ord s (.go i) = { s.goto i (.write todo) with obj := afterWrites s.obj [{ code := k.code, data := mapData x.2 }] } ∧
      Inv Y N (step ord s (.go i)) := by
  have hpc := h.pcs i
  rw [hp] at hpc
  obtain ⟨k, h1, h2, h3⟩ := hpc x (by simp)
  have hr : ∀ c ∈ x.2, 0 ≤ c ∧ c < 256 := fun c hc => by have := (h3.1 c hc).2; omega
  have hlen : x.2.length < 256 := short_of_range h2 fun c hc => (h3.1 c hc).2
  obtain ⟨q, hq, -⟩ := h.maps k
  have hset := setPropertyMap_ok s.obj k.code x.2 (by rw [hq]; rfl) hlen hr
  have hstep : step ord s (.go i) = { s.goto i (.write todo) with obj := afterWrites s.obj [{ code := k.code, data := mapData x.2 }] } := by
    obtain ⟨c, l⟩ := x
    rw [step_write hp]
    simp only [] at h1 hset
    rw [h1, hset, storeData_eq _ _ _ h.wf.1]
  refine ⟨k, h1, hstep, ?_⟩
  rw [hstep]
  have hk := keys_afterWrites s.obj [{ code := k.code, data := mapData x.2 }]
  have hs := skeleton_afterWrites s.obj [{ code := k.code, data := mapData x.2 }]
  have hhav : ∀ (k' : MapKind) (c : Int), Having (afterWrites s.obj [{ code := k.code, data := mapData x.2 }]) k'.lists c ↔ Having s.obj k'.lists c := by
    intro k' c
    unfold Having
    rw [lookup_afterWrites]
    constructor
    · rintro ⟨p, hp, hl⟩
      cases ho : lookup s.obj.props c with
      | none => rw [ho] at hp; cases hp
      | some o =>
        rw [ho] at hp
        simp only [Option.map_some, Option.some.injEq] at hp
        exact ⟨o, rfl, by rw [← hp] at hl; cases k' <;> exact hl⟩
    · rintro ⟨p, hp, hl⟩
      rw [hp]
      exact ⟨_, rfl, by cases k' <;> exact hl⟩
  refine ⟨wf_afterWrites _ _ h.wf, ?_, ?_, ?_, ?_⟩
  · intro c hc
    exact h.range c (by rw [← show _ = Dict.keys s.obj.props from hk]; exact hc)
  · intro k' c
    show (Having (afterWrites _ _) _ _ → _) ∧ _
    rw [hhav]
    exact h.now k' c
  · intro j
    show PcOk Y N ((afterWrites s.obj _).props.map Prod.fst) ((s.goto i (.write todo)).pc j)
    rw [hk]
    exact pcs_goto h.pcs i (.write todo) (fun y hy => hpc y (List.mem_cons_of_mem _ hy)) j
  · intro k'
    show ∃ p, lookup (afterWrites s.obj _).props _ = some p ∧ _
    rw [lookup_afterWrites]
    obtain ⟨p, hp', hsh⟩ := h.maps k'
    rw [hp']
    refine ⟨_, rfl, ?_⟩
    by_cases hkk : k' = k
    · subst hkk
      have : lastFor [{ code := k'.code, data := mapData x.2 }] k'.code = some (mapData x.2) := by simp [lastFor]
      rw [this]
      refine ⟨x.2, h2, h3, fun hl => ?_⟩
      exact ⟨x.2, lists_mapData_short _ h2 hr hl, h2, fun _ => Iff.rfl⟩
    · have : lastFor [{ code := k.code, data := mapData x.2 }] k'.code = none := by
        have : k.code ≠ k'.code := fun h => hkk (kind_code_inj h.symm)
        simp [lastFor, this]
      rw [this]
      exact hsh

theorem keys_addPropertyBase (o : Obj) (p : OProp) :
    Dict.keys (o.addPropertyBase p).props = if p.code ∈ Dict.keys o.props then Dict.keys o.props else Dict.keys o.props ++ [p.code] :=
  Dict.keys_set o.props p.code p

/-- The next state keeps the invariant if `Y` and `N` cover it. -/
theorem step_inv (hord : ValidOrder ord) {Y N : MapKind → Int → Prop} {s : St} (h : Inv Y N s) (e : Ev)
    (he : ∀ i p, e = .call i p → (0x80 ≤ p.code ∧ p.code < 0x100) ∧ ∀ k : MapKind, p.code ≠ k.code)
    (hnow : ∀ k c, (Having (step ord s e).obj k.lists c → Y k c) ∧ (¬ Having (step ord s e).obj k.lists c → N k c)) :
    Inv Y N (step ord s e) := by
  cases e with
  | call i p =>
    by_cases hp : s.pc i = .idle ∨ ∃ r, s.pc i = .done r
    · rw [step_call hp]; exact goto_inv h i _ (he i p rfl)
    · rw [step_busy hp]; exact h
  | go i =>
    have hpc := h.pcs i
    cases hp : s.pc i with
    | idle => rw [step_idle (Or.inl hp)]; exact h
    | done r => rw [step_idle (Or.inr ⟨r, hp⟩)]; exact h
    | store p =>
      rw [hp] at hpc
      rw [step_store hp] at hnow ⊢
      have hk := keys_addPropertyBase s.obj p
      refine ⟨wf_addPropertyBase _ _ h.wf, ?_, hnow, ?_, ?_⟩
      · intro c hc
        rw [show Dict.keys _ = _ from hk] at hc
        split at hc
        · exact h.range c hc
        · rw [List.mem_append, List.mem_singleton] at hc
          rcases hc with hc | rfl
          · exact h.range c hc
          · exact hpc.1
      · intro j
        refine (pcs_goto h.pcs i (.loop .fresh) trivial j).mono (fun _ _ x => x) (fun _ _ x => x) ?_
        show _ <+: Dict.keys (s.obj.addPropertyBase p).props
        rw [hk]
        split
        · exact List.prefix_rfl
        · exact List.prefix_append _ _
      · intro k
        show ∃ q, lookup (s.obj.addPropertyBase p).props _ = some q ∧ _
        rw [lookup_addPropertyBase, if_neg (fun e => hpc.2 k e.symm)]
        exact h.maps k
    | loop r =>
      rw [hp] at hpc
      cases r with
      | fresh => rw [step_loop hp id]; exact goto_inv h i _ (tick_ok h hpc)
      | inside pos used acc => rw [step_loop hp id]; exact goto_inv h i _ (tick_ok h hpc)
      | returned g =>
        rw [step_returned hp]
        refine goto_inv h i _ ?_
        intro x hx
        obtain ⟨k, rfl⟩ := mem_writes hx
        refine ⟨k, rfl, (hord _).1, fun c hc => (hpc k).1 c (((hord _).2 c).mp hc), fun c hc => (hpc k).2 c fun hm => hc (((hord _).2 c).mpr hm)⟩
      | raised e => rw [step_raised hp]; exact goto_inv h i _ (Or.inr (by rw [show e = _ from hpc]))
    | write t =>
      cases t with
      | nil => rw [step_written hp]; exact goto_inv h i _ (Or.inl rfl)
      | cons x t => exact (write_inv h hp).choose_spec.2.2

/-! ### A thread nobody interrupts -/

theorem gather_finish (l : List (Int × OProp)) : ∀ g : Gathered, Iter.finish gather g l = .returned
    ⟨g.anno ++ ((l.map Prod.snd).filter (fun p => p.isAnnounceRequired)).map OProp.code,
     g.get ++ ((l.map Prod.snd).filter (fun p => p.isReadEnabled)).map OProp.code,
     g.set ++ ((l.map Prod.snd).filter (fun p => p.isWriteEnabled)).map OProp.code⟩ := by
  induction l with
  | nil => intro g; simp [Iter.finish, gather]
  | cons kp l ih =>
    intro g
    obtain ⟨c, p⟩ := kp
    show Iter.finish gather (g.add p) l = _
    rw [ih]
    unfold Gathered.add
    simp only [List.map_cons, List.filter_cons]
    congr 1
    congr 1 <;> split <;> simp

/-- While only thread `i` goes on in the loop, the state is that of the loop alone. -/
theorem loop_run (s : St) (i n : Nat) (r : Iter.Reader Gathered Gathered) (hr : ¬ (Iter.run gather (s.obj.props, r) (List.replicate n .tick)).2.over) :
    run ord (s.goto i (.loop r)) (List.replicate (n + 1) (.go i)) =
      s.goto i (.loop (Iter.run gather (s.obj.props, r) (List.replicate (n + 1) .tick)).2) := by
  have hobj : ∀ r (m : Nat), (Iter.run gather (s.obj.props, r) (List.replicate m .tick)).1 = s.obj.props := by
    intro r m
    induction m generalizing r with
    | zero => rfl
    | succ m ih => rw [List.replicate_succ, Iter.run_cons]; exact ih _
  induction n with
  | zero =>
    show step ord (s.goto i (.loop r)) (.go i) = _
    rw [step_loop (r := r) (goto_self _ _ _) hr, goto_goto]
    rfl
  | succ n ih =>
    have hn : ¬ (Iter.run gather (s.obj.props, r) (List.replicate n .tick)).2.over := by
      intro ho
      apply hr
      rw [List.replicate_succ', Iter.run_append]
      show (Iter.tick gather _ _).over
      rw [Iter.tick_over _ _ _ ho]
      exact ho
    rw [List.replicate_succ', run_append, ih hn]
    show step ord _ (.go i) = _
    rw [step_loop (goto_self _ _ _) hr, goto_goto]
    conv => rhs; rw [List.replicate_succ', Iter.run_append]
    show _ = s.goto i (.loop (Iter.tick gather (Iter.run gather (s.obj.props, r) _).1 _))
    rw [hobj]
    rfl

theorem loop_over_exists (s : St) (i : Nat) : ∃ n, run ord (s.goto i (.loop .fresh)) (List.replicate n (.go i)) =
    s.goto i (.loop (.returned ⟨SuperObj.annoList s.obj, SuperObj.getList s.obj, SuperObj.setList s.obj⟩)) := by
  -- the first moment the loop is over
  have hfin : (Iter.run gather (s.obj.props, .fresh) (List.replicate (s.obj.props.length + 2) .tick)).2 =
      .returned ⟨SuperObj.annoList s.obj, SuperObj.getList s.obj, SuperObj.setList s.obj⟩ := by
    rw [List.replicate_succ, Iter.run_cons]
    show (Iter.run gather (s.obj.props, .inside 0 s.obj.props.length gather.init) _).2 = _
    rw [Iter.run_alone gather s.obj.props s.obj.props 0 gather.init _ rfl (by omega), gather_finish]
    simp [gather, SuperObj.annoList, SuperObj.getList, SuperObj.setList, Dict.values]
  have hex : ∃ n, (Iter.run gather (s.obj.props, .fresh) (List.replicate n .tick)).2.over := ⟨_, by rw [hfin]; trivial⟩
  classical
  obtain ⟨n, hn, hmin⟩ := Nat.findX hex
  cases n with
  | zero => exact absurd hn id
  | succ n =>
    refine ⟨n + 1, ?_⟩
    rw [loop_run s i n _ (hmin n (by omega))]
    congr 1
    congr 1
    -- once over, it stays
    have hle : n + 1 ≤ s.obj.props.length + 2 := by
      by_contra hc
      exact hmin (s.obj.props.length + 2) (by omega) (by rw [hfin]; trivial)
    obtain ⟨m, hm⟩ : ∃ m, s.obj.props.length + 2 = (n + 1) + m := ⟨_, (Nat.add_sub_cancel' hle).symm⟩
    rw [← hfin, hm, List.replicate_add (n + 1) m, Iter.run_append gather _ (List.replicate (n + 1) _)]
    exact (Iter.run_over gather (List.replicate m .tick) _ _ hn).symm

theorem gos_add (s : St) (i a b : Nat) :
    run ord s (List.replicate (a + b) (.go i)) = run ord (run ord s (List.replicate a (.go i))) (List.replicate b (.go i)) := by
  rw [List.replicate_add, run_append]

theorem gos_two (s : St) (i : Nat) : run ord s (List.replicate 2 (.go i)) = step ord (step ord s (.go i)) (.go i) := rfl
theorem gos_three (s : St) (i : Nat) : run ord s (List.replicate 3 (.go i)) = step ord (step ord (step ord s (.go i)) (.go i)) (.go i) := rfl
theorem gos_four (s : St) (i : Nat) :
    run ord s (List.replicate 4 (.go i)) = step ord (step ord (step ord (step ord s (.go i)) (.go i)) (.go i)) (.go i) := rfl

/-- `add_property` of a thread nobody interrupts is that of the model of one thread. -/
theorem add_alone (s : St) (i : Nat) (p : OProp) (h : s.pc i = .idle ∨ ∃ r, s.pc i = .done r) :
    ∃ n, run ord s (.call i p :: List.replicate n (.go i)) =
      { s.goto i (.done (SuperObj.addProperty ord s.obj p).2) with obj := (SuperObj.addProperty ord s.obj p).1 } := by
  obtain ⟨T, hT⟩ : ∃ T : St, T = { s with obj := s.obj.addPropertyBase p } := ⟨_, rfl⟩
  have hobj : T.obj = s.obj.addPropertyBase p := by rw [hT]
  have hpc : ∀ (o : Obj) q, ({ T.goto i q with obj := o } : St) = { s.goto i q with obj := o } := by intro o q; rw [hT]; rfl
  have e1 : run ord s [.call i p, .go i] = T.goto i (.loop .fresh) := by
    show step ord (step ord s (.call i p)) (.go i) = _
    rw [step_call h, step_store (goto_self _ _ _), goto_goto, hT]
    rfl
  obtain ⟨m, e2⟩ := loop_over_exists (ord := ord) T i
  have e3 : run ord (T.goto i (.loop .fresh)) (List.replicate (m + 1) (.go i)) =
      T.goto i (.write (writes ord ⟨SuperObj.annoList T.obj, SuperObj.getList T.obj, SuperObj.setList T.obj⟩)) := by
    rw [gos_add, e2]
    show step ord _ (.go i) = _
    rw [step_returned (goto_self _ _ _), goto_goto]
  have hend : ∃ n, run ord (T.goto i (.write (writes ord ⟨SuperObj.annoList T.obj, SuperObj.getList T.obj, SuperObj.setList T.obj⟩)))
      (List.replicate n (.go i)) =
      { s.goto i (.done (SuperObj.addProperty ord s.obj p).2) with obj := (SuperObj.addProperty ord s.obj p).1 } := by
    unfold SuperObj.addProperty SuperObj.updateMaps writes
    simp only [← hobj]
    have w : ∀ (o : Obj) (c : Int) (l : List Int) (todo : List (Int × List Int)),
        step ord { T.goto i (.write ((c, l) :: todo)) with obj := o } (.go i) = match SuperObj.setPropertyMap o c l with
          | (o, .error e) => { T.goto i (.done (.error e)) with obj := o }
          | (o, .ok false) => { T.goto i (.done (.ok true)) with obj := o }
          | (o, .ok true) => { T.goto i (.write todo) with obj := o } := by
      intro o c l todo
      have hx : ({ T.goto i (.write ((c, l) :: todo)) with obj := o } : St).pc i = .write ((c, l) :: todo) := goto_self _ _ _
      rw [step_write hx]
      have hg : ∀ q o', ({ ({ T.goto i (.write ((c, l) :: todo)) with obj := o } : St).goto i q with obj := o' } : St) = { T.goto i q with obj := o' } := by
        intro q o'
        have := congrArg (fun t : St => ({ t with obj := o' } : St)) (goto_goto T i (.write ((c, l) :: todo)) q)
        exact this
      rcases SuperObj.setPropertyMap o c l with ⟨o', e | b⟩
      · exact hg _ _
      · cases b <;> exact hg _ _
    have w0 := w T.obj SuperObj.ANNO_PROPERTY_MAP (ord (SuperObj.annoList T.obj))
      [(SuperObj.GET_PROPERTY_MAP, ord (SuperObj.getList T.obj)), (SuperObj.SET_PROPERTY_MAP, ord (SuperObj.setList T.obj))]
    have w1 := fun o => w o SuperObj.GET_PROPERTY_MAP (ord (SuperObj.getList T.obj)) [(SuperObj.SET_PROPERTY_MAP, ord (SuperObj.setList T.obj))]
    have w2 := fun o => w o SuperObj.SET_PROPERTY_MAP (ord (SuperObj.setList T.obj)) []
    have w3 : ∀ o, step ord { T.goto i (.write []) with obj := o } (.go i) = { T.goto i (.done (.ok true)) with obj := o } := by
      intro o
      have hx : ({ T.goto i (.write []) with obj := o } : St).pc i = .write [] := goto_self _ _ _
      rw [step_written hx]
      exact congrArg (fun t : St => ({ t with obj := o } : St)) (goto_goto T i (.write []) (.done (.ok true)))
    rcases h1 : SuperObj.setPropertyMap T.obj SuperObj.ANNO_PROPERTY_MAP (ord (SuperObj.annoList T.obj)) with ⟨o1, e | b⟩
    · refine ⟨1, ?_⟩
      rw [h1] at w0
      exact w0.trans (hpc _ _)
    · rw [h1] at w0
      cases b with
      | false => exact ⟨1, w0.trans (hpc _ _)⟩
      | true =>
        have w1 := w1 o1
        rcases h2 : SuperObj.setPropertyMap o1 SuperObj.GET_PROPERTY_MAP (ord (SuperObj.getList T.obj)) with ⟨o2, e | b⟩
        · refine ⟨2, ?_⟩
          rw [h2] at w1
          rw [gos_two]
          simp only [h2]
          exact (congrArg (fun t => step ord t (.go i)) w0).trans (w1.trans (hpc _ _))
        · rw [h2] at w1
          cases b with
          | false =>
            refine ⟨2, ?_⟩
            rw [gos_two]
            simp only [h2]
            exact (congrArg (fun t => step ord t (.go i)) w0).trans (w1.trans (hpc _ _))
          | true =>
            have w2 := w2 o2
            have w01 := (congrArg (fun t => step ord t (.go i)) w0).trans w1
            rcases h3 : SuperObj.setPropertyMap o2 SuperObj.SET_PROPERTY_MAP (ord (SuperObj.setList T.obj)) with ⟨o3, e | b⟩
            · refine ⟨3, ?_⟩
              rw [h3] at w2
              rw [gos_three]
              simp only [h2, h3]
              exact (congrArg (fun t => step ord t (.go i)) w01).trans (w2.trans (hpc _ _))
            · rw [h3] at w2
              cases b with
              | false =>
                refine ⟨3, ?_⟩
                rw [gos_three]
                simp only [h2, h3]
                exact (congrArg (fun t => step ord t (.go i)) w01).trans (w2.trans (hpc _ _))
              | true =>
                refine ⟨4, ?_⟩
                rw [gos_four]
                simp only [h2, h3]
                exact (congrArg (fun t => step ord t (.go i)) ((congrArg (fun t => step ord t (.go i)) w01).trans w2)).trans ((w3 o3).trans (hpc _ _))
  obtain ⟨n, e4⟩ := hend
  refine ⟨1 + ((m + 1) + n), ?_⟩
  rw [List.replicate_add]
  show run ord s ([.call i p, .go i] ++ List.replicate ((m + 1) + n) (.go i)) = _
  rw [run_append, e1, gos_add, e3]
  exact e4

end Uecho.Mapping
