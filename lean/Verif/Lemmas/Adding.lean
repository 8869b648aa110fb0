/- What holds in every state of a node to which several threads add objects. -/
import Verif.Model.Adding
import Verif.Lemmas.Node
import Verif.Lemmas.Iterate

namespace Uecho.Adding
open Spec

theorem goto_self (s : St) (i : Nat) (p : Pc) : (s.goto i p).pc i = p := by simp [St.goto]

theorem goto_other (s : St) {i j : Nat} (p : Pc) (h : j ≠ i) : (s.goto i p).pc j = s.pc j := by simp [St.goto, h]

/-- What is written for these codes. -/
theorem writes_eq (codes : List Int) : ∃ l, ListsClasses l (instancesOf codes) ∧ writes codes =
    [{ code := 0xD3, data := beDigits (instancesOf codes).length 3 },
     { code := 0xD5, data := byteOf (instancesOf codes).length :: codeBytes (instancesOf codes) },
     { code := 0xD6, data := byteOf (instancesOf codes).length :: codeBytes (instancesOf codes) },
     { code := 0xD4, data := beDigits codes.length 2 },
     { code := 0xD7, data := byteOf codes.length :: classBytes l }] := by
  obtain ⟨l, hl, hc⟩ := classLoop_eq codes 0 [] [] ⟨List.nodup_nil, by simp⟩
  rw [List.nil_append] at hl
  simp only [Nat.zero_add] at hc
  have hc' : NodeProfile.classLoop codes 0 [] = (codes.length, classBytes l) := hc
  have one : ∀ v : Int, fromInt v 1 = [byteOf v] := by
    intro v; rw [fromInt_succ]; simp [fromInt]
  refine ⟨l, hl, ?_⟩
  unfold writes
  rw [instanceLoop_eq, hc']
  simp only [List.nil_append, Nat.zero_add, one, List.cons_append, fromInt_eq_beDigits]
  rfl

/-- The model of one thread (`Model/Node`) writes the same. -/
theorem writes_model {ord : List Int → List Int} (hord : ValidOrder ord) (o : Obj) (codes : List Int) (hg : GoodProfile o) :
    ∃ ms, (∀ i ∈ ms, i.code = 0x9D ∨ i.code = 0x9E ∨ i.code = 0x9F) ∧
      NodeProfile.updateMapProperties ord o codes = (afterWrites o (writes codes ++ ms), .ok true) := by
  obtain ⟨k3, k4, k5, k6, k7⟩ := hg.lists
  have g : ∀ items, GoodProfile (afterWrites o items) := fun items => hg.of_skeleton (skeleton_afterWrites o items)
  have ks : ∀ items c, (lookup (afterWrites o items).props c).isSome = (lookup o.props c).isSome := by
    intro items c; rw [lookup_afterWrites]; simp
  have hall := updateMaps_all hord (afterWrites o (writes codes)) (g _).wf (byteCodes_of_keys (g _).wf.1 (g _).range) (g _).maps
  generalize kindData ord _ .anno = d1, kindData ord _ .get = d2, kindData ord _ .set = d3 at hall
  refine ⟨[{ code := 0x9D, data := d1 }, { code := 0x9F, data := d2 }, { code := 0x9E, data := d3 }], by simp, ?_⟩
  unfold writes at hall ⊢
  unfold NodeProfile.updateMapProperties NodeProfile.updateInstance NodeProfile.updateClass
    NodeProfile.NUMBER_OF_SELF_NODE_INSTANCES NodeProfile.INSTANCE_LIST_NOTIFICATION NodeProfile.SELF_NODE_INSTANCE_LIST_S
    NodeProfile.NUMBER_OF_SELF_NODE_CLASSES NodeProfile.SELF_NODE_CLASS_LIST_S at *
  generalize NodeProfile.instanceLoop codes 0 [] = a at hall ⊢
  generalize NodeProfile.classLoop codes 0 [] = b at hall ⊢
  obtain ⟨n, l⟩ := a
  obtain ⟨k, m⟩ := b
  simp only [] at hall ⊢
  rw [setPropertyData_eq _ _ _ hg.wf, k3]
  simp only []
  rw [setPropertyData_eq _ _ _ (g _).wf, ks, k5]
  simp only [afterWrites_append]
  rw [setPropertyData_eq _ _ _ (g _).wf, ks, k6]
  simp only [afterWrites_append]
  rw [setPropertyData_eq _ _ _ (g _).wf, ks, k4]
  simp only [afterWrites_append]
  rw [setPropertyData_eq _ _ _ (g _).wf, ks, k7]
  simp only [afterWrites_append, List.cons_append, List.nil_append]
  rw [hall]
  simp only [afterWrites_append, List.cons_append, List.nil_append]

/-! ### Invariant -/

/-- The keys of the table only grow at the end. -/
theorem keys_prefix (d : Dict Int Nat) (k : Int) (v : Nat) : Dict.keys d <+: Dict.keys (Dict.set d k v) := by
  rw [Dict.keys_set]
  split
  · exact List.prefix_rfl
  · exact List.prefix_append _ _

/-- `l` lists the table as it was at some moment. -/
def Was (keys l : List Int) : Prop := 0x0EF001 ∈ l ∧ l <+: keys

theorem Was.mono {keys keys' l : List Int} (h : Was keys l) (hk : keys <+: keys') : Was keys' l := ⟨h.1, h.2.trans hk⟩

def PcOk (keys : List Int) : Pc → Prop
  | .idle | .store .. | .loop .fresh | .loop (.raised _) => True
  | .loop (.inside pos used acc) => acc = keys.take pos ∧ pos ≤ used ∧ used ≤ keys.length
  | .loop (.returned l) => Was keys l
  | .write todo => ∃ l, Was keys l ∧ todo <:+ writes l
  | .done r => r = .ok true ∨ r = .error .runtimeError

/-- What holds in every state. -/
structure Inv (s : St) : Prop where
  profile : (Dict.keys s.table).head? = some 0x0EF001
  table : s.table = s.added.foldl (fun d x => Dict.set d x.1 x.2) []
  pcs : ∀ i, PcOk (Dict.keys s.table) (s.pc i)
  raised : ∀ i e, s.pc i = .loop (.raised e) → e = .runtimeError
  data : ∀ c, (∃ p ∈ writes [0x0EF001], p.code = c) → ∃ l, Was (Dict.keys s.table) l ∧ ∃ p ∈ writes l, p.code = c ∧ p.data = s.data c

theorem PcOk.mono {keys keys' : List Int} (hk : keys <+: keys') : ∀ {p : Pc}, PcOk keys p → PcOk keys' p
  | .idle, _ | .store .., _ | .loop .fresh, _ | .loop (.raised _), _ => trivial
  | .loop (.inside pos used acc), ⟨h1, h2, h3⟩ => by
    obtain ⟨t, rfl⟩ := hk
    refine ⟨?_, h2, by simp; omega⟩
    rw [h1, List.take_append_of_le_length (by omega)]
  | .loop (.returned l), h => Was.mono h hk
  | .write _, ⟨l, h, ht⟩ => ⟨l, h.mono hk, ht⟩
  | .done _, h => h

/-- What a thread in the loop does next. -/
theorem tick_ok (d : Dict Int Nat) (hp : (Dict.keys d).head? = some 0x0EF001) (r : Iter.Reader (List Int) (List Int))
    (h : PcOk (Dict.keys d) (.loop r)) (hr : ∀ e, r = .raised e → e = .runtimeError) :
    PcOk (Dict.keys d) (.loop (Iter.tick objects d r)) ∧ ∀ e, Iter.tick objects d r = .raised e → e = .runtimeError := by
  match r, h, hr with
  | .fresh, _, _ => exact ⟨⟨by simp [objects], by omega, by simp [Dict.keys]⟩, by intro e h; simp [Iter.tick] at h⟩
  | .returned l, h, _ => exact ⟨h, by intro e h; simp [Iter.tick] at h⟩
  | .raised e, _, hr => exact ⟨trivial, hr⟩
  | .inside pos used acc, ⟨h1, h2, h3⟩, _ =>
    rw [Iter.tick_inside]
    by_cases hu : used = d.length
    · rw [if_neg (by simpa using hu)]
      cases hd : d[pos]? with
      | none =>
        refine ⟨?_, by intro e h; cases h⟩
        have hl : d.length ≤ pos := List.getElem?_eq_none_iff.mp hd
        have : acc = Dict.keys d := by rw [h1, List.take_of_length_le (by simpa [Dict.keys] using hl)]
        show Was _ acc
        rw [this]
        exact ⟨List.mem_of_mem_head? hp, List.prefix_rfl⟩
      | some kv =>
        obtain ⟨k, v⟩ := kv
        refine ⟨?_, by intro e h; cases h⟩
        have hlt : pos < d.length := by
          by_contra hc
          rw [List.getElem?_eq_none_iff.mpr (by omega)] at hd
          cases hd
        refine ⟨?_, by omega, h3⟩
        have hk : (Dict.keys d)[pos]? = some k := by simp [Dict.keys, hd]
        rw [List.take_add_one, hk, h1]
        rfl
    · rw [if_pos hu]
      exact ⟨trivial, by intro e h; injection h with h; exact h.symm⟩

theorem pcs_goto {s : St} {keys : List Int} (h : ∀ i, PcOk keys (s.pc i)) (i : Nat) (p : Pc) (hp : PcOk keys p) :
    ∀ j, PcOk keys ((s.goto i p).pc j) := by
  intro j
  by_cases hj : j = i
  · subst hj; rw [goto_self]; exact hp
  · rw [goto_other s p hj]; exact h j

theorem raised_goto {s : St} (h : ∀ i e, s.pc i = .loop (.raised e) → e = .runtimeError) (i : Nat) (p : Pc)
    (hp : ∀ e, p = .loop (.raised e) → e = .runtimeError) : ∀ j e, (s.goto i p).pc j = .loop (.raised e) → e = .runtimeError := by
  intro j e he
  by_cases hj : j = i
  · subst hj; rw [goto_self] at he; exact hp e he
  · rw [goto_other s p hj] at he; exact h j e he

theorem goto_inv {s : St} (h : Inv s) (i : Nat) (p : Pc) (hp : PcOk (Dict.keys s.table) p) (hr : ∀ e, p = .loop (.raised e) → e = .runtimeError) :
    Inv (s.goto i p) :=
  ⟨h.profile, h.table, pcs_goto h.pcs i p hp, raised_goto h.raised i p hr, h.data⟩

section
variable {s : St} {i : Nat}

theorem step_call (h : s.pc i = .idle ∨ ∃ r, s.pc i = .done r) (c : Int) (k : Nat) : step s (.call i c k) = s.goto i (.store c k) := by
  rcases h with h | ⟨r, h⟩ <;> simp only [step, h]

theorem step_busy (h : ¬ (s.pc i = .idle ∨ ∃ r, s.pc i = .done r)) (c : Int) (k : Nat) : step s (.call i c k) = s := by
  cases hp : s.pc i with
  | idle => exact absurd (Or.inl hp) h
  | done r => exact absurd (Or.inr ⟨r, hp⟩) h
  | store c k => simp only [step, hp]
  | loop r => simp only [step, hp]
  | write t => simp only [step, hp]

theorem step_idle (h : s.pc i = .idle ∨ ∃ r, s.pc i = .done r) : step s (.go i) = s := by
  rcases h with h | ⟨r, h⟩ <;> simp only [step, h]

theorem step_store {c : Int} {k : Nat} (h : s.pc i = .store c k) : step s (.go i) =
    { s.goto i (.loop .fresh) with table := Dict.set s.table c k, added := s.added ++ [(c, k)] } := by simp only [step, h]

theorem step_returned {l : List Int} (h : s.pc i = .loop (.returned l)) : step s (.go i) = s.goto i (.write (writes l)) := by simp only [step, h]

theorem step_raised {e : Exc} (h : s.pc i = .loop (.raised e)) : step s (.go i) = s.goto i (.done (.error e)) := by simp only [step, h]

theorem step_loop {r : Iter.Reader (List Int) (List Int)} (h : s.pc i = .loop r) (hr : ¬ r.over) :
    step s (.go i) = s.goto i (.loop (Iter.tick objects s.table r)) := by
  cases r with
  | fresh => simp only [step, h]
  | inside pos used acc => simp only [step, h]
  | returned l => exact absurd trivial hr
  | raised e => exact absurd trivial hr

theorem step_written (h : s.pc i = .write []) : step s (.go i) = s.goto i (.done (.ok true)) := by simp only [step, h]

theorem step_write {p : PProp} {ps : List PProp} (h : s.pc i = .write (p :: ps)) : step s (.go i) =
    { s.goto i (.write ps) with data := fun c => if c = p.code then p.data else s.data c } := by simp only [step, h]

end

theorem step_table (s : St) (e : Ev) : (step s e).table = s.table ∨ ∃ c k, (step s e).table = Dict.set s.table c k := by
  cases e with
  | call i c k =>
    by_cases hp : s.pc i = .idle ∨ ∃ r, s.pc i = .done r
    · rw [step_call hp]; exact Or.inl rfl
    · rw [step_busy hp]; exact Or.inl rfl
  | go i =>
    cases hp : s.pc i with
    | idle => rw [step_idle (Or.inl hp)]; exact Or.inl rfl
    | done r => rw [step_idle (Or.inr ⟨r, hp⟩)]; exact Or.inl rfl
    | store c k => rw [step_store hp]; exact Or.inr ⟨c, k, rfl⟩
    | loop r =>
      cases r with
      | fresh => rw [step_loop hp id]; exact Or.inl rfl
      | inside pos used acc => rw [step_loop hp id]; exact Or.inl rfl
      | returned l => rw [step_returned hp]; exact Or.inl rfl
      | raised e => rw [step_raised hp]; exact Or.inl rfl
    | write t =>
      cases t with
      | nil => rw [step_written hp]; exact Or.inl rfl
      | cons p ps => rw [step_write hp]; exact Or.inl rfl

theorem step_inv {s : St} (h : Inv s) (e : Ev) : Inv (step s e) := by
  cases e with
  | call i c k =>
    by_cases hp : s.pc i = .idle ∨ ∃ r, s.pc i = .done r
    · rw [step_call hp]; exact goto_inv h i _ trivial (by intro e he; cases he)
    · rw [step_busy hp]; exact h
  | go i =>
    have hi := h.pcs i
    cases hp : s.pc i with
    | idle => rw [step_idle (Or.inl hp)]; exact h
    | done r => rw [step_idle (Or.inr ⟨r, hp⟩)]; exact h
    | store c k =>
      rw [step_store hp]
      have hk := keys_prefix s.table c k
      refine ⟨?_, ?_, fun j => (pcs_goto h.pcs i (.loop .fresh) trivial j).mono hk, raised_goto h.raised i _ (by intro e he; cases he), ?_⟩
      · obtain ⟨t, ht⟩ := hk
        show (Dict.keys (Dict.set s.table c k)).head? = _
        rw [← ht, List.head?_append, h.profile]; rfl
      · show Dict.set s.table c k = _
        rw [List.foldl_append, ← h.table]; rfl
      · intro c' hc
        obtain ⟨l, hl, hw⟩ := h.data c' hc
        exact ⟨l, hl.mono hk, hw⟩
    | loop r =>
      rw [hp] at hi
      have ht := tick_ok s.table h.profile r hi (fun e he => h.raised i e (by rw [hp, he]))
      cases r with
      | fresh => rw [step_loop hp id]; exact goto_inv h i _ ht.1 (by intro e he; injection he with he; exact ht.2 e he)
      | inside pos used acc => rw [step_loop hp id]; exact goto_inv h i _ ht.1 (by intro e he; injection he with he; exact ht.2 e he)
      | returned l => rw [step_returned hp]; exact goto_inv h i _ ⟨l, hi, List.suffix_rfl⟩ (by intro e he; cases he)
      | raised e => rw [step_raised hp]; exact goto_inv h i _ (Or.inr (by rw [h.raised i e hp])) (by intro e he; cases he)
    | write t =>
      rw [hp] at hi
      obtain ⟨l, hl, hs⟩ := hi
      cases t with
      | nil => rw [step_written hp]; exact goto_inv h i _ (Or.inl rfl) (by intro e he; cases he)
      | cons p ps =>
        rw [step_write hp]
        refine ⟨h.profile, h.table, pcs_goto h.pcs i _ ⟨l, hl, (List.suffix_cons p ps).trans hs⟩, raised_goto h.raised i _ (by intro e he; cases he), ?_⟩
        intro c hc
        by_cases hcp : c = p.code
        · exact ⟨l, hl, p, hs.subset (by simp), hcp.symm, by simp [hcp]⟩
        · obtain ⟨l', hl', q, hq, hqc, hqd⟩ := h.data c hc
          exact ⟨l', hl', q, hq, hqc, by simp [hcp, hqd]⟩

theorem start_inv : Inv start where
  profile := by decide
  table := by decide
  pcs _ := trivial
  raised _ _ h := by cases h
  data := by
    rintro c ⟨p, hp, rfl⟩
    refine ⟨[0x0EF001], ⟨by simp, by decide⟩, p, hp, rfl, ?_⟩
    obtain ⟨l, -, hw⟩ := writes_eq [0x0EF001]
    unfold start
    rw [hw] at hp ⊢
    simp only [List.mem_cons, List.not_mem_nil, or_false] at hp
    rcases hp with rfl | rfl | rfl | rfl | rfl <;> simp

theorem run_append (s : St) (es fs : List Ev) : run s (es ++ fs) = run (run s es) fs := List.foldl_append

theorem run_inv (es : List Ev) : Inv (run start es) := by
  induction es using List.reverseRecOn with
  | nil => exact start_inv
  | append_singleton es e ih => rw [run_append]; exact step_inv ih e

/-- Every list that begins the list of codes was the whole list at some moment. -/
theorem was_moment (es : List Ev) (l : List Int) (hl : Was (Dict.keys (run start es).table) l) :
    ∃ fs, fs <+: es ∧ Dict.keys (run start fs).table = l := by
  induction es using List.reverseRecOn with
  | nil =>
    refine ⟨[], List.prefix_rfl, ?_⟩
    obtain ⟨h1, h2⟩ := hl
    have h2 : l <+: [0x0EF001] := h2
    rcases List.prefix_cons_iff.mp h2 with rfl | ⟨t, rfl, ht⟩
    · simp at h1
    · rw [List.prefix_nil.mp ht]; rfl
  | append_singleton es e ih =>
    rw [run_append] at hl
    have hcase : Dict.keys (run (run start es) [e]).table = Dict.keys (run start es).table ∨
        ∃ c, Dict.keys (run (run start es) [e]).table = Dict.keys (run start es).table ++ [c] := by
      show Dict.keys (step (run start es) e).table = _ ∨ ∃ c, Dict.keys (step (run start es) e).table = _
      rcases step_table (run start es) e with h | ⟨c, k, h⟩
      · exact Or.inl (by rw [h])
      · rw [h, Dict.keys_set]
        split
        · exact Or.inl rfl
        · exact Or.inr ⟨c, rfl⟩
    have old : Was (Dict.keys (run start es).table) l → ∃ fs, fs <+: es ++ [e] ∧ Dict.keys (run start fs).table = l := by
      intro h
      obtain ⟨fs, hfs, hk⟩ := ih h
      exact ⟨fs, hfs.trans (List.prefix_append _ _), hk⟩
    rcases hcase with hc | ⟨c, hc⟩
    · exact old (hc ▸ hl)
    · obtain ⟨h1, h2⟩ := hl
      rw [hc] at h2
      rcases List.prefix_concat_iff.mp h2 with h2 | h2
      · exact ⟨es ++ [e], List.prefix_rfl, by rw [run_append, hc, h2]⟩
      · exact old ⟨h1, h2⟩

/-! ### A thread that is not interrupted -/

theorem goto_goto (s : St) (i : Nat) (p q : Pc) : (s.goto i p).goto i q = s.goto i q := by
  simp only [St.goto, St.mk.injEq, true_and, and_true]
  funext j
  by_cases h : j = i <;> simp [h]

theorem goto_same (s : St) (i : Nat) (p : Pc) (h : s.pc i = p) : s.goto i p = s := by
  cases s
  simp only [St.goto, St.mk.injEq, true_and, and_true]
  funext j
  by_cases hj : j = i
  · subst hj; simpa using h.symm
  · simp [hj]

theorem run_cons (s : St) (e : Ev) (es : List Ev) : run s (e :: es) = run (step s e) es := rfl

theorem loop_alone (i n : Nat) : ∀ (s : St) (pos : Nat), pos + n = s.table.length →
    s.pc i = .loop (.inside pos s.table.length ((Dict.keys s.table).take pos)) →
    run s (List.replicate (n + 1) (.go i)) = s.goto i (.loop (.returned (Dict.keys s.table))) := by
  induction n with
  | zero =>
    intro s pos hn hp
    show step s (.go i) = _
    rw [step_loop hp id, Iter.tick_inside, if_neg (not_not.mpr rfl), List.getElem?_eq_none_iff.mpr (by omega)]
    rw [List.take_of_length_le (by simp [Dict.keys]; omega)]
    rfl
  | succ n ih =>
    intro s pos hn hp
    rw [List.replicate_succ, run_cons, step_loop hp id, Iter.tick_inside, if_neg (not_not.mpr rfl)]
    have hlt : pos < s.table.length := by omega
    rw [List.getElem?_eq_getElem hlt]
    have hk : (Dict.keys s.table)[pos]? = some (s.table[pos]).1 := by simp [Dict.keys, hlt]
    have := ih (s.goto i (.loop (.inside (pos + 1) s.table.length ((Dict.keys s.table).take (pos + 1))))) (pos + 1) (by
      show pos + 1 + n = s.table.length; omega) (goto_self _ _ _)
    rw [goto_goto] at this
    rw [List.take_add_one, hk] at this
    exact this

theorem write_alone (i : Nat) (ps : List PProp) : ∀ (s : St), s.pc i = .write ps → (ps.map PProp.code).Nodup →
    ∃ d, run s (List.replicate (ps.length + 1) (.go i)) = { s.goto i (.done (.ok true)) with data := d } ∧
      (∀ p ∈ ps, d p.code = p.data) ∧ ∀ c, (∀ p ∈ ps, p.code ≠ c) → d c = s.data c := by
  induction ps with
  | nil =>
    intro s hp _
    exact ⟨s.data, step_written hp, by simp, fun _ _ => rfl⟩
  | cons p ps ih =>
    intro s hp hn
    rw [List.map_cons, List.nodup_cons] at hn
    rw [List.length_cons, List.replicate_succ, run_cons, step_write hp]
    obtain ⟨d, hd, h1, h2⟩ := ih { s.goto i (.write ps) with data := fun c => if c = p.code then p.data else s.data c } (goto_self _ _ _) hn.2
    refine ⟨d, ?_, ?_, ?_⟩
    · rw [hd]
      have := goto_goto s i (.write ps) (.done (.ok true))
      simp only [St.goto, St.mk.injEq, true_and, and_true] at this ⊢
      exact this
    · intro q hq
      rcases List.mem_cons.mp hq with rfl | hq
      · rw [h2 q.code (fun r hr e => hn.1 (e ▸ List.mem_map_of_mem hr))]
        simp
      · exact h1 q hq
    · intro c hc
      rw [h2 c (fun q hq => hc q (by simp [hq]))]
      exact if_neg fun e => hc p (by simp) e.symm

theorem writes_nodup (l : List Int) : ((writes l).map PProp.code).Nodup ∧ (writes l).length = 5 := by
  obtain ⟨m, -, hw⟩ := writes_eq l
  rw [hw]
  refine ⟨?_, rfl⟩
  show ([0xD3, 0xD5, 0xD6, 0xD4, 0xD7] : List Int).Nodup
  decide

theorem run_one (s : St) (e : Ev) : run s (List.replicate 1 e) = step s e := rfl

/-- `add_object` from beginning to end without another thread in between. -/
theorem add_alone (s : St) (i : Nat) (c : Int) (k : Nat) (h : s.pc i = .idle ∨ ∃ r, s.pc i = .done r) (n : Nat)
    (hn : (Dict.set s.table c k).length + 10 ≤ n) :
    ∃ d, run s (.call i c k :: List.replicate n (.go i)) =
        { s.goto i (.done (.ok true)) with table := Dict.set s.table c k, added := s.added ++ [(c, k)], data := d } ∧
      ∀ p ∈ writes (Dict.keys (Dict.set s.table c k)), d p.code = p.data := by
  generalize hT : Dict.set s.table c k = T at *
  obtain ⟨m, rfl⟩ : ∃ m, n = 1 + (1 + ((T.length + 1) + (1 + ((5 + 1) + m)))) := ⟨n - (T.length + 10), by omega⟩
  simp only [List.replicate_add]
  rw [run_cons, step_call h, run_append]
  obtain ⟨U, hU⟩ : ∃ U : St, U = { s with table := T, added := s.added ++ [(c, k)] } := ⟨_, rfl⟩
  have hUt : U.table = T := by rw [hU]
  have e1 : run (s.goto i (.store c k)) (List.replicate 1 (.go i)) = U.goto i (.loop .fresh) := by
    rw [run_one, step_store (goto_self _ _ _), goto_goto, hU, ← hT]
    rfl
  have e2 : run (U.goto i (.loop .fresh)) (List.replicate 1 (.go i)) = U.goto i (.loop (.inside 0 T.length [])) := by
    rw [run_one, step_loop (goto_self U i _) id, goto_goto]
    show U.goto i (.loop (.inside 0 U.table.length [])) = _
    rw [hUt]
  have e3 : run (U.goto i (.loop (.inside 0 T.length []))) (List.replicate (T.length + 1) (.go i)) = U.goto i (.loop (.returned (Dict.keys T))) := by
    rw [loop_alone i T.length _ 0 (by show 0 + T.length = U.table.length; rw [hUt]; omega)
      (by rw [goto_self]; show _ = Pc.loop (.inside 0 U.table.length _); rw [hUt]; rfl), goto_goto]
    show U.goto i (.loop (.returned (Dict.keys U.table))) = _
    rw [hUt]
  have e4 : run (U.goto i (.loop (.returned (Dict.keys T)))) (List.replicate 1 (.go i)) = U.goto i (.write (writes (Dict.keys T))) := by
    rw [run_one, step_returned (goto_self _ i _), goto_goto]
  obtain ⟨hnd, hlen⟩ := writes_nodup (Dict.keys T)
  obtain ⟨d, hd, h1, -⟩ := write_alone i (writes (Dict.keys T)) (U.goto i (.write (writes (Dict.keys T)))) (goto_self _ _ _) hnd
  rw [hlen, goto_goto] at hd
  refine ⟨d, ?_, h1⟩
  rw [e1, run_append, e2, run_append, ← List.replicate_add, e3, run_append, e4, run_append, ← List.replicate_add, hd, hU]
  have keep : ∀ m (t : St), t.pc i = .done (.ok true) → run t (List.replicate m (.go i)) = t := by
    intro m
    induction m with
    | zero => intro t _; rfl
    | succ m ih =>
      intro t ht
      rw [List.replicate_succ, run_cons, step_idle (Or.inr ⟨_, ht⟩)]
      exact ih t ht
  exact keep m _ (goto_self s i _)

end Uecho.Adding
