import Verif.Spec.Threads
import Mathlib.Data.List.Forall2
import Verif.Lemmas.Request

namespace Uecho
open Spec Par

theorem writes_append (a b : List Event) : writes (a ++ b) = writes a ++ writes b := List.filterMap_append
theorem storesOf_append (t : Nat) (a b : List Event) : storesOf t (a ++ b) = storesOf t a ++ storesOf t b := List.filterMap_append
theorem appWrites_append (a b : List Event) : appWrites (a ++ b) = appWrites a ++ appWrites b := List.filterMap_append

theorem _root_.Uecho.Spec.Busy.append {t : Nat} {l : List Event} (h : Busy t l) {e : Event} (he : (∀ m, e ≠ .recv t m) ∧ (∀ m r, e ≠ .answer t m r) ∧ ∀ m, e ≠ .crash t m) :
    Busy t (l ++ [e]) := by
  intro x hx
  rcases List.mem_append.mp hx with hx | hx
  · exact h x hx
  · rw [List.mem_singleton.mp hx]; exact he

theorem dataAt_eq (o : Obj) (log : List Event) (c : Int) : dataAt o log c = (lookup (afterWrites o (writes log)).props c).map OProp.data := by
  rw [lookup_afterWrites]
  unfold dataAt
  cases lookup o.props c <;> rfl

/-! ### What holds of a thread in the middle of a message -/

/-- The writes among the items. -/
def wItems (l : List (Kind × PProp)) : List PProp := l.filterMap fun x => if x.1 = .set ∨ x.1 = .write then some x.2 else none

/-- Item `x` has been served by `r`. -/
def Served (o : Obj) (before : List Event) (t : Nat) (m : Msg) (during : List Event) (x : Kind × PProp) (r : PProp) : Prop :=
  match x.1 with
  | .set => r = writeResp o (attrPolicy o) x.2
  | .write => r = writeResp o (attrPolicy o) x.2
  | .get => (lookup o.props x.2.code).isSome = true ∧ ReadBack o before t m during x.2 r
  | .read => ReadBack o before t m during x.2 r
  | .pass => r = { code := x.2.code }

theorem _root_.Uecho.Spec.ReadBack.more {o : Obj} {before : List Event} {t : Nat} {m : Msg} {during : List Event} {i r : PProp} (h : ReadBack o before t m during i r) (e : Event) :
    ReadBack o before t m (during ++ [e]) i r := by
  refine ⟨h.1, ?_⟩
  have h2 := h.2
  split
  · rename_i hc
    rw [if_pos hc] at h2
    obtain ⟨a, b, h3, h4⟩ := h2
    exact ⟨a, b ++ [e], by rw [h3, List.append_assoc], h4⟩
  · rename_i hc
    rw [if_neg hc] at h2
    exact h2

theorem Served.more {o : Obj} {before : List Event} {t : Nat} {m : Msg} {during : List Event} {x : Kind × PProp} {r : PProp} (h : Served o before t m during x r) (e : Event) :
    Served o before t m (during ++ [e]) x r := by
  obtain ⟨k, i⟩ := x
  cases k with
  | get => exact ⟨h.1, ReadBack.more h.2 e⟩
  | read => exact ReadBack.more h e
  | _ => exact h

/-- The items counted as accepted. -/
def counts (o : Obj) (x : Kind × PProp) : Bool :=
  match x.1 with
  | .set => (attrPolicy o).canWrite x.2.code x.2.data
  | .write => (attrPolicy o).canWrite x.2.code x.2.data
  | .get => (attrPolicy o).canRead x.2.code
  | .read => (attrPolicy o).canRead x.2.code
  | .pass => false

structure FrameInv (o : Obj) (t : Nat) (log : List Event) (f : Frame) (before during : List Event) (past : List (Kind × PProp)) : Prop where
  split : log = before ++ .recv t f.req :: during
  isReq : ESV.isRequest f.req.esv = true
  busy : Busy t during
  items : items f.req = past ++ f.todo
  stored : storesOf t during = acceptedWrites o (attrPolicy o) (wItems past)
  cnt : f.cnt = (past.filter (counts o)).length
  sets : List.Forall₂ (Served o (before ++ [.recv t f.req]) t f.req during) (past.filter (fun x => decide (x.1 = .set))) f.sets
  gets : List.Forall₂ (Served o (before ++ [.recv t f.req]) t f.req during) (past.filter (fun x => decide (x.1 = .get))) f.gets
  props : List.Forall₂ (Served o (before ++ [.recv t f.req]) t f.req during) (past.filter (fun x => decide (x.1 ≠ .set ∧ x.1 ≠ .get))) f.props

/-- At the head of a loop; about to store; about to load. -/
def PCInv (o : Obj) (t : Nat) (log : List Event) : PC → Prop
  | .idle => True
  | .crashed => True
  | .next f => ∃ b d p, FrameInv o t log f b d p
  | .store f k i => (∃ b d p, FrameInv o t log f b d p) ∧ (∃ l, f.todo = (k, i) :: l) ∧ (k = .set ∨ k = .write) ∧ (attrPolicy o).canWrite i.code i.data = true
  | .load f k i => (∃ b d p, FrameInv o t log f b d p) ∧ (∃ l, f.todo = (k, i) :: l) ∧ (k = .get ∨ k = .read) ∧ (attrPolicy o).canRead i.code = true

/-- What is said of a completed handling. -/
def Accounted (o : Obj) (log : List Event) (t : Nat) (m : Msg) (r : Option Msg) : Prop :=
  ∃ b d, log = b ++ .recv t m :: d ∧ Busy t d ∧
    ((ESV.isRequest m.esv = false ∧ r = none ∧ d = []) ∨
      ∃ f, f.req = m ∧ f.todo = [] ∧ r = f.result ∧ FrameInv o t log f b d (items m))

structure SysInv (o : Obj) (s : Sys) : Prop where
  obj : s.obj = afterWrites o (writes s.log)
  pcs : ∀ t, PCInv o t s.log (s.pc t)
  answers : ∀ l t m r l', s.log = l ++ .answer t m r :: l' → Accounted o l t m r
  stores : ∀ t c d, Event.store t c d ∈ s.log → (attrPolicy o).canWrite c d = true
  writers : ∀ t c d, Event.store t c d ∈ s.log → ∃ m k i, Event.recv t m ∈ s.log ∧ (k, i) ∈ items m ∧ (k = .set ∨ k = .write) ∧ i.code = c
  crashes : ∀ t m, Event.crash t m ∈ s.log → m.esv = 0x6E ∧ ∃ i ∈ m.getProps, lookup o.props i.code = none

theorem FrameInv.more {o : Obj} {t : Nat} {log : List Event} {f : Frame} {b d : List Event} {p : List (Kind × PProp)} (h : FrameInv o t log f b d p) (e : Event)
    (he : (∀ m, e ≠ .recv t m) ∧ (∀ m r, e ≠ .answer t m r) ∧ ∀ m, e ≠ .crash t m) (hs : storesOf t [e] = []) : FrameInv o t (log ++ [e]) f b (d ++ [e]) p where
  split := by rw [h.split]; simp
  isReq := h.isReq
  busy := Busy.append h.busy he
  items := h.items
  stored := by rw [storesOf_append, hs, List.append_nil]; exact h.stored
  cnt := h.cnt
  sets := h.sets.imp fun _ _ h => h.more e
  gets := h.gets.imp fun _ _ h => h.more e
  props := h.props.imp fun _ _ h => h.more e

theorem PCInv.more {o : Obj} {t : Nat} {log : List Event} {p : PC} (h : PCInv o t log p) (e : Event)
    (he : (∀ m, e ≠ .recv t m) ∧ (∀ m r, e ≠ .answer t m r) ∧ ∀ m, e ≠ .crash t m) (hs : storesOf t [e] = []) : PCInv o t (log ++ [e]) p := by
  cases p with
  | idle => trivial
  | crashed => trivial
  | next f =>
    obtain ⟨b, d, q, h⟩ := h
    exact ⟨b, _, q, h.more e he hs⟩
  | store f k i =>
    obtain ⟨⟨b, d, q, h⟩, h2⟩ := h
    exact ⟨⟨b, _, q, h.more e he hs⟩, h2⟩
  | load f k i =>
    obtain ⟨⟨b, d, q, h⟩, h2⟩ := h
    exact ⟨⟨b, _, q, h.more e he hs⟩, h2⟩

/-- Serving one more item. -/
theorem FrameInv.push {o : Obj} {t : Nat} {log : List Event} {f : Frame} {b d : List Event} {p : List (Kind × PProp)} (h : FrameInv o t log f b d p)
    {k : Kind} {i : PProp} {l : List (Kind × PProp)} (ht : f.todo = (k, i) :: l) (r : PProp) (n : Nat) (log' : List Event) (d' : List Event)
    (hlog : log' = b ++ .recv t f.req :: d') (hd : ∃ x, d' = d ++ x) (hb : Busy t d')
    (hst : storesOf t d' = acceptedWrites o (attrPolicy o) (wItems (p ++ [(k, i)])))
    (hn : n = if counts o (k, i) = true then 1 else 0) (hr : Served o (b ++ [.recv t f.req]) t f.req d' (k, i) r) :
    FrameInv o t log' (f.push k r n) b d' (p ++ [(k, i)]) := by
  obtain ⟨x, rfl⟩ := hd
  have hmore : ∀ y z, Served o (b ++ [.recv t f.req]) t f.req d y z → Served o (b ++ [.recv t f.req]) t f.req (d ++ x) y z := by
    intro y z
    clear hlog hb hst hr
    induction x using List.reverseRecOn with
    | nil => rw [List.append_nil]; exact id
    | append_singleton x e ih => intro hh; rw [← List.append_assoc]; exact (ih hh).more e
  have hreq : (f.push k r n).req = f.req := by cases k <;> rfl
  have htodo : (f.push k r n).todo = l := by
    have : (f.push k r n).todo = f.todo.tail := by cases k <;> rfl
    rw [this, ht]; rfl
  have hcnt : (f.push k r n).cnt = f.cnt + n := by cases k <;> rfl
  refine ⟨by rw [hreq]; exact hlog, by rw [hreq]; exact h.isReq, hb, by rw [hreq, htodo, h.items, ht]; simp, hst, ?_, ?_, ?_, ?_⟩
  · rw [hcnt, h.cnt, hn, List.filter_append, List.length_append]
    congr 1
    by_cases hc : counts o (k, i) = true
    · rw [if_pos hc, List.filter_cons_of_pos hc]; rfl
    · rw [if_neg hc, List.filter_cons_of_neg hc]; rfl
  · rw [hreq, List.filter_append]
    have := h.sets.imp fun _ _ h => hmore _ _ h
    cases k with
    | set => exact List.rel_append this (.cons hr .nil)
    | _ => simpa [Frame.push] using this
  · rw [hreq, List.filter_append]
    have := h.gets.imp fun _ _ h => hmore _ _ h
    cases k with
    | get => exact List.rel_append this (.cons hr .nil)
    | _ => simpa [Frame.push] using this
  · rw [hreq, List.filter_append]
    have := h.props.imp fun _ _ h => hmore _ _ h
    cases k with
    | set => simpa [Frame.push] using this
    | get => simpa [Frame.push] using this
    | read => exact List.rel_append this (.cons hr .nil)
    | write => exact List.rel_append this (.cons hr .nil)
    | pass => exact List.rel_append this (.cons hr .nil)

theorem split_last {α : Type} {log l l' : List α} {e x : α} (h : log ++ [e] = l ++ x :: l') :
    (l' = [] ∧ e = x ∧ l = log) ∨ ∃ l'', l' = l'' ++ [e] ∧ log = l ++ x :: l'' := by
  rcases List.eq_nil_or_concat l' with rfl | ⟨l'', y, rfl⟩
  · have := List.append_inj' h rfl
    exact .inl ⟨rfl, by simpa using this.2, this.1.symm⟩
  · rw [List.concat_eq_append, ← List.cons_append, ← List.append_assoc] at h
    have := List.append_inj' h rfl
    have h2 : e = y := by simpa using this.2
    subst h2
    exact .inr ⟨l'', List.concat_eq_append, this.1⟩

/-! ### Steps that are seen by nobody, and the others -/

theorem SysInv.silent {o : Obj} {s : Sys} (h : SysInv o s) (t : Nat) (p : PC) (hp : PCInv o t s.log p) : SysInv o (s.goto t p) where
  obj := h.obj
  pcs := by
    intro u
    show PCInv o u s.log (if u = t then p else s.pc u)
    split
    · rename_i e; rw [e]; exact hp
    · exact h.pcs u
  answers := h.answers
  stores := h.stores
  writers := h.writers
  crashes := h.crashes

theorem SysInv.seen {o : Obj} {s : Sys} (h : SysInv o s) (e : Event) (s' : Sys) (hlog : s'.log = s.log ++ [e]) (hobj : s'.obj = afterWrites s.obj (writes [e]))
    (hpc : ∀ u, PCInv o u (s.log ++ [e]) (s'.pc u)) (ha : ∀ t m r, e = .answer t m r → Accounted o s.log t m r)
    (hs : ∀ t c d, e = .store t c d → (attrPolicy o).canWrite c d = true ∧ ∃ m k i, Event.recv t m ∈ s.log ∧ (k, i) ∈ items m ∧ (k = .set ∨ k = .write) ∧ i.code = c)
    (hc : ∀ t m, e = .crash t m → m.esv = 0x6E ∧ ∃ i ∈ m.getProps, lookup o.props i.code = none) : SysInv o s' where
  obj := by rw [hobj, h.obj, afterWrites_append, hlog, writes_append]
  pcs := by rw [hlog]; exact hpc
  answers := by
    intro l t m r l' he
    rw [hlog] at he
    rcases split_last he with ⟨-, h1, h2⟩ | ⟨l'', -, h1⟩
    · rw [h2]; exact ha t m r h1
    · exact h.answers l t m r l'' h1
  stores := by
    intro t c d he
    rw [hlog] at he
    rcases List.mem_append.mp he with he | he
    · exact h.stores t c d he
    · exact (hs t c d (List.mem_singleton.mp he).symm).1
  writers := by
    intro t c d he
    rw [hlog] at he ⊢
    have : ∃ m k i, Event.recv t m ∈ s.log ∧ (k, i) ∈ items m ∧ (k = .set ∨ k = .write) ∧ i.code = c := by
      rcases List.mem_append.mp he with he | he
      · exact h.writers t c d he
      · exact (hs t c d (List.mem_singleton.mp he).symm).2
    obtain ⟨m, k, i, h1, h2⟩ := this
    exact ⟨m, k, i, List.mem_append_left _ h1, h2⟩
  crashes := by
    intro t m he
    rw [hlog] at he
    rcases List.mem_append.mp he with he | he
    · exact h.crashes t m he
    · exact hc t m (List.mem_singleton.mp he).symm

/-- The threads an event says nothing about. -/
theorem SysInv.others {o : Obj} {s : Sys} (h : SysInv o s) (e : Event) (t : Nat) (p : PC) (hp : PCInv o t (s.log ++ [e]) p)
    (he : ∀ u, u ≠ t → ((∀ m, e ≠ .recv u m) ∧ (∀ m r, e ≠ .answer u m r) ∧ ∀ m, e ≠ .crash u m) ∧ storesOf u [e] = []) (u : Nat) :
    PCInv o u (s.log ++ [e]) (if u = t then p else s.pc u) := by
  split
  · rename_i x; rw [x]; exact hp
  · rename_i x
    exact (h.pcs u).more e (he u x).1 (he u x).2

/-! ### Permissions do not change -/

theorem superWrite_now {o : Obj} (hw : WellFormed o) (W : List PProp) (c : Int) (p : OProp) (hp : lookup (afterWrites o W).props c = some p) (d : Bytes) :
    (afterWrites o W).superWrite p = .ok ((attrPolicy o).canWrite c d) := by
  have hc := code_of_lookup (wf_afterWrites o W hw) hp
  obtain ⟨q, h1, h2, h3, h4, h5⟩ := lookup_some_of_skeleton (skeleton_afterWrites o W) hp
  unfold Obj.superWrite attrPolicy
  rw [getProperty_eq, hc, hp]
  simp only [h1]
  rw [isWriteEnabled_eq]
  congr 1
  rw [decide_eq_decide]
  unfold CanWrite
  rw [h4]

theorem superRead_now {o : Obj} (hw : WellFormed o) (W : List PProp) (c : Int) (p : OProp) (hp : lookup (afterWrites o W).props c = some p) :
    (afterWrites o W).superRead (some p) = .ok ((attrPolicy o).canRead c) := by
  have hc := code_of_lookup (wf_afterWrites o W hw) hp
  obtain ⟨q, h1, h2, h3, h4, h5⟩ := lookup_some_of_skeleton (skeleton_afterWrites o W) hp
  unfold Obj.superRead attrPolicy
  simp only []
  rw [getProperty_eq, hc, hp]
  simp only [h1]
  rw [isReadEnabled_eq]
  congr 1
  rw [decide_eq_decide]
  unfold CanRead
  rw [h3]

theorem lookup_now {o : Obj} (W : List PProp) (c : Int) : lookup (afterWrites o W).props c = none ↔ lookup o.props c = none := by
  have := isSome_of_skeleton (skeleton_afterWrites o W) c
  cases h1 : lookup o.props c <;> cases h2 : lookup (afterWrites o W).props c <;> simp_all

theorem no_policy {o : Obj} {c : Int} (h : lookup o.props c = none) : (attrPolicy o).canRead c = false ∧ ∀ d, (attrPolicy o).canWrite c d = false := by
  unfold attrPolicy
  simp only [h]
  exact ⟨trivial, fun _ => trivial⟩

theorem known_of_canWrite {o : Obj} {c : Int} {d : Bytes} (h : (attrPolicy o).canWrite c d = true) : (lookup o.props c).isSome = true := by
  cases hl : lookup o.props c with
  | none => rw [(no_policy hl).2] at h; cases h
  | some p => rfl

theorem known_of_canRead {o : Obj} {c : Int} (h : (attrPolicy o).canRead c = true) : (lookup o.props c).isSome = true := by
  cases hl : lookup o.props c with
  | none => rw [(no_policy hl).1] at h; cases h
  | some p => rfl

theorem wItems_append (a b : List (Kind × PProp)) : wItems (a ++ b) = wItems a ++ wItems b := List.filterMap_append

/-- An item for which nothing is stored. -/
theorem FrameInv.quiet {o : Obj} {t : Nat} {log : List Event} {f : Frame} {b d : List Event} {p : List (Kind × PProp)} (h : FrameInv o t log f b d p)
    {k : Kind} {i : PProp} {l : List (Kind × PProp)} (ht : f.todo = (k, i) :: l) (r : PProp) (n : Nat)
    (hst : (k = .set ∨ k = .write) → (attrPolicy o).canWrite i.code i.data = false)
    (hn : n = if counts o (k, i) = true then 1 else 0) (hr : Served o (b ++ [.recv t f.req]) t f.req d (k, i) r) :
    FrameInv o t log (f.push k r n) b d (p ++ [(k, i)]) := by
  refine h.push ht r n log d h.split ⟨[], by simp⟩ h.busy ?_ hn hr
  rw [wItems_append, acceptedWrites_append, ← h.stored]
  have : acceptedWrites o (attrPolicy o) (wItems [(k, i)]) = [] := by
    by_cases hk : k = .set ∨ k = .write
    · simp [wItems, hk, acceptedWrites, hst hk]
    · simp [wItems, hk, acceptedWrites]
  rw [this, List.append_nil]

/-- When reading begins, all writes of the request have been made. -/
theorem all_stored {m : Msg} {past l : List (Kind × PProp)} {k : Kind} {i : PProp} (h : items m = past ++ (k, i) :: l) (hk : k = .get ∨ k = .read) :
    wItems past = writeItems m := by
  unfold items at h
  have hw : ESV.isWriteReadRequest m.esv = true ↔ m.esv = 0x6E := by
    unfold ESV.isWriteReadRequest ESV.WRITE_READ_REQUEST
    by_cases c : m.esv = 0x6E <;> simp [c]
  by_cases c : m.esv = 0x6E
  · rw [if_pos (hw.mpr c)] at h
    have : writeItems m = m.setProps := by unfold writeItems; rw [if_neg (by omega), if_pos c]
    rw [this]
    have hw2 : wItems (items m) = m.setProps := by
      unfold items
      rw [if_pos (hw.mpr c), wItems_append]
      simp [wItems, List.filterMap_map]
    have hrest : ∀ x ∈ l, x.1 = .get := by
      -- everything after a get is a get
      rcases List.append_eq_append_iff.mp h with ⟨a, h1, h2⟩ | ⟨a, h1, h2⟩
      · intro x hx
        have : x ∈ m.getProps.map (Prod.mk Kind.get) := by rw [h2]; simp [hx]
        obtain ⟨y, -, rfl⟩ := List.mem_map.mp this
        rfl
      · cases a with
        | nil =>
          intro x hx
          have : x ∈ m.getProps.map (Prod.mk Kind.get) := by rw [← List.nil_append (m.getProps.map _), ← h2]; simp [hx]
          obtain ⟨y, -, rfl⟩ := List.mem_map.mp this
          rfl
        | cons y a =>
          rw [List.cons_append] at h2
          injection h2 with h2 _
          have : y ∈ m.setProps.map (Prod.mk Kind.set) := by rw [h1]; simp
          obtain ⟨z, -, e⟩ := List.mem_map.mp this
          rw [← h2] at e
          injection e with e _
          subst e
          rcases hk with hk | hk <;> cases hk
    have hi : items m = past ++ (k, i) :: l := by unfold items; rw [if_pos (hw.mpr c)]; exact h
    rw [hi, wItems_append] at hw2
    have hz : wItems ((k, i) :: l) = [] := by
      unfold wItems
      rw [List.filterMap_eq_nil_iff]
      intro x hx
      rcases List.mem_cons.mp hx with rfl | hx
      · rcases hk with rfl | rfl <;> rfl
      · rw [hrest x hx]; rfl
    rw [hz, List.append_nil] at hw2
    exact hw2
  · rw [if_neg (by rw [hw]; exact c)] at h
    have hmem : (k, i) ∈ m.props.map (Prod.mk (if ESV.isReadRequest m.esv = true then Kind.read else if ESV.isWriteRequest m.esv = true then Kind.write else Kind.pass)) := by
      rw [h]; simp
    obtain ⟨x, -, e⟩ := List.mem_map.mp hmem
    injection e with e _
    have hread : ESV.isReadRequest m.esv = true := by
      by_contra hc
      rw [if_neg hc] at e
      split at e <;> (subst e; rcases hk with hk | hk <;> cases hk)
    have hesv : m.esv = 0x62 := by
      unfold ESV.isReadRequest ESV.READ_REQUEST ESV.WRITE_READ_REQUEST at hread
      by_contra hc
      rw [if_neg hc, if_neg c] at hread
      cases hread
    have : writeItems m = [] := by unfold writeItems; rw [if_neg (by omega), if_neg c]
    rw [this]
    unfold wItems
    rw [List.filterMap_eq_nil_iff]
    intro y hy
    have : y ∈ m.props.map (Prod.mk Kind.read) := by
      rw [if_pos hread] at h
      rw [h]; simp [hy]
    obtain ⟨z, -, rfl⟩ := List.mem_map.mp this
    rfl


/-! ### Every step -/

theorem kind_write {m : Msg} {k : Kind} {i : PProp} {past l : List (Kind × PProp)} (h : items m = past ++ (k, i) :: l) (hk : k = .get) :
    m.esv = 0x6E ∧ i ∈ m.getProps := by
  subst hk
  have hmem : (Kind.get, i) ∈ items m := by rw [h]; simp
  unfold items at hmem
  split at hmem
  · rename_i c
    have : m.esv = 0x6E := by
      unfold ESV.isWriteReadRequest ESV.WRITE_READ_REQUEST at c
      by_contra hc
      rw [if_neg hc] at c
      cases c
    refine ⟨this, ?_⟩
    rcases List.mem_append.mp hmem with h | h
    · obtain ⟨x, -, e⟩ := List.mem_map.mp h
      injection e with e _
      cases e
    · obtain ⟨x, hx, e⟩ := List.mem_map.mp h
      injection e with _ e
      rw [← e]; exact hx
  · obtain ⟨x, -, e⟩ := List.mem_map.mp hmem
    injection e with e _
    split at e
    · cases e
    · split at e <;> cases e

theorem check_inv {o : Obj} (hw : WellFormed o) {s : Sys} (hi : SysInv o s) (t : Nat) (f : Frame) (hpc : s.pc t = .next f) : SysInv o (s.check t f) := by
  have hp := hi.pcs t
  rw [hpc] at hp
  obtain ⟨b, d, past, hf⟩ := hp
  have hcrash : ∀ i l, f.todo = (Kind.get, i) :: l → lookup o.props i.code = none → SysInv o ((s.goto t .crashed).emit (.crash t f.req)) := by
    intro i l ht hn
    obtain ⟨h1, h2⟩ := kind_write (by rw [hf.items, ht] : items f.req = past ++ (Kind.get, i) :: l) rfl
    refine hi.seen (.crash t f.req) _ rfl (afterWrites_nil _).symm (fun u => hi.others (.crash t f.req) t .crashed trivial ?_ u)
      (fun _ _ _ e => (by cases e)) (fun _ _ _ e => (by cases e)) ?_
    · intro u hu
      exact ⟨⟨fun _ e => (by cases e), fun _ _ e => (by cases e), fun _ e => (by injection e with e; exact hu e.symm)⟩, rfl⟩
    · intro u m e
      injection e with _ e
      rw [← e]
      exact ⟨h1, i, h2, hn⟩
  -- items about writing
  have hwrite : ∀ k i l, f.todo = (k, i) :: l → (k = .set ∨ k = .write) →
      (lookup s.obj.props i.code = none → SysInv o (s.goto t (.next (f.push k { code := i.code } 0)))) ∧
      (∀ p, lookup s.obj.props i.code = some p →
        (s.obj.superWrite p = .ok true → SysInv o (s.goto t (.store f k i))) ∧
        (s.obj.superWrite p = .ok false → SysInv o (s.goto t (.next (f.push k { code := i.code, data := i.data } 0)))) ∧
        ∀ e, s.obj.superWrite p ≠ .error e) := by
    intro k i l ht hk
    constructor
    · intro hn
      rw [hi.obj, lookup_now] at hn
      apply hi.silent
      have hz := (no_policy hn).2 i.data
      refine ⟨b, d, _, hf.quiet ht _ 0 (fun _ => hz) ?_ ?_⟩
      · rcases hk with rfl | rfl <;> simp [counts, hz]
      · rcases hk with rfl | rfl <;> simp [Served, writeResp, hn]
    · intro p hp
      have hs : s.obj.superWrite p = .ok ((attrPolicy o).canWrite i.code i.data) := by
        rw [hi.obj] at hp ⊢
        exact superWrite_now hw _ _ p hp _
      refine ⟨?_, ?_, ?_⟩
      · intro h
        rw [hs] at h
        injection h with h
        exact hi.silent t _ ⟨⟨b, d, past, hf⟩, ⟨l, ht⟩, hk, h⟩
      · intro h
        rw [hs] at h
        injection h with h
        apply hi.silent
        have hkn : (lookup o.props i.code).isSome = true := by
          cases hl : lookup o.props i.code with
          | none => rw [hi.obj, (lookup_now _ _).mpr hl] at hp; cases hp
          | some _ => rfl
        refine ⟨b, d, _, hf.quiet ht _ 0 (fun _ => h) ?_ ?_⟩
        · rcases hk with rfl | rfl <;> simp [counts, h]
        · rcases hk with rfl | rfl <;> simp [Served, writeResp, hkn, h]
      · intro e h
        rw [hs] at h
        cases h
  -- items about reading
  have hread : ∀ k i l, f.todo = (k, i) :: l → (k = .get ∨ k = .read) → ∀ p, lookup s.obj.props i.code = some p →
        (s.obj.superRead (some p) = .ok true → SysInv o (s.goto t (.load f k i))) ∧
        (s.obj.superRead (some p) = .ok false → SysInv o (s.goto t (.next (f.push k { code := i.code } 0)))) ∧
        ∀ e, s.obj.superRead (some p) ≠ .error e := by
    intro k i l ht hk p hp
    have hs : s.obj.superRead (some p) = .ok ((attrPolicy o).canRead i.code) := by
      rw [hi.obj] at hp ⊢
      exact superRead_now hw _ _ p hp
    refine ⟨?_, ?_, ?_⟩
    · intro h
      rw [hs] at h
      injection h with h
      exact hi.silent t _ ⟨⟨b, d, past, hf⟩, ⟨l, ht⟩, hk, h⟩
    · intro h
      rw [hs] at h
      injection h with h
      apply hi.silent
      have hkn : (lookup o.props i.code).isSome = true := by
        cases hl : lookup o.props i.code with
        | none => rw [hi.obj, (lookup_now _ _).mpr hl] at hp; cases hp
        | some _ => rfl
      refine ⟨b, d, _, hf.quiet ht _ 0 ?_ ?_ ?_⟩
      · rcases hk with rfl | rfl <;> (intro hh; rcases hh with hh | hh <;> cases hh)
      · rcases hk with rfl | rfl <;> simp [counts, h]
      · rcases hk with rfl | rfl <;> simp [Served, ReadBack, hkn, h]
    · intro e h
      rw [hs] at h
      cases h
  unfold Sys.check
  split
  · rename_i ht
    refine hi.seen (.answer t f.req f.result) _ rfl (afterWrites_nil _).symm (fun u => hi.others (.answer t f.req f.result) t .idle trivial ?_ u)
      ?_ (fun _ _ _ e => (by cases e)) (fun _ _ e => (by cases e))
    · intro u hu
      exact ⟨⟨fun _ e => (by cases e), fun _ _ e => (by injection e with e; exact hu e.symm), fun _ e => (by cases e)⟩, rfl⟩
    · intro u m r e
      injection e with e1 e2 e3
      subst e1 e2 e3
      have hpast : items f.req = past := by rw [hf.items, ht, List.append_nil]
      exact ⟨b, d, hf.split, hf.busy, .inr ⟨f, rfl, ht, rfl, by rw [hpast]; exact hf⟩⟩
  · rename_i i l ht
    obtain ⟨h1, h2⟩ := hwrite .set i l ht (.inl rfl)
    rw [getProperty_eq]
    split
    · rename_i hg; exact h1 hg
    · rename_i p hg
      obtain ⟨a, b, c⟩ := h2 p hg
      split
      · rename_i hx; exact absurd hx (c _)
      · rename_i hx; exact a hx
      · rename_i hx; exact b hx
  · rename_i i l ht
    rw [getProperty_eq]
    cases hl : lookup s.obj.props i.code with
    | none =>
      have : s.obj.superRead none = .error .attributeError := rfl
      rw [this]
      rw [hi.obj, lookup_now] at hl
      exact hcrash i l ht hl
    | some p =>
      obtain ⟨a, b, c⟩ := hread .get i l ht (.inl rfl) p hl
      split
      · rename_i hx; exact absurd hx (c _)
      · rename_i hx; exact a hx
      · rename_i hx; exact b hx
  · rename_i i l ht
    rw [getProperty_eq]
    split
    · rename_i hn
      rw [hi.obj, lookup_now] at hn
      apply hi.silent
      have hz := (no_policy hn).1
      refine ⟨b, d, _, hf.quiet ht _ 0 ?_ ?_ ?_⟩
      · intro hh; rcases hh with hh | hh <;> cases hh
      · simp [counts, hz]
      · simp [Served, ReadBack, hz]
    · rename_i p hg
      obtain ⟨a, b, c⟩ := hread .read i l ht (.inr rfl) p hg
      split
      · rename_i hx; exact absurd hx (c _)
      · rename_i hx; exact a hx
      · rename_i hx; exact b hx
  · rename_i i l ht
    obtain ⟨h1, h2⟩ := hwrite .write i l ht (.inr rfl)
    rw [getProperty_eq]
    split
    · rename_i hg; exact h1 hg
    · rename_i p hg
      obtain ⟨a, b, c⟩ := h2 p hg
      split
      · rename_i hx; exact absurd hx (c _)
      · rename_i hx; exact a hx
      · rename_i hx; exact b hx
  · rename_i i l ht
    apply hi.silent
    refine ⟨b, d, _, hf.quiet ht _ 0 ?_ ?_ ?_⟩
    · intro hh; rcases hh with hh | hh <;> cases hh
    · simp [counts]
    · simp [Served]

theorem parRun_inv {o : Obj} (hw : WellFormed o) {s s' : Sys} (hi : SysInv o s) (t : Nat) (h : s.run t = some s') : SysInv o s' := by
  unfold Sys.run at h
  split at h
  · cases h
  · cases h
  · rename_i f hpc
    injection h with h
    rw [← h]
    exact check_inv hw hi t f hpc
  · rename_i f k i hpc
    injection h with h
    rw [← h]
    have hp := hi.pcs t
    rw [hpc] at hp
    obtain ⟨⟨b, d, past, hf⟩, ⟨l, ht⟩, hk, hcan⟩ := hp
    have hn : (s.obj.props.map Prod.fst).Nodup := by rw [hi.obj, keys_afterWrites]; exact hw.1
    refine hi.seen (.store t i.code i.data) _ rfl (storeData_eq _ _ _ hn) (fun u => hi.others (.store t i.code i.data) t _ ?_ ?_ u)
      (fun _ _ _ e => (by cases e)) ?_ (fun _ _ e => (by cases e))
    · have hne : ∀ u, (∀ m, Event.store t i.code i.data ≠ .recv u m) ∧ (∀ m r, Event.store t i.code i.data ≠ .answer u m r) ∧ ∀ m, Event.store t i.code i.data ≠ .crash u m :=
        fun u => ⟨fun _ e => (by cases e), fun _ _ e => (by cases e), fun _ e => (by cases e)⟩
      refine ⟨b, d ++ [.store t i.code i.data], _, hf.push ht _ 1 _ _ (by rw [hf.split]; simp) ⟨_, rfl⟩ (Busy.append hf.busy (hne t)) ?_ ?_ ?_⟩
      · rw [storesOf_append, hf.stored, wItems_append, acceptedWrites_append]
        congr 1
        have hkn := known_of_canWrite hcan
        have : wItems [(k, i)] = [i] := by rcases hk with rfl | rfl <;> rfl
        rw [this]
        simp [acceptedWrites, hkn, hcan, storesOf]
      · rcases hk with rfl | rfl <;> simp [counts, hcan]
      · rcases hk with rfl | rfl <;> simp [Served, writeResp, hcan]
    · intro u hu
      refine ⟨⟨fun _ e => (by cases e), fun _ _ e => (by cases e), fun _ e => (by cases e)⟩, ?_⟩
      simp [storesOf, Ne.symm hu]
    · intro u c dd e
      injection e with e0 e1 e2
      rw [← e0, ← e1, ← e2]
      exact ⟨hcan, f.req, k, i, by rw [hf.split]; simp, by rw [hf.items, ht]; simp, hk, rfl⟩
  · rename_i f k i hpc
    have hp := hi.pcs t
    rw [hpc] at hp
    obtain ⟨⟨b, d, past, hf⟩, ⟨l, ht⟩, hk, hcan⟩ := hp
    have hdata : s.obj.getPropertyData i.code = dataAt o s.log i.code := by
      rw [dataAt_eq, ← hi.obj]
      unfold Obj.getPropertyData
      rw [lookup_eq]
      cases Dict.get? s.obj.props i.code <;> rfl
    have hkn := known_of_canRead hcan
    obtain ⟨p, hp⟩ := Option.isSome_iff_exists.mp hkn
    split at h
    · rename_i dd hd
      injection h with h
      rw [← h]
      apply hi.silent
      refine ⟨b, d, _, hf.quiet ht _ 1 ?_ ?_ ?_⟩
      · rcases hk with rfl | rfl <;> (intro hh; rcases hh with hh | hh <;> cases hh)
      · rcases hk with rfl | rfl <;> simp [counts, hcan]
      · have hrb : ReadBack o (b ++ [.recv t f.req]) t f.req d i { code := i.code, data := dd } := by
          refine ⟨rfl, ?_⟩
          rw [if_pos hcan]
          refine ⟨d, [], by simp, ?_, ?_⟩
          · rw [hf.stored, all_stored (by rw [hf.items, ht] : items f.req = past ++ (k, i) :: l) hk]
          · rw [List.append_assoc]
            show dataAt o (b ++ .recv t f.req :: d) i.code = some dd
            rw [← hf.split, ← hdata, hd]
        rcases hk with rfl | rfl
        · exact ⟨hkn, hrb⟩
        · exact hrb
    · rename_i hd
      rw [hdata] at hd
      unfold dataAt at hd
      rw [hp] at hd
      cases hd

theorem recv_inv {o : Obj} (hh : o.handler = .self_) {s s' : Sys} (hi : SysInv o s) (t : Nat) (m : Msg) (h : s.recv t m = some s') : SysInv o s' := by
  unfold Sys.recv at h
  split at h
  swap
  · cases h
  rename_i hpc
  have hhs : s.obj.handler = .self_ := by rw [hi.obj]; exact hh
  have h1 : SysInv o (s.emit (.recv t m)) := by
    refine hi.seen (.recv t m) _ rfl (afterWrites_nil _).symm ?_ (fun _ _ _ e => (by cases e)) (fun _ _ _ e => (by cases e)) (fun _ _ e => (by cases e))
    intro u
    have := hi.others (.recv t m) t .idle trivial (by
      intro u hu
      exact ⟨⟨fun _ e => (by injection e with e; exact hu e.symm), fun _ _ e => (by cases e), fun _ e => (by cases e)⟩, rfl⟩) u
    show PCInv o u (s.log ++ [.recv t m]) (s.pc u)
    split at this
    · rename_i e; rw [e, hpc]; trivial
    · exact this
  split at h
  · rename_i hr
    injection h with h
    rw [← h]
    refine h1.seen (.answer t m none) _ rfl (afterWrites_nil _).symm ?_ ?_ (fun _ _ _ e => (by cases e)) (fun _ _ e => (by cases e))
    · intro u
      have := h1.others (.answer t m none) t .idle trivial (by
        intro u hu
        exact ⟨⟨fun _ e => (by cases e), fun _ _ e => (by injection e with e; exact hu e.symm), fun _ e => (by cases e)⟩, rfl⟩) u
      show PCInv o u _ (s.pc u)
      split at this
      · rename_i e; rw [e, hpc]; trivial
      · exact this
    · intro u m' r e
      injection e with e1 e2 e3
      subst e1 e2 e3
      exact ⟨s.log, [], rfl, (fun _ h => by cases h), .inl ⟨hr, rfl, rfl⟩⟩
  · rename_i hr
    rw [hhs, if_neg (by simp)] at h
    injection h with h
    rw [← h]
    apply h1.silent
    exact ⟨s.log, [], [], rfl, by simpa using hr, (fun _ h => by cases h), rfl, rfl, rfl, .nil, .nil, .nil⟩

theorem app_inv {o : Obj} (hw : WellFormed o) {s : Sys} (hi : SysInv o s) (c : Int) (d : Bytes) : SysInv o (s.app c d) := by
  have hn : (s.obj.props.map Prod.fst).Nodup := by rw [hi.obj, keys_afterWrites]; exact hw.1
  refine hi.seen (.app c d) _ rfl ?_ ?_ (fun _ _ _ e => (by cases e)) (fun _ _ _ e => (by cases e)) (fun _ _ e => (by cases e))
  · show (s.obj.setPropertyData c d).1 = afterWrites s.obj [{ code := c, data := d }]
    rw [← storeData_eq _ _ _ hn]
    unfold Obj.setPropertyData
    split
    · rename_i hg
      rw [storeData_eq _ _ _ hn]
      unfold afterWrites
      have : ∀ kp ∈ s.obj.props, kp = (kp.1, { kp.2 with data := (lastFor [{ code := c, data := d }] kp.1).getD kp.2.data }) := by
        intro kp hkp
        have hne : c ≠ kp.1 := by
          intro e
          have h1 := Dict.get?_of_mem s.obj.props kp.1 kp.2 hn hkp
          unfold Obj.getProperty at hg
          rw [e, h1] at hg
          cases hg
        have : lastFor [{ code := c, data := d }] kp.1 = none := by simp [lastFor, hne]
        rw [this]
        rfl
      have h2 : s.obj.props.map (fun kp => (kp.1, { kp.2 with data := (lastFor [{ code := c, data := d }] kp.1).getD kp.2.data })) = s.obj.props := by
        conv_rhs => rw [← List.map_id s.obj.props]
        exact List.map_congr_left fun kp hkp => (this kp hkp).symm
      rw [h2]
    · rfl
  · intro u
    exact (hi.pcs u).more (.app c d) ⟨fun _ e => (by cases e), fun _ _ e => (by cases e), fun _ e => (by cases e)⟩ rfl

theorem exec_inv {o : Obj} (hw : WellFormed o) (hh : o.handler = .self_) (acts : List Act) : ∀ s s', SysInv o s → s.exec acts = some s' → SysInv o s' := by
  induction acts with
  | nil => intro s s' hi h; injection h with h; rw [← h]; exact hi
  | cons a l ih =>
    intro s s' hi h
    unfold Sys.exec at h
    split at h
    · rename_i s1 h1
      refine ih s1 s' ?_ h
      cases a with
      | recv t m => exact recv_inv hh hi t m h1
      | run t => exact parRun_inv hw hi t h1
      | app c d => injection h1 with h1; rw [← h1]; exact app_inv hw hi c d
    · cases h

theorem possible_inv {o : Obj} (hw : WellFormed o) (hh : o.handler = .self_) {s : Sys} (h : Possible o s) : SysInv o s := by
  obtain ⟨acts, h⟩ := h
  refine exec_inv hw hh acts { obj := o } s ⟨(afterWrites_nil o).symm, fun _ => trivial, ?_, ?_, ?_, ?_⟩ h
  · intro l t m r l' e
    have := congrArg List.length e
    simp at this
  · intro t c d e; cases e
  · intro t c d e; cases e
  · intro t m e; cases e

/-! ### A thread that is not interrupted -/

/-- Thread `t` alone gets from one state to another. -/
def Reaches (t : Nat) (s s' : Sys) : Prop := ∃ n, s.exec (List.replicate n (.run t)) = some s'

theorem parExec_append (a b : List Act) : ∀ s : Sys, s.exec (a ++ b) = (s.exec a).bind fun s => s.exec b := by
  induction a with
  | nil => intro s; rfl
  | cons x a ih =>
    intro s
    show (match s.act x with | some s => s.exec (a ++ b) | none => none) = Option.bind (match s.act x with | some s => s.exec a | none => none) _
    cases s.act x with
    | none => rfl
    | some s1 => exact ih s1

theorem Reaches.refl (t : Nat) (s : Sys) : Reaches t s s := ⟨0, rfl⟩

theorem Reaches.trans {t : Nat} {a b c : Sys} (h1 : Reaches t a b) (h2 : Reaches t b c) : Reaches t a c := by
  obtain ⟨n, h1⟩ := h1
  obtain ⟨k, h2⟩ := h2
  exact ⟨n + k, by rw [List.replicate_add, parExec_append, h1]; exact h2⟩

theorem Reaches.step {t : Nat} {a b : Sys} (h : a.run t = some b) : Reaches t a b := by
  refine ⟨1, ?_⟩
  show (match a.run t with | some s => some s | none => none) = some b
  rw [h]

theorem run_next {s : Sys} {t : Nat} {f : Frame} (h : s.pc t = .next f) : s.run t = some (s.check t f) := by
  unfold Sys.run; rw [h]

theorem goto_pc (s : Sys) (t : Nat) (p : PC) : (s.goto t p).pc t = p := if_pos rfl
theorem emit_pc (s : Sys) (e : Event) : (s.emit e).pc = s.pc := rfl

/-- The permission is given, and the data are stored. -/
theorem reaches_store {s : Sys} {t : Nat} {f : Frame} {k : Kind} {i : PProp} (h : s.run t = some (s.goto t (.store f k i))) :
    ∃ s', Reaches t s s' ∧ s'.obj = s.obj.storeData i.code i.data ∧ s'.pc t = .next (f.push k { code := i.code } 1) := by
  refine ⟨_, (Reaches.step h).trans (Reaches.step (by unfold Sys.run; rw [goto_pc])), rfl, ?_⟩
  rw [emit_pc, goto_pc]

theorem reaches_load {s : Sys} {t : Nat} {f : Frame} {k : Kind} {i : PProp} {d : Bytes} (h : s.run t = some (s.goto t (.load f k i)))
    (hd : s.obj.getPropertyData i.code = some d) :
    ∃ s', Reaches t s s' ∧ s'.obj = s.obj ∧ s'.pc t = .next (f.push k { code := i.code, data := d } 1) := by
  refine ⟨(s.goto t (.load f k i)).goto t (.next (f.push k { code := i.code, data := d } 1)), (Reaches.step h).trans (Reaches.step ?_), rfl, goto_pc _ _ _⟩
  unfold Sys.run
  rw [goto_pc]
  simp only []
  rw [show (s.goto t (.load f k i)).obj.getPropertyData i.code = some d from hd]

/-- The thread gets to the end of a loop of which the result is `q`: with an exception, or at the head of the next one. -/
def Ends (t : Nat) (s : Sys) (u : Nat → List PProp → Frame) : Obj × Except Exc (Nat × List PProp) → Prop
  | (o', .error _) => ∃ s', Reaches t s s' ∧ s'.obj = o' ∧ s'.pc t = .crashed
  | (o', .ok (cnt, ps)) => ∃ s', Reaches t s s' ∧ s'.obj = o' ∧ s'.pc t = .next (u cnt ps)

theorem Ends.back {t : Nat} {s s1 : Sys} {u : Nat → List PProp → Frame} {q : Obj × Except Exc (Nat × List PProp)} (h : Reaches t s s1) (h1 : Ends t s1 u q) : Ends t s u q := by
  rcases q with ⟨o', e | ⟨cnt, ps⟩⟩
  · obtain ⟨s', a, b⟩ := h1
    exact ⟨s', h.trans a, b⟩
  · obtain ⟨s', a, b⟩ := h1
    exact ⟨s', h.trans a, b⟩

theorem superWrite_ok (o : Obj) (p : OProp) : ∃ b, o.superWrite p = .ok b := by
  unfold Obj.superWrite
  split
  · exact ⟨_, rfl⟩
  · exact ⟨_, rfl⟩

theorem superRead_ok (o : Obj) (p : OProp) : ∃ b, o.superRead (some p) = .ok b := by
  unfold Obj.superRead
  simp only []
  split
  · exact ⟨_, rfl⟩
  · exact ⟨_, rfl⟩

theorem data_of_known {o : Obj} {c : Int} {p : OProp} (h : o.getProperty c = some p) : o.getPropertyData c = some p.data := by
  unfold Obj.getPropertyData
  rw [show o.props.get? c = some p from h]

theorem alone_set (env : Env) (t : Nat) (its : List PProp) : ∀ (s : Sys) (f : Frame) (rest : List (Kind × PProp)),
    s.pc t = .next f → f.todo = its.map (Prod.mk .set) ++ rest → s.obj.handler = .self_ →
    Ends t s (fun cnt ps => { f with todo := rest, cnt := cnt, sets := ps }) (Obj.setLoop env s.obj its f.cnt f.sets) := by
  induction its with
  | nil =>
    intro s f rest h1 h2 h3
    exact ⟨s, .refl t s, rfl, by rw [h1, ← show f.todo = rest from h2]⟩
  | cons i its ih =>
    intro s f rest h1 h2 h3
    have hrun := run_next h1
    unfold Sys.check at hrun
    rw [h2] at hrun
    simp only [List.map_cons, List.cons_append] at hrun
    have hpt : f.todo.tail = its.map (Prod.mk .set) ++ rest := by rw [h2]; rfl
    unfold Obj.setLoop
    cases hg : s.obj.getProperty i.code with
    | none =>
      rw [hg] at hrun
      exact Ends.back (Reaches.step hrun) (ih _ (f.push .set { code := i.code } 0) rest (goto_pc _ _ _) hpt h3)
    | some p =>
      rw [hg] at hrun
      simp only [] at hrun ⊢
      rw [show s.obj.callWrite env p i.data = (s.obj, s.obj.superWrite p) by unfold Obj.callWrite; rw [h3]]
      obtain ⟨b, hb⟩ := superWrite_ok s.obj p
      rw [hb] at hrun ⊢
      cases b with
      | true =>
        obtain ⟨s1, r1, r2, r3⟩ := reaches_store hrun
        refine Ends.back r1 ?_
        have := ih s1 _ rest r3 hpt (by rw [r2]; exact h3)
        rw [r2] at this
        exact this
      | false =>
        exact Ends.back (Reaches.step hrun) (ih _ (f.push .set { code := i.code, data := i.data } 0) rest (goto_pc _ _ _) hpt h3)

theorem alone_get (env : Env) (t : Nat) (its : List PProp) : ∀ (s : Sys) (f : Frame),
    s.pc t = .next f → f.todo = its.map (Prod.mk .get) → s.obj.handler = .self_ →
    Ends t s (fun cnt ps => { f with todo := [], cnt := cnt, gets := ps }) (Obj.getLoop env s.obj its f.cnt f.gets) := by
  induction its with
  | nil =>
    intro s f h1 h2 h3
    exact ⟨s, .refl t s, rfl, by rw [h1, ← show f.todo = [] from h2]⟩
  | cons i its ih =>
    intro s f h1 h2 h3
    have hrun := run_next h1
    unfold Sys.check at hrun
    rw [h2] at hrun
    simp only [List.map_cons] at hrun
    have hpt : f.todo.tail = its.map (Prod.mk .get) := by rw [h2]; rfl
    unfold Obj.getLoop
    rw [show s.obj.callRead env (s.obj.getProperty i.code) = (s.obj, s.obj.superRead (s.obj.getProperty i.code)) by unfold Obj.callRead; rw [h3]]
    cases hg : s.obj.getProperty i.code with
    | none =>
      rw [hg] at hrun
      exact ⟨_, Reaches.step hrun, rfl, goto_pc _ _ _⟩
    | some p =>
      rw [hg] at hrun
      obtain ⟨b, hb⟩ := superRead_ok s.obj p
      rw [hb] at hrun ⊢
      cases b with
      | true =>
        obtain ⟨s1, r1, r2, r3⟩ := reaches_load hrun (data_of_known hg)
        refine Ends.back r1 ?_
        have := ih s1 _ r3 hpt (by rw [r2]; exact h3)
        rw [r2] at this
        simp only []
        rw [data_of_known hg]
        exact this
      | false =>
        exact Ends.back (Reaches.step hrun) (ih _ (f.push .get { code := i.code } 0) (goto_pc _ _ _) hpt h3)

theorem alone_plain (env : Env) (t : Nat) (esv : Int) (its : List PProp) : ∀ (s : Sys) (f : Frame),
    s.pc t = .next f → f.todo = its.map (Prod.mk (if ESV.isReadRequest esv then .read else if ESV.isWriteRequest esv then .write else .pass)) →
    s.obj.handler = .self_ →
    Ends t s (fun cnt ps => { f with todo := [], cnt := cnt, props := ps }) (Obj.plainLoop env esv s.obj its f.cnt f.props) := by
  induction its with
  | nil =>
    intro s f h1 h2 h3
    exact ⟨s, .refl t s, rfl, by rw [h1, ← show f.todo = [] from h2]⟩
  | cons i its ih =>
    intro s f h1 h2 h3
    have hrun := run_next h1
    unfold Sys.check at hrun
    rw [h2] at hrun
    simp only [List.map_cons] at hrun
    have hpt := congrArg List.tail h2
    simp only [List.map_cons, List.tail_cons] at hpt
    unfold Obj.plainLoop
    by_cases hr : ESV.isReadRequest esv = true
    · rw [if_pos hr] at hrun
      simp only [] at hrun
      cases hg : s.obj.getProperty i.code with
      | none =>
        rw [hg] at hrun
        exact Ends.back (Reaches.step hrun) (ih _ (f.push .read { code := i.code } 0) (goto_pc _ _ _) hpt h3)
      | some p =>
        rw [hg] at hrun
        simp only [if_pos hr] at hrun ⊢
        rw [show s.obj.callRead env (some p) = (s.obj, s.obj.superRead (some p)) by unfold Obj.callRead; rw [h3]]
        obtain ⟨b, hb⟩ := superRead_ok s.obj p
        rw [hb] at hrun ⊢
        cases b with
        | true =>
          obtain ⟨s1, r1, r2, r3⟩ := reaches_load hrun (data_of_known hg)
          refine Ends.back r1 ?_
          have := ih s1 _ r3 hpt (by rw [r2]; exact h3)
          rw [r2] at this
          simp only []
          rw [data_of_known hg]
          exact this
        | false =>
          exact Ends.back (Reaches.step hrun) (ih _ (f.push .read { code := i.code } 0) (goto_pc _ _ _) hpt h3)
    · rw [if_neg hr] at hrun
      by_cases hwr : ESV.isWriteRequest esv = true
      · rw [if_pos hwr] at hrun
        simp only [] at hrun
        cases hg : s.obj.getProperty i.code with
        | none =>
          rw [hg] at hrun
          exact Ends.back (Reaches.step hrun) (ih _ (f.push .write { code := i.code } 0) (goto_pc _ _ _) hpt h3)
        | some p =>
          rw [hg] at hrun
          simp only [if_neg hr, if_pos hwr] at hrun ⊢
          rw [show s.obj.callWrite env p i.data = (s.obj, s.obj.superWrite p) by unfold Obj.callWrite; rw [h3]]
          obtain ⟨b, hb⟩ := superWrite_ok s.obj p
          rw [hb] at hrun ⊢
          cases b with
          | true =>
            obtain ⟨s1, r1, r2, r3⟩ := reaches_store hrun
            refine Ends.back r1 ?_
            have := ih s1 _ r3 hpt (by rw [r2]; exact h3)
            rw [r2] at this
            exact this
          | false =>
            exact Ends.back (Reaches.step hrun) (ih _ (f.push .write { code := i.code, data := i.data } 0) (goto_pc _ _ _) hpt h3)
      · rw [if_neg hwr] at hrun
        simp only [] at hrun
        have h4 := Ends.back (Reaches.step hrun) (ih _ (f.push .pass { code := i.code } 0) (goto_pc _ _ _) hpt h3)
        cases hg : s.obj.getProperty i.code with
        | none => exact h4
        | some p =>
          simp only [if_neg hr, if_neg hwr]
          exact h4

theorem setLoop_handler (env : Env) (its : List PProp) : ∀ (o : Obj) (cnt : Nat) (acc : List PProp), o.handler = .self_ → (Obj.setLoop env o its cnt acc).1.handler = .self_ := by
  induction its with
  | nil => intro o cnt acc h; exact h
  | cons i its ih =>
    intro o cnt acc h
    unfold Obj.setLoop
    split
    · exact ih _ _ _ h
    · rename_i p _
      rw [show o.callWrite env p i.data = (o, o.superWrite p) by unfold Obj.callWrite; rw [h]]
      rcases o.superWrite p with e | b
      · exact h
      · cases b with
        | true => exact ih _ _ _ h
        | false => exact ih _ _ _ h

/-- A thread that takes up a message and is not interrupted does what `Obj.handleRequest` does. -/
theorem alone (env : Env) (s : Sys) (t : Nat) (m : Msg) (hidle : s.pc t = .idle) (hh : s.obj.handler = .self_) :
    ∃ n s', s.exec (.recv t m :: List.replicate n (.run t)) = some s' ∧ s'.obj = (s.obj.handleRequest env m).1 ∧
      match (s.obj.handleRequest env m).2 with
      | .ok r => s'.pc t = .idle ∧ ∃ l, s'.log = l ++ [.answer t m r]
      | .error _ => s'.pc t = .crashed := by
  unfold Obj.handleRequest
  by_cases hr : ESV.isRequest m.esv = false
  · rw [if_pos hr]
    refine ⟨0, (s.emit (.recv t m)).emit (.answer t m none), ?_, rfl, hidle, _, rfl⟩
    have : s.recv t m = some ((s.emit (.recv t m)).emit (.answer t m none)) := by
      unfold Sys.recv
      rw [hidle]
      simp only []
      rw [if_pos hr]
    show (match s.recv t m with | some s => some s | none => none) = _
    rw [this]
  rw [if_neg hr, hh, if_neg (by simp)]
  have hrecv : s.recv t m = some ((s.emit (.recv t m)).goto t (.next { req := m, todo := items m })) := by
    unfold Sys.recv
    rw [hidle]
    simp only []
    rw [if_neg hr, hh, if_neg (by simp)]
  have hstart : ∀ s', Reaches t ((s.emit (.recv t m)).goto t (.next { req := m, todo := items m })) s' →
      ∃ n, s.exec (.recv t m :: List.replicate n (.run t)) = some s' := by
    rintro s' ⟨n, h⟩
    refine ⟨n, ?_⟩
    show (match s.recv t m with | some s => s.exec (List.replicate n (.run t)) | none => none) = _
    rw [hrecv]
    exact h
  have hfin : ∀ s1 f, s1.pc t = .next f → f.todo = [] → ∃ s', Reaches t s1 s' ∧ s'.obj = s1.obj ∧ s'.pc t = .idle ∧ ∃ l, s'.log = l ++ [.answer t f.req f.result] := by
    intro s1 f h1 h2
    have hrun := run_next h1
    unfold Sys.check at hrun
    rw [h2] at hrun
    exact ⟨_, Reaches.step hrun, rfl, goto_pc _ _ _, _, rfl⟩
  simp only []
  by_cases hw : ESV.isWriteReadRequest m.esv = true
  · rw [if_pos hw]
    have h1 := alone_set env t m.setProps ((s.emit (.recv t m)).goto t (.next { req := m, todo := items m })) _ (m.getProps.map (Prod.mk .get)) (goto_pc _ _ _)
      (by unfold items; rw [if_pos hw]) hh
    have ho : ((s.emit (.recv t m)).goto t (.next { req := m, todo := items m })).obj = s.obj := rfl
    rw [ho] at h1
    simp only [] at h1
    cases hq : Obj.setLoop env s.obj m.setProps 0 [] with
    | mk o1 x =>
      rw [hq] at h1
      rcases x with e | ⟨cnt, sps⟩
      · obtain ⟨s', a, b, c⟩ := h1
        obtain ⟨n, hn⟩ := hstart s' a
        exact ⟨n, s', hn, b, c⟩
      · obtain ⟨s1, a, b, c⟩ := h1
        have hh1 : s1.obj.handler = .self_ := by
          rw [b]
          have : o1 = (Obj.setLoop env s.obj m.setProps 0 []).1 := by rw [hq]
          rw [this]
          exact (setLoop_handler env m.setProps s.obj 0 [] hh)
        have h2 := alone_get env t m.getProps s1 _ c rfl hh1
        simp only [] at h2 ⊢
        rw [b] at h2
        cases hq2 : Obj.getLoop env o1 m.getProps cnt [] with
        | mk o2 y =>
          rw [hq2] at h2
          rcases y with e | ⟨cnt2, gps⟩
          · obtain ⟨s', a', b', c'⟩ := h2
            obtain ⟨n, hn⟩ := hstart s' (a.trans a')
            exact ⟨n, s', hn, b', c'⟩
          · obtain ⟨s2, a', b', c'⟩ := h2
            obtain ⟨s3, a3, b3, c3, l3, d3⟩ := hfin s2 _ c' rfl
            obtain ⟨n, hn⟩ := hstart s3 ((a.trans a').trans a3)
            exact ⟨n, s3, hn, b3.trans b', c3, l3, d3⟩
  · rw [if_neg hw]
    have h1 := alone_plain env t m.esv m.props ((s.emit (.recv t m)).goto t (.next { req := m, todo := items m })) _ (goto_pc _ _ _)
      (by unfold items; rw [if_neg hw]) hh
    have ho : ((s.emit (.recv t m)).goto t (.next { req := m, todo := items m })).obj = s.obj := rfl
    rw [ho] at h1
    simp only [] at h1
    cases hq : Obj.plainLoop env m.esv s.obj m.props 0 [] with
    | mk o1 x =>
      rw [hq] at h1
      rcases x with e | ⟨cnt, ps⟩
      · obtain ⟨s', a, b, c⟩ := h1
        obtain ⟨n, hn⟩ := hstart s' a
        exact ⟨n, s', hn, b, c⟩
      · obtain ⟨s2, a', b', c'⟩ := h1
        obtain ⟨s3, a3, b3, c3, l3, d3⟩ := hfin s2 _ c' rfl
        obtain ⟨n, hn⟩ := hstart s3 (a'.trans a3)
        exact ⟨n, s3, hn, b3.trans b', c3, l3, d3⟩

end Uecho
