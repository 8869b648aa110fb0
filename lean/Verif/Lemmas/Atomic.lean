import Verif.Spec.Atomic
import Verif.Lemmas.Threads
import Verif.Lemmas.Device

namespace Uecho
open Spec Par

/-! ### A request with one item, handled at once -/

/-- What is done for one item when nobody interferes. -/
def itemStep (o : Obj) : Kind → PProp → Obj × Except Exc (PProp × Nat)
  | .set, i => match o.getProperty i.code with
    | none => (o, .ok ({ code := i.code }, 0))
    | some p => match o.superWrite p with
      | .error e => (o, .error e)
      | .ok true => (o.storeData i.code i.data, .ok ({ code := i.code }, 1))
      | .ok false => (o, .ok ({ code := i.code, data := i.data }, 0))
  | .write, i => match o.getProperty i.code with
    | none => (o, .ok ({ code := i.code }, 0))
    | some p => match o.superWrite p with
      | .error e => (o, .error e)
      | .ok true => (o.storeData i.code i.data, .ok ({ code := i.code }, 1))
      | .ok false => (o, .ok ({ code := i.code, data := i.data }, 0))
  | .get, i => match o.superRead (o.getProperty i.code) with
    | .error e => (o, .error e)
    | .ok true => match o.getPropertyData i.code with
      | some d => (o, .ok ({ code := i.code, data := d }, 1))
      | none => (o, .error .attributeError)
    | .ok false => (o, .ok ({ code := i.code }, 0))
  | .read, i => match o.getProperty i.code with
    | none => (o, .ok ({ code := i.code }, 0))
    | some p => match o.superRead (some p) with
      | .error e => (o, .error e)
      | .ok true => (o, .ok ({ code := i.code, data := p.data }, 1))
      | .ok false => (o, .ok ({ code := i.code }, 0))
  | .pass, i => (o, .ok ({ code := i.code }, 0))

/-- The frame of a thread that has just taken up `m`. -/
def begun (m : Msg) : Frame := { req := m, todo := items m }

/-- The rest of the items, one after the other, when nobody interferes. -/
def finishAll : List (Kind × PProp) → Obj → Frame → Obj × Except Exc (Option Msg)
  | [], o, f => (o, .ok f.result)
  | (k, i) :: l, o, f => match itemStep o k i with
    | (o', .ok (p, n)) => finishAll l o' (f.push k p n)
    | (o', .error e) => (o', .error e)

theorem finish_set (env : Env) (rest : List (Kind × PProp)) (its : List PProp) : ∀ (o : Obj) (f : Frame), o.handler = .self_ → f.todo = its.map (Prod.mk .set) ++ rest →
    finishAll f.todo o f = match Obj.setLoop env o its f.cnt f.sets with
      | (o', .ok (cnt, ps)) => finishAll rest o' { f with todo := rest, cnt := cnt, sets := ps }
      | (o', .error e) => (o', .error e) := by
  induction its with
  | nil => intro o f _ hf; rw [hf]; simp only [List.map_nil, List.nil_append, Obj.setLoop]; rw [← show f.todo = rest from hf]
  | cons i its ih =>
    intro o f hh hf
    have hcw : ∀ p d, o.callWrite env p d = (o, o.superWrite p) := fun p d => by unfold Obj.callWrite; rw [hh]
    have ht : ∀ (p : PProp) (n : Nat), (f.push .set p n).todo = its.map (Prod.mk .set) ++ rest := fun p n => by simp only [Frame.push, hf]; rfl
    rw [hf]
    simp only [List.map_cons, List.cons_append, finishAll, itemStep, Obj.setLoop, hcw]
    cases hg : o.getProperty i.code with
    | none => exact ht _ _ ▸ ih o (f.push .set { code := i.code } 0) hh (ht _ _)
    | some p =>
      obtain ⟨b, hb⟩ := superWrite_ok o p
      simp only [hb]
      cases b with
      | true => exact ht _ _ ▸ ih (o.storeData i.code i.data) (f.push .set { code := i.code } 1) hh (ht _ _)
      | false => exact ht _ _ ▸ ih o (f.push .set { code := i.code, data := i.data } 0) hh (ht _ _)

theorem finish_get (env : Env) (its : List PProp) : ∀ (o : Obj) (f : Frame), o.handler = .self_ → f.todo = its.map (Prod.mk .get) →
    finishAll f.todo o f = match Obj.getLoop env o its f.cnt f.gets with
      | (o', .ok (cnt, ps)) => (o', .ok ({ f with todo := [], cnt := cnt, gets := ps } : Frame).result)
      | (o', .error e) => (o', .error e) := by
  induction its with
  | nil => intro o f _ hf; rw [hf]; rfl
  | cons i its ih =>
    intro o f hh hf
    have hcr : ∀ p, o.callRead env p = (o, o.superRead p) := fun p => by unfold Obj.callRead; rw [hh]
    have ht : ∀ (p : PProp) (n : Nat), (f.push .get p n).todo = its.map (Prod.mk .get) := fun p n => by simp only [Frame.push, hf]; rfl
    rw [hf]
    simp only [List.map_cons, finishAll, itemStep, Obj.getLoop, hcr]
    cases hg : o.getProperty i.code with
    | none => rw [show o.superRead none = .error .attributeError from rfl]
    | some p =>
      obtain ⟨b, hb⟩ := superRead_ok o p
      simp only [hb]
      cases b with
      | true =>
        simp only [data_of_known hg]
        exact ht _ _ ▸ ih o (f.push .get { code := i.code, data := p.data } 1) hh (ht _ _)
      | false => exact ht _ _ ▸ ih o (f.push .get { code := i.code } 0) hh (ht _ _)

theorem finish_plain (env : Env) (esv : Int) (its : List PProp) : ∀ (o : Obj) (f : Frame), o.handler = .self_ →
    f.todo = its.map (Prod.mk (if ESV.isReadRequest esv then .read else if ESV.isWriteRequest esv then .write else .pass)) →
    finishAll f.todo o f = match Obj.plainLoop env esv o its f.cnt f.props with
      | (o', .ok (cnt, ps)) => (o', .ok ({ f with todo := [], cnt := cnt, props := ps } : Frame).result)
      | (o', .error e) => (o', .error e) := by
  induction its with
  | nil => intro o f _ hf; rw [hf]; rfl
  | cons i its ih =>
    intro o f hh hf
    have hcr : ∀ p, o.callRead env p = (o, o.superRead p) := fun p => by unfold Obj.callRead; rw [hh]
    have hcw : ∀ p d, o.callWrite env p d = (o, o.superWrite p) := fun p d => by unfold Obj.callWrite; rw [hh]
    rw [hf]
    simp only [List.map_cons, finishAll, Obj.plainLoop]
    by_cases hrd : ESV.isReadRequest esv = true
    · simp only [if_pos hrd] at ih hf ⊢
      have ht : ∀ (p : PProp) (n : Nat), (f.push .read p n).todo = its.map (Prod.mk .read) := fun p n => by simp only [Frame.push, hf]; rfl
      simp only [itemStep, hcr]
      cases hg : o.getProperty i.code with
      | none => exact ht _ _ ▸ ih o (f.push .read { code := i.code } 0) hh (ht _ _)
      | some p =>
        obtain ⟨b, hb⟩ := superRead_ok o p
        simp only [hb]
        cases b with
        | true =>
          simp only [data_of_known hg]
          exact ht _ _ ▸ ih o (f.push .read { code := i.code, data := p.data } 1) hh (ht _ _)
        | false => exact ht _ _ ▸ ih o (f.push .read { code := i.code } 0) hh (ht _ _)
    · simp only [if_neg hrd] at ih hf ⊢
      by_cases hwr : ESV.isWriteRequest esv = true
      · simp only [if_pos hwr] at ih hf ⊢
        have ht : ∀ (p : PProp) (n : Nat), (f.push .write p n).todo = its.map (Prod.mk .write) := fun p n => by simp only [Frame.push, hf]; rfl
        simp only [itemStep, hcw]
        cases hg : o.getProperty i.code with
        | none => exact ht _ _ ▸ ih o (f.push .write { code := i.code } 0) hh (ht _ _)
        | some p =>
          obtain ⟨b, hb⟩ := superWrite_ok o p
          simp only [hb]
          cases b with
          | true => exact ht _ _ ▸ ih (o.storeData i.code i.data) (f.push .write { code := i.code } 1) hh (ht _ _)
          | false => exact ht _ _ ▸ ih o (f.push .write { code := i.code, data := i.data } 0) hh (ht _ _)
      · simp only [if_neg hwr] at ih hf ⊢
        have ht : ∀ (p : PProp) (n : Nat), (f.push .pass p n).todo = its.map (Prod.mk .pass) := fun p n => by simp only [Frame.push, hf]; rfl
        simp only [itemStep]
        cases hg : o.getProperty i.code <;> exact ht _ _ ▸ ih o (f.push .pass { code := i.code } 0) hh (ht _ _)

/-- A thread that is not interrupted does what `Obj.handleRequest` does. -/
theorem handle_finish (env : Env) (o : Obj) (m : Msg) (hh : o.handler = .self_) (hr : ESV.isRequest m.esv = true) :
    o.handleRequest env m = finishAll (items m) o (begun m) := by
  unfold Obj.handleRequest
  rw [if_neg (by rw [hr]; decide), if_neg (by rw [hh]; simp)]
  by_cases hw : ESV.isWriteReadRequest m.esv = true
  · have hi : (begun m).todo = m.setProps.map (Prod.mk .set) ++ m.getProps.map (Prod.mk .get) := by
      show items m = _
      unfold items; rw [if_pos hw]
    have e := finish_set env (m.getProps.map (Prod.mk .get)) m.setProps o (begun m) hh hi
    have hsh := setLoop_handler env m.setProps o 0 [] hh
    simp only [if_pos hw]
    rw [show items m = (begun m).todo from rfl, e]
    show _ = match Obj.setLoop env o m.setProps 0 [] with
      | (o', .ok (cnt, ps)) => finishAll (m.getProps.map (Prod.mk .get)) o' { begun m with todo := m.getProps.map (Prod.mk .get), cnt := cnt, sets := ps }
      | (o', .error e) => (o', .error e)
    revert hsh
    rcases Obj.setLoop env o m.setProps 0 [] with ⟨o', _ | ⟨cnt, ps⟩⟩
    · intro _; rfl
    · intro hsh
      simp only []
      have e' := finish_get env m.getProps o' ⟨m, m.getProps.map (Prod.mk .get), cnt, ps, [], []⟩ hsh rfl
      refine Eq.trans ?_ e'.symm
      show _ = match Obj.getLoop env o' m.getProps cnt [] with
        | (o', .ok (cnt, ps')) => (o', Except.ok (⟨m, [], cnt, ps, ps', []⟩ : Frame).result)
        | (o', .error e) => (o', .error e)
      rcases Obj.getLoop env o' m.getProps cnt [] with ⟨o₂, _ | ⟨cnt', ps'⟩⟩
      · rfl
      · simp only [Frame.result, if_pos hw]
  · have hi : (begun m).todo = m.props.map (Prod.mk (if ESV.isReadRequest m.esv then .read else if ESV.isWriteRequest m.esv then .write else .pass)) := by
      show items m = _
      unfold items; rw [if_neg hw]
    simp only [if_neg hw]
    refine Eq.trans ?_ (finish_plain env m.esv m.props o (begun m) hh hi).symm
    show _ = match Obj.plainLoop env m.esv o m.props 0 [] with
      | (o', .ok (cnt, ps)) => (o', Except.ok (⟨m, [], cnt, [], [], ps⟩ : Frame).result)
      | (o', .error e) => (o', .error e)
    rcases Obj.plainLoop env m.esv o m.props 0 [] with ⟨o₂, _ | ⟨cnt', ps'⟩⟩
    · rfl
    · simp only [Frame.result, if_neg hw]

/-- The same, seen from outside. -/
theorem handle_thing (env : Env) (hsil : ∀ n m, env.observe n m = none) (o : Obj) (hw : WellFormed o) (hh : o.handler = .self_) (m : Msg) (hs : OwnSections m) :
    thingOf (o.handleRequest env m).1 = ((thingOf o).actual m).1 ∧
      match (o.handleRequest env m).2 with
      | .ok r => ((thingOf o).actual m).2 = (r, true)
      | .error _ => ((thingOf o).actual m).2 = (none, false) := by
  have hq : Quiet env o m := fun n _ => hsil n m
  have h := thing_handles env o hw (.inl hh) m hq hs
  rw [messageReceived_quiet env o m hq] at h
  refine ⟨h.1, ?_⟩
  rcases h.2 with ⟨h1, h2⟩ | ⟨⟨e, h1⟩, h2, h3⟩
  · simp only [] at h1
    rw [h1, ← h2]
  · simp only [] at h1
    rw [h1, ← h2, ← h3]

/-! ### Stories -/

theorem observed_append (a b : List Instant) : observed (a ++ b) = observed a ++ observed b := List.filterMap_append
theorem outside_append (a b : List Event) : outside (a ++ b) = outside a ++ outside b := List.filter_append ..

theorem oneAtATime_append (b : List Instant) : ∀ (a : List Instant) (t t' : Thing), OneAtATime t (a ++ b) t' ↔ ∃ u, OneAtATime t a u ∧ OneAtATime u b t' := by
  intro a
  induction a with
  | nil => intro t t'; exact ⟨fun h => ⟨t, rfl, h⟩, fun ⟨u, h1, h2⟩ => by rw [show u = t from h1] at h2; exact h2⟩
  | cons x a ih =>
    intro t t'
    cases x with
    | effect u m r b =>
      simp only [List.cons_append, OneAtATime, ih]
      exact ⟨fun ⟨h1, v, h2, h3⟩ => ⟨v, ⟨h1, h2⟩, h3⟩, fun ⟨v, ⟨h1, h2⟩, h3⟩ => ⟨h1, v, h2, h3⟩⟩
    | seen e => cases e <;> (simp only [List.cons_append, OneAtATime, ih])

theorem _root_.Uecho.Spec.Aside.snoc {t : Nat} {h : List Instant} (ha : Aside t h) {x : Instant} (hx : ¬ x.isBy t) : Aside t (h ++ [x]) := by
  intro y hy
  rcases List.mem_append.mp hy with hy | hy
  · exact ha y hy
  · rw [List.mem_singleton.mp hy]; exact hx

theorem story_effect {o o' : Thing} {log : List Event} {h : List Instant} (hst : Story o log h o') {t : Nat} {m : Msg} {r : Option Msg} {b : Bool}
    (hx : (o'.actual m).2 = (r, b)) (hp : ∃ a d, h = a ++ .seen (.recv t m) :: d ∧ Aside t d) : Story o log (h ++ [.effect t m r b]) (o'.actual m).1 where
  same := by rw [observed_append, hst.same]; exact List.append_nil _
  effects := (oneAtATime_append _ _ _ _).mpr ⟨o', hst.effects, hx, rfl⟩
  after := by
    intro l u m' r' b' l' e
    rcases split_last e with ⟨-, h1, h2⟩ | ⟨l'', -, h1⟩
    · injection h1 with h1 h3
      subst h1; subst h3
      rw [h2]; exact hp
    · exact hst.after l u m' r' b' l'' h1
  answers := by
    intro l u m' r' l' e
    rcases split_last e with ⟨-, h1, h2⟩ | ⟨l'', -, h1⟩
    · cases h1
    · exact hst.answers l u m' r' l'' h1
  ends := by
    intro l u m' l' e
    rcases split_last e with ⟨-, h1, h2⟩ | ⟨l'', -, h1⟩
    · cases h1
    · exact hst.ends l u m' l'' h1

theorem story_seen {o o' o'' : Thing} {log log' : List Event} {h : List Instant} (hst : Story o log h o') {e : Event} (hl : outside log' = outside log ++ [e])
    (ho : OneAtATime o' [.seen e] o'') (ha : ∀ t m r, e = .answer t m r → ∃ a d, h = a ++ .effect t m r true :: d ∧ Aside t d)
    (hc : ∀ t m, e = .crash t m → ∃ a d, h = a ++ .effect t m none false :: d ∧ Aside t d) : Story o log' (h ++ [.seen e]) o'' where
  same := by rw [observed_append, hst.same, hl]; rfl
  effects := (oneAtATime_append _ _ _ _).mpr ⟨o', hst.effects, ho⟩
  after := by
    intro l u m' r' b' l' x
    rcases split_last x with ⟨-, h1, h2⟩ | ⟨l'', -, h1⟩
    · cases h1
    · exact hst.after l u m' r' b' l'' h1
  answers := by
    intro l u m' r' l' x
    rcases split_last x with ⟨-, h1, h2⟩ | ⟨l'', -, h1⟩
    · injection h1 with h1
      rw [h2]; exact ha u m' r' h1
    · exact hst.answers l u m' r' l'' h1
  ends := by
    intro l u m' l' x
    rcases split_last x with ⟨-, h1, h2⟩ | ⟨l'', -, h1⟩
    · injection h1 with h1
      rw [h2]; exact hc u m' h1
    · exact hst.ends l u m' l'' h1

/-! ### Threads and their stories -/

/-- An environment in which nobody listens. -/
def deafEnv : Env := { handler := fun _ => { read := fun o _ => (o, .ok true), write := fun o _ _ => (o, .ok true) }, observe := fun _ _ => none }

theorem wellFormed_now {o : Obj} (hw : WellFormed o) {s : Sys} (hi : SysInv o s) : WellFormed s.obj := by
  rw [hi.obj]
  exact wf_afterWrites o _ hw

theorem handler_now {o : Obj} {s : Sys} (hi : SysInv o s) : s.obj.handler = o.handler := by rw [hi.obj]; rfl

section
variable {o : Obj} (hw : WellFormed o) (hh : o.handler = .self_) {L : Int → Prop}

/-- Whatever is to be written and can be is of the kind `L`. -/
def Apt (T : Thing) (L : Int → Prop) (l : List (Kind × PProp)) : Prop := ∀ q ∈ l, q.1 = .set ∨ q.1 = .write → T.canSet q.2.code = true → L q.2.code

/-- What is received and what the application does is as it should be. -/
def TameLog (T : Thing) (L : Int → Prop) (log : List Event) : Prop :=
  (∀ t m, Event.recv t m ∈ log → OneOf L m ∧ ∀ c, Alters m c → T.canSet c = true → L c) ∧ ∀ c d, Event.app c d ∈ log → L c

theorem TameLog.less {T : Thing} {a b : List Event} (h : TameLog T L (a ++ b)) : TameLog T L a :=
  ⟨fun t m hm => h.1 t m (List.mem_append_left _ hm), fun c d hm => h.2 c d (List.mem_append_left _ hm)⟩

theorem items_write {m : Msg} {k : Kind} {i : PProp} (h : (k, i) ∈ items m) (hk : k = .set ∨ k = .write) : Alters m i.code := by
  unfold items at h
  split at h
  · rename_i he
    rcases List.mem_append.mp h with h | h
    · obtain ⟨j, hj, e⟩ := List.mem_map.mp h
      injection e with _ e
      exact .inr ⟨of_decide_eq_true he, j, hj, by rw [e]⟩
    · obtain ⟨j, -, e⟩ := List.mem_map.mp h
      injection e with e
      rcases hk with hk | hk <;> rw [hk] at e <;> cases e
  · rename_i he
    obtain ⟨j, hj, e⟩ := List.mem_map.mp h
    injection e with e1 e2
    split at e1
    · rcases hk with hk | hk <;> rw [hk] at e1 <;> cases e1
    · split at e1
      · rename_i hwr
        left
        refine ⟨?_, j, hj, by rw [e2]⟩
        unfold ESV.isWriteRequest at hwr
        split at hwr
        · rename_i h; exact .inl h
        · split at hwr
          · rename_i h
            exact absurd (decide_eq_true h) he
          · split at hwr
            · rename_i h; exact .inr h
            · cases hwr
      · rcases hk with hk | hk <;> rw [hk] at e1 <;> cases e1

theorem apt_todo {t : Nat} {log : List Event} {f : Frame} {b d : List Event} {p : List (Kind × PProp)} (hf : FrameInv o t log f b d p) (ht : TameLog (thingOf o) L log) : Apt (thingOf o) L f.todo := by
  rintro ⟨k, i⟩ hq hk hc
  exact (ht.1 t f.req (by rw [hf.split]; simp)).2 i.code (items_write (by rw [hf.items]; exact List.mem_append_right _ hq) hk) hc

theorem thing_canSet (o : Obj) (c : Int) (d : Bytes) (h : (attrPolicy o).canWrite c d = true) : (thingOf o).canSet c = true := by
  rw [show c = ({ code := c, data := d } : PProp).code from rfl, thingOf_canSet, Bool.and_eq_true]
  exact ⟨known_of_canWrite h, h⟩

/-- What can become of `o` while only data of the kind `L` change. -/
def Version (o : Obj) (L : Int → Prop) (x : Obj) : Prop := ∃ W : List PProp, x = afterWrites o W ∧ ∀ i ∈ W, L i.code

theorem lastFor_dead {W : List PProp} (hW : ∀ i ∈ W, L i.code) {c : Int} (hc : ¬ L c) : lastFor W c = none := by
  unfold lastFor
  rw [show W.filter (fun i => i.code = c) = [] from List.filter_eq_nil_iff.mpr fun i hi e => hc (by rw [← of_decide_eq_true e]; exact hW i hi)]
  rfl

theorem lookup_dead {x : Obj} (hx : Version o L x) {c : Int} (hc : ¬ L c) : lookup x.props c = lookup o.props c := by
  obtain ⟨W, rfl, hW⟩ := hx
  rw [lookup_afterWrites, lastFor_dead hW hc]
  cases lookup o.props c <;> rfl

include hw in
/-- An item that is not about changing data does nothing, and its part of the answer is always the same. -/
theorem dead_step {x y : Obj} (hx : Version o L x) (hy : Version o L y) {i : PProp} (hc : ¬ L i.code) (k : Kind)
    (hk : k = .set ∨ k = .write → (thingOf o).canSet i.code = true → L i.code) : ∃ r, itemStep x k i = (x, r) ∧ itemStep y k i = (y, r) := by
  have ex := lookup_dead hx hc
  have ey := lookup_dead hy hc
  have hcw : k = .set ∨ k = .write → (attrPolicy o).canWrite i.code i.data = false := by
    intro hkw
    cases h : (attrPolicy o).canWrite i.code i.data with
    | false => rfl
    | true => exact absurd (hk hkw (thing_canSet o i.code i.data h)) hc
  obtain ⟨Wx, rfl, -⟩ := hx
  obtain ⟨Wy, rfl, -⟩ := hy
  cases hl : lookup o.props i.code with
  | none =>
    rw [hl] at ex ey
    cases k <;> simp only [itemStep, getProperty_eq, ex, ey]
    case get => exact ⟨_, rfl, rfl⟩
    all_goals exact ⟨_, rfl, rfl⟩
  | some p =>
    rw [hl] at ex ey
    have wx := superWrite_now hw Wx _ _ ex i.data
    have wy := superWrite_now hw Wy _ _ ey i.data
    have rx := superRead_now hw Wx _ _ ex
    have ry := superRead_now hw Wy _ _ ey
    have gx : (afterWrites o Wx).getPropertyData i.code = some p.data := data_of_known (by rw [getProperty_eq]; exact ex)
    have gy : (afterWrites o Wy).getPropertyData i.code = some p.data := data_of_known (by rw [getProperty_eq]; exact ey)
    cases k with
    | set => rw [hcw (.inl rfl)] at wx wy; simp only [itemStep, getProperty_eq, ex, ey, wx, wy]; exact ⟨_, rfl, rfl⟩
    | write => rw [hcw (.inr rfl)] at wx wy; simp only [itemStep, getProperty_eq, ex, ey, wx, wy]; exact ⟨_, rfl, rfl⟩
    | pass => exact ⟨_, rfl, rfl⟩
    | _ => cases hr : (attrPolicy o).canRead i.code <;> rw [hr] at rx ry <;> simp only [itemStep, getProperty_eq, ex, ey, rx, ry, gx, gy] <;> exact ⟨_, rfl, rfl⟩

theorem push_todo (f : Frame) (k : Kind) (p : PProp) (n : Nat) : (f.push k p n).todo = f.todo.tail := by cases k <;> rfl
theorem push_req (f : Frame) (k : Kind) (p : PProp) (n : Nat) : (f.push k p n).req = f.req := by cases k <;> rfl

include hw in
theorem dead_finish (l : List (Kind × PProp)) (ha : Apt (thingOf o) L l) (hl : ∀ q ∈ l, ¬ L q.2.code) : ∀ f, ∃ r, ∀ x, Version o L x → finishAll l x f = (x, r) := by
  induction l with
  | nil => intro f; exact ⟨_, fun x _ => rfl⟩
  | cons q l ih =>
    intro f
    obtain ⟨k, i⟩ := q
    have ho : Version o L o := ⟨[], (afterWrites_nil o).symm, fun _ h => by cases h⟩
    obtain ⟨r, hr, -⟩ := dead_step hw ho ho (hl _ List.mem_cons_self) k (ha _ List.mem_cons_self)
    have hx : ∀ x, Version o L x → itemStep x k i = (x, r) := by
      intro x hx
      obtain ⟨r', h1, h2⟩ := dead_step hw ho hx (hl _ List.mem_cons_self) k (ha _ List.mem_cons_self)
      rw [hr] at h1
      injection h1 with _ h1
      rw [h2, h1]
    cases r with
    | error e => exact ⟨.error e, fun x h => by simp only [finishAll, hx x h]⟩
    | ok pn =>
      obtain ⟨r', hr'⟩ := ih (fun q hq => ha q (List.mem_cons_of_mem _ hq)) (fun q hq => hl q (List.mem_cons_of_mem _ hq)) (f.push k pn.1 pn.2)
      exact ⟨r', fun x h => by simp only [finishAll, hx x h]; exact hr' x h⟩

/-- What an effect with this outcome looks like. -/
def effectOf (t : Nat) (m : Msg) : Except Exc (Option Msg) → Instant
  | .ok r => .effect t m r true
  | .error _ => .effect t m none false

/-- Thread `t` has taken up a message that has not yet had an effect: nothing has been done for it that would not be done in the same way later. -/
def Waiting (o : Obj) (L : Int → Prop) (h : List Instant) (t : Nat) (f : Frame) : Prop :=
  ESV.isRequest f.req.esv = true ∧ OwnSections f.req ∧ f.todo.Pairwise (fun i j => ¬ (L i.2.code ∧ L j.2.code)) ∧
    (∀ x, Version o L x → finishAll (items f.req) x (begun f.req) = finishAll f.todo x f) ∧ ∃ a d, h = a ++ .seen (.recv t f.req) :: d ∧ Aside t d

/-- It has had its effect, and the answer is known. -/
def Settled (o : Obj) (L : Int → Prop) (h : List Instant) (t : Nat) (f : Frame) : Prop :=
  (∀ q ∈ f.todo, ¬ L q.2.code) ∧ ∃ r, (∀ x, Version o L x → finishAll f.todo x f = (x, r)) ∧ ∃ a d, h = a ++ effectOf t f.req r :: d ∧ Aside t d

def StoryOf (o : Obj) (L : Int → Prop) (h : List Instant) (t : Nat) : PC → Prop
  | .idle => True
  | .crashed => True
  | .next f => Waiting o L h t f ∨ Settled o L h t f
  | .store f _ _ => Waiting o L h t f ∨ Settled o L h t f
  | .load f _ _ => Waiting o L h t f ∨ Settled o L h t f

theorem either_more {h : List Instant} {t : Nat} {f : Frame} (hf : Waiting o L h t f ∨ Settled o L h t f) {n : List Instant} (hn : Aside t n) : Waiting o L (h ++ n) t f ∨ Settled o L (h ++ n) t f := by
  have hd : ∀ d, Aside t d → Aside t (d ++ n) := fun d hd x hx => (List.mem_append.mp hx).elim (hd x) (hn x)
  rcases hf with ⟨h1, h2, h3, h4, a, d, h5, h6⟩ | ⟨h1, r, h2, a, d, h5, h6⟩
  · exact .inl ⟨h1, h2, h3, h4, a, d ++ n, by rw [h5]; simp, hd d h6⟩
  · exact .inr ⟨h1, r, h2, a, d ++ n, by rw [h5]; simp, hd d h6⟩

theorem told_more {h : List Instant} {t : Nat} {p : PC} (ht : StoryOf o L h t p) {n : List Instant} (hn : Aside t n) : StoryOf o L (h ++ n) t p := by
  cases p with
  | idle => trivial
  | crashed => trivial
  | next f => exact either_more ht hn
  | store f k i => exact either_more ht hn
  | load f k i => exact either_more ht hn

/-- All that is in `n` is by thread `t`. -/
def AllBy (t : Nat) (n : List Instant) : Prop := ∀ x ∈ n, x.isBy t

theorem allBy_nil {t : Nat} : AllBy t [] := fun _ h => by cases h

theorem isBy_unique {x : Instant} {t u : Nat} (h1 : x.isBy t) (h2 : x.isBy u) : u = t := by
  cases x with
  | effect v m r b => exact (show v = u from h2).symm.trans h1
  | seen e => cases e with
    | recv v m => exact (show v = u from h2).symm.trans h1
    | answer v m r => exact (show v = u from h2).symm.trans h1
    | crash v m => exact (show v = u from h2).symm.trans h1
    | store => exact absurd h1 id
    | app => exact absurd h1 id

theorem AllBy.aside {t u : Nat} {n : List Instant} (h : AllBy t n) (hu : u ≠ t) : Aside u n := fun x hx e => hu (isBy_unique (h x hx) e)

/-- The outcome of a step of thread `t`: the story goes on, with what `t` does. -/
def GoesOn (o : Obj) (L : Int → Prop) (h : List Instant) (s' : Sys) (t : Nat) : Prop :=
  ∃ n, AllBy t n ∧ Story (thingOf o) s'.log (h ++ n) (thingOf s'.obj) ∧ StoryOf o L (h ++ n) t (s'.pc t)

theorem aside_nil {t : Nat} : Aside t [] := fun _ h => by cases h

include hw hh in
/-- A waiting thread has its effect at this moment. -/
theorem effect_now {log : List Event} {x : Obj} (hx : Version o L x) {h : List Instant} (hst : Story (thingOf o) log h (thingOf x)) {t : Nat} {f : Frame} (hwt : Waiting o L h t f)
    {o' : Obj} {r : Except Exc (Option Msg)} (hf : finishAll f.todo x f = (o', r)) : Story (thingOf o) log (h ++ [effectOf t f.req r]) (thingOf o') := by
  obtain ⟨h1, h2, -, h3, h4⟩ := hwt
  have hv := hx
  obtain ⟨W, e, hW⟩ := hx
  have hxh : x.handler = .self_ := by rw [e]; exact hh
  have hxw : WellFormed x := by rw [e]; exact wf_afterWrites o W hw
  have hfin := handle_finish deafEnv x f.req hxh h1
  rw [h3 x hv, hf] at hfin
  obtain ⟨j1, j2⟩ := handle_thing deafEnv (fun _ _ => rfl) x hxw hxh f.req h2
  rw [hfin] at j1 j2
  cases r with
  | ok r =>
    simp only [] at j1 j2
    have := story_effect hst j2 h4
    rw [← j1] at this
    exact this
  | error e =>
    simp only [] at j1 j2
    have := story_effect hst j2 h4
    rw [← j1] at this
    exact this

theorem allBy_effect (t : Nat) (m : Msg) (r : Except Exc (Option Msg)) : AllBy t [effectOf t m r] := by
  intro x hx
  rw [List.mem_singleton.mp hx]
  cases r <;> exact rfl

include hw hh in
/-- An item is done. -/
theorem item_now {log : List Event} {x o' : Obj} {f : Frame} (hap : Apt (thingOf o) L f.todo) (hx : Version o L x) (hx' : Version o L o') {h : List Instant}
    (hst : Story (thingOf o) log h (thingOf x)) {t : Nat}
    (hf : Waiting o L h t f ∨ Settled o L h t f) {k : Kind} {i : PProp} {rest : List (Kind × PProp)} {p : PProp} {c : Nat} (htodo : f.todo = (k, i) :: rest)
    (hstep : itemStep x k i = (o', .ok (p, c))) :
    ∃ n, AllBy t n ∧ Story (thingOf o) log (h ++ n) (thingOf o') ∧ (Waiting o L (h ++ n) t (f.push k p c) ∨ Settled o L (h ++ n) t (f.push k p c)) := by
  have hpt : (f.push k p c).todo = rest := by rw [push_todo, htodo]; rfl
  have happt : Apt (thingOf o) L rest := fun q hq => hap q (by rw [htodo]; exact List.mem_cons_of_mem _ hq)
  have hapk : k = .set ∨ k = .write → (thingOf o).canSet i.code = true → L i.code := hap (k, i) (by rw [htodo]; exact List.mem_cons_self)
  by_cases hc : L i.code
  · rcases hf with hwt | ⟨h1, -⟩
    · have hrest : ∀ q ∈ rest, ¬ L q.2.code := by
        have := hwt.2.2.1
        rw [htodo, List.pairwise_cons] at this
        exact fun q hq hq' => this.1 q hq ⟨hc, hq'⟩
      obtain ⟨r, hr⟩ := dead_finish hw rest happt hrest (f.push k p c)
      have hfin : finishAll f.todo x f = (o', r) := by rw [htodo]; simp only [finishAll, hstep]; exact hr o' hx'
      refine ⟨_, allBy_effect t f.req r, effect_now hw hh hx hst hwt hfin, .inr ⟨by rw [hpt]; exact hrest, r, by rw [hpt]; exact hr, h, [], ?_, aside_nil⟩⟩
      rw [push_req]
    · exact absurd hc (h1 _ (by rw [htodo]; exact List.mem_cons_self))
  · have hsame : ∀ y, Version o L y → itemStep y k i = (y, .ok (p, c)) := by
      intro y hy
      obtain ⟨r, h1, h2⟩ := dead_step hw hx hy hc k hapk
      rw [hstep] at h1
      injection h1 with _ h1
      rw [h2, ← h1]
    have ho' : o' = x := by
      have := hsame x hx
      rw [hstep] at this
      injection this
    have hfin : ∀ y, Version o L y → finishAll f.todo y f = finishAll rest y (f.push k p c) := by
      intro y hy
      rw [htodo]; simp only [finishAll, hsame y hy]
    refine ⟨[], allBy_nil, by rw [List.append_nil, ho']; exact hst, ?_⟩
    rw [List.append_nil]
    rcases hf with ⟨h1, h2, h3, h4, h5⟩ | ⟨h1, r, h2, h3⟩
    · rw [htodo, List.pairwise_cons] at h3
      refine .inl ⟨by rw [push_req]; exact h1, by rw [push_req]; exact h2, by rw [hpt]; exact h3.2, fun y hy => ?_, by rw [push_req]; exact h5⟩
      rw [push_req, hpt, h4 y hy, hfin y hy]
    · refine .inr ⟨fun q hq => h1 q ?_, r, fun y hy => ?_, by rw [push_req]; exact h3⟩
      · rw [hpt] at hq; rw [htodo]; exact List.mem_cons_of_mem _ hq
      · rw [hpt, ← hfin y hy, h2 y hy]

include hw hh in
/-- All is done, or the thread ends: the outcome is known, and the effect is in the story. -/
theorem outcome_now {log : List Event} {x : Obj} (hx : Version o L x) {h : List Instant} (hst : Story (thingOf o) log h (thingOf x)) {t : Nat} {f : Frame}
    (hf : Waiting o L h t f ∨ Settled o L h t f) {r : Except Exc (Option Msg)} (hfin : finishAll f.todo x f = (x, r)) :
    ∃ n, AllBy t n ∧ Story (thingOf o) log (h ++ n) (thingOf x) ∧ ∃ a d, h ++ n = a ++ effectOf t f.req r :: d ∧ Aside t d := by
  rcases hf with hwt | ⟨-, r', h2, h3⟩
  · exact ⟨_, allBy_effect t f.req r, effect_now hw hh hx hst hwt hfin, h, [], rfl, aside_nil⟩
  · have := h2 x hx
    rw [hfin] at this
    injection this with _ this
    subst this
    exact ⟨[], allBy_nil, by rw [List.append_nil]; exact hst, by rw [List.append_nil]; exact h3⟩

theorem allBy_append {t : Nat} {a b : List Instant} (ha : AllBy t a) (hb : AllBy t b) : AllBy t (a ++ b) := fun x hx => (List.mem_append.mp hx).elim (ha x) (hb x)

theorem pc_goto (s : Sys) (t : Nat) (p : PC) : (s.goto t p).pc t = p := if_pos rfl

include hw hh in
theorem answer_now {s : Sys} {t : Nat} (hx : Version o L s.obj) {h : List Instant} (hst : Story (thingOf o) s.log h (thingOf s.obj)) {f : Frame}
    (hf : Waiting o L h t f ∨ Settled o L h t f) (htodo : f.todo = []) : GoesOn o L h ((s.goto t .idle).emit (.answer t f.req f.result)) t := by
  obtain ⟨n, h1, h2, h3⟩ := outcome_now hw hh hx hst hf (r := .ok f.result) (by rw [htodo]; rfl)
  refine ⟨n ++ [.seen (.answer t f.req f.result)], allBy_append h1 ?_, ?_, ?_⟩
  · intro x hx; rw [List.mem_singleton.mp hx]; exact rfl
  · rw [← List.append_assoc]
    refine story_seen h2 (e := .answer t f.req f.result) (outside_append _ _) rfl ?_ (fun _ _ e => by cases e)
    intro u m r e
    injection e with e1 e2 e3
    subst e1; subst e2; subst e3
    exact h3
  · show StoryOf o L _ t ((s.goto t .idle).pc t)
    rw [pc_goto]; trivial

include hw hh in
theorem crash_now {s : Sys} {t : Nat} (hx : Version o L s.obj) {h : List Instant} (hst : Story (thingOf o) s.log h (thingOf s.obj)) {f : Frame}
    (hf : Waiting o L h t f ∨ Settled o L h t f) {k : Kind} {i : PProp} {rest : List (Kind × PProp)} {e : Exc} (htodo : f.todo = (k, i) :: rest)
    (hstep : itemStep s.obj k i = (s.obj, .error e)) : GoesOn o L h ((s.goto t .crashed).emit (.crash t f.req)) t := by
  obtain ⟨n, h1, h2, h3⟩ := outcome_now hw hh hx hst hf (r := .error e) (by rw [htodo]; simp only [finishAll, hstep])
  refine ⟨n ++ [.seen (.crash t f.req)], allBy_append h1 ?_, ?_, ?_⟩
  · intro x hx; rw [List.mem_singleton.mp hx]; exact rfl
  · rw [← List.append_assoc]
    refine story_seen h2 (e := .crash t f.req) (outside_append _ _) rfl (fun _ _ _ e => by cases e) ?_
    intro u m e
    injection e with e1 e2
    subst e1; subst e2
    exact h3
  · show StoryOf o L _ t ((s.goto t .crashed).pc t)
    rw [pc_goto]; trivial

include hw hh in
theorem check_goes {s : Sys} {f : Frame} (hap : Apt (thingOf o) L f.todo) (hx : Version o L s.obj) {h : List Instant} (hst : Story (thingOf o) s.log h (thingOf s.obj)) {t : Nat}
    (hf : Waiting o L h t f ∨ Settled o L h t f) : GoesOn o L h (s.check t f) t := by
  cases htodo : f.todo with
  | nil =>
    have e : s.check t f = (s.goto t .idle).emit (.answer t f.req f.result) := by unfold Sys.check; rw [htodo]
    rw [e]
    exact answer_now hw hh hx hst hf htodo
  | cons q rest =>
    obtain ⟨k, i⟩ := q
    have hgo : ∀ {p : PProp} {c : Nat}, itemStep s.obj k i = (s.obj, .ok (p, c)) → GoesOn o L h (s.goto t (.next (f.push k p c))) t := by
      intro p c hstep
      obtain ⟨n, h1, h2, h3⟩ := item_now hw hh hap hx hx hst hf htodo hstep
      exact ⟨n, h1, h2, by rw [pc_goto]; exact h3⟩
    have hstay : ∀ p : PC, StoryOf o L h t p → GoesOn o L h (s.goto t p) t := fun p hp =>
      ⟨[], allBy_nil, by rw [List.append_nil]; exact hst, by rw [List.append_nil, pc_goto]; exact hp⟩
    unfold Sys.check
    rw [htodo]
    cases k with
    | set =>
      simp only []
      cases hg : s.obj.getProperty i.code with
      | none => exact hgo (by simp only [itemStep, hg])
      | some p =>
        obtain ⟨b, hb⟩ := superWrite_ok s.obj p
        simp only [hb]
        cases b with
        | true => exact hstay _ hf
        | false => exact hgo (by simp only [itemStep, hg, hb])
    | write =>
      simp only []
      cases hg : s.obj.getProperty i.code with
      | none => exact hgo (by simp only [itemStep, hg])
      | some p =>
        obtain ⟨b, hb⟩ := superWrite_ok s.obj p
        simp only [hb]
        cases b with
        | true => exact hstay _ hf
        | false => exact hgo (by simp only [itemStep, hg, hb])
    | get =>
      simp only []
      cases hb : s.obj.superRead (s.obj.getProperty i.code) with
      | error e => exact crash_now hw hh hx hst hf htodo (e := e) (by simp only [itemStep, hb])
      | ok b =>
        cases b with
        | true => exact hstay _ hf
        | false => exact hgo (by simp only [itemStep, hb])
    | read =>
      simp only []
      cases hg : s.obj.getProperty i.code with
      | none => exact hgo (by simp only [itemStep, hg])
      | some p =>
        obtain ⟨b, hb⟩ := superRead_ok s.obj p
        simp only [hb]
        cases b with
        | true => exact hstay _ hf
        | false => exact hgo (by simp only [itemStep, hg, hb])
    | pass => exact hgo rfl

include hw in
theorem version_store {x : Obj} (hx : Version o L x) {i : PProp} (hli : L i.code) : Version o L (x.storeData i.code i.data) := by
  obtain ⟨W, rfl, hW⟩ := hx
  refine ⟨W ++ [{ code := i.code, data := i.data }], ?_, ?_⟩
  · rw [storeData_eq _ _ _ (wf_afterWrites o W hw).1, afterWrites_append]
  · intro j hj
    rcases List.mem_append.mp hj with hj | hj
    · exact hW j hj
    · rw [List.mem_singleton.mp hj]
      exact hli

include hw hh in
theorem run_goes {s s' : Sys} (hi : SysInv o s) (htame : TameLog (thingOf o) L s.log) (hx : Version o L s.obj) (t : Nat) (hrun : s.run t = some s') {h : List Instant}
    (hst : Story (thingOf o) s.log h (thingOf s.obj)) (ht : StoryOf o L h t (s.pc t)) : GoesOn o L h s' t := by
  have hpi := hi.pcs t
  unfold Sys.run at hrun
  split at hrun
  · cases hrun
  · cases hrun
  · rename_i f hpc
    injection hrun with hrun
    rw [hpc] at ht hpi
    obtain ⟨b, d, past, hfr⟩ := hpi
    have hap := apt_todo hfr htame
    rw [← hrun]
    exact check_goes hw hh hap hx hst ht
  · rename_i f k i hpc
    injection hrun with hrun
    rw [hpc] at ht hpi
    obtain ⟨⟨b, d, past, hfr⟩, ⟨l, hl⟩, hk, hcan⟩ := hpi
    have hap := apt_todo hfr htame
    have hli : L i.code := hap (k, i) (by rw [hl]; exact List.mem_cons_self) hk (thing_canSet o i.code i.data hcan)
    have hknown := known_of_canWrite hcan
    obtain ⟨p, hp⟩ : ∃ p, lookup s.obj.props i.code = some p := by
      rw [← Option.isSome_iff_exists, hi.obj, isSome_of_skeleton (skeleton_afterWrites o _)]
      exact hknown
    have hsw : s.obj.superWrite p = .ok true := by
      rw [← hcan, hi.obj]
      exact superWrite_now hw _ _ _ (by rw [← hi.obj]; exact hp) _
    have hstep : itemStep s.obj k i = (s.obj.storeData i.code i.data, .ok ({ code := i.code }, 1)) := by
      rcases hk with rfl | rfl <;> simp only [itemStep, getProperty_eq, hp, hsw]
    obtain ⟨n, h1, h2, h3⟩ := item_now hw hh hap hx (version_store hw hx hli) hst ht hl hstep
    rw [← hrun]
    refine ⟨n, h1, ⟨?_, h2.effects, h2.after, h2.answers, h2.ends⟩, ?_⟩
    · show observed (h ++ n) = outside (s.log ++ [.store t i.code i.data])
      rw [outside_append, h2.same]
      exact (List.append_nil _).symm
    · show StoryOf o L _ t (Sys.pc (Sys.goto _ t _) t)
      rw [pc_goto]; exact h3
  · rename_i f k i hpc
    rw [hpc] at ht hpi
    obtain ⟨⟨b, d, past, hfr⟩, ⟨l, hl⟩, hk, hcan⟩ := hpi
    have hap := apt_todo hfr htame
    obtain ⟨p, hp⟩ : ∃ p, lookup s.obj.props i.code = some p := by
      rw [← Option.isSome_iff_exists, hi.obj, isSome_of_skeleton (skeleton_afterWrites o _)]
      exact known_of_canRead hcan
    have hsr : s.obj.superRead (some p) = .ok true := by
      rw [← hcan, hi.obj]
      exact superRead_now hw _ _ _ (by rw [← hi.obj]; exact hp)
    have hg : s.obj.getProperty i.code = some p := by rw [getProperty_eq]; exact hp
    have hd := data_of_known hg
    rw [hd] at hrun
    injection hrun with hrun
    have hstep : itemStep s.obj k i = (s.obj, .ok ({ code := i.code, data := p.data }, 1)) := by
      rcases hk with rfl | rfl <;> simp only [itemStep, hg, hsr, hd]
    obtain ⟨n, h1, h2, h3⟩ := item_now hw hh hap hx hx hst ht hl hstep
    rw [← hrun]
    exact ⟨n, h1, h2, by rw [pc_goto]; exact h3⟩

theorem actual_other (t : Thing) (m : Msg) (h : ESV.isRequest m.esv = false) : t.actual m = (t, none, true) := by
  have hne : ∀ e ∈ [(0x60 : Int), 0x61, 0x62, 0x63, 0x6E, 0x74], m.esv ≠ e := by
    intro e he c
    rw [c] at h
    simp only [List.mem_cons, List.not_mem_nil, or_false] at he
    rcases he with rfl | rfl | rfl | rfl | rfl | rfl <;> exact absurd h (by decide)
  unfold Thing.actual
  simp only [if_neg (hne 0x60 (by simp)), if_neg (hne 0x61 (by simp)), if_neg (hne 0x62 (by simp)), if_neg (hne 0x63 (by simp)), if_neg (hne 0x6E (by simp)), if_neg (hne 0x74 (by simp))]
  split <;> rfl

theorem items_one {m : Msg} (h : OneOf L m) : (items m).Pairwise fun i j => ¬ (L i.2.code ∧ L j.2.code) := by
  obtain ⟨-, h⟩ := h
  unfold items
  split
  · have h2 := (List.pairwise_append.mp (by rw [List.append_assoc] at h; exact h)).2.1
    rw [List.pairwise_append] at h2 ⊢
    refine ⟨List.pairwise_map.mpr h2.1, List.pairwise_map.mpr h2.2.1, ?_⟩
    intro a ha b hb
    obtain ⟨a', ha', rfl⟩ := List.mem_map.mp ha
    obtain ⟨b', hb', rfl⟩ := List.mem_map.mp hb
    exact h2.2.2 a' ha' b' hb'
  · rw [List.append_assoc] at h
    exact List.pairwise_map.mpr (List.pairwise_append.mp h).1

/-- Who does it. -/
def Instant.bound (a : Act) (n : List Instant) : Prop := match a with
  | .recv t m => n = [.seen (.recv t m)] ∨ n = [.seen (.recv t m), .effect t m none true, .seen (.answer t m none)]
  | .run t => AllBy t n
  | .app c d => n = [.seen (.app c d)]

theorem bound_recv {t : Nat} {m : Msg} {n : List Instant} (h : Instant.bound (.recv t m) n) : AllBy t n := by
  intro x hx
  rcases h with rfl | rfl
  · rw [List.mem_singleton.mp hx]; exact rfl
  · simp only [List.mem_cons, List.not_mem_nil, or_false] at hx
    rcases hx with rfl | rfl | rfl <;> exact rfl

include hh in
theorem recv_goes {s s' : Sys} (hi : SysInv o s) (t : Nat) (m : Msg) (hm : OneOf L m) (hrun : s.recv t m = some s') {h : List Instant}
    (hst : Story (thingOf o) s.log h (thingOf s.obj)) : ∃ n, Instant.bound (.recv t m) n ∧ Story (thingOf o) s'.log (h ++ n) (thingOf s'.obj) ∧ StoryOf o L (h ++ n) t (s'.pc t) := by
  have h1 := story_seen hst (e := .recv t m) (log' := s.log ++ [.recv t m]) (outside_append _ _) rfl (fun _ _ _ e => by cases e) (fun _ _ e => by cases e)
  unfold Sys.recv at hrun
  split at hrun
  · rename_i hidle
    split at hrun
    · rename_i hr
      injection hrun with hrun
      have h2 := story_effect h1 (m := m) (t := t) (r := none) (b := true) (by rw [actual_other _ _ hr]) ⟨h, [], rfl, aside_nil⟩
      rw [actual_other _ _ hr] at h2
      have h3 := story_seen h2 (e := .answer t m none) (log' := (s.log ++ [.recv t m]) ++ [.answer t m none]) (outside_append _ _) rfl
        (fun u m' r e => by injection e with e1 e2 e3; subst e1; subst e2; subst e3; exact ⟨_, [], rfl, aside_nil⟩) (fun _ _ e => by cases e)
      rw [← hrun]
      refine ⟨[.seen (.recv t m), .effect t m none true, .seen (.answer t m none)], .inr rfl, ?_, ?_⟩
      · have e : ∀ a b c : Instant, h ++ [a, b, c] = h ++ [a] ++ [b] ++ [c] := fun a b c => by simp
        rw [e]
        exact h3
      · show StoryOf o L _ t (s.pc t)
        rw [hidle]; trivial
    · rename_i hr
      rw [if_neg (by rw [handler_now hi, hh]; simp)] at hrun
      injection hrun with hrun
      rw [← hrun]
      refine ⟨[.seen (.recv t m)], .inl rfl, h1, ?_⟩
      rw [pc_goto]
      refine .inl ⟨?_, hm.1, items_one hm, fun _ _ => rfl, h, [], rfl, aside_nil⟩
      show ESV.isRequest m.esv = true
      cases hq : ESV.isRequest m.esv with
      | true => rfl
      | false => exact absurd hq hr
  · cases hrun

theorem assign_now (o : Obj) (hw : WellFormed o) (c : Int) (d : Bytes) : thingOf (o.setPropertyData c d).1 = (thingOf o).assign c d := by
  rw [setPropertyData_eq o c d hw]
  refine thing_ext rfl fun c' => ?_
  show (lookup (afterWrites o [{ code := c, data := d }]).props c').map _ = if c' = c then _ else _
  rw [lookup_afterWrites]
  cases hl : lookup o.props c' with
  | none => simp [thingOf, hl]
  | some p =>
    by_cases hc : c' = c
    · subst hc
      simp [thingOf, hl, lastFor, CanRead, CanWrite]
    · have : c ≠ c' := fun e => hc e.symm
      simp [thingOf, hl, lastFor, hc, this]

/-- What is in the log stays in it. -/
theorem act_log {s s' : Sys} {a : Act} (h : s.act a = some s') : ∃ l, s'.log = s.log ++ l := by
  cases a with
  | recv t m =>
    simp only [Sys.act, Sys.recv] at h
    split at h
    · split at h
      · injection h with h; exact ⟨[.recv t m, .answer t m none], by rw [← h]; simp [Sys.emit]⟩
      · split at h
        · injection h with h; exact ⟨[.recv t m, .answer t m none], by rw [← h]; simp [Sys.emit]⟩
        · injection h with h; exact ⟨[.recv t m], by rw [← h]; rfl⟩
    · cases h
  | app c d =>
    injection h with h
    exact ⟨[.app c d], by rw [← h]; rfl⟩
  | run t =>
    simp only [Sys.act, Sys.run] at h
    split at h
    · cases h
    · cases h
    · injection h with h
      rw [← h]
      unfold Sys.check
      split <;> (try split) <;> (try split) <;> first | exact ⟨_, rfl⟩ | exact ⟨[], (List.append_nil _).symm⟩
    · injection h with h; exact ⟨_, by rw [← h]; rfl⟩
    · split at h
      · injection h with h; exact ⟨[], by rw [← h]; exact (List.append_nil _).symm⟩
      · injection h with h; exact ⟨_, by rw [← h]; rfl⟩

include hw hh in
theorem act_inv {s s' : Sys} (hi : SysInv o s) {a : Act} (h : s.act a = some s') : SysInv o s' :=
  exec_inv hw hh [a] s s' hi (by simp only [Sys.exec, h])

theorem version_now {s : Sys} (hi : SysInv o s) (ht : TameLog (thingOf o) L s.log) : Version o L s.obj := by
  refine ⟨_, hi.obj, ?_⟩
  intro i him
  obtain ⟨e, he, hei⟩ := List.mem_filterMap.mp him
  cases e with
  | store t c d =>
    injection hei with hei
    rw [← hei]
    obtain ⟨m, k, i, h1, h2, h3, h4⟩ := hi.writers t c d he
    exact (ht.1 t m h1).2 c (by rw [← h4]; exact items_write h2 h3) (thing_canSet o c d (hi.stores t c d he))
  | app c d =>
    injection hei with hei
    rw [← hei]
    exact ht.2 c d he
  | _ => cases hei

/-- The threads other than `t` stay where they are. -/
theorem act_pc {s s' : Sys} {a : Act} (h : s.act a = some s') (t : Nat) (ht : ∀ u m, a = .recv u m → u ≠ t) (ht' : a ≠ .run t) : s'.pc t = s.pc t := by
  have hgo : ∀ (s : Sys) u p, u ≠ t → (s.goto u p).pc t = s.pc t := fun s u p hu => if_neg fun e => hu e.symm
  cases a with
  | recv u m =>
    have hu := ht u m rfl
    simp only [Sys.act, Sys.recv] at h
    split at h
    · split at h
      · injection h with h; rw [← h]; rfl
      · split at h
        · injection h with h; rw [← h]; rfl
        · injection h with h; rw [← h]; exact hgo _ u _ hu
    · cases h
  | app c d => injection h with h; rw [← h]; rfl
  | run u =>
    have hu : u ≠ t := fun e => ht' (by rw [e])
    simp only [Sys.act, Sys.run] at h
    split at h
    · cases h
    · cases h
    · injection h with h
      rw [← h]
      unfold Sys.check
      split <;> (try split) <;> (try split) <;> exact hgo _ u _ hu
    · injection h with h; rw [← h]; exact hgo _ u _ hu
    · split at h
      · injection h with h; rw [← h]; exact hgo _ u _ hu
      · injection h with h; rw [← h]; exact hgo _ u _ hu

include hw hh in
/-- Whatever happens, the story goes on. -/
theorem act_goes {s s' : Sys} (hi : SysInv o s) {a : Act} (hact : s.act a = some s') (htame : TameLog (thingOf o) L s'.log) {h : List Instant} (hst : Story (thingOf o) s.log h (thingOf s.obj))
    (hall : ∀ u, StoryOf o L h u (s.pc u)) : ∃ n, Instant.bound a n ∧ Story (thingOf o) s'.log (h ++ n) (thingOf s'.obj) ∧ ∀ u, StoryOf o L (h ++ n) u (s'.pc u) := by
  obtain ⟨l, hl⟩ := act_log hact
  have ht0 : TameLog (thingOf o) L s.log := by rw [hl] at htame; exact htame.less
  have hx := version_now hi ht0
  have hgo : ∀ t n, (∀ u m, a = .recv u m → u = t) → (∀ u, a = .run u → u = t) → AllBy t n → StoryOf o L (h ++ n) t (s'.pc t) → ∀ u, StoryOf o L (h ++ n) u (s'.pc u) := by
    intro t n ht ht' h1 h3 u
    by_cases hu : u = t
    · rw [hu]; exact h3
    · rw [act_pc hact u (fun v m e => by rw [ht v m e]; exact fun e => hu e.symm) fun e => hu (ht' u e)]
      exact told_more (hall u) (h1.aside hu)
  cases a with
  | recv t m =>
    have hmem : Event.recv t m ∈ s'.log := by
      simp only [Sys.act, Sys.recv] at hact
      split at hact
      · split at hact
        · injection hact with h; rw [← h]; simp [Sys.emit]
        · split at hact
          · injection hact with h; rw [← h]; simp [Sys.emit]
          · injection hact with h; rw [← h]; simp [Sys.emit, Sys.goto]
      · cases hact
    obtain ⟨n, h1, h2, h3⟩ := recv_goes hh hi t m (htame.1 t m hmem).1 hact hst
    exact ⟨n, h1, h2, hgo t n (fun u m' e => by injection e with e; exact e.symm) (fun u e => by cases e) (bound_recv h1) h3⟩
  | run t =>
    obtain ⟨n, h1, h2, h3⟩ := run_goes hw hh hi ht0 hx t hact hst (hall t)
    exact ⟨n, h1, h2, hgo t n (fun u m' e => by cases e) (fun u e => by injection e with e; exact e.symm) h1 h3⟩
  | app c d =>
    injection hact with hact
    rw [← hact]
    refine ⟨_, rfl, story_seen hst (e := .app c d) (outside_append _ _) (assign_now s.obj (wellFormed_now hw hi) c d) (fun _ _ _ e => by cases e) (fun _ _ e => by cases e), fun u => ?_⟩
    refine told_more (hall u) fun x hx => ?_
    rw [List.mem_singleton.mp hx]
    exact id

theorem exec_log (acts : List Act) : ∀ s s', Sys.exec s acts = some s' → ∃ l, s'.log = s.log ++ l := by
  induction acts with
  | nil => intro s s' h; injection h with h; exact ⟨[], by rw [← h, List.append_nil]⟩
  | cons a acts ih =>
    intro s s' h
    simp only [Sys.exec] at h
    split at h
    · rename_i s1 h1
      obtain ⟨l1, e1⟩ := act_log h1
      obtain ⟨l2, e2⟩ := ih s1 s' h
      exact ⟨l1 ++ l2, by rw [e2, e1, List.append_assoc]⟩
    · cases h

include hw hh in
theorem exec_goes (acts : List Act) : ∀ s s' h, SysInv o s → s.exec acts = some s' → TameLog (thingOf o) L s'.log → Story (thingOf o) s.log h (thingOf s.obj) → (∀ u, StoryOf o L h u (s.pc u)) →
    ∃ h', Story (thingOf o) s'.log h' (thingOf s'.obj) ∧ ∀ u, StoryOf o L h' u (s'.pc u) := by
  induction acts with
  | nil => intro s s' h _ he _ hst hall; injection he with he; rw [← he]; exact ⟨h, hst, hall⟩
  | cons a acts ih =>
    intro s s' h hi he ht hst hall
    simp only [Sys.exec] at he
    split at he
    · rename_i s1 h1
      obtain ⟨l, hl⟩ := exec_log acts s1 s' he
      obtain ⟨n, -, h2, h3⟩ := act_goes hw hh hi h1 (by rw [hl] at ht; exact ht.less) hst hall
      exact ih s1 s' _ (act_inv hw hh hi h1) he ht h2 h3
    · cases he

theorem story_nil (t : Thing) : Story t [] [] t := by
  refine ⟨rfl, rfl, ?_, ?_, ?_⟩ <;> (intros; rename_i e; have := congrArg List.length e; simp at this)

end

end Uecho
