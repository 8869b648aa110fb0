import Verif.Spec.Crowd
import Verif.Lemmas.Atomic
import Verif.Lemmas.Closed
import Verif.Props.Device

namespace Uecho
open Spec Par Crowd

/-! ### Who did something last -/

/-- `x` is the last thing thread `t` had to do with. -/
def LastBy (t : Nat) (h : List Instant) (x : Instant) : Prop := ∃ a d, h = a ++ x :: d ∧ Aside t d

theorem lastBy_unique {t : Nat} {h : List Instant} {x y : Instant} (hx : LastBy t h x) (hy : LastBy t h y) (bx : x.isBy t) (byy : y.isBy t) : x = y := by
  obtain ⟨a, d, h1, h2⟩ := hx
  obtain ⟨a', d', h3, h4⟩ := hy
  rw [h1] at h3
  rcases List.append_eq_append_iff.mp h3 with ⟨c, h5, h6⟩ | ⟨c, h5, h6⟩
  · cases c with
    | nil => injection h6
    | cons z c =>
      injection h6 with h6 h7
      exact absurd byy (h2 y (by rw [h7]; simp))
  · cases c with
    | nil => injection h6 with h6; exact h6.symm
    | cons z c =>
      injection h6 with h6 h7
      exact absurd bx (h4 x (by rw [h7]; simp))

theorem lastBy_snoc (t : Nat) (h : List Instant) (x : Instant) : LastBy t (h ++ [x]) x := ⟨h, [], rfl, aside_nil⟩

theorem lastBy_more {t : Nat} {h : List Instant} {x : Instant} (hx : LastBy t h x) {n : List Instant} (hn : Aside t n) : LastBy t (h ++ n) x := by
  obtain ⟨a, d, h1, h2⟩ := hx
  exact ⟨a, d ++ n, by rw [h1]; simp, fun y hy => (List.mem_append.mp hy).elim (h2 y) (hn y)⟩

/-- How a message ends, with which outcome. -/
def Closes (t : Nat) (e : Par.Event) (m : Msg) (r : Option Msg) (b : Bool) : Prop := (e = .answer t m r ∧ b = true) ∨ (e = .crash t m ∧ r = none ∧ b = false)

theorem closes_by {t : Nat} {e : Par.Event} {m : Msg} {r : Option Msg} {b : Bool} (h : Closes t e m r b) : (Instant.seen e).isBy t ∧ ∀ m', e ≠ .recv t m' := by
  rcases h with ⟨rfl, -⟩ | ⟨rfl, -⟩ <;> exact ⟨rfl, fun _ e => by cases e⟩

section
variable {o o' : Thing} {log : List Par.Event} {H : List Instant} (hst : Story o log H o')
include hst

theorem effect_prev {l l' : List Instant} {t : Nat} {m : Msg} {r : Option Msg} {b : Bool} (h : H = l ++ .effect t m r b :: l') : LastBy t l (.seen (.recv t m)) := hst.after l t m r b l' h

theorem closes_prev {l l' : List Instant} {t : Nat} {e : Par.Event} {m : Msg} {r : Option Msg} {b : Bool} (hc : Closes t e m r b) (h : H = l ++ .seen e :: l') : LastBy t l (.effect t m r b) := by
  rcases hc with ⟨rfl, rfl⟩ | ⟨rfl, rfl, rfl⟩
  · exact hst.answers l t m r l' h
  · exact hst.ends l t m l' h

end

theorem observed_cons_seen (e : Par.Event) (n : List Instant) : observed (.seen e :: n) = e :: observed n := rfl
theorem observed_cons_effect (t : Nat) (m : Msg) (r : Option Msg) (b : Bool) (n : List Instant) : observed (.effect t m r b :: n) = observed n := rfl

/-- What a step of a thread in the middle of a message can add to the story. -/
theorem run_pieces {o o' : Thing} {log : List Par.Event} {h n : List Instant} (hst : Story o log (h ++ n) o') {t : Nat} (hn : AllBy t n) {m : Msg}
    (hl : LastBy t h (.seen (.recv t m)) ∨ ∃ r b, LastBy t h (.effect t m r b)) :
    (observed n = [] → n = [] ∨ (LastBy t h (.seen (.recv t m)) ∧ ∃ r b, n = [.effect t m r b])) ∧
    ∀ e m' r b, Closes t e m' r b → observed n = [e] → m' = m ∧ ((LastBy t h (.seen (.recv t m)) ∧ n = [.effect t m r b, .seen e]) ∨ (LastBy t h (.effect t m r b) ∧ n = [.seen e])) := by
  -- an effect at the head of `n`
  have key : ∀ {t1 m1 r1 b1 n'}, n = Instant.effect t1 m1 r1 b1 :: n' → t1 = t ∧ m1 = m ∧ LastBy t h (.seen (.recv t m)) := by
    intro t1 m1 r1 b1 n' e
    have ht : t1 = t := hn (.effect t1 m1 r1 b1) (by rw [e]; exact List.mem_cons_self)
    subst ht
    have h1 := effect_prev hst (l := h) (l' := n') (by rw [e])
    rcases hl with hl | ⟨r, b, hl⟩
    · have := lastBy_unique h1 hl rfl rfl
      injection this with this
      injection this with _ this
      exact ⟨rfl, this, hl⟩
    · exact absurd (lastBy_unique h1 hl rfl rfl) (by intro e; cases e)
  -- after something of this thread that is not its reading there is no effect
  have stop : ∀ {l x n'}, h ++ n = l ++ [x] ++ n' → x.isBy t → (∀ m', x ≠ .seen (.recv t m')) → observed n' = [] → (∀ y ∈ n', y ∈ n) → n' = [] := by
    intro l x n' e hx hx' ho hsub
    cases n' with
    | nil => rfl
    | cons y n'' =>
      cases y with
      | seen e' => cases ho
      | effect t1 m1 r1 b1 =>
        have ht : t1 = t := hn _ (hsub _ List.mem_cons_self)
        subst ht
        have h1 := effect_prev hst (l := l ++ [x]) (l' := n'') e
        exact absurd (lastBy_unique h1 (lastBy_snoc t1 l x) rfl hx).symm (hx' m1)
  constructor
  · intro ho
    cases hnn : n with
    | nil => exact .inl rfl
    | cons x n' =>
      cases x with
      | seen e => rw [hnn] at ho; cases ho
      | effect t1 m1 r1 b1 =>
        obtain ⟨rfl, rfl, hrecv⟩ := key hnn
        have := stop (l := h) (x := .effect t1 m1 r1 b1) (n' := n') (by rw [hnn]; simp) rfl (fun _ e => by cases e) (by rw [hnn] at ho; exact ho) (fun y hy => by rw [hnn]; exact List.mem_cons_of_mem _ hy)
        exact .inr ⟨hrecv, r1, b1, by rw [this]⟩
  · intro e m' r b hc ho
    obtain ⟨c1, c2⟩ := closes_by hc
    cases hnn : n with
    | nil => rw [hnn] at ho; cases ho
    | cons x n' =>
      rw [hnn] at ho
      cases x with
      | seen e' =>
        rw [observed_cons_seen] at ho
        injection ho with ho1 ho2
        subst ho1
        have h1 := closes_prev hst hc (l := h) (l' := n') (by rw [hnn])
        rcases hl with hl | ⟨r', b', hl⟩
        · exact absurd (lastBy_unique h1 hl rfl rfl) (by intro e; cases e)
        · have h2 := lastBy_unique h1 hl rfl rfl
          injection h2 with _ h3 h4 h5
          subst h3; subst h4; subst h5
          have := stop (l := h) (x := .seen e') (n' := n') (by rw [hnn]; simp) c1 (fun m' e => c2 m' (by injection e)) ho2 (fun y hy => by rw [hnn]; exact List.mem_cons_of_mem _ hy)
          exact ⟨rfl, .inr ⟨hl, by rw [this]⟩⟩
      | effect t1 m1 r1 b1 =>
        rw [observed_cons_effect] at ho
        obtain ⟨rfl, rfl, hrecv⟩ := key hnn
        cases n' with
        | nil => cases ho
        | cons y n'' =>
          cases y with
          | effect t2 m2 r2 b2 =>
            have ht : t2 = t1 := hn (.effect t2 m2 r2 b2) (by rw [hnn]; simp)
            subst ht
            have h1 := effect_prev hst (l := h ++ [.effect t2 m1 r1 b1]) (l' := n'') (t := t2) (m := m2) (r := r2) (b := b2) (by rw [hnn]; simp)
            exact absurd (lastBy_unique h1 (lastBy_snoc _ _ _) rfl rfl) (by intro e; cases e)
          | seen e' =>
            rw [observed_cons_seen] at ho
            injection ho with ho1 ho2
            subst ho1
            have h1 := closes_prev hst hc (l := h ++ [.effect t1 m1 r1 b1]) (l' := n'') (by rw [hnn]; simp)
            have h2 := lastBy_unique h1 (lastBy_snoc _ _ _) rfl rfl
            injection h2 with _ h3 h4 h5
            subst h3; subst h4; subst h5
            have := stop (l := h ++ [.effect t1 m' r b]) (x := .seen e') (n' := n'') (by rw [hnn]; simp) c1 (fun m' e => c2 m' (by injection e)) ho2
              (fun y hy => by rw [hnn]; simp [hy])
            exact ⟨rfl, .inl ⟨hrecv, by rw [this]⟩⟩

theorem oneAtATime_unique (h : List Instant) : ∀ {t u v : Thing}, OneAtATime t h u → OneAtATime t h v → u = v := by
  induction h with
  | nil => intro t u v hu hv; rw [show u = t from hu, show v = t from hv]
  | cons x h ih =>
    intro t u v hu hv
    cases x with
    | effect => exact ih hu.2 hv.2
    | seen e => cases e <;> exact ih hu hv

/-- What is new in a longer story. -/
theorem story_new {o u o' : Thing} {log log' : List Par.Event} {h n : List Instant} (h1 : Story o log h u) (h2 : Story o log' (h ++ n) o') : OneAtATime u n o' := by
  obtain ⟨v, hv, hv'⟩ := (oneAtATime_append _ _ _ _).mp h2.effects
  rw [oneAtATime_unique h h1.effects hv]
  exact hv'

theorem observed_new {o u o' : Thing} {log l : List Par.Event} {h n : List Instant} (h1 : Story o log h u) (h2 : Story o (log ++ l) (h ++ n) o') : observed n = outside l := by
  have := h2.same
  rw [observed_append, outside_append, h1.same] at this
  exact List.append_cancel_left this

/-! ### Steps of the thread model -/

theorem recv_cases {s s' : Sys} {t : Nat} {m : Msg} (hh : s.obj.handler = .self_) (h : s.recv t m = some s') :
    (s'.pc t = .idle ∧ s'.log = s.log ++ [.recv t m, .answer t m none]) ∨ ((∃ f, s'.pc t = .next f) ∧ s'.log = s.log ++ [.recv t m]) := by
  unfold Sys.recv at h
  split at h
  · rename_i hidle
    split at h
    · injection h with h
      rw [← h]
      exact .inl ⟨hidle, by simp [Sys.emit]⟩
    · rw [if_neg (by rw [hh]; simp)] at h
      injection h with h
      rw [← h]
      exact .inr ⟨⟨_, pc_goto _ _ _⟩, rfl⟩
  · cases h

theorem run_cases {s s' : Sys} {t : Nat} (h : s.run t = some s') :
    (s'.pc t ≠ .idle ∧ s'.pc t ≠ .crashed ∧ ∃ l, s'.log = s.log ++ l ∧ outside l = []) ∨
    (s'.pc t = .idle ∧ ∃ m, s'.log = s.log ++ [.answer t m (ending (s.pc t))]) ∨
    (s'.pc t = .crashed ∧ ∃ m, s'.log = s.log ++ [.crash t m]) := by
  have hgo : ∀ p, p ≠ PC.idle → p ≠ .crashed → ((s.goto t p).pc t ≠ .idle ∧ (s.goto t p).pc t ≠ .crashed ∧ ∃ l, (s.goto t p).log = s.log ++ l ∧ outside l = []) := by
    intro p h1 h2
    rw [pc_goto]
    exact ⟨h1, h2, [], (List.append_nil _).symm, rfl⟩
  unfold Sys.run at h
  split at h
  · cases h
  · cases h
  · rename_i f hpc
    injection h with h
    rw [← h]
    unfold Sys.check
    split
    · exact .inr (.inl ⟨pc_goto _ _ _, f.req, by rw [hpc]; rfl⟩)
    all_goals (try split) <;> (try split)
    all_goals first
      | exact .inl (hgo _ (fun e => by cases e) (fun e => by cases e))
      | exact .inr (.inr ⟨pc_goto _ _ _, _, rfl⟩)
  · injection h with h
    rw [← h]
    refine .inl ⟨?_, ?_, _, rfl, rfl⟩
    · show Sys.pc (Sys.goto _ t _) t ≠ _
      rw [pc_goto]; exact fun e => by cases e
    · show Sys.pc (Sys.goto _ t _) t ≠ _
      rw [pc_goto]; exact fun e => by cases e
  · split at h
    · injection h with h; rw [← h]; exact .inl (hgo _ (fun e => by cases e) (fun e => by cases e))
    · injection h with h; rw [← h]; exact .inr (.inr ⟨pc_goto _ _ _, _, rfl⟩)

/-! ### Beats -/

def Beat.isBy (t : Nat) : Beat → Prop
  | .seen (.recv u _ _) => u = t
  | .seen (.sent u _) => u = t
  | .seen (.ended u) => u = t
  | .seen (.app ..) => False
  | .seen (.call ..) => False
  | .effect u _ _ _ _ => u = t

theorem phase_other {t : Nat} {x : Beat} (h : ¬ Beat.isBy t x) (p : Phase) : p.next t x = some p := by
  cases x with
  | effect u d a l b => exact if_neg (show ¬ u = t from h)
  | seen e => cases e with
    | recv u d a => exact if_neg (show ¬ u = t from h)
    | sent u l => exact if_neg (show ¬ u = t from h)
    | ended u => exact if_neg (show ¬ u = t from h)
    | app => rfl
    | call => rfl

theorem beats_append (t : Nat) (n : List Beat) : ∀ (h : List Beat) (p : Phase), Phase.after t p (h ++ n) = (Phase.after t p h).bind fun q => Phase.after t q n := by
  intro h
  induction h with
  | nil => intro p; rfl
  | cons x h ih =>
    intro p
    simp only [List.cons_append, Phase.after]
    cases p.next t x with
    | none => rfl
    | some q => exact ih q

theorem beats_other {t : Nat} {n : List Beat} (h : ∀ x ∈ n, ¬ Beat.isBy t x) : ∀ p, Phase.after t p n = some p := by
  induction n with
  | nil => intro p; rfl
  | cons x n ih =>
    intro p
    simp only [Phase.after, phase_other (h x List.mem_cons_self) p]
    exact ih (fun y hy => h y (List.mem_cons_of_mem _ hy)) p

theorem beats_more {t : Nat} {h n : List Beat} (hn : ∀ x ∈ n, ¬ Beat.isBy t x) (p : Phase) : Phase.after t p (h ++ n) = Phase.after t p h := by
  rw [beats_append]
  cases Phase.after t p h with
  | none => rfl
  | some q => exact beats_other hn q

theorem inTurn_append (n : List Beat) : ∀ (h : List Beat) (D D' : RefDevice), InTurn D (h ++ n) D' ↔ ∃ E, InTurn D h E ∧ InTurn E n D' := by
  intro h
  induction h with
  | nil => intro D D'; exact ⟨fun h => ⟨D, rfl, h⟩, fun ⟨E, h1, h2⟩ => by rw [show E = D from h1] at h2; exact h2⟩
  | cons x h ih =>
    intro D D'
    cases x with
    | effect u d a l b =>
      simp only [List.cons_append, InTurn, ih]
      exact ⟨fun ⟨h1, v, h2, h3⟩ => ⟨v, ⟨h1, h2⟩, h3⟩, fun ⟨v, ⟨h1, h2⟩, h3⟩ => ⟨h1, v, h2, h3⟩⟩
    | seen e =>
      cases e with
      | call k l r =>
        simp only [List.cons_append, InTurn, ih]
        exact ⟨fun ⟨h1, v, h2, h3⟩ => ⟨v, ⟨h1, h2⟩, h3⟩, fun ⟨v, ⟨h1, h2⟩, h3⟩ => ⟨h1, v, h2, h3⟩⟩
      | _ => simp only [List.cons_append, InTurn, ih]

def beatsSeen (h : List Beat) : List Happening := h.filterMap fun | .seen e => some e | .effect .. => none

theorem beatsSeen_append (a b : List Beat) : beatsSeen (a ++ b) = beatsSeen a ++ beatsSeen b := List.filterMap_append

/-! ### What a device sends -/

def sendsOf (D : RefDevice) (a : Addr) : Option Msg → List Sent
  | none => []
  | some r => D.sends r a

/-- An answer that can be sent. -/
def Fits (r : Option Msg) : Prop := ∀ x, r = some x → Encodable x ∧ x.tid ≠ 0 ∧ ESV.isNotification x.esv = decide (x.esv = 0x73)

theorem device_effect {D : RefDevice} (hc : D.ctl = false) {d : Bytes} {a : Addr} {w : Msg} (hr : readMsg (d.take 1024) = some w) (htid : w.tid ≠ 0) {u : Thing} (hu : D.things w.deoj = some u)
    {r : Option Msg} {b : Bool} (hx : (u.actual { w with fromAddr := some a }).2 = (r, b)) :
    D.actual d a = (D.setThing w.deoj (u.actual { w with fromAddr := some a }).1, sendsOf D a r, b) := by
  have e : u.actual { w with fromAddr := some a } = u.actual w := rfl
  rw [e] at hx ⊢
  unfold RefDevice.actual
  rw [hr]
  simp only []
  rw [hu]
  simp only []
  have h1 : (u.actual w).2.1 = r := by rw [hx]
  have h2 : (u.actual w).2.2 = b := by rw [hx]
  rw [h1, h2]
  cases r with
  | none => rfl
  | some r =>
    have ht := actual_head u w r h1
    have hctl : (D.setThing w.deoj (u.actual w).1).ctl = false := hc
    simp only [hctl]
    simp only [Bool.false_eq_true, if_false]
    rw [if_neg (show ¬ r.tid = 0 by rw [ht]; exact htid)]
    rfl

/-! ### The invariant -/

/-- The stories of the objects, with a new piece for one of them. -/
def upd (hs : Int → List Instant) (c : Int) (n : List Instant) : Int → List Instant := fun c' => if c' = c then hs c ++ n else hs c'

/-- A thread that is in an object: the story of the object and that of the node agree about how far it is. -/
def Linked (n0 : LocalNode) (H : List Beat) (h : List Instant) (t : Nat) (req : Msg) : Prop :=
  ∃ d a w, readMsg (d.take 1024) = some w ∧ w.tid ≠ 0 ∧ req = { w with fromAddr := some a } ∧
    ((LastBy t h (.seen (.recv t req)) ∧ Phase.after t .free H = some (.got d a)) ∨
      ∃ r b, LastBy t h (.effect t req r b) ∧ Phase.after t .free H = some (.did (sendsOf (deviceOf n0) a r) b) ∧ Fits r)

/-- At most one beat is one that does something. -/
def Brief (N : List Beat) : Prop := (N.filterMap Beat.use).length ≤ 1

theorem brief_of {N : List Beat} (h : (N.filterMap Beat.use).length ≤ 1) : Brief N := h

def ThreadInv (n0 : LocalNode) (H : List Beat) (hs : Int → List Instant) (t : Nat) : Place → Prop
  | .free => Phase.after t .free H = some .free
  | .dead => Phase.after t .free H = some .over
  | .inside req => Linked n0 H (hs req.deoj) t req
  | .sending req r => ∃ a, req.fromAddr = some a ∧ Phase.after t .free H = some (.did (sendsOf (deviceOf n0) a r) true) ∧ Fits r

/-- The objects and their stories. -/
def ObjsInv (n0 : LocalNode) (L : Int → Int → Prop) (hs : Int → List Instant) (objs : Int → Option Sys) : Prop :=
  ∀ c, match n0.getObject (.int c) with
    | none => objs c = none
    | some o => ∃ s, objs c = some s ∧ SysInv o s ∧ TameLog (thingOf o) (L c) s.log ∧ Story (thingOf o) s.log (hs c) (thingOf s.obj) ∧ ∀ u, StoryOf o (L c) (hs c) u (s.pc u)

structure CrowdInv (n0 : LocalNode) (L : Int → Int → Prop) (H : List Beat) (hs : Int → List Instant) (G : St) : Prop where
  ctl : G.node.controller = false
  servers : G.node.mgr.servers = n0.mgr.servers
  objs : ObjsInv n0 L hs G.objs
  same : beatsSeen H = G.log
  inTurn : InTurn (deviceOf n0) H (crowdDevice G)
  short : Short (crowdDevice G)
  threads : ∀ t, ThreadInv n0 H hs t (G.places t)

theorem threads_other {n0 : LocalNode} {H N : List Beat} {hs : Int → List Instant} {c : Int} {n : List Instant} {u : Nat} (hN : ∀ x ∈ N, ¬ Beat.isBy u x) (hn : Aside u n) {p : Place}
    (h : ThreadInv n0 H hs u p) : ThreadInv n0 (H ++ N) (upd hs c n) u p := by
  cases p with
  | free => show Phase.after _ _ _ = _; rw [beats_more hN]; exact h
  | dead => show Phase.after _ _ _ = _; rw [beats_more hN]; exact h
  | sending req r =>
    obtain ⟨a, h1, h2, h3⟩ := h
    exact ⟨a, h1, by rw [beats_more hN]; exact h2, h3⟩
  | inside req =>
    obtain ⟨d, a, w, h1, h2, h3, h4⟩ := h
    have hl : ∀ x, LastBy u (hs req.deoj) x → LastBy u (upd hs c n req.deoj) x := by
      intro x hx
      unfold upd
      split
      · rename_i e; rw [← e]; exact lastBy_more hx hn
      · exact hx
    refine ⟨d, a, w, h1, h2, h3, ?_⟩
    rw [beats_more hN]
    rcases h4 with ⟨h5, h6⟩ | ⟨r, b, h5, h6, h7⟩
    · exact .inl ⟨hl _ h5, h6⟩
    · exact .inr ⟨r, b, hl _ h5, h6, h7⟩

theorem beat_unique {x : Beat} {t u : Nat} (h1 : Beat.isBy t x) (h2 : Beat.isBy u x) : u = t := by
  cases x with
  | effect v => exact (show v = u from h2).symm.trans h1
  | seen e => cases e with
    | recv v => exact (show v = u from h2).symm.trans h1
    | sent v => exact (show v = u from h2).symm.trans h1
    | ended v => exact (show v = u from h2).symm.trans h1
    | app => exact absurd h1 id
    | call => exact absurd h1 id

theorem upd_nil (hs : Int → List Instant) (c : Int) : upd hs c [] = hs := by
  funext c'
  unfold upd
  split
  · rename_i e; rw [List.append_nil, e]
  · rfl

theorem tame_more {T : Thing} {L : Int → Prop} {a l : List Par.Event} (h : TameLog T L a) (h1 : ∀ t m, Par.Event.recv t m ∈ l → OneOf L m ∧ ∀ c, Alters m c → T.canSet c = true → L c)
    (h2 : ∀ c d, Par.Event.app c d ∈ l → L c) : TameLog T L (a ++ l) :=
  ⟨fun t m hm => (List.mem_append.mp hm).elim (h.1 t m) (h1 t m), fun c d hm => (List.mem_append.mp hm).elim (h.2 c d) (h2 c d)⟩

section
variable {n0 : LocalNode} (hobj : ∀ c o, n0.getObject (.int c) = some o → WellFormed o ∧ o.handler = .self_) (hctl : n0.controller = false) (hcan : CanSend n0.mgr) {net : Net} (hnet : NetWorks net)
  {L : Int → Int → Prop}

include hobj in
/-- A step in an object. -/
theorem objs_step {hs : Int → List Instant} {objs : Int → Option Sys} (h : ObjsInv n0 L hs objs) {c : Int} {s s' : Sys} (hc : objs c = some s) {a : Par.Act} (hact : s.act a = some s')
    (htame : ∀ o, n0.getObject (.int c) = some o → TameLog (thingOf o) (L c) s'.log) :
    ∃ o n, Instant.bound a n ∧ s.obj.handler = .self_ ∧ Story (thingOf o) s.log (hs c) (thingOf s.obj) ∧ Story (thingOf o) s'.log (hs c ++ n) (thingOf s'.obj) ∧
      ObjsInv n0 L (upd hs c n) fun c' => if c' = c then some s' else objs c' := by
  have hk := h c
  cases ho : n0.getObject (.int c) with
  | none => rw [ho] at hk; rw [show objs c = none from hk] at hc; cases hc
  | some o =>
    rw [ho] at hk
    obtain ⟨s1, h1, h2, h3, h4, h5⟩ := hk
    rw [hc] at h1
    injection h1 with h1
    subst h1
    obtain ⟨hw, hh⟩ := hobj c o ho
    have htame := htame o ho
    obtain ⟨n, k1, k2, k3⟩ := act_goes hw hh h2 hact htame h4 h5
    refine ⟨o, n, k1, (handler_now h2).trans hh, h4, k2, fun c' => ?_⟩
    by_cases hcc : c' = c
    · subst hcc
      rw [ho]
      refine ⟨s', if_pos rfl, act_inv hw hh h2 hact, htame, ?_, ?_⟩
      · unfold upd; rw [if_pos rfl]; exact k2
      · unfold upd; rw [if_pos rfl]; exact k3
    · have := h c'
      unfold upd
      simp only [if_neg hcc]
      exact this

theorem put_device (G : St) (c : Int) (s : Sys) : crowdDevice (G.put c s) = (crowdDevice G).setThing c (thingOf s.obj) := by
  refine device_ext (fun x => ?_) rfl rfl rfl
  show ((if x = c then some s else G.objs x).map fun s => thingOf s.obj) = if x = c then _ else (G.objs x).map _
  split <;> rfl

theorem things_now {G : St} {c : Int} {s : Sys} (h : G.objs c = some s) : (crowdDevice G).things c = some (thingOf s.obj) := by
  show (G.objs c).map _ = _
  rw [h]; rfl

theorem sends_same {D D' : RefDevice} (h : D.ifs = D'.ifs) (a : Addr) (r : Option Msg) : sendsOf D a r = sendsOf D' a r := by
  cases r with
  | none => rfl
  | some r => unfold sendsOf RefDevice.sends; rw [h]

theorem short_thing {D : RefDevice} (h : Short D) {c : Int} {t : Thing} (hc : D.things c = some t) : ShortThing t := by
  intro p e he
  refine h c p e ?_
  unfold RefDevice.entry
  rw [hc]; exact he

/-- A datagram takes effect. -/
theorem effect_step {D D0 : RefDevice} (hifs : D.ifs = D0.ifs) (hc : D.ctl = false) (hs : Short D) {d : Bytes} {a : Addr} {w : Msg} (hr : readMsg (d.take 1024) = some w) (htid : w.tid ≠ 0) {u : Thing}
    (hu : D.things w.deoj = some u) {r : Option Msg} {b : Bool} (hx : (u.actual { w with fromAddr := some a }).2 = (r, b)) (t : Nat) :
    InTurn D [.effect t d a (sendsOf D0 a r) b] (D.setThing w.deoj (u.actual { w with fromAddr := some a }).1) ∧ Short (D.setThing w.deoj (u.actual { w with fromAddr := some a }).1) ∧ Fits r := by
  have he := device_effect hc hr htid hu hx
  refine ⟨⟨?_, ?_⟩, ?_, ?_⟩
  · rw [he, sends_same hifs]
  · rw [he]; rfl
  · have := actual_short hs d a
    rw [he] at this
    exact this
  · intro x hr'
    have h1 : (u.actual w).2.1 = some x := by
      rw [show u.actual w = u.actual { w with fromAddr := some a } from rfl, hx, hr']
    obtain ⟨k1, -⟩ := thing_reply (short_thing hs hu) (readMsg_sound _ _ hr).1 h1
    exact ⟨k1, by rw [actual_head u w x h1]; exact htid, notification_only u w x h1⟩

include hctl in
theorem CrowdInv.dctl {H : List Beat} {hs : Int → List Instant} {G : St} (h : CrowdInv n0 L H hs G) : (crowdDevice G).ctl = false := h.ctl

theorem CrowdInv.ifs {H : List Beat} {hs : Int → List Instant} {G : St} (h : CrowdInv n0 L H hs G) : (crowdDevice G).ifs = (deviceOf n0).ifs := by
  show (working G.node.mgr.servers).map _ = (working n0.mgr.servers).map _
  rw [h.servers]

theorem short_assign {t : Thing} (h : ShortThing t) (p : Int) {v : Bytes} (hv : v.length < 256) : ShortThing (t.assign p v) := by
  intro c e he
  unfold Thing.assign at he
  simp only [] at he
  split at he
  · obtain ⟨e0, h0, rfl⟩ := Option.map_eq_some_iff.mp he
    exact hv
  · exact h c e he

theorem short_set {D : RefDevice} (h : Short D) {c : Int} {t : Thing} (ht : ShortThing t) : Short (D.setThing c t) := by
  intro o p e he
  unfold RefDevice.entry RefDevice.setThing at he
  simp only [] at he
  split at he
  · exact ht p e he
  · exact h o p e he

include hobj in
/-- The program sets data. -/
theorem app_step {H : List Beat} {hs : Int → List Instant} {G G' : St} (h : CrowdInv n0 L H hs G) {c p : Int} {v : Bytes} (hact : G.app c p v = some G') (hl : L c p) (hv : v.length < 256) :
    ∃ N hs', CrowdInv n0 L (H ++ N) hs' G' ∧ Brief N := by
  unfold St.app at hact
  cases hc : G.objs c with
  | none => rw [hc] at hact; cases hact
  | some s =>
    rw [hc] at hact
    injection hact with hact
    subst hact
    have htame : ∀ o, n0.getObject (.int c) = some o → TameLog (thingOf o) (L c) s.log := by
        intro o ho
        have := h.objs c
        rw [ho] at this
        obtain ⟨s1, h1, -, h3, -⟩ := this
        rw [hc] at h1; injection h1 with h1; rw [h1]; exact h3
    obtain ⟨o, n, hn, hh, h1, h2, h3⟩ := objs_step hobj h.objs hc (a := .app p v) rfl (fun o ho => tame_more (htame o ho) (fun t m hm => by simp at hm) (fun c' d hm => by
      simp only [List.mem_singleton, Par.Event.app.injEq] at hm; rw [hm.1]; exact hl))
    have hnew := story_new h1 h2
    rw [show n = [.seen (.app p v)] from hn] at hnew
    have hthing : thingOf (s.app p v).obj = (thingOf s.obj).assign p v := hnew
    have hdev : crowdDevice ((G.put c (s.app p v)).emit (.app c p v)) = (crowdDevice G).setThing c ((thingOf s.obj).assign p v) := by
      rw [show crowdDevice ((G.put c (s.app p v)).emit (.app c p v)) = crowdDevice (G.put c (s.app p v)) from rfl, put_device, hthing]
    refine ⟨[.seen (.app c p v)], upd hs c n, ⟨h.ctl, h.servers, h3, ?_, ?_, ?_, ?_⟩, brief_of (by first | exact Nat.le_refl 1 | exact Nat.zero_le 1)⟩
    · rw [beatsSeen_append, h.same]; rfl
    · refine (inTurn_append _ _ _ _).mpr ⟨_, h.inTurn, ?_⟩
      show _ = RefDevice.assign _ _ _ _
      unfold RefDevice.assign
      rw [things_now hc, hdev]
    · rw [hdev]
      exact short_set h.short (short_assign (short_thing h.short (things_now hc)) p hv)
    · intro t
      refine threads_other (fun x hx => ?_) (fun x hx => ?_) (h.threads t)
      · rw [List.mem_singleton.mp hx]; exact id
      · rw [show n = [.seen (.app p v)] from hn] at hx
        rw [List.mem_singleton.mp hx]; exact id

/-- What a device says does not depend on its objects. -/
theorem says_setThings (D : RefDevice) (f : Int → Option Thing) (k : Speech) : RefDevice.says { D with things := f } k = ({ (D.says k).1 with things := f }, (D.says k).2) := by
  cases k with
  | announce m =>
    simp only [RefDevice.says, RefDevice.announce]
    split <;> rfl
  | send m a =>
    cases a with
    | none => rfl
    | some a =>
      simp only [RefDevice.says, RefDevice.send]
      split <;> rfl

theorem says_things (D : RefDevice) (k : Speech) : (D.says k).1.things = D.things := by
  cases k with
  | announce m =>
    simp only [RefDevice.says, RefDevice.announce]
    split <;> rfl
  | send m a =>
    cases a with
    | none => rfl
    | some a =>
      simp only [RefDevice.says, RefDevice.send]
      split <;> rfl

theorem given_toOption (r : Except Exc Bool) : given r = givenBy r.toOption := by
  cases r <;> rfl

/-- A call, exactly. -/
theorem call_exact {net : Net} (hnet : NetWorks net) {G : St} (hcs : CanSend G.node.mgr) (k : Speech) :
    ∃ r, (G.call net k).log = G.log ++ [.call k ((crowdDevice G).says k).2.1 r] ∧ givenBy r = ((crowdDevice G).says k).2.2 ∧ crowdDevice (G.call net k) = ((crowdDevice G).says k).1 ∧
      (G.call net k).node.mgr.log.map Prod.fst = G.node.mgr.log.map Prod.fst ++ ((crowdDevice G).says k).2.1 ∧
      (G.call net k).node.mgr.servers = G.node.mgr.servers ∧ (G.call net k).node.controller = G.node.controller := by
  have hD : crowdDevice G = { deviceOf G.node with things := (crowdDevice G).things } := rfl
  have key : ∀ (q : LocalNode × Msg × Except Exc Bool), (G.call net k) = ({ G with node := q.1 } : St).emit (.call k ((q.1.mgr.log.drop G.node.mgr.log.length).map Prod.fst) q.2.2.toOption) →
      deviceOf q.1 = ((deviceOf G.node).says k).1 → given q.2.2 = ((deviceOf G.node).says k).2.2 → q.1.mgr.log = G.node.mgr.log ++ ((deviceOf G.node).says k).2.1.map (fun s => (s, (s.bytes.length : Int))) →
      q.1.mgr.servers = G.node.mgr.servers → q.1.controller = G.node.controller →
      ∃ r, (G.call net k).log = G.log ++ [.call k ((crowdDevice G).says k).2.1 r] ∧ givenBy r = ((crowdDevice G).says k).2.2 ∧ crowdDevice (G.call net k) = ((crowdDevice G).says k).1 ∧
        (G.call net k).node.mgr.log.map Prod.fst = G.node.mgr.log.map Prod.fst ++ ((crowdDevice G).says k).2.1 ∧
        (G.call net k).node.mgr.servers = G.node.mgr.servers ∧ (G.call net k).node.controller = G.node.controller := by
    intro q hq h1 h2 h3 h4 h5
    have hs : (crowdDevice G).says k = ({ ((deviceOf G.node).says k).1 with things := (crowdDevice G).things }, ((deviceOf G.node).says k).2) := by
      rw [hD, says_setThings]
    have hid : ∀ l : List Sent, (l.map fun s => (s, (s.bytes.length : Int))).map Prod.fst = l := by
      intro l
      rw [List.map_map]
      exact List.map_id' _
    rw [hs]
    refine ⟨q.2.2.toOption, ?_, by rw [← given_toOption]; exact h2, ?_, ?_, by rw [hq]; exact h4, by rw [hq]; exact h5⟩
    · rw [hq, h3, List.drop_left, hid]; rfl
    · rw [hq, ← h1]; rfl
    · rw [hq]
      show q.1.mgr.log.map Prod.fst = _
      rw [h3, List.map_append, hid]
  cases k with
  | announce m =>
    obtain ⟨a1, a2, a3⟩ := announce_exact net hnet G.node hcs m
    exact key (G.node.announceMessage net m) rfl a1 a2 a3 (by rw [announceMessage_eq]; exact (send_servers net G.node.mgr _ none).2) (by rw [announceMessage_eq])
  | send m a =>
    obtain ⟨a1, a2, a3, -⟩ := send_exact net hnet G.node hcs m a
    exact key (G.node.sendMessage net m a) rfl a1 a2 a3 (by rw [sendMessage_eq]; exact (send_servers net G.node.mgr _ a).1) (by rw [sendMessage_eq])

/-- Only thread `t` has moved, with what it did. -/
theorem threads_step {H N : List Beat} {hs : Int → List Instant} {G G' : St} (h : CrowdInv n0 L H hs G) {t : Nat} {c : Int} {n : List Instant} (hN : ∀ x ∈ N, Beat.isBy t x) (hn : AllBy t n)
    (hp : ∀ u, u ≠ t → G'.places u = G.places u) (ht : ThreadInv n0 (H ++ N) (upd hs c n) t (G'.places t)) : ∀ u, ThreadInv n0 (H ++ N) (upd hs c n) u (G'.places u) := by
  intro u
  by_cases hu : u = t
  · rw [hu]; exact ht
  · rw [hp u hu]
    exact threads_other (fun x hx e => hu (beat_unique (hN x hx) e)) (hn.aside hu) (h.threads u)

theorem goto_other (G : St) {t u : Nat} (p : Place) (h : u ≠ t) : (G.goto t p).places u = G.places u := if_neg h
theorem goto_self (G : St) (t : Nat) (p : Place) : (G.goto t p).places t = p := if_pos rfl

theorem servers_canSend {m m' : Manager} (h : m.servers = m'.servers) (hc : CanSend m') : CanSend m := by
  unfold CanSend at *
  rw [h]; exact hc

include hcan hnet in
/-- The program has the device say something. -/
theorem call_step {H : List Beat} {hs : Int → List Instant} {G : St} (h : CrowdInv n0 L H hs G) (k : Speech) :
    ∃ N hs', CrowdInv n0 L (H ++ N) hs' (G.call net k) ∧ Brief N ∧ ∃ l r, Happening.call k l r ∈ (G.call net k).log ∧ (G.call net k).node.mgr.log.map Prod.fst = G.node.mgr.log.map Prod.fst ++ l := by
  obtain ⟨r, k1, k2, k3, k4, k5, k6⟩ := call_exact hnet (servers_canSend h.servers hcan) k
  refine ⟨[.seen (.call k ((crowdDevice G).says k).2.1 r)], upd hs 0 [], ⟨?_, ?_, ?_, ?_, ?_, ?_, ?_⟩, brief_of (Nat.le_refl 1), _, r, ?_, k4⟩
  · exact k6.trans h.ctl
  · exact k5.trans h.servers
  · rw [upd_nil]; exact h.objs
  · rw [beatsSeen_append, h.same, k1]; rfl
  · refine (inTurn_append _ _ _ _).mpr ⟨_, h.inTurn, ?_, k3⟩
    rw [k2]
  · rw [k3]
    intro o p e he
    refine h.short o p e ?_
    unfold RefDevice.entry at he ⊢
    rw [says_things] at he
    exact he
  · intro t
    refine threads_other (fun x hx => ?_) (fun x hx => by cases hx) (h.threads t)
    rw [List.mem_singleton.mp hx]; exact id
  · rw [k1]; exact List.mem_append_right _ (List.mem_singleton.mpr rfl)

include hcan hnet in
/-- A thread sends its answer. -/
theorem send_step {H : List Beat} {hs : Int → List Instant} {G G' : St} (h : CrowdInv n0 L H hs G) {t : Nat} {req : Msg} {r : Option Msg} (hp : G.places t = .sending req r) (hact : G.run net t = some G') :
    ∃ N hs', CrowdInv n0 L (H ++ N) hs' G' ∧ Brief N ∧ ∃ l, Happening.sent t l ∈ G'.log ∧ G'.node.mgr.log.map Prod.fst = G.node.mgr.log.map Prod.fst ++ l := by
  have ht := h.threads t
  rw [hp] at ht
  obtain ⟨a, ha, hph, hfit⟩ := ht
  unfold St.run at hact
  rw [hp] at hact
  simp only [] at hact
  have hcs : CanSend G.node.mgr := servers_canSend h.servers hcan
  -- what is sent
  have hans : ∃ n, G.node.answer net req r = (n, .ok ()) ∧ n.mgr.tid = G.node.mgr.tid ∧ n.mgr.servers = G.node.mgr.servers ∧ n.controller = G.node.controller ∧
      (n.mgr.log.drop G.node.mgr.log.length).map Prod.fst = sendsOf (deviceOf n0) a r ∧ n.mgr.log.map Prod.fst = G.node.mgr.log.map Prod.fst ++ (n.mgr.log.drop G.node.mgr.log.length).map Prod.fst := by
    cases r with
    | none => exact ⟨G.node, rfl, rfl, rfl, rfl, by simp [sendsOf], by simp⟩
    | some x =>
      obtain ⟨f1, f2, f3⟩ := hfit x rfl
      obtain ⟨k1, -⟩ := answer_ok net G.node req x a ha f1 hcs hnet
      obtain ⟨a1, a2, a3, -, a5⟩ := answer_exact net G.node req x a ha f1 hcs hnet f3
      rw [if_neg f2] at a1
      simp only [if_neg f2] at a5
      refine ⟨(G.node.answer net req (some x)).1, Prod.ext rfl k1, a1, a2, a3, ?_, by rw [a5, List.drop_left, List.map_append]⟩
      rw [a5, List.drop_left, List.map_map]
      have hout : outgoing G.node x = x := by unfold outgoing; rw [if_neg (by rw [h.ctl]; simp)]
      have hx : ({ outgoing G.node x with tid := x.tid } : Msg) = x := by rw [hout]
      rw [hx]
      have : (deviceOf G.node).sends x a = sendsOf (deviceOf n0) a (some x) := by
        show sendsOf (deviceOf G.node) a (some x) = _
        refine sends_same ?_ a _
        show (working G.node.mgr.servers).map _ = (working n0.mgr.servers).map _
        rw [h.servers]
      rw [← this]
      exact List.map_id' _
  obtain ⟨n, k1, k2, k3, k4, k5, k6⟩ := hans
  rw [k1] at hact
  simp only [] at hact
  injection hact with hact
  rw [k5] at hact
  have hdev : crowdDevice G' = crowdDevice G := by
    rw [← hact]
    refine device_ext (fun _ => rfl) ?_ k2 k4
    show (working n.mgr.servers).map _ = (working G.node.mgr.servers).map _
    rw [k3]
  refine ⟨[.seen (.sent t (sendsOf (deviceOf n0) a r))], upd hs 0 [], ⟨?_, ?_, ?_, ?_, ?_, ?_, ?_⟩, brief_of (Nat.zero_le 1), sendsOf (deviceOf n0) a r, ?_, ?_⟩
  · rw [← hact]; exact k4.trans h.ctl
  · rw [← hact]; exact k3.trans h.servers
  · rw [upd_nil, ← hact]; exact h.objs
  · rw [beatsSeen_append, h.same, ← hact]; rfl
  · exact (inTurn_append _ _ _ _).mpr ⟨_, h.inTurn, hdev⟩
  · rw [hdev]; exact h.short
  · refine threads_step h (t := t) (fun x hx => by rw [List.mem_singleton.mp hx]; exact rfl) allBy_nil (fun u hu => ?_) ?_
    · rw [← hact]; exact goto_other _ _ hu
    · rw [← hact]
      show ThreadInv _ _ _ t ((St.goto _ t .free).places t)
      rw [goto_self]
      show Phase.after _ _ _ = _
      rw [beats_append, hph]
      simp [Phase.after, Phase.next]
  · rw [← hact]; exact List.mem_append_right _ (List.mem_singleton.mpr rfl)
  · rw [← hact]; rw [← k5]; exact k6

include hctl hobj in
/-- A thread does a step in an object. -/
theorem inside_step {H : List Beat} {hs : Int → List Instant} {G G' : St} (h : CrowdInv n0 L H hs G) {t : Nat} {req : Msg} (hp : G.places t = .inside req) (hact : G.run net t = some G') :
    ∃ N hs', CrowdInv n0 L (H ++ N) hs' G' ∧ Brief N := by
  have ht := h.threads t
  rw [hp] at ht
  obtain ⟨d, a, w, hr, htid, hreq, hlink⟩ := ht
  have hdeoj : w.deoj = req.deoj := by rw [hreq]
  unfold St.run at hact
  rw [hp] at hact
  simp only [] at hact
  cases hc : G.objs req.deoj with
  | none => rw [hc] at hact; cases hact
  | some s =>
    rw [hc] at hact
    simp only [] at hact
    cases hrun : s.run t with
    | none => rw [hrun] at hact; cases hact
    | some s' =>
      rw [hrun] at hact
      simp only [] at hact
      have htame : ∀ o, n0.getObject (.int req.deoj) = some o → TameLog (thingOf o) (L req.deoj) s.log := by
          intro o ho
          have := h.objs req.deoj
          rw [ho] at this
          obtain ⟨s1, h1, -, h3, -⟩ := this
          rw [hc] at h1; injection h1 with h1; rw [h1]; exact h3
      have htame' : ∀ o, n0.getObject (.int req.deoj) = some o → TameLog (thingOf o) (L req.deoj) s'.log := by
        intro o ho
        have htame := htame o ho
        rcases run_cases hrun with ⟨-, -, l, hl, ho⟩ | ⟨-, m, hl⟩ | ⟨-, m, hl⟩
        · rw [hl]
          have hno : ∀ e ∈ l, ∃ t c d, e = Par.Event.store t c d := by
            intro e he
            have := List.filter_eq_nil_iff.mp ho e he
            cases e with
            | store t c d => exact ⟨t, c, d, rfl⟩
            | _ => exact absurd rfl this
          refine tame_more htame (fun t m hm => ?_) (fun c d hm => ?_)
          · obtain ⟨_, _, _, e⟩ := hno _ hm; cases e
          · obtain ⟨_, _, _, e⟩ := hno _ hm; cases e
        · rw [hl]; exact tame_more htame (fun t m hm => by simp at hm) (fun c d hm => by simp at hm)
        · rw [hl]; exact tame_more htame (fun t m hm => by simp at hm) (fun c d hm => by simp at hm)
      obtain ⟨o, n, hn, hh, h1, h2, h3⟩ := objs_step hobj h.objs hc (a := .run t) hrun htame'
      have hn : AllBy t n := hn
      have hnew := story_new h1 h2
      have hlast : LastBy t (hs req.deoj) (.seen (.recv t req)) ∨ ∃ r b, LastBy t (hs req.deoj) (.effect t req r b) := by
        rcases hlink with ⟨hl, -⟩ | ⟨r, b, hl, -⟩
        · exact .inl hl
        · exact .inr ⟨r, b, hl⟩
      obtain ⟨p1, p2⟩ := run_pieces h2 hn hlast
      have hupd : ∀ n, upd hs req.deoj n req.deoj = hs req.deoj ++ n := fun n => if_pos rfl
      -- a step that has no effect
      have quiet : thingOf s'.obj = thingOf s.obj → crowdDevice (G.put req.deoj s') = crowdDevice G := by
        intro e
        rw [put_device, e]
        exact setThing_same _ _ _ (things_now hc)
      -- one that has
      have loud : ∀ {r b}, ((thingOf s.obj).actual req).2 = (r, b) → thingOf s'.obj = ((thingOf s.obj).actual req).1 →
          InTurn (crowdDevice G) [.effect t d a (sendsOf (deviceOf n0) a r) b] (crowdDevice (G.put req.deoj s')) ∧ Short (crowdDevice (G.put req.deoj s')) ∧ Fits r := by
        intro r b e1 e2
        rw [put_device, e2]
        have := effect_step h.ifs (h.dctl hctl) h.short hr htid (u := thingOf s.obj) (by rw [hdeoj]; exact things_now hc) (r := r) (b := b) (by rw [← hreq]; exact e1) t
        rw [← hreq, hdeoj] at this
        exact this
      -- what the thread has got
      have hgot : LastBy t (hs req.deoj) (.seen (.recv t req)) → Phase.after t .free H = some (.got d a) := by
        intro hl
        rcases hlink with ⟨-, hph⟩ | ⟨r, b, hl', -⟩
        · exact hph
        · exact absurd (lastBy_unique hl hl' rfl rfl) (by intro e; cases e)
      have hdid : ∀ {r b}, LastBy t (hs req.deoj) (.effect t req r b) → Phase.after t .free H = some (.did (sendsOf (deviceOf n0) a r) b) ∧ Fits r := by
        intro r b hl
        rcases hlink with ⟨hl', -⟩ | ⟨r', b', hl', hph, hf⟩
        · exact absurd (lastBy_unique hl hl' rfl rfl) (by intro e; cases e)
        · have := lastBy_unique hl hl' rfl rfl
          injection this with _ _ e1 e2
          subst e1; subst e2
          exact ⟨hph, hf⟩
      have hafter : ∀ {r b}, Phase.after t .free H = some (.got d a) → Phase.after t .free (H ++ [.effect t d a (sendsOf (deviceOf n0) a r) b]) = some (.did (sendsOf (deviceOf n0) a r) b) := by
        intro r b e
        rw [beats_append, e]
        simp [Phase.after, Phase.next]
      have hby : ∀ {r b}, ∀ x ∈ [Beat.effect t d a (sendsOf (deviceOf n0) a r) b], Beat.isBy t x := fun x hx => by rw [List.mem_singleton.mp hx]; exact rfl
      have hbyn : ∀ x ∈ ([] : List Beat), Beat.isBy t x := fun _ h => by cases h
      rcases run_cases hrun with ⟨hni, hnc, l, hl, ho⟩ | ⟨hpi, m, hl⟩ | ⟨hpc, m, hl⟩
      · have hG : G' = G.put req.deoj s' := by
          revert hact hni hnc
          cases s'.pc t with
          | idle => intro _ h; exact absurd rfl h
          | crashed => intro _ _ h; exact absurd rfl h
          | next f => intro h _ _; injection h with h; exact h.symm
          | store f k i => intro h _ _; injection h with h; exact h.symm
          | load f k i => intro h _ _; injection h with h; exact h.symm
        subst hG
        have hobs : observed n = [] := by rw [hl] at h2; rw [observed_new h1 h2]; exact ho
        rcases p1 hobs with e | ⟨hlr, r, b, e⟩
        · subst e
          refine ⟨[], upd hs req.deoj [], ⟨h.ctl, h.servers, h3, ?_, ?_, ?_, ?_⟩, brief_of (by first | exact Nat.le_refl 1 | exact Nat.zero_le 1)⟩
          · rw [List.append_nil]; exact h.same
          · rw [List.append_nil, quiet hnew]; exact h.inTurn
          · rw [quiet hnew]; exact h.short
          · refine threads_step h (t := t) hbyn hn (fun _ _ => rfl) ?_
            rw [List.append_nil, upd_nil]
            exact h.threads t
        · subst e
          obtain ⟨l1, l2, l3⟩ := loud hnew.1 hnew.2
          refine ⟨[.effect t d a (sendsOf (deviceOf n0) a r) b], upd hs req.deoj [.effect t req r b], ⟨h.ctl, h.servers, h3, ?_, ?_, l2, ?_⟩, brief_of (by first | exact Nat.le_refl 1 | exact Nat.zero_le 1)⟩
          · rw [beatsSeen_append, h.same]; exact List.append_nil _
          · exact (inTurn_append _ _ _ _).mpr ⟨_, h.inTurn, l1⟩
          · refine threads_step h (t := t) hby hn (fun _ _ => rfl) ?_
            show ThreadInv _ _ _ t (G.places t)
            rw [hp]
            refine ⟨d, a, w, hr, htid, hreq, .inr ⟨r, b, ?_, hafter (hgot hlr), l3⟩⟩
            rw [hupd]
            exact lastBy_snoc _ _ _
      · have hG : G' = (G.put req.deoj s').goto t (.sending req (ending (s.pc t))) := by
          rw [hpi] at hact
          injection hact with hact
          exact hact.symm
        subst hG
        have hobs : observed n = [.answer t m (ending (s.pc t))] := by rw [hl] at h2; rw [observed_new h1 h2]; rfl
        obtain ⟨rfl, hcase⟩ := p2 _ m (ending (s.pc t)) true (.inl ⟨rfl, rfl⟩) hobs
        rcases hcase with ⟨hlr, e⟩ | ⟨hle, e⟩
        · rw [e] at hnew
          obtain ⟨l1, l2, l3⟩ := loud hnew.1 hnew.2
          refine ⟨[.effect t d a (sendsOf (deviceOf n0) a (ending (s.pc t))) true], upd hs m.deoj n, ⟨h.ctl, h.servers, h3, ?_, ?_, l2, ?_⟩, brief_of (by first | exact Nat.le_refl 1 | exact Nat.zero_le 1)⟩
          · rw [beatsSeen_append, h.same]; exact List.append_nil _
          · exact (inTurn_append _ _ _ _).mpr ⟨_, h.inTurn, l1⟩
          · refine threads_step h (t := t) hby hn (fun u hu => goto_other _ _ hu) ?_
            rw [goto_self]
            exact ⟨a, by rw [hreq], hafter (hgot hlr), l3⟩
        · rw [e] at hnew
          obtain ⟨l1, l3⟩ := hdid hle
          refine ⟨[], upd hs m.deoj n, ⟨h.ctl, h.servers, h3, ?_, ?_, ?_, ?_⟩, brief_of (by first | exact Nat.le_refl 1 | exact Nat.zero_le 1)⟩
          · rw [List.append_nil]; exact h.same
          · rw [List.append_nil]
            show InTurn _ _ (crowdDevice (G.put m.deoj s'))
            rw [quiet hnew]; exact h.inTurn
          · show Short (crowdDevice (G.put m.deoj s'))
            rw [quiet hnew]; exact h.short
          · refine threads_step h (t := t) hbyn hn (fun u hu => goto_other _ _ hu) ?_
            rw [goto_self]
            exact ⟨a, by rw [hreq], by rw [List.append_nil]; exact l1, l3⟩
      · have hG : G' = (G.put req.deoj s').die t := by
          rw [hpc] at hact
          injection hact with hact
          exact hact.symm
        subst hG
        have hobs : observed n = [.crash t m] := by rw [hl] at h2; rw [observed_new h1 h2]; rfl
        obtain ⟨rfl, hcase⟩ := p2 _ m none false (.inr ⟨rfl, rfl, rfl⟩) hobs
        rcases hcase with ⟨hlr, e⟩ | ⟨hle, e⟩
        · rw [e] at hnew
          obtain ⟨l1, l2, l3⟩ := loud hnew.1 hnew.2
          refine ⟨[.effect t d a (sendsOf (deviceOf n0) a none) false, .seen (.ended t)], upd hs m.deoj n, ⟨h.ctl, h.servers, h3, ?_, ?_, l2, ?_⟩, brief_of (by first | exact Nat.le_refl 1 | exact Nat.zero_le 1)⟩
          · rw [beatsSeen_append, h.same]; rfl
          · exact (inTurn_append _ _ _ _).mpr ⟨_, h.inTurn, l1⟩
          · refine threads_step h (t := t) (fun x hx => ?_) hn (fun u hu => goto_other _ _ hu) ?_
            · simp only [List.mem_cons, List.not_mem_nil, or_false] at hx
              rcases hx with rfl | rfl <;> exact rfl
            · show ThreadInv _ _ _ t ((St.goto _ t .dead).places t)
              rw [goto_self]
              show Phase.after _ _ _ = _
              rw [beats_append, hgot hlr]
              simp [Phase.after, Phase.next, sendsOf]
        · rw [e] at hnew
          obtain ⟨l1, l3⟩ := hdid hle
          refine ⟨[.seen (.ended t)], upd hs m.deoj n, ⟨h.ctl, h.servers, h3, ?_, ?_, ?_, ?_⟩, brief_of (by first | exact Nat.le_refl 1 | exact Nat.zero_le 1)⟩
          · rw [beatsSeen_append, h.same]; rfl
          · refine (inTurn_append _ _ _ _).mpr ⟨_, h.inTurn, ?_⟩
            exact quiet hnew
          · show Short (crowdDevice (G.put m.deoj s'))
            rw [quiet hnew]; exact h.short
          · refine threads_step h (t := t) (fun x hx => by rw [List.mem_singleton.mp hx]; exact rfl) hn (fun u hu => goto_other _ _ hu) ?_
            show ThreadInv _ _ _ t ((St.goto _ t .dead).places t)
            rw [goto_self]
            show Phase.after _ _ _ = _
            rw [beats_append, l1]
            simp [Phase.after, Phase.next, sendsOf]

theorem actual_unread (D : RefDevice) {d : Bytes} (a : Addr) (h : readMsg (d.take 1024) = none) : D.actual d a = (D, [], false) := by
  unfold RefDevice.actual
  rw [h]

theorem actual_nothing (D : RefDevice) {d : Bytes} (a : Addr) {w : Msg} (h : readMsg (d.take 1024) = some w) (hn : D.things w.deoj = none) : D.actual d a = (D, [], true) := by
  unfold RefDevice.actual
  rw [h]
  simp only []
  rw [hn]

include hctl hobj in
/-- A thread reads a datagram. -/
theorem arrive_step {H : List Beat} {hs : Int → List Instant} {G G' : St} (h : CrowdInv n0 L H hs G) {t : Nat} {d : Bytes} {a : Addr} (hact : G.arrive t d a = some G')
    (hone : ∀ m, readMsg (d.take 1024) = some m → m.tid ≠ 0 ∧ (m.props ++ m.setProps ++ m.getProps).Pairwise fun i j => ¬ (L m.deoj i.code ∧ L m.deoj j.code))
    (hwr : ∀ m, readMsg (d.take 1024) = some m → ∀ t, (deviceOf n0).things m.deoj = some t → ∀ c, t.canSet c = true → Alters m c → L m.deoj c) :
    ∃ N hs', CrowdInv n0 L (H ++ N) hs' G' ∧ Brief N := by
  have ht := h.threads t
  unfold St.arrive at hact
  cases hp : G.places t with
  | inside req => rw [hp] at hact; cases hact
  | sending req r => rw [hp] at hact; cases hact
  | dead => rw [hp] at hact; cases hact
  | free =>
    rw [hp] at hact ht
    have ht : Phase.after t .free H = some .free := ht
    simp only [] at hact
    cases hr : readMsg (d.take 1024) with
    | none =>
      rw [recvOne_bad _ _ _ _ (not_decodes hr)] at hact
      simp only [] at hact
      injection hact with hact
      subst hact
      have hd := actual_unread (crowdDevice G) a hr
      refine ⟨[.seen (.recv t d a), .effect t d a [] false, .seen (.ended t)], upd hs 0 [], ⟨h.ctl, h.servers, ?_, ?_, ?_, h.short, ?_⟩, brief_of (by first | exact Nat.le_refl 1 | exact Nat.zero_le 1)⟩
      · rw [upd_nil]; exact h.objs
      · rw [beatsSeen_append, h.same]
        show _ = (G.log ++ [_]) ++ [_]
        rw [List.append_assoc]; rfl
      · refine (inTurn_append _ _ _ _).mpr ⟨_, h.inTurn, ?_⟩
        show ((crowdDevice G).actual d a).2 = _ ∧ crowdDevice G = ((crowdDevice G).actual d a).1
        rw [hd]; exact ⟨rfl, rfl⟩
      · refine threads_step h (t := t) (fun x hx => ?_) allBy_nil (fun u hu => goto_other _ _ hu) ?_
        · simp only [List.mem_cons, List.not_mem_nil, or_false] at hx
          rcases hx with rfl | rfl | rfl <;> exact rfl
        · show ThreadInv _ _ _ t ((St.goto _ t .dead).places t)
          rw [goto_self]
          show Phase.after _ _ _ = _
          rw [beats_append, ht]
          simp [Phase.after, Phase.next]
    | some w =>
      obtain ⟨htid, hpair⟩ := hone w hr
      have hdec := decodes_of_read a hr
      rw [recvOne_ok _ _ _ _ _ hdec] at hact
      simp only [Option.isNone_none] at hact
      rw [not_self] at hact
      obtain ⟨he, hrec, -, -, -⟩ := received_decoded hdec
      obtain ⟨c, hc1, -, -, -, hc2⟩ := (C10_copy { w with fromAddr := some a }).1 he
      have hc3 : c = { w with fromAddr := some a } := hc2.trans hrec
      rw [hc1, hc3] at hact
      simp only [Bool.false_eq_true, if_false] at hact
      have hto : (G.emit (.recv t d a)).objs w.deoj = G.objs w.deoj := rfl
      rw [hto] at hact
      cases hc : G.objs w.deoj with
      | none =>
        rw [hc] at hact
        simp only [] at hact
        injection hact with hact
        subst hact
        have hd := actual_nothing (crowdDevice G) a hr (by show (G.objs w.deoj).map _ = none; rw [hc]; rfl)
        refine ⟨[.seen (.recv t d a), .effect t d a [] true, .seen (.sent t [])], upd hs 0 [], ⟨h.ctl, h.servers, ?_, ?_, ?_, h.short, ?_⟩, brief_of (by first | exact Nat.le_refl 1 | exact Nat.zero_le 1)⟩
        · rw [upd_nil]; exact h.objs
        · rw [beatsSeen_append, h.same]
          show _ = (G.log ++ [_]) ++ [_]
          rw [List.append_assoc]; rfl
        · refine (inTurn_append _ _ _ _).mpr ⟨_, h.inTurn, ?_⟩
          show ((crowdDevice G).actual d a).2 = _ ∧ crowdDevice G = ((crowdDevice G).actual d a).1
          rw [hd]; exact ⟨rfl, rfl⟩
        · refine threads_step h (t := t) (fun x hx => ?_) allBy_nil (fun u hu => rfl) ?_
          · simp only [List.mem_cons, List.not_mem_nil, or_false] at hx
            rcases hx with rfl | rfl | rfl <;> exact rfl
          · show ThreadInv _ _ _ t (G.places t)
            rw [hp]
            show Phase.after _ _ _ = _
            rw [beats_append, ht]
            simp [Phase.after, Phase.next]
      | some s =>
        rw [hc] at hact
        simp only [] at hact
        cases hrecv : s.recv t { w with fromAddr := some a } with
        | none => rw [hrecv] at hact; cases hact
        | some s' =>
          rw [hrecv] at hact
          simp only [] at hact
          have htame : ∀ o, n0.getObject (.int w.deoj) = some o → TameLog (thingOf o) (L w.deoj) s.log := by
            intro o ho
            have := h.objs w.deoj
            rw [ho] at this
            obtain ⟨s1, h1, -, h3, -⟩ := this
            rw [hc] at h1; injection h1 with h1; rw [h1]; exact h3
          have hh : s.obj.handler = .self_ := by
            have := h.objs w.deoj
            cases ho : n0.getObject (.int w.deoj) with
            | none => rw [ho] at this; rw [show G.objs w.deoj = none from this] at hc; cases hc
            | some o =>
              rw [ho] at this
              obtain ⟨s1, h1, h2, -⟩ := this
              rw [hc] at h1; injection h1 with h1; rw [h1]; exact (handler_now h2).trans (hobj _ o ho).2
          have hone' : OneOf (L w.deoj) { w with fromAddr := some a } := ⟨decoded_sections hdec, hpair⟩
          have hcases := recv_cases hh hrecv
          have htame' : ∀ o, n0.getObject (.int w.deoj) = some o → TameLog (thingOf o) (L w.deoj) s'.log := by
            intro o ho
            have htame := htame o ho
            have hwrite : ∀ c, Alters { w with fromAddr := some a } c → (thingOf o).canSet c = true → L w.deoj c :=
              fun c hc hs => hwr w hr (thingOf o) (by show (n0.getObject (.int w.deoj)).map thingOf = _; rw [ho]; rfl) c hs hc
            rcases hcases with ⟨-, hl⟩ | ⟨-, hl⟩ <;> rw [hl] <;>
              refine tame_more htame (fun t m hm => ?_) (fun c d hm => by simp at hm)
            · simp only [List.mem_cons, Par.Event.recv.injEq, reduceCtorEq, List.not_mem_nil, or_false] at hm
              rw [hm.2]; exact ⟨hone', hwrite⟩
            · simp only [List.mem_cons, Par.Event.recv.injEq, List.not_mem_nil, or_false] at hm
              rw [hm.2]; exact ⟨hone', hwrite⟩
          obtain ⟨o, n, hn, -, h1, h2, h3⟩ := objs_step hobj h.objs hc (a := .recv t _) hrecv htame'
          have hnb := bound_recv hn
          have hnew := story_new h1 h2
          have hupd : ∀ n, upd hs w.deoj n w.deoj = hs w.deoj ++ n := fun n => if_pos rfl
          rcases hcases with ⟨hpc, hl⟩ | ⟨⟨f, hpc⟩, hl⟩
          · rw [hpc] at hact
            injection hact with hact
            have hobs : observed n = [.recv t { w with fromAddr := some a }, .answer t { w with fromAddr := some a } none] := by rw [hl] at h2; rw [observed_new h1 h2]; rfl
            rcases hn with e | e
            · rw [e] at hobs; cases hobs
            · rw [e] at hnew
              obtain ⟨hx, hy⟩ := hnew
              obtain ⟨l1, l2, l3⟩ := effect_step (D0 := deviceOf n0) h.ifs (h.dctl hctl) h.short hr htid (things_now hc) hx t
              have hdev : crowdDevice (G.put w.deoj s') = (crowdDevice G).setThing w.deoj ((thingOf s.obj).actual { w with fromAddr := some a }).1 := by
                rw [put_device]; congr 1
              subst hact
              refine ⟨[.seen (.recv t d a), .effect t d a (sendsOf (deviceOf n0) a none) true], upd hs w.deoj n, ⟨h.ctl, h.servers, h3, ?_, ?_, ?_, ?_⟩, brief_of (by first | exact Nat.le_refl 1 | exact Nat.zero_le 1)⟩
              · rw [beatsSeen_append, h.same]; rfl
              · refine (inTurn_append _ _ _ _).mpr ⟨_, h.inTurn, ?_⟩
                show InTurn (crowdDevice G) [.effect t d a (sendsOf (deviceOf n0) a none) true] (crowdDevice (G.put w.deoj s'))
                rw [hdev]; exact l1
              · show Short (crowdDevice (G.put w.deoj s'))
                rw [hdev]; exact l2
              · refine threads_step h (t := t) (fun x hx => ?_) hnb (fun u hu => goto_other _ _ hu) ?_
                · simp only [List.mem_cons, List.not_mem_nil, or_false] at hx
                  rcases hx with rfl | rfl <;> exact rfl
                · rw [goto_self]
                  refine ⟨a, rfl, ?_, l3⟩
                  rw [beats_append, ht]
                  simp [Phase.after, Phase.next]
          · rw [hpc] at hact
            injection hact with hact
            have hobs : observed n = [.recv t { w with fromAddr := some a }] := by rw [hl] at h2; rw [observed_new h1 h2]; rfl
            rcases hn with e | e
            · rw [e] at hnew
              have hdev : crowdDevice (G.put w.deoj s') = crowdDevice G := by
                rw [put_device, show thingOf s'.obj = thingOf s.obj from hnew]
                exact setThing_same _ _ _ (things_now hc)
              subst hact
              refine ⟨[.seen (.recv t d a)], upd hs w.deoj n, ⟨h.ctl, h.servers, h3, ?_, ?_, ?_, ?_⟩, brief_of (by first | exact Nat.le_refl 1 | exact Nat.zero_le 1)⟩
              · rw [beatsSeen_append, h.same]; rfl
              · exact (inTurn_append _ _ _ _).mpr ⟨_, h.inTurn, hdev⟩
              · show Short (crowdDevice (G.put w.deoj s'))
                rw [hdev]; exact h.short
              · refine threads_step h (t := t) (fun x hx => by rw [List.mem_singleton.mp hx]; exact rfl) hnb (fun u hu => goto_other _ _ hu) ?_
                rw [goto_self]
                refine ⟨d, a, w, hr, htid, rfl, .inl ⟨?_, ?_⟩⟩
                · show LastBy t (upd hs w.deoj n w.deoj) _
                  rw [hupd, e]
                  exact lastBy_snoc _ _ _
                · rw [beats_append, ht]
                  simp [Phase.after, Phase.next]
            · rw [e] at hobs; cases hobs

end

/-! ### Whole executions -/

theorem happenings_grow {net : Net} {G G' : St} {x : Crowd.Act} (h : G.act net x = some G') : G.log <+: G'.log := by
  have he : ∀ (G : St) e, G.log <+: (G.emit e).log := fun G e => List.prefix_append _ _
  cases x with
  | call k =>
    injection h with h
    rw [← h]; exact he _ _
  | app c p v =>
    have h : G.app c p v = some G' := h
    unfold St.app at h
    cases hc : G.objs c with
    | none => rw [hc] at h; cases h
    | some s => rw [hc] at h; injection h with h; rw [← h]; exact he _ _
  | run t =>
    have h : G.run net t = some G' := h
    unfold St.run at h
    repeat' split at h
    all_goals first
      | (cases h; done)
      | (injection h with h; rw [← h]; first | exact List.prefix_rfl | exact he _ _)
  | arrive t d a =>
    have h : G.arrive t d a = some G' := h
    unfold St.arrive at h
    simp only [not_self, Bool.false_eq_true, if_false] at h
    repeat' split at h
    all_goals first
      | (cases h; done)
      | (injection h with h; rw [← h]; first | exact he G _ | exact (he G _).trans (he _ _))

theorem execs_grow {net : Net} : ∀ {l : List Crowd.Act} {G G' : St}, G.exec net l = some G' → G.log <+: G'.log
  | [], G, G', h => by injection h with h; rw [h]; exact List.prefix_rfl
  | x :: l, G, G', h => by
    unfold St.exec at h
    cases hx : G.act net x with
    | none => rw [hx] at h; cases h
    | some G1 => rw [hx] at h; exact (happenings_grow hx).trans (execs_grow h)

/-- What a step adds to the log, if it is a datagram or what the program does. -/
theorem act_says {net : Net} {G G' : St} {x : Crowd.Act} (h : G.act net x = some G') :
    (∀ t d a, x = .arrive t d a → Happening.recv t d a ∈ G'.log) ∧ (∀ c p v, x = .app c p v → Happening.app c p v ∈ G'.log) := by
  have hm : ∀ (G : St) e, e ∈ (G.emit e).log := fun G e => List.mem_append_right _ (List.mem_singleton.mpr rfl)
  refine ⟨?_, ?_⟩
  · rintro t d a rfl
    have h : G.arrive t d a = some G' := h
    unfold St.arrive at h
    simp only [not_self, Bool.false_eq_true, if_false] at h
    repeat' split at h
    all_goals first
      | (cases h; done)
      | (injection h with h; rw [← h]; first | exact hm G _ | exact List.mem_append_left _ (hm G _))
  · rintro c p v rfl
    have h : G.app c p v = some G' := h
    unfold St.app at h
    cases hc : G.objs c with
    | none => rw [hc] at h; cases h
    | some s => rw [hc] at h; injection h with h; rw [← h]; exact hm _ _

theorem exec_story {n0 : LocalNode} (hobj : ∀ c o, n0.getObject (.int c) = some o → WellFormed o ∧ o.handler = .self_) (hctl : n0.controller = false) (hcan : CanSend n0.mgr) {net : Net}
    (hnet : NetWorks net) {Λ : List Happening} (hone : ∀ t d a, Happening.recv t d a ∈ Λ → OneAt (deviceOf n0) Λ d) (happ : ∀ c p v, Happening.app c p v ∈ Λ → v.length < 256) :
    ∀ {l : List Crowd.Act} {G G' : St} {H : List Beat} {hs : Int → List Instant}, CrowdInv n0 (MayChangeAt (deviceOf n0) Λ) H hs G → G.exec net l = some G' → G'.log <+: Λ →
      ∃ H' hs', CrowdInv n0 (MayChangeAt (deviceOf n0) Λ) H' hs' G'
  | [], G, G', H, hs, hi, h, _ => by injection h with h; rw [← h]; exact ⟨H, hs, hi⟩
  | x :: l, G, G', H, hs, hi, h, hp => by
    unfold St.exec at h
    cases hx : G.act net x with
    | none => rw [hx] at h; cases h
    | some G1 =>
      rw [hx] at h
      have hsub : ∀ e ∈ G1.log, e ∈ Λ := fun e he => hp.subset ((execs_grow h).subset he)
      obtain ⟨s1, s2⟩ := act_says hx
      have hstep : ∃ N hs', CrowdInv n0 (MayChangeAt (deviceOf n0) Λ) (H ++ N) hs' G1 ∧ Brief N := by
        cases x with
        | arrive t d a => exact arrive_step hobj hctl hi hx (hone t d a (hsub _ (s1 t d a rfl))) (fun m hm u hu c hc hw => .inl ⟨u, hu, hc, t, d, a, m, hsub _ (s1 t d a rfl), hm, rfl, hw⟩)
        | app c p v => exact app_step hobj hi hx (.inr ⟨v, hsub _ (s2 c p v rfl)⟩) (happ c p v (hsub _ (s2 c p v rfl)))
        | call k =>
          injection hx with hx
          rw [← hx]
          obtain ⟨N, hs', k1, k2, -⟩ := call_step hcan hnet hi k
          exact ⟨N, hs', k1, k2⟩
        | run t =>
          have hx' : G.run net t = some G1 := hx
          cases hpl : G.places t with
          | free => unfold St.run at hx'; rw [hpl] at hx'; cases hx'
          | dead => unfold St.run at hx'; rw [hpl] at hx'; cases hx'
          | inside req => exact inside_step hobj hctl hi hpl hx'
          | sending req r => obtain ⟨N, hs', k1, k2, -⟩ := send_step hcan hnet hi hpl hx'; exact ⟨N, hs', k1, k2⟩
      obtain ⟨N1, hs1, hi1, -⟩ := hstep
      exact exec_story hobj hctl hcan hnet hone happ hi1 h hp

theorem begin_device (n : LocalNode) : crowdDevice (begin n) = deviceOf n := by
  refine device_ext (fun c => ?_) rfl rfl rfl
  show ((n.getObject (.int c)).map _).map _ = (n.getObject (.int c)).map _
  cases n.getObject (.int c) <;> rfl

theorem begin_inv {n0 : LocalNode} (hobj : ∀ c o, n0.getObject (.int c) = some o → WellFormed o ∧ o.handler = .self_) (hctl : n0.controller = false) (hshort : Short (deviceOf n0)) (L : Int → Int → Prop) : CrowdInv n0 L [] (fun _ => []) (begin n0) := by
  refine ⟨hctl, rfl, fun c => ?_, rfl, begin_device n0, by rw [begin_device]; exact hshort, fun t => rfl⟩
  cases ho : n0.getObject (.int c) with
  | none => show (n0.getObject (.int c)).map _ = none; rw [ho]; rfl
  | some o =>
    refine ⟨{ obj := o }, by show (n0.getObject (.int c)).map _ = _; rw [ho]; rfl, possible_inv (hobj c o ho).1 (hobj c o ho).2 ⟨[], rfl⟩, ⟨?_, ?_⟩, story_nil _, fun u => trivial⟩
    · intro t m hm; cases hm
    · intro c d hm; cases hm

end Uecho
