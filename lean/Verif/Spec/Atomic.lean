/- Vocabulary for C164: requests that are handled by several threads at once, and the same requests one at a time. -/
import Verif.Spec.Threads
import Verif.Spec.Device

namespace Uecho.Spec
open Par

/-- A request about at most one property. -/
def OneItem (m : Msg) : Prop := OwnSections m ∧ m.props.length + m.setProps.length + m.getProps.length ≤ 1

instance (m : Msg) : Decidable (OneItem m) := by unfold OneItem; infer_instance

/-- A request to write property `c`. -/
def Alters (m : Msg) (c : Int) : Prop := ((m.esv = 0x60 ∨ m.esv = 0x61) ∧ ∃ i ∈ m.props, i.code = c) ∨ m.esv = 0x6E ∧ ∃ i ∈ m.setProps, i.code = c

/-- The data of property `c` may change in the course of `log`: it can be written from outside and a request to write it comes, or the application sets it. -/
def MayChange (o : Thing) (log : List Event) (c : Int) : Prop := (o.canSet c = true ∧ ∃ t m, Event.recv t m ∈ log ∧ Alters m c) ∨ ∃ d, Event.app c d ∈ log

/-- A request about any number of properties, of which at most one, named once, is of the kind `L`. -/
def OneOf (L : Int → Prop) (m : Msg) : Prop := OwnSections m ∧ (m.props ++ m.setProps ++ m.getProps).Pairwise fun i j => ¬ (L i.code ∧ L j.code)

/-- What can be seen of an object from outside: messages, answers, threads that end, and what the application does with it. -/
def outside (log : List Event) : List Event := log.filter fun
  | .store .. => false
  | _ => true

/-- Something that can be seen, or the moment at which the message `m`, taken up by thread `t`, takes effect: `r` is the answer, and `lives` whether the thread survives. -/
inductive Instant where
  | seen (e : Event)
  | effect (t : Nat) (m : Msg) (r : Option Msg) (lives : Bool)
deriving DecidableEq

/-- A story without the moments of effect. -/
def observed (h : List Instant) : List Event := h.filterMap fun
  | .seen e => some e
  | .effect .. => none

/-- The application sets data. -/
def Thing.assign (t : Thing) (c : Int) (d : Bytes) : Thing :=
  { t with props := fun c' => if c' = c then (t.props c').map fun e => { e with data := d } else t.props c' }

/-- One at a time: from `t`, through the effects and what the application does, to `t'`; every effect is that of the whole message, on the object as it is then. -/
def OneAtATime : Thing → List Instant → Thing → Prop
  | t, [], t' => t' = t
  | t, .effect _ m r b :: h, t' => (t.actual m).2 = (r, b) ∧ OneAtATime (t.actual m).1 h t'
  | t, .seen (.app c d) :: h, t' => OneAtATime (t.assign c d) h t'
  | t, .seen _ :: h, t' => OneAtATime t h t'

/-- Thread `t` has to do with it. -/
def Instant.isBy (t : Nat) : Instant → Prop
  | .seen (.recv u _) => u = t
  | .seen (.answer u _ _) => u = t
  | .seen (.crash u _) => u = t
  | .seen _ => False
  | .effect u _ _ _ => u = t

/-- Thread `t` has nothing to do with it. -/
def Aside (t : Nat) (h : List Instant) : Prop := ∀ x ∈ h, ¬ x.isBy t

/-- `h` tells what could be seen, `log`, as a story of messages handled one at a time: each takes effect once, after it was received and before it is answered. -/
structure Story (o : Thing) (log : List Event) (h : List Instant) (o' : Thing) : Prop where
  same : observed h = outside log
  effects : OneAtATime o h o'
  after : ∀ l t m r b l', h = l ++ .effect t m r b :: l' → ∃ a d, l = a ++ .seen (.recv t m) :: d ∧ Aside t d
  answers : ∀ l t m r l', h = l ++ .seen (.answer t m r) :: l' → ∃ a d, l = a ++ .effect t m r true :: d ∧ Aside t d
  ends : ∀ l t m l', h = l ++ .seen (.crash t m) :: l' → ∃ a d, l = a ++ .effect t m none false :: d ∧ Aside t d

end Uecho.Spec
