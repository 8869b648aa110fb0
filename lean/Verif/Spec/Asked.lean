/-
Vocabulary for what a request handler of the program is asked: the questions, a handler that takes
note of every question in a state of its own and answers as it likes, and the questions that a
request amounts to. Refers to the model's data types only.
-/
import Verif.Spec.Handling

namespace Uecho.Spec

/-- A call of the request handler: may this property be read, may this value be written to this
property, may the property that does not exist (`None`) be read. -/
inductive Ask where
  | read (code : Int)
  | write (code : Int) (data : Bytes)
  | nothing
deriving DecidableEq, Repr

/-- A handler that keeps notes: at the question `q` its notes `s` become `note s q` and the answer is
`reply s q`. Both are arbitrary, so the notes can be a transcript of all questions, in order. -/
def noter (note : Nat → Ask → Nat) (reply : Nat → Ask → Bool) : Handler where
  read o p :=
    let q := match p with
      | some p => Ask.read p.code
      | none => Ask.nothing
    ({ o with ustate := note o.ustate q }, .ok (reply o.ustate q))
  write o p d :=
    ({ o with ustate := note o.ustate (.write p.code d) }, .ok (reply o.ustate (.write p.code d)))

/-- The items that name a property of the object. -/
def knownItems (o : Obj) (items : List PProp) : List PProp :=
  items.filter fun i => (lookup o.props i.code).isSome

/-- What a handler ought to be asked about a request: for each item naming a property of the object,
in order, whether it may be read or written; in a write-and-read request, the writes first. -/
def questions (o : Obj) (m : Msg) : List Ask :=
  if m.esv = 0x60 ∨ m.esv = 0x61 then (knownItems o m.props).map fun i => .write i.code i.data
  else if m.esv = 0x62 then (knownItems o m.props).map fun i => .read i.code
  else if m.esv = 0x6E then
    ((knownItems o m.setProps).map fun i => .write i.code i.data) ++
    ((knownItems o m.getProps).map fun i => .read i.code)
  else []

/-- The writes among the items that a handler with these notes grants, asked one after the other. -/
def granted (note : Nat → Ask → Nat) (reply : Nat → Ask → Bool) : Nat → List PProp → List PProp
  | _, [] => []
  | s, i :: l =>
    let rest := granted note reply (note s (.write i.code i.data)) l
    if reply s (.write i.code i.data) then i :: rest else rest

/-- A transcript is a number from which the whole list of questions can be read off. -/
def Transcribes (note : Nat → Ask → Nat) : Prop :=
  ∀ l l' : List Ask, l.foldl note 0 = l'.foldl note 0 → l = l'

end Uecho.Spec
