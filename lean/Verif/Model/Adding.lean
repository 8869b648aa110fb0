/-
Model of `LocalNode.add_object` (uecho/local_node.py:41-44) run by several threads at once, with messages being received meanwhile.
A thread can be interrupted before it stores the object (node.py:55), whenever it asks for the next object while it makes the list of
objects (node.py:61-63; the iterator is that of Model/Iterate), and before each `set_property_data` of the profile (node_profile.py:96-141).
Left out: the property maps of the profile, which are written again with what they have (super_object.py:77-97).
-/
import Verif.Model.Iterate

namespace Uecho.Adding

/-- The loop of `Node.objects` (node.py:59-64); of the objects only the codes are used afterwards (node_profile.py:96-132). -/
def objects : Iter.Loop Int Nat (List Int) (List Int) where
  init := []
  body acc k _ := .ok (.inl (acc ++ [k]))
  fin acc := acc

/-- The calls of `set_property_data` in `_update_map_properties` (node_profile.py:96-141), in order, for objects with these codes. -/
def writes (codes : List Int) : List PProp :=
  let (n, l) := NodeProfile.instanceLoop codes 0 []
  let (k, m) := NodeProfile.classLoop codes 0 []
  [{ code := NodeProfile.NUMBER_OF_SELF_NODE_INSTANCES, data := fromInt n 3 },
   { code := NodeProfile.INSTANCE_LIST_NOTIFICATION, data := fromInt n 1 ++ l },
   { code := NodeProfile.SELF_NODE_INSTANCE_LIST_S, data := fromInt n 1 ++ l },
   { code := NodeProfile.NUMBER_OF_SELF_NODE_CLASSES, data := fromInt k 2 },
   { code := NodeProfile.SELF_NODE_CLASS_LIST_S, data := fromInt k 1 ++ m }]

/-- Where a thread is: not in `add_object`; before the store; in the loop over the objects; writing the profile; through. -/
inductive Pc where
  | idle
  | store (code : Int) (obj : Nat)
  | loop (r : Iter.Reader (List Int) (List Int))
  | write (todo : List PProp)
  | done (r : Except Exc Bool)

/-- The table of the node (objects have numbers), the data of the properties of its profile, and the threads; `added` records the stores into
the table in order. -/
structure St where
  table : Dict Int Nat
  data : Int → Bytes
  pc : Nat → Pc
  added : List (Int × Nat) := []

def St.goto (s : St) (i : Nat) (p : Pc) : St := { s with pc := fun j => if j = i then p else s.pc j }

/-- Thread `i` calls `add_object` with object `obj` of that code, or goes on. -/
inductive Ev where
  | call (i : Nat) (code : Int) (obj : Nat)
  | go (i : Nat)
deriving DecidableEq

def step (s : St) : Ev → St
  | .call i code obj =>
    match s.pc i with
    | .idle | .done _ => s.goto i (.store code obj)
    | _ => s
  | .go i =>
    match s.pc i with
    | .store code obj => { s.goto i (.loop .fresh) with table := Dict.set s.table code obj, added := s.added ++ [(code, obj)] }
    | .loop (.returned l) => s.goto i (.write (writes l))
    | .loop (.raised e) => s.goto i (.done (.error e))
    | .loop r => s.goto i (.loop (Iter.tick objects s.table r))
    | .write [] => s.goto i (.done (.ok true))
    | .write (p :: ps) => { s.goto i (.write ps) with data := fun c => if c = p.code then p.data else s.data c }
    | .idle | .done _ => s

def run (s : St) (es : List Ev) : St := es.foldl step s

/-- The node as `LocalNode.__init__` leaves it (local_node.py:31-36): its profile is object number 0. -/
def start : St where
  table := [(0x0EF001, 0)]
  data c := ((writes [0x0EF001]).find? (fun p => p.code = c)).elim [] PProp.data
  pc _ := .idle
  added := [(0x0EF001, 0)]

end Uecho.Adding
