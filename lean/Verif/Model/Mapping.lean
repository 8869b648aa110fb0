/-
Model of `SuperObject.add_property` (uecho/super_object.py:31-35) run by several threads at once on one object.
A thread can be interrupted before it stores the property (object.py:225), whenever it asks for the next property while it gathers the
codes for the maps (super_object.py:81-87; the iterator is that of Model/Iterate), and before each of the three maps is written
(super_object.py:91-96). Simplified: looking up a map property and storing its data (super_object.py:48-75) is one step.
-/
import Verif.Model.Iterate

namespace Uecho.Mapping

/-- `anno_list`, `get_list` and `set_list` (super_object.py:78-80). -/
structure Gathered where
  anno : List Int
  get : List Int
  set : List Int
deriving DecidableEq

/-- The loop of `_update_property_map_properties` (super_object.py:81-87). -/
def gather : Iter.Loop Int OProp Gathered Gathered where
  init := ⟨[], [], []⟩
  body g _ p := .ok (.inl
    ⟨if p.isAnnounceRequired then g.anno ++ [p.code] else g.anno,
     if p.isReadEnabled then g.get ++ [p.code] else g.get,
     if p.isWriteEnabled then g.set ++ [p.code] else g.set⟩)
  fin g := g

/-- The calls of `__set_property_map_property` (super_object.py:88-96), in order. -/
def writes (ord : List Int → List Int) (g : Gathered) : List (Int × List Int) :=
  [(SuperObj.ANNO_PROPERTY_MAP, ord g.anno), (SuperObj.GET_PROPERTY_MAP, ord g.get), (SuperObj.SET_PROPERTY_MAP, ord g.set)]

/-- Where a thread is: not in `add_property`; before the store; in the loop over the properties; writing the maps; through. -/
inductive Pc where
  | idle
  | store (p : OProp)
  | loop (r : Iter.Reader Gathered Gathered)
  | write (todo : List (Int × List Int))
  | done (r : Except Exc Bool)

/-- The object and the threads. -/
structure St where
  obj : Obj
  pc : Nat → Pc

def St.goto (s : St) (i : Nat) (p : Pc) : St := { s with pc := fun j => if j = i then p else s.pc j }

/-- Thread `i` calls `add_property` with `p`, or goes on. -/
inductive Ev where
  | call (i : Nat) (p : OProp)
  | go (i : Nat)
deriving DecidableEq

def step (ord : List Int → List Int) (s : St) : Ev → St
  | .call i p =>
    match s.pc i with
    | .idle | .done _ => s.goto i (.store p)
    | _ => s
  | .go i =>
    match s.pc i with
    | .store p => { s.goto i (.loop .fresh) with obj := s.obj.addPropertyBase p }
    | .loop (.returned g) => s.goto i (.write (writes ord g))
    | .loop (.raised e) => s.goto i (.done (.error e))
    | .loop r => s.goto i (.loop (Iter.tick gather s.obj.props r))
    | .write [] => s.goto i (.done (.ok true))                       -- super_object.py:97, 35
    | .write ((c, l) :: todo) =>
      match SuperObj.setPropertyMap s.obj c l with
      | (o, .error e) => { s.goto i (.done (.error e)) with obj := o }
      | (o, .ok false) => { s.goto i (.done (.ok true)) with obj := o }   -- the result is not looked at (super_object.py:34-35)
      | (o, .ok true) => { s.goto i (.write todo) with obj := o }
    | .idle | .done _ => s

def run (ord : List Int → List Int) (s : St) (es : List Ev) : St := es.foldl (step ord) s

/-- An object no thread is adding to. -/
def start (o : Obj) : St := ⟨o, fun _ => .idle⟩

end Uecho.Mapping
