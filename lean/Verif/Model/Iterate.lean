/-
Model of the loops over `__found_nodes` (uecho/controller.py:104-107, 143-153) in one thread while other threads store into it
(controller.py:248). A thread can be interrupted whenever it asks the iterator for the next entry. CPython: an iterator over a
dictionary remembers the number of entries and raises `RuntimeError` if it has changed when the next one is asked for; entries are
visited in the order of insertion, and storing under a key that is there changes only the value.
-/
import Verif.Model.Controller

namespace Uecho.Iter

/-- A `for` loop over a dictionary with what it has gathered: `body` goes on, returns or raises; `fin` is the result after the
last entry. -/
structure Loop (κ ν α ρ : Type) where
  init : α
  body : α → κ → ν → Except Exc (α ⊕ ρ)
  fin : α → ρ

/-- Where the thread is: before the loop, about to ask for entry `pos` with an iterator made when there were `used` entries,
through with a result, or with an exception. -/
inductive Reader (α ρ : Type) where
  | fresh
  | inside (pos used : Nat) (acc : α)
  | returned (r : ρ)
  | raised (e : Exc)

/-- The thread goes on, or another thread stores. -/
inductive Ev (κ ν : Type) where
  | tick
  | put (k : κ) (v : ν)

def tick {κ ν α ρ : Type} (L : Loop κ ν α ρ) (d : Dict κ ν) : Reader α ρ → Reader α ρ
  | .fresh => .inside 0 d.length L.init
  | .inside pos used acc =>
    if used ≠ d.length then .raised .runtimeError
    else match d[pos]? with
      | none => .returned (L.fin acc)
      | some (k, v) =>
        match L.body acc k v with
        | .error e => .raised e
        | .ok (.inl acc) => .inside (pos + 1) used acc
        | .ok (.inr r) => .returned r
  | r => r

def step {κ ν α ρ : Type} [DecidableEq κ] (L : Loop κ ν α ρ) (s : Dict κ ν × Reader α ρ) : Ev κ ν → Dict κ ν × Reader α ρ
  | .tick => (s.1, tick L s.1 s.2)
  | .put k v => (Dict.set s.1 k v, s.2)

def run {κ ν α ρ : Type} [DecidableEq κ] (L : Loop κ ν α ρ) (s : Dict κ ν × Reader α ρ) (es : List (Ev κ ν)) : Dict κ ν × Reader α ρ :=
  es.foldl (step L) s

/-- `Controller.nodes` (controller.py:98-107). -/
def nodes : Loop String Remote (List Remote) (List Remote) where
  init := []
  body acc _ v := .ok (.inl (acc ++ [v]))
  fin acc := acc

/-- `Controller.get_node` (controller.py:134-153). -/
def getNode (cenv : CEnv) (addr : PyAddr) : Loop String Remote Unit (Option Remote) where
  init := ()
  body _ k r :=
    match addr with
    | .str s =>
      if s = k then .ok (.inr (some r))
      else match cenv.resolve s with
        | .error e => .error e
        | .ok ip => if ip = k then .ok (.inr (some r)) else .ok (.inl ())
    | .pair a => if a.1 = k then .ok (.inr (some r)) else .ok (.inl ())
    | .other => .ok (.inl ())
  fin _ := none

end Uecho.Iter
