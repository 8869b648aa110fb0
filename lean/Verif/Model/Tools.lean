/-
Model of the command line tools: `bin/uechopost.py` and `bin/uechosearch.py` (the same programs are in
`examples/controller`), apart from parsing of options, `sleep` and `print`.
-/
import Verif.Model.Controller

namespace Uecho.Tools

/-- Python's `'%X' % n` for a natural number. -/
def hexNat (n : Nat) : List Char := (Nat.toDigits 16 n).map Char.toUpper

/-- Python's `'%0wX' % n`: filled with zeros, after the sign, to a width of at least `w`. -/
def fmtX (w : Nat) (n : Int) : List Char :=
  if n < 0 then '-' :: List.leftpad (w - 1) '0' (hexNat n.natAbs) else List.leftpad w '0' (hexNat n.natAbs)

/-- Python's `str(n)` and `'%d' % n` for an integer. -/
def decInt (n : Int) : List Char :=
  if n < 0 then '-' :: Nat.toDigits 10 n.natAbs else Nat.toDigits 10 n.natAbs

/-- Python's `s.ljust(w)`. -/
def ljust (w : Nat) (s : List Char) : List Char := s ++ List.replicate (w - s.length) ' '

/-- An element of what `ast.literal_eval` returns: an integer or a string. (Other literals are not modelled.) -/
inductive Elem where
  | int (n : Int)
  | str (s : String)
deriving DecidableEq

/-- What `ast.literal_eval` returns for an argument (uechopost.py:18, 44): a tuple or list, or, without a comma, a
number or a string. -/
inductive Literal where
  | tuple (l : List Elem)
  | int (n : Int)
  | str (s : String)
deriving DecidableEq

/-- Python's `str(x)` (uechopost.py:46, 48) -/
def Elem.text : Elem → String
  | .int n => String.ofList (decInt n)
  | .str s => s

/-- `props[0]`, `len(props)`, `props[1]` (uechopost.py:46-48): a number cannot be indexed, a string is indexed by
characters. -/
def Literal.items : Literal → Except Exc (List Elem)
  | .tuple l => .ok l
  | .int _ => .error .typeError
  | .str s => .ok (s.toList.map fun c => .str (String.ofList [c]))

/-- uechopost.py:45-48: the property made of an argument. -/
def property (x : Literal) : Except Exc PProp := do
  match ← x.items with
  | [] => .error .indexError
  | [c] => return { code := ← hexFromString (some c.text) }
  | c :: d :: _ =>
    let code ← hexFromString (some c.text)
    let data ← bytesFromString d.text
    return { code := code, data := data }

/-- uechopost.py:43-49; `lit` is `ast.literal_eval`. -/
def addProperties (lit : String → Except Exc Literal) : List String → Msg → Except Exc Msg
  | [], m => .ok m
  | a :: as, m => do
    let x ← lit a
    let p ← property x
    addProperties lit as (m.addProperty (.prop p)).1

/-- uechopost.py:34-49: the destination and the message; `none` is the usage message. `args` are the arguments without the
name of the program. -/
def message (lit : String → Except Exc Literal) : List String → Except Exc (Option (String × Msg))
  | ip :: obj :: esv :: x :: rest => do
    let deoj ← hexFromString (some obj)
    let esv ← hexFromString (some esv)
    let m ← addProperties lit (x :: rest) { deoj := deoj, esv := esv }
    return some (ip, m)
  | _ => .ok none

/-- uechopost.py:60-61 -/
def showProps (ps : List PProp) : List Char := ps.flatMap fun p => fmtX 2 p.code ++ ' ' :: (hexUpper p.data ++ [' '])

/-- uechopost.py:59-62: the line printed for a response. -/
def showResponse (r : Msg) : Except Exc (List Char) :=
  match r.fromAddr with
  | none => .error .typeError
  | some a => .ok (a.1.toList ++ ' ' :: (fmtX 6 r.seoj ++ ' ' :: (fmtX 2 r.esv ++ ' ' :: showProps r.props)))

/-- uechopost.py:57-62, after the wait: nothing is printed if there is no response. -/
def postOutput (c : Ctl) : Except Exc (List (List Char)) :=
  match c.last.response with
  | none => .ok []
  | some r => do return [← showResponse r]

/-- uechosearch.py:55-56, from index `j` -/
def showObjects : Nat → List Int → List Char
  | _, [] => []
  | j, k :: ks => '[' :: (decInt j ++ ']' :: ' ' :: (fmtX 6 k ++ ' ' :: showObjects (j + 1) ks))

/-- uechosearch.py:54-57: the line printed for a node. -/
def showNode (r : Remote) : List Char := ljust 15 r.node.ip.toList ++ ' ' :: showObjects 0 (r.node.objectList.map Obj.code)

/-- uechosearch.py:53-57 -/
def searchOutput (c : Ctl) : List (List Char) := c.nodes.map showNode

end Uecho.Tools
