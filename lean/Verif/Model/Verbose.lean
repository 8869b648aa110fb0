/-
Model of `bin/uechosearch.py -v` and of `bin/uechobench.py` (the same programs are in `examples/controller`): the programs as sequences of lines printed,
messages sent and messages posted. What happens on the network between is not a part of the program.
-/
import Verif.Model.Tools
import Verif.Model.Linked
import Verif.Model.Names

namespace Uecho.Tools

/-- A program: what it does next, and how it goes on. -/
inductive Prog where
  /-- the end of the loop -/
  | done
  /-- an exception, at which the program ends -/
  | raise (e : Exc)
  /-- `print` -/
  | print (line : List Char) (next : Prog)
  /-- `ctrl.post_message(m, node)`; the program goes on with what it returns -/
  | post (m : Msg) (r : Remote) (next : Option Msg → Prog)
  /-- `prop.send_message(esv)` of a property of an object of a node; the result is not used -/
  | propSend (r : Remote) (o : Obj) (code esv : Int) (next : Prog)
  /-- `prop.post_message(esv)` -/
  | propPost (r : Remote) (o : Obj) (code esv : Int) (next : Option Msg → Prog)

/-- uechosearch.py:22-27; 0x8A is `Object.MANUFACTURER_CODE` (object.py:66), 0x0EF001 `NodeProfile.CODE`. -/
def readManufacturer : Msg := { deoj := 0x0EF001, esv := ESV.READ_REQUEST, props := [{ code := 0x8A }] }

/-- uechosearch.py:62-72: the first line of a node. -/
def nodeHead (ip : String) (res : Option Msg) : List Char :=
  ljust 15 ip.toList ++ [' '] ++
    match res with
    | none => []
    | some m =>
      match m.props with
      | [] => []
      | p :: _ =>
        match getManufacturerName (.bytes p.data) with
        | some s => ['('] ++ s.toList ++ [')']
        | none => ['('] ++ hexUpper p.data ++ [')']

/-- `if 0 < len(name): msg += '(%s) ' % name` (uechosearch.py:76-77, 83-84) -/
def withName (msg : List Char) (name : String) : List Char :=
  if 0 < name.length then msg ++ ['('] ++ name.toList ++ [')', ' '] else msg

/-- uechosearch.py:79-97, uechobench.py:65-82: the properties from number `k` on of object number `j`. `l` says how the properties are called. -/
def propLines (r : Remote) (o : Obj) (l : Label) (j : Nat) : Nat → List OProp → Prog → Prog
  | _, [], next => next
  | k, p :: ps, next =>
    if !p.isReadRequired then propLines r o l j (k + 1) ps next
    else
      let msg := ['['] ++ decInt j ++ "] [".toList ++ decInt k ++ "] ".toList ++ fmtX 2 p.code ++ [' ']
      match propName ((Dict.get? l.props p.code).getD none) with
      | .error e => .raise e
      | .ok name =>
        let msg := withName msg name
        .propSend r o p.code ESV.READ_REQUEST <| .propPost r o p.code ESV.READ_REQUEST fun res =>
          .print (msg ++ match res with | none => [] | some m => (m.props.map fun q => hexUpper q.data ++ [' ']).flatten) <|
            propLines r o l j (k + 1) ps next

/-- uechosearch.py:74-97: the objects from number `j` on. The objects of a found node are standard objects (controller.py:125-130, node.py:84-92), the names are those of
`StandardObject(code)`. -/
def objectLines (r : Remote) : Nat → List Obj → Prog → Prog
  | _, [], next => next
  | j, o :: os, next =>
    let l := StdObj.label (.int o.code)
    .print (withName (['['] ++ decInt j ++ "] ".toList ++ fmtX 6 o.code ++ [' ']) l.name) <|
      propLines r o l j 0 (o.props.map Prod.snd) <| objectLines r (j + 1) os next

/-- uechosearch.py:59-97: the nodes from number `i` on. -/
def searchNodes : Nat → List Remote → Prog → Prog
  | _, [], next => next
  | i, r :: rs, next =>
    let body := .post readManufacturer r fun res => .print (nodeHead r.node.ip res) <| objectLines r 0 r.node.objectList <| searchNodes (i + 1) rs next
    if 0 < i then .print [] body else body

/-- `uechosearch.py -v` after the search: uechosearch.py:59-97; `ctrl.nodes` is a list made when it is asked for (controller.py:97-99). -/
def searchVerbose (c : Ctl) : Prog := searchNodes 0 c.nodes .done

/-- uechobench.py:54-82: the nodes from number `i` on. -/
def benchNodes : Nat → List Remote → Prog → Prog
  | _, [], next => next
  | i, r :: rs, next =>
    let body := .print (ljust 15 r.node.ip.toList ++ [' ']) <| objectLines r 0 r.node.objectList <| benchNodes (i + 1) rs next
    if 0 < i then .print [] body else body

end Uecho.Tools
