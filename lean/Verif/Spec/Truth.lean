/-
A network of machines that all run the library, and what it takes for what they say of themselves to be true. Refers to the calls of programs, to the datagrams
handed to the operating system and to the fields of messages only.
-/
import Verif.Spec.Sending

namespace Uecho.Spec

/-- The objects a message says its sender has: it is a response to a read or an announcement that begins with an instance list. -/
def claimed (m : Msg) : List Int :=
  if m.esv = 0x72 ∨ m.esv = 0x73 then
    match instanceListOf m with
    | .codes l => l
    | _ => []
  else []

/-- The request asks for a property with the code of an instance list (0xD5 or 0xD6) first. -/
def WantsList (m : Msg) : Prop := m.esv = 0x62 ∧ ∃ p ps, m.props = p :: ps ∧ (p.code = 0xD5 ∨ p.code = 0xD6)

/-- The codes of the objects of a node. -/
def codesOf (n : LocalNode) : List Int := n.objs.map Obj.code

/-- A call is sincere: only objects with proper codes are added, and no second node profile; what the program itself sends claims nothing that is not so; and who asks for a
property with the code of an instance list asks the node profile. -/
def NodeSincere (n : LocalNode) : NodeOp → Prop
  | .add o => o.code ≠ 0x0EF001 ∧ 0 ≤ o.code ∧ o.code < 2 ^ 24
  | .announce _ u => ∀ k ∈ claimed u, k ∈ codesOf n
  | .send _ u _ => ∀ k ∈ claimed u, k ∈ codesOf n
  | .receive _ _ m => WantsList m → m.deoj % 2 ^ 24 = 0x0EF001
  | _ => True

def CtlSincere (c : Ctl) : CtlOp → Prop
  | .add o => o.code ≠ 0x0EF001 ∧ 0 ≤ o.code ∧ o.code < 2 ^ 24
  | .announce _ u => ∀ k ∈ claimed u, k ∈ codesOf c.ln
  | .send _ u _ => ∀ k ∈ claimed u, k ∈ codesOf c.ln
  | .post _ u _ => ∀ k ∈ claimed u, k ∈ codesOf c.ln
  | .receive _ _ _ m => WantsList m → m.deoj % 2 ^ 24 = 0x0EF001
  | _ => True

/-- All calls are, each at its time. -/
def NodesSincere (ord : List Int → List Int) (n : LocalNode) : List NodeOp → Prop
  | [] => True
  | op :: ops => NodeSincere n op ∧ NodesSincere ord (op.run ord n) ops

def CtlsSincere (ord : List Int → List Int) (c : Ctl) : List CtlOp → Prop
  | [] => True
  | op :: ops => CtlSincere c op ∧ CtlsSincere ord (op.run ord c) ops

/-- A machine of the network with all that has happened to it: a device or a controller. -/
inductive Site where
  | device (rnd : NodeProfile.Random) (ops : List NodeOp)
  | controller (rnd : NodeProfile.Random) (ops : List CtlOp)

namespace Site

/-- Its node. -/
def node (ord : List Int → List Int) : Site → LocalNode
  | .device rnd ops => runOps ord (LocalNode.new ord rnd false).1 ops
  | .controller rnd ops => (runCtl ord (Ctl.new ord rnd).1 ops).ln

/-- The codes of objects are left alone by the program (`Allowed`), and the history is sincere. -/
def Sincere (ord : List Int → List Int) : Site → Prop
  | .device rnd ops => (∀ op ∈ ops, op.Allowed) ∧ NodesSincere ord (LocalNode.new ord rnd false).1 ops
  | .controller rnd ops => (∀ op ∈ ops, op.Allowed) ∧ CtlsSincere ord (Ctl.new ord rnd).1 ops

end Site

/-- A message is genuine: it is a datagram that the machine at the address it comes from has sent, whenever that was, and whomever it was for. -/
def Genuine (ord : List Int → List Int) (W : String → Option Site) (m : Msg) : Prop :=
  ∃ a s x, m.fromAddr = some a ∧ W a.1 = some s ∧ x ∈ (s.node ord).mgr.log ∧ Decodes x.1.bytes a m

end Uecho.Spec
