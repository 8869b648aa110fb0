/-
Vocabulary for C167: networks of devices whose receiving threads work at the same time (`Model/Crowd`), and controllers that do one thing at a time, in which only what was sent arrives.
-/
import Verif.Spec.Crowd
import Verif.Spec.Step

namespace Uecho.Spec
open Crowd

/-- What happens in such a network: a thread of a device does a step, or the program of a device sets data, announces or sends; or something at a controller. -/
inductive Move where
  | device (ip : String) (a : Crowd.Act)
  | controller (ip : String) (u : CtlUse)

abbrev BusyNet := Home St (Running Ctl)

/-- What a device has sent. -/
def sentCrowd (G : St) : List Sent := G.node.mgr.log.map Prod.fst

/-- A network whose devices begin to work. -/
def RealNet.busy (N : RealNet) : BusyNet := { devices := fun ip => (N.devices ip).map fun r => begin r.st, controllers := N.controllers }

def BusyNet.step (ord : List Int → List Int) (env : Env) (cenv : CEnv) (net : Net) (N : BusyNet) : Move → Option BusyNet
  | .device ip a => match N.devices ip with
    | none => none
    | some G => match G.act net a with
      | none => none
      | some G' => some { N with devices := fun ip' => if ip' = ip then some G' else N.devices ip' }
  | .controller ip u => match N.controllers ip with
    | none => none
    | some r => some { N with controllers := fun ip' => if ip' = ip then some (ctlUse ord env cenv net r u).1 else N.controllers ip' }

/-- What is read was sent before, to this address or to everyone. -/
def BusyNet.Real (N : BusyNet) : Move → Prop
  | .device ip (.arrive _ d a) => N.Carried sentCrowd sentByCtl a.1 ip d
  | .controller ip (.device (.arrive x)) => N.Carried sentCrowd sentByCtl x.src.1 ip x.bytes
  | _ => True

/-- Data a message can carry, in objects the program has added. -/
def Move.Fair : Move → Prop
  | .device _ (.app c _ v) => c ≠ 0x0EF001 ∧ v.length ≤ 255
  | .device _ _ => True
  | .controller _ u => u.Fair

/-- What a program does, at a device that does one thing at a time. -/
def actUse : Crowd.Act → Option Use
  | .app c p v => some (.store c p v)
  | .call k => some (callUse k)
  | _ => none

def Move.says : Move → Option (Option String × Msg)
  | .device _ a => (actUse a).bind Use.says
  | .controller _ u => u.says

/-- From `N` to `N'` by moves that may happen. -/
inductive BusyNet.Runs (ord : List Int → List Int) (env : Env) (cenv : CEnv) (net : Net) (N : BusyNet) : List Move → BusyNet → Prop where
  | start : Runs ord env cenv net N [] N
  | move {ms : List Move} {N1 N2 : BusyNet} (m : Move) (h : Runs ord env cenv net N ms N1) (hreal : BusyNet.Real N1 m) (hstep : BusyNet.step ord env cenv net N1 m = some N2) :
    Runs ord env cenv net N (ms ++ [m]) N2

/-- What a move stands for where devices do one thing at a time: what the program of a device does, and what happens at a controller, for itself; a step of a thread of a device, for a datagram that
arrives at this device, or for nothing. -/
def Move.Stands : Move → Option Incident → Prop
  | .device _ a, none => actUse a = none
  | .device ip a, some (.device ip' u) => ip' = ip ∧ (actUse a = some u ∨ actUse a = none ∧ ∃ x, u = .arrive x)
  | .controller ip u, some (.controller ip' u') => ip' = ip ∧ u' = u
  | _, _ => False

/-- What happens at the device at `ip`. -/
def atDevice (ip : String) (es : List Incident) : List Use := es.filterMap fun
  | .device ip' u => if ip' = ip then some u else none
  | .controller .. => none

/-- What can be told of a network with busy devices is as in one in which each device does one thing at a time: the controllers, and the devices; what has been sent has been sent there. -/
structure Alike (B : BusyNet) (N : RealNet) : Prop where
  controllers : ∀ ip, (B.controllers ip).map ctlRunOf = (N.controllers ip).map ctlRunOf
  devices : ∀ ip, (B.devices ip).map crowdDevice = (N.devices ip).map fun r => deviceOf r.st
  sent : ∀ ip G r, B.devices ip = some G → N.devices ip = some r → ∀ s ∈ sentCrowd G, s ∈ sentBy r

/-- From one moment to the next the node at an address takes `w` and answers `r`. -/
def BusyNet.Serves (B B' : BusyNet) (ip : String) (w r : Msg) : Prop :=
  (∃ G G', B.devices ip = some G ∧ B'.devices ip = some G' ∧ OneStep (crowdDevice G) (crowdDevice G') w r) ∨
    ∃ q q', B.controllers ip = some q ∧ B'.controllers ip = some q' ∧ OneStep (deviceOf q.st.ln) (deviceOf q'.st.ln) w r

/-- The node at an address is `D`, and one moment later it is `D'`. -/
def BusyNet.Turns (B B' : BusyNet) (ip : String) (D D' : RefDevice) : Prop :=
  (∃ G G', B.devices ip = some G ∧ B'.devices ip = some G' ∧ crowdDevice G = D ∧ crowdDevice G' = D') ∨
    ∃ q q', B.controllers ip = some q ∧ B'.controllers ip = some q' ∧ deviceOf q.st.ln = D ∧ deviceOf q'.st.ln = D'

/-- The devices of a network, as programs get them: not controllers, with receiving threads that are all there, and objects that handle requests themselves. -/
def RealNet.Idle (N : RealNet) : Prop :=
  ∀ ip r, N.devices ip = some r → r.st.controller = false ∧ (∀ i, r.alive i = true) ∧ ∀ c o, r.st.getObject (.int c) = some o → o.handler = .self_

/-- Every datagram read in the course of a run to `B` names at most one property that may change, once, and has a transaction number other than 0. -/
def BusyNet.Simple (N : RealNet) (B : BusyNet) : Prop :=
  ∀ ip r G, N.devices ip = some r → B.devices ip = some G → ∀ t d a, Happening.recv t d a ∈ G.log → OneAt (deviceOf r.st) G.log d

end Uecho.Spec
