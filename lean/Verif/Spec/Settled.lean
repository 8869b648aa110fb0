/- Networks that lose nothing. -/
import Verif.Spec.Polite

namespace Uecho.Spec

/-- When this happens, these bytes are sent at `ip`, to `dst` or to everyone else. -/
def Home.Emits {δ κ : Type} (onD : δ → Use → δ × Given) (onC : κ → CtlUse → κ × Given) (sentD : δ → List Sent) (sentC : κ → List Sent) (N : Home δ κ) (e : Incident) (ip dst : String) (b : Bytes) :
    Prop :=
  ∃ s, ((∃ r r', N.devices ip = some r ∧ (N.step onD onC e).1.devices ip = some r' ∧ s ∈ (sentD r').drop (sentD r).length) ∨
    (∃ r r', N.controllers ip = some r ∧ (N.step onD onC e).1.controllers ip = some r' ∧ s ∈ (sentC r').drop (sentC r).length)) ∧
    s.bytes = b ∧ (s.dest.1 = dst ∨ (s.dest.1 = "224.0.23.0" ∧ dst ≠ ip))

/-- Everything that is sent arrives later, wherever it was sent to. -/
def Home.Lossless {δ κ : Type} (onD : δ → Use → δ × Given) (onC : κ → CtlUse → κ × Given) (sentD : δ → List Sent) (sentC : κ → List Sent) (N : Home δ κ) : List Incident → Prop
  | [] => True
  | e :: es =>
    (∀ ip dst b, N.Emits onD onC sentD sentC e ip dst b →
      (N.devices dst ≠ none → ∃ x, Incident.device dst (.arrive x) ∈ es ∧ x.bytes = b ∧ x.src.1 = ip) ∧
      (N.controllers dst ≠ none → ∃ x, Incident.controller dst (.device (.arrive x)) ∈ es ∧ x.bytes = b ∧ x.src.1 = ip)) ∧
    Home.Lossless onD onC sentD sentC (N.step onD onC e).1 es

/-- The controller at this address asks something and waits for the answer. -/
def Incident.asksAt (ip : String) : Incident → Prop
  | .controller ip' (.post _ _) => ip' = ip
  | _ => False

end Uecho.Spec
