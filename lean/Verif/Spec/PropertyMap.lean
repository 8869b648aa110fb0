/-
Property maps as the ECHONET Lite specification describes them, and what "decodes to exactly these
codes" means. Refers to the model's data types and to the decoder under test only.
-/
import Verif.Model.SuperObject
import Verif.Spec.Handling

namespace Uecho.Spec

/-- bit `j` of a byte -/
def BitSet (b : UInt8) (j : Nat) : Prop := b.toNat / 2 ^ j % 2 = 1

instance (b : UInt8) (j : Nat) : Decidable (BitSet b j) := by unfold BitSet; infer_instance

/-- `data` is a property map for the distinct codes `codes` (0x80–0xFF) as a conforming node sends
it. Fewer than 16: the number, then the codes. Otherwise the number, then 16 bytes, where bit `j` of
byte `i` stands for the code `0x80 + 0x10 * j + i`. -/
def IsMapOf (data : Bytes) (codes : List Int) : Prop :=
  codes.Nodup ∧ (∀ c ∈ codes, 0x80 ≤ c ∧ c < 0x100) ∧
  if codes.length < 16 then data = UInt8.ofNat codes.length :: codes.map (fun c => UInt8.ofNat c.toNat)
  else ∃ rows : List UInt8, rows.length = 16 ∧ data = UInt8.ofNat codes.length :: rows ∧
    ∀ i < 16, ∀ j < 8, BitSet (rows.getD i 0) j ↔ (0x80 + 0x10 * (j : Int) + (i : Int)) ∈ codes

/-- The map decodes, without repetition, to exactly the codes satisfying `P`. -/
def Lists (data : Bytes) (P : Int → Prop) : Prop :=
  ∃ l, OProp.propertyMapCodes data = .ok (.codes l) ∧ l.Nodup ∧ ∀ c, c ∈ l ↔ P c

/-- Codes of the properties of `o` satisfying `E`. -/
def Having (o : Obj) (E : OProp → Prop) (c : Int) : Prop := ∃ p, lookup o.props c = some p ∧ E p

/-- The number of properties of `o` satisfying `E`. -/
def countOf (o : Obj) (E : OProp → Prop) [DecidablePred E] : Nat :=
  (o.props.filter fun kp => decide (E kp.2)).length

/-- Every code fits a byte and there are fewer than 256 properties. -/
def ByteCodes (o : Obj) : Prop := (∀ kp ∈ o.props, 0 ≤ kp.1 ∧ kp.1 < 256) ∧ o.props.length < 256

/-- The three map properties are there. -/
def HasMaps (o : Obj) : Prop :=
  (lookup o.props 0x9D).isSome = true ∧ (lookup o.props 0x9E).isSome = true ∧ (lookup o.props 0x9F).isSome = true

instance (o : Obj) : Decidable (ByteCodes o) := by unfold ByteCodes; infer_instance
instance (o : Obj) : Decidable (HasMaps o) := by unfold HasMaps; infer_instance

/-- Code and meaning of the map property: which properties it should list. -/
inductive MapKind | anno | set | get
deriving DecidableEq, Repr

def MapKind.code : MapKind → Int
  | anno => 0x9D
  | set => 0x9E
  | get => 0x9F

def MapKind.lists : MapKind → OProp → Prop
  | anno => MustAnnounce
  | set => CanWrite
  | get => CanRead

instance (k : MapKind) : DecidablePred k.lists := by
  cases k <;> (unfold MapKind.lists; infer_instance)

end Uecho.Spec
