/-
Specification of the ECHONET Lite wire format, written without reference to the model's functions
(only to its data types).
-/
import Verif.Model.Message

namespace Uecho.Spec

/-- Big-endian value of a byte string. -/
def beValue (b : Bytes) : Nat := b.foldl (fun acc x => acc * 256 + x.toNat) 0

/-- The `n` big-endian base-256 digits of `v` (two's complement for negative `v`). -/
def beDigits (v : Int) (n : Nat) : Bytes :=
  (List.range n).map fun i => UInt8.ofNat ((v / 256 ^ (n - 1 - i)) % 256).toNat

/-- The services whose messages carry a Set section followed by a Get section:
SetGet (0x6E), SetGet_Res (0x7E), SetGet_SNA (0x5E). -/
def TwoSections (esv : Int) : Prop := esv = 0x6E ∨ esv = 0x7E ∨ esv = 0x5E

instance (e : Int) : Decidable (TwoSections e) := by unfold TwoSections; infer_instance

/-- One property on the wire: EPC, PDC, EDT. -/
def encItem (p : PProp) : Bytes :=
  UInt8.ofNat p.code.toNat :: UInt8.ofNat p.data.length :: p.data

/-- The properties of a section, without the count. -/
def encItems (ps : List PProp) : Bytes := ps.flatMap encItem

/-- A section: OPC, then the properties. -/
def encSection (ps : List PProp) : Bytes := UInt8.ofNat ps.length :: encItems ps

/-- EHD1, EHD2, TID, SEOJ, DEOJ, ESV. -/
def encHeader (tid seoj deoj esv : Int) : Bytes :=
  [0x10, 0x81] ++ beDigits tid 2 ++ beDigits seoj 3 ++ beDigits deoj 3 ++ [UInt8.ofNat esv.toNat]

/-- The section(s) of a message. -/
def encBody (m : Msg) : Bytes :=
  if TwoSections m.esv then encSection m.setProps ++ encSection m.getProps
  else encSection m.props

/-- The whole message on the wire. -/
def encode (m : Msg) : Bytes := encHeader m.tid m.seoj m.deoj m.esv ++ encBody m

/-- A property that fits the one-byte EPC and PDC fields. -/
def PropOk (p : PProp) : Prop := 0 ≤ p.code ∧ p.code < 256 ∧ p.data.length < 256

/-- A section that fits the one-byte OPC field. -/
def SectionOk (ps : List PProp) : Prop := ps.length < 256 ∧ ∀ p ∈ ps, PropOk p

/-- A message that fits the wire format. -/
def Encodable (m : Msg) : Prop :=
  (0 ≤ m.esv ∧ m.esv < 256) ∧
  (if TwoSections m.esv then SectionOk m.setProps ∧ SectionOk m.getProps else SectionOk m.props)

instance (p : PProp) : Decidable (PropOk p) := by unfold PropOk; infer_instance
instance (ps : List PProp) : Decidable (SectionOk ps) := by unfold SectionOk; infer_instance
instance (m : Msg) : Decidable (Encodable m) := by unfold Encodable; infer_instance

/-- What survives a trip over the wire: TID modulo 2^16, EOJs modulo 2^24, the section(s) selected
by the ESV; no addresses. -/
def onWire (m : Msg) : Msg :=
  { tid := m.tid % 2 ^ 16
    seoj := m.seoj % 2 ^ 24
    deoj := m.deoj % 2 ^ 24
    esv := m.esv
    props := if TwoSections m.esv then [] else m.props
    setProps := if TwoSections m.esv then m.setProps else []
    getProps := if TwoSections m.esv then m.getProps else [] }

/-- A section cut at one of the two places where the decoder runs off the end: nothing at all (the
OPC byte is missing), or fewer complete properties than announced followed by a lone EPC byte. -/
def SectionCut (r : Bytes) : Prop :=
  r = [] ∨ ∃ (opc : UInt8) (ps : List PProp) (epc : UInt8),
    r = opc :: (encItems ps ++ [epc]) ∧ (∀ p ∈ ps, PropOk p) ∧ ps.length < opc.toNat

/-- The datagrams which end right before the ESV (within a well-started header), right before an
OPC, or right before a PDC. -/
def EndsBeforeField (bs : Bytes) : Prop :=
  ∃ t : Bytes, bs = 0x10 :: 0x81 :: t ∧
    ((6 ≤ t.length ∧ t.length ≤ 8) ∨
     ∃ (h : Bytes) (esv : UInt8) (r : Bytes), h.length = 8 ∧ t = h ++ esv :: r ∧
       (SectionCut r ∨
        (TwoSections (esv.toNat : Int) ∧ ∃ ps r', SectionOk ps ∧ r = encSection ps ++ r' ∧ SectionCut r')))

end Uecho.Spec
