/-
What the self-description of a node should say, in terms of the codes of its objects. Refers to the
model's data types only.
-/
import Verif.Spec.Wire
import Verif.Spec.Handling

namespace Uecho.Spec

/-- The codes of node profile objects. -/
def IsProfileCode (c : Int) : Prop := c = 0x0EF001 ∨ c = 0x0EF002

instance (c : Int) : Decidable (IsProfileCode c) := by unfold IsProfileCode; infer_instance

/-- The instances a node announces: its objects but for node profiles, in order. -/
def instancesOf (codes : List Int) : List Int := codes.filter fun c => decide (¬ IsProfileCode c)

/-- Their codes, three bytes each. -/
def codeBytes (codes : List Int) : Bytes := codes.flatMap fun c => beDigits c 3

/-- An instance list: the number of instances, then their codes. -/
def IsInstanceList (data : Bytes) (insts : List Int) : Prop :=
  ∃ b : UInt8, b.toNat = insts.length ∧ data = b :: codeBytes insts

/-- The first `k` three-byte codes of a byte string. -/
def listedCodes : Nat → Bytes → List Int
  | 0, _ => []
  | k + 1, b => (beValue (b.take 3) : Int) :: listedCodes k (b.drop 3)

/-- The codes in the table of a node after codes are added in this order to a table with codes `l`: each once,
in the order of the first addition. -/
def addCodes (l : List Int) (cs : List Int) : List Int := cs.foldl (fun l c => if c ∈ l then l else l ++ [c]) l

/-- What an instance list in a message means. -/
inductive ListRead where
  | notAList
  | empty
  | short
  | codes (l : List Int)

/-- The instance list a message carries: its first property must be 0xD5 or 0xD6. -/
def instanceListOf (m : Msg) : ListRead :=
  match m.props with
  | [] => .notAList
  | p :: _ =>
    if p.code = 0xD5 ∨ p.code = 0xD6 then
      match p.data with
      | [] => .empty
      | b :: rest => if rest.length < 3 * b.toNat then .short else .codes (listedCodes b.toNat rest)
    else .notAList

/-- Group and class of an object code. -/
def classOf (c : Int) : Int × Int := (c / 65536 % 256, c / 256 % 256)

/-- Two bytes per class. -/
def classBytes (l : List (Int × Int)) : Bytes :=
  l.flatMap fun gc => [UInt8.ofNat gc.1.toNat, UInt8.ofNat gc.2.toNat]

/-- `l` lists the classes of the instances `insts`, each once. -/
def ListsClasses (l : List (Int × Int)) (insts : List Int) : Prop :=
  l.Nodup ∧ ∀ gc, gc ∈ l ↔ ∃ c ∈ insts, classOf c = gc

end Uecho.Spec
