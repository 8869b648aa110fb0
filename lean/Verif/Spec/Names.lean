/- What the tables of the standard say about names, independently of how the library loads and copies them. -/
import Verif.Model.Names
import Verif.Spec.Std
import Verif.Spec.Node

namespace Uecho.Spec

/-- The entry of a class in one table: the last one with that key. -/
def namesIn (t : List NameEntry) (g c : Int) : Option NameEntry := (t.filter fun e => decide (e.key = (g, c))).getLast?

/-- The entry of a class: the MRA one if there is one, otherwise the SCSL one. -/
@[irreducible] def classNames (g c : Int) : Option NameEntry := (namesIn StdNames.mra g c).or (namesIn StdNames.scsl g c)

/-- The last line of an entry for property code `c`. -/
def nameLine (e : NameEntry) (c : Int) : Option PropLabel :=
  ((e.props.filter fun l => decide (l.1 = c)).getLast?).map fun l => ⟨l.2.1, l.2.2.1, l.2.2.2⟩

/-- Name, type and size of property `pc` of a standard object of class (g, c): as the class has it, otherwise as the super class has it. -/
def deviceLabel (g c pc : Int) : Option PropLabel := ((classNames g c).bind (nameLine · pc)).or ((classNames 0 0).bind (nameLine · pc))

/-- The codes listed for a class. -/
def listedLines (g c : Int) : List Int := match stdClass g c with | none => [] | some e => e.props.map fun l => l.1

/-- The properties of a standard object, in order: those of the super class, then those of the class which are not among them. -/
def deviceCodes (g c : Int) : List Int := addCodes (addCodes [] (listedLines 0 0)) (listedLines g c)

end Uecho.Spec
