import Verif.Spec.Cxx
import Verif.Model.SourceTools
/-
Parts of template.cc, main.cc and exception.cc.
-/
set_option autoImplicit false
namespace PG.Cxx
open PG.Gen

/-- Lines of template.cc. -/
def templateText (first last : Nat) : List Bytes := slice templateLines first last

/-- Lines of main.cc. -/
def mainText (first last : Nat) : List Bytes := slice mainLines first last

/-- Lines of exception.cc. -/
def exceptionText (first last : Nat) : List Bytes := slice exceptionLines first last

end PG.Cxx
