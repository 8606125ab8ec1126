import Verif.Spec.Cxx
import Verif.Model.SourceGen
/-
Parts of cppgen.cc and printer.cc.
-/
set_option autoImplicit false
namespace PG.Cxx
open PG.Gen

/-- Lines of cppgen.cc after the definitions of its macros (cppgen.cc:36-39). -/
def genText (first last : Nat) : List Bytes := slice cppgenLines 34 39 ++ slice cppgenLines first last

/-- Lines of printer.cc. -/
def printText (first last : Nat) : List Bytes := slice printerLines first last

end PG.Cxx
