import Verif.Spec.Cxx
import Verif.Model.SourceTxt
/-
Parts of proto3.cc with the macros before them.
-/
set_option autoImplicit false
namespace PG.Cxx
open PG.Gen

/-- Lines of proto3.cc after the definitions of its macros (proto3.cc:22-70). -/
def protoText (first last : Nat) : List Bytes := slice proto3Lines 22 70 ++ slice proto3Lines first last

end PG.Cxx
