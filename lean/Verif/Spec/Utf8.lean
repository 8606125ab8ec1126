import Verif.Spec.Json
/-
Well-formed UTF-8 as concatenation of encoded scalar values.
-/
namespace PG

/-- Concatenated UTF-8 encodings. -/
def utf8All (cps : List Nat) : Bytes := cps.flatMap utf8

/-- Well-formed UTF-8 (RFC 3629). -/
def Utf8 (s : Bytes) : Prop := ∃ cps : List Nat, (∀ cp ∈ cps, Scalar cp) ∧ s = utf8All cps

end PG
