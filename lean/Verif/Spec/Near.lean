import Verif.Model.Flt
/-
Neighbours among the values of a floating point type.
-/
set_option autoImplicit false
namespace PG

/-- A finite value with its sign, in units of 2^-1074. -/
def withSign (neg : Bool) (m : Nat) : Int := if neg then -(m : Int) else m

/-- No value of the type lies strictly between two numbers. -/
def Adjacent (k : FKind) (x y : Int) : Prop :=
  ∀ (neg : Bool) (m : Nat), RepMag k m → ¬ (x < withSign neg m ∧ withSign neg m < y) ∧ ¬ (y < withSign neg m ∧ withSign neg m < x)

/-- Which values the comparison of plain numbers takes as equal: finite values without a value between them, and an
infinity with the largest finite value of its sign. -/
def NearOf (k : FKind) : Flt → Flt → Prop
  | .fin a m, .fin b n => Adjacent k (withSign a m) (withSign b n)
  | .inf a, .fin b n => b = a ∧ ∀ m, RepMag k m → m ≤ n
  | _, _ => False

end PG
