import Verif.Model.Flt
import Verif.Proofs.NumText
/-
Decimal numerals and the floating point number nearest to a rational number.
-/
set_option autoImplicit false
set_option exponentiation.threshold 3000
namespace PG

/-- The distance of the magnitude `c` from the magnitude `a / b`, multiplied by `b`. -/
def distTo (a b c : Nat) : Nat := if c * b ≤ a then a - c * b else c * b - a

/-- The least magnitude that is too large for the type: half way between the largest finite value and the value that would
follow it, that is, 2^1024 - 2^970 and 2^128 - 2^103 (in units of 2^-1074). -/
def FKind.limit : FKind → Nat
  | .f64 => 2 ^ 2098 - 2 ^ 2044
  | .f32 => 2 ^ 1202 - 2 ^ 1177

/-- `x` is the value of the type nearest to the number of sign `neg` and magnitude `a / b`: a value of the type no farther
than any other, the one with an even significand when there are two; an infinity when the magnitude is too large. -/
def Nearest (k : FKind) (neg : Bool) (a b : Nat) (x : Flt) : Prop :=
  if a < k.limit * b then
    ∃ r, x = .fin neg r ∧ RepMag k r ∧
      ∀ c, RepMag k c → distTo a b r ≤ distTo a b c ∧
        (distTo a b r = distTo a b c → c ≠ r → r % 2 ^ (ulpExp k r + 1) = 0)
  else x = .inf neg

/-- A decimal numeral: sign, digits before the point, digits after it, exponent (the letter, its sign, its digits). -/
structure Numeral where
  neg : Bool
  whole : Bytes
  point : Bool
  frac : Bytes
  expo : Option (Byte × Bytes × Bytes)

namespace Numeral

/-- The text of the numeral. -/
def text (n : Numeral) : Bytes :=
  (if n.neg then b!"-" else []) ++ (n.whole ++ ((if n.point then c!"." :: n.frac else []) ++
    match n.expo with
    | none => []
    | some (e, s, ds) => e :: (s ++ ds)))

/-- Digits where there must be digits, at least one of them before the exponent. -/
def Wf (n : Numeral) : Prop :=
  (∀ b ∈ n.whole, 48 ≤ b ∧ b ≤ 57) ∧ (∀ b ∈ n.frac, 48 ≤ b ∧ b ≤ 57) ∧ (n.point = false → n.frac = []) ∧
    n.whole ++ n.frac ≠ [] ∧
    match n.expo with
    | none => True
    | some (e, s, ds) => (e = c!"e" ∨ e = c!"E") ∧ (s = [] ∨ s = b!"+" ∨ s = b!"-") ∧ ∀ b ∈ ds, 48 ≤ b ∧ b ≤ 57

/-- The text after the numeral does not continue it. -/
def Stops (n : Numeral) (tail : Bytes) : Prop :=
  ∀ b, tail.head? = some b → ¬ (48 ≤ b ∧ b ≤ 57) ∧
    match n.expo with
    | none => b ≠ c!"e" ∧ b ≠ c!"E" ∧ (n.point = false → b ≠ c!".")
    | some (_, s, ds) => s = [] → ds = [] → b ≠ c!"+" ∧ b ≠ c!"-"

/-- All digits before the exponent as one integer. -/
def digits (n : Numeral) : Nat := digitsVal 0 (n.whole ++ n.frac)

/-- The power of ten the digits are to be multiplied by. -/
def power (n : Numeral) : Int :=
  (match n.expo with
   | none => 0
   | some (_, s, ds) => if s = b!"-" then -(digitsVal 0 ds : Int) else (digitsVal 0 ds : Int)) - n.frac.length

/-- The magnitude of the numeral in units of 2^-1074 is `num / den`. -/
def num (n : Numeral) : Nat := n.digits * 10 ^ n.power.toNat * 2 ^ 1074
def den (n : Numeral) : Nat := 10 ^ (-n.power).toNat

end Numeral

end PG
