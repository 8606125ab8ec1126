import Verif.Model.Num
/-
Floating point values and their text form (source/cpp/json-number.hh:32-53, 75-93, non-Windows branches).

A finite IEEE value is a sign and a magnitude counted in units of 2^-1074 (the smallest positive double); every finite
double and float is such a multiple.  The sign of NaN is not modelled.
-/
namespace PG

/-- An IEEE-754 datum. -/
inductive Flt
  | nan
  | inf (neg : Bool)
  | fin (neg : Bool) (mag : Nat)
deriving DecidableEq, Repr

/-- The C++ floating point types. -/
inductive FKind
  | f32 | f64
deriving DecidableEq, Repr

namespace FKind
/-- Significand bits. -/
def prec : FKind → Nat | f32 => 24 | f64 => 53
/-- log2 of the smallest positive value, in units of 2^-1074. -/
def qexp : FKind → Nat | f32 => 925 | f64 => 0
/-- log2 of the overflow threshold 2^128 or 2^1024, in units of 2^-1074. -/
def top : FKind → Nat | f32 => 1202 | f64 => 2098
end FKind

/-- log2 of the spacing of representable values around `n`. -/
def ulpExp (k : FKind) (n : Nat) : Nat := max k.qexp (n.log2 + 1 - k.prec)

/-- `n` (in units of 2^-1074) is the magnitude of a finite value of the type. -/
def RepMag (k : FKind) (n : Nat) : Prop := n < 2 ^ k.top ∧ n % 2 ^ ulpExp k n = 0

instance (k : FKind) (n : Nat) : Decidable (RepMag k n) := inferInstanceAs (Decidable (_ ∧ _))

/-- The datum is a value of the type. -/
def Flt.Rep (k : FKind) : Flt → Prop
  | .nan => True
  | .inf _ => True
  | .fin _ m => RepMag k m

instance (k : FKind) (x : Flt) : Decidable (x.Rep k) := by
  cases x <;> unfold Flt.Rep <;> infer_instance

/-- A value of type `float` or `double`. -/
def CFlt (k : FKind) := { x : Flt // x.Rep k }

instance (k : FKind) : DecidableEq (CFlt k) := inferInstanceAs (DecidableEq { x : Flt // x.Rep k })

/-- The quotient `a / b` rounded to the nearest integer, ties to even. -/
def rhe (a b : Nat) : Nat :=
  if 2 * (a % b) < b then a / b
  else if b < 2 * (a % b) then a / b + 1
  else if (a / b) % 2 = 0 then a / b else a / b + 1

/-- The magnitude `a / b` rounded to the nearest value of the type with unbounded exponent, ties to even. -/
def roundMag (k : FKind) (a b : Nat) : Nat :=
  rhe a (b * 2 ^ ulpExp k (a / b)) * 2 ^ ulpExp k (a / b)

/-- IEEE rounding with overflow to infinity. -/
def roundFlt (k : FKind) (neg : Bool) (a b : Nat) : Flt :=
  if roundMag k a b < 2 ^ k.top then .fin neg (roundMag k a b) else .inf neg

/-- The decimal number `m * 10^x` rounded to double (used by `strtod`). -/
def decToFlt (neg : Bool) (m : Nat) (x : Int) : Flt :=
  if 0 ≤ x then roundFlt .f64 neg (m * 10 ^ x.toNat * 2 ^ 1074) 1
  else roundFlt .f64 neg (m * 2 ^ 1074) (10 ^ (-x).toNat)

/-- An optional sign. -/
def scanSign : Bytes → Bool × Bytes
  | b :: t => if b = c!"-" then (true, t) else if b = c!"+" then (false, t) else (false, b :: t)
  | [] => (false, [])

/-- An optional fraction: accumulated digits, number of fraction digits, remaining text. -/
def scanFrac (m : Nat) : Bytes → Nat × Nat × Bytes
  | b :: t =>
    if b = c!"." then
      let r := digitRun t m
      (r.1, t.length - r.2.length, r.2)
    else (m, 0, b :: t)
  | [] => (m, 0, [])

/-- An optional exponent (ignored when it has no digits). -/
def scanExp : Bytes → Int
  | b :: t =>
    if b = c!"e" || b = c!"E" then
      let r := scanSign t
      if r.1 then -((digitRun r.2 0).1 : Int) else ((digitRun r.2 0).1 : Int)
    else 0
  | [] => 0

/-- `strtod` on decimal numerals (C library, "C" locale): optional sign, digits with optional point, optional exponent;
correct rounding to double.  The other forms `strtod` accepts (hexadecimal, "inf", "nan", leading white space) cannot
occur in a NUMBER token.  The result without any mantissa digit is 0. -/
def strtod (text : Bytes) : Flt :=
  let sg := scanSign text
  let ip := digitRun sg.2 0
  let fp := scanFrac ip.1 ip.2
  if (sg.2.length - ip.2.length) + fp.2.1 = 0 then .fin false 0
  else decToFlt sg.1 fp.1 (scanExp fp.2.2 - fp.2.1)

/-- `static_cast<float>(double)` (json-number.hh:52): IEEE rounding (overflow gives infinity, as on IEC 559 hardware). -/
def fltCast (k : FKind) : Flt → Flt
  | .nan => .nan
  | .inf n => .inf n
  | .fin n m => roundFlt k n m 1

theorem rhe_le (a b : Nat) : rhe a b ≤ a / b + 1 := by
  unfold rhe; split
  · omega
  · split
    · omega
    · split <;> omega

theorem RepMag_of_mul (k : FKind) (r e : Nat) (he : k.qexp ≤ e) (hr : r ≤ 2 ^ k.prec)
    (ht : r * 2 ^ e < 2 ^ k.top) : RepMag k (r * 2 ^ e) := by
  refine ⟨ht, ?_⟩
  by_cases h0 : r = 0
  · subst h0; simp
  have hm : r * 2 ^ e ≠ 0 := by
    have : 0 < 2 ^ e := Nat.two_pow_pos e
    intro h
    rcases Nat.mul_eq_zero.mp h with h | h <;> omega
  have hp : 1 ≤ k.prec := by cases k <;> decide
  rcases Nat.lt_or_ge r (2 ^ k.prec) with hlt | hge
  · have hlog : (r * 2 ^ e).log2 < k.prec + e := by
      rw [Nat.log2_lt hm, Nat.pow_add]
      exact (Nat.mul_lt_mul_right (Nat.two_pow_pos e)).mpr hlt
    have hu : ulpExp k (r * 2 ^ e) ≤ e := by unfold ulpExp; omega
    exact Nat.mod_eq_zero_of_dvd (Nat.dvd_trans (Nat.pow_dvd_pow 2 hu) (Nat.dvd_mul_left _ _))
  · have hr' : r = 2 ^ k.prec := by omega
    have hlog : (r * 2 ^ e).log2 = k.prec + e := by
      rw [hr', ← Nat.pow_add, Nat.log2_two_pow]
    have hu : ulpExp k (r * 2 ^ e) ≤ k.prec + e := by unfold ulpExp; omega
    refine Nat.mod_eq_zero_of_dvd ?_
    rw [hr', ← Nat.pow_add]
    rw [hr', ← Nat.pow_add] at hu
    exact Nat.pow_dvd_pow 2 hu

theorem rhe_roundMag_le (k : FKind) (a b : Nat) :
    rhe a (b * 2 ^ ulpExp k (a / b)) ≤ 2 ^ k.prec := by
  refine Nat.le_trans (rhe_le _ _) ?_
  rw [← Nat.div_div_eq_div_mul]
  have h1 : a / b < 2 ^ (k.prec + ulpExp k (a / b)) := by
    by_cases h0 : a / b = 0
    · rw [h0]; exact Nat.two_pow_pos _
    · rw [← Nat.log2_lt h0]; unfold ulpExp; omega
  have h2 : a / b / 2 ^ ulpExp k (a / b) < 2 ^ k.prec := by
    rw [Nat.div_lt_iff_lt_mul (Nat.two_pow_pos _), ← Nat.pow_add]
    exact h1
  omega

theorem roundFlt_rep (k : FKind) (neg : Bool) (a b : Nat) : (roundFlt k neg a b).Rep k := by
  unfold roundFlt
  split
  · rename_i h
    exact RepMag_of_mul k _ _ (by unfold ulpExp; omega) (rhe_roundMag_le k a b) h
  · trivial

attribute [irreducible] roundFlt

theorem decToFlt_rep (neg : Bool) (m : Nat) (x : Int) : (decToFlt neg m x).Rep .f64 := by
  unfold decToFlt
  split
  · apply roundFlt_rep
  · apply roundFlt_rep

theorem RepMag_zero (k : FKind) : RepMag k 0 := ⟨Nat.two_pow_pos _, Nat.zero_mod _⟩

theorem strtod_rep (text : Bytes) : (strtod text).Rep .f64 := by
  unfold strtod
  dsimp only
  split
  · exact RepMag_zero _
  · exact decToFlt_rep _ _ _

theorem fltCast_rep (k : FKind) (x : Flt) : (fltCast k x).Rep k := by
  cases x
  · trivial
  · trivial
  · exact roundFlt_rep _ _ _ _

/-- json-number.hh:32-53 `string_to_number` for floating point types: `strtod`, then `static_cast<T>`. -/
def fltOfText (k : FKind) (text : Bytes) : CFlt k :=
  match k with
  | .f64 => ⟨strtod text, strtod_rep text⟩
  | .f32 => ⟨fltCast .f32 (strtod text), fltCast_rep _ _⟩

/-- `(T) 0`. -/
def CFlt.zero (k : FKind) : CFlt k := ⟨.fin false 0, RepMag_zero k⟩

/-- C++ `==` on floating point values. -/
def Flt.ceq : Flt → Flt → Bool
  | .nan, _ => false
  | _, .nan => false
  | .inf a, .inf b => a == b
  | .fin a m, .fin b n => m == n && (a == b || m == 0)
  | _, _ => false

/-- Exactly six decimal digits of `q`. -/
def dec6 (q : Nat) : Bytes :=
  [byte (48 + q / 100000 % 10), byte (48 + q / 10000 % 10), byte (48 + q / 1000 % 10), byte (48 + q / 100 % 10),
   byte (48 + q / 10 % 10), byte (48 + q % 10)]

/-- The numeral printed for `q` millionths: `%f` without sign. -/
def fixed6 (q : Nat) : Bytes := decNat (q / 1000000) ++ c!"." :: dec6 (q % 1000000)

/-- `printf("%f", x)` (C library, "C" locale): six decimals, exact value rounded half to even. -/
def printfF : Flt → Bytes
  | .nan => b!"nan"
  | .inf neg => if neg then b!"-inf" else b!"inf"
  | .fin neg m =>
    let body := fixed6 (rhe (m * 1000000) (2 ^ 1074))
    if neg then c!"-" :: body else body

/-- json-number.hh:75-93 `number_to_string` for floating point types: `snprintf(tmp, 319, "%f", value)` stores at most
318 characters. -/
def textOfFlt {k : FKind} (v : CFlt k) : Bytes := (printfF v.val).take 318

end PG
