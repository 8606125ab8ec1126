import Verif.Model.Token
/-
Integers: `std::to_string`, `strtol`, `strtoul` and the conversions of source/cpp/json-number.hh:55-99 (non-Windows
branches, LP64).
-/
namespace PG

/-- `std::to_string` of a non-negative value (C++ library), used at json-number.hh:98. -/
def decNat (n : Nat) : Bytes :=
  if n < 10 then [byte (48 + n)] else decNat (n / 10) ++ [byte (48 + n % 10)]

/-- `std::to_string` of an integer (C++ library), used at json-number.hh:98. -/
def decInt (i : Int) : Bytes :=
  if i < 0 then c!"-" :: decNat i.natAbs else decNat i.natAbs

/-- `isspace` in the "C" locale, skipped by `strtol`/`strtoul`. -/
def isSpace (b : Byte) : Bool := b == 32 || (9 ≤ b && b ≤ 13)

/-- The run of decimal digits at the start of a text: accumulated value and remaining text (`strtol` family). -/
def digitRun : Bytes → Nat → Nat × Bytes
  | [], v => (v, [])
  | b :: bs, v => if isDigit b then digitRun bs (v * 10 + (b.toNat - 48)) else (v, b :: bs)

/-- The subject sequence of `strtol`/`strtoul` in base 10 (C library): sign, magnitude, remaining text; `none` when
there is no digit (no conversion is performed). -/
def strtolScan (text : Bytes) : Option (Bool × Nat × Bytes) :=
  let s := text.dropWhile isSpace
  let (neg, s) := match s with
    | b :: t => if b = c!"-" then (true, t) else if b = c!"+" then (false, t) else (false, b :: t)
    | [] => (false, [])
  match s with
  | b :: t => if isDigit b then let r := digitRun (b :: t) 0; some (neg, r.1, r.2) else none
  | [] => none

/-- `strtol(text, nullptr, 10)` with a 64-bit `long` (C library): saturates. -/
def strtol (text : Bytes) : Int :=
  match strtolScan text with
  | none => 0
  | some (neg, m, _) =>
    if neg then max (-(m : Int)) (-9223372036854775808) else min (m : Int) 9223372036854775807

/-- `strtoul(text, nullptr, 10)` with a 64-bit `unsigned long` (C library): saturates, and a minus sign negates
modulo 2^64. -/
def strtoul (text : Bytes) : Int :=
  match strtolScan text with
  | none => 0
  | some (neg, m, _) =>
    if m > 18446744073709551615 then 18446744073709551615
    else if neg then (-(m : Int)) % 18446744073709551616 else (m : Int)

/-- The C++ integer types of generated code (cppgen.cc:59-75); `u8` is the element type of `bytes` when it is treated
as an ordinary container. -/
inductive IKind
  | i32 | i64 | u32 | u64 | u8
deriving DecidableEq, Repr

namespace IKind
/-- Width in bits. -/
def bits : IKind → Nat
  | i32 => 32 | i64 => 64 | u32 => 32 | u64 => 64 | u8 => 8
/-- `std::is_signed`. -/
def signed : IKind → Bool
  | i32 => true | i64 => true | u32 => false | u64 => false | u8 => false
/-- `std::numeric_limits<T>::min()`. -/
def lo (k : IKind) : Int := if k.signed then -(2 ^ (k.bits - 1)) else 0
/-- `std::numeric_limits<T>::max()`. -/
def hi (k : IKind) : Int := k.lo + (2 ^ k.bits - 1)
end IKind

/-- A value of a C++ integer type. -/
structure CInt (k : IKind) where
  val : Int
  lo_le : k.lo ≤ val
  le_hi : val ≤ k.hi
deriving DecidableEq

/-- `static_cast<T>(x)`: reduction modulo 2^n. -/
def CInt.cast (k : IKind) (x : Int) : CInt k where
  val := (x - k.lo) % (2 ^ k.bits) + k.lo
  lo_le := by
    have h : (0 : Int) < 2 ^ k.bits := by cases k <;> decide
    have := Int.emod_nonneg (x - k.lo) (Int.ne_of_gt h)
    omega
  le_hi := by
    have h : (0 : Int) < 2 ^ k.bits := by cases k <;> decide
    have := Int.emod_lt_of_pos (x - k.lo) h
    unfold IKind.hi
    omega

/-- `(T) 0`. -/
def CInt.zero (k : IKind) : CInt k := CInt.cast k 0

/-- json-number.hh:55-73 `string_to_number` for integral types. -/
def intOfText (k : IKind) (text : Bytes) : CInt k :=
  if k.signed then CInt.cast k (strtol text) else CInt.cast k (strtoul text)

/-- json-number.hh:95-99 `number_to_string` for integral types. -/
def textOfInt {k : IKind} (v : CInt k) : Bytes := decInt v.val

end PG
