import Verif.Model.Bytes
/-
String literals of C++11 (ISO/IEC 14882:2011, 2.14.5 and 2.4).
-/
set_option autoImplicit false
namespace PG.Gen

/-- The value of a hexadecimal digit. -/
def hexValue (c : Byte) : Option Nat :=
  if 48 ≤ c ∧ c ≤ 57 then some (c.toNat - 48)
  else if 97 ≤ c ∧ c ≤ 102 then some (c.toNat - 87)
  else if 65 ≤ c ∧ c ≤ 70 then some (c.toNat - 55)
  else none

/-- Inside a literal: at a character, after a backslash, in a hexadecimal escape with the value so far, in an octal
escape with the number of digits that may follow and the value so far. -/
inductive LitState
  | plain
  | escape
  | hex (v : Option Nat)
  | oct (left v : Nat)
deriving DecidableEq, Repr

/-- The character of a simple escape sequence. -/
def simpleEscape (c : Byte) : Option Byte :=
  if c = c!"n" then some 10 else if c = c!"t" then some 9 else if c = c!"r" then some 13
  else if c = c!"a" then some 7 else if c = c!"b" then some 8 else if c = c!"f" then some 12
  else if c = c!"v" then some 11 else if c = c!"\\" then some c!"\\" else if c = c!"\"" then some c!"\""
  else if c = c!"'" then some c!"'" else if c = c!"?" then some c!"?" else none

/-- A value that fits a character. -/
def charValue (v : Nat) : Option Byte := if v < 256 then some (UInt8.ofNat v) else none

/-- A character outside of escape sequences: what comes next (`literal` from the state after it). -/
def plainNext (c : Byte) (k : LitState → Option Bytes) : Option Bytes :=
  if c = c!"\"" ∨ c = 10 then none
  else if c = c!"\\" then k .escape
  else (k .plain).map (c :: ·)

/-- The value of the text between the quotes of a literal; `none` if it is not well formed. -/
def literal : LitState → Bytes → Option Bytes
  | .plain, [] => some []
  | .escape, [] => none
  | .hex none, [] => none
  | .hex (some v), [] => (charValue v).map fun b => [b]
  | .oct _ v, [] => (charValue v).map fun b => [b]
  | .plain, c :: r => plainNext c fun st => literal st r
  | .escape, c :: r =>
    if c = c!"x" then literal (.hex none) r
    else if 48 ≤ c ∧ c ≤ 55 then literal (.oct 2 (c.toNat - 48)) r
    else match simpleEscape c with
      | none => none
      | some b => (literal .plain r).map (b :: ·)
  | .hex v, c :: r =>
    match hexValue c, v with
    | some d, none => literal (.hex (some d)) r
    | some d, some w => literal (.hex (some (16 * w + d))) r
    | none, none => none
    | none, some w => (charValue w).bind fun b => (plainNext c fun st => literal st r).map (b :: ·)
  | .oct left v, c :: r =>
    if left ≠ 0 ∧ 48 ≤ c ∧ c ≤ 55 then literal (.oct (left - 1) (8 * v + (c.toNat - 48))) r
    else (charValue v).bind fun b => (plainNext c fun st => literal st r).map (b :: ·)

/-- Two question marks may begin a trigraph, which is replaced before anything else. -/
def mayHaveTrigraph : Bytes → Bool
  | a :: b :: r => (a = c!"?" && b = c!"?") || mayHaveTrigraph (b :: r)
  | _ => false

/-- The characters of a literal; texts that may have trigraphs are excluded. -/
def literalValue (s : Bytes) : Option Bytes := if mayHaveTrigraph s then none else literal .plain s

/-- The string a literal stands for where a C string is expected, for example as an argument of type `std::string`: the
characters before the first null character. -/
def cString (s : Bytes) : Option Bytes := (literalValue s).map fun v => v.takeWhile (· ≠ 0)

end PG.Gen
