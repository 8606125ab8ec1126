import Verif.Spec.CLit
/-
Macros whose values are string literals, as the C++ preprocessor and compiler see them (ISO/IEC 14882:2011, 2.2).
-/
set_option autoImplicit false
namespace PG.Gen

/-- Phase 2: a backslash at the end of a line joins it with the next one. -/
def splice : Bytes → Bytes
  | [] => []
  | [c] => [c]
  | c :: d :: rest => if c = c!"\\" ∧ d = 10 then splice rest else c :: splice (d :: rest)

/-- The lines of a text (without what follows the last line feed). -/
def linesOf : Bytes → List Bytes
  | [] => []
  | c :: rest =>
    if c = 10 then [] :: linesOf rest
    else match linesOf rest with
      | [] => []
      | l :: ls => (c :: l) :: ls

/-- The value of a sequence of string literals separated by spaces (phase 6 concatenates them); `none` if it is something
else.  The first argument is the text of the literal being read, if any; the second one tells whether the last character
was a backslash that begins an escape sequence. -/
def literals : Option Bytes → Bool → Bytes → Option Bytes
  | none, _, [] => some []
  | some _, _, [] => none
  | none, _, c :: rest =>
    if c = c!" " then literals none false rest
    else if c = c!"\"" then literals (some []) false rest
    else none
  | some acc, true, c :: rest => literals (some (acc ++ [c])) false rest
  | some acc, false, c :: rest =>
    if c = c!"\"" then (literalValue acc).bind fun v => (literals none false rest).map (v ++ ·)
    else literals (some (acc ++ [c])) (c = c!"\\") rest

/-- The macro defined by a line, if its value is a sequence of string literals. -/
def macroOf (line : Bytes) : Option (Bytes × Bytes) :=
  if b!"#define ".isPrefixOf line then
    let rest := line.drop 8
    (literals none false (rest.dropWhile (· ≠ c!" "))).map fun v => (rest.takeWhile (· ≠ c!" "), v)
  else none

/-- The macros defined by a file. -/
def macros (text : Bytes) : List (Bytes × Bytes) := (linesOf (splice text)).filterMap macroOf

/-- The text with the placeholder of the version replaced. -/
def withVersion : Bytes → Bytes
  | [] => []
  | 95 :: 88 :: 95 :: 89 :: 95 :: 90 :: rest => b!"_3_0_0" ++ withVersion rest
  | c :: rest => c :: withVersion rest

example : withVersion b!"a_X_Y_Z::b_X_Y" = b!"a_3_0_0::b_X_Y" := by decide
example : macros b!"#define A \\\n   \"x\\\"\" \\\n  \"y\\n\"\n#define B 3\n" = [(b!"A", b!"x\"y\n")] := by decide

end PG.Gen
