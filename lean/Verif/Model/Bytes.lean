/-
Byte strings.  `char` sequences of the C++ code are lists of `UInt8`.
-/
namespace PG

abbrev Byte := UInt8
abbrev Bytes := List UInt8

open Lean in
/-- `b!"text"` is the list of the UTF-8 bytes of a literal (expanded at elaboration time to a list of numerals). -/
syntax:max "b!" str : term
open Lean in
macro_rules
  | `(b! $s:str) => do
    let bs := s.getString.toUTF8.toList
    let elems : Array (TSyntax `term) :=
      (bs.map (fun b => (⟨(Syntax.mkNumLit (toString b.toNat)).raw⟩ : TSyntax `term))).toArray
    `(([$elems,*] : List UInt8))

open Lean in
/-- `c!"x"` is the byte of a one-character ASCII literal. -/
syntax:max "c!" str : term
open Lean in
macro_rules
  | `(c! $s:str) => do
    match s.getString.toUTF8.toList with
    | [b] => `(($(Syntax.mkNumLit (toString b.toNat)) : UInt8))
    | _ => Macro.throwError "c! expects a single byte"

/-- ASCII decimal digit (used by several character tests of the code). -/
def isDigit (b : Byte) : Bool := 48 ≤ b && b ≤ 57

/-- ASCII letter. -/
def isAlpha (b : Byte) : Bool := (65 ≤ b && b ≤ 90) || (97 ≤ b && b ≤ 122)

end PG
