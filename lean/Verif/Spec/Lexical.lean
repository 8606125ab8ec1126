import Verif.Model.Bytes
/-
The outer form of a C++ file (ISO/IEC 14882:2017, [lex.phases], [lex.comment], [lex.literal], [cpp.cond]): comments,
literals and preprocessing directives end, and brackets and conditionals are properly nested.  Trigraphs (removed in
C++17), raw string literals and digit separators are not considered.
-/
set_option autoImplicit false
namespace PG.Gen

/-- Where in the file: at the beginning of a line, in the name of a directive, in code, after a backslash in code, after a
slash, in a comment up to the end of the line, after a backslash in it, in a comment up to `*/`, after an asterisk in it, in
a string literal, after a backslash in it, in a character literal, after a backslash in it. -/
inductive Spot
  | start
  | hash (word : Bytes)
  | code
  | splice
  | slash
  | line
  | lineSplice
  | block
  | star
  | str
  | strEscape
  | chr
  | chrEscape
deriving DecidableEq, Repr

/-- What is open. -/
inductive Open
  /-- `(` -/
  | round
  /-- `[` -/
  | square
  /-- `{` -/
  | curly
  /-- `#if`, `#ifdef` or `#ifndef` -/
  | cond
  /-- A directive, up to the end of its line. -/
  | directive
deriving DecidableEq, Repr

/-- Where in the file, whether in a directive, and what is open. -/
structure Scan where
  spot : Spot
  directive : Bool
  opened : List Open
deriving DecidableEq, Repr

/-- The beginning of a file. -/
def Scan.begin : Scan := ⟨.start, false, []⟩

namespace Scan

/-- The last thing opened is closed. -/
def close (s : Scan) (o : Open) : Option Scan :=
  match s.opened with
  | [] => none
  | p :: rest => if p = o then some { s with opened := rest } else none

/-- The end of a line: a directive ends; everything that was opened in it has to be closed. -/
def newline (s : Scan) : Option Scan :=
  if s.directive then ({ s with spot := .start, directive := false } : Scan).close .directive
  else some { s with spot := .start }

/-- A character of code. -/
def code (s : Scan) (c : Byte) : Option Scan :=
  let s := { s with spot := .code }
  if c = 10 then s.newline
  else if c = c!"\"" then some { s with spot := .str }
  else if c = c!"'" then some { s with spot := .chr }
  else if c = c!"/" then some { s with spot := .slash }
  else if c = c!"\\" then some { s with spot := .splice }
  else if c = c!"(" then some { s with opened := .round :: s.opened }
  else if c = c!"[" then some { s with opened := .square :: s.opened }
  else if c = c!"{" then some { s with opened := .curly :: s.opened }
  else if c = c!")" then s.close .round
  else if c = c!"]" then s.close .square
  else if c = c!"}" then s.close .curly
  else some s

/-- The name of a directive is complete. -/
def word (s : Scan) (w : Bytes) : Option Scan :=
  let enter (s : Scan) : Scan := { s with directive := true, opened := .directive :: s.opened }
  if w = b!"if" ∨ w = b!"ifdef" ∨ w = b!"ifndef" then some (enter { s with opened := .cond :: s.opened })
  else if w = b!"else" ∨ w = b!"elif" then (s.close .cond).map fun s => enter { s with opened := .cond :: s.opened }
  else if w = b!"endif" then (s.close .cond).map enter
  else some (enter s)

/-- One character; `none` if it cannot stand there. -/
def step (s : Scan) (c : Byte) : Option Scan :=
  match s.spot with
  | .start =>
    if c = 32 ∨ c = 9 then some s
    else if c = c!"#" then some { s with spot := .hash [] }
    else s.code c
  | .hash w =>
    if (97 ≤ c ∧ c ≤ 122) then some { s with spot := .hash (w ++ [c]) } else (s.word w).bind fun s => s.code c
  | .code => s.code c
  | .splice => if c = 10 then some { s with spot := .code } else none
  | .slash =>
    if c = c!"/" then some { s with spot := .line }
    else if c = c!"*" then some { s with spot := .block }
    else s.code c
  | .line =>
    if c = 10 then s.newline else if c = c!"\\" then some { s with spot := .lineSplice } else some s
  | .lineSplice =>
    if c = c!"\\" then some s else some { s with spot := .line }
  | .block => if c = c!"*" then some { s with spot := .star } else some s
  | .star =>
    if c = c!"/" then some { s with spot := .code }
    else if c = c!"*" then some s else some { s with spot := .block }
  | .str =>
    if c = 10 then none
    else if c = c!"\"" then some { s with spot := .code }
    else if c = c!"\\" then some { s with spot := .strEscape } else some s
  | .strEscape => some { s with spot := .str }
  | .chr =>
    if c = 10 then none
    else if c = c!"'" then some { s with spot := .code }
    else if c = c!"\\" then some { s with spot := .chrEscape } else some s
  | .chrEscape => some { s with spot := .chr }

/-- All characters of a text. -/
def run (s : Scan) : Bytes → Option Scan
  | [] => some s
  | c :: rest => (s.step c).bind fun s => s.run rest

end Scan

/-- A file has the outer form of a C++ file: it ends with a line feed, nothing is left open. -/
def WellFormed (text : Bytes) : Prop := Scan.begin.run text = some Scan.begin

/-- The text between the quotes of a string literal: no quotes, no line feeds, and no backslash at the end, unless after a
backslash. -/
def Closed : Bytes → Bool
  | [] => true
  | [c] => c ≠ c!"\"" && c ≠ 10 && c ≠ c!"\\"
  | c :: d :: rest =>
    if c = c!"\\" then Closed rest else c ≠ c!"\"" && c ≠ 10 && Closed (d :: rest)

end PG.Gen
