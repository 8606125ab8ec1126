import Verif.Spec.Schema
/-
Positions in a text, and the place of the schema an error refers to.  Independent of the parser.
-/
set_option autoImplicit false
namespace PG.Proto

/-- The line (from 1) of the character that follows `pre`. -/
def lineAt (pre : Bytes) : Nat := 1 + pre.count 10
/-- The column (from 1) of the character that follows `pre`. -/
def colAt (pre : Bytes) : Nat := 1 + (pre.reverse.takeWhile (· != 10)).length

/-- `pre`, followed by `tail`, consists of the lexical elements `ls` and what is skipped before and after them. -/
inductive Before : List Lexeme → Bytes → Bytes → Prop
  | gap {g tail : Bytes} (h : LooseGap g) : Before [] g tail
  | lexeme {l : Lexeme} {ls : List Lexeme} {g rest tail : Bytes} (hg : LooseGap g) (hl : l.Valid)
      (he : l.Ends (rest ++ tail)) (h : Before ls rest tail) : Before (l :: ls) (g ++ l.text ++ rest) tail

/-- What an error can refer to: a lexical element, a character that belongs to none, or a name that ends with a dot. -/
inductive Offender
  | lexeme (l : Lexeme)
  | stray (b : Byte)
  | ident (n : Bytes)
deriving DecidableEq, Repr

namespace Offender
/-- How it is written. -/
def text : Offender → Bytes
  | lexeme l => l.text
  | stray b => [b]
  | ident n => n ++ b!"."
/-- It is what it is said to be. -/
def Valid : Offender → Prop
  | lexeme l => l.Valid
  | stray b => Stray b ∨ b = c!"."
  | ident n => DotName n
/-- What follows in the file does not extend it. -/
def Ends : Offender → Bytes → Prop
  | lexeme l, r => l.Ends r
  | stray _, _ => True
  | ident _, r => ∀ b q, r = b :: q → ¬ Letter b
end Offender

/-- The text consists of `pre`, taken for the lexical elements `ls`, the offender `x`, and `r`. -/
structure Offends (text : Bytes) (ls : List Lexeme) (pre : Bytes) (x : Offender) (r : Bytes) : Prop where
  split : text = pre ++ (x.text ++ r)
  before : Before ls pre (x.text ++ r)
  valid : x.Valid
  ends : x.Ends r

/-- The text consists of `pre`, taken for the lexical elements `ls`, and a string that is not closed on its line. -/
structure Broken (text : Bytes) (ls : List Lexeme) (pre s : Bytes) (b : Byte) (rest : Bytes) : Prop where
  split : text = pre ++ (34 :: s ++ b :: rest)
  before : Before ls pre (34 :: s ++ b :: rest)
  quotable : Quotable s
  breaks : b = 10 ∨ b = 0

end PG.Proto
