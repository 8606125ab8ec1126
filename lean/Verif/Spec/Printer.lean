import Verif.Model.Bytes
/-
Templates: text with numbered holes.
-/
set_option autoImplicit false
namespace PG.Gen

/-- A piece of a template: a character, or a hole with its number. -/
inductive Piece
  | lit (c : Byte)
  | hole (digits : Bytes)
deriving DecidableEq, Repr

/-- The value of a run of digits. -/
def numeral (d : Bytes) : Nat := d.foldl (fun v c => 10 * v + (c.toNat - 48)) 0

/-- A character that is not `$`; a number below 2^31. -/
def Piece.WF : Piece → Prop
  | .lit c => c ≠ c!"$"
  | .hole d => (d ≠ [] ∧ ∀ c ∈ d, 48 ≤ c ∧ c ≤ 57) ∧ numeral d < 2 ^ 31

/-- A piece as it is written in a template. -/
def Piece.text : Piece → Bytes
  | .lit c => [c]
  | .hole d => c!"$" :: d ++ [c!"$"]

/-- The text of a template. -/
def templateText (ps : List Piece) : Bytes := ps.flatMap Piece.text

/-- What the printer has to make of a piece: a tab becomes four spaces, other characters are copied, a hole is replaced
by the argument with its number, counted from one, or by nothing if there is none. -/
def Piece.filled (args : List Bytes) : Piece → Bytes
  | .lit c => if c = 9 then b!"    " else [c]
  | .hole d => match numeral d with
    | 0 => []
    | n + 1 => args[n]?.getD []

/-- … of a template. -/
def filled (args : List Bytes) (ps : List Piece) : Bytes := ps.flatMap (Piece.filled args)

/-! ### Any text as a template -/

/-- What may stand between two `$`, with the number that is meant: nothing, or a number as C reads it — white space, a
sign, digits. -/
inductive Slot : Bytes → Int → Prop
  | none : Slot [] 0
  | num {ws sign ds : Bytes} : (∀ c ∈ ws, c = 32 ∨ (9 ≤ c ∧ c ≤ 13)) → (sign = [] ∨ sign = b!"+" ∨ sign = b!"-") → ds ≠ [] →
      (∀ c ∈ ds, 48 ≤ c ∧ c ≤ 57) → Slot (ws ++ sign ++ ds) (if sign = b!"-" then -(numeral ds : Int) else numeral ds)

/-- The number after it went through a 64-bit `long`, which is the limit, and an `int`, which keeps the lower half. -/
def narrowed (z : Int) : Int :=
  let l := max (-2 ^ 63) (min (2 ^ 63 - 1) z)
  (l + 2 ^ 31) % 2 ^ 32 - 2 ^ 31

/-- The argument of a number, counted from one; nothing if there is none. -/
def argument (args : List Bytes) (z : Int) : Bytes := if 1 ≤ z then args[(z - 1).toNat]?.getD [] else []

/-- What a text becomes: tabs are four spaces, backspaces nothing, a slot its argument, and a `$` that does not open a
slot ends the text. -/
inductive Expands (args : List Bytes) : Bytes → Bytes → Prop
  | nil : Expands args [] []
  | tab {t o : Bytes} : Expands args t o → Expands args (9 :: t) (b!"    " ++ o)
  | backspace {t o : Bytes} : Expands args t o → Expands args (8 :: t) o
  | char {c : Byte} {t o : Bytes} : c ≠ 9 → c ≠ 8 → c ≠ c!"$" → Expands args t o → Expands args (c :: t) (c :: o)
  | slot {i t o : Bytes} {z : Int} : Slot i z → Expands args t o →
      Expands args (c!"$" :: i ++ c!"$" :: t) (argument args (narrowed z) ++ o)
  | broken {t : Bytes} : (∀ i z r, Slot i z → t ≠ i ++ c!"$" :: r) → Expands args (c!"$" :: t) []

end PG.Gen
