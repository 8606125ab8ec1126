import Verif.Model.Num
/-
source/printer.cc: substitution of `$n$` in the templates of the generator.
-/
set_option autoImplicit false
namespace PG.Gen

/-- Where `strtol` stops (C library); the start of the text if there is no number. -/
def strtolEnd (text : Bytes) : Bytes :=
  match strtolScan text with
  | none => text
  | some (_, _, rest) => rest

/-- `strchr(text, '$')` (C library): the text from the first `$` on. -/
def fromDollar : Bytes → Option Bytes
  | [] => none
  | b :: r => if b = c!"$" then some (b :: r) else fromDollar r

theorem fromDollar_length {s e : Bytes} (h : fromDollar s = some e) : e.length ≤ s.length := by
  induction s with
  | nil => cases h
  | cons b r ih =>
    rw [fromDollar] at h
    split at h
    · injection h with h; subst h; exact Nat.le_refl _
    · have := ih h; simp only [List.length_cons]; omega

/-- printer.cc:39-66 `Printer::print`.  The format is a C string, so it has no NUL characters.  `last == end` compares
positions; both are suffixes of the same text, so it is equality of what remains.  The subtraction at line 50 is done
without overflow here: the code has undefined behaviour if the number converts to the smallest `int`. -/
def print (vars : List Bytes) : Bytes → Bytes
  | [] => []
  | b :: r =>
    if b = c!"$" then
      match h : fromDollar r with
      | none => []
      | some e =>
        if strtolEnd r ≠ e then []
        else
          have : e.tail.length < r.length + 1 := by
            have := fromDollar_length h
            simp only [List.length_tail]; omega
          let index := (CInt.cast .i32 (strtol r)).val - 1
          if index < 0 ∨ (vars.length : Int) ≤ index then print vars e.tail
          else (vars[index.toNat]?).getD [] ++ print vars e.tail
    else if b = 9 then b!"    " ++ print vars r
    else if b ≠ 8 then b :: print vars r
    else print vars r
termination_by s => s.length
decreasing_by all_goals simp_all

end PG.Gen
