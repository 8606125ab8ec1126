import Verif.Model.Bytes
/-
What a field holds, told from the history of the operations on it, without looking at the field classes.
-/
set_option autoImplicit false
namespace PG

/-- One operation on a field of type `α`, newest operations first in a history. -/
inductive FieldOp (α : Type)
  /-- a value is assigned, or exchanged with the contents -/
  | set (x : α)
  /-- the contents are exchanged with another field, which is null or not and holds `x` -/
  | swap (null : Bool) (x : α)
  /-- another field, which is null or not and holds `x`, is assigned -/
  | copy (null : Bool) (x : α)
  /-- `clear()`, or `empty(true)` on strings -/
  | clear
  /-- `empty(false)` on strings -/
  | unnull
  /-- writing through the reference handed out by `operator*` of strings -/
  | poke (x : α)

/-- Does the field count as null?  Decided by the newest operation that is not a write through a reference; a new field
is null. -/
def nullAfter {α : Type} : List (FieldOp α) → Bool
  | [] => true
  | .set _ :: _ => false
  | .swap n _ :: _ => n
  | .copy n _ :: _ => n
  | .clear :: _ => true
  | .unnull :: _ => false
  | .poke _ :: h => nullAfter h

/-- The value inside: the newest that was put there.  Copying a null field puts nothing there. -/
def valueAfter {α : Type} (zero : α) : List (FieldOp α) → α
  | [] => zero
  | .set x :: _ => x
  | .swap _ x :: _ => x
  | .copy n x :: h => if n then valueAfter zero h else x
  | .clear :: _ => zero
  | .unnull :: h => valueAfter zero h
  | .poke x :: _ => x

end PG
