import Verif.Model.Schema
import Verif.Spec.Json
/-
How deeply JSON values nest, and how much of that a reader of a given type sees.
-/
set_option autoImplicit false
namespace PG

mutual
/-- Nesting of a JSON value; 1 for a value that contains no other. -/
def J.levels : J → Nat
  | .arr xs => 1 + xs.levels
  | .obj ms => 1 + ms.levels
  | _ => 1
/-- The deepest nesting of the elements. -/
def JL.levels : JL → Nat
  | .nil => 0
  | .cons j t => Nat.max j.levels t.levels
/-- The deepest nesting of the members. -/
def JM.levels : JM → Nat
  | .nil => 0
  | .cons _ j t => Nat.max j.levels t.levels
end

/-- The greatest of the numbers given to the elements. -/
def JL.most (f : J → Nat) : JL → Nat
  | .nil => 0
  | .cons j t => Nat.max (f j) (t.most f)

/-- The greatest of the numbers given to the members. -/
def JM.most (f : Bytes → J → Nat) : JM → Nat
  | .nil => 0
  | .cons k j t => Nat.max (f k j) (t.most f)

mutual
/-- Levels of a JSON value for a reader of a type: elements and members are read by the readers of their types, members the
type does not have are skipped, all the way down. -/
def Ty.levels : Ty → J → Nat
  | .rep t, .arr xs => 1 + xs.most t.levels
  | .msg obf fs, .obj ms => 1 + ms.most (fun k j =>
      match indexOf obf fs k with
      | none => j.levels
      | some i => fs.levelsAt i j)
  | _, _ => 1
/-- The same for the `i`-th persistent field. -/
def Fields.levelsAt : Fields → Nat → J → Nat
  | .nil, _, j => j.levels
  | .cons f t rest, i, j =>
    if f.transient then rest.levelsAt i j
    else
      match i with
      | 0 => t.levels j
      | i + 1 => rest.levelsAt i j
end

mutual
/-- Nesting of a type; 1 for a type that contains no other. -/
def Ty.height : Ty → Nat
  | .rep t => 1 + t.height
  | .msg _ fs => 1 + fs.height
  | _ => 1
/-- The deepest nesting of the types of the persistent fields. -/
def Fields.height : Fields → Nat
  | .nil => 0
  | .cons f t rest => if f.transient then rest.height else Nat.max t.height rest.height
end

/-- Every element satisfies the condition. -/
def JL.Each (P : J → Prop) : JL → Prop
  | .nil => True
  | .cons j t => P j ∧ t.Each P

/-- Every member satisfies the condition. -/
def JM.Each (P : Bytes → J → Prop) : JM → Prop
  | .nil => True
  | .cons k j t => P k j ∧ t.Each P

mutual
/-- The document has only members the type has, also inside of its elements and members. -/
def Ty.Knows : Ty → J → Prop
  | .rep t, .arr xs => xs.Each t.Knows
  | .msg obf fs, .obj ms => ms.Each (fun k j => ∃ i, indexOf obf fs k = some i ∧ fs.KnowsAt i j)
  | _, _ => True
/-- The same for the `i`-th persistent field. -/
def Fields.KnowsAt : Fields → Nat → J → Prop
  | .nil, _, _ => False
  | .cons f t rest, i, j =>
    if f.transient then rest.KnowsAt i j
    else
      match i with
      | 0 => t.Knows j
      | i + 1 => rest.KnowsAt i j
end

end PG
