import Verif.Spec.Absorb
/-
Looking at one field of a generated object.
-/
set_option autoImplicit false
namespace PG

/-- The `i`-th persistent field of a message: its type and its value. -/
def Fields.get : (fs : Fields) → Nat → fs.Den → Option (Σ t : Ty, t.Den)
  | .nil, _, _ => none
  | .cons f t rest, i, v =>
    if f.transient then rest.get i v.2
    else match i with
      | 0 => some ⟨t, v.1⟩
      | i + 1 => rest.get i v.2

/-- The `i`-th transient field of a message. -/
def Fields.getTransient : (fs : Fields) → Nat → fs.Den → Option (Σ t : Ty, t.Den)
  | .nil, _, _ => none
  | .cons f t rest, i, v =>
    if f.transient then match i with
      | 0 => some ⟨t, v.1⟩
      | i + 1 => rest.getTransient i v.2
    else rest.getTransient i v.2

/-- The values given to a name in an object, in order. -/
def JM.valuesOf (name : Bytes) : JM → List J
  | .nil => []
  | .cons k j t => if k = name then j :: t.valuesOf name else t.valuesOf name

/-- Values read one after the other into an object. -/
def Ty.absorbAll (t : Ty) : List J → t.Den → t.Den
  | [], v => v
  | j :: js, v => t.absorbAll js (t.absorb j v).2

/-- The members of an object as a list. -/
def JM.toList : JM → List (Bytes × J)
  | .nil => []
  | .cons k j t => (k, j) :: t.toList

/-- The elements of an array as a list. -/
def JL.toList : JL → List J
  | .nil => []
  | .cons j t => j :: t.toList

end PG
