import Verif.Spec.Encode
import Verif.Spec.Decimal
/-
Which data of an object can be seen in its JSON text: the relation "the two objects show the same", stated without texts.
-/
set_option autoImplicit false
set_option exponentiation.threshold 3000
namespace PG

/-- `q` millionths is the multiple of a millionth nearest to a magnitude (in units of 2^-1074), an even one if there are
two. -/
def Millionths (m q : Nat) : Prop :=
  2 * distTo (m * 1000000) (2 ^ 1074) q ≤ 2 ^ 1074 ∧ (2 * distTo (m * 1000000) (2 ^ 1074) q = 2 ^ 1074 → q % 2 = 0)

/-- Two floating point values show the same: the same sign (zero has one as well) and the same number of millionths. -/
def Flt.Shows : Flt → Flt → Prop
  | .nan, .nan => True
  | .inf a, .inf b => a = b
  | .fin a m, .fin b n => a = b ∧ ∃ q, Millionths m q ∧ Millionths n q
  | _, _ => False

/-- Two arithmetic values show the same: integers and booleans are shown exactly. -/
def Prim.Shows : (p : Prim) → p.Den → p.Den → Prop
  | .int _, a, b => CInt.val a = CInt.val b
  | .flt _, a, b => Flt.Shows a.val b.val
  | .bool, a, b => (a : Bool) = b

/-- Lists of the same length, related element by element. -/
inductive Each {α : Type} (R : α → α → Prop) : List α → List α → Prop
  | nil : Each R [] []
  | cons {a b : α} {as bs : List α} (h : R a b) (t : Each R as bs) : Each R (a :: as) (b :: bs)

mutual
/-- Nothing is stored: no number, no string, no bytes, no elements, nothing in any field (transient ones included). -/
def Ty.Blank : (t : Ty) → t.Den → Prop
  | .num _, v => v.empty = true
  | .raw p, v => p.near v p.zero = true
  | .str, v => v.null = true ∧ v.value = []
  | .bytes, v => v = ([] : List Byte)
  | .rep t, v => v = ([] : List t.Den)
  | .msg _ fs, v => fs.Blank v
/-- Nothing is stored in any field. -/
def Fields.Blank : (fs : Fields) → fs.Den → Prop
  | .nil, _ => True
  | .cons _ t rest, v => t.Blank v.1 ∧ rest.Blank v.2
end

mutual
/-- Two objects show the same.  A null string that holds text shows it; an empty string differs from a null one. -/
def Ty.Shows (nulls : Bool) : (t : Ty) → t.Den → t.Den → Prop
  | .num p, a, b => (a.empty = true ∧ b.empty = true) ∨ (a.empty = false ∧ b.empty = false ∧ p.Shows a.value b.value)
  | .raw p, a, b => p.Shows a b
  | .str, a, b => a.value = b.value ∧ (a.value = [] → a.null = b.null)
  | .bytes, a, b => a = b
  | .rep t, a, b => Each (t.Shows nulls) a b
  | .msg _ fs, a, b => fs.Shows nulls a b
/-- Two structures show the same: transient fields do not matter, and fields are not shown if they are blank (unless nulls
are asked for). -/
def Fields.Shows (nulls : Bool) : (fs : Fields) → fs.Den → fs.Den → Prop
  | .nil, _, _ => True
  | .cons f t rest, a, b =>
    (f.transient = false →
      (nulls = false ∧ t.Blank a.1 ∧ t.Blank b.1) ∨
      ((nulls = true ∨ ¬ t.Blank a.1) ∧ (nulls = true ∨ ¬ t.Blank b.1) ∧ t.Shows nulls a.1 b.1)) ∧
    rest.Shows nulls a.2 b.2
end

mutual
/-- The strings that can be shown are UTF-8. -/
def Ty.Utf8s : (t : Ty) → t.Den → Prop
  | .str, v => PG.Utf8 v.value
  | .rep t, v => ∀ x ∈ v, t.Utf8s x
  | .msg _ fs, v => fs.Utf8s v
  | _, _ => True
/-- The strings in persistent fields are UTF-8. -/
def Fields.Utf8s : (fs : Fields) → fs.Den → Prop
  | .nil, _ => True
  | .cons f t rest, v => (f.transient = false → t.Utf8s v.1) ∧ rest.Utf8s v.2
end

mutual
/-- In every message of the type the labels of the persistent fields are different. -/
def Ty.Distinct : Ty → Prop
  | .rep t => t.Distinct
  | .msg _ fs => fs.labels.Nodup ∧ fs.Distinct
  | _ => True
/-- In every message below the fields the labels are different. -/
def Fields.Distinct : Fields → Prop
  | .nil => True
  | .cons _ t rest => t.Distinct ∧ rest.Distinct
end

end PG
