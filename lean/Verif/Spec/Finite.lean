import Verif.Spec.Encode
/-
The two conditions under which an object can be written as JSON, apart from each other: one on its strings, one on its
numbers.
-/
set_option autoImplicit false
namespace PG

mutual
/-- Every string that is written satisfies the condition. -/
def Ty.Strings (P : Bytes → Prop) : (t : Ty) → t.Den → Prop
  | .str, v => v.empty = false → P v.value
  | .rep t, v => ∀ x ∈ v, t.Strings P x
  | .msg _ fs, v => fs.Strings P v
  | _, _ => True
/-- The same for the persistent fields. -/
def Fields.Strings (P : Bytes → Prop) : (fs : Fields) → fs.Den → Prop
  | .nil, _ => True
  | .cons f t rest, v => (f.transient = false → t.Strings P v.1) ∧ rest.Strings P v.2
end

mutual
/-- Every number that is written is finite. -/
def Ty.AllFinite : (t : Ty) → t.Den → Prop
  | .num p, v => v.empty = false → p.Finite v.value
  | .raw p, v => p.Finite v
  | .rep t, v => ∀ x ∈ v, t.AllFinite x
  | .msg _ fs, v => fs.AllFinite v
  | _, _ => True
/-- The same for the persistent fields. -/
def Fields.AllFinite : (fs : Fields) → fs.Den → Prop
  | .nil, _ => True
  | .cons f t rest, v => (f.transient = false → t.AllFinite v.1) ∧ rest.AllFinite v.2
end

end PG
