import Verif.Model.Write
import Verif.Spec.Json
import Verif.Spec.Utf8
import Verif.Spec.Base64
/-
What a generated object means as a JSON value, and what is left of it after a trip through JSON.
-/
set_option autoImplicit false
namespace PG

/-- The JSON scalar of an arithmetic value: decimal integers, `%f` for floating point, booleans. -/
def Prim.toJ : (p : Prim) → p.Den → J
  | .int _, v => .num (decInt (CInt.val v))
  | .flt _, v => .num (printfF v.val)
  | .bool, v => .bool v

/-- Array of the images of the elements. -/
def elemsToJ {α : Type} (f : α → J) : List α → JL
  | [] => .nil
  | x :: t => .cons (f x) (elemsToJ f t)

mutual
/-- The JSON value of an object.  `nulls` is the parameter `serialize_null`. -/
def Ty.toJ (nulls : Bool) : (t : Ty) → t.Den → J
  | .num p, v => if v.empty then .null else p.toJ v.value
  | .raw p, v => p.toJ v
  | .str, v => if v.null && v.value.isEmpty then .null else .str v.value
  | .bytes, v => .str (base64 v)
  | .rep t, v => .arr (elemsToJ (t.toJ nulls) v)
  | .msg _ fs, v => .obj (fs.toJ nulls v)
/-- The members of a message: one per persistent field, empty ones only with `nulls`. -/
def Fields.toJ (nulls : Bool) : (fs : Fields) → fs.Den → JM
  | .nil, _ => .nil
  | .cons f t rest, v =>
    if f.transient then rest.toJ nulls v.2
    else if nulls || !t.empty v.1 then .cons f.wlabel (t.toJ nulls v.1) (rest.toJ nulls v.2)
    else rest.toJ nulls v.2
end

/-- An arithmetic value that has a JSON form. -/
def Prim.Finite : (p : Prim) → p.Den → Prop
  | .flt _, v => ∃ neg m, v.val = .fin neg m
  | _, _ => True

/-- A string that can be written: every byte is `ok`, and in ASCII mode the bytes are UTF-8. -/
def StrOk (ok : Byte → Prop) (ascii : Bool) (s : Bytes) : Prop := (∀ b ∈ s, ok b) ∧ (ascii = true → Utf8 s)

mutual
/-- Objects that can be written faithfully: numbers are finite, strings are `StrOk`. -/
def Ty.Writable (ok : Byte → Prop) (ascii : Bool) : (t : Ty) → t.Den → Prop
  | .num p, v => v.empty = false → p.Finite v.value
  | .raw p, v => p.Finite v
  | .str, v => v.empty = false → StrOk ok ascii v.value
  | .bytes, _ => True
  | .rep t, v => ∀ x ∈ v, t.Writable ok ascii x
  | .msg _ fs, v => fs.Writable ok ascii v
/-- All persistent fields can be written faithfully. -/
def Fields.Writable (ok : Byte → Prop) (ascii : Bool) : (fs : Fields) → fs.Den → Prop
  | .nil, _ => True
  | .cons f t rest, v => (f.transient = false → t.Writable ok ascii v.1) ∧ rest.Writable ok ascii v.2
end

mutual
/-- Every label in the type consists of bytes that need no escaping in JSON. -/
def Ty.LabelsOk : Ty → Prop
  | .rep t => t.LabelsOk
  | .msg _ fs => fs.LabelsOk
  | _ => True
/-- Every label of the fields. -/
def Fields.LabelsOk : Fields → Prop
  | .nil => True
  | .cons f t rest => (f.transient = false → (∀ b ∈ f.wlabel, rfcRaw b)) ∧ t.LabelsOk ∧ rest.LabelsOk
end

/-- The labels of the persistent fields, in order. -/
def Fields.labels : Fields → List Bytes
  | .nil => []
  | .cons f _ rest => if f.transient then rest.labels else f.wlabel :: rest.labels

/-- `read_field` finds every persistent field under the label it is written with. -/
def Dispatches (obf : Bool) (fs : Fields) : Prop :=
  ∀ (i : Nat) (lab : Bytes), fs.labels[i]? = some lab → indexOf obf fs lab = some i

mutual
/-- Every message in the type dispatches its own labels. -/
def Ty.DispatchOk : Ty → Prop
  | .rep t => t.DispatchOk
  | .msg obf fs => Dispatches obf fs ∧ fs.DispatchOk
  | _ => True
/-- Every message below the fields. -/
def Fields.DispatchOk : Fields → Prop
  | .nil => True
  | .cons _ t rest => t.DispatchOk ∧ rest.DispatchOk
end

/-- The object is written as `null`. -/
def Ty.isNull : (t : Ty) → t.Den → Bool
  | .num _, v => v.empty
  | .str, v => v.null && v.value.isEmpty
  | _, _ => false

mutual
/-- No element of a container is written as `null` (`null` is not a legal element for the reader). -/
def Ty.NoNulls : (t : Ty) → t.Den → Prop
  | .rep t, v => ∀ x ∈ v, t.isNull x = false ∧ t.NoNulls x
  | .msg _ fs, v => fs.NoNulls v
  | _, _ => True
/-- No element of a container in a persistent field is written as `null`. -/
def Fields.NoNulls : (fs : Fields) → fs.Den → Prop
  | .nil, _ => True
  | .cons f t rest, v => (f.transient = false → t.NoNulls v.1) ∧ rest.NoNulls v.2
end

/-- What is left of an arithmetic value: floating point values are rounded to six decimals and back. -/
def Prim.norm : (p : Prim) → p.Den → p.Den
  | .int _, v => v
  | .flt k, v => fltOfText k (printfF v.val)
  | .bool, v => v

mutual
/-- What is left of an object after serialization and deserialization into a fresh object. -/
def Ty.norm (nulls : Bool) : (t : Ty) → t.Den → t.Den
  | .num p, v => if v.empty then NumField.new else ⟨p.norm v.value, false⟩
  | .raw p, v => p.norm v
  | .str, v => ⟨v.value, false⟩
  | .bytes, v => v
  | .rep t, v => List.map (t.norm nulls) v
  | .msg _ fs, v => fs.norm nulls v
/-- What is left of the fields: transient fields and omitted fields are as new. -/
def Fields.norm (nulls : Bool) : (fs : Fields) → fs.Den → fs.Den
  | .nil, _ => ()
  | .cons f t rest, v =>
    (if f.transient then t.new else if nulls || !t.empty v.1 then t.norm nulls v.1 else t.new, rest.norm nulls v.2)
end

end PG
