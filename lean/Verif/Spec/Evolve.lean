import Verif.Spec.Encode
import Verif.Spec.Access
/-
What becomes of an object of one generated class when its text is read by another class (an older or newer version of the
schema), as a function on objects: no text, no JSON values.
-/
set_option autoImplicit false
namespace PG

/-- An arithmetic value of type `p` carried over to type `q`; `none` if the reader refuses it.  Integers become integers as
by a C conversion, except that a signed reader saturates at 2^63 - 1 first; where a floating point number is involved the value
goes through the decimal text. -/
def Prim.carry : (q p : Prim) → p.Den → Option q.Den
  | .int k, .int _, v => some (CInt.cast k (if k.signed then min (CInt.val v) 9223372036854775807 else CInt.val v))
  | .int k, .flt _, v => some (intOfText k (printfF v.val))
  | .flt k, .int _, v => some (fltOfText k (decInt (CInt.val v)))
  | .flt k, .flt _, v => some (fltOfText k (printfF v.val))
  | .bool, .bool, v => some v
  | _, _, _ => none

/-- The value of the first persistent field with the given JSON name. -/
def Fields.find (lab : Bytes) : (fs : Fields) → fs.Den → Option (Σ t : Ty, t.Den)
  | .nil, _ => none
  | .cons f t rest, v => if f.transient = false ∧ f.wlabel = lab then some ⟨t, v.1⟩ else rest.find lab v.2

/-- All elements carried over, or none. -/
def carryAll {α β : Type} (f : α → Option β) : List α → Option (List β)
  | [] => some []
  | x :: xs => (f x).bind fun y => (carryAll f xs).map fun ys => y :: ys

/-- What a `null` leaves in a new object: a string is no longer null. -/
def Ty.onNull : (t : Ty) → t.Den
  | .str => (⟨[], false⟩ : StrField)
  | t => t.new

mutual
/-- An object of type `t₁` (second argument) carried over to a new object of type `t₂` (first argument): scalars are
converted, elements one by one, the fields of messages by their JSON names; `none` if the reader refuses the document.
`nulls` tells whether the writer writes empty fields. -/
def Ty.carry (nulls : Bool) : (t₂ t₁ : Ty) → t₁.Den → Option t₂.Den
  | .num q, .num p, v => if v.empty then some NumField.new else (q.carry p v.value).map (⟨·, false⟩)
  | .num q, .raw p, v => (q.carry p v).map (⟨·, false⟩)
  | .raw q, .raw p, v => q.carry p v
  | .raw q, .num p, v => if v.empty then some q.zero else q.carry p v.value
  | .str, .str, v => some ⟨v.value, false⟩
  | .str, .bytes, v => some ⟨base64 v, false⟩
  | .bytes, .bytes, v => some v
  | .bytes, .str, v => some (b64Dec v.value).1
  | .rep t₂, .rep t₁, v => carryAll (fun x => if t₁.isNull x then none else t₂.carry nulls t₁ x) v
  | .msg _ fs₂, .msg _ fs₁, v => fs₂.carry nulls fs₁ v
  | t₂, t₁, v => if t₁.isNull v then some t₂.onNull else none
/-- The fields of a message: a persistent field takes the value of the field of the same JSON name, if there is one and it is
written; all others are new. -/
def Fields.carry (nulls : Bool) : (fs₂ fs₁ : Fields) → fs₁.Den → Option fs₂.Den
  | .nil, _, _ => some ()
  | .cons f t rest, fs₁, v =>
    (if f.transient then some t.new
      else match fs₁.find f.wlabel v with
        | none => some t.new
        | some ⟨t₁, x⟩ => if nulls || !t₁.empty x then t.carry nulls t₁ x else some t.new).bind fun a =>
    (rest.carry nulls fs₁ v).map fun b => (a, b)
end

/-- The type of the first persistent field with the given JSON name. -/
def Fields.findTy (lab : Bytes) : Fields → Option Ty
  | .nil => none
  | .cons f t rest => if f.transient = false ∧ f.wlabel = lab then some t else rest.findTy lab

/-- Arithmetic types between which values can be carried. -/
def Prim.accepts : Prim → Prim → Bool
  | .bool, .bool => true
  | .bool, _ => false
  | _, .bool => false
  | _, _ => true

mutual
/-- Version `t₁` of a type is compatible with version `t₂`: fields may be added, removed and moved, the types of fields may be
changed among numbers and among strings and bytes. -/
def Ty.accepts : (t₂ t₁ : Ty) → Bool
  | .num q, .num p => q.accepts p
  | .raw q, .raw p => q.accepts p
  | .str, .str => true
  | .str, .bytes => true
  | .bytes, .bytes => true
  | .bytes, .str => true
  | .rep t₂, .rep t₁ => t₂.accepts t₁
  | .msg _ fs₂, .msg _ fs₁ => fs₂.accepts fs₁
  | _, _ => false
/-- Fields present in both versions have compatible types. -/
def Fields.accepts : (fs₂ fs₁ : Fields) → Bool
  | .nil, _ => true
  | .cons f t rest, fs₁ =>
    (f.transient || match fs₁.findTy f.wlabel with
      | none => true
      | some t₁ => t.accepts t₁) && rest.accepts fs₁
end

end PG
