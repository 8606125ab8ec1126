import Verif.Proofs.Dispatch
import Verif.Proofs.Decide
import Verif.Proofs.Faithful
/-
A concrete message type and object used to show that the hypotheses of the theorems can be met.
-/
set_option autoImplicit false
namespace PG.Demo

/-- A persistent field whose JSON name is its own name. -/
def fld (name : Bytes) : FInfo := ⟨name, name, name, false⟩

/-- `message Address { string street = 1; int32 number = 2; }` -/
def address : Ty := .msg false (.cons (fld b!"number") (.num (.int .i32)) (.cons (fld b!"street") .str .nil))

/-- `message Person` with a message, bytes, a transient string, a double, repeated doubles, strings and messages. -/
def personFields : Fields :=
  .cons (fld b!"addr") address (.cons (fld b!"blob") .bytes (.cons ⟨b!"cache", b!"cache", b!"cache", true⟩ .str
    (.cons (fld b!"height") (.num (.flt .f64)) (.cons (fld b!"id") (.num (.int .u64)) (.cons (fld b!"name") .str
    (.cons (fld b!"past") (.rep address) (.cons (fld b!"scores") (.rep (.raw (.flt .f64)))
    (.cons (fld b!"tags") (.rep .str) .nil))))))))

def person : Ty := .msg false personFields

def home : address.Den := (⟨CInt.cast .i32 (-42), false⟩, ⟨b!"Main \"st\"/1", false⟩, ())

/-- An address. -/
def addr (n : Int) (s : Bytes) : address.Den := (⟨CInt.cast .i32 n, false⟩, ⟨s, false⟩, ())

/-- `message Tagged { repeated string tags = 1; }` -/
def tagged : Ty := .msg false (.cons (fld b!"tags") (.rep .str) .nil)
def tags (xs : List Bytes) : tagged.Den := (xs.map (fun s => ⟨s, false⟩), ())

/-- Everything filled in except the transient field. -/
def alice : person.Den :=
  (home, [1, 2, 3, 255], StrField.new, ⟨fltOfText .f64 b!"1.5", false⟩, ⟨CInt.cast .u64 18446744073709551615, false⟩,
    ⟨[65, 108, 0xC3, 0xA9, 10, 92], false⟩, [home, (NumField.new, StrField.new, ())], [fltOfText .f64 b!"-0.25"],
    [⟨b!"x", false⟩, ⟨[], false⟩], ())

theorem person_names : person.NamesOk := by decide +kernel

theorem person_dispatch : person.DispatchOk := by decide +kernel

theorem person_labels : person.LabelsOk := by decide +kernel

theorem alice_writable (ascii : Bool) : person.Writable (fun b => b ≠ 0) ascii alice :=
  Ty.Writable.mono (fun _ => of_decide_eq_true) _ _
    (Ty.writableB_sound (fun b => decide (b ≠ 0)) ascii person alice (by cases ascii <;> decide +kernel))

instance (b : Byte) : Decidable (rfcOk b) := inferInstanceAs (Decidable (_ ∨ _))

theorem alice_writable_rfc (ascii : Bool) : person.Writable rfcOk ascii alice :=
  Ty.Writable.mono (fun _ => of_decide_eq_true) _ _
    (Ty.writableB_sound (fun b => decide (rfcOk b)) ascii person alice (by cases ascii <;> decide +kernel))

theorem alice_noNulls : person.NoNulls alice := Ty.noNullsB_sound person alice (by decide +kernel)

theorem alice_faithful : person.Faithful false alice := Ty.faithfulB_sound false person alice (by decide +kernel)

end PG.Demo
