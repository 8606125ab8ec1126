import Verif.Model.Write
/-
Sizes: how much an object holds, and how long its text can be.  Independent of the readers and writers.
-/
set_option autoImplicit false
namespace PG

mutual
/-- What an object holds besides its members of constant size: the bytes of its strings and byte sequences, and its
elements. -/
def Ty.holds : (t : Ty) → t.Den → Nat
  | .num _, _ => 0
  | .raw _, _ => 0
  | .str, v => v.value.length
  | .bytes, v => List.length v
  | .rep t, v => (v.map fun x => 1 + t.holds x).sum
  | .msg _ fs, v => fs.holds v
/-- The same for the members of a structure. -/
def Fields.holds : (fs : Fields) → fs.Den → Nat
  | .nil, _ => 0
  | .cons _ t rest, v => t.holds v.1 + rest.holds v.2
end

/-- The longest numeral of a type: sign, digits and, for the floating point types, a point and six decimals. -/
def Prim.digits : Prim → Nat
  | .int .i32 => 11
  | .int .i64 => 20
  | .int .u32 => 10
  | .int .u64 => 20
  | .int .u8 => 3
  | .flt .f32 => 47
  | .flt .f64 => 317
  | .bool => 5

mutual
/-- Room for the text of an object.  A byte of a string takes two bytes at most, or three where everything outside ASCII is
escaped. -/
def Ty.room (ascii : Bool) : (t : Ty) → t.Den → Nat
  | .num p, v => if v.empty then 4 else p.digits
  | .raw p, _ => p.digits
  | .str, v => if v.empty then 4 else 2 + (if ascii then 3 else 2) * v.value.length
  | .bytes, v => 2 + 4 * ((List.length v + 2) / 3)
  | .rep t, v => 1 + max 1 (v.map fun x => 1 + t.room ascii x).sum
  | .msg _ fs, v => 1 + max 1 (fs.room ascii v)
/-- Every member that is written takes a comma or brace, its label with the quotes, a colon and its text. -/
def Fields.room (ascii : Bool) : (fs : Fields) → fs.Den → Nat
  | .nil, _ => 0
  | .cons f t rest, v => (if f.transient then 0 else 4 + f.wlabel.length + t.room ascii v.1) + rest.room ascii v.2
end

mutual
/-- Room that depends on the type alone: there is one if nothing that is written has a variable size. -/
def Ty.most : Ty → Option Nat
  | .num p => some (max 4 p.digits)
  | .raw p => some p.digits
  | .msg _ fs => fs.most.map (1 + max 1 ·)
  | _ => none
/-- The same for the members of a structure. -/
def Fields.most : Fields → Option Nat
  | .nil => some 0
  | .cons f t rest =>
    if f.transient then rest.most
    else t.most.bind fun a => rest.most.map fun b => 4 + f.wlabel.length + a + b
end

end PG
