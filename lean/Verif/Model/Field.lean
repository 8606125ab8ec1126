import Verif.Model.JStr
/-
The value classes of generated structures: `field<T>` (source/cpp/json-number.hh:8-30) and `string_field`
(source/cpp/json-string.hh:8-38), and the arithmetic types themselves (json-number.hh:142-188).
-/
namespace PG

/-- The arithmetic C++ types of TYPE_MAPPING (cppgen.cc:59-73). -/
inductive Prim
  | int (k : IKind) | flt (k : FKind) | bool
deriving DecidableEq, Repr

namespace Prim

/-- The values of an arithmetic type. -/
def Den : Prim → Type
  | int k => CInt k
  | flt k => CFlt k
  | bool => Bool

instance : (p : Prim) → DecidableEq p.Den
  | int k => inferInstanceAs (DecidableEq (CInt k))
  | flt k => inferInstanceAs (DecidableEq (CFlt k))
  | bool => inferInstanceAs (DecidableEq Bool)

/-- `(T) 0` (json-number.hh:12, 161, 185). -/
def zero : (p : Prim) → p.Den
  | int k => CInt.zero k
  | flt k => CFlt.zero k
  | bool => false

/-- The built-in `==`. -/
def ceq : (p : Prim) → p.Den → p.Den → Bool
  | int _, a, b => decide (CInt.val a = CInt.val b)
  | flt _, a, b => Flt.ceq a.val b.val
  | bool, a, b => decide ((a : Bool) = b)

end Prim

/-- json-number.hh:8-13, the members of `field<T>`. -/
structure NumField (p : Prim) where
  value : p.Den
  empty : Bool
deriving DecidableEq

namespace NumField
variable {p : Prim}

/-- json-number.hh:12-16, default construction. -/
def new : NumField p := ⟨p.zero, true⟩
/-- json-number.hh:19 `swap(field<T>&)`: the new values of `*this` and of `that`. -/
def swap (a b : NumField p) : NumField p × NumField p := (⟨b.value, b.empty⟩, ⟨a.value, a.empty⟩)
/-- json-number.hh:20 `swap(T&)`. -/
def swapT (a : NumField p) (b : p.Den) : NumField p × p.Den := (⟨b, false⟩, a.value)
/-- json-number.hh:22 `clear()`. -/
def clear (_ : NumField p) : NumField p := ⟨p.zero, true⟩
/-- json-number.hh:23 `operator=(const field<T>&)`. -/
def assign (a b : NumField p) : NumField p := if b.empty = false then ⟨b.value, b.empty⟩ else ⟨a.value, b.empty⟩
/-- json-number.hh:24 `operator=(const T&)`. -/
def assignT (_ : NumField p) (x : p.Den) : NumField p := ⟨x, false⟩
/-- json-number.hh:25 `operator==(const T&)`. -/
def eqT (a : NumField p) (x : p.Den) : Bool := !a.empty && p.ceq a.value x
/-- json-number.hh:26 `operator!=(const T&)`. -/
def neT (a : NumField p) (x : p.Den) : Bool := !a.empty && !p.ceq a.value x
/-- json-number.hh:27 `operator==(const field<T>&)`. -/
def eq (a b : NumField p) : Bool := a.empty == b.empty && p.ceq a.value b.value
/-- json-number.hh:28 `operator!=(const field<T>&)`. -/
def ne (a b : NumField p) : Bool := a.empty != b.empty || !p.ceq a.value b.value
/-- json-number.hh:29 `operator T()`. -/
def get (a : NumField p) : p.Den := a.value
end NumField

/-- json-string.hh:8-12, the members of `string_field`. -/
structure StrField where
  value : Bytes
  null : Bool
deriving DecidableEq, Repr

namespace StrField
/-- json-string.hh:11-15, default construction. -/
def new : StrField := ⟨[], true⟩
/-- json-string.hh:18 `string_field(const std::string&)`. -/
def ofString (s : Bytes) : StrField := ⟨s, false⟩
/-- json-string.hh:20 `swap(string_field&)`. -/
def swap (a b : StrField) : StrField × StrField := (⟨b.value, b.null⟩, ⟨a.value, a.null⟩)
/-- json-string.hh:21 `swap(std::string&)`. -/
def swapT (a : StrField) (b : Bytes) : StrField × Bytes := (⟨b, false⟩, a.value)
/-- json-string.hh:22 `empty()`. -/
def empty (a : StrField) : Bool := a.null && a.value.isEmpty
/-- json-string.hh:23 `empty(bool)`. -/
def setEmpty (a : StrField) (state : Bool) : StrField := ⟨if state then [] else a.value, state⟩
/-- json-string.hh:24 `clear()`. -/
def clear (_ : StrField) : StrField := ⟨[], true⟩
/-- json-string.hh:25 `operator=(const string_field&)`. -/
def assign (a b : StrField) : StrField := if b.null = false then ⟨b.value, b.null⟩ else ⟨a.value, b.null⟩
/-- json-string.hh:26 `operator=(const std::string&)`. -/
def assignT (_ : StrField) (s : Bytes) : StrField := ⟨s, false⟩
/-- json-string.hh:30 `operator==(const std::string&)`. -/
def eqT (a : StrField) (s : Bytes) : Bool := !a.null && decide (a.value = s)
/-- json-string.hh:31 `operator!=(const std::string&)`. -/
def neT (a : StrField) (s : Bytes) : Bool := !a.null && !decide (a.value = s)
/-- json-string.hh:32 `operator==(const string_field&)`. -/
def eq (a b : StrField) : Bool := a.null == b.null && decide (a.value = b.value)
/-- json-string.hh:33 `operator!=(const string_field&)`. -/
def ne (a b : StrField) : Bool := a.null != b.null || !decide (a.value = b.value)
/-- json-string.hh:19 `string_field(const char*)`: the characters before the first NUL. -/
def ofChars (s : Bytes) : StrField := ⟨s.takeWhile (· ≠ 0), false⟩
/-- json-string.hh:27 `operator=(const char*)`. -/
def assignC (_ : StrField) (s : Bytes) : StrField := ⟨s.takeWhile (· ≠ 0), false⟩
/-- json-string.hh:28 `operator==(const char*)`. -/
def eqC (a : StrField) (s : Bytes) : Bool := !a.null && decide (a.value = s.takeWhile (· ≠ 0))
/-- json-string.hh:29 `operator!=(const char*)`. -/
def neC (a : StrField) (s : Bytes) : Bool := !a.null && !decide (a.value = s.takeWhile (· ≠ 0))
/-- json-string.hh:35, 37 `operator const std::string&()` and `operator*() const`. -/
def get (a : StrField) : Bytes := a.value
/-- json-string.hh:34, 36 `operator std::string&()` and `operator*()`, with the string the caller stores there. -/
def poke (a : StrField) (s : Bytes) : StrField := ⟨s, a.null⟩
end StrField

end PG
