import Verif.Model.Field
/-
The comparison of plain numbers (source/cpp/json-number.hh:101-112), used by `json<T>::empty` and `json<T>::equal` of the
arithmetic types.
-/
namespace PG

/-- The magnitude after `m` in the type. -/
def magUp (k : FKind) (m : Nat) : Nat := m + 2 ^ ulpExp k m
/-- The magnitude before `m` in the type, for a positive `m`. -/
def magDown (k : FKind) (m : Nat) : Nat := m - 2 ^ ulpExp k (m - 1)
/-- `std::numeric_limits<T>::max()`. -/
def maxMag (k : FKind) : Nat := 2 ^ k.top - 2 ^ (k.top - k.prec)

/-- `std::nextafter(x, numeric_limits<T>::max())` of json-number.hh:105 (`up`), and `std::nextafter(x,
numeric_limits<T>::lowest())` of json-number.hh:104 (not `up`), by the definition of `nextafter` in the C standard
(7.12.11.3, F.10.8.3): the second argument if both are equal, otherwise the neighbour of the first in the direction of the
second; the neighbours of both infinities towards a finite value are the largest finite values. -/
def stepTo (k : FKind) (up : Bool) : Flt → Flt
  | .nan => .nan
  | .inf neg => .fin neg (maxMag k)
  | .fin neg m =>
    if m = 0 then .fin (!up) (2 ^ k.qexp)
    else if neg = up then .fin neg (magDown k m)
    else if m = maxMag k then .fin neg m
    else .fin neg (magUp k m)

/-- C++ `<=` on floating point values. -/
def Flt.le : Flt → Flt → Bool
  | .nan, _ => false
  | _, .nan => false
  | .inf neg, y => neg || decide (y = .inf false)
  | x, .inf neg => !neg || decide (x = .inf true)
  | .fin a m, .fin b n => decide ((if a then -(m : Int) else m) ≤ if b then -(n : Int) else n)

namespace Prim

/-- json-number.hh:101-112 `equal_number`; 186 for `bool`. -/
def near : (p : Prim) → p.Den → p.Den → Bool
  | int _, a, b => decide (CInt.val a = CInt.val b)
  | flt k, a, b => Flt.le (stepTo k false a.val) b.val && Flt.le b.val (stepTo k true a.val)
  | bool, a, b => decide ((a : Bool) = b)

end Prim

end PG
