import Verif.Spec.CxxLib
import Verif.Model.Near
/-
The libraries that the conversions between numbers and texts, and the comparison of numbers (json-number.hh:32-112), are executed
with: the functions of the C library, locales included.
-/
set_option autoImplicit false
namespace PG.Cxx

/-! ### Floating point -/

/-- Values: locales, "C" having the number 0, and floating point numbers. -/
inductive Ware
  | locale (l : Nat)
  | flt (x : Flt)

/-- What depends on the platform: whether a locale can be made, and what is done in the locales other than "C". -/
structure Platform where
  made : Bool
  strtod : Nat → Bytes → Flt
  printf : Nat → Flt → Bytes

/-- `strtod` in a locale. -/
def Platform.parse (c : Platform) (l : Nat) (s : Bytes) : Flt := if l = 0 then PG.strtod s else c.strtod l s

/-- `%f` in a locale. -/
def Platform.show (c : Platform) (l : Nat) (x : Flt) : Bytes := if l = 0 then printfF x else c.printf l x

/-- A signed magnitude. -/
def signedMag (neg : Bool) (m : Nat) : Int := if neg then -(m : Int) else m

/-- C++ `<` on floating point values. -/
def less : Flt → Flt → Bool
  | .nan, _ => false
  | _, .nan => false
  | .inf neg, y => neg && decide (y ≠ .inf true)
  | .fin _ _, .inf neg => !neg
  | .fin a m, .fin b n => decide (signedMag a m < signedMag b n)

/-- The neighbour above a value. -/
def above (k : FKind) : Flt → Flt
  | .nan => .nan
  | .inf true => .fin true (maxMag k)
  | .inf false => .inf false
  | .fin neg m =>
    if m = 0 then .fin false (2 ^ k.qexp)
    else if neg then .fin true (magDown k m)
    else if m = maxMag k then .inf false
    else .fin false (magUp k m)

/-- The neighbour below a value. -/
def below (k : FKind) : Flt → Flt
  | .nan => .nan
  | .inf false => .fin false (maxMag k)
  | .inf true => .inf true
  | .fin neg m =>
    if m = 0 then .fin true (2 ^ k.qexp)
    else if neg then if m = maxMag k then .inf true else .fin true (magUp k m)
    else .fin false (magDown k m)

/-- `std::nextafter` (ISO/IEC 9899:2011, 7.12.11.3). -/
def nextafter (k : FKind) (x y : Flt) : Flt :=
  if x = .nan ∨ y = .nan then .nan
  else if x.ceq y then y
  else if less x y then above k x
  else below k x

/-- `static_cast<T>` of a `double`. -/
def castTo : FKind → Flt → Flt
  | .f64, x => x
  | .f32, x => fltCast .f32 x

/-- The array after `snprintf` has stored at most `n - 1` characters and a zero. -/
def printed {D : Type} (σ : Bool) (l : List (Val D)) (n : Nat) (text : Bytes) : List (Val D) :=
  (text.take (n - 1)).map (fun b => .int .char (IT.ofByte σ b)) ++ .int .char 0 :: l.drop ((text.take (n - 1)).length + 1)

/-- For a floating point type `T`; the state is the locale of the thread. -/
def fltLib (σ : Bool) (c : Platform) (k : FKind) : Lib Ware Nat where
  signed := σ
  constant := fun p => if p = [n!"LC_NUMERIC_MASK"] then some (.int .i32 2) else constants p
  get := fun _ _ => none
  set := fun _ _ _ => none
  member := fun _ _ _ => none
  update := fun _ _ _ => none
  function := fun p cur args =>
    if p = [n!"newlocale"] then
      match args with
      | [.int .i32 m, .str name, .int .i32 b] =>
        if m = 2 ∧ name = b!"C" ∧ b = 0 then some (if c.made then .dom (.locale 0) else .int .i32 0, [], cur) else none
      | _ => none
    else if p = [n!"uselocale"] then
      match args with
      | [.dom (.locale l)] => some (.dom (.locale cur), [], l)
      | _ => none
    else if p = [n!"strtod"] then
      match args with
      | [.ptr s, .void] => some (.dom (.flt (c.parse cur (s.takeWhile (· ≠ 0)))), [], cur)
      | _ => none
    else if p = [n!"strtod_l"] then
      match args with
      | [.ptr s, .void, .dom (.locale l)] => some (.dom (.flt (c.parse l (s.takeWhile (· ≠ 0)))), [], cur)
      | _ => none
    else if p = [n!"snprintf"] then
      match args with
      | [.arr l, .int .u64 n, .str fmt, .dom (.flt x)] =>
        if 0 < n ∧ n ≤ l.length ∧ fmt = b!"%f" then some (.void, [some (.arr (printed σ l n.toNat (c.show cur x)))], cur) else none
      | _ => none
    else if p = [n!"std", n!"numeric_limits", n!"lowest"] then
      match args with
      | [] => some (.dom (.flt (.fin true (maxMag k))), [], cur)
      | _ => none
    else if p = [n!"std", n!"numeric_limits", n!"max"] then
      match args with
      | [] => some (.dom (.flt (.fin false (maxMag k))), [], cur)
      | _ => none
    else if p = [n!"std", n!"nextafter"] then
      match args with
      | [.dom (.flt x), .dom (.flt y)] => some (.dom (.flt (nextafter k x y)), [], cur)
      | _ => none
    else none
  inst := fun f t cur args =>
    match args with
    | [.dom (.flt x)] => if f = n!"static_cast" ∧ t = n!"T" then some (.dom (.flt (castTo k x)), [], cur) else none
    | _ => none
  statik := fun _ _ _ _ => none
  method := fun _ _ _ => none
  unary := fun _ _ _ => none
  binary := fun o a b s =>
    match a, b with
    | .dom (.locale _), .int .i32 z => if o = n!"==" ∧ z = 0 then some (.bool false, s) else none
    | .dom (.flt x), .dom (.flt y) =>
      if o = n!"<=" then some (.bool (x.le y), s)
      else if o = n!">=" then some (.bool (y.le x), s)
      else none
    | _, _ => none
  assign := fun _ _ => none
  init := fun t v _ =>
    match v with
    | none => if t = n!"double" then some (.undef none) else none
    | some v => if t = n!"static locale_t" ∨ t = n!"locale_t" then some v else none
  cast := fun _ _ => none
  size := fun _ => none

/-! ### Integers -/

/-- The integer types of generated code. -/
def itOf : IKind → IT
  | .i32 => .i32
  | .i64 => .i64
  | .u32 => .u32
  | .u64 => .u64
  | .u8 => .u8

/-- For an integer type `T`. -/
def intLib (σ : Bool) (k : IKind) : Lib Unit Unit where
  signed := σ
  constant := constants
  get := fun _ _ => none
  set := fun _ _ _ => none
  member := fun _ _ _ => none
  update := fun _ _ _ => none
  function := fun p s args =>
    match args with
    | [.ptr t, .void, .int .i32 b] =>
      if p = [n!"strtol"] ∧ b = 10 then some (.int .i64 (PG.strtol (t.takeWhile (· ≠ 0))), [], s)
      else if p = [n!"strtoul"] ∧ b = 10 then some (.int .u64 (PG.strtoul (t.takeWhile (· ≠ 0))), [], s)
      else none
    | [.int _ v] => if p = [n!"std", n!"to_string"] then some (.str (decInt v), [], s) else none
    | _ => none
  inst := fun f t s args =>
    match args with
    | [v] => if f = n!"static_cast" ∧ t = n!"T" then (toInt σ (itOf k) v).map fun v => (v, [], s) else none
    | _ => none
  statik := fun _ _ _ _ => none
  method := fun _ _ _ => none
  unary := fun _ _ _ => none
  binary := fun _ _ _ _ => none
  assign := fun _ _ => none
  init := fun _ _ _ => none
  cast := fun _ _ => none
  size := fun _ => none

end PG.Cxx
