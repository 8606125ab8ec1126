import Verif.Spec.Cxx
/-
What the expressions, statements and functions of `Spec/Cxx.lean` do (ISO/IEC 14882:2011, 4, 5, 6).  Everything that is not part of
the language (constants, members, functions, operators on classes) is given by a library.  `none` is anything without a meaning
here: undefined behaviour, ill-formed code, and more iterations of a loop than allowed for; exceptions are for `Spec/CxxThrow.lean`.
-/
set_option autoImplicit false
namespace PG.Cxx

/-! ### Integers -/

namespace IT

/-- The value of a character, which depends on whether `char` is a signed type. -/
def ofByte (signed : Bool) (c : Byte) : Int := if signed = true ∧ 128 ≤ c.toNat then (c.toNat : Int) - 256 else c.toNat

/-- The character with a value. -/
def toByte (v : Int) : Byte := UInt8.ofNat (v % 256).toNat

/-- Conversion of a value to a type (modulo a power of two). -/
def wrap (signed : Bool) : IT → Int → Int
  | .char, v => ofByte signed (toByte v)
  | .u8, v => v % 256
  | .i32, v => (v + 2147483648) % 4294967296 - 2147483648
  | .u32, v => v % 4294967296
  | .i64, v => (v + 9223372036854775808) % 18446744073709551616 - 9223372036854775808
  | .u64, v => v % 18446744073709551616

/-- Integral promotion. -/
def promote : IT → IT
  | .char => .i32
  | .u8 => .i32
  | t => t

/-- The order for the usual arithmetic conversions. -/
def rank : IT → Nat
  | .char => 0
  | .u8 => 0
  | .i32 => 1
  | .u32 => 2
  | .i64 => 3
  | .u64 => 4

/-- The type of the result of an operation. -/
def common (a b : IT) : IT := if a.promote.rank ≤ b.promote.rank then b.promote else a.promote

/-- A value of type `u` as one of type `t`. -/
def convert (signed : Bool) (t u : IT) (v : Int) : Int := if t = u then v else wrap signed t v

/-- The number of bits of the types of results. -/
def bits : IT → Nat
  | .i64 => 64
  | .u64 => 64
  | _ => 32

/-- The result of an operation in the types of results: signed types do not overflow. -/
def fit : IT → Int → Option Int
  | .i32, v => if -2147483648 ≤ v ∧ v ≤ 2147483647 then some v else none
  | .i64, v => if -9223372036854775808 ≤ v ∧ v ≤ 9223372036854775807 then some v else none
  | .u32, v => some (v % 4294967296)
  | .u64, v => some (v % 18446744073709551616)
  | _, _ => none

/-- The operators on values of the same type; for bits of negative numbers (two's complement) there is the one case that is used. -/
def arith (o : Name) (t : IT) (a b : Int) : Option Int :=
  if o = n!"+" then fit t (a + b)
  else if o = n!"-" then fit t (a - b)
  else if o = n!"*" then fit t (a * b)
  else if o = n!"%" then if b = 0 then none else some (a.tmod b)
  else if o = n!"&" ∧ a < 0 ∧ 0 ≤ b then some ((a % (2 ^ t.bits : Nat)).toNat &&& b.toNat : Nat)
  else if a < 0 ∨ b < 0 then none
  else if o = n!"&" then some (a.toNat &&& b.toNat : Nat)
  else if o = n!"|" then some (a.toNat ||| b.toNat : Nat)
  else if o = n!"^" then some (a.toNat ^^^ b.toNat : Nat)
  else none

/-- Shifts: the count is less than the number of bits. -/
def shift (o : Name) (t : IT) (a b : Int) : Option Int :=
  if b < 0 ∨ (t.bits : Int) ≤ b ∨ a < 0 then none
  else if o = n!"<<" then fit t ((a.toNat <<< b.toNat : Nat) : Int)
  else if o = n!">>" then some (a.toNat >>> b.toNat : Nat)
  else none

/-- Comparisons. -/
def compare (o : Name) (a b : Int) : Option Bool :=
  if o = n!"==" then some (decide (a = b))
  else if o = n!"!=" then some (decide (a ≠ b))
  else if o = n!"<" then some (decide (a < b))
  else if o = n!">" then some (decide (b < a))
  else if o = n!"<=" then some (decide (a ≤ b))
  else if o = n!">=" then some (decide (b ≤ a))
  else none

end IT

/-! ### Values, libraries -/

/-- Values; `D` are those of the library.  A pointer stands for the characters from it on, up to a terminating zero; an iterator for
the elements from it on.  `undef` is a variable without a value, of an integer type if one is given. -/
inductive Val (D : Type)
  | void
  | undef (t : Option IT)
  | bool (b : Bool)
  | int (t : IT) (v : Int)
  | str (s : Bytes)
  | ptr (rest : Bytes)
  | arr (l : List (Val D))
  | iter (l : List (Val D))
  | dom (d : D)

/-- What a called function does, given the values of its arguments: the result, the new values of those arguments that it
modifies (by reference), the new state of the library. -/
abbrev Callee (D S : Type) := S → List (Val D) → Option (Val D × List (Option (Val D)) × S)

/-- A library, with states `S`. -/
structure Lib (D S : Type) where
  /-- Whether `char` is a signed type. -/
  signed : Bool
  /-- Constants. -/
  constant : List Name → Option (Val D)
  /-- The members of the object that a function belongs to. -/
  get : Name → S → Option (Val D)
  /-- Assignment to such a member. -/
  set : Name → Val D → S → Option S
  /-- `v.n` and `v->n`. -/
  member : Val D → Name → S → Option (Val D)
  /-- `v` after an assignment to `v.n`, or to `*v`. -/
  update : Val D → Name → Val D → Option (Val D)
  /-- `f(…)`, `a::f(…)`; the name of a type stands for its constructors. -/
  function : List Name → Callee D S
  /-- `f<type>(…)`. -/
  inst : Name → Name → Callee D S
  /-- `json<type>::f(…)`. -/
  statik : Name → Name → Callee D S
  /-- `v.f(…)` and `v->f(…)`; the object is the first argument. -/
  method : Name → Callee D S
  /-- Operators with one operand. -/
  unary : Name → Val D → S → Option (Val D)
  /-- Operators with two operands. -/
  binary : Name → Val D → Val D → S → Option (Val D × S)
  /-- The value of an object after an assignment. -/
  assign : Val D → Val D → Option (Val D)
  /-- Initialization of a variable of a type. -/
  init : Name → Option (Val D) → S → Option (Val D)
  /-- Conversion to a type. -/
  cast : Name → Val D → Option (Val D)
  /-- `sizeof` a type. -/
  size : Name → Option Nat

/-- The state of a function: its variables, those of the innermost block first, and the state of the library. -/
structure St (D S : Type) where
  vars : List (List (Name × Val D))
  lib : S

variable {D S : Type}

/-- The value of a variable of a block. -/
def getIn (n : Name) : List (Name × Val D) → Option (Val D)
  | [] => none
  | (m, v) :: rest => if m = n then some v else getIn n rest

/-- The value of a variable. -/
def getVar (n : Name) : List (List (Name × Val D)) → Option (Val D)
  | [] => none
  | f :: fs => (getIn n f).or (getVar n fs)

/-- Assignment to a variable of a block. -/
def setIn (n : Name) (x : Val D) : List (Name × Val D) → Option (List (Name × Val D))
  | [] => none
  | (m, v) :: rest => if m = n then some ((m, x) :: rest) else (setIn n x rest).map ((m, v) :: ·)

/-- Assignment to a variable. -/
def setVar (n : Name) (x : Val D) : List (List (Name × Val D)) → Option (List (List (Name × Val D)))
  | [] => none
  | f :: fs =>
    match setIn n x f with
    | some g => some (g :: fs)
    | none => (setVar n x fs).map (f :: ·)

/-- A new variable. -/
def St.declare (n : Name) (v : Val D) (st : St D S) : St D S :=
  match st.vars with
  | [] => { st with vars := [[(n, v)]] }
  | f :: fs => { st with vars := ((n, v) :: f) :: fs }

/-- The beginning of a block. -/
def St.enter (st : St D S) : St D S := { st with vars := [] :: st.vars }

/-- The end of a block. -/
def St.leave (st : St D S) : St D S := { st with vars := st.vars.tail }

/-! ### Operations on values -/

/-- The integer types by name. -/
def intType (t : Name) : Option IT :=
  if t = n!"int" then some .i32
  else if t = n!"size_t" then some .u64
  else if t = n!"char" then some .char
  else if t = n!"uint8_t" then some .u8
  else if t = n!"int32_t" then some .i32
  else if t = n!"uint32_t" then some .u32
  else if t = n!"static int" then some .i32
  else if t = n!"static const int32_t" then some .i32
  else if t = n!"static const uint32_t" then some .u32
  else none

/-- As a condition. -/
def truth : Val D → Option Bool
  | .bool b => some b
  | .int _ v => some (decide (v ≠ 0))
  | _ => none

/-- Conversion to an integer type. -/
def toInt (signed : Bool) (t : IT) : Val D → Option (Val D)
  | .int u v => some (.int t (IT.convert signed t u v))
  | .bool b => some (.int t (if b then 1 else 0))
  | _ => none

/-- The initial value of a variable. -/
def initial (L : Lib D S) (type : Name) (v : Option (Val D)) (s : S) : Option (Val D) :=
  match intType type with
  | some t =>
    match v with
    | some v => toInt L.signed t v
    | none => some (.undef (some t))
  | none =>
    if type = n!"bool" then v.bind fun v => (truth v).map .bool
    else if type = n!"std :: string" then
      match v with
      | some (.str x) => some (.str x)
      | none => some (.str [])
      | v => L.init type v s
    else if type = n!"static const char *" then
      match v with
      | some (.str x) => some (.str x)
      | _ => none
    else if type = n!"const char *" then
      match v with
      | some (.ptr x) => some (.ptr x)
      | v => L.init type v s
    else if type = n!"auto" then
      match v with
      | some (.dom d) => L.init type (some (.dom d)) s
      | v => v
    else L.init type v s

/-- The value of a variable after an assignment: it keeps its type. -/
def assigned (L : Lib D S) : Val D → Val D → Option (Val D)
  | .int t _, v => toInt L.signed t v
  | .undef (some t), v => toInt L.signed t v
  | .undef none, v => some v
  | .bool _, v => (truth v).map .bool
  | .str _, .str x => some (.str x)
  | .str _, .ptr x => some (.str (x.takeWhile (· ≠ 0)))
  | .dom d, v => L.assign (.dom d) v
  | .ptr _, .ptr x => some (.ptr x)
  | _, _ => none

/-- Operators with two operands. -/
def binop (L : Lib D S) (o : Name) (a b : Val D) (s : S) : Option (Val D × S) :=
  match a, b with
  | .int t x, .int u y =>
    if o = n!"<<" ∨ o = n!">>" then
      (IT.shift o t.promote (IT.convert L.signed t.promote t x) (IT.convert L.signed u.promote u y)).map fun v => (.int t.promote v, s)
    else
      let w := IT.common t u
      let x := IT.convert L.signed w t x
      let y := IT.convert L.signed w u y
      match IT.compare o x y with
      | some r => some (.bool r, s)
      | none => (IT.arith o w x y).map fun v => (.int w v, s)
  | .bool x, .bool y =>
    if o = n!"==" then some (.bool (x == y), s)
    else if o = n!"!=" then some (.bool (x != y), s)
    else none
  | .str x, .str y =>
    if o = n!"==" then some (.bool (decide (x = y)), s)
    else if o = n!"!=" then some (.bool (decide (x ≠ y)), s)
    else if o = n!"+" then some (.str (x ++ y), s)
    else none
  | .str x, .ptr y =>
    if o = n!"==" then some (.bool (decide (x = y.takeWhile (· ≠ 0))), s)
    else if o = n!"!=" then some (.bool (decide (x ≠ y.takeWhile (· ≠ 0))), s)
    else none
  | .str x, .int .char y => if o = n!"+" then some (.str (x ++ [IT.toByte y]), s) else none
  | .iter x, .iter y => if o = n!"!=" then some (.bool (decide (x.length ≠ y.length)), s) else none
  | a, b => L.binary o a b s

/-- Operators with one operand. -/
def unop (L : Lib D S) (o : Name) (a : Val D) (s : S) : Option (Val D) :=
  if o = n!"!" then
    match truth a with
    | some b => some (.bool !b)
    | none => L.unary o a s
  else if o = n!"-" then
    match a with
    | .int t v => (IT.fit t.promote (-(IT.convert L.signed t.promote t v))).map (.int t.promote)
    | a => L.unary o a s
  else if o = n!"*" then
    match a with
    | .ptr (c :: _) => some (.int .char (IT.ofByte L.signed c))
    | .ptr [] => some (.int .char 0)
    | .iter (x :: _) => some x
    | .iter [] => none
    | a => L.unary o a s
  else L.unary o a s

/-- `++`. -/
def increment (L : Lib D S) (o : Name) (a : Val D) (s : S) : Option (Val D) :=
  if o = n!"++" then
    match a with
    | .int t v => (IT.fit t.promote (IT.convert L.signed t.promote t v + 1)).map fun w => .int t (IT.convert L.signed t t.promote w)
    | .ptr (_ :: r) => some (.ptr r)
    | .ptr [] => some (.undef none)
    | .iter (_ :: r) => some (.iter r)
    | .iter [] => none
    | a => L.unary o a s
  else none

/-- An element; the character after the last one of a string is zero. -/
def element (L : Lib D S) (a : Val D) (i : Nat) : Option (Val D) :=
  match a with
  | .str s => if i < s.length then some (.int .char (IT.ofByte L.signed (s.getD i 0))) else if i = s.length then some (.int .char 0) else none
  | .arr l => l[i]?
  | _ => none

/-- Assignment to an element. -/
def setElement (L : Lib D S) (a : Val D) (i : Nat) (v : Val D) : Option (Val D) :=
  match a with
  | .arr l => l[i]?.bind fun old => (assigned L old v).map fun w => .arr (l.set i w)
  | _ => none

/-- The methods of strings, vectors and arrays: the result, the object after the call. -/
def builtin (m : Name) (o : Val D) (args : List (Val D)) : Option (Val D × Option (Val D)) :=
  match o, args with
  | .str s, [] =>
    if m = n!"size" ∨ m = n!"length" then some (.int .u64 s.length, none)
    else if m = n!"empty" then some (.bool s.isEmpty, none)
    else if m = n!"clear" then some (.void, some (.str []))
    else if m = n!"c_str" then some (.ptr s, none)
    else none
  | .str s, [.int _ _] => if m = n!"reserve" then some (.void, some (.str s)) else none
  | .arr l, [] =>
    if m = n!"size" then some (.int .u64 l.length, none)
    else if m = n!"empty" then some (.bool l.isEmpty, none)
    else if m = n!"clear" then some (.void, some (.arr []))
    else if m = n!"begin" then some (.iter l, none)
    else if m = n!"end" then some (.iter [], none)
    else none
  | .arr l, [x] => if m = n!"push_back" then some (.void, some (.arr (l ++ [x]))) else none
  | _, _ => none

/-! ### Expressions -/

/-- Where a value is kept: in a variable (or a member of the object the function belongs to), in a member or an element of
something that is kept somewhere, where something that is kept somewhere points to. -/
inductive Place
  | var (n : Name)
  | member (p : Place) (n : Name)
  | at (p : Place) (i : Nat)
  | deref (p : Place)

/-- The value kept there. -/
def Place.get (L : Lib D S) (st : St D S) : Place → Option (Val D)
  | .var n => (getVar n st.vars).or (L.get n st.lib)
  | .member p n => (p.get L st).bind fun v => L.member v n st.lib
  | .at p i => (p.get L st).bind fun v => element L v i
  | .deref p => (p.get L st).bind fun v => unop L n!"*" v st.lib

/-- Another value is kept there. -/
def Place.put (L : Lib D S) : Place → Val D → St D S → Option (St D S)
  | .var n, v, st =>
    match setVar n v st.vars with
    | some vars => some { st with vars }
    | none => (L.set n v st.lib).map fun s => { st with lib := s }
  | .member p n, v, st => (p.get L st).bind fun o => (L.update o n v).bind fun o => p.put L o st
  | .at p i, v, st => (p.get L st).bind fun o => (setElement L o i v).bind fun o => p.put L o st
  | .deref p, v, st => (p.get L st).bind fun o => (L.update o n!"*" v).bind fun o => p.put L o st

/-- Assignment. -/
def Place.assign (L : Lib D S) (p : Place) (v : Val D) (st : St D S) : Option (Val D × St D S) :=
  (p.get L st).bind fun old => (assigned L old v).bind fun w => (p.put L w st).map fun st => (w, st)

/-- `&&`: the first operand, the state after it, what the second one gives. -/
def both (x : Bool) (st : St D S) (second : Option (Bool × St D S)) : Option (Val D × St D S) :=
  if x then second.map fun q => (.bool q.1, q.2) else some (.bool false, st)

/-- `||`. -/
def either (x : Bool) (st : St D S) (second : Option (Bool × St D S)) : Option (Val D × St D S) :=
  if x then some (.bool true, st) else second.map fun q => (.bool q.1, q.2)

mutual
/-- The value of an expression. -/
def eval (L : Lib D S) : Expr → St D S → Option (Val D × St D S)
  | .name n, st => (((getVar n st.vars).or (L.get n st.lib)).or (L.constant [n])).map fun v => (v, st)
  | .qual p, st => (L.constant p).map fun v => (v, st)
  | .int t v, st => some (.int t v, st)
  | .chr c, st => some (.int .char (IT.ofByte L.signed c), st)
  | .str s, st => some (.str s, st)
  | .member e n, st => (eval L e st).bind fun r => (L.member r.1 n r.2.lib).map fun v => (v, r.2)
  | .index a i, st =>
    (eval L a st).bind fun r => (eval L i r.2).bind fun q =>
      match q.1 with
      | .int _ k => if k < 0 then none else (element L r.1 k.toNat).map fun v => (v, q.2)
      | _ => none
  | .call (.name f) args, st =>
    if f = n!"sizeof" then
      match args with
      | .cons (.name x) .nil =>
        match getVar x st.vars with
        | some (.arr l) => some (.int .u64 l.length, st)
        | _ => (L.size x).map fun k : Nat => (.int .u64 (k : Int), st)
      | _ => none
    else
      (evalAll L args st).bind fun r => (L.function [f] r.2.lib r.1).bind fun q =>
        (storeAll L args q.2.1 { r.2 with lib := q.2.2 }).map fun st => (q.1, st)
  | .call (.qual p) args, st =>
    (evalAll L args st).bind fun r => (L.function p r.2.lib r.1).bind fun q =>
      (storeAll L args q.2.1 { r.2 with lib := q.2.2 }).map fun st => (q.1, st)
  | .call (.inst f t) args, st =>
    (evalAll L args st).bind fun r => (L.inst f t r.2.lib r.1).bind fun q =>
      (storeAll L args q.2.1 { r.2 with lib := q.2.2 }).map fun st => (q.1, st)
  | .call (.statik t f) args, st =>
    (evalAll L args st).bind fun r => (L.statik t f r.2.lib r.1).bind fun q =>
      (storeAll L args q.2.1 { r.2 with lib := q.2.2 }).map fun st => (q.1, st)
  | .call (.member e f) args, st =>
    (eval L e st).bind fun o => (evalAll L args o.2).bind fun r =>
      match builtin f o.1 r.1 with
      | some (v, none) => some (v, r.2)
      | some (v, some x) => (place L e r.2).bind fun p => (p.1.put L x p.2).map fun st => (v, st)
      | none =>
        (L.method f r.2.lib (o.1 :: r.1)).bind fun q =>
          match q.2.1 with
          | [] => some (q.1, { r.2 with lib := q.2.2 })
          | none :: xs => (storeAll L args xs { r.2 with lib := q.2.2 }).map fun st => (q.1, st)
          | some x :: xs =>
            (place L e { r.2 with lib := q.2.2 }).bind fun p => (p.1.put L x p.2).bind fun st =>
              (storeAll L args xs st).map fun st => (q.1, st)
  | .call _ _, _ => none
  | .inst _ _, _ => none
  | .statik _ _, _ => none
  | .unary o e, st => (eval L e st).bind fun r => (unop L o r.1 r.2.lib).map fun v => (v, r.2)
  | .incr o before e, st =>
    (eval L e st).bind fun r => (increment L o r.1 r.2.lib).bind fun v => (place L e r.2).bind fun p =>
      (p.1.put L v p.2).map fun st => (if before then v else r.1, st)
  | .binary o a b, st =>
    (eval L a st).bind fun r =>
      if o = n!"&&" then (truth r.1).bind fun x => both x r.2 ((eval L b r.2).bind fun q => (truth q.1).map fun y => (y, q.2))
      else if o = n!"||" then (truth r.1).bind fun x => either x r.2 ((eval L b r.2).bind fun q => (truth q.1).map fun y => (y, q.2))
      else (eval L b r.2).bind fun q => (binop L o r.1 q.1 q.2.lib).map fun x => (x.1, { q.2 with lib := x.2 })
  | .cond c a b, st =>
    (eval L c st).bind fun r => (truth r.1).bind fun x => if x then eval L a r.2 else eval L b r.2
  | .assign a b, st => (eval L b st).bind fun r => (place L a r.2).bind fun p => p.1.assign L r.1 p.2
  | .update o a b, st =>
    (eval L a st).bind fun x => (eval L b x.2).bind fun y => (binop L o x.1 y.1 y.2.lib).bind fun v =>
      (place L a { y.2 with lib := v.2 }).bind fun p => p.1.assign L v.1 p.2
  | .cast t e, st =>
    (eval L e st).bind fun r =>
      if t = n!"void" then some (.void, r.2)
      else
        match intType t with
        | some t => (toInt L.signed t r.1).map fun v => (v, r.2)
        | none => (L.cast t r.1).map fun v => (v, r.2)
  | .braces es, st => (evalAll L es st).map fun r => (.arr r.1, r.2)
  | .comma a b, st => (eval L a st).bind fun r => eval L b r.2
/-- The values of expressions, from left to right. -/
def evalAll (L : Lib D S) : Exprs → St D S → Option (List (Val D) × St D S)
  | .nil, st => some ([], st)
  | .cons e es, st => (eval L e st).bind fun r => (evalAll L es r.2).map fun q => (r.1 :: q.1, q.2)
/-- The place that an expression refers to. -/
def place (L : Lib D S) : Expr → St D S → Option (Place × St D S)
  | .name n, st => some (.var n, st)
  | .member e n, st => (place L e st).map fun r => (.member r.1 n, r.2)
  | .index a i, st =>
    (place L a st).bind fun r => (eval L i r.2).bind fun q =>
      match q.1 with
      | .int _ k => if k < 0 then none else some (.at r.1 k.toNat, q.2)
      | _ => none
  | .unary o e, st => if o = n!"*" then (place L e st).map fun r => (.deref r.1, r.2) else none
  | .incr o before e, st =>
    if before then
      (eval L e st).bind fun r => (increment L o r.1 r.2.lib).bind fun v => (place L e r.2).bind fun p =>
        (p.1.put L v p.2).map fun st => (p.1, st)
    else none
  | _, _ => none
/-- The arguments that a call has modified. -/
def storeAll (L : Lib D S) : Exprs → List (Option (Val D)) → St D S → Option (St D S)
  | _, [], st => some st
  | .cons e es, some x :: xs, st => (place L e st).bind fun p => (p.1.put L x p.2).bind fun st => storeAll L es xs st
  | .cons _ es, none :: xs, st => storeAll L es xs st
  | .nil, _ :: _, _ => none
end

/-! ### Statements -/

/-- How a statement ends. -/
inductive Flow (D : Type)
  | next
  | break
  | continue
  | goto (l : Name)
  | ret (v : Val D)

/-- A loop: at most as many iterations as given. -/
def iterate (c : St D S → Option (Bool × St D S)) (body : St D S → Option (Flow D × St D S)) (step : St D S → Option (St D S)) :
    Nat → St D S → Option (Flow D × St D S)
  | 0, _ => none
  | n + 1, st =>
    (c st).bind fun r =>
      if r.1 then
        (body r.2).bind fun q =>
          match q.1 with
          | .next => (step q.2).bind (iterate c body step n)
          | .continue => (step q.2).bind (iterate c body step n)
          | .break => some (.next, q.2)
          | f => some (f, q.2)
      else some (.next, r.2)

/-- The value of a condition. -/
def test (L : Lib D S) (e : Expr) (st : St D S) : Option (Bool × St D S) :=
  (eval L e st).bind fun r => (truth r.1).map fun b => (b, r.2)

/-- The last part of the head of a `for`. -/
def perform (L : Lib D S) (e : Expr) (st : St D S) : Option (St D S) := (eval L e st).map (·.2)

/-- Whether a label of a `switch` is the one to go to. -/
def isLabel (L : Lib D S) (v : Val D) (e : Expr) (st : St D S) : Option Bool :=
  (eval L e st).bind fun r =>
    (binop L n!"==" v r.1 r.2.lib).bind fun x => truth x.1

/-- The elements of an array. -/
def elements (L : Lib D S) (t : IT) (k : Nat) : Option (Val D) → Option (List (Val D))
  | none => some (List.replicate k (.undef (some t)))
  | some (.arr l) => (l.mapM (toInt L.signed t)).map fun l => l ++ List.replicate (k - l.length) (.int t 0)
  | some _ => none

mutual
/-- The execution of a statement; every loop makes at most `n` iterations. -/
def exec (L : Lib D S) (n : Nat) : Stmt → St D S → Option (Flow D × St D S)
  | .expr e, st => (eval L e st).map fun r => (.next, r.2)
  | .decl t x none, st => (initial L t none st.lib).map fun v => (.next, st.declare x v)
  | .decl t x (some e), st =>
    (eval L e st).bind fun r => (initial L t (some r.1) r.2.lib).map fun v => (.next, r.2.declare x v)
  | .array t x size none, st =>
    (eval L size st).bind fun r =>
      match r.1, intType t with
      | .int _ k, some it => (elements L it k.toNat none).map fun l => (.next, r.2.declare x (.arr l))
      | _, _ => none
  | .array t x size (some e), st =>
    (eval L size st).bind fun r => (eval L e r.2).bind fun q =>
      match r.1, intType t with
      | .int _ k, some it => (elements L it k.toNat (some q.1)).map fun l => (.next, q.2.declare x (.arr l))
      | _, _ => none
  | .made t x args, st =>
    (evalAll L args st).bind fun r => (L.function [t] r.2.lib r.1).bind fun q =>
      (storeAll L args q.2.1 { r.2 with lib := q.2.2 }).map fun st => (.next, st.declare x q.1)
  | .ret none, st => some (.ret .void, st)
  | .ret (some e), st => (eval L e st).map fun r => (.ret r.1, r.2)
  | .ite c a b, st => (test L c st).bind fun r => if r.1 then exec L n a r.2 else exec L n b r.2
  | .switch e cases, st =>
    (eval L e st).bind fun r => (execCases L n (some r.1) cases r.2.enter).map fun q =>
      (match q.1 with | .break => .next | f => f, q.2.leave)
  | .block l, st => (execAll L n none l st.enter).map fun q => (q.1, q.2.leave)
  | .while c s, st => iterate (test L c) (exec L n s) some n st
  | .doWhile s c, st =>
    (exec L n s st).bind fun q =>
      match q.1 with
      | .next => iterate (test L c) (exec L n s) some n q.2
      | .continue => iterate (test L c) (exec L n s) some n q.2
      | .break => some (.next, q.2)
      | f => some (f, q.2)
  | .for i c step s, st =>
    (exec L n i st.enter).bind fun r =>
      (iterate (test L c) (exec L n s) (perform L step) n r.2).map fun q => (q.1, q.2.leave)
  | .break, st => some (.break, st)
  | .continue, st => some (.continue, st)
  | .goto l, st => some (.goto l, st)
  | .label _, st => some (.next, st)
  | .skip, st => some (.next, st)
  | .attempt _ _ _ _, _ => none
  | .seq a b, st =>
    (exec L n a st).bind fun r =>
      match r.1 with
      | .next => exec L n b r.2
      | f => some (f, r.2)
/-- The execution of statements one after the other; those before the label to go to are skipped. -/
def execAll (L : Lib D S) (n : Nat) : Option Name → Stmts → St D S → Option (Flow D × St D S)
  | none, .nil, st => some (.next, st)
  | some l, .nil, st => some (.goto l, st)
  | none, .cons s rest, st =>
    (exec L n s st).bind fun r =>
      match r.1 with
      | .next => execAll L n none rest r.2
      | .goto l => execAll L n (some l) rest r.2
      | f => some (f, r.2)
  | some l, .cons s rest, st => execAll L n (if s = .label l then none else some l) rest st
/-- The labels of a `switch`: what follows the one that is taken is executed.  `default` is the last one. -/
def execCases (L : Lib D S) (n : Nat) : Option (Val D) → Cases → St D S → Option (Flow D × St D S)
  | _, .nil, st => some (.next, st)
  | none, .cons _ body rest, st =>
    (execAll L n none body st).bind fun r =>
      match r.1 with
      | .next => execCases L n none rest r.2
      | f => some (f, r.2)
  | some v, .cons (some e) body rest, st =>
    (isLabel L v e st).bind fun b =>
      if b then
        (execAll L n none body st).bind fun r =>
          match r.1 with
          | .next => execCases L n none rest r.2
          | f => some (f, r.2)
      else execCases L n (some v) rest st
  | some _, .cons none body rest, st => if rest = .nil then execAll L n none body st else none
end

/-- The characters of an array before the first zero. -/
def characters : List (Val D) → Option Bytes
  | .int .char v :: rest => if v = 0 then some [] else (characters rest).map (IT.toByte v :: ·)
  | _ => none

/-- The result of a function as a value of its type. -/
def result (L : Lib D S) (t : Name) (v : Val D) : Option (Val D) :=
  match intType t with
  | some t => toInt L.signed t v
  | none =>
    if t = n!"bool" ∨ t = n!"static bool" then (truth v).map .bool
    else if t = n!"std :: string" then
      match v with
      | .arr l => (characters l).map .str
      | v => some v
    else some v

/-- A call of a function: its result, the values of the parameters at the end, the state of the library. -/
def Fun.run (L : Lib D S) (n : Nat) (f : Fun) (args : List (Val D)) (s : S) : Option (Val D × List (Val D) × S) :=
  if args.length = f.params.length then
    (execAll L n none f.body ⟨[[], (f.params.map (·.2)).zip args], s⟩).bind fun r =>
      let last := (r.2.vars.getLast?.getD []).map (·.2)
      match r.1 with
      | .next => some (.void, last, r.2.lib)
      | .ret v => (result L f.type v).map fun v => (v, last, r.2.lib)
      | _ => none
  else none

end PG.Cxx
