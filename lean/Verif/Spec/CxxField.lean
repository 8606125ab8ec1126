import Verif.Spec.CxxLib
import Verif.Model.Near
/-
The libraries that the functions of the field classes (json-number.hh:8-30, json-string.hh:8-38) are executed with, and the
functions of the specializations of `json` that are one call each.
-/
set_option autoImplicit false
namespace PG.Cxx

/-- `std::swap`. -/
def exchange {D S : Type} (p : List Name) : Callee D S := fun s args =>
  match args with
  | [a, b] => if p = [n!"std", n!"swap"] then some (.void, [some b, some a], s) else none
  | _ => none

/-! ### `field<T>` and numbers -/

/-- Values of the type `T`, and objects of `field<T>`; a pointer to such an object is the object. -/
inductive Item (p : Prim)
  | val (x : p.Den)
  | obj (o : NumField p)

/-- For the functions of `field<T>`, with the members of the object as the state, and for `json<field<T>>` and `json<T>`. -/
def numLib (σ : Bool) (p : Prim) : Lib (Item p) (NumField p) where
  signed := σ
  constant := constants
  get := fun n s =>
    if n = n!"this" then some (.dom (.obj s))
    else if n = n!"value_" then some (.dom (.val s.value))
    else if n = n!"empty_" then some (.bool s.empty)
    else none
  set := fun n v s =>
    match v with
    | .dom (.obj o) => if n = n!"this" then some o else none
    | .dom (.val x) => if n = n!"value_" then some { s with value := x } else none
    | .bool b => if n = n!"empty_" then some { s with empty := b } else none
    | _ => none
  member := fun v n _ =>
    match v with
    | .dom (.obj o) =>
      if n = n!"value_" then some (.dom (.val o.value))
      else if n = n!"empty_" then some (.bool o.empty)
      else none
    | _ => none
  update := fun v n x =>
    match v, x with
    | .dom (.obj o), .dom (.val x) => if n = n!"value_" then some (.dom (.obj { o with value := x })) else none
    | .dom (.obj o), .bool b => if n = n!"empty_" then some (.dom (.obj { o with empty := b })) else none
    | _, _ => none
  function := fun f s args =>
    if f = [n!"equal_number"] then
      match args with
      | [.dom (.val x), .dom (.val y)] => some (.int .i32 (if p.near x y then 1 else 0), [], s)
      | _ => none
    else exchange f s args
  inst := fun _ _ _ _ => none
  statik := fun _ _ _ _ => none
  method := fun f s args =>
    match args with
    | [.dom (.obj o)] =>
      if f = n!"empty" then some (.bool o.empty, [], s)
      else if f = n!"clear" then some (.void, [some (.dom (.obj o.clear))], s)
      else none
    | [.dom (.obj a), .dom (.obj b)] =>
      if f = n!"swap" then some (.void, [some (.dom (.obj (a.swap b).1)), some (.dom (.obj (a.swap b).2))], s) else none
    | _ => none
  unary := fun o v _ =>
    match v with
    | .dom (.obj x) => if o = n!"*" then some (.dom (.obj x)) else none
    | _ => none
  binary := fun o a b s =>
    match a, b with
    | .dom (.val x), .dom (.val y) =>
      if o = n!"==" then some (.bool (p.ceq x y), s)
      else if o = n!"!=" then some (.bool (!p.ceq x y), s)
      else none
    | .dom (.obj x), .dom (.obj y) => if o = n!"==" then some (.bool (x.eq y), s) else none
    | _, _ => none
  assign := fun old v =>
    match old, v with
    | .dom (.val _), .dom (.val x) => some (.dom (.val x))
    | _, _ => none
  init := fun _ _ _ => none
  cast := fun t v =>
    match v with
    | .int .i32 k => if t = n!"T" ∧ k = 0 then some (.dom (.val p.zero)) else none
    | _ => none
  size := fun _ => none

/-! ### `string_field` and strings -/

/-- For the functions of `string_field`, with the members of the object as the state, and for `json<string_field>` and
`json<std::string>`.  The values of the library are the objects. -/
def strLib (σ : Bool) : Lib StrField StrField where
  signed := σ
  constant := constants
  get := fun n s =>
    if n = n!"this" then some (.dom s)
    else if n = n!"value_" then some (.str s.value)
    else if n = n!"null_" then some (.bool s.null)
    else none
  set := fun n v s =>
    match v with
    | .dom o => if n = n!"this" then some o else none
    | .str x => if n = n!"value_" then some { s with value := x } else none
    | .bool b => if n = n!"null_" then some { s with null := b } else none
    | _ => none
  member := fun v n _ =>
    match v with
    | .dom o =>
      if n = n!"value_" then some (.str o.value)
      else if n = n!"null_" then some (.bool o.null)
      else none
    | _ => none
  update := fun v n x =>
    match v, x with
    | .dom o, .str x => if n = n!"value_" then some (.dom { o with value := x }) else none
    | .dom o, .bool b => if n = n!"null_" then some (.dom { o with null := b }) else none
    | _, _ => none
  function := exchange
  inst := fun _ _ _ _ => none
  statik := fun _ _ _ _ => none
  method := fun f s args =>
    match args with
    | [.dom o] =>
      if f = n!"empty" then some (.bool o.empty, [], s)
      else if f = n!"clear" then some (.void, [some (.dom o.clear)], s)
      else none
    | [.dom a, .dom b] => if f = n!"swap" then some (.void, [some (.dom (a.swap b).1), some (.dom (a.swap b).2)], s) else none
    | [.str a, .str b] => if f = n!"swap" then some (.void, [some (.str b), some (.str a)], s) else none
    | _ => none
  unary := fun o v _ =>
    match v with
    | .dom x => if o = n!"*" then some (.dom x) else none
    | _ => none
  binary := fun o a b s =>
    match a, b with
    | .dom x, .dom y => if o = n!"==" then some (.bool (x.eq y), s) else none
    | _, _ => none
  assign := fun _ _ => none
  init := fun _ _ _ => none
  cast := fun _ _ => none
  size := fun _ => none

/-! ### Containers -/

/-- `==` of elements. -/
def sameElement {T : Type} (eq : T → T → Bool) : Val T → Val T → Option Bool
  | .dom x, .dom y => some (eq x y)
  | .int .u8 x, .int .u8 y => some (decide (x = y))
  | _, _ => none

/-- `==` of containers: as many elements, and equal ones. -/
def sameElements {T : Type} (eq : T → T → Bool) : List (Val T) → List (Val T) → Option Bool
  | [], [] => some true
  | a :: as, b :: bs => (sameElement eq a b).bind fun x => if x then sameElements eq as bs else some false
  | _, _ => some false

/-- For containers of elements that `eq` compares. -/
def listLib {T : Type} (σ : Bool) (eq : T → T → Bool) : Lib T Unit where
  signed := σ
  constant := constants
  get := fun _ _ => none
  set := fun _ _ _ => none
  member := fun _ _ _ => none
  update := fun _ _ _ => none
  function := exchange
  inst := fun _ _ _ _ => none
  statik := fun _ _ _ _ => none
  method := fun _ _ _ => none
  unary := fun _ _ _ => none
  binary := fun o a b s =>
    match a, b with
    | .arr x, .arr y => if o = n!"==" then (sameElements eq x y).map fun r => (.bool r, s) else none
    | _, _ => none
  assign := fun _ _ => none
  init := fun _ _ _ => none
  cast := fun _ _ => none
  size := fun _ => none

end PG.Cxx
