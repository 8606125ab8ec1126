import Verif.Spec.CxxRun
/-
What the functions of `Spec/Cxx.lean` do if functions of the library may throw (ISO/IEC 14882:2011, 15).  The rules are those of
`Spec/CxxRun.lean`; the outcome tells an exception, undefined behaviour and more iterations of a loop than allowed for apart.
-/
set_option autoImplicit false
namespace PG.Cxx

/-- What is thrown: a `protogen::exception` (include/protogen/exception.hh:27-40), or a `std::runtime_error`.  A call of `exit` is
like something that no handler catches; `err` is what has been written to `std::cerr` by then.  `later` is a `protogen::exception`
thrown when something has been written, with what it is and whether it went to a file; `during` one thrown by the generator, with the
calls of the printer that it has made by then. -/
inductive Thrown
  | exception (text : Bytes) (line column : Int)
  | later (file : Bool) (out : Bytes) (text : Bytes) (line column : Int)
  | during (printed : List (Bytes × List Bytes)) (text : Bytes) (line column : Int)
  | runtime (text : Bytes)
  | exit (status : Int) (err : Bytes)
deriving DecidableEq

/-- How code ends. -/
inductive Ran (α : Type)
  | ok (a : α)
  | thrown (e : Thrown)
  | fuel
  | undef
deriving DecidableEq

/-- One after the other. -/
def Ran.bind {α β : Type} : Ran α → (α → Ran β) → Ran β
  | .ok a, f => f a
  | .thrown e, _ => .thrown e
  | .fuel, _ => .fuel
  | .undef, _ => .undef

/-- What does not throw and does not loop. -/
def Ran.of {α : Type} : Option α → Ran α
  | some a => .ok a
  | none => .undef

/-- What a called function does. -/
abbrev Thrower (D S : Type) := S → List (Val D) → Ran (Val D × List (Option (Val D)) × S)

/-- A library with functions that may throw.  `throw e` is the function `throw`. -/
structure ThrowLib (D S : Type) where
  /-- Everything but functions and methods. -/
  base : Lib D S
  /-- `f(…)`, `a::f(…)`; the name of a type stands for its constructors. -/
  function : List Name → Thrower D S
  /-- `v.f(…)` and `v->f(…)`; the object is the first argument. -/
  method : Name → Thrower D S
  /-- What a handler for a type is given, if it handles what is thrown, and the state of the library there (as far as it is known,
  given the state at the beginning of the `try`). -/
  caught : Name → Thrown → S → Option (Val D × S)
  /-- `*p = v` where `p` points to what the library keeps. -/
  store : Val D → Val D → S → Option S := fun _ _ _ => none
  /-- An array of a type, with so many elements, initialized with what is in braces. -/
  array : Name → Val D → Val D → Option (Val D) := fun _ _ _ => none

namespace Throw
variable {D S : Type}

/-- `&&`: the first operand, the state after it, what the second one gives. -/
def both (x : Bool) (st : St D S) (second : Ran (Bool × St D S)) : Ran (Val D × St D S) :=
  if x then second.bind fun q => .ok (.bool q.1, q.2) else .ok (.bool false, st)

/-- `||`. -/
def either (x : Bool) (st : St D S) (second : Ran (Bool × St D S)) : Ran (Val D × St D S) :=
  if x then .ok (.bool true, st) else second.bind fun q => .ok (.bool q.1, q.2)

mutual
/-- The value of an expression. -/
def eval (L : ThrowLib D S) : Expr → St D S → Ran (Val D × St D S)
  | .name n, st => .of ((((getVar n st.vars).or (L.base.get n st.lib)).or (L.base.constant [n])).map fun v => (v, st))
  | .qual p, st => .of ((L.base.constant p).map fun v => (v, st))
  | .int t v, st => .ok (.int t v, st)
  | .chr c, st => .ok (.int .char (IT.ofByte L.base.signed c), st)
  | .str s, st => .ok (.str s, st)
  | .member e n, st => (eval L e st).bind fun r => .of ((L.base.member r.1 n r.2.lib).map fun v => (v, r.2))
  | .index a i, st =>
    (eval L a st).bind fun r => (eval L i r.2).bind fun q =>
      match q.1 with
      | .int _ k => if k < 0 then .undef else .of ((element L.base r.1 k.toNat).map fun v => (v, q.2))
      | _ => .undef
  | .call (.name f) args, st =>
    (evalAll L args st).bind fun r => (L.function [f] r.2.lib r.1).bind fun q =>
      (storeAll L args q.2.1 { r.2 with lib := q.2.2 }).bind fun st => .ok (q.1, st)
  | .call (.qual p) args, st =>
    (evalAll L args st).bind fun r => (L.function p r.2.lib r.1).bind fun q =>
      (storeAll L args q.2.1 { r.2 with lib := q.2.2 }).bind fun st => .ok (q.1, st)
  | .call (.inst f t) args, st =>
    (evalAll L args st).bind fun r => (L.function [f, t] r.2.lib r.1).bind fun q =>
      (storeAll L args q.2.1 { r.2 with lib := q.2.2 }).bind fun st => .ok (q.1, st)
  | .call (.member e f) args, st =>
    (eval L e st).bind fun o => (evalAll L args o.2).bind fun r =>
      match builtin f o.1 r.1 with
      | some (v, none) => .ok (v, r.2)
      | some (v, some x) => (place L e r.2).bind fun p => (Ran.of (p.1.put L.base x p.2)).bind fun st => .ok (v, st)
      | none =>
        (L.method f r.2.lib (o.1 :: r.1)).bind fun q =>
          match q.2.1 with
          | [] => .ok (q.1, { r.2 with lib := q.2.2 })
          | none :: xs => (storeAll L args xs { r.2 with lib := q.2.2 }).bind fun st => .ok (q.1, st)
          | some x :: xs =>
            (place L e { r.2 with lib := q.2.2 }).bind fun p => (Ran.of (p.1.put L.base x p.2)).bind fun st =>
              (storeAll L args xs st).bind fun st => .ok (q.1, st)
  | .call _ _, _ => .undef
  | .inst _ _, _ => .undef
  | .statik _ _, _ => .undef
  | .unary o e, st => (eval L e st).bind fun r => .of ((unop L.base o r.1 r.2.lib).map fun v => (v, r.2))
  | .incr o before e, st =>
    (eval L e st).bind fun r => (Ran.of (increment L.base o r.1 r.2.lib)).bind fun v => (place L e r.2).bind fun p =>
      (Ran.of (p.1.put L.base v p.2)).bind fun st => .ok (if before then v else r.1, st)
  | .binary o a b, st =>
    (eval L a st).bind fun r =>
      if o = n!"&&" then
        (Ran.of (truth r.1)).bind fun x => both x r.2 ((eval L b r.2).bind fun q => .of ((truth q.1).map fun y => (y, q.2)))
      else if o = n!"||" then
        (Ran.of (truth r.1)).bind fun x => either x r.2 ((eval L b r.2).bind fun q => .of ((truth q.1).map fun y => (y, q.2)))
      else (eval L b r.2).bind fun q => .of ((binop L.base o r.1 q.1 q.2.lib).map fun x => (x.1, { q.2 with lib := x.2 }))
  | .cond c a b, st =>
    (eval L c st).bind fun r => (Ran.of (truth r.1)).bind fun x => if x then eval L a r.2 else eval L b r.2
  -- `a[i] = b`: an entry of a map, or an element of an array
  | .assign (.index a i) b, st =>
    (eval L b st).bind fun r => (eval L i r.2).bind fun k =>
      match k.1 with
      | .str key =>
        (eval L a k.2).bind fun o => (L.method n!"[]=" o.2.lib [o.1, .str key, r.1]).bind fun q =>
          match q.2.1 with
          | [some x] =>
            (place L a { o.2 with lib := q.2.2 }).bind fun p => (Ran.of (p.1.put L.base x p.2)).bind fun st => .ok (r.1, st)
          | _ => .undef
      | .int _ j =>
        if j < 0 then .undef else (place L a k.2).bind fun p => .of ((Place.at p.1 j.toNat).assign L.base r.1 p.2)
      | _ => .undef
  -- `*p = b`
  | .assign (.unary o a) b, st =>
    (eval L b st).bind fun r => (eval L a r.2).bind fun p =>
      match if o = n!"*" then L.store p.1 r.1 p.2.lib else none with
      | some s => .ok (r.1, { p.2 with lib := s })
      | none => (place L (.unary o a) r.2).bind fun p => .of (p.1.assign L.base r.1 p.2)
  | .assign a b, st => (eval L b st).bind fun r => (place L a r.2).bind fun p => .of (p.1.assign L.base r.1 p.2)
  | .update o a b, st =>
    (eval L a st).bind fun x => (eval L b x.2).bind fun y => (Ran.of (binop L.base o x.1 y.1 y.2.lib)).bind fun v =>
      (place L a { y.2 with lib := v.2 }).bind fun p => .of (p.1.assign L.base v.1 p.2)
  | .cast t e, st =>
    (eval L e st).bind fun r =>
      if t = n!"void" then .ok (.void, r.2)
      else
        match intType t with
        | some t => .of ((toInt L.base.signed t r.1).map fun v => (v, r.2))
        | none => .of ((L.base.cast t r.1).map fun v => (v, r.2))
  | .braces es, st => (evalAll L es st).bind fun r => .ok (.arr r.1, r.2)
  | .comma a b, st => (eval L a st).bind fun r => eval L b r.2
/-- The values of expressions, from left to right. -/
def evalAll (L : ThrowLib D S) : Exprs → St D S → Ran (List (Val D) × St D S)
  | .nil, st => .ok ([], st)
  | .cons e es, st => (eval L e st).bind fun r => (evalAll L es r.2).bind fun q => .ok (r.1 :: q.1, q.2)
/-- The place that an expression refers to; for an argument `&x`, that of `x`. -/
def place (L : ThrowLib D S) : Expr → St D S → Ran (Place × St D S)
  | .name n, st => .ok (.var n, st)
  | .member e n, st => (place L e st).bind fun r => .ok (.member r.1 n, r.2)
  | .index a i, st =>
    (place L a st).bind fun r => (eval L i r.2).bind fun q =>
      match q.1 with
      | .int _ k => if k < 0 then .undef else .ok (.at r.1 k.toNat, q.2)
      | _ => .undef
  | .unary o e, st =>
    if o = n!"*" then (place L e st).bind fun r => .ok (.deref r.1, r.2)
    else if o = n!"&" then place L e st
    else .undef
  | _, _ => .undef
/-- The arguments that a call has modified. -/
def storeAll (L : ThrowLib D S) : Exprs → List (Option (Val D)) → St D S → Ran (St D S)
  | _, [], st => .ok st
  | .cons e es, some x :: xs, st =>
    (place L e st).bind fun p => (Ran.of (p.1.put L.base x p.2)).bind fun st => storeAll L es xs st
  | .cons _ es, none :: xs, st => storeAll L es xs st
  | .nil, _ :: _, _ => .undef
end

/-- A loop: at most as many iterations as given. -/
def iterate (c : St D S → Ran (Bool × St D S)) (body : St D S → Ran (Flow D × St D S)) (step : St D S → Ran (St D S)) :
    Nat → St D S → Ran (Flow D × St D S)
  | 0, _ => .fuel
  | n + 1, st =>
    (c st).bind fun r =>
      if r.1 then
        (body r.2).bind fun q =>
          match q.1 with
          | .next => (step q.2).bind (iterate c body step n)
          | .continue => (step q.2).bind (iterate c body step n)
          | .break => .ok (.next, q.2)
          | f => .ok (f, q.2)
      else .ok (.next, r.2)

/-- A loop with the condition at the end. -/
def repeated (c : St D S → Ran (Bool × St D S)) (body : St D S → Ran (Flow D × St D S)) : Nat → St D S → Ran (Flow D × St D S)
  | 0, _ => .fuel
  | n + 1, st =>
    (body st).bind fun q =>
      match q.1 with
      | .next => (c q.2).bind fun r => if r.1 then repeated c body n r.2 else .ok (.next, r.2)
      | .continue => (c q.2).bind fun r => if r.1 then repeated c body n r.2 else .ok (.next, r.2)
      | .break => .ok (.next, q.2)
      | f => .ok (f, q.2)

/-- The value of a condition. -/
def test (L : ThrowLib D S) (e : Expr) (st : St D S) : Ran (Bool × St D S) :=
  (eval L e st).bind fun r => .of ((truth r.1).map fun b => (b, r.2))

/-- The last part of the head of a `for`. -/
def perform (L : ThrowLib D S) (e : Expr) (st : St D S) : Ran (St D S) := (eval L e st).bind fun r => .ok r.2

/-- Whether a label of a `switch` is the one to go to. -/
def isLabel (L : ThrowLib D S) (v : Val D) (e : Expr) (st : St D S) : Ran Bool :=
  (eval L e st).bind fun r => .of ((binop L.base n!"==" v r.1 r.2.lib).bind fun x => truth x.1)

mutual
/-- The execution of a statement; every loop makes at most `n` iterations.  (`goto` is not used by code that throws.)
A handler starts with the variables as they were before the `try`: what is tried in this code assigns to none of them. -/
def exec (L : ThrowLib D S) (n : Nat) : Stmt → St D S → Ran (Flow D × St D S)
  | .expr e, st => (eval L e st).bind fun r => .ok (.next, r.2)
  | .decl t x none, st => (Ran.of (initial L.base t none st.lib)).bind fun v => .ok (.next, st.declare x v)
  | .decl t x (some e), st =>
    (eval L e st).bind fun r => (Ran.of (initial L.base t (some r.1) r.2.lib)).bind fun v => .ok (.next, r.2.declare x v)
  | .made t x args, st =>
    (evalAll L args st).bind fun r => (L.function [t] r.2.lib r.1).bind fun q =>
      (storeAll L args q.2.1 { r.2 with lib := q.2.2 }).bind fun st => .ok (.next, st.declare x q.1)
  | .array t x size (some e), st =>
    (eval L size st).bind fun k => (eval L e k.2).bind fun r => (Ran.of (L.array t k.1 r.1)).bind fun v => .ok (.next, r.2.declare x v)
  | .ret none, st => .ok (.ret .void, st)
  | .ret (some e), st => (eval L e st).bind fun r => .ok (.ret r.1, r.2)
  | .ite c a b, st => (test L c st).bind fun r => if r.1 then exec L n a r.2 else exec L n b r.2
  | .switch e cases, st =>
    (eval L e st).bind fun r => (execCases L n (some r.1) cases r.2.enter).bind fun q =>
      .ok (match q.1 with | .break => .next | f => f, q.2.leave)
  | .block l, st => (execAll L n l st.enter).bind fun q => .ok (q.1, q.2.leave)
  | .while c s, st => iterate (test L c) (exec L n s) .ok n st
  | .doWhile s c, st => repeated (test L c) (exec L n s) n st
  | .for i c step s, st =>
    (exec L n i st.enter).bind fun r =>
      (iterate (test L c) (exec L n s) (perform L step) n r.2).bind fun q => .ok (q.1, q.2.leave)
  | .break, st => .ok (.break, st)
  | .continue, st => .ok (.continue, st)
  | .skip, st => .ok (.next, st)
  | .seq a b, st =>
    (exec L n a st).bind fun r =>
      match r.1 with
      | .next => exec L n b r.2
      | f => .ok (f, r.2)
  | .attempt s t x h, st =>
    match exec L n s st with
    | .thrown e =>
      match L.caught t e st.lib with
      | some (v, lib) =>
        (exec L n h ({ st with lib := lib }.enter.declare x v)).bind fun q => .ok (q.1, q.2.leave)
      | none => .thrown e
    | r => r
  | _, _ => .undef
/-- The execution of statements one after the other. -/
def execAll (L : ThrowLib D S) (n : Nat) : Stmts → St D S → Ran (Flow D × St D S)
  | .nil, st => .ok (.next, st)
  | .cons s rest, st =>
    (exec L n s st).bind fun r =>
      match r.1 with
      | .next => execAll L n rest r.2
      | f => .ok (f, r.2)
/-- The labels of a `switch`: what follows the one that is taken is executed.  `default` is the last one. -/
def execCases (L : ThrowLib D S) (n : Nat) : Option (Val D) → Cases → St D S → Ran (Flow D × St D S)
  | _, .nil, st => .ok (.next, st)
  | none, .cons _ body rest, st =>
    (execAll L n body st).bind fun r =>
      match r.1 with
      | .next => execCases L n none rest r.2
      | f => .ok (f, r.2)
  | some v, .cons (some e) body rest, st =>
    (isLabel L v e st).bind fun b =>
      if b then
        (execAll L n body st).bind fun r =>
          match r.1 with
          | .next => execCases L n none rest r.2
          | f => .ok (f, r.2)
      else execCases L n (some v) rest st
  | some _, .cons none body rest, st => if rest = .nil then execAll L n body st else .undef
end

/-- A call of a function: its result, the values of the parameters at the end, the state of the library. -/
def run (L : ThrowLib D S) (n : Nat) (f : Fun) (args : List (Val D)) (s : S) : Ran (Val D × List (Val D) × S) :=
  if args.length = f.params.length then
    (execAll L n f.body ⟨[[], (f.params.map (·.2)).zip args], s⟩).bind fun r =>
      let last := (r.2.vars.getLast?.getD []).map (·.2)
      match r.1 with
      | .next => .ok (.void, last, r.2.lib)
      | .ret v => (Ran.of (result L.base f.type v)).bind fun v => .ok (v, last, r.2.lib)
      | _ => .undef
  else .undef

end Throw
end PG.Cxx
