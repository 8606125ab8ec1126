import Verif.Spec.Cpp
/-
What expressions, statements and functions of that part of C++ do.  Everything that is not part of the language (constants,
members, functions, operators on classes) is given by a library.  `none` is anything without a meaning here.
-/
set_option autoImplicit false
namespace PG.Cpp

/-- Values; `D` are those of the library. -/
inductive Val (D : Type)
  | void
  | int (i : Int)
  | bool (b : Bool)
  | char (c : Byte)
  | str (s : Bytes)
  | list (l : List (Val D))
  | dom (d : D)

/-- What a called function does, given the values of its arguments: the result, the new values of those arguments that it
modifies (by reference), the new state of the library. -/
abbrev Callee (D S : Type) := S → List (Val D) → Option (Val D × List (Option (Val D)) × S)

/-- A library, with states `S`. -/
structure Lib (D S : Type) where
  /-- Constants. -/
  constant : Bytes → Option (Val D)
  /-- `v.n` and `v->n`. -/
  member : Val D → Bytes → Option (Val D)
  /-- `v` after an assignment to `v.n`. -/
  update : Val D → Bytes → Val D → Option (Val D)
  /-- `f(…)`. -/
  function : Bytes → Callee D S
  /-- `json<decltype(v)>::f(…)`. -/
  statik : Val D → Bytes → Callee D S
  /-- `v.f(…)` and `v->f(…)`; the object is the first argument. -/
  method : Bytes → Callee D S
  /-- Operators with one operand. -/
  unary : Bytes → Val D → Option (Val D)
  /-- Operators with two operands. -/
  binary : Bytes → Val D → Val D → S → Option (Val D × S)
  /-- Initialization of a variable of a type. -/
  init : List Tok → Val D → Option (Val D)

/-- The state of a function: its variables, the last declared first, and the state of the library. -/
structure St (D S : Type) where
  vars : List (Bytes × Val D)
  lib : S

variable {D S : Type}

/-- The value of a variable. -/
def getVar (n : Bytes) : List (Bytes × Val D) → Option (Val D)
  | [] => none
  | (m, v) :: rest => if m = n then some v else getVar n rest

/-- Assignment to a variable. -/
def setVar (n : Bytes) (x : Val D) : List (Bytes × Val D) → Option (List (Bytes × Val D))
  | [] => none
  | (m, v) :: rest => if m = n then some ((m, x) :: rest) else (setVar n x rest).map ((m, v) :: ·)

/-- The value of a variable or of a member of one, and of constants. -/
def read (L : Lib D S) (vars : List (Bytes × Val D)) : Expr → Option (Val D)
  | .name n => (getVar n vars).or (L.constant n)
  | .member e n => (read L vars e).bind fun v => L.member v n
  | .arrow e n => (read L vars e).bind fun v => L.member v n
  | _ => none

/-- Assignment to a variable or to a member of one. -/
def store (L : Lib D S) (vars : List (Bytes × Val D)) : Expr → Val D → Option (List (Bytes × Val D))
  | .name n, x => setVar n x vars
  | .member e n, x => (read L vars e).bind fun v => (L.update v n x).bind fun w => store L vars e w
  | .arrow e n, x => (read L vars e).bind fun v => (L.update v n x).bind fun w => store L vars e w
  | _, _ => none

/-- The arguments that a call has modified. -/
def storeAll (L : Lib D S) : List Expr → List (Option (Val D)) → List (Bytes × Val D) → Option (List (Bytes × Val D))
  | _, [], vars => some vars
  | e :: es, some x :: xs, vars => (store L vars e x).bind fun vars => storeAll L es xs vars
  | _ :: es, none :: xs, vars => storeAll L es xs vars
  | [], _ :: _, _ => none

/-- A call, its arguments having been evaluated. -/
def apply (L : Lib D S) (f : Callee D S) (es : List Expr) (vs : List (Val D)) (st : St D S) : Option (Val D × St D S) :=
  (f st.lib vs).bind fun r => (storeAll L es r.2.1 st.vars).map fun vars => (r.1, ⟨vars, r.2.2⟩)

mutual
/-- The value of an expression. -/
def eval (L : Lib D S) : Expr → St D S → Option (Val D × St D S)
  | .name n, st => ((getVar n st.vars).or (L.constant n)).map fun v => (v, st)
  | .num n, st => some (.int n, st)
  | .str s, st => (Gen.cString s).map fun v => (.str v, st)
  | .chr s, st =>
    match Gen.literalValue s with
    | some [c] => some (.char c, st)
    | _ => none
  | .member e n, st => (eval L e st).bind fun r => (L.member r.1 n).map fun v => (v, r.2)
  | .arrow e n, st => (eval L e st).bind fun r => (L.member r.1 n).map fun v => (v, r.2)
  | .statik _ _, _ => none
  | .call (.name f) args, st => (evalAll L args st).bind fun r => apply L (L.function f) args r.1 r.2
  | .call (.statik e f) args, st =>
    (eval L e st).bind fun t => (evalAll L args st).bind fun r => apply L (L.statik t.1 f) args r.1 r.2
  | .call (.member e f) args, st =>
    (eval L e st).bind fun t => (evalAll L args t.2).bind fun r => apply L (L.method f) (e :: args) (t.1 :: r.1) r.2
  | .call (.arrow e f) args, st =>
    (eval L e st).bind fun t => (evalAll L args t.2).bind fun r => apply L (L.method f) (e :: args) (t.1 :: r.1) r.2
  | .call _ _, _ => none
  | .unary o e, st => (eval L e st).bind fun r => (L.unary o r.1).map fun v => (v, r.2)
  | .discard e, st => (eval L e st).map fun r => (.void, r.2)
  | .binary o a b, st =>
    (eval L a st).bind fun r =>
      if o = b!"&&" then
        match r.1 with
        | .bool false => some (.bool false, r.2)
        | .bool true => eval L b r.2
        | _ => none
      else if o = b!"||" then
        match r.1 with
        | .bool true => some (.bool true, r.2)
        | .bool false => eval L b r.2
        | _ => none
      else (eval L b r.2).bind fun q => (L.binary o r.1 q.1 q.2.lib).map fun x => (x.1, ⟨q.2.vars, x.2⟩)
  | .cond c a b, st =>
    (eval L c st).bind fun r =>
      match r.1 with
      | .bool true => eval L a r.2
      | .bool false => eval L b r.2
      | _ => none
  | .assign a b, st => (eval L b st).bind fun r => (store L r.2.vars a r.1).map fun vars => (r.1, ⟨vars, r.2.lib⟩)
  | .braces es, st => (evalAll L es st).map fun r => (.list r.1, r.2)
/-- The values of expressions, from left to right. -/
def evalAll (L : Lib D S) : List Expr → St D S → Option (List (Val D) × St D S)
  | [], st => some ([], st)
  | e :: es, st => (eval L e st).bind fun r => (evalAll L es r.2).map fun q => (r.1 :: q.1, q.2)
end

/-- How a statement ends. -/
inductive Flow (D : Type)
  | next
  | ret (v : Val D)

/-- The state after a block: its variables are gone. -/
def leave (before : St D S) (st : St D S) : St D S := { st with vars := st.vars.drop (st.vars.length - before.vars.length) }

mutual
/-- The execution of a statement. -/
def exec (L : Lib D S) : Stmt → St D S → Option (Flow D × St D S)
  | .expr e, st => (eval L e st).map fun r => (.next, r.2)
  | .decl type n none, st => (L.init type .void).map fun v => (.next, { st with vars := (n, v) :: st.vars })
  | .decl type n (some e), st =>
    (eval L e st).bind fun r => (L.init type r.1).map fun v => (.next, { r.2 with vars := (n, v) :: r.2.vars })
  | .ret none, st => some (.ret .void, st)
  | .ret (some e), st => (eval L e st).map fun r => (.ret r.1, r.2)
  | .ite c a b, st =>
    (eval L c st).bind fun r =>
      match r.1 with
      | .bool true => (exec L a r.2).map fun q => (q.1, leave r.2 q.2)
      | .bool false => (execElse L b r.2).map fun q => (q.1, leave r.2 q.2)
      | _ => none
  | .switch e cases default, st =>
    (eval L e st).bind fun r =>
      match r.1 with
      | .int i => (execCases L i cases r.2 fun st => execAll L default st).map fun q => (q.1, leave r.2 q.2)
      | _ => none
  | .block l, st => (execAll L l st).map fun q => (q.1, leave st q.2)
/-- The second branch of `if`. -/
def execElse (L : Lib D S) : Option Stmt → St D S → Option (Flow D × St D S)
  | none, st => some (.next, st)
  | some s, st => exec L s st
/-- The execution of statements one after the other. -/
def execAll (L : Lib D S) : List Stmt → St D S → Option (Flow D × St D S)
  | [], st => some (.next, st)
  | s :: l, st =>
    (exec L s st).bind fun r =>
      match r.1 with
      | .next => execAll L l r.2
      | .ret v => some (.ret v, r.2)
/-- The labels of a `switch`; what follows the label that is taken is executed too. -/
def execCases (L : Lib D S) (i : Int) : List (Expr × List Stmt) → St D S → (St D S → Option (Flow D × St D S)) →
    Option (Flow D × St D S)
  | [], st, default => default st
  | c :: cases, st, default =>
    match c with
    | (.num n, l) =>
      if (n : Int) = i then
        (execAll L l st).bind fun r =>
          match r.1 with
          | .next => execThrough L cases r.2 default
          | .ret v => some (.ret v, r.2)
      else execCases L i cases st default
    | _ => none
/-- All labels from here on. -/
def execThrough (L : Lib D S) : List (Expr × List Stmt) → St D S → (St D S → Option (Flow D × St D S)) →
    Option (Flow D × St D S)
  | [], st, default => default st
  | c :: cases, st, default =>
    (execAll L c.2 st).bind fun r =>
      match r.1 with
      | .next => execThrough L cases r.2 default
      | .ret v => some (.ret v, r.2)
end

/-- A call of a function: its result, the values of the parameters at the end, the state of the library. -/
def Fun.run (L : Lib D S) (f : Fun) (args : List (Val D)) (s : S) : Option (Val D × List (Bytes × Val D) × S) :=
  if args.length = f.params.length then
    let vars := (f.params.map (·.2)).zip args
    (execAll L f.body ⟨vars, s⟩).map fun r =>
      (match r.1 with | .next => .void | .ret v => v, r.2.vars.drop (r.2.vars.length - vars.length), r.2.lib)
  else none

end PG.Cpp
