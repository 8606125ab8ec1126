import Verif.Spec.Cpp
/-
A larger part of C++ than in `Spec/Cpp.lean`, for the files of the runtime: directives, expressions, statements and functions, and
how they are read from lines of text (ISO/IEC 14882:2011, 5, 6, 8, 16).  The tokens are those of `Spec/Cpp.lean`.
-/
set_option autoImplicit false
namespace PG.Cxx
open PG.Cpp (Tok)

/-- Names and operators are kept as numbers, their characters being the digits to the base 256. -/
abbrev Name := Nat

/-- The name with the given characters. -/
def nameOf (w : Bytes) : Name := w.foldl (fun n c => n * 256 + c.toNat) 0

open Lean in
/-- `n!"text"` is the name `nameOf b!"text"`, as a numeral. -/
syntax:max "n!" str : term
open Lean in
macro_rules
  | `(n! $s:str) => do
    let v := s.getString.toUTF8.toList.foldl (fun n c => n * 256 + c.toNat) 0
    `(($(Syntax.mkNumLit (toString v)) : Nat))

example : nameOf b!"value" = n!"value" := by decide

/-- The characters of a token. -/
def chars : Tok → Bytes
  | .word w => w
  | .str s => s
  | .chr s => s
  | .op o => o

/-- Types are names as well: the tokens separated by spaces. -/
def typeOf : List Tok → Name
  | [] => 0
  | t :: ts => nameOf (ts.foldl (fun acc u => acc ++ 32 :: chars u) (chars t))

/-! ### Syntax -/

/-- The integer types: `char`, `uint8_t`, `int`, `uint32_t`, `int64_t`, `uint64_t` (also `size_t`). -/
inductive IT
  | char | u8 | i32 | u32 | i64 | u64
deriving DecidableEq, Repr

mutual
/-- Expressions; `->` is written like `.`.  `inst f a` is `f<a>`, `statik a f` is `json<a>::f`. -/
inductive Expr
  | name (n : Name)
  | qual (p : List Name)
  | int (t : IT) (v : Nat)
  | chr (c : Byte)
  | str (s : Bytes)
  | member (e : Expr) (n : Name)
  | index (a i : Expr)
  | call (f : Expr) (args : Exprs)
  | inst (f : Name) (type : Name)
  | statik (type : Name) (f : Name)
  | unary (o : Name) (e : Expr)
  | incr (o : Name) (before : Bool) (e : Expr)
  | binary (o : Name) (a b : Expr)
  | cond (c a b : Expr)
  | assign (a b : Expr)
  | update (o : Name) (a b : Expr)
  | cast (type : Name) (e : Expr)
  | braces (es : Exprs)
  | comma (a b : Expr)
/-- Lists of expressions. -/
inductive Exprs
  | nil
  | cons (e : Expr) (es : Exprs)
end
deriving instance DecidableEq for Expr, Exprs

mutual
/-- Statements.  `seq` are several declarations in one statement; `made` is a declaration with arguments of a constructor;
`attempt` is `try` with one `catch`. -/
inductive Stmt
  | expr (e : Expr)
  | decl (type n : Name) (init : Option Expr)
  | array (type n : Name) (size : Expr) (init : Option Expr)
  | made (type n : Name) (args : Exprs)
  | ret (e : Option Expr)
  | ite (c : Expr) (a b : Stmt)
  | switch (e : Expr) (cases : Cases)
  | block (l : Stmts)
  | while (c : Expr) (s : Stmt)
  | doWhile (s : Stmt) (c : Expr)
  | for (i : Stmt) (c step : Expr) (s : Stmt)
  | break
  | continue
  | goto (l : Name)
  | label (l : Name)
  | skip
  | seq (a b : Stmt)
  | attempt (s : Stmt) (type x : Name) (handler : Stmt)
/-- Lists of statements. -/
inductive Stmts
  | nil
  | cons (s : Stmt) (l : Stmts)
/-- The labels of a `switch`, `none` being `default`, with what follows them. -/
inductive Cases
  | nil
  | cons (label : Option Expr) (body : Stmts) (rest : Cases)
end
deriving instance DecidableEq for Stmt, Stmts, Cases

mutual
/-- An expression with another one in the place of a name. -/
def Expr.subst (x : Name) (r : Expr) : Expr → Expr
  | .name n => if n = x then r else .name n
  | .member e n => .member (Expr.subst x r e) n
  | .index a i => .index (Expr.subst x r a) (Expr.subst x r i)
  | .call f args => .call (Expr.subst x r f) (Exprs.subst x r args)
  | .unary o e => .unary o (Expr.subst x r e)
  | .incr o b e => .incr o b (Expr.subst x r e)
  | .binary o a b => .binary o (Expr.subst x r a) (Expr.subst x r b)
  | .cond c a b => .cond (Expr.subst x r c) (Expr.subst x r a) (Expr.subst x r b)
  | .assign a b => .assign (Expr.subst x r a) (Expr.subst x r b)
  | .update o a b => .update o (Expr.subst x r a) (Expr.subst x r b)
  | .cast t e => .cast t (Expr.subst x r e)
  | .braces es => .braces (Exprs.subst x r es)
  | .comma a b => .comma (Expr.subst x r a) (Expr.subst x r b)
  | e => e
/-- The same for lists of expressions. -/
def Exprs.subst (x : Name) (r : Expr) : Exprs → Exprs
  | .nil => .nil
  | .cons e es => .cons (Expr.subst x r e) (Exprs.subst x r es)
end

mutual
/-- A statement with an expression in the place of a name. -/
def Stmt.subst (x : Name) (r : Expr) : Stmt → Stmt
  | .expr e => .expr (Expr.subst x r e)
  | .decl t n none => .decl t n none
  | .decl t n (some e) => .decl t n (some (Expr.subst x r e))
  | .array t n k none => .array t n (Expr.subst x r k) none
  | .array t n k (some e) => .array t n (Expr.subst x r k) (some (Expr.subst x r e))
  | .made t n args => .made t n (Exprs.subst x r args)
  | .ret none => .ret none
  | .ret (some e) => .ret (some (Expr.subst x r e))
  | .ite c a b => .ite (Expr.subst x r c) (Stmt.subst x r a) (Stmt.subst x r b)
  | .switch e cases => .switch (Expr.subst x r e) (Cases.subst x r cases)
  | .block l => .block (Stmts.subst x r l)
  | .while c s => .while (Expr.subst x r c) (Stmt.subst x r s)
  | .doWhile s c => .doWhile (Stmt.subst x r s) (Expr.subst x r c)
  | .for i c step s => .for (Stmt.subst x r i) (Expr.subst x r c) (Expr.subst x r step) (Stmt.subst x r s)
  | .seq a b => .seq (Stmt.subst x r a) (Stmt.subst x r b)
  | .attempt s t y h => .attempt (Stmt.subst x r s) t y (Stmt.subst x r h)
  | s => s
/-- The same for lists of statements. -/
def Stmts.subst (x : Name) (r : Expr) : Stmts → Stmts
  | .nil => .nil
  | .cons s l => .cons (Stmt.subst x r s) (Stmts.subst x r l)
/-- The same for the labels of a `switch`. -/
def Cases.subst (x : Name) (r : Expr) : Cases → Cases
  | .nil => .nil
  | .cons none body rest => .cons none (Stmts.subst x r body) (Cases.subst x r rest)
  | .cons (some e) body rest => .cons (some (Expr.subst x r e)) (Stmts.subst x r body) (Cases.subst x r rest)
end

/-- Functions: the type of the result, the name, types and names of the parameters, the body. -/
structure Fun where
  type : Name
  name : Name
  params : List (Name × Name)
  body : Stmts
deriving DecidableEq

/-! ### Directives -/

/-- A macro, without parameters if there are none in the list. -/
structure Macro where
  name : Bytes
  params : List Bytes
  body : List Tok
deriving DecidableEq

/-- The parameters of a macro up to the closing parenthesis. -/
def macroParams : List Tok → Option (List Bytes × List Tok)
  | .word w :: .op o :: ts =>
    if o = b!")" then some ([w], ts)
    else if o = b!"," then (macroParams ts).map fun r => (w :: r.1, r.2)
    else none
  | _ => none

/-- The arguments of a macro up to the closing parenthesis; `depth` parentheses are open, `acc` is the beginning of the first. -/
def macroArgs : Nat → List Tok → List Tok → Option (List (List Tok) × List Tok)
  | _, _, [] => none
  | depth, acc, t :: ts =>
    if t = .op b!"(" then macroArgs (depth + 1) (acc ++ [t]) ts
    else if t = .op b!")" then
      match depth with
      | 0 => some ([acc], ts)
      | d + 1 => macroArgs d (acc ++ [t]) ts
    else if depth = 0 ∧ t = .op b!"," then (macroArgs 0 [] ts).map fun r => (acc :: r.1, r.2)
    else macroArgs depth (acc ++ [t]) ts

/-- A token of the body of a macro, with the arguments in the place of the parameters. -/
def substitute (ps : List (Bytes × List Tok)) : Tok → List Tok
  | .word w => ((ps.find? fun p => p.1 = w).map (·.2)).getD [.word w]
  | t => [t]

/-- The tokens of a line with the macros expanded (not those in the expansion); `n` bounds the number of tokens. -/
def expand (ms : List Macro) : Nat → List Tok → Option (List Tok)
  | 0, _ => none
  | _ + 1, [] => some []
  | n + 1, t :: ts =>
    match t with
    | .word w =>
      match ms.find? fun m => m.name = w with
      | none => (expand ms n ts).map (t :: ·)
      | some m =>
        if m.params = [] then (expand ms n ts).map (m.body ++ ·) else
        match ts with
        | .op o :: us =>
          if o = b!"(" then
            (macroArgs 0 [] us).bind fun r =>
              if r.1.length = m.params.length then
                (expand ms n r.2).map (m.body.flatMap (substitute (m.params.zip r.1)) ++ ·)
              else none
          else none
        | _ => none
    | _ => (expand ms n ts).map (t :: ·)

/-- `0`, or `defined(M)`, several of them joined by `||`. -/
def condition (defs : List Bytes) : List Tok → Option Bool
  | [.word w] => if w = b!"0" then some false else none
  | [.word d, .op o, .word m, .op c] => if d = b!"defined" ∧ o = b!"(" ∧ c = b!")" then some (defs.contains m) else none
  | .word d :: .op o :: .word m :: .op c :: .op a :: ts =>
    if d = b!"defined" ∧ o = b!"(" ∧ c = b!")" ∧ a = b!"||" then (condition defs ts).map fun r => defs.contains m || r else none
  | _ => none

/-- The tokens of lines: what the preprocessor leaves of them, if the macros `defs` are defined.  (A macro is expanded in the
definitions after it.)  `conds` are the conditions of
the enclosing `#if`s, the innermost first. -/
def preprocess (defs : List Bytes) : List Macro → List Bool → List Bytes → Option (List Tok)
  | _, [], [] => some []
  | _, _ :: _, [] => none
  | ms, conds, line :: rest =>
    (Cpp.tokens (line ++ [10])).bind fun ts =>
      match ts with
      | .op h :: .word d :: us =>
        if h = b!"#" then
          if d = b!"if" then (condition defs us).bind fun c => preprocess defs ms (c :: conds) rest
          else if d = b!"ifdef" then
            match us with
            | [.word m] => preprocess defs ms (defs.contains m :: conds) rest
            | _ => none
          else if d = b!"else" then
            match conds with
            | c :: cs => preprocess defs ms ((!c) :: cs) rest
            | [] => none
          else if d = b!"endif" then preprocess defs ms conds.tail rest
          else if conds.contains false then preprocess defs ms conds rest
          else if d = b!"define" then
            match us with
            | .word m :: .op _ :: vs =>
              (macroParams vs).bind fun r => (expand ms (r.2.length + 1) r.2).bind fun body =>
                preprocess defs (⟨m, r.1, body⟩ :: ms) conds rest
            | .word m :: .word w :: vs => preprocess defs (⟨m, [], .word w :: vs⟩ :: ms) conds rest
            | _ => none
          else if d = b!"undef" then
            match us with
            | [.word m] => preprocess defs (ms.filter fun x => x.name ≠ m) conds rest
            | _ => none
          else none
        else if conds.contains false then preprocess defs ms conds rest
        else (expand ms (ts.length + 1) ts).bind fun ts => (preprocess defs ms conds rest).map (ts ++ ·)
      | _ =>
        if conds.contains false then preprocess defs ms conds rest
        else (expand ms (ts.length + 1) ts).bind fun ts => (preprocess defs ms conds rest).map (ts ++ ·)

example : preprocess [b!"A"] [] []
    [b!"#define F(x, y) y { x ; }", b!"#if defined(B) || defined(C)", b!"b", b!"#else", b!"a F(1, (2, 3)) // F", b!"#endif", b!"#undef F"] =
    some [.word b!"a", .op b!"(", .word b!"2", .op b!",", .word b!"3", .op b!")", .op b!"{", .word b!"1", .op b!";", .op b!"}"] := by decide +kernel

/-! ### Reading expressions -/

/-- A reader of something: the result and the tokens that are left. -/
abbrev Reader (α : Type) := List Tok → Option (α × List Tok)

/-- What is left after an operator that has to be there. -/
def eat (o : Bytes) : List Tok → Option (List Tok)
  | .op p :: ts => if p = o then some ts else none
  | _ => none

/-- The digits of a number. -/
def digits (base : Nat) (v : Nat) : Bytes → Option (Nat × Bytes)
  | [] => some (v, [])
  | c :: cs =>
    match Gen.hexValue c with
    | some d => if d < base then digits base (base * v + d) cs else some (v, c :: cs)
    | none => some (v, c :: cs)

/-- Integer literals that are `int`s, or `unsigned int`s with the suffix. -/
def number (w : Bytes) : Option Expr :=
  let r : Option (Nat × Bytes) :=
    match w with
    | 48 :: 120 :: c :: cs => if (Gen.hexValue c).isSome then digits 16 0 (c :: cs) else none
    | c :: cs => if 48 ≤ c ∧ c ≤ 57 then digits 10 0 (c :: cs) else none
    | [] => none
  r.bind fun r =>
    if r.2 = [] ∧ r.1 < 2 ^ 31 then some (.int .i32 r.1)
    else if r.2 = b!"U" ∧ r.1 < 2 ^ 32 then some (.int .u32 r.1)
    else none

/-- The types that expressions are converted to by `(type)`. -/
def castTypes : List Bytes :=
  [b!"void", b!"char", b!"uint8_t", b!"int32_t", b!"T", b!"int", b!"FieldType"]

/-- The templates of functions. -/
def templates : List Bytes := [b!"static_cast", b!"string_to_number", b!"rol", b!"mem_const_iterator", b!"mem_iterator"]

/-- The binary operators by precedence, the weakest first.  `>>` is two tokens. -/
def level : Nat → List Bytes
  | 0 => [b!"||"]
  | 1 => [b!"&&"]
  | 2 => [b!"|"]
  | 3 => [b!"^"]
  | 4 => [b!"&"]
  | 5 => [b!"==", b!"!="]
  | 6 => [b!"<", b!">", b!"<=", b!">="]
  | 7 => [b!"<<", b!">>"]
  | 8 => [b!"+", b!"-"]
  | 9 => [b!"*", b!"/", b!"%"]
  | _ => []

/-- The operator at the beginning. -/
def operator : Reader Bytes
  | .op o :: ts =>
    if o = b!">" then
      match ts with
      | .op p :: us => if p = b!">" then some (b!">>", us) else some (o, ts)
      | _ => some (o, ts)
    else some (o, ts)
  | _ => none

/-- Operands separated by the operators of a level, grouped from the left; `operand` reads an operand. -/
def chain (operand : Reader Expr) (ops : List Bytes) : Nat → Expr → Reader Expr
  | 0, _, _ => none
  | n + 1, a, ts =>
    match operator ts with
    | some (o, us) =>
      if ops.contains o then (operand us).bind fun r => chain operand ops n (.binary (nameOf o) a r.1) r.2
      else some (a, ts)
    | none => some (a, ts)

/-- The levels from `10 - k` on. -/
def binaries (n : Nat) (unary : Reader Expr) : Nat → Reader Expr
  | 0, ts => unary ts
  | k + 1, ts => (binaries n unary k ts).bind fun r => chain (binaries n unary k) (level (9 - k)) n r.1 r.2

/-- Items separated by commas up to the closing token. -/
def items (item : Reader Expr) (close : Bytes) : Nat → Reader Exprs
  | 0, _ => none
  | n + 1, ts =>
    (item ts).bind fun r =>
      match r.2 with
      | .op o :: us =>
        if o = close then some (.cons r.1 .nil, us)
        else if o = b!"," then (items item close n us).map fun q => (.cons r.1 q.1, q.2)
        else none
      | _ => none

/-- A list between an opening token, already read, and the closing one. -/
def list (item : Reader Expr) (close : Bytes) (n : Nat) : Reader Exprs
  | .op o :: ts => if o = close then some (.nil, ts) else items item close n (.op o :: ts)
  | ts => items item close n ts

/-- The tokens up to the `>` that closes template arguments. -/
def angle : Nat → List Tok → Reader (List Tok)
  | _, _, [] => none
  | depth, acc, t :: ts =>
    if t = .op b!"<" then angle (depth + 1) (acc ++ [t]) ts
    else if t = .op b!">" then
      match depth with
      | 0 => some (acc, ts)
      | d + 1 => angle d (acc ++ [t]) ts
    else angle depth (acc ++ [t]) ts

/-- The rest of a qualified name.  `numeric_limits` is a template, used for `T`. -/
def qualified : List Tok → List Name × List Tok
  | .op o :: .word w :: .op l :: .word t :: .op r :: ts =>
    if o = b!"::" ∧ w = b!"numeric_limits" ∧ l = b!"<" ∧ t = b!"T" ∧ r = b!">" then (nameOf w :: (qualified ts).1, (qualified ts).2)
    else if o = b!"::" then
      (nameOf w :: (qualified (.op l :: .word t :: .op r :: ts)).1, (qualified (.op l :: .word t :: .op r :: ts)).2)
    else ([], .op o :: .word w :: .op l :: .word t :: .op r :: ts)
  | .op o :: .word w :: ts => if o = b!"::" then (nameOf w :: (qualified ts).1, (qualified ts).2) else ([], .op o :: .word w :: ts)
  | ts => ([], ts)

/-- What may follow an operand: members, calls, indices, `++`. -/
def suffixes (expr : Reader Expr) : Nat → Expr → Reader Expr
  | 0, _, _ => none
  | n + 1, a, ts =>
    match ts with
    | .op o :: us =>
      if o = b!"." ∨ o = b!"->" then
        match us with
        | .word w :: vs =>
          if w = b!"operator" then
            match vs with
            | .op p :: xs => suffixes expr n (.member a (nameOf (w ++ p))) xs
            | _ => none
          else suffixes expr n (.member a (nameOf w)) vs
        | _ => none
      else if o = b!"(" then (list expr b!")" n us).bind fun r => suffixes expr n (.call a r.1) r.2
      else if o = b!"[" then (expr us).bind fun r => (eat b!"]" r.2).bind fun vs => suffixes expr n (.index a r.1) vs
      else if o = b!"++" ∨ o = b!"--" then suffixes expr n (.incr (nameOf o) false a) us
      else some (a, ts)
    | _ => some (a, ts)

/-- The operands without what follows them. -/
def primary (expr : Reader Expr) : Reader Expr
  | .str s :: ts => (Gen.cString s).map fun v => (.str v, ts)
  | .chr s :: ts =>
    match Gen.literalValue (if s = b!"\"" then b!"\\\"" else s) with
    | some [c] => some (.chr c, ts)
    | _ => none
  | .op o :: ts => if o = b!"(" then (expr ts).bind fun r => (eat b!")" r.2).map fun us => (r.1, us) else none
  | .word w :: ts =>
    if w = b!"json" then
      (eat b!"<" ts).bind fun us => (angle 0 [] us).bind fun r => (eat b!"::" r.2).bind fun us =>
        match us with
        | .word f :: vs => some (.statik (typeOf r.1) (nameOf f), vs)
        | _ => none
    else if w = b!"std" ∧ ts.take 2 = [.op b!"::", .word b!"make_shared"] then
      (eat b!"<" (ts.drop 2)).bind fun us => (angle 0 [] us).map fun r => (.inst n!"std::make_shared" (typeOf r.1), r.2)
    else if templates.contains w then
      (eat b!"<" ts).bind fun us => (angle 0 [] us).map fun r => (.inst (nameOf w) (typeOf r.1), r.2)
    else
      match number w with
      | some e => some (e, ts)
      | none =>
        match qualified ts with
        | ([], us) => some (.name (nameOf w), us)
        | (p, us) => some (.qual (nameOf w :: p), us)
  | [] => none

/-- Operands with prefix operators and conversions. -/
def unaries (n : Nat) (expr : Reader Expr) : Nat → Reader Expr
  | 0, _ => none
  | k + 1, ts =>
    match ts with
    | .op o :: us =>
      if [b!"!", b!"-", b!"*", b!"&"].contains o then (unaries n expr k us).map fun r => (.unary (nameOf o) r.1, r.2)
      else if o = b!"++" ∨ o = b!"--" then (unaries n expr k us).map fun r => (.incr (nameOf o) true r.1, r.2)
      else
        match us with
        | .word w :: .op c :: vs =>
          if o = b!"(" ∧ c = b!")" ∧ castTypes.contains w then (unaries n expr k vs).map fun r => (.cast (nameOf w) r.1, r.2)
          else (primary expr ts).bind fun r => suffixes expr n r.1 r.2
        | .word q :: .word w :: .op p :: .op c :: vs =>
          if o = b!"(" ∧ q = b!"const" ∧ castTypes.contains w ∧ p = b!"*" ∧ c = b!")" then
            (unaries n expr k vs).map fun r => (.cast (nameOf (q ++ b!" " ++ w ++ b!" *")) r.1, r.2)
          else (primary expr ts).bind fun r => suffixes expr n r.1 r.2
        | _ => (primary expr ts).bind fun r => suffixes expr n r.1 r.2
    | _ => (primary expr ts).bind fun r => suffixes expr n r.1 r.2

/-- Expressions that are no list in braces; `expr` reads expressions inside of them. -/
def unbraced (n : Nat) (expr : Reader Expr) : Reader Expr := fun ts =>
  (binaries n (unaries n expr n) 10 ts).bind fun r =>
    match r.2 with
    | .op o :: us =>
      if o = b!"?" then
        (expr us).bind fun a => (eat b!":" a.2).bind fun us => (expr us).map fun b => (.cond r.1 a.1 b.1, b.2)
      else if o = b!"=" then (expr us).map fun b => (.assign r.1 b.1, b.2)
      else if o = b!"+=" then (expr us).map fun b => (.update n!"+" r.1 b.1, b.2)
      else if o = b!"-=" then (expr us).map fun b => (.update n!"-" r.1 b.1, b.2)
      else some r
    | _ => some r

/-- Expressions, with a bound for the depth of their nesting and the number of operands of a level. -/
def expression : Nat → Reader Expr
  | 0, _ => none
  | n + 1, ts =>
    match ts with
    | .op o :: us =>
      if o = b!"{" then (list (expression n) b!"}" n us).map fun r => (.braces r.1, r.2)
      else unbraced n (expression n) ts
    | _ => unbraced n (expression n) ts

/-- Expressions joined by commas. -/
def commas (n : Nat) : Nat → Reader Expr
  | 0, _ => none
  | k + 1, ts =>
    (expression n ts).bind fun r =>
      match eat b!"," r.2 with
      | some us => (commas n k us).map fun q => (.comma r.1 q.1, q.2)
      | none => some r

/-! ### Reading statements and functions -/

/-- The type and the name of a declaration: words, `::`, `&`, `*` and template arguments (`depth` of them open), then the name
before `=`, `;`, `,`, `[` or `(`. -/
def declared : Nat → List Tok → List Tok → Option (Name × Name × List Tok)
  | _, _, [] => none
  | depth, acc, t :: ts =>
    match t with
    | .word w =>
      if depth = 0 ∧ acc ≠ [] ∧ acc.getLast? ≠ some (.op b!"::") ∧
          ([b!"=", b!";", b!",", b!"[", b!"("].any fun o => ts.head? = some (.op o)) = true then
        some (typeOf acc, nameOf w, ts)
      else declared depth (acc ++ [t]) ts
    | .op o =>
      if acc = [] then none
      else if o = b!"<" then declared (depth + 1) (acc ++ [t]) ts
      else if o = b!">" then if depth = 0 then none else declared (depth - 1) (acc ++ [t]) ts
      else if o = b!"::" ∨ o = b!"&" ∨ o = b!"*" then declared depth (acc ++ [t]) ts
      else if o = b!"," then if depth = 0 then none else declared depth (acc ++ [t]) ts
      else none
    | _ => none

/-- An expression and the semicolon after it. -/
def ended (n : Nat) : Reader Expr := fun ts => (expression n ts).bind fun r => (eat b!";" r.2).map fun us => (r.1, us)

/-- What follows the name of a declared variable, up to the semicolon; more of them may follow a comma. -/
def declarators (n : Nat) (type : Name) : Nat → Name → Reader Stmt
  | 0, _, _ => none
  | k + 1, w, ts =>
    let array : Option (Option Expr × List Tok) :=
      match eat b!"[" ts with
      | some us => (expression n us).bind fun r => (eat b!"]" r.2).map fun vs => (some r.1, vs)
      | none => some (none, ts)
    array.bind fun a =>
      let value : Option (Option Expr × List Tok) :=
        match eat b!"=" a.2 with
        | some us => (expression n us).map fun r => (some r.1, r.2)
        | none => some (none, a.2)
      value.bind fun v =>
        let d : Stmt := match a.1 with
          | some e => .array type w e v.1
          | none => .decl type w v.1
        match v.2 with
        | .op o :: us =>
          if o = b!";" then some (d, us)
          else if o = b!"," then
            match us with
            | .word x :: vs => (declarators n type k (nameOf x) vs).map fun r => (.seq d r.1, r.2)
            | _ => none
          else none
        | _ => none

/-- A declaration or an expression. -/
def plain (n : Nat) : Reader Stmt := fun ts =>
  match declared 0 [] ts with
  | some (type, w, us) =>
    match eat b!"(" us with
    | some vs => (list (expression n) b!")" n vs).bind fun r => (eat b!";" r.2).map fun us => (.made type w r.1, us)
    | none => declarators n type n w us
  | none => (ended n ts).map fun r => (.expr r.1, r.2)

/-- Statements up to a closing brace or a label of a `switch`. -/
def statements (stmt : Reader Stmt) : Nat → Reader Stmts
  | 0, _ => none
  | n + 1, ts =>
    if ts.head? = some (.op b!"}") ∨ ts.head? = some (.word b!"case") ∨ ts.head? = some (.word b!"default") then some (.nil, ts)
    else (stmt ts).bind fun r => (statements stmt n r.2).map fun q => (.cons r.1 q.1, q.2)

/-- The labels of a `switch` and the closing brace. -/
def labels (n : Nat) (stmt : Reader Stmt) : Nat → Reader Cases
  | 0, _ => none
  | k + 1, ts =>
    match ts with
    | .word w :: us =>
      if w = b!"case" then
        (expression n us).bind fun e => (eat b!":" e.2).bind fun us => (statements stmt n us).bind fun b =>
          (labels n stmt k b.2).map fun q => (.cons (some e.1) b.1 q.1, q.2)
      else if w = b!"default" then
        (eat b!":" us).bind fun us => (statements stmt n us).bind fun b =>
          (labels n stmt k b.2).map fun q => (.cons none b.1 q.1, q.2)
      else none
    | .op o :: us => if o = b!"}" then some (.nil, us) else none
    | _ => none

/-- The condition between parentheses. -/
def parenthesized (n : Nat) : Reader Expr := fun ts =>
  (eat b!"(" ts).bind fun us => (expression n us).bind fun c => (eat b!")" c.2).map fun us => (c.1, us)

/-- A parameter: the name is the last word, before a default argument. -/
def parameter (ts : List Tok) : Option (Name × Name) :=
  let ts := ts.takeWhile (· ≠ .op b!"=")
  match ts.getLast? with
  | some (.word w) => some (typeOf ts.dropLast, nameOf w)
  | _ => none

/-- The parameters up to the closing parenthesis; `acc` is what has been read of the first one. -/
def parameters : List Tok → List Tok → Option (List (Name × Name) × List Tok)
  | _, [] => none
  | acc, t :: ts =>
    if t = .op b!")" then
      if acc = [] then some ([], ts) else (parameter acc).map fun p => ([p], ts)
    else if t = .op b!"," then (parameter acc).bind fun p => (parameters [] ts).map fun q => (p :: q.1, q.2)
    else parameters (acc ++ [t]) ts

/-- `(auto x :`, which has the name `x`. -/
def ranged : List Tok → Option Bytes
  | .op o :: .word t :: .word x :: .op c :: _ => if o = b!"(" ∧ t = b!"auto" ∧ c = b!":" then some x else none
  | _ => none

/-- `(auto &x :`, which has the name `x`. -/
def rangedRef : List Tok → Option Bytes
  | .op o :: .word t :: .op a :: .word x :: .op c :: _ =>
    if o = b!"(" ∧ t = b!"auto" ∧ a = b!"&" ∧ c = b!":" then some x else none
  | _ => none

/-- `(const auto` is read as `(auto`. -/
def unconst : List Tok → List Tok
  | .op o :: .word c :: .word t :: rest =>
    if o = b!"(" ∧ c = b!"const" ∧ t = b!"auto" then .op o :: .word t :: rest else .op o :: .word c :: .word t :: rest
  | ts => ts

/-- Statements.  `for (auto x : e)` is the loop that the standard explains it with; its iterator is named with a character that no
name has.  `for (auto &x : e)` or `for (const auto &x : e)`, where `x` is another name for the elements of a vector, is a loop over the numbers of the elements.
`throw e` is written like a call. -/
def statement (n : Nat) : Nat → Reader Stmt
  | 0, _ => none
  | k + 1, ts =>
    match ts with
    | .op o :: us =>
      if o = b!"{" then
        (statements (statement n k) n us).bind fun r => (eat b!"}" r.2).map fun vs => (.block r.1, vs)
      else if o = b!";" then some (.skip, us)
      else plain n ts
    | .word w :: us =>
      if w = b!"return" then
        match eat b!";" us with
        | some vs => some (.ret none, vs)
        | none => (ended n us).map fun r => (.ret (some r.1), r.2)
      else if w = b!"if" then
        (parenthesized n us).bind fun c => (statement n k c.2).bind fun a =>
          match a.2 with
          | .word e :: vs =>
            if e = b!"else" then (statement n k vs).map fun b => (.ite c.1 a.1 b.1, b.2) else some (.ite c.1 a.1 .skip, a.2)
          | _ => some (.ite c.1 a.1 .skip, a.2)
      else if w = b!"while" then
        (parenthesized n us).bind fun c => (statement n k c.2).map fun a => (.while c.1 a.1, a.2)
      else if w = b!"do" then
        (statement n k us).bind fun a =>
          match a.2 with
          | .word x :: vs =>
            if x = b!"while" then
              (parenthesized n vs).bind fun c => (eat b!";" c.2).map fun us => (.doWhile a.1 c.1, us)
            else none
          | _ => none
      else if w = b!"for" ∧ (ranged us).isSome = true then
        let v := (ranged us).getD []
        let it : Expr := .name (nameOf (v ++ b!"'"))
        (expression n (us.drop 4)).bind fun e => (eat b!")" e.2).bind fun us => (statement n k us).map fun s =>
          (.for (.decl n!"auto" (nameOf (v ++ b!"'")) (some (.call (.member e.1 n!"begin") .nil)))
            (.binary n!"!=" it (.call (.member e.1 n!"end") .nil)) (.incr n!"++" true it)
            (.block (.cons (.decl n!"auto" (nameOf v) (some (.unary n!"*" it))) (.cons s.1 .nil))), s.2)
      else if w = b!"for" ∧ (rangedRef (unconst us)).isSome = true then
        let v := (rangedRef (unconst us)).getD []
        let i : Expr := .name (nameOf (v ++ b!"'"))
        (expression n ((unconst us).drop 5)).bind fun e => (eat b!")" e.2).bind fun us => (statement n k us).map fun s =>
          (.for (.decl n!"size_t" (nameOf (v ++ b!"'")) (some (.int .i32 0)))
            (.binary n!"!=" i (.call (.member e.1 n!"size") .nil)) (.incr n!"++" true i)
            (Stmt.subst (nameOf v) (.index e.1 i) s.1), s.2)
      else if w = b!"throw" then
        (ended n us).map fun r => (.expr (.call (.name n!"throw") (.cons r.1 .nil)), r.2)
      else if w = b!"try" then
        (statement n k us).bind fun a =>
          match a.2 with
          | .word x :: .op o :: vs =>
            if x = b!"catch" ∧ o = b!"(" then
              (parameters [] vs).bind fun p =>
                match p.1 with
                | [(t, y)] => (statement n k p.2).map fun h => (.attempt a.1 t y h.1, h.2)
                | _ => none
            else none
          | _ => none
      else if w = b!"for" then
        (eat b!"(" us).bind fun us => (plain n us).bind fun i => (ended n i.2).bind fun c =>
          let step : Option (Expr × List Tok) :=
            match eat b!")" c.2 with
            | some vs => some (.int .i32 0, vs)
            | none => (commas n n c.2).bind fun e => (eat b!")" e.2).map fun vs => (e.1, vs)
          step.bind fun e => (statement n k e.2).map fun s => (.for i.1 c.1 e.1 s.1, s.2)
      else if w = b!"switch" then
        (parenthesized n us).bind fun c => (eat b!"{" c.2).bind fun us =>
          (labels n (statement n k) n us).map fun r => (.switch c.1 r.1, r.2)
      else if w = b!"break" then (eat b!";" us).map fun vs => (.break, vs)
      else if w = b!"continue" then (eat b!";" us).map fun vs => (.continue, vs)
      else if w = b!"static_assert" then
        match us.dropWhile (· ≠ .op b!";") with
        | _ :: vs => some (.skip, vs)
        | [] => none
      else if w = b!"goto" then
        match us with
        | .word l :: vs => (eat b!";" vs).map fun xs => (.goto (nameOf l), xs)
        | _ => none
      else
        match us with
        | .op o :: vs => if o = b!":" then some (.label (nameOf w), vs) else plain n ts
        | _ => plain n ts
    | _ => plain n ts

/-- The type and the name of a function, up to the opening parenthesis.  The name of an operator has the word `operator`; a
conversion has this name only. -/
def signature : List Tok → List Tok → Option (Name × Name × List Tok)
  | _, [] => none
  | acc, t :: ts =>
    match t with
    | .word w =>
      if ts.head? = some (.op b!"(") then some (typeOf acc, nameOf w, ts.drop 1)
      else if w = b!"operator" then
        match ts with
        | .op o :: .op p :: us => if p = b!"(" then some (typeOf acc, nameOf (w ++ o), us) else none
        | .word _ :: _ => some (typeOf (ts.takeWhile (· ≠ .op b!"(")), nameOf w, (ts.dropWhile (· ≠ .op b!"(")).drop 1)
        | _ => none
      else signature (acc ++ [t]) ts
    | .op _ => signature (acc ++ [t]) ts
    | _ => none

/-- The words that may follow the parameters. -/
def qualifiers : List Tok → List Tok
  | .word w :: ts => if w = b!"const" ∨ w = b!"override" then qualifiers ts else .word w :: ts
  | ts => ts

/-- The initializers `m(e)` of the members before the body of a constructor, as assignments to `this->m`. -/
def initializers (n : Nat) : Nat → Reader (List Stmt)
  | 0, _ => none
  | k + 1, ts =>
    match ts with
    | .word m :: us =>
      (eat b!"(" us).bind fun us => (expression n us).bind fun e => (eat b!")" e.2).bind fun us =>
        let s : Stmt := .expr (.assign (.member (.name n!"this") (nameOf m)) e.1)
        match eat b!"," us with
        | some vs => (initializers n k vs).map fun q => (s :: q.1, q.2)
        | none => some ([s], us)
    | _ => none

/-- A function with its body; `n` bounds the nesting and the length of lists. -/
def function (n : Nat) : Reader Fun := fun ts =>
  (signature [] ts).bind fun s => (parameters [] s.2.2).bind fun p =>
    let start : Option (List Stmt × List Tok) :=
      match eat b!":" (qualifiers p.2) with
      | some us => initializers n n us
      | none => some ([], qualifiers p.2)
    start.bind fun i => (eat b!"{" i.2).bind fun us =>
      (statements (statement n n) n us).bind fun b => (eat b!"}" b.2).map fun vs => (⟨s.1, s.2.1, p.1, i.1.foldr .cons b.1⟩, vs)

/-- The function that lines of a file are, on a platform with the given macros; a semicolon may follow (an empty declaration). -/
def Fun.of (defs : List Bytes) (n : Nat) (lines : List Bytes) : Option Fun :=
  (preprocess defs [] [] lines).bind fun ts => (function n ts).bind fun r =>
    if r.2 = [] ∨ r.2 = [.op b!";"] then some r.1 else none

/-- Lines of a text, the first having the number 1. -/
def slice (lines : List Bytes) (first last : Nat) : List Bytes := (lines.drop (first - 1)).take (last + 1 - first)

/-- The enumerators up to the closing brace with their values; `next` is the value without `=`. -/
def enumerators : Nat → Nat → List Tok → Option (List (Name × Nat))
  | 0, _, _ => none
  | n + 1, next, ts =>
    match ts with
    | .op c :: _ => if c = b!"}" then some [] else none
    | .word w :: .op o :: us =>
      if o = b!"," then (enumerators n (next + 1) us).map ((nameOf w, next) :: ·)
      else if o = b!"=" then
        match us with
        | .word v :: .op p :: vs =>
          match number v with
          | some (.int _ k) => if p = b!"," then (enumerators n (k + 1) vs).map ((nameOf w, k) :: ·) else none
          | _ => none
        | _ => none
      else if o = b!"}" then some [(nameOf w, next)]
      else none
    | _ => none

/-- The enumerators of the enumeration that lines of a file are. -/
def enumOf (n : Nat) (lines : List Bytes) : Option (List (Name × Nat)) :=
  (preprocess [] [] [] lines).bind fun ts => enumerators n 0 ((ts.dropWhile fun t => t ≠ .op b!"{").drop 1)

end PG.Cxx
