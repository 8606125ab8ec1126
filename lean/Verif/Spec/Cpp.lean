import Verif.Spec.CLit
/-
A part of C++: tokens, expressions, statements and functions, as far as they occur in generated code, and how they are read
from a text (ISO/IEC 14882:2011, 2.5, 5, 6, 8.4).  Comments and white space separate tokens.
-/
set_option autoImplicit false
namespace PG.Cpp

/-! ### Tokens -/

/-- A token.  Words are identifiers, keywords and numbers; literals are kept as they are written, without the quotes. -/
inductive Tok
  | word (w : Bytes)
  | str (s : Bytes)
  | chr (s : Bytes)
  | op (o : Bytes)
deriving DecidableEq, Repr

/-- Letters, digits and the underscore. -/
def isWord (c : Byte) : Bool :=
  (c!"a" ≤ c && c ≤ c!"z") || (c!"A" ≤ c && c ≤ c!"Z") || (c!"0" ≤ c && c ≤ c!"9") || c = c!"_"

/-- White space. -/
def isSpace (c : Byte) : Bool := c = 32 || c = 9 || c = 10 || c = 13

/-- The operators of two characters.  (`>>` also closes two lists of template arguments and is not among them.) -/
def doubles : List Bytes :=
  [b!"::", b!"->", b!"<<", b!"&&", b!"||", b!"==", b!"!=", b!"<=", b!">=", b!"++", b!"--", b!"+=", b!"-=", b!"|=", b!"&=", b!"^="]

/-- Where the reader of tokens is. -/
inductive Lex
  | start
  | word (w : Bytes)
  | op (c : Byte)
  | str (s : Bytes)
  | strEsc (s : Bytes)
  | chr (s : Bytes)
  | chrEsc (s : Bytes)
  | line
  | block
  | blockStar
deriving DecidableEq, Repr

/-- A character at the beginning of a token. -/
def Lex.first (c : Byte) : Lex :=
  if isSpace c then .start
  else if isWord c then .word [c]
  else if c = c!"\"" then .str []
  else if c = c!"'" then .chr []
  else .op c

/-- One character: the tokens that it completes, and where the reader is then.  A literal may not contain a line feed. -/
def Lex.step : Lex → Byte → Option (List Tok × Lex)
  | .start, c => some ([], Lex.first c)
  | .word w, c => some (if isWord c then ([], .word (w ++ [c])) else ([.word w], Lex.first c))
  | .op o, c =>
    if o = c!"/" ∧ c = c!"/" then some ([], .line)
    else if o = c!"/" ∧ c = c!"*" then some ([], .block)
    else if [o, c] ∈ doubles then some ([.op [o, c]], .start)
    else some ([.op [o]], Lex.first c)
  | .str s, c =>
    if c = 10 then none
    else if c = c!"\"" then some ([.str s], .start)
    else some ([], if c = c!"\\" then .strEsc (s ++ [c]) else .str (s ++ [c]))
  | .strEsc s, c => if c = 10 then none else some ([], .str (s ++ [c]))
  | .chr s, c =>
    if c = 10 then none
    else if c = c!"'" then some ([.chr s], .start)
    else some ([], if c = c!"\\" then .chrEsc (s ++ [c]) else .chr (s ++ [c]))
  | .chrEsc s, c => if c = 10 then none else some ([], .chr (s ++ [c]))
  | .line, c => some ([], if c = 10 then .start else .line)
  | .block, c => some ([], if c = c!"*" then .blockStar else .block)
  | .blockStar, c => some ([], if c = c!"/" then .start else if c = c!"*" then .blockStar else .block)

/-- The tokens that a text completes. -/
def Lex.run : Lex → Bytes → Option (List Tok × Lex)
  | l, [] => some ([], l)
  | l, c :: rest => (l.step c).bind fun r => (r.2.run rest).map fun q => (r.1 ++ q.1, q.2)

/-- The tokens of a text that ends with white space or with a comment. -/
def tokens (text : Bytes) : Option (List Tok) :=
  match Lex.run .start text with
  | some (ts, .start) => some ts
  | _ => none

example : tokens b!"a->b_1 << \"x\\\"\\\\\" /* c * / */ != 'z'; // end\n" =
    some [.word b!"a", .op b!"->", .word b!"b_1", .op b!"<<", .str b!"x\\\"\\\\", .op b!"!=", .chr b!"z", .op b!";"] := by decide

/-! ### Expressions and statements -/

/-- Expressions.  `statik` is `json<decltype(e)>::f`. -/
inductive Expr
  | name (n : Bytes)
  | num (n : Nat)
  | str (s : Bytes)
  | chr (s : Bytes)
  | member (e : Expr) (n : Bytes)
  | arrow (e : Expr) (n : Bytes)
  | statik (e : Expr) (f : Bytes)
  | call (f : Expr) (args : List Expr)
  | unary (o : Bytes) (e : Expr)
  | discard (e : Expr)
  | binary (o : Bytes) (a b : Expr)
  | cond (c a b : Expr)
  | assign (a b : Expr)
  | braces (es : List Expr)
deriving Repr

/-- Statements.  A declaration has its type as tokens. -/
inductive Stmt
  | expr (e : Expr)
  | decl (type : List Tok) (n : Bytes) (init : Option Expr)
  | ret (e : Option Expr)
  | ite (c : Expr) (a : Stmt) (b : Option Stmt)
  | switch (e : Expr) (cases : List (Expr × List Stmt)) (default : List Stmt)
  | block (l : List Stmt)
deriving Repr

/-- Functions: the type of the result, the name, types and names of the parameters, the body. -/
structure Fun where
  type : List Tok
  name : Bytes
  params : List (List Tok × Bytes)
  body : List Stmt
deriving Repr

/-! ### Reading expressions -/

/-- A number in decimal. -/
def number (w : Bytes) : Option Nat :=
  if w ≠ [] ∧ (w.all fun c => c!"0" ≤ c && c ≤ c!"9") then some (w.foldl (fun n c => 10 * n + (c.toNat - 48)) 0) else none

/-- The binary operators by precedence, the weakest first. -/
def level : Nat → List Bytes
  | 0 => [b!"||"]
  | 1 => [b!"&&"]
  | 2 => [b!"|"]
  | 3 => [b!"^"]
  | 4 => [b!"&"]
  | 5 => [b!"==", b!"!="]
  | 6 => [b!"<", b!">", b!"<=", b!">="]
  | 7 => [b!"<<"]
  | 8 => [b!"+", b!"-"]
  | 9 => [b!"*", b!"/", b!"%"]
  | _ => []

/-- The prefix operators. -/
def prefixes : List Bytes := [b!"!", b!"-", b!"*", b!"&", b!"++", b!"--"]

/-- What is left after a token that has to be there. -/
def eat (o : Bytes) : List Tok → Option (List Tok)
  | .op p :: ts => if p = o then some ts else none
  | _ => none

/-- A reader of something: the result and the tokens that are left. -/
abbrev Reader (α : Type) := List Tok → Option (α × List Tok)

/-- Operands separated by the operators of a level, grouped from the left; `operand` reads an operand. -/
def chain (operand : Reader Expr) (ops : List Bytes) : Nat → Expr → Reader Expr
  | 0, _, _ => none
  | n + 1, a, ts =>
    match ts with
    | .op o :: us =>
      if o ∈ ops then (operand us).bind fun r => chain operand ops n (.binary o a r.1) r.2
      else some (a, ts)
    | _ => some (a, ts)

/-- All levels, from the strongest (`k = 0`) to level `10 - k`. -/
def binaries (n : Nat) (unary : Reader Expr) : Nat → Reader Expr
  | 0, ts => unary ts
  | k + 1, ts => (binaries n unary k ts).bind fun r => chain (binaries n unary k) (level (9 - k)) n r.1 r.2

/-- Items separated by commas up to the closing token, which may follow a comma if `trailing`. -/
def items (item : Reader Expr) (close : Bytes) (trailing : Bool) : Nat → Reader (List Expr)
  | 0, _ => none
  | n + 1, ts =>
    (item ts).bind fun r =>
      match r.2 with
      | .op o :: us =>
        if o = close then some ([r.1], us)
        else if o = b!"," then
          match us with
          | .op p :: vs =>
            if trailing = true ∧ p = close then some ([r.1], vs)
            else (items item close trailing n us).map fun q => (r.1 :: q.1, q.2)
          | _ => (items item close trailing n us).map fun q => (r.1 :: q.1, q.2)
        else none
      | _ => none

/-- A list between an opening token, already read, and the closing one. -/
def list (item : Reader Expr) (close : Bytes) (trailing : Bool) (n : Nat) : Reader (List Expr)
  | .op o :: ts => if o = close then some ([], ts) else items item close trailing n (.op o :: ts)
  | ts => items item close trailing n ts

/-- What may follow an operand: members, calls. -/
def suffixes (expr : Reader Expr) : Nat → Expr → Reader Expr
  | 0, _, _ => none
  | n + 1, a, ts =>
    match ts with
    | .op o :: us =>
      if o = b!"." then
        match us with
        | .word w :: vs => suffixes expr n (.member a w) vs
        | _ => none
      else if o = b!"->" then
        match us with
        | .word w :: vs => suffixes expr n (.arrow a w) vs
        | _ => none
      else if o = b!"(" then (list expr b!")" false n us).bind fun r => suffixes expr n (.call a r.1) r.2
      else some (a, ts)
    | _ => some (a, ts)

/-- The operands without what follows them. -/
def primary (expr : Reader Expr) : Reader Expr
  | .str s :: ts => some (.str s, ts)
  | .chr s :: ts => some (.chr s, ts)
  | .op o :: ts => if o = b!"(" then (expr ts).bind fun r => (eat b!")" r.2).map fun us => (r.1, us) else none
  | .word w :: ts =>
    if w = b!"json" then
      match ts with
      | .op o :: .word d :: us =>
        if o = b!"<" ∧ d = b!"decltype" then
          (eat b!"(" us).bind fun us => (expr us).bind fun r => (eat b!")" r.2).bind fun us => (eat b!">" us).bind fun us =>
            (eat b!"::" us).bind fun us =>
              match us with
              | .word f :: vs => some (.statik r.1 f, vs)
              | _ => none
        else none
      | _ => none
    else
      match number w with
      | some n => some (.num n, ts)
      | none => some (.name w, ts)
  | [] => none

/-- Operands with prefix operators; `(void) e` discards a value. -/
def unaries (n : Nat) (expr : Reader Expr) : Nat → Reader Expr
  | 0, _ => none
  | k + 1, ts =>
    match ts with
    | .op o :: us =>
      if o ∈ prefixes then (unaries n expr k us).map fun r => (.unary o r.1, r.2)
      else if o = b!"(" ∧ us.take 2 = [.word b!"void", .op b!")"] then
        (unaries n expr k (us.drop 2)).map fun r => (.discard r.1, r.2)
      else (primary expr ts).bind fun r => suffixes expr n r.1 r.2
    | _ => (primary expr ts).bind fun r => suffixes expr n r.1 r.2

/-- Expressions that are no list in braces; `expr` reads expressions inside of them. -/
def unbraced (n : Nat) (expr : Reader Expr) : Reader Expr := fun ts =>
  (binaries n (unaries n expr n) 10 ts).bind fun r =>
    match r.2 with
    | .op o :: us =>
      if o = b!"?" then
        (expr us).bind fun a => (eat b!":" a.2).bind fun us => (expr us).map fun b => (.cond r.1 a.1 b.1, b.2)
      else if o = b!"=" then (expr us).map fun b => (.assign r.1 b.1, b.2)
      else some r
    | _ => some r

/-- Expressions, with a bound for the depth of their nesting and the number of operands of a level. -/
def expression : Nat → Reader Expr
  | 0, _ => none
  | n + 1, ts =>
    match ts with
    | .op o :: us =>
      if o = b!"{" then (list (expression n) b!"}" true n us).map fun r => (.braces r.1, r.2)
      else unbraced n (expression n) ts
    | _ => unbraced n (expression n) ts

/-! ### Reading statements and functions -/

/-- The type and the name of a declaration: words, `::`, `&`, `*` and template arguments (`depth` of them open), then the name
before `=` or `;`. -/
def declared : Nat → List Tok → List Tok → Option (List Tok × Bytes × List Tok)
  | _, _, [] => none
  | depth, acc, t :: ts =>
    match t with
    | .word w =>
      if depth = 0 ∧ acc ≠ [] ∧ acc.getLast? ≠ some (.op b!"::") ∧ (ts.head? = some (.op b!"=") ∨ ts.head? = some (.op b!";")) then
        some (acc, w, ts)
      else declared depth (acc ++ [t]) ts
    | .op o =>
      if acc = [] then none
      else if o = b!"<" then declared (depth + 1) (acc ++ [t]) ts
      else if o = b!">" then if depth = 0 then none else declared (depth - 1) (acc ++ [t]) ts
      else if o = b!"::" ∨ o = b!"&" ∨ o = b!"*" then declared depth (acc ++ [t]) ts
      else if o = b!"," then if depth = 0 then none else declared depth (acc ++ [t]) ts
      else none
    | _ => none

/-- Statements up to a closing brace or a label. -/
def statements (stmt : Reader Stmt) : Nat → Reader (List Stmt)
  | 0, _ => none
  | n + 1, ts =>
    if ts.head? = some (.op b!"}") ∨ ts.head? = some (.word b!"case") ∨ ts.head? = some (.word b!"default") then some ([], ts)
    else (stmt ts).bind fun r => (statements stmt n r.2).map fun q => (r.1 :: q.1, q.2)

/-- The labels of a `switch`, `default` being the last one, and the closing brace. -/
def labels (n : Nat) (stmt : Reader Stmt) : Nat → Reader (List (Expr × List Stmt) × List Stmt)
  | 0, _ => none
  | k + 1, ts =>
    match ts with
    | .word w :: us =>
      if w = b!"case" then
        (expression n us).bind fun e => (eat b!":" e.2).bind fun us => (statements stmt n us).bind fun b =>
          (labels n stmt k b.2).map fun q => (((e.1, b.1) :: q.1.1, q.1.2), q.2)
      else if w = b!"default" then
        (eat b!":" us).bind fun us => (statements stmt n us).bind fun b => (eat b!"}" b.2).map fun vs => (([], b.1), vs)
      else none
    | _ => none

/-- An expression and the semicolon after it. -/
def ended (n : Nat) : Reader Expr := fun ts => (expression n ts).bind fun r => (eat b!";" r.2).map fun us => (r.1, us)

/-- A declaration or an expression. -/
def plain (n : Nat) : Reader Stmt := fun ts =>
  match declared 0 [] ts with
  | some (type, w, us) =>
    match eat b!";" us with
    | some vs => some (.decl type w none, vs)
    | none => (eat b!"=" us).bind fun us => (ended n us).map fun r => (.decl type w (some r.1), r.2)
  | none => (ended n ts).map fun r => (.expr r.1, r.2)

/-- Statements. -/
def statement (n : Nat) : Nat → Reader Stmt
  | 0, _ => none
  | k + 1, ts =>
    match ts with
    | .op o :: us =>
      if o = b!"{" then
        (statements (statement n k) n us).bind fun r => (eat b!"}" r.2).map fun vs => (.block r.1, vs)
      else plain n ts
    | .word w :: us =>
      if w = b!"return" then
        match eat b!";" us with
        | some vs => some (.ret none, vs)
        | none => (ended n us).map fun r => (.ret (some r.1), r.2)
      else if w = b!"if" then
        (eat b!"(" us).bind fun us => (expression n us).bind fun c => (eat b!")" c.2).bind fun us =>
          (statement n k us).bind fun a =>
            match a.2 with
            | .word e :: vs =>
              if e = b!"else" then (statement n k vs).map fun b => (.ite c.1 a.1 (some b.1), b.2) else some (.ite c.1 a.1 none, a.2)
            | _ => some (.ite c.1 a.1 none, a.2)
      else if w = b!"switch" then
        (eat b!"(" us).bind fun us => (expression n us).bind fun c => (eat b!")" c.2).bind fun us =>
          (eat b!"{" us).bind fun us => (labels n (statement n k) n us).map fun r => (.switch c.1 r.1.1 r.1.2, r.2)
      else plain n ts
    | _ => plain n ts

/-- A parameter: the name is the last word. -/
def parameter (ts : List Tok) : Option (List Tok × Bytes) :=
  match ts.getLast? with
  | some (.word w) => some (ts.dropLast, w)
  | _ => none

/-- The parameters up to the closing parenthesis; `acc` is what has been read of the first one. -/
def parameters : List Tok → List Tok → Option (List (List Tok × Bytes) × List Tok)
  | _, [] => none
  | acc, t :: ts =>
    if t = .op b!")" then
      if acc = [] then some ([], ts) else (parameter acc).map fun p => ([p], ts)
    else if t = .op b!"," then (parameter acc).bind fun p => (parameters [] ts).map fun q => (p :: q.1, q.2)
    else parameters (acc ++ [t]) ts

/-- The type and the name of a function, up to the opening parenthesis. -/
def signature : List Tok → List Tok → Option (List Tok × Bytes × List Tok)
  | _, [] => none
  | acc, t :: ts =>
    match t with
    | .word w => if ts.head? = some (.op b!"(") then some (acc, w, ts.drop 1) else signature (acc ++ [t]) ts
    | .op o => if o = b!"::" ∨ o = b!"&" ∨ o = b!"*" then signature (acc ++ [t]) ts else none
    | _ => none

/-- A function with its body. -/
def function (n : Nat) : Reader Fun := fun ts =>
  (signature [] ts).bind fun s => (parameters [] s.2.2).bind fun p => (eat b!"{" p.2).bind fun us =>
    (statements (statement n n) n us).bind fun b => (eat b!"}" b.2).map fun vs => (⟨s.1, s.2.1, p.1, b.1⟩, vs)

/-- Functions up to the closing brace of a class. -/
def functions (n : Nat) : Nat → Reader (List Fun)
  | 0, _ => none
  | k + 1, ts =>
    match eat b!"}" ts with
    | some us => some ([], us)
    | none => (function n ts).bind fun r => (functions n k r.2).map fun q => (r.1 :: q.1, q.2)

end PG.Cpp
