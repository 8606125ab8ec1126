import Verif.Spec.CppRun
import Verif.Model.Write
/-
The classes `json<T>` of generated code: how they are read from a text, and what their functions do, given the functions
`json<T>::…` of the types of the members and the rest of the runtime.
-/
set_option autoImplicit false
namespace PG.Cpp

/-! ### Reading a class -/

/-- A specialization of `json`. -/
structure Class where
  /-- The namespace. -/
  path : Bytes
  /-- The template argument. -/
  type : List Tok
  funs : List Fun
deriving Repr

/-- Tokens up to the first `>`. -/
def argument : List Tok → Option (List Tok × List Tok)
  | [] => none
  | t :: ts => if t = .op b!">" then some ([], ts) else (argument ts).map fun r => (t :: r.1, r.2)

/-- Words and operators that have to be there. -/
def eatAll : List Tok → List Tok → Option (List Tok)
  | [], ts => some ts
  | u :: us, t :: ts => if t = u then eatAll us ts else none
  | _ :: _, [] => none

/-- `namespace p { template<> struct json<T> { functions }; }`; `n` bounds the nesting and the length of lists. -/
def specialization (n : Nat) : Reader Class := fun ts =>
  match ts with
  | .word k :: .word p :: us =>
    if k = b!"namespace" then
      (eatAll [.op b!"{", .word b!"template", .op b!"<", .op b!">", .word b!"struct", .word b!"json", .op b!"<"] us).bind fun us =>
      (argument us).bind fun a => (eat b!"{" a.2).bind fun us => (functions n n us).bind fun f =>
      (eatAll [.op b!";", .op b!"}"] f.2).map fun us => (⟨p, a.1, f.1⟩, us)
    else none
  | _ => none

/-- The class that a text defines. -/
def Class.of (n : Nat) (text : Bytes) : Option Class :=
  (tokens text).bind fun ts => (specialization n ts).bind fun r => if r.2 = [] then some r.1 else none

/-- A function of a class. -/
def Class.fun (c : Class) (name : Bytes) : Option Fun := c.funs.find? fun f => f.name = name

/-! ### The library -/

/-- The values of the library: objects, return codes, `json_context` with its parameters and its output stream,
`unordered_map<string, int>` and its iterators. -/
inductive Dom
  | obj (t : Ty) (v : t.Den)
  | rc (r : RC)
  | ctx
  | params
  | os
  | table (l : List (Bytes × Int))
  | iter (i : Option (Bytes × Int))

/-- The state: the tokenizer, what has been written, the error record of the parameters. -/
structure Run where
  tz : Tz
  out : Bytes
  err : ErrInfo

/-- The member of a structure. -/
def getField : (fs : Fields) → fs.Den → Bytes → Option Dom
  | .nil, _, _ => none
  | .cons f t rest, v, n => if f.name = n then some (.obj t v.1) else getField rest v.2 n

/-- A structure after the assignment to a member. -/
def setField : (fs : Fields) → fs.Den → Bytes → Dom → Option fs.Den
  | .nil, _, _, _ => none
  | .cons f t rest, v, n, x =>
    if f.name = n then
      match x with
      | .obj u w => if h : u = t then some (h ▸ w, v.2) else none
      | _ => none
    else (setField rest v.2 n x).map fun r => (v.1, r)

/-- Members of the context and of structures. -/
def domMember (p : Params) : Val Dom → Bytes → Option (Val Dom)
  | .dom .ctx, n => if n = b!"os" then some (.dom .os) else if n = b!"params" then some (.dom .params) else none
  | .dom .params, n => if n = b!"serialize_null" then some (.bool p.serializeNull) else none
  | .dom (.iter (some x)), n => if n = b!"second" then some (.int x.2) else none
  | .dom (.obj (.msg _ fs) v), n => (getField fs v n).map .dom
  | _, _ => none

/-- Assignment to members of structures. -/
def domUpdate : Val Dom → Bytes → Val Dom → Option (Val Dom)
  | .dom (.obj (.msg o fs) v), n, .dom x => (setField fs v n x).map fun w => .dom (.obj (.msg o fs) w)
  | _, _, _ => none

/-- The functions of `json<T>`, for the type `T` of a member; `n` bounds the loops of the runtime. -/
def domStatic (n : Nat) (p : Params) : Val Dom → Bytes → Callee Dom Run
  | .dom (.obj t _), f => fun s args =>
    if f = b!"read" then
      match args with
      | [.dom .ctx, .dom (.obj u v)] =>
        if u = t then
          let r := u.read n s.tz v
          some (.dom (.rc r.1), [none, some (.dom (.obj u r.2.2))], { s with tz := r.2.1 })
        else none
      | _ => none
    else if f = b!"write" then
      match args with
      | [.dom .ctx, .dom (.obj u v)] =>
        if u = t then
          let r := u.write p v s.err
          some (.dom (.rc r.1), [], { s with out := s.out ++ r.2.1, err := r.2.2 })
        else none
      | _ => none
    else if f = b!"empty" then
      match args with
      | [.dom (.obj u v)] => if u = t then some (.bool (u.empty v), [], s) else none
      | _ => none
    else if f = b!"clear" then
      match args with
      | [.dom (.obj u v)] => if u = t then some (.void, [some (.dom (.obj u (u.clear v)))], s) else none
      | _ => none
    else if f = b!"equal" then
      match args with
      | [.dom (.obj u v), .dom (.obj w x)] =>
        if h : w = u then if u = t then some (.bool (u.equal v (h ▸ x)), [], s) else none else none
      | _ => none
    else if f = b!"swap" then
      match args with
      | [.dom (.obj u v), .dom (.obj w x)] =>
        if h : w = u then
          if u = t then
            let r := u.swap v (h ▸ x)
            some (.void, [some (.dom (.obj u r.1)), some (.dom (.obj u r.2))], s)
          else none
        else none
      | _ => none
    else none
  | _, _ => fun _ _ => none

/-- `FIELDS.find` and `FIELDS.end`; of several entries with the same key the map keeps the first. -/
def domMethod (f : Bytes) : Callee Dom Run := fun s args =>
  if f = b!"find" then
    match args with
    | [.dom (.table l), .str k] => some (.dom (.iter (l.find? fun e => e.1 == k)), [], s)
    | _ => none
  else if f = b!"end" then
    match args with
    | [.dom (.table _)] => some (.dom (.iter none), [], s)
    | _ => none
  else none

/-- `!`, the minus sign, and the output stream behind its pointer. -/
def domUnary (o : Bytes) : Val Dom → Option (Val Dom)
  | .bool b => if o = b!"!" then some (.bool !b) else none
  | .int i => if o = b!"-" then some (.int (-i)) else none
  | .dom .os => if o = b!"*" then some (.dom .os) else none
  | _ => none

/-- Output, comparison of numbers and of iterators. -/
def domBinary (o : Bytes) : Val Dom → Val Dom → Run → Option (Val Dom × Run)
  | .dom .os, .str x, s => if o = b!"<<" then some (.dom .os, { s with out := s.out ++ x }) else none
  | .dom .os, .char x, s => if o = b!"<<" then some (.dom .os, { s with out := s.out ++ [x] }) else none
  | .int a, .int b, s => if o = b!"<" then some (.bool (a < b), s) else none
  | .dom (.iter a), .dom (.iter b), s => if o = b!"==" then some (.bool (a == b), s) else none
  | _, _, _ => none

/-- An entry `{"key", number}`. -/
def entry : Val Dom → Option (Bytes × Int)
  | .list [.str k, .int i] => some (k, i)
  | _ => none

/-- The type of the table of names. -/
def tableType : List Tok :=
  [.word b!"static", .word b!"const", .word b!"std", .op b!"::", .word b!"unordered_map", .op b!"<", .word b!"std", .op b!"::",
   .word b!"string", .op b!",", .word b!"int", .op b!">"]

/-- Variables: `int`, `bool`, strings, the table, and those of type `auto`. -/
def domInit (type : List Tok) (v : Val Dom) : Option (Val Dom) :=
  if type = [.word b!"auto"] then some v
  else
    match v with
    | .int i => if type = [.word b!"int"] then some (.int i) else none
    | .bool b => if type = [.word b!"bool"] then some (.bool b) else none
    | .str s =>
      if type = [.word b!"std", .op b!"::", .word b!"string"] ∨
         type = [.word b!"const", .word b!"std", .op b!"::", .word b!"string", .op b!"&"] then some (.str s) else none
    | .list l => if type = tableType then (l.mapM entry).map fun t => .dom (.table t) else none
    | _ => none

/-- The constants. -/
def domConstant (n : Bytes) : Option (Val Dom) :=
  if n = b!"true" then some (.bool true)
  else if n = b!"false" then some (.bool false)
  else if n = b!"PGR_OK" then some (.dom (.rc .ok))
  else if n = b!"PGR_NIL" then some (.dom (.rc .nil))
  else none

/-- The library with the given functions. -/
def library (n : Nat) (p : Params) (function : Bytes → Callee Dom Run) : Lib Dom Run where
  constant := domConstant
  member := domMember p
  update := domUpdate
  function := function
  statik := domStatic n p
  method := domMethod
  unary := domUnary
  binary := domBinary
  init := domInit

/-- The functions that `index` may call. -/
def functions0 (f : Bytes) : Callee Dom Run := fun s args =>
  if f = b!"reveal" then
    match args with
    | [.str x] => some (.str (reveal x), [], s)
    | _ => none
  else none

/-- The functions that `read_field` may call: `index` of its class. -/
def functions1 (n : Nat) (p : Params) (c : Class) (f : Bytes) : Callee Dom Run := fun s args =>
  if f = b!"index" then
    (c.fun b!"index").bind fun g => (g.run (library n p functions0) args s).map fun r => (r.1, [], r.2.2)
  else functions0 f s args

/-- `read_field` as a function of the name, the tokenizer and the object. -/
def Class.readField (n : Nat) (p : Params) (c : Class) (t : Ty) (name : Bytes) (tz : Tz) (v : t.Den) : Option (Res t.Den) :=
  (c.fun b!"read_field").bind fun g =>
    match g.run (library n p (functions1 n p c)) [.dom .ctx, .str name, .dom (.obj t v)] ⟨tz, [], {}⟩ with
    | some (.dom (.rc r), [_, _, (_, .dom (.obj u w))], s) => if h : u = t then some (r, s.tz, h ▸ w) else none
    | _ => none

/-- The functions that the others may call: `read_object`, given `read_field` of the class as a total function. -/
def functions2 (n : Nat) (t : Ty) (rf : Bytes → Tz → t.Den → Res t.Den) (f : Bytes) : Callee Dom Run := fun s args =>
  if f = b!"read_object" then
    match args with
    | [.dom .ctx, .dom (.obj u v)] =>
      if h : u = t then
        let r := readObj rf n s.tz (h ▸ v)
        some (.dom (.rc r.1), [none, some (.dom (.obj t r.2.2))], { s with tz := r.2.1 })
      else none
    | _ => none
  else functions0 f s args

/-- What it means that a class has the functions of a type: whatever the state and the object, `read_field` has the meaning `rf`
for some `rf` with which `read` is `Ty.read`, and the others are `Ty.write`, `Ty.empty`, `Ty.clear`, `Ty.equal` and `Ty.swap`. -/
structure Class.Implements (c : Class) (t : Ty) : Prop where
  read : ∀ n p, ∃ rf, (∀ name tz v, c.readField n p t name tz v = some (rf name tz v)) ∧
    ∃ f, c.fun b!"read" = some f ∧ ∀ s v, f.run (library n p (functions2 n t rf)) [.dom .ctx, .dom (.obj t v)] s =
      some (.dom (.rc (t.read n s.tz v).1), [(b!"ctx", .dom .ctx), (b!"value", .dom (.obj t (t.read n s.tz v).2.2))],
        { s with tz := (t.read n s.tz v).2.1 })
  write : ∃ f, c.fun b!"write" = some f ∧ ∀ n p s v, f.run (library n p functions0) [.dom .ctx, .dom (.obj t v)] s =
      some (.dom (.rc (t.write p v s.err).1), [(b!"ctx", .dom .ctx), (b!"value", .dom (.obj t v))],
        { s with out := s.out ++ (t.write p v s.err).2.1, err := (t.write p v s.err).2.2 })
  empty : ∃ f, c.fun b!"empty" = some f ∧ ∀ n p s v, f.run (library n p functions0) [.dom (.obj t v)] s =
      some (.bool (t.empty v), [(b!"value", .dom (.obj t v))], s)
  clear : ∃ f, c.fun b!"clear" = some f ∧ ∀ n p s v, f.run (library n p functions0) [.dom (.obj t v)] s =
      some (.void, [(b!"value", .dom (.obj t (t.clear v)))], s)
  equal : ∃ f, c.fun b!"equal" = some f ∧ ∀ n p s v w, f.run (library n p functions0) [.dom (.obj t v), .dom (.obj t w)] s =
      some (.bool (t.equal v w), [(b!"a", .dom (.obj t v)), (b!"b", .dom (.obj t w))], s)
  swap : ∃ f, c.fun b!"swap" = some f ∧ ∀ n p s v w, f.run (library n p functions0) [.dom (.obj t v), .dom (.obj t w)] s =
      some (.void, [(b!"a", .dom (.obj t (t.swap v w).1)), (b!"b", .dom (.obj t (t.swap v w).2))], s)

end PG.Cpp
