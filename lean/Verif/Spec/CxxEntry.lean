import Verif.Spec.CxxLib
import Verif.Model.Entity
/-
The libraries that the entry points are executed with: `PG_X_Y_Z_ENTITY` (json.hh:63-105), `PG_X_Y_Z_ENTITY_SERIALIZER`
(107-119), `message<T,J>` (protogen.hh:628-705), and the functions for arrays (json-array.hh:80-158).
-/
set_option autoImplicit false
namespace PG.Cxx

/-- The text of the lines of a macro: without the backslash at the end (ISO/IEC 14882, 5.2: line splicing). -/
def splice (l : Bytes) : Bytes := if l.getLast? = some c!"\\" then l.dropLast else l

/-- The functions of a serializer (`S` in the macros, `json<T>` for arrays). -/
structure Codec (V : Type) where
  read : Tz → V → Res V
  readField : Bytes → Tz → V → Res V
  write : Params → V → ErrInfo → WRes
  empty : V → Bool
  clear : V → V
  equal : V → V → Bool
  swap : V → V → V × V

/-! ### `deserialize(istream&)` and `serialize(ostream&)` -/

/-- json.hh:11-19 `json_context`: the current token of the tokenizer if there is one, whether there is an output stream. -/
structure Ctx where
  tok : Option Token := none
  os : Bool := false
  params : Params := {}

/-- Values; a pointer to an object is the object.  The streams are part of the state. -/
inductive Part (V : Type)
  | params (q : Params)
  | err (e : ErrInfo)
  | ctx (c : Ctx)
  | tok (t : Token)
  | obj (v : V)
  | source
  | sink

/-- The object, the input, what has been written. -/
structure Scene (V : Type) where
  obj : V
  inp : IStream
  out : Bytes

/-- The pointer `params`. -/
def paramsArg {V : Type} : Option Params → Val (Part V)
  | none => .void
  | some q => .dom (.params q)

/-- The functions of the serializer.  The tokenizer has a reference to the error record of the context. -/
def codec {V : Type} (h : Codec V) (f : Name) : Callee (Part V) (Scene V) := fun s args =>
  match args with
  | [.dom (.ctx c), .dom (.obj v)] =>
    if f = n!"read" then
      match c.tok with
      | some t =>
        let r := h.read ⟨t, s.inp, c.params.err⟩ v
        (rcNumber r.1).map fun k : Nat =>
          (.int .i32 (k : Int), [some (.dom (.ctx { c with tok := some r.2.1.cur, params := { c.params with err := r.2.1.err } })),
            some (.dom (.obj r.2.2))], { s with inp := r.2.1.inp })
      | none => none
    else if f = n!"write" then
      if c.os then
        let r := h.write c.params v c.params.err
        (rcNumber r.1).map fun k : Nat =>
          (.int .i32 (k : Int), [some (.dom (.ctx { c with params := { c.params with err := r.2.2 } }))], { s with out := s.out ++ r.2.1 })
      else none
    else none
  | [.dom (.ctx c), .str name, .dom (.obj v)] =>
    if f = n!"read_field" then
      match c.tok with
      | some t =>
        let r := h.readField name ⟨t, s.inp, c.params.err⟩ v
        (rcNumber r.1).map fun k : Nat =>
          (.int .i32 (k : Int), [some (.dom (.ctx { c with tok := some r.2.1.cur, params := { c.params with err := r.2.1.err } })),
            none, some (.dom (.obj r.2.2))], { s with inp := r.2.1.inp })
      | none => none
    else none
  | [.dom (.obj v)] =>
    if f = n!"empty" then some (.bool (h.empty v), [], s)
    else if f = n!"clear" then some (.void, [some (.dom (.obj (h.clear v)))], s)
    else none
  | [.dom (.obj v), .dom (.obj w)] =>
    if f = n!"equal" then some (.bool (h.equal v w), [], s)
    else if f = n!"swap" then some (.void, [some (.dom (.obj (h.swap v w).1)), some (.dom (.obj (h.swap v w).2))], s)
    else none
  | _ => none

/-- For the functions that a serializer is called in. -/
def entryLib {V : Type} (σ : Bool) (h : Codec V) : Lib (Part V) (Scene V) where
  signed := σ
  constant := fun p => if p = [n!"protogen_X_Y_Z", n!"PGR_OK"] then some (.int .i32 0) else constants p
  get := fun n s => if n = n!"this" then some (.dom (.obj s.obj)) else none
  set := fun n v s =>
    match v with
    | .dom (.obj o) => if n = n!"this" then some { s with obj := o } else none
    | _ => none
  member := fun v n _ =>
    match v with
    | .dom (.params q) => if n = n!"error" then some (.dom (.err q.err)) else none
    | .dom (.ctx c) =>
      if n = n!"params" then some (.dom (.params c.params))
      else if n = n!"tok" ∨ n = n!"os" then some (.undef none)
      else none
    | _ => none
  update := fun v n x =>
    match v, x with
    | .dom (.params q), .dom (.err e) => if n = n!"error" then some (.dom (.params { q with err := e })) else none
    | .dom (.ctx c), .dom (.params q) => if n = n!"params" then some (.dom (.ctx { c with params := q })) else none
    | .dom (.ctx c), .dom (.tok t) => if n = n!"tok" then some (.dom (.ctx { c with tok := some t })) else none
    | .dom (.ctx c), .dom .sink => if n = n!"os" then some (.dom (.ctx { c with os := true })) else none
    | .dom (.obj _), .dom (.obj v) => if n = n!"*" then some (.dom (.obj v)) else none
    | _, _ => none
  function := fun p s args =>
    match p with
    | [t] =>
      match args with
      | [.dom .source, .dom (.params q)] =>
        if t = n!"protogen_X_Y_Z :: tokenizer" then
          let tz := Tz.open' s.inp q.err
          some (.dom (.tok tz.cur), [none, some (.dom (.params { q with err := tz.err }))], { s with inp := tz.inp })
        else none
      | _ => none
    | [c, f] =>
      if c = n!"S" then codec h f s args
      else if c = n!"std" ∧ f = n!"move" then
        match args with
        | [v] => some (v, [], s)
        | _ => none
      else none
    | _ => none
  inst := fun _ _ _ _ => none
  statik := fun t f s args => if t = n!"T" then codec h f s args else none
  method := fun f s args =>
    match args with
    | [.dom (.err _)] => if f = n!"clear" then some (.void, [some (.dom (.err {}))], s) else none
    | _ => none
  unary := fun o v _ =>
    match v with
    | .dom (.params q) => if o = n!"*" then some (.dom (.params q)) else none
    | .dom (.obj v) => if o = n!"*" then some (.dom (.obj v)) else none
    | .dom (.tok t) => if o = n!"&" then some (.dom (.tok t)) else none
    | .dom .sink => if o = n!"&" then some (.dom .sink) else none
    | _ => none
  binary := fun o a b s =>
    match a, b with
    | .dom (.params _), .void => if o = n!"!=" then some (.bool true, s) else none
    | .void, .void => if o = n!"!=" then some (.bool false, s) else none
    | _, _ => none
  assign := fun old v =>
    match old, v with
    | .dom (.params _), .dom (.params q) => some (.dom (.params q))
    | .dom (.err _), .dom (.err e) => some (.dom (.err e))
    | _, _ => none
  init := fun t v _ =>
    match v with
    | none => if t = n!"protogen_X_Y_Z :: json_context" then some (.dom (.ctx {})) else none
    | some _ => none
  cast := fun _ _ => none
  size := fun _ => none

/-! ### The other overloads -/

/-- Values: the parameters, an object, iterators over characters, pointers into a block of memory, iterators over it, streams. -/
inductive Way (V : Type)
  | params (q : Params)
  | obj (v : V)
  | stdin
  | flags (skip : Bool)
  | skipws
  | chars (rest : Bytes)
  | addr (const : Bool) (i : Nat)
  | mem (it : MemIt)
  | stream (s : IStream)
  | sink
  | back
  | os
  | memOs (it : MemIt)

/-- The object, the flag `skipws` and the contents of a `std::istream`, a block of memory, what has been written. -/
structure Place' (V : Type) where
  obj : V
  skipws : Bool
  content : Bytes
  block : Bytes
  out : Bytes

/-- The pointer `params`. -/
def paramsPtr {V : Type} : Option Params → Val (Way V)
  | none => .void
  | some q => .dom (.params q)

/-- What a pointer `params` points to. -/
def paramsOf {V : Type} : Val (Way V) → Option (Option Params)
  | .void => some none
  | .dom (.params q) => some (some q)
  | _ => none

/-- The characters that are left between two iterators of a string or a vector. -/
def lettersOf {V : Type} : List (Val (Way V)) → Option Bytes
  | [] => some []
  | .int .char v :: rest => (lettersOf rest).map (IT.toByte v :: ·)
  | _ => none

/-- The characters of a string or a vector. -/
def letters {V : Type} (σ : Bool) (x : Bytes) : List (Val (Way V)) := x.map fun b => .int .char (IT.ofByte σ b)

/-- The characters that a `std::istream_iterator<char>` gives. -/
def extracted (skip : Bool) (x : Bytes) : Bytes := if skip then x.filter (fun b => !isSpace b) else x

/-- The type of a back inserter or an iterator for an output stream. -/
def sinks : List Name :=
  [n!"typedef std :: back_insert_iterator < std :: string >", n!"typedef std :: back_insert_iterator < std :: vector < char > >",
   n!"typedef std :: ostream_iterator < char >"]

/-- For the functions that call `deserialize(istream&)` and `serialize(ostream&)`, whose meaning is given. -/
def wayLib {V : Type} (σ : Bool) (deser : IStream → Option Params → V → Option (DRes V)) (ser : Option Params → V → SRes)
    (equal : V → V → Bool) : Lib (Way V) (Place' V) where
  signed := σ
  constant := fun p => if p = [n!"std", n!"ios_base", n!"skipws"] then some (.dom .skipws) else constants p
  get := fun _ _ => none
  set := fun _ _ _ => none
  member := fun _ _ _ => none
  update := fun _ _ _ => none
  function := fun p s args =>
    match args with
    | [.iter a, .iter []] =>
      if p = [n!"iterator_istream < std :: string :: const_iterator >"] ∨
          p = [n!"iterator_istream < std :: vector < char > :: const_iterator >"] then
        (lettersOf a).map fun x => (.dom (.stream (IStream.open' x)), [], s)
      else none
    | [.dom .stdin] =>
      if p = [n!"std", n!"noskipws"] then some (.void, [], { s with skipws := false })
      else if p = [n!"std", n!"skipws"] then some (.void, [], { s with skipws := true })
      else if p = [n!"std :: istream_iterator < char >"] then some (.dom (.chars (extracted s.skipws s.content)), [], s)
      else none
    | [.dom (.chars x), .dom (.chars [])] =>
      if p = [n!"iterator_istream < std :: istream_iterator < char > >"] then some (.dom (.stream (IStream.open' x)), [], s) else none
    | [.dom (.mem a), .dom (.mem b)] =>
      if p = [n!"iterator_istream < mem_const_iterator < char > >"] ∧ a.endp = b.cursor ∧ a.endp ≤ s.block.length then
        some (.dom (.stream (IStream.open' ((s.block.take a.endp).drop a.cursor))), [], s)
      else none
    | [.dom .sink] => if p = [n!"ittype"] then some (.dom .back, [], s) else none
    | [.dom .back] => if p = [n!"iterator_ostream < ittype >"] then some (.dom .os, [], s) else none
    | [.dom (.mem it)] => if p = [n!"iterator_ostream < mem_iterator < char > >"] then some (.dom (.memOs it), [], s) else none
    | [.dom (.obj w)] => if p = [n!"equal"] then some (.bool (equal s.obj w), [], s) else none
    | [.dom (.stream i), q] =>
      if p = [n!"deserialize"] then
        (paramsOf q).bind fun ps => (deser i ps s.obj).map fun r =>
          (.bool r.ret, [none, some (paramsPtr r.params)], { s with obj := r.obj })
      else none
    | [.dom .os, q] =>
      if p = [n!"serialize"] then
        (paramsOf q).map fun ps =>
          (.bool (ser ps s.obj).ret, [none, some (paramsPtr (ser ps s.obj).params)], { s with out := s.out ++ (ser ps s.obj).out })
      else none
    | [.dom (.memOs it), q] =>
      if p = [n!"serialize"] then
        (paramsOf q).bind fun ps => (memPutAll (s.block, it) (ser ps s.obj).out).map fun b =>
          (.bool (ser ps s.obj).ret, [none, some (paramsPtr (ser ps s.obj).params)], { s with block := b.1 })
      else none
    | [.dom (.obj v), .dom (.stream i), q] =>
      if p = [n!"deserialize_array"] then
        (paramsOf q).bind fun ps => (deser i ps v).map fun r =>
          (.bool r.ret, [some (.dom (.obj r.obj)), none, some (paramsPtr r.params)], s)
      else none
    | [.dom (.obj v), .dom .os, q] =>
      if p = [n!"serialize_array"] then
        (paramsOf q).map fun ps =>
          (.bool (ser ps v).ret, [none, none, some (paramsPtr (ser ps v).params)], { s with out := s.out ++ (ser ps v).out })
      else none
    | _ => none
  inst := fun c t s args =>
    match args with
    | [.dom (.addr const i), .int .u64 k] =>
      if t = n!"char" ∧ (c = n!"mem_const_iterator" ∨ c = n!"mem_iterator" ∧ const = false) then
        some (.dom (.mem ⟨i, i + k.toNat⟩), [], s)
      else none
    | [.dom (.addr const i), .int .i32 k] =>
      if t = n!"char" ∧ (c = n!"mem_const_iterator" ∨ c = n!"mem_iterator" ∧ const = false) ∧ 0 ≤ k then
        some (.dom (.mem ⟨i, i + k.toNat⟩), [], s)
      else none
    | _ => none
  statik := fun _ _ _ _ => none
  method := fun f s args =>
    match args with
    | [.str x] =>
      if f = n!"begin" then some (.iter (letters σ x), [], s)
      else if f = n!"end" then some (.iter [], [], s)
      else none
    | [.dom .stdin] => if f = n!"flags" then some (.dom (.flags s.skipws), [], s) else none
    | _ => none
  unary := fun _ _ _ => none
  binary := fun o a b s =>
    match a, b with
    | .dom (.flags k), .dom .skipws => if o = n!"&" then some (.int .i32 (if k then 4096 else 0), s) else none
    | .dom (.addr c i), .int .u64 k => if o = n!"+" then some (.dom (.addr c (i + k.toNat)), s) else none
    | _, _ => none
  assign := fun _ _ => none
  init := fun t v _ =>
    match v with
    | none =>
      if t = n!"std :: istream_iterator < char >" then some (.dom (.chars []))
      else if t ∈ sinks then some .void
      else none
    | some (.dom (.mem it)) => if t = n!"auto" then some (.dom (.mem it)) else none
    | _ => none
  cast := fun _ _ => none
  size := fun _ => none

end PG.Cxx
