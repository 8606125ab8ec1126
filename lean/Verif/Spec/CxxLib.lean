import Verif.Spec.CxxRun
import Verif.Model.Counter
import Verif.Model.Write
/-
The libraries that the functions of the runtime are executed with: what the functions that they call do is given by the model.
-/
set_option autoImplicit false
namespace PG.Cxx

/-! ### The input stream -/

/-- protogen.hh:181-182, the members of `iterator_istream`. -/
structure Cursor where
  rest : Bytes
  line : Int
  col : Int

/-- The members of the stream. -/
def Cursor.of (s : IStream) : Cursor := ⟨s.rest, s.line, s.col⟩

/-- Iterators are the characters from them on; `++` and `*` at the end have no meaning. -/
def streamLib (σ : Bool) : Lib Bytes Cursor where
  signed := σ
  constant := fun _ => none
  get := fun n s =>
    if n = n!"beg_" then some (.dom s.rest)
    else if n = n!"end_" then some (.dom [])
    else if n = n!"line_" then some (.int .i32 s.line)
    else if n = n!"column_" then some (.int .i32 s.col)
    else none
  set := fun n v s =>
    match v with
    | .dom r => if n = n!"beg_" then some { s with rest := r } else none
    | .int .i32 k =>
      if n = n!"line_" then some { s with line := k }
      else if n = n!"column_" then some { s with col := k }
      else none
    | _ => none
  member := fun _ _ _ => none
  update := fun _ _ _ => none
  function := fun p s args =>
    match args with
    | [] =>
      if p = [n!"skip"] then
        (IStream.skipInt s.rest s.line.toNat s.col.toNat).map fun s => (.void, [], Cursor.of s)
      else none
    | _ => none
  inst := fun _ _ _ _ => none
  statik := fun _ _ _ _ => none
  method := fun _ _ _ => none
  unary := fun o v _ =>
    match v with
    | .dom (b :: r) =>
      if o = n!"*" then some (.int .char (IT.ofByte σ b))
      else if o = n!"++" then some (.dom r)
      else none
    | _ => none
  binary := fun o a b s =>
    match a, b with
    | .dom x, .dom y => if o = n!"==" then some (.bool (decide (x.length = y.length)), s) else none
    | _, _ => none
  assign := fun _ _ => none
  init := fun _ _ _ => none
  cast := fun _ _ => none
  size := fun _ => none

/-! ### Constants -/

/-- protogen.hh:255-259. -/
def tokenIds : List (Name × Nat) :=
  [(n!"NONE", 0), (n!"EOS", 1), (n!"OBJS", 2), (n!"OBJE", 3), (n!"COLON", 4), (n!"COMMA", 5), (n!"STRING", 6), (n!"ARRS", 7),
   (n!"ARRE", 8), (n!"NIL", 9), (n!"BTRUE", 10), (n!"BFALSE", 11), (n!"NUMBER", 12)]

/-- protogen.hh:35-45. -/
def errorCodes : List (Name × Nat) :=
  [(n!"PGERR_OK", 0), (n!"PGERR_IGNORE_FAILED", 1), (n!"PGERR_MISSING_FIELD", 2), (n!"PGERR_INVALID_SEPARATOR", 3),
   (n!"PGERR_INVALID_VALUE", 4), (n!"PGERR_INVALID_OBJECT", 5), (n!"PGERR_INVALID_NAME", 6), (n!"PGERR_INVALID_ARRAY", 7)]

/-- protogen.hh:47-52. -/
def parseErrors : List (Name × Nat) := [(n!"PGR_OK", 0), (n!"PGR_ERROR", 1), (n!"PGR_NIL", 2)]

/-- The value of an enumerator. -/
def valueOf (n : Name) : List (Name × Nat) → Option Nat
  | [] => none
  | (m, v) :: rest => if m = n then some v else valueOf n rest

/-- The enumerators, by name for those of unscoped enumerations; `true`, `false` and `nullptr`. -/
def constants {D : Type} : List Name → Option (Val D)
  | [n] =>
    if n = n!"true" then some (.bool true)
    else if n = n!"false" then some (.bool false)
    else if n = n!"nullptr" then some .void
    else (valueOf n (errorCodes ++ parseErrors)).map fun v : Nat => .int .i32 (v : Int)
  | [e, n] =>
    if e = n!"token_id" then (valueOf n tokenIds).map fun v : Nat => .int .i32 (v : Int)
    else if e = n!"error_code" then (valueOf n errorCodes).map fun v : Nat => .int .i32 (v : Int)
    else none
  | _ => none

/-- The enumerators of `token_id`. -/
def tidNumber : TId → Nat
  | .none => 0
  | .eos => 1
  | .objs => 2
  | .obje => 3
  | .colon => 4
  | .comma => 5
  | .string => 6
  | .arrs => 7
  | .arre => 8
  | .nil => 9
  | .btrue => 10
  | .bfalse => 11
  | .number => 12

/-- All of them. -/
def allTIds : List TId :=
  [.none, .eos, .objs, .obje, .colon, .comma, .string, .arrs, .arre, .nil, .btrue, .bfalse, .number]

/-- The token with a number. -/
def tidOf (v : Int) : Option TId := allTIds.find? fun t => (tidNumber t : Int) = v

/-- All kinds of errors. -/
def allECodes : List ECode :=
  [.ok, .ignoreArray, .ignoreObject, .ignoreName, .ignoreColon, .ignoreEnd, .ignoreValue, .invalidSeparator, .invalidNumber,
   .invalidBool, .invalidString, .invalidUtf8, .invalidBytes, .invalidBase64, .invalidStart, .invalidObject, .invalidName,
   .invalidArray]

/-- The kind of error with a code and a message. -/
def ecodeOf (code : Int) (message : Bytes) : Option ECode :=
  allECodes.find? fun c => (c.number : Int) = code ∧ c.message = message

/-- The enumerators of `parse_error`. -/
def rcNumber : RC → Option Nat
  | .ok => some 0
  | .error => some 1
  | .nil => some 2
  | .fuel => none

/-! ### The error record -/

/-- protogen.hh:54-59, the members of `ErrorInfo`, and the position of the current token. -/
structure Record where
  code : Int
  message : Bytes
  line : Int
  col : Int

/-- The members of the record. -/
def Record.of (e : ErrInfo) : Record := ⟨e.code.number, e.code.message, e.line, e.col⟩

/-- What `error` and `set_error` use: the record and (for `error`) the current token. -/
structure Desk where
  err : Record
  line : Int
  col : Int

/-- Values: a record, the current token. -/
inductive Paper
  | record (r : Record)
  | token

/-- Access to the members of the record. -/
def recordLib (σ : Bool) : Lib Paper Desk where
  signed := σ
  constant := constants
  get := fun n s =>
    if n = n!"error_" then some (.dom (.record s.err))
    else if n = n!"current_" then some (.dom .token)
    else none
  set := fun n v s =>
    match v with
    | .dom (.record r) => if n = n!"error_" then some { s with err := r } else none
    | _ => none
  member := fun v n s =>
    match v with
    | .dom (.record r) =>
      if n = n!"code" then some (.int .i32 r.code)
      else if n = n!"message" then some (.str r.message)
      else if n = n!"line" then some (.int .i32 r.line)
      else if n = n!"column" then some (.int .i32 r.col)
      else none
    | .dom .token =>
      if n = n!"line" then some (.int .i32 s.line)
      else if n = n!"column" then some (.int .i32 s.col)
      else none
    | _ => none
  update := fun v n x =>
    match v, x with
    | .dom (.record r), .int .i32 k =>
      if n = n!"code" then some (.dom (.record { r with code := k }))
      else if n = n!"line" then some (.dom (.record { r with line := k }))
      else if n = n!"column" then some (.dom (.record { r with col := k }))
      else none
    | .dom (.record r), .str m => if n = n!"message" then some (.dom (.record { r with message := m })) else none
    | _, _ => none
  function := fun _ _ _ => none
  inst := fun _ _ _ _ => none
  statik := fun _ _ _ _ => none
  method := fun _ _ _ => none
  unary := fun _ _ _ => none
  binary := fun _ _ _ _ => none
  assign := fun _ _ => none
  init := fun _ _ _ => none
  cast := fun _ _ => none
  size := fun _ => none

/-! ### The tokenizer, reading and writing -/

/-- The state: the tokenizer (with the error record), the output so far, the parameter `ensure_ascii`. -/
structure World where
  tz : Tz
  out : Bytes
  ascii : Bool

/-- Values of the library; `V` are those of the types that the templates are used with, `F` those of the field classes. -/
inductive Dom (V F : Type)
  | tok (t : Token)
  | current
  | input
  | ctx
  | tokPtr
  | osPtr
  | os
  | params
  | error
  | val (x : V)
  | fld (f : F)

/-- What the templates use of those types. -/
structure Ops (V F : Type) where
  /-- Default initialization. -/
  new : V
  /-- `json<T>::clear`. -/
  zero : V
  /-- `string_to_number<T>`. -/
  parse : Bytes → V
  /-- `number_to_string`. -/
  text : V → Bytes
  /-- `json<T>::read`. -/
  read : Tz → V → Res V
  /-- `json<T>::write`. -/
  write : V → ErrInfo → WRes
  /-- `J::read_field`. -/
  readField : Bytes → Tz → V → Res V
  /-- `empty()`. -/
  empty : F → Bool
  /-- `empty(bool)`. -/
  setEmpty : F → Bool → F
  /-- Assignment of a `T`. -/
  assign : F → V → F
  /-- Assignment of a string. -/
  assignStr : F → Bytes → F
  /-- Conversion to `T`. -/
  get : F → V
  /-- Conversion to a string. -/
  str : F → Bytes

/-- The number that hexadecimal digits stand for. -/
def hexValue (s : Bytes) : Option Nat := s.foldlM (fun v c => (hexVal c).map fun d => v * 16 + d) 0

/-- The members of a token. -/
def tokenMember {D : Type} (t : Token) (n : Name) : Option (Val D) :=
  if n = n!"id" then some (.int .i32 (tidNumber t.id))
  else if n = n!"value" then some (.str t.value)
  else if n = n!"line" then some (.int .i32 t.line)
  else if n = n!"column" then some (.int .i32 t.col)
  else none

/-- More than enough for any input: the fuel of the functions that skip values. -/
def enough (tz : Tz) : Nat := 2 * tz.inp.rest.length + 8

/-- protogen.hh:541-555. -/
def skipArray (tz : Tz) : RC × Tz :=
  match tz.expect .arrs with
  | (true, tz') => ignoreArrLoop (enough tz) tz'
  | (false, tz') => tz'.error .ignoreArray

/-- protogen.hh:557-575. -/
def skipObject (tz : Tz) : RC × Tz :=
  match tz.expect .objs with
  | (true, tz') => ignoreObjLoop (enough tz) tz'
  | (false, tz') => tz'.error .ignoreObject

/-- protogen.hh:577-602. -/
def skipValue (tz : Tz) : RC × Tz := ignoreValue (enough tz) tz

variable {V F : Type}

/-- The result of a function that returns a `parse_error`. -/
def returned (rc : RC) (mods : List (Option (Val (Dom V F)))) (w : World) :
    Option (Val (Dom V F) × List (Option (Val (Dom V F))) × World) :=
  (rcNumber rc).map fun k : Nat => (.int .i32 (k : Int), mods, w)

/-- The functions of the class `tokenizer`.  `parse_string` is called at a quotation mark only, `parse_escaped_utf8` only with a
lead that is zero or the first half of a surrogate pair. -/
def tokenizer (σ : Bool) (f : Name) : Callee (Dom V F) World := fun w args =>
  match args with
  | [] =>
    if f = n!"next" then some (.dom (.tok w.tz.next.cur), [], { w with tz := w.tz.next })
    else if f = n!"peek" then some (.dom .current, [], w)
    else if f = n!"parse_identifier" then
      let r := lexIdent w.tz.inp []
      some (.str r.1, [], { w with tz := { w.tz with inp := r.2 } })
    else if f = n!"parse_string" then
      let r := parseString w.tz.inp
      if w.tz.inp.peek = 34 then some (.dom (.tok r.1), [], { w with tz := { w.tz with inp := r.2 } }) else none
    else if f = n!"parse_number" then
      let r := lexNumber w.tz.inp []
      some (.dom (.tok { id := .number, value := r.1, line := w.tz.inp.line, col := w.tz.inp.col }), [],
        { w with tz := { w.tz with inp := r.2 } })
    else if f = n!"ignore_array" then
      returned (skipArray w.tz).1 [] { w with tz := (skipArray w.tz).2 }
    else if f = n!"ignore_object" then
      returned (skipObject w.tz).1 [] { w with tz := (skipObject w.tz).2 }
    else if f = n!"ignore_value" ∨ f = n!"ignore" then
      returned (skipValue w.tz).1 [] { w with tz := (skipValue w.tz).2 }
    else none
  | [.int .i32 k] =>
    if f = n!"expect" then
      (tidOf k).map fun t => (.bool (w.tz.expect t).1, [], { w with tz := (w.tz.expect t).2 })
    else none
  | [.int .i32 k, .str m] =>
    if f = n!"error" then
      (ecodeOf k m).map fun c => (.int .i32 1, [], { w with tz := (w.tz.error c).2 })
    else none
  | [.str value, .int .i32 lead] =>
    if f = n!"parse_escaped_utf8" ∧ (lead = 0 ∨ 0xD800 ≤ lead ∧ lead ≤ 0xDBFF) then
      let r := lexHex 4 0 w.tz.inp
      let w := { w with tz := { w.tz with inp := r.2 } }
      match r.1 with
      | none => some (.bool false, [some (.str value), some (.int .i32 lead)], w)
      | some cp =>
        match putCodeUnit value lead.toNat cp with
        | none => some (.bool false, [some (.str value), some (.int .i32 lead)], w)
        | some q => some (.bool true, [some (.str q.1), some (.int .i32 q.2)], w)
    else none
  | _ => none

/-- The functions of the class `istream`. -/
def input (σ : Bool) (f : Name) : Callee (Dom V F) World := fun w args =>
  match args with
  | [] =>
    if f = n!"eof" then some (.bool w.tz.inp.eof, [], w)
    else if f = n!"peek" then some (.int .i32 (IT.ofByte σ w.tz.inp.peek), [], w)
    else if f = n!"next" then some (.void, [], { w with tz := { w.tz with inp := w.tz.inp.next } })
    else if f = n!"line" then some (.int .i32 w.tz.inp.line, [], w)
    else if f = n!"column" then some (.int .i32 w.tz.inp.col, [], w)
    else none
  | _ => none

/-- The other functions: `token(…)`, `strtol`, `snprintf`, `write_escaped_utf8`, `set_error`, `b64_int`, `number_to_string`, and
the functions of the tokenizer. -/
def functions (σ : Bool) (ops : Ops V F) (p : List Name) : Callee (Dom V F) World := fun w args =>
  match p with
  | [f] =>
    if f = n!"token" then
      match args with
      | [.int .i32 k, .str v, .int .i32 l, .int .i32 c] =>
        (tidOf k).map fun t => (.dom (.tok ⟨t, v, l.toNat, c.toNat⟩), [], w)
      | [.int .i32 k, .str v] => (tidOf k).map fun t => (.dom (.tok ⟨t, v, 0, 0⟩), [], w)
      | _ => none
    else if f = n!"strtol" then
      match args with
      | [.arr l, .void, .int .i32 b] =>
        if b = 16 then (characters l).bind fun s => (hexValue s).map fun v : Nat => (.int .i64 (v : Int), [], w) else none
      | _ => none
    else if f = n!"snprintf" then
      match args with
      | [.arr l, .int .u64 k, .str fmt, .int .u32 cp] =>
        if k = l.length ∧ fmt = b!"\\u%04x" then
          let text := (b!"\\u" ++ hex04 cp.toNat).take (l.length - 1)
          some (.void, [some (.arr (text.map (fun b => .int .char (IT.ofByte σ b)) ++ .int .char 0 :: l.drop (text.length + 1)))], w)
        else none
      | _ => none
    else if f = n!"write_escaped_utf8" then
      match args with
      | [.dom .osPtr, .int .u32 cp] => some (.void, [], { w with out := w.out ++ escU cp.toNat })
      | _ => none
    else if f = n!"set_error" then
      match args with
      | [.dom .error, .int .i32 k, .str m] =>
        (ecodeOf k m).map fun c => (.int .i32 1, [], { w with tz := { w.tz with err := (setError w.tz.err c).2 } })
      | _ => none
    else if f = n!"b64_int" then
      match args with
      | [.int .i32 c] => some (.int .i32 (b64Int (IT.toByte c)), [], w)
      | _ => none
    else if f = n!"number_to_string" then
      match args with
      | [.dom (.val x)] => some (.str (ops.text x), [], w)
      | _ => none
    else tokenizer σ f w args
  | [c, f] =>
    match args with
    | [.dom .ctx, .str name, .dom (.val x)] =>
      if c = n!"J" ∧ f = n!"read_field" then
        let r := ops.readField name w.tz x
        returned r.1 [none, none, some (.dom (.val r.2.2))] { w with tz := r.2.1 }
      else none
    | _ => none
  | _ => none

/-- The functions of the specializations of `json`. -/
def statics (ops : Ops V F) (type f : Name) : Callee (Dom V F) World := fun w args =>
  if type = n!"std :: string , void" then
    match args with
    | [.dom .ctx, .str s] =>
      if f = n!"read" then
        let r := stringRead w.tz s
        returned r.1 [none, some (.str r.2.2)] { w with tz := r.2.1 }
      else none
    | [.dom .ctx, .dom (.fld x)] =>
      if f = n!"write" then
        let r := stringWrite w.ascii (ops.str x) w.tz.err
        returned r.1 [] { w with tz := { w.tz with err := r.2.2 }, out := w.out ++ r.2.1 }
      else none
    | _ => none
  else if type = n!"T" ∨ type = n!"typename T :: value_type" then
    match args with
    | [.dom .ctx, .dom (.val x)] =>
      if f = n!"read" then
        let r := ops.read w.tz x
        returned r.1 [none, some (.dom (.val r.2.2))] { w with tz := r.2.1 }
      else if f = n!"write" then
        let r := ops.write x w.tz.err
        returned r.1 [] { w with tz := { w.tz with err := r.2.2 }, out := w.out ++ r.2.1 }
      else none
    | [.undef none] => if f = n!"clear" then some (.void, [some (.dom (.val ops.zero))], w) else none
    | _ => none
  else none

/-- `<<`. -/
def shown : Val (Dom V F) → Option Bytes
  | .int .char v => some [IT.toByte v]
  | .str s => some s
  | .arr l => characters l
  | _ => none

/-- The library for the tokenizer and for reading and writing. -/
def runtimeLib (σ : Bool) (ops : Ops V F) : Lib (Dom V F) World where
  signed := σ
  constant := constants
  get := fun n w =>
    if n = n!"current_" then some (.dom (.tok w.tz.cur))
    else if n = n!"input_" then some (.dom .input)
    else none
  set := fun n v w =>
    match v with
    | .dom (.tok t) => if n = n!"current_" then some { w with tz := { w.tz with cur := t } } else none
    | _ => none
  member := fun v n w =>
    match v with
    | .dom (.tok t) => tokenMember t n
    | .dom .current => tokenMember w.tz.cur n
    | .dom .ctx =>
      if n = n!"tok" then some (.dom .tokPtr)
      else if n = n!"os" then some (.dom .osPtr)
      else if n = n!"params" then some (.dom .params)
      else none
    | .dom .params =>
      if n = n!"ensure_ascii" then some (.bool w.ascii)
      else if n = n!"error" then some (.dom .error)
      else none
    | _ => none
  update := fun v n x =>
    match v, x with
    | .dom (.tok t), .int .i32 k => if n = n!"id" then (tidOf k).map fun i => .dom (.tok { t with id := i }) else none
    | .dom (.tok t), .str s => if n = n!"value" then some (.dom (.tok { t with value := s })) else none
    | _, _ => none
  function := functions σ ops
  inst := fun f t w args =>
    match args with
    | [.str s] => if f = n!"string_to_number" ∧ t = n!"T" then some (.dom (.val (ops.parse s)), [], w) else none
    | [.int .u32 v, .int .u64 c] =>
      if f = n!"rol" ∧ t = n!"uint8_t" then some (.int .u8 (rol8 v.toNat c.toNat), [], w) else none
    | _ => none
  statik := statics ops
  method := fun f w args =>
    match args with
    | .dom .input :: rest => input σ f w rest
    | .dom .tokPtr :: rest => tokenizer σ f w rest
    | [.dom (.fld x)] => if f = n!"empty" then some (.bool (ops.empty x), [], w) else none
    | [.dom (.fld x), .bool b] =>
      if f = n!"empty" then some (.void, [some (.dom (.fld (ops.setEmpty x b)))], w) else none
    | _ => none
  unary := fun o v _ =>
    match v with
    | .dom .osPtr => if o = n!"*" then some (.dom .os) else none
    | _ => none
  binary := fun o a b w =>
    match a with
    | .dom .os => if o = n!"<<" then (shown b).map fun s => (.dom .os, { w with out := w.out ++ s }) else none
    | _ => none
  assign := fun old v =>
    match old, v with
    | .dom (.tok _), .dom (.tok t) => some (.dom (.tok t))
    | .dom (.val _), .dom (.val x) => some (.dom (.val x))
    | .dom (.fld f), .dom (.val x) => some (.dom (.fld (ops.assign f x)))
    | .dom (.fld f), .str s => some (.dom (.fld (ops.assignStr f s)))
    | _, _ => none
  init := fun t v w =>
    match v with
    | none =>
      if t = n!"T" then some (.undef none)
      else if t = n!"typename T :: value_type" then some (.dom (.val ops.new))
      else none
    | some v =>
      if t = n!"auto" then
        match v with
        | .dom .current => some (.dom (.tok w.tz.cur))
        | v => some v
      else if t = n!"auto &" ∨ t = n!"T" then some v
      else none
  cast := fun t v =>
    match v with
    | .dom (.fld f) => if t = n!"T" then some (.dom (.val (ops.get f))) else none
    | v => if t = n!"T" then toInt σ .u8 v else none
  size := fun t => if t = n!"T" then some 1 else none

end PG.Cxx
