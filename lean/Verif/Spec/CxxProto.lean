import Verif.Spec.CxxThrow
import Verif.Model.Debug
import Verif.Model.Main
/-
The libraries for the functions of proto3.cc.  Functions that the function at hand calls are those of the model (Model/Proto.lean).
-/
set_option autoImplicit false
namespace PG.Cxx.Schema
open PG.Proto

/-- The outcome of a function of the model: exceptions have a text. -/
def ranOf {α : Type} : Out α → Ran α
  | .ok a => .ok a
  | .exc e => .thrown (.exception (Gen.excText e) e.line e.col)
  | .runtime => .thrown (.runtime b!"unable to unget")
  | .fuel => .fuel

/-- A library of values without functions. -/
def plain {D S : Type} (σ : Bool) : Lib D S where
  signed := σ
  constant := fun _ => none
  get := fun _ _ => none
  set := fun _ _ _ => none
  member := fun _ _ _ => none
  update := fun _ _ _ => none
  function := fun _ _ _ => none
  inst := fun _ _ _ _ => none
  statik := fun _ _ _ _ => none
  method := fun _ _ _ => none
  unary := fun _ _ _ => none
  binary := fun _ _ _ _ => none
  assign := fun _ _ => none
  init := fun _ _ _ => none
  cast := fun _ _ => none
  size := fun _ => none

/-! ### `InputStream` (proto3.cc:180-258) -/

/-- Iterators (`std::istream_iterator<char>`): the characters from there on, the end; the object; exceptions. -/
inductive InVal
  | pos (rest : Bytes)
  | theEnd
  | self (s : In)
  | exc (e : Thrown)

/-- proto3.cc:183-185, the members. -/
def In.field (s : In) (n : Name) : Option (Val InVal) :=
  if n = n!"cur_" then some (.dom (.pos s.rest))
  else if n = n!"end_" then some (.dom .theEnd)
  else if n = n!"last_" then some (.int .i32 s.last)
  else if n = n!"line_" then some (.int .i32 s.line)
  else if n = n!"column_" then some (.int .i32 s.col)
  else if n = n!"ungot_" then some (.bool s.ungot)
  else none

/-- After an assignment to a member. -/
def In.setField (s : In) (n : Name) (v : Val InVal) : Option In :=
  match v with
  | .dom (.pos r) => if n = n!"cur_" then some { s with rest := r } else none
  | .dom .theEnd => if n = n!"end_" then some s else none
  | .int .i32 k =>
    if n = n!"last_" then some { s with last := k }
    else if n = n!"line_" then some { s with line := k.toNat }
    else if n = n!"column_" then some { s with col := k.toNat }
    else none
  | .bool b => if n = n!"ungot_" then some { s with ungot := b } else none
  | _ => none

/-- The state is the object. -/
def inputBase (σ : Bool) : Lib InVal In :=
  { plain σ with
    constant := fun p =>
      if p = [n!"true"] then some (.bool true) else if p = [n!"false"] then some (.bool false) else none
    get := fun n s => if n = n!"this" then some (.dom (.self s)) else In.field s n
    set := fun n v s =>
      match v with
      | .dom (.self t) => if n = n!"this" then some t else none
      | v => In.setField s n v
    member := fun v n _ =>
      match v with
      | .dom (.self s) => In.field s n
      | _ => none
    update := fun v n x =>
      match v with
      | .dom (.self s) => (In.setField s n x).map fun s => .dom (.self s)
      | _ => none
    unary := fun o v _ =>
      match v with
      | .dom (.pos (c :: r)) =>
        if o = n!"*" then some (.int .char (IT.ofByte σ c)) else if o = n!"++" then some (.dom (.pos r)) else none
      | _ => none
    binary := fun o a b s =>
      match a, b with
      | .dom (.pos r), .dom .theEnd => if o = n!"==" then some (.bool r.isEmpty, s) else none
      | _, _ => none
    assign := fun _ v =>
      match v with
      | .dom d => some (.dom d)
      | _ => none }

/-- The functions called by those of `InputStream`. -/
def inputLib (σ : Bool) : ThrowLib InVal In where
  base := inputBase σ
  function := fun p s args =>
    match args with
    | [] =>
      if p = [n!"get"] then .ok (.int .i32 s.get.1, [], s.get.2)
      else if p = [n!"unget"] then (ranOf s.unget).bind fun s => .ok (.void, [], s)
      else .undef
    | [.str t] => if p = [n!"std", n!"runtime_error"] then .ok (.dom (.exc (.runtime t)), [], s) else .undef
    | [.dom (.exc e)] => if p = [n!"throw"] then .thrown e else .undef
    | _ => .undef
  method := fun _ _ _ => .undef
  caught := fun _ _ _ => none

/-! ### `Token` and `Tokenizer` (proto3.cc:261-483) -/

/-- proto3.cc:261-265 `Token`. -/
structure Token where
  code : Int
  value : Bytes
  line : Int
  col : Int
deriving DecidableEq

/-- The token that one of the model stands for. -/
def Token.of (t : Tok) : Token := ⟨t.code.num, t.value, t.line, t.col⟩

/-- The input, the object, tokens, entries of `KEYWORDS`, `nullptr`, exceptions. -/
inductive LexVal
  | input
  | self
  | tok (t : Token)
  | keyword (code : Int) (text : Option Bytes)
  | null
  | exc (e : Thrown)

/-- The members of a tokenizer: `is`, `current`, `ungot` (proto3.cc:285-286, 376). -/
structure Lexer where
  inp : In
  cur : Token
  ungot : Bool
deriving DecidableEq

/-- The state of a tokenizer of the model. -/
def Lexer.of (tk : Tk In) : Lexer := ⟨tk.src, Token.of tk.cur, tk.ungot⟩

/-- proto3.cc:142-174 `KEYWORDS`. -/
def keywordTable : List (Int × Option Bytes) := keywords.map (fun k => ((k.2.num : Int), some k.1)) ++ [(0, none)]

/-- A member of a token. -/
def Token.field (t : Token) (n : Name) : Option (Val LexVal) :=
  if n = n!"code" then some (.int .i32 t.code)
  else if n = n!"value" then some (.str t.value)
  else if n = n!"line" then some (.int .i32 t.line)
  else if n = n!"column" then some (.int .i32 t.col)
  else none

/-- After an assignment to a member of a token. -/
def Token.setField (t : Token) (n : Name) (v : Val LexVal) : Option Token :=
  match v with
  | .str x => if n = n!"value" then some { t with value := x } else none
  | .int .i32 k =>
    if n = n!"code" then some { t with code := k }
    else if n = n!"line" then some { t with line := k }
    else if n = n!"column" then some { t with col := k }
    else none
  | _ => none

/-- Values and members for the functions of `Tokenizer`. -/
def lexBase (σ : Bool) : Lib LexVal Lexer :=
  { plain σ with
    constant := fun p =>
      if p = [n!"true"] then some (.bool true) else if p = [n!"false"] then some (.bool false)
      else if p = [n!"nullptr"] then some (.dom .null)
      else if p = [n!"KEYWORDS"] then some (.arr (keywordTable.map fun k => .dom (.keyword k.1 k.2)))
      else none
    get := fun n s =>
      if n = n!"is" then some (.dom .input)
      else if n = n!"current" then some (.dom (.tok s.cur))
      else if n = n!"ungot" then some (.bool s.ungot)
      else if n = n!"this" then some (.dom .self)
      else none
    set := fun n v s =>
      match v with
      | .dom (.tok t) => if n = n!"current" then some { s with cur := t } else none
      | .bool b => if n = n!"ungot" then some { s with ungot := b } else none
      | _ => none
    member := fun v n _ =>
      match v with
      | .dom (.tok t) => t.field n
      | .dom (.keyword c t) =>
        if n = n!"code" then some (.int .i32 c)
        else if n = n!"keyword" then
          match t with
          | some t => some (.ptr t)
          | none => some (.dom .null)
        else none
      | _ => none
    update := fun v n x =>
      match v with
      | .dom (.tok t) => (t.setField n x).map fun t => .dom (.tok t)
      | _ => none
    binary := fun o a b s =>
      if o = n!"!=" then
        match a, b with
        | .ptr _, .dom .null => some (.bool true, s)
        | .dom .null, .dom .null => some (.bool false, s)
        | _, _ => none
      else none
    assign := fun _ v =>
      match v with
      | .dom d => some (.dom d)
      | _ => none }

/-- What `exception(…)` makes (include/protogen/exception.hh:29-33, source/exception.cc:22-30). -/
def exceptionOf {D : Type} : List (Val D) → Option Thrown
  | [.str t] => some (.exception t 0 0)
  | [.str t, .int .i32 l, .int .i32 c] => some (.exception t l c)
  | _ => none

/-- proto3.cc:267-270, `Token(…)` with the default arguments. -/
def tokenOf {D : Type} : List (Val D) → Option Token
  | [] => some ⟨0, [], 1, 1⟩
  | [.int .i32 c, .str v] => some ⟨c, v, 1, 1⟩
  | [.int .i32 c, .str v, .int .i32 l, .int .i32 k] => some ⟨c, v, l, k⟩
  | _ => none

/-- The functions called by those of `Tokenizer`; `N` bounds the iterations of their loops.  Nobody uses what `comment` returns. -/
def lexLib (σ : Bool) (N : Nat) : ThrowLib LexVal Lexer where
  base := lexBase σ
  function := fun p s args =>
    if p = [n!"Token"] then Ran.of ((tokenOf args).map fun t => (.dom (.tok t), [], s))
    else if p = [n!"exception"] then Ran.of ((exceptionOf args).map fun e => (.dom (.exc e), [], s))
    else
      match args with
      | [.dom (.exc e)] => if p = [n!"throw"] then .thrown e else .undef
      | [] =>
        if p = [n!"comment"] then (ranOf (comment N s.inp)).bind fun i => .ok (.undef none, [], { s with inp := i }) else .undef
      | [.int .i32 (.ofNat l), .int .i32 (.ofNat c)] =>
        if p = [n!"qname"] then
          (ranOf (qname N l c s.inp)).bind fun r => .ok (.dom (.tok (Token.of r.1)), [], { s with inp := r.2 })
        else if p = [n!"literalString"] then
          (ranOf (stringLoop l c N [] s.inp)).bind fun r =>
            .ok (.dom (.tok (Token.of r.1)), [], { s with inp := r.2 })
        else .undef
      | [.int .i32 f, .int .i32 (.ofNat l), .int .i32 (.ofNat c)] =>
        if p = [n!"integer"] then
          (ranOf (integer N f l c s.inp)).bind fun r => .ok (.dom (.tok (Token.of r.1)), [], { s with inp := r.2 })
        else .undef
      | _ => .undef
  method := fun m s args =>
    match args with
    | [.dom .self] =>
      if m = n!"name" then (ranOf (nameLoop N true [] s.inp)).bind fun r => .ok (.str r.1, [], { s with inp := r.2 }) else .undef
    | [.dom .input] =>
      if m = n!"get" then .ok (.int .i32 s.inp.get.1, [], { s with inp := s.inp.get.2 })
      else if m = n!"unget" then (ranOf s.inp.unget).bind fun i => .ok (.void, [], { s with inp := i })
      else if m = n!"skipws" then (ranOf (In.skipws N s.inp)).bind fun i => .ok (.void, [], { s with inp := i })
      else if m = n!"line" then .ok (.int .i32 s.inp.line, [], s)
      else if m = n!"column" then .ok (.int .i32 s.inp.col, [], s)
      else .undef
    | [.dom .input, .int t v] =>
      if m = n!"expect" then
        (ranOf (s.inp.expect (IT.convert σ .i32 t v))).bind fun r => .ok (.bool r.1, [], { s with inp := r.2 })
      else .undef
    | _ => .undef
  caught := fun _ _ _ => none

/-! ### The parser (proto3.cc:486-771) -/

/-- proto3.cc:486-498 `Context`: the tokenizer, the tree with `package`. -/
structure Ctx (σ : Type) where
  tk : Tk σ
  tree : Tree

/-- Values of the parser: contexts, tokenizers, schemas, vectors of messages, tokens, options, maps of options, fields, types of
fields, vectors of fields, messages; pointers to a message of the schema, in variables and as they are stored; `nullptr`;
exceptions. -/
inductive PVal (σ : Type)
  | ctx (c : Ctx σ)
  | tokens (tk : Tk σ)
  | tree (t : Tree)
  | messages (l : List Message)
  | tok (t : Tok)
  | option (o : OptEntry)
  | optType (t : OptType)
  | options (m : OptMap)
  | field (f : Field)
  | type (t : TypeInfo)
  | ftype (t : FType)
  | fields (l : List Field)
  | msg (m : Message)
  | shared (i : Nat) (m : Message)
  | ref (r : Option Nat)
  | null
  | exc (e : Thrown)

/-- proto3.hh:51-58 and 78-84, a new `Field`. -/
def newField : Field := ⟨⟨.scalar .double, [], none, false, false⟩, [], 0, []⟩

/-- proto3.hh:86-95, a new `Message`. -/
def newMessage : Message := ⟨[], [], [], []⟩

/-- proto3.hh:68-74, a new `OptionEntry`. -/
def newOption : OptEntry := ⟨[], .identifier, [], 0⟩

/-- The scalar types. -/
def scalars : List Scalar :=
  [.double, .float, .int32, .int64, .uint32, .uint64, .sint32, .sint64, .fixed32, .fixed64, .sfixed32, .sfixed64, .bool, .string, .bytes]

/-- proto3.hh:29-47 `FieldType`: the type with a number. -/
def ftypeOf (v : Int) : Option FType :=
  if v = 21 then some .message else (scalars.find? fun t => (t.num : Int) = v).map .scalar

/-- The pointer that `findMessage` returns. -/
def found {σ : Type} (msgs : List Message) (q : Bytes) : PVal σ :=
  match findMessage msgs q with
  | none => .null
  | some i =>
    match msgs[i]? with
    | some m => .shared i m
    | none => .null

/-- Members. -/
def PVal.field? {σ : Type} (v : PVal σ) (n : Name) : Option (Val (PVal σ)) :=
  match v with
  | .ctx c =>
    if n = n!"tokens" then some (.dom (.tokens c.tk))
    else if n = n!"tree" then some (.dom (.tree c.tree))
    else if n = n!"package" then some (.str c.tree.package)
    else none
  | .tokens tk => if n = n!"current" then some (.dom (.tok tk.cur)) else none
  | .tree t =>
    if n = n!"messages" then some (.dom (.messages t.messages))
    else if n = n!"options" then some (.dom (.options t.options))
    else none
  | .tok t =>
    if n = n!"code" then some (.int .i32 t.code.num)
    else if n = n!"value" then some (.str t.value)
    else if n = n!"line" then some (.int .i32 t.line)
    else if n = n!"column" then some (.int .i32 t.col)
    else none
  | .option o =>
    if n = n!"name" then some (.str o.name)
    else if n = n!"type" then some (.dom (.optType o.type))
    else if n = n!"value" then some (.str o.value)
    else if n = n!"line" then some (.int .i32 o.line)
    else none
  | .field f =>
    if n = n!"type" then some (.dom (.type f.type))
    else if n = n!"name" then some (.str f.name)
    else if n = n!"index" then some (.int .i32 f.index)
    else if n = n!"options" then some (.dom (.options f.options))
    else none
  | .type t =>
    if n = n!"id" then some (.dom (.ftype t.id))
    else if n = n!"qname" then some (.str t.qname)
    else if n = n!"ref" then some (.dom (.ref t.ref))
    else if n = n!"repeated" then some (.bool t.repeated)
    else if n = n!"optional" then some (.bool t.optional)
    else none
  | .msg m =>
    if n = n!"fields" then some (.dom (.fields m.fields))
    else if n = n!"name" then some (.str m.name)
    else if n = n!"package" then some (.str m.package)
    else if n = n!"options" then some (.dom (.options m.options))
    else none
  | _ => none

/-- After an assignment to a member, or to what a pointer points to. -/
def PVal.setField {σ : Type} (v : PVal σ) (n : Name) (x : Val (PVal σ)) : Option (PVal σ) :=
  match v, x with
  | .ctx c, .dom (.tokens tk) => if n = n!"tokens" then some (.ctx { c with tk }) else none
  | .ctx c, .dom (.tree t) => if n = n!"tree" then some (.ctx { c with tree := { t with package := c.tree.package } }) else none
  | .ctx c, .str p => if n = n!"package" then some (.ctx { c with tree := { c.tree with package := p } }) else none
  | .tree t, .dom (.messages l) => if n = n!"messages" then some (.tree { t with messages := l }) else none
  | .tree t, .dom (.options m) => if n = n!"options" then some (.tree { t with options := m }) else none
  | .option o, .str x =>
    if n = n!"name" then some (.option { o with name := x })
    else if n = n!"value" then some (.option { o with value := x })
    else none
  | .option o, .dom (.optType t) => if n = n!"type" then some (.option { o with type := t }) else none
  | .option o, .int .i32 k => if n = n!"line" then some (.option { o with line := k.toNat }) else none
  | .field f, .dom (.type t) => if n = n!"type" then some (.field { f with type := t }) else none
  | .field f, .str x => if n = n!"name" then some (.field { f with name := x }) else none
  | .field f, .int .i32 k => if n = n!"index" then some (.field { f with index := k }) else none
  | .field f, .dom (.options m) => if n = n!"options" then some (.field { f with options := m }) else none
  | .type t, .dom (.ftype k) => if n = n!"id" then some (.type { t with id := k }) else none
  | .type t, .str x => if n = n!"qname" then some (.type { t with qname := x }) else none
  | .type t, .dom (.ref r) => if n = n!"ref" then some (.type { t with ref := r }) else none
  | .type t, .bool b =>
    if n = n!"repeated" then some (.type { t with repeated := b })
    else if n = n!"optional" then some (.type { t with optional := b })
    else none
  | .msg m, .dom (.fields l) => if n = n!"fields" then some (.msg { m with fields := l }) else none
  | .msg m, .str x =>
    if n = n!"name" then some (.msg { m with name := x })
    else if n = n!"package" then some (.msg { m with package := x })
    else none
  | .msg m, .dom (.options o) => if n = n!"options" then some (.msg { m with options := o }) else none
  | .msg _, .dom (.msg m) => if n = n!"*" then some (.msg m) else none
  | _, _ => none

/-- Values and members for the functions of the parser; there is no state besides the arguments. -/
def parserBase (s : Bool) (σ : Type) : Lib (PVal σ) Unit :=
  { plain s with
    constant := fun p =>
      if p = [n!"true"] then some (.bool true) else if p = [n!"false"] then some (.bool false)
      else if p = [n!"nullptr"] then some (.dom .null)
      else if p = [n!"OptionType", n!"BOOLEAN"] then some (.dom (.optType .boolean))
      else if p = [n!"OptionType", n!"IDENTIFIER"] then some (.dom (.optType .identifier))
      else if p = [n!"OptionType", n!"INTEGER"] then some (.dom (.optType .integer))
      else if p = [n!"OptionType", n!"STRING"] then some (.dom (.optType .string))
      else none
    member := fun v n _ =>
      match v with
      | .dom d => d.field? n
      | .iter (.dom d :: _) => d.field? n
      | _ => none
    update := fun v n x =>
      match v with
      | .dom d => (d.setField n x).map .dom
      | _ => none
    unary := fun o v _ =>
      match v with
      | .dom (.msg m) => if o = n!"*" then some (.dom (.msg m)) else none
      | _ => none
    assign := fun old v =>
      match old, v with
      | .dom (.ref _), .dom .null => some (.dom (.ref none))
      | .dom (.ref _), .dom (.shared i _) => some (.dom (.ref (some i)))
      | .dom (.optType _), .dom (.optType t) => some (.dom (.optType t))
      | .dom (.ftype _), .dom (.ftype t) => some (.dom (.ftype t))
      | _, _ => none
    init := fun t v _ =>
      match v with
      | none =>
        if t = n!"Field" then some (.dom (.field newField))
        else if t = n!"OptionEntry" then some (.dom (.option newOption))
        else none
      | some (.dom (.option o)) => if t = n!"OptionEntry" then some (.dom (.option o)) else none
      | some (.dom (.tok x)) => if t = n!"Token" then some (.dom (.tok x)) else none
      | some (.dom (.msg m)) => if t = n!"auto" then some (.dom (.msg m)) else none
      | _ => none
    cast := fun t v =>
      match v with
      | .int _ k => if t = n!"FieldType" then (ftypeOf k).map fun x => .dom (.ftype x) else none
      | _ => none }

/-- The functions called by those of the parser: `nx` gives the tokens, `N` bounds the iterations of loops. -/
def parserLib (s : Bool) {σ : Type} (nx : σ → Out (Tok × σ)) (N : Nat) : ThrowLib (PVal σ) Unit where
  base := parserBase s σ
  function := fun p _ args =>
    if p = [n!"exception"] then Ran.of ((exceptionOf args).map fun e => (.dom (.exc e), [], ()))
    else
      match args with
      | [] => if p = [n!"std::make_shared", n!"Message"] then .ok (.dom (.msg newMessage), [], ()) else .undef
      | [.dom (.exc e)] => if p = [n!"throw"] then .thrown e else .undef
      | [.ptr x, .dom .null, .int .i32 10] => if p = [n!"strtol"] then .ok (.int .i64 (strtol x), [], ()) else .undef
      | [.dom (.ctx c)] =>
        if p = [n!"parseOption"] then
          (ranOf (parseOption nx c.tk)).bind fun r => .ok (.dom (.option r.1), [some (.dom (.ctx { c with tk := r.2 }))], ())
        else if p = [n!"parseMessage"] then
          (ranOf (parseMessage nx N c.tree c.tk)).bind fun r => .ok (.void, [some (.dom (.ctx ⟨r.2, r.1⟩))], ())
        else if p = [n!"parsePackage"] then
          (ranOf (parsePackage nx c.tree c.tk)).bind fun r => .ok (.void, [some (.dom (.ctx ⟨r.2, r.1⟩))], ())
        else if p = [n!"parseSyntax"] then
          (ranOf (parseSyntax nx c.tk)).bind fun tk => .ok (.void, [some (.dom (.ctx { c with tk := tk }))], ())
        else .undef
      | [.dom (.ctx c), .dom (.options m)] =>
        if p = [n!"parseFieldOptions"] then
          (ranOf (parseFieldOptions nx N m c.tk)).bind fun r =>
            .ok (.void, [some (.dom (.ctx { c with tk := r.2 })), some (.dom (.options r.1))], ())
        else if p = [n!"parseStandardOption"] then
          (ranOf (parseStandardOption nx m c.tk)).bind fun r =>
            .ok (.void, [some (.dom (.ctx { c with tk := r.2 })), some (.dom (.options r.1))], ())
        else .undef
      | [.dom (.ctx c), .str q] =>
        if p = [n!"findMessage"] then .ok (.dom (found c.tree.messages q), [some (.dom (.ctx c)), none], ()) else .undef
      | [.dom (.ctx c), .dom (.msg m)] =>
        if p = [n!"parseField"] then
          (ranOf (parseField nx N c.tree.messages m c.tk)).bind fun r =>
            .ok (.void, [some (.dom (.ctx { c with tk := r.2 })), some (.dom (.msg r.1))], ())
        else .undef
      | _ => .undef
  method := fun m _ args =>
    match args with
    | [.dom (.tokens tk)] =>
      if m = n!"next" then (ranOf (tk.next nx)).bind fun tk => .ok (.dom (.tok tk.cur), [some (.dom (.tokens tk))], ())
      else if m = n!"unget" then (ranOf tk.unget).bind fun tk => .ok (.void, [some (.dom (.tokens tk))], ())
      else .undef
    | [.dom (.messages l)] =>
      if m = n!"begin" then .ok (.iter (l.mapIdx fun i m => .dom (.shared i m)), [], ())
      else if m = n!"end" then .ok (.iter [], [], ())
      else .undef
    | [.dom (.messages l), .dom (.msg x)] =>
      if m = n!"push_back" then .ok (.void, [some (.dom (.messages (l ++ [x])))], ()) else .undef
    | [.dom (.fields l)] =>
      if m = n!"begin" then .ok (.iter (l.map fun f => .dom (.field f)), [], ())
      else if m = n!"end" then .ok (.iter [], [], ())
      else .undef
    | [.dom (.fields l), .dom (.field x)] =>
      if m = n!"push_back" then .ok (.void, [some (.dom (.fields (l ++ [x])))], ()) else .undef
    | [.dom (.shared _ x)] => if m = n!"qualifiedName" then .ok (.str x.qualifiedName, [], ()) else .undef
    | [.dom (.options o), .str k, .dom (.option v)] =>
      if m = n!"[]=" then .ok (.void, [some (.dom (.options (o.set k v)))], ()) else .undef
    | _ => .undef
  caught := fun _ _ _ => none

/-- The members of a message, for `Message::qualifiedName`. -/
def messageLib (σ : Bool) : ThrowLib Empty Message where
  base := { plain σ with
    get := fun n m => if n = n!"package" then some (.str m.package) else if n = n!"name" then some (.str m.name) else none }
  function := fun _ _ _ => .undef
  method := fun _ _ _ => .undef
  caught := fun _ _ _ => none

/-- The members of a token, for its constructor. -/
def tokenLib (σ : Bool) : ThrowLib LexVal Token where
  base := { plain σ with
    get := fun n t => if n = n!"this" then some (.dom (.tok t)) else none
    set := fun n v _ =>
      match v with
      | .dom (.tok t) => if n = n!"this" then some t else none
      | _ => none
    member := fun v n _ =>
      match v with
      | .dom (.tok t) => t.field n
      | _ => none
    update := fun v n x =>
      match v with
      | .dom (.tok t) => (t.setField n x).map fun t => .dom (.tok t)
      | _ => none }
  function := fun _ _ _ => .undef
  method := fun _ _ _ => .undef
  caught := fun _ _ _ => none

end PG.Cxx.Schema
