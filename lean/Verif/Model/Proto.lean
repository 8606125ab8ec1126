import Verif.Model.Num
/-
The schema parser: source/proto3.cc, with the data structures of include/protogen/proto3.hh.

Every loop of the code is a recursion over a step counter ("fuel"); running out of it is the outcome `fuel`.  A C++ run
that does not terminate is a run whose model is `fuel` whatever the counter.
-/
set_option autoImplicit false
namespace PG.Proto

/-- The texts of the exceptions thrown by source/proto3.cc (the throw sites are cited where they are raised), with the
names two of them contain. -/
inductive Kind
  | alreadyUngot | invalidSymbol | invalidIdentifier
  | missingOptionName | expectedEqual | invalidOptionValue | optionEnd
  | missingType | missingName | missingIndex | invalidIndex | expectedBracket | expectedSemicolon
  | sameIndex (name other : Bytes)
  | missingBody | invalidMessage | invalidPackage | invalidVersion | invalidSyntax | unexpectedToken
  | unresolved (name : Bytes)
deriving DecidableEq, Repr

/-- include/protogen/exception.hh:27-40 `exception`: message, line and column (0, 0 by default). -/
structure Exc where
  kind : Kind
  line : Nat
  col : Nat
deriving DecidableEq, Repr

/-- The outcome of running a part of proto3.cc: a value, a `protogen::exception`, the `std::runtime_error` of
proto3.cc:226, or still running. -/
inductive Out (α : Type) where
  | ok (a : α)
  | exc (e : Exc)
  | runtime
  | fuel
deriving DecidableEq, Repr

/-- Sequencing. -/
def Out.bind {α β : Type} : Out α → (α → Out β) → Out β
  | .ok a, f => f a
  | .exc e, _ => .exc e
  | .runtime, _ => .runtime
  | .fuel, _ => .fuel

/-- proto3.cc:180-191 `InputStream`: the characters not yet read (`cur_`, `end_`), `last_`, `line_`, `column_`,
`ungot_`.  The counters are unbounded here (`int` in the code). -/
structure In where
  rest : Bytes
  last : Int
  line : Nat
  col : Nat
  ungot : Bool
deriving DecidableEq, Repr

namespace In

/-- proto3.cc:188-191, the constructor. -/
def «open» (text : Bytes) : In := { rest := text, last := -1, line := 1, col := 0, ungot := false }

/-- proto3.cc:205-209: a line feed was the last character read. -/
def newline (s : In) : In := if s.last = 10 then { s with line := s.line + 1, col := 0 } else s

/-- proto3.cc:198-220 `get`. -/
def get (s : In) : Int × In :=
  if s.ungot then (s.last, { s with ungot := false })
  else
    match s.newline with
    | { rest := [], last := _, line := l, col := c, ungot := u } =>
      (-1, { rest := [], last := -2, line := l, col := c, ungot := u })
    | { rest := b :: r, last := _, line := l, col := c, ungot := u } =>
      ((b.toNat : Int), { rest := r, last := b.toNat, line := l, col := c + 1, ungot := u })

/-- proto3.cc:222-229 `unget`. -/
def unget (s : In) : Out In :=
  if s.last ≥ 0 then if s.ungot then .runtime else .ok { s with ungot := true }
  else .ok s

/-- proto3.cc:249-257 `expect`. -/
def expect (s : In) (e : Int) : Out (Bool × In) :=
  if s.get.1 ≠ e then s.get.2.unget.bind fun s => .ok (false, s)
  else .ok (true, s.get.2)

/-- The condition at proto3.cc:241. -/
def isWs (ch : Int) : Bool := ch == 32 || ch == 9 || ch == 10 || ch == 13

/-- proto3.cc:237-247 `skipws`. -/
def skipws : Nat → In → Out In
  | 0, _ => .fuel
  | n + 1, s => if isWs s.get.1 then skipws n s.get.2 else s.get.2.unget

end In

/-- proto3.hh:29-47 `FieldType`, without TYPE_MESSAGE: the values TOKEN_T_DOUBLE … TOKEN_T_BYTES of proto3.cc:35-49. -/
inductive Scalar
  | double | float | int32 | int64 | uint32 | uint64 | sint32 | sint64 | fixed32 | fixed64 | sfixed32 | sfixed64
  | bool | string | bytes
deriving DecidableEq, Repr

/-- proto3.cc:30-70, the token codes. -/
inductive Code
  | eof | message | name | equal | repeated | ty (t : Scalar) | syntax | qname | string | integer | enum
  | scolon | package | lt | gt | map | comma | «begin» | «end» | option | «true» | «false» | lbracket | rbracket
  | optional
deriving DecidableEq, Repr

/-- proto3.cc:142-174 `KEYWORDS`. -/
def keywords : List (Bytes × Code) :=
  [ (b!"message", .message), (b!"repeated", .repeated), (b!"string", .ty .string), (b!"enum", .enum),
    (b!"double", .ty .double), (b!"float", .ty .float), (b!"bool", .ty .bool), (b!"int32", .ty .int32),
    (b!"int64", .ty .int64), (b!"uint32", .ty .uint32), (b!"uint64", .ty .uint64), (b!"sint32", .ty .sint32),
    (b!"sint64", .ty .sint64), (b!"fixed32", .ty .fixed32), (b!"fixed64", .ty .fixed64),
    (b!"sfixed32", .ty .sfixed32), (b!"sfixed64", .ty .sfixed64), (b!"bytes", .ty .bytes),
    (b!"package", .package), (b!"syntax", .syntax), (b!"map", .map), (b!"option", .option), (b!"true", .true),
    (b!"false", .false), (b!"optional", .optional) ]

/-- proto3.cc:261-279 `Token`. -/
structure Tok where
  code : Code
  value : Bytes
  line : Nat
  col : Nat
deriving DecidableEq, Repr

/-- proto3.cc:267-270, the default `Token()`. -/
def Tok.default : Tok := { code := .eof, value := [], line := 1, col := 1 }

/-- proto3.cc:22 `IS_LETTER`. -/
def isLetter (x : Int) : Bool := (x ≥ 65 && x ≤ 90) || (x ≥ 97 && x ≤ 122) || x == 95

/-- proto3.cc:23 `IS_DIGIT`. -/
def isDig (x : Int) : Bool := x ≥ 48 && x ≤ 57

/-- `(char) cur` of a value returned by `get`. -/
def chr (x : Int) : Byte := UInt8.ofNat (x % 256).toNat

/-- proto3.cc:385, the loop over a line comment. -/
def lineComment : Nat → In → Out In
  | 0, _ => .fuel
  | n + 1, s => if s.get.1 = 10 then .ok s.get.2 else lineComment n s.get.2

/-- proto3.cc:391-397, the loop over a block comment. -/
def blockComment : Nat → In → Out In
  | 0, _ => .fuel
  | n + 1, s =>
    if s.get.1 = 42 then
      (s.get.2.expect 47).bind fun (found, s) => if found then .ok s else blockComment n s
    else if s.get.1 < 0 then .ok s.get.2
    else blockComment n s.get.2

/-- proto3.cc:378-401 `comment` (its value is discarded at line 330). -/
def comment (N : Nat) (s : In) : Out In :=
  if s.get.1 = 47 then lineComment N s.get.2
  else if s.get.1 = 42 then blockComment N s.get.2
  else .ok s.get.2

/-- proto3.cc:435-448 `name`; `first` and `temp` are the local variables. -/
def nameLoop : Nat → Bool → Bytes → In → Out (Bytes × In)
  | 0, _, _, _ => .fuel
  | n + 1, first, temp, s =>
    if s.get.1 ≥ 0 then
      if (first && !isLetter s.get.1) || !(isLetter s.get.1 || isDig s.get.1) then
        s.get.2.unget.bind fun s => .ok (temp, s)
      else nameLoop n false (temp ++ [chr s.get.1]) s.get.2
    else s.get.2.unget.bind fun s => .ok (temp, s)

/-- proto3.cc:408-417, the loop over the parts of a dotted name; `type` and `name` are the local variables. -/
def qnameLoop (N : Nat) (line col : Nat) : Nat → Code → Bytes → In → Out (Code × Bytes × In)
  | 0, _, _, _ => .fuel
  | n + 1, type, name, s =>
    if s.get.1 = 46 then
      (nameLoop N true [] s.get.2).bind fun (cur, s) =>
        if cur = [] then .exc ⟨.invalidIdentifier, line, col⟩
        else qnameLoop N line col n .qname (name ++ 46 :: cur) s
    else s.get.2.unget.bind fun s => .ok (type, name, s)

/-- proto3.cc:420-430, the search for a keyword. -/
def findKeyword (name : Bytes) : List (Bytes × Code) → Code
  | [] => .name
  | (k, c) :: rest => if name = k then c else findKeyword name rest

/-- proto3.cc:403-433 `qname`. -/
def qname (N : Nat) (line col : Nat) (s : In) : Out (Tok × In) :=
  (nameLoop N true [] s).bind fun (name, s) =>
    (qnameLoop N line col N .name name s).bind fun (type, name, s) =>
      .ok ({ code := if type = .name then findKeyword name keywords else type, value := name, line, col }, s)

/-- proto3.cc:455-464, the loop of `integer`. -/
def integerLoop : Nat → Bytes → In → Out (Bytes × In)
  | 0, _, _ => .fuel
  | n + 1, value, s =>
    if isDig s.get.1 then integerLoop n (value ++ [chr s.get.1]) s.get.2
    else s.get.2.unget.bind fun s => .ok (value, s)

/-- proto3.cc:450-467 `integer`. -/
def integer (N : Nat) (first : Int) (line col : Nat) (s : In) : Out (Tok × In) :=
  (integerLoop N (if first ≠ 0 then [chr first] else []) s).bind fun (value, s) =>
    .ok ({ code := .integer, value, line, col }, s)

/-- proto3.cc:469-482 `literalString`.  At the end of the input `get` keeps returning -1 and the loop goes on (the C++
program would append to `tt.value` until the memory is exhausted). -/
def stringLoop (line col : Nat) : Nat → Bytes → In → Out (Tok × In)
  | 0, _, _ => .fuel
  | n + 1, value, s =>
    if s.get.1 = 10 ∨ s.get.1 = 0 then .ok (Tok.default, s.get.2)
    else if s.get.1 = 34 then .ok ({ code := .string, value, line, col }, s.get.2)
    else stringLoop line col n (value ++ [chr s.get.1]) s.get.2

/-- proto3.cc:340-365, the tokens of one character. -/
def symbol (x : Int) : Option Code :=
  if x = 61 then some .equal
  else if x = 123 then some .begin
  else if x = 125 then some .end
  else if x = 59 then some .scolon
  else if x = 44 then some .comma
  else if x = 60 then some .lt
  else if x = 62 then some .gt
  else if x = 91 then some .lbracket
  else if x = 93 then some .rbracket
  else none

/-- proto3.cc:304-372, the loop of `Tokenizer::next` after the test of `ungot`. -/
def lexLoop (N : Nat) : Nat → In → Out (Tok × In)
  | 0, _ => .fuel
  | n + 1, s =>
    (In.skipws N s).bind fun s =>
      let line := s.line
      let col := s.col
      let cur := s.get.1
      let t := s.get.2
      if cur < 0 then .ok ({ code := .eof, value := [], line, col }, t)
      else if isLetter cur then t.unget.bind fun t => qname N line col t
      else if isDig cur then integer N cur line col t
      else if cur = 47 then (comment N t).bind fun t => lexLoop N n t
      else if cur = 10 ∨ cur = 13 then lexLoop N n t
      else if cur = 34 then stringLoop line col N [] t
      else match symbol cur with
        | some c => .ok ({ code := c, value := [], line, col }, t)
        | none => .exc ⟨.invalidSymbol, line, col⟩

/-- The tokenizer's source of tokens, proto3.cc:299-373 without the test of `ungot`. -/
def lex (N : Nat) (s : In) : Out (Tok × In) := lexLoop N N s

/-! ### The parser

The functions below only use the tokenizer (`next`, `unget`, `current`), so they are written for any source of tokens
`nx : σ → Out (Tok × σ)`; `parse` uses them with `lex`. -/

/-- proto3.cc:282-290 `Tokenizer`: `current`, `ungot` and the source. -/
structure Tk (σ : Type) where
  cur : Tok
  ungot : Bool
  src : σ

/-- proto3.hh:60-66 `OptionType`. -/
inductive OptType
  | identifier | integer | string | boolean
deriving DecidableEq, Repr

/-- proto3.hh:68-74 `OptionEntry`. -/
structure OptEntry where
  name : Bytes
  type : OptType
  value : Bytes
  line : Nat
deriving DecidableEq, Repr

/-- proto3.hh:76 `OptionMap` (`std::unordered_map`): entries with distinct keys; the order is not observed. -/
abbrev OptMap := List (Bytes × OptEntry)

/-- `entries[key] = value` of `std::unordered_map`. -/
def OptMap.set : OptMap → Bytes → OptEntry → OptMap
  | [], k, v => [(k, v)]
  | (k', v') :: rest, k, v => if k' = k then (k, v) :: rest else (k', v') :: OptMap.set rest k v

/-- `find` of `std::unordered_map`. -/
def OptMap.find : OptMap → Bytes → Option OptEntry
  | [], _ => none
  | (k', v') :: rest, k => if k' = k then some v' else OptMap.find rest k

/-- `FieldType` (proto3.hh:29-47). -/
inductive FType
  | scalar (t : Scalar)
  | message
deriving DecidableEq, Repr

/-- proto3.hh:51-58 `TypeInfo`; `ref`, a shared pointer to a message of the schema, is the position of that message in
the list of messages. -/
structure TypeInfo where
  id : FType
  qname : Bytes
  ref : Option Nat
  repeated : Bool
  optional : Bool
deriving DecidableEq, Repr

/-- proto3.hh:78-84 `Field`. -/
structure Field where
  type : TypeInfo
  name : Bytes
  index : Int
  options : OptMap
deriving DecidableEq, Repr

/-- proto3.hh:86-95 `Message`. -/
structure Message where
  fields : List Field
  name : Bytes
  package : Bytes
  options : OptMap
deriving DecidableEq, Repr

/-- proto3.cc:515-519 `Message::qualifiedName`. -/
def Message.qualifiedName (m : Message) : Bytes :=
  if m.package = [] then m.name else m.package ++ 46 :: m.name

/-- proto3.hh:97-104 `Proto3` (without `fileName`), and proto3.cc:486-498 `Context::package`. -/
structure Tree where
  messages : List Message
  options : OptMap
  package : Bytes
deriving DecidableEq, Repr

section
variable {σ : Type} (nx : σ → Out (Tok × σ))

/-- proto3.cc:292-297 `Tokenizer::unget`. -/
def Tk.unget (tk : Tk σ) : Out (Tk σ) :=
  if tk.ungot then .exc ⟨.alreadyUngot, tk.cur.line, tk.cur.col⟩ else .ok { tk with ungot := true }

/-- proto3.cc:299-373 `Tokenizer::next`; the returned token is `current`. -/
def Tk.next (tk : Tk σ) : Out (Tk σ) :=
  if tk.ungot then .ok { tk with ungot := false }
  else (nx tk.src).bind fun (t, s) => .ok { cur := t, ungot := false, src := s }

/-- `throw exception(…, TOKEN_POSITION(ctx.tokens.current))`. -/
def Tk.fail {α : Type} (tk : Tk σ) (k : Kind) : Out α := .exc ⟨k, tk.cur.line, tk.cur.col⟩

/-- proto3.cc:539-557, the type of an option value. -/
def optType : Code → Option OptType
  | .true => some .boolean
  | .false => some .boolean
  | .name => some .identifier
  | .qname => some .identifier
  | .integer => some .integer
  | .string => some .string
  | _ => none

/-- proto3.cc:522-560 `parseOption`. -/
def parseOption (tk : Tk σ) : Out (OptEntry × Tk σ) :=
  let line := tk.cur.line
  (tk.next nx).bind fun tk =>
  if tk.cur.code ≠ .name ∧ tk.cur.code ≠ .qname then tk.fail .missingOptionName else
  let name := tk.cur.value
  (tk.next nx).bind fun tk =>
  if tk.cur.code ≠ .equal then tk.fail .expectedEqual else
  (tk.next nx).bind fun tk =>
  match optType tk.cur.code with
  | none => tk.fail .invalidOptionValue
  | some type => .ok ({ name, type, value := tk.cur.value, line }, tk)

/-- proto3.cc:562-574 `parseFieldOptions`. -/
def parseFieldOptions : Nat → OptMap → Tk σ → Out (OptMap × Tk σ)
  | 0, _, _ => .fuel
  | n + 1, entries, tk =>
    (tk.next nx).bind fun tk =>
    if tk.cur.code = .rbracket then tk.unget.bind fun tk => .ok (entries, tk) else
    tk.unget.bind fun tk =>
    (parseOption nx tk).bind fun (opt, tk) =>
    (tk.next nx).bind fun tk =>
    (if tk.cur.code ≠ .comma then tk.unget else .ok tk).bind fun tk =>
    parseFieldOptions n (entries.set opt.name opt) tk

/-- proto3.cc:577-588 `parseStandardOption`. -/
def parseStandardOption (entries : OptMap) (tk : Tk σ) : Out (OptMap × Tk σ) :=
  (parseOption nx tk).bind fun (opt, tk) =>
  (tk.next nx).bind fun tk =>
  if tk.cur.code ≠ .scolon then tk.fail .optionEnd else .ok (entries.set opt.name opt, tk)

/-- proto3.cc:591-596 `findMessage`: the position of the first message of that qualified name. -/
def findMessage (msgs : List Message) (qname : Bytes) : Option Nat :=
  match msgs with
  | [] => none
  | m :: rest => if m.qualifiedName = qname then some 0 else (findMessage rest qname).map (· + 1)

/-- proto3.cc:603-613, the label: `repeated`, `optional`. -/
def parseLabel (tk : Tk σ) : Out ((Bool × Bool) × Tk σ) :=
  if tk.cur.code = .repeated then (tk.next nx).bind fun tk => .ok ((true, false), tk)
  else if tk.cur.code = .optional then (tk.next nx).bind fun tk => .ok ((false, true), tk)
  else .ok ((false, false), tk)

/-- proto3.cc:616-649, the type. -/
def parseType (msgs : List Message) (package : Bytes) (repeated optional : Bool) (tk : Tk σ) : Out TypeInfo :=
  match tk.cur.code with
  | .ty t => .ok { id := .scalar t, qname := [], ref := none, repeated, optional }
  | c =>
    if c = .name ∨ c = .qname then
      let qname := (if package ≠ [] then package ++ [46] else []) ++ tk.cur.value
      .ok { id := .message, qname, ref := findMessage msgs qname, repeated, optional }
    else tk.fail .missingType

/-- proto3.cc:662, `(int) strtol(…)`. -/
def fieldIndex (text : Bytes) : Int := (CInt.cast .i32 (strtol text)).val

/-- proto3.cc:664, the numbers that are refused. -/
def badIndex (i : Int) : Bool := i ≤ 0 || i ≥ 0x1FFFFFFF || i == 0x4E1F || i == 0x4A38

/-- proto3.cc:653 and 695, the tokens accepted as the name of a field or message. -/
def isNameCode (c : Code) : Bool := c == .name || c == .message || c == .package

/-- proto3.cc:670-676, the options of a field. -/
def parseBrackets (N : Nat) (tk : Tk σ) : Out (OptMap × Tk σ) :=
  if tk.cur.code = .lbracket then
    (parseFieldOptions nx N [] tk).bind fun (opts, tk) =>
    (tk.next nx).bind fun tk =>
    if tk.cur.code ≠ .rbracket then tk.fail .expectedBracket else
    (tk.next nx).bind fun tk => .ok (opts, tk)
  else .ok ([], tk)

/-- proto3.cc:683-685, the name of the first field that has the number. -/
def holder (fields : List Field) (index : Int) : Bytes :=
  match fields.find? fun f => f.index == index with
  | some f => f.name
  | none => []

/-- proto3.cc:599-688 `parseField`. -/
def parseField (N : Nat) (msgs : List Message) (m : Message) (tk : Tk σ) : Out (Message × Tk σ) :=
  (parseLabel nx tk).bind fun ((repeated, optional), tk) =>
  (parseType msgs m.package repeated optional tk).bind fun type =>
  (tk.next nx).bind fun tk =>
  if !isNameCode tk.cur.code then tk.fail .missingName else
  let name := tk.cur.value
  (tk.next nx).bind fun tk =>
  if tk.cur.code ≠ .equal then tk.fail .expectedEqual else
  (tk.next nx).bind fun tk =>
  if tk.cur.code ≠ .integer then tk.fail .missingIndex else
  let index := fieldIndex tk.cur.value
  if badIndex index then tk.fail .invalidIndex else
  (tk.next nx).bind fun tk =>
  (parseBrackets nx N tk).bind fun (options, tk) =>
  if tk.cur.code ≠ .scolon then tk.fail .expectedSemicolon else
  if m.fields.any (fun f => f.index == index) then tk.fail (.sameIndex (holder m.fields index) name) else
  .ok ({ m with fields := m.fields ++ [{ type, name, index, options }] }, tk)

/-- proto3.cc:703-711, the loop over the body of a message. -/
def parseBody (N : Nat) (msgs : List Message) : Nat → Message → Tk σ → Out (Message × Tk σ)
  | 0, _, _ => .fuel
  | n + 1, m, tk =>
    (tk.next nx).bind fun tk =>
    if tk.cur.code = .eof then .ok (m, tk)
    else if tk.cur.code = .end then .ok (m, tk)
    else if tk.cur.code = .option then
      (parseStandardOption nx m.options tk).bind fun (opts, tk) => parseBody N msgs n { m with options := opts } tk
    else (parseField nx N msgs m tk).bind fun (m, tk) => parseBody N msgs n m tk

/-- proto3.cc:690-718 `parseMessage`. -/
def parseMessage (N : Nat) (tree : Tree) (tk : Tk σ) : Out (Tree × Tk σ) :=
  if tk.cur.code = .message then
    (tk.next nx).bind fun tk =>
    if isNameCode tk.cur.code then
      let m : Message := { fields := [], name := tk.cur.value, package := tree.package, options := [] }
      (tk.next nx).bind fun tk =>
      if tk.cur.code ≠ .begin then tk.fail .missingBody else
      (parseBody nx N tree.messages N m tk).bind fun (m, tk) =>
      .ok ({ tree with messages := tree.messages ++ [m] }, tk)
    else tk.fail .invalidMessage
  else tk.fail .invalidMessage

/-- proto3.cc:720-727 `parsePackage`. -/
def parsePackage (tree : Tree) (tk : Tk σ) : Out (Tree × Tk σ) :=
  (tk.next nx).bind fun tk =>
  if tk.cur.code = .name ∨ tk.cur.code = .qname then
    let name := tk.cur.value
    (tk.next nx).bind fun tk =>
    if tk.cur.code = .scolon then .ok ({ tree with package := name }, tk) else tk.fail .invalidPackage
  else tk.fail .invalidPackage

/-- proto3.cc:729-743 `parseSyntax`. -/
def parseSyntax (tk : Tk σ) : Out (Tk σ) :=
  (tk.next nx).bind fun tk =>
  if tk.cur.code ≠ .equal then tk.fail .expectedEqual else
  (tk.next nx).bind fun tk =>
  if tk.cur.code = .string then
    let value := tk.cur.value
    (tk.next nx).bind fun tk =>
    if tk.cur.code = .scolon then
      if value ≠ b!"proto3" then tk.fail .invalidVersion else .ok tk
    else tk.fail .invalidSyntax
  else tk.fail .invalidSyntax

/-- proto3.cc:749-769, one iteration of `parseProto` after the call of `next` (TOKEN_COMMENT is never produced by the
tokenizer, so its case is left out; TOKEN_EOF is handled by the caller). -/
def parseItem (N : Nat) (tree : Tree) (tk : Tk σ) : Out (Tree × Tk σ) :=
  if tk.cur.code = .message then parseMessage nx N tree tk
  else if tk.cur.code = .package then parsePackage nx tree tk
  else if tk.cur.code = .syntax then (parseSyntax nx tk).bind fun tk => .ok (tree, tk)
  else if tk.cur.code = .option then
    (parseStandardOption nx tree.options tk).bind fun (opts, tk) => .ok ({ tree with options := opts }, tk)
  else tk.fail .unexpectedToken

/-- proto3.cc:745-771 `parseProto`. -/
def parseProto (N : Nat) : Nat → Tree → Tk σ → Out Tree
  | 0, _, _ => .fuel
  | n + 1, tree, tk =>
    (tk.next nx).bind fun tk =>
    if tk.cur.code = .eof then .ok tree else
    (parseItem nx N tree tk).bind fun (tree, tk) =>
    if tk.cur.code = .eof then .ok tree else parseProto N n tree tk

end

/-- proto3.cc:799-807, the loop over the fields of a message. -/
def resolveFields (msgs : List Message) : List Field → Out (List Field)
  | [] => .ok []
  | f :: rest =>
    if f.type.id ≠ .message ∨ f.type.ref ≠ none then
      (resolveFields msgs rest).bind fun rest => .ok (f :: rest)
    else match findMessage msgs f.type.qname with
      | none => .exc ⟨.unresolved f.type.qname, 0, 0⟩
      | some i =>
        (resolveFields msgs rest).bind fun rest => .ok ({ f with type := { f.type with ref := some i } } :: rest)

/-- proto3.cc:797-808, the loop over the messages.  (Resolving changes no name or package, so the messages searched are
the ones before the loop.) -/
def resolveMessages (msgs : List Message) : List Message → Out (List Message)
  | [] => .ok []
  | m :: rest =>
    (resolveFields msgs m.fields).bind fun fs =>
    (resolveMessages msgs rest).bind fun rest => .ok ({ m with fields := fs } :: rest)

/-- The state of the parser before the first token: proto3.cc:780-783 with an empty `Proto3`. -/
def Tree.empty : Tree := { messages := [], options := [], package := [] }

/-- `Proto3::parse` (proto3.cc:773-809) over any source of tokens. -/
def parseFrom {σ : Type} (nx : σ → Out (Tok × σ)) (N : Nat) (src : σ) : Out Tree :=
  (parseProto nx N N Tree.empty { cur := Tok.default, ungot := false, src }).bind fun tree =>
  (resolveMessages tree.messages tree.messages).bind fun msgs => .ok { tree with messages := msgs }

/-- proto3.cc:773-809 `Proto3::parse` on the text of a file, with `N` steps for each loop. -/
def parse (N : Nat) (text : Bytes) : Out Tree := parseFrom (lex N) N (In.open text)

end PG.Proto
