import Verif.Model.Proto
import Verif.Model.Num
import Verif.Model.JStr
/-
The output operators of debug builds (proto3.cc:73-138 and 813-855; CMakeLists.txt:27-29 defines BUILD_DEBUG).
-/
set_option autoImplicit false
namespace PG.Proto

/-- proto3.hh:29-46 `FieldType`, and proto3.cc:35-49 `TOKEN_T_*`: the same numbers. -/
def Scalar.num : Scalar → Nat
  | .double => 6 | .float => 7 | .int32 => 8 | .int64 => 9 | .uint32 => 10 | .uint64 => 11 | .sint32 => 12
  | .sint64 => 13 | .fixed32 => 14 | .fixed64 => 15 | .sfixed32 => 16 | .sfixed64 => 17 | .bool => 18 | .string => 19
  | .bytes => 20

/-- proto3.cc:30-70 `TOKEN_*` (the codes the tokenizer produces). -/
def Code.num : Code → Nat
  | .eof => 0 | .message => 1 | .name => 2 | .equal => 3 | .repeated => 4 | .ty t => t.num | .syntax => 22
  | .qname => 23 | .string => 24 | .integer => 25 | .enum => 27 | .scolon => 28 | .package => 29 | .lt => 30 | .gt => 31
  | .map => 32 | .comma => 33 | .begin => 34 | .end => 35 | .option => 36 | .true => 37 | .false => 38
  | .lbracket => 39 | .rbracket => 40 | .optional => 41

/-- proto3.cc:75-118 `TOKENS`. -/
def TOKENS : List Bytes :=
  [ b!"TOKEN_EOF", b!"TOKEN_MESSAGE", b!"TOKEN_NAME", b!"TOKEN_EQUAL", b!"TOKEN_REPEATED", b!"TOKEN_T_DOUBLE",
    b!"TOKEN_T_FLOAT", b!"TOKEN_T_INT32", b!"TOKEN_T_INT64", b!"TOKEN_T_UINT32", b!"TOKEN_T_UINT64", b!"TOKEN_T_SINT32",
    b!"TOKEN_T_SINT64", b!"TOKEN_T_FIXED32", b!"TOKEN_T_FIXED64", b!"TOKEN_T_SFIXED32", b!"TOKEN_T_SFIXED64",
    b!"TOKEN_T_BOOL", b!"TOKEN_T_STRING", b!"TOKEN_T_BYTES", b!"TOKEN_T_MESSAGE", b!"TOKEN_SYNTAX", b!"TOKEN_QNAME",
    b!"TOKEN_STRING", b!"TOKEN_INTEGER", b!"TOKEN_COMMENT", b!"TOKEN_ENUM", b!"TOKEN_SCOLON", b!"TOKEN_PACKAGE",
    b!"TOKEN_LT", b!"TOKEN_GT", b!"TOKEN_MAP", b!"TOKEN_COMMA", b!"TOKEN_BEGIN", b!"TOKEN_END", b!"TOKEN_OPTION",
    b!"TOKEN_TRUE", b!"TOKEN_FALSE", b!"TOKEN_LBRACKET", b!"TOKEN_RBRACKET", b!"TOKEN_OPTIONAL" ]

/-- proto3.cc:120-138 `TYPES`, without the final null pointer. -/
def TYPES : List Bytes :=
  [ b!"double", b!"float", b!"int32", b!"int64", b!"uint32", b!"uint64", b!"sint32", b!"sint64", b!"fixed32",
    b!"fixed64", b!"sfixed32", b!"sfixed64", b!"bool", b!"string", b!"bytes" ]

/-- proto3.cc:815-821 `operator<<(ostream&, const Token&)`; `none` if `TOKENS` is read past its end (undefined
behaviour). -/
def Tok.show (t : Tok) : Option Bytes :=
  (TOKENS[t.code.num]?).map fun name =>
    b!"[" ++ name ++ b!": " ++ (if t.value = [] then [] else b!"value='" ++ t.value ++ b!"' ") ++
      b!"pos=" ++ decNat t.line ++ b!":" ++ decNat t.col ++ b!"]"

/-- proto3.cc:823-833 `operator<<(ostream&, Field&)`; `none` if `TYPES` is read past its end. -/
def Field.show (f : Field) : Option Bytes :=
  (match f.type.id with
    | .scalar t => TYPES[t.num - 6]?
    | .message => some f.type.qname).map fun type =>
      (if f.type.repeated then b!"repeated " else []) ++ type ++ b!" " ++ f.name ++ b!" = " ++ decInt f.index ++ b!";"

/-- The fields, each with a line feed (proto3.cc:839-842). -/
def showFields : List Field → Option Bytes
  | [] => some []
  | f :: fs => f.show.bind fun a => (showFields fs).map fun b => a ++ b!"\n" ++ b

/-- proto3.cc:835-845 `operator<<(ostream&, Message&)`. -/
def Message.show (m : Message) : Option Bytes :=
  (showFields m.fields).map fun fs => b!"message " ++ m.name ++ b!" {\n" ++ fs ++ b!"}\n"

/-- A pointer sent to a `std::ostream` (C++ library): `0x` and the address in hexadecimal. -/
def ptrText (a : Nat) : Bytes := b!"0x" ++ hexNat a

/-- proto3.cc:847-854 `operator<<(ostream&, Proto3&)`.  `proto.messages` holds shared pointers (proto3.hh:99), so `*it`
is a `std::shared_ptr<Message>`, whose operator of the C++ library prints the address; the operator for `Message` is not
called.  `addr i` is the address of the message at position `i`. -/
def Tree.show (addr : Nat → Nat) (t : Tree) : Bytes :=
  (List.range t.messages.length).flatMap fun i => ptrText (addr i) ++ b!"\n"

end PG.Proto
