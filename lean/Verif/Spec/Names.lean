import Verif.Spec.Gen
/-
Which names a C++ file may declare, as far as they come from a schema: the keywords, the names that the generated code itself
relies on, and what must not be declared twice.  (Names of the standard library in the global namespace and macros are left
out.)
-/
set_option autoImplicit false
namespace PG.Gen
open PG.Proto

/-- Keywords and alternative tokens of C++11 ([lex.key]). -/
def keywords : List Bytes :=
  [ b!"alignas", b!"alignof", b!"and", b!"and_eq", b!"asm", b!"auto", b!"bitand", b!"bitor", b!"bool", b!"break", b!"case",
    b!"catch", b!"char", b!"char16_t", b!"char32_t", b!"class", b!"compl", b!"const", b!"const_cast", b!"constexpr",
    b!"continue", b!"decltype", b!"default", b!"delete", b!"do", b!"double", b!"dynamic_cast", b!"else", b!"enum",
    b!"explicit", b!"export", b!"extern", b!"false", b!"float", b!"for", b!"friend", b!"goto", b!"if", b!"inline", b!"int",
    b!"long", b!"mutable", b!"namespace", b!"new", b!"noexcept", b!"not", b!"not_eq", b!"nullptr", b!"operator", b!"or",
    b!"or_eq", b!"private", b!"protected", b!"public", b!"register", b!"reinterpret_cast", b!"return", b!"short",
    b!"signed", b!"sizeof", b!"static", b!"static_assert", b!"static_cast", b!"struct", b!"switch", b!"template", b!"this",
    b!"thread_local", b!"throw", b!"true", b!"try", b!"typedef", b!"typeid", b!"typename", b!"union", b!"unsigned",
    b!"using", b!"virtual", b!"void", b!"volatile", b!"wchar_t", b!"while", b!"xor", b!"xor_eq" ]

/-- Types that the members of the structures are declared with, by unqualified names (cppgen.cc:49-73). -/
def usedTypes : List Bytes := [b!"int32_t", b!"uint32_t", b!"int64_t", b!"uint64_t", b!"uint8_t"]

/-- What the generated code mentions from inside of the namespaces of the schema without `::` before it: two namespaces, and
the types above. -/
def usedNames : List Bytes := [b!"std", b!"protogen_3_0_0"] ++ usedTypes

/-- A name in the namespaces it is declared in. -/
abbrev Scoped := List Bytes × Bytes

/-- The type a declaration defines.  A structure is called after its message with `_type` added (cppgen.cc:195), the class
just like the message (json.hh:63-64). -/
def Event.defines : Event → Option Scoped
  | .struct path name => some (path, name ++ b!"_type")
  | .entity path name => some (path, name)
  | .member _ _ => none

/-- The namespaces around a declaration. -/
def Event.path : Event → List Bytes
  | .struct path _ => path
  | .entity path _ => path
  | .member _ _ => []

/-- The members right after the head of a structure. -/
def leadingMembers : List Event → List Bytes
  | .member _ n :: rest => n :: leadingMembers rest
  | _ => []

/-- The structures of a file (by the names of their messages) and their members. -/
def structures : List Event → List (Scoped × List Bytes)
  | [] => []
  | .struct path name :: rest => ((path, name), leadingMembers rest) :: structures rest
  | _ :: rest => structures rest

/-- `q` is a namespace of the file. -/
def IsSpace (es : List Event) (q : List Bytes) : Prop := q ≠ [] ∧ ∃ e ∈ es, q <+: e.path

/-- A name that may be declared: an identifier, and no keyword. -/
def Nameable (n : Bytes) : Prop := CIdent n ∧ n ∉ keywords

/-- The declarations can stand in one C++ file. -/
structure Legal (es : List Event) : Prop where
  /-- What is defined has a proper name that hides nothing the code needs, and that is not the name of a namespace. -/
  types : ∀ d ∈ es.filterMap Event.defines, Nameable d.2 ∧ d.2 ∉ usedNames ∧ ¬ IsSpace es (d.1 ++ [d.2])
  /-- No type is defined twice. -/
  once : (es.filterMap Event.defines).Nodup
  /-- The namespaces have proper names that hide nothing. -/
  spaces : ∀ e ∈ es, ∀ n ∈ e.path, Nameable n ∧ n ∉ usedNames
  /-- The members have proper names that hide no type, and those of a structure different ones.  (A member does not hide a
  namespace: before `::` only types and namespaces are looked for.) -/
  members : ∀ s ∈ structures es, (∀ n ∈ s.2, Nameable n ∧ n ∉ usedTypes) ∧ s.2.Nodup

/-- Names that the class of every message declares or inherits (json.hh:63-105, protogen.hh:628-703), besides its fields.
(`message` is the name of a base class.) -/
def classNames : List Bytes :=
  [ b!"value_type", b!"serializer_type", b!"serialize", b!"deserialize", b!"clear", b!"empty", b!"equal", b!"swap",
    b!"underlying_type", b!"message" ]

/-- Every field can be written `object.name`: no other member of the class has the name (the name of the class counts as
one). -/
def Visible (es : List Event) : Prop := ∀ s ∈ structures es, ∀ n ∈ s.2, n ∉ classNames ∧ n ≠ s.1.2

/-! ### What a schema has to observe -/

/-- Two messages whose names do not clash. -/
def NoClash (m m' : Message) : Prop :=
  namespaces m.package = namespaces m'.package →
    m.name ≠ m'.name ∧ m.name ≠ m'.name ++ b!"_type" ∧ m.name ++ b!"_type" ≠ m'.name

/-- The names of a schema can be used in C++. -/
structure NamesFit (ms : List Message) : Prop where
  /-- No message is called like a keyword, nor like something that is needed. -/
  messages : ∀ m ∈ ms, m.name ∉ keywords ∧ m.name ∉ usedNames
  /-- No two messages of a package are called alike, up to `_type`. -/
  apart : ms.Pairwise NoClash
  /-- No part of a package is called like a keyword, nor like something that is needed. -/
  packages : ∀ m ∈ ms, ∀ n ∈ namespaces m.package, n ∉ keywords ∧ n ∉ usedNames
  /-- No package, or beginning of one, is called like a message of the surrounding package, up to `_type`. -/
  nested : ∀ m ∈ ms, ∀ m' ∈ ms, ¬ namespaces m.package ++ [m.name] <+: namespaces m'.package ∧
    ¬ namespaces m.package ++ [m.name ++ b!"_type"] <+: namespaces m'.package
  /-- No field is called like a keyword or a type that is needed, and no two fields of a message are called alike. -/
  fields : ∀ m ∈ ms, (∀ f ∈ m.fields, f.name ∉ keywords ∧ f.name ∉ usedTypes) ∧ (m.fields.map (·.name)).Nodup

/-- No field is called like something the class has anyway. -/
def FieldsVisible (ms : List Message) : Prop := ∀ m ∈ ms, ∀ f ∈ m.fields, f.name ∉ classNames ∧ f.name ≠ m.name

end PG.Gen
