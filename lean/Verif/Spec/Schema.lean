import Verif.Model.Proto
/-
Schemas as they are written: lexical elements, declarations, how a list of declarations is laid out in a file, and what
it means.  Independent of the parser; only the data types of the result (`Tree`, …) are shared with the model.
-/
set_option autoImplicit false
namespace PG.Proto

/-! ### Lexical elements -/

/-- Letters of identifiers. -/
def Letter (b : Byte) : Prop := (65 ≤ b ∧ b ≤ 90) ∨ (97 ≤ b ∧ b ≤ 122) ∨ b = 95
/-- Decimal digits. -/
def Digit (b : Byte) : Prop := 48 ≤ b ∧ b ≤ 57

instance (b : Byte) : Decidable (Letter b) := inferInstanceAs (Decidable (_ ∨ _))
instance (b : Byte) : Decidable (Digit b) := inferInstanceAs (Decidable (_ ∧ _))

/-- An identifier. -/
def Ident (n : Bytes) : Prop := ∃ b r, n = b :: r ∧ Letter b ∧ ∀ c ∈ r, Letter c ∨ Digit c

/-- A possibly dotted name. -/
inductive DotName : Bytes → Prop
  | one {n : Bytes} (h : Ident n) : DotName n
  | more {p n : Bytes} (h : Ident p) (t : DotName n) : DotName (p ++ 46 :: n)

/-- A decimal literal. -/
def Digits (d : Bytes) : Prop := d ≠ [] ∧ ∀ c ∈ d, Digit c

/-- The content of a string literal: no line feed, NUL character or quote. -/
def Quotable (s : Bytes) : Prop := 10 ∉ s ∧ 0 ∉ s ∧ 34 ∉ s

/-- A lexical element. -/
inductive Lexeme
  | word (n : Bytes)
  | int (d : Bytes)
  | str (s : Bytes)
  | sym (b : Byte)
deriving DecidableEq, Repr

namespace Lexeme
/-- How it is written. -/
def text : Lexeme → Bytes
  | word n => n
  | int d => d
  | str s => 34 :: s ++ [34]
  | sym b => [b]

/-- Well formed. -/
def Valid : Lexeme → Prop
  | word n => DotName n
  | int d => Digits d
  | str s => Quotable s
  | sym b => b ∈ b!"={};,<>[]"

/-- What follows in the file does not extend it. -/
def Ends : Lexeme → Bytes → Prop
  | word _, b :: _ => ¬ Letter b ∧ ¬ Digit b ∧ b ≠ 46
  | int _, b :: _ => ¬ Digit b
  | _, _ => True
end Lexeme

/-- White space and comments. -/
inductive Gap : Bytes → Prop
  | nil : Gap []
  | space {b : Byte} {g : Bytes} (hb : b ∈ b!" \t\n\r") (h : Gap g) : Gap (b :: g)
  | line {c g : Bytes} (hc : 10 ∉ c) (h : Gap g) : Gap (b!"//" ++ c ++ 10 :: g)
  | block {c g : Bytes} (hc : ¬ ∃ p q, c = p ++ b!"*/" ++ q) (h : Gap g) : Gap (b!"/*" ++ c ++ b!"*/" ++ g)

/-- A text that consists of these lexical elements, with white space and comments between them. -/
inductive Layout : List Lexeme → Bytes → Prop
  | done {g : Bytes} (h : Gap g) : Layout [] g
  | next {l : Lexeme} {ls : List Lexeme} {g rest : Bytes} (hg : Gap g) (hl : l.Valid) (he : l.Ends rest)
      (h : Layout ls rest) : Layout (l :: ls) (g ++ l.text ++ rest)

/-- What is skipped between lexical elements: white space, comments, and also a slash with the character after it. -/
inductive LooseGap : Bytes → Prop
  | nil : LooseGap []
  | space {b : Byte} {g : Bytes} (hb : b ∈ b!" \t\n\r") (h : LooseGap g) : LooseGap (b :: g)
  | line {c g : Bytes} (hc : 10 ∉ c) (h : LooseGap g) : LooseGap (b!"//" ++ c ++ 10 :: g)
  | block {c g : Bytes} (hc : ¬ ∃ p q, c = p ++ b!"*/" ++ q) (h : LooseGap g) :
      LooseGap (b!"/*" ++ c ++ b!"*/" ++ g)
  | slash {b : Byte} {g : Bytes} (h1 : b ≠ c!"/") (h2 : b ≠ c!"*") (h : LooseGap g) : LooseGap (c!"/" :: b :: g)

/-- What is taken for the end of the file: the end, a slash or a comment that is not closed, or a string broken by a
line feed or a NUL character, with anything after it. -/
inductive LooseEnd : Bytes → Prop
  | nil : LooseEnd []
  | slash : LooseEnd b!"/"
  | block {c : Bytes} (hc : ¬ ∃ p q, c = p ++ b!"*/" ++ q) : LooseEnd (b!"/*" ++ c)
  | string {s rest : Bytes} {b : Byte} (hs : Quotable s) (hb : b = 10 ∨ b = 0) : LooseEnd (34 :: s ++ b :: rest)

/-- A text that is taken for these lexical elements. -/
inductive LooseLayout : List Lexeme → Bytes → Prop
  | done {g e : Bytes} (h : LooseGap g) (he : LooseEnd e) : LooseLayout [] (g ++ e)
  | next {l : Lexeme} {ls : List Lexeme} {g rest : Bytes} (hg : LooseGap g) (hl : l.Valid) (he : l.Ends rest)
      (h : LooseLayout ls rest) : LooseLayout (l :: ls) (g ++ l.text ++ rest)

/-- Characters that belong to no lexical element, white space or comment. -/
def Stray (b : Byte) : Prop := ¬ Letter b ∧ ¬ Digit b ∧ b ∉ b!" \t\n\r/\"={};,<>[]."

instance (b : Byte) : Decidable (Stray b) := inferInstanceAs (Decidable (_ ∧ _))

/-! ### Declarations -/

/-- The words that are not names. -/
def reserved : List Bytes :=
  [ b!"message", b!"repeated", b!"string", b!"enum", b!"double", b!"float", b!"bool", b!"int32", b!"int64", b!"uint32",
    b!"uint64", b!"sint32", b!"sint64", b!"fixed32", b!"fixed64", b!"sfixed32", b!"sfixed64", b!"bytes", b!"package",
    b!"syntax", b!"map", b!"option", b!"true", b!"false", b!"optional" ]

/-- The keyword of a scalar type. -/
def Scalar.text : Scalar → Bytes
  | .double => b!"double" | .float => b!"float" | .int32 => b!"int32" | .int64 => b!"int64" | .uint32 => b!"uint32"
  | .uint64 => b!"uint64" | .sint32 => b!"sint32" | .sint64 => b!"sint64" | .fixed32 => b!"fixed32"
  | .fixed64 => b!"fixed64" | .sfixed32 => b!"sfixed32" | .sfixed64 => b!"sfixed64" | .bool => b!"bool"
  | .string => b!"string" | .bytes => b!"bytes"

/-- The value of an option. -/
inductive Value
  | bool (b : Bool)
  | ident (n : Bytes)
  | int (d : Bytes)
  | str (s : Bytes)
deriving DecidableEq, Repr

namespace Value
/-- How it is written. -/
def lexeme : Value → Lexeme
  | bool true => .word b!"true"
  | bool false => .word b!"false"
  | ident n => .word n
  | int d => .int d
  | str s => .str s
/-- Its type. -/
def type : Value → OptType
  | bool _ => .boolean
  | ident _ => .identifier
  | int _ => .integer
  | str _ => .string
/-- Its text as the generator sees it. -/
def value : Value → Bytes
  | bool true => b!"true"
  | bool false => b!"false"
  | ident n => n
  | int d => d
  | str s => s
/-- Well formed. -/
def WF : Value → Prop
  | bool _ => True
  | ident n => DotName n ∧ n ∉ reserved
  | int d => Digits d
  | str s => Quotable s
end Value

/-- `name = value`. -/
structure OptDecl where
  name : Bytes
  value : Value
deriving DecidableEq, Repr

namespace OptDecl
/-- How it is written. -/
def lexemes (o : OptDecl) : List Lexeme := [.word o.name, .sym c!"=", o.value.lexeme]
/-- Well formed. -/
def WF (o : OptDecl) : Prop := DotName o.name ∧ o.name ∉ reserved ∧ o.value.WF
/-- What it means (without the line). -/
def entry (o : OptDecl) : OptEntry := { name := o.name, type := o.value.type, value := o.value.value, line := 0 }
end OptDecl

/-- A list of option declarations: a later one replaces an earlier one of the same name. -/
def optionMap (os : List OptDecl) : OptMap := os.foldl (fun m o => m.set o.name o.entry) []

/-- The label of a field. -/
inductive Label
  | none | repeated | optional
deriving DecidableEq, Repr

/-- How it is written. -/
def Label.lexemes : Label → List Lexeme
  | .none => []
  | .repeated => [.word b!"repeated"]
  | .optional => [.word b!"optional"]

/-- The type of a field. -/
inductive TypeRef
  | scalar (t : Scalar)
  | named (n : Bytes)
deriving DecidableEq, Repr

namespace TypeRef
/-- How it is written. -/
def lexeme : TypeRef → Lexeme
  | scalar t => .word t.text
  | named n => .word n
/-- Well formed. -/
def WF : TypeRef → Prop
  | scalar _ => True
  | named n => DotName n ∧ n ∉ reserved
end TypeRef

/-- A name qualified by a package. -/
def qualify (package name : Bytes) : Bytes := if package = [] then name else package ++ c!"." :: name

/-- The number written by decimal digits. -/
def number (d : Bytes) : Nat := d.foldl (fun v c => 10 * v + (c.toNat - 48)) 0

/-- A number read into a 64-bit `long` and converted to a 32-bit `int`. -/
def asInt32 (n : Nat) : Int := ((min n (2 ^ 63 - 1) + 2 ^ 31) % 2 ^ 32 : Nat) - (2 ^ 31 : Int)

/-- The options of a field: absent, or a list between brackets in which a comma may follow each of them. -/
abbrev Brackets := Option (List (OptDecl × Bool))

/-- The options, without the commas. -/
def bracketOpts : Brackets → List OptDecl
  | .none => []
  | some l => l.map (·.1)

/-- How they are written. -/
def bracketLexemes : Brackets → List Lexeme
  | .none => []
  | some l => .sym c!"[" :: l.flatMap (fun p => p.1.lexemes ++ if p.2 then [.sym c!","] else []) ++ [.sym c!"]"]

/-- `label type name = number [options];` -/
structure FieldDecl where
  label : Label
  type : TypeRef
  name : Bytes
  number : Bytes
  options : Brackets
deriving DecidableEq, Repr

/-- The names of fields and messages: identifiers, including the words `message` and `package`. -/
def NameOK (n : Bytes) : Prop := Ident n ∧ (n ∉ reserved ∨ n = b!"message" ∨ n = b!"package")

namespace FieldDecl
/-- How it is written. -/
def lexemes (f : FieldDecl) : List Lexeme :=
  f.label.lexemes ++ [f.type.lexeme, .word f.name, .sym c!"=", .int f.number] ++ bracketLexemes f.options ++
    [.sym c!";"]
/-- Well formed. -/
def WF (f : FieldDecl) : Prop :=
  f.type.WF ∧ NameOK f.name ∧ Digits f.number ∧ ∀ o ∈ bracketOpts f.options, o.WF
/-- The field number. -/
def index (f : FieldDecl) : Int := asInt32 (Proto.number f.number)
/-- The type, given the package and how qualified names are resolved. -/
def typeInfo (f : FieldDecl) (package : Bytes) (ref : Bytes → Option Nat) : TypeInfo :=
  match f.type with
  | .scalar t =>
    { id := .scalar t, qname := [], ref := .none, repeated := f.label == .repeated, optional := f.label == .optional }
  | .named n =>
    { id := .message, qname := qualify package n, ref := ref (qualify package n),
      repeated := f.label == .repeated, optional := f.label == .optional }
/-- What it means. -/
def meaning (f : FieldDecl) (package : Bytes) (ref : Bytes → Option Nat) : Field :=
  { type := f.typeInfo package ref, name := f.name, index := f.index, options := optionMap (bracketOpts f.options) }
end FieldDecl

/-- An element of the body of a message. -/
inductive Item
  | option (o : OptDecl)
  | field (f : FieldDecl)
deriving DecidableEq, Repr

namespace Item
/-- How it is written. -/
def lexemes : Item → List Lexeme
  | option o => .word b!"option" :: o.lexemes ++ [.sym c!";"]
  | field f => f.lexemes
/-- Well formed. -/
def WF : Item → Prop
  | option o => o.WF
  | field f => f.WF
/-- The option, if it is one. -/
def option? : Item → Option OptDecl
  | option o => some o
  | field _ => .none
/-- The field, if it is one. -/
def field? : Item → Option FieldDecl
  | option _ => .none
  | field f => some f
end Item

/-- What the body of a message means. -/
def bodyMeaning (name : Bytes) (body : List Item) (package : Bytes) (ref : Bytes → Option Nat) : Message :=
  { fields := (body.filterMap Item.field?).map (·.meaning package ref), name, package,
    options := optionMap (body.filterMap Item.option?) }

/-- A declaration of a file. -/
inductive Decl
  | syntax
  | package (p : Bytes)
  | option (o : OptDecl)
  | message (name : Bytes) (body : List Item)
deriving DecidableEq, Repr

namespace Decl
/-- The declaration without its last lexical element. -/
def opening : Decl → List Lexeme
  | «syntax» => [.word b!"syntax", .sym c!"=", .str b!"proto3"]
  | package p => [.word b!"package", .word p]
  | option o => .word b!"option" :: o.lexemes
  | message name body => [.word b!"message", .word name, .sym c!"{"] ++ body.flatMap Item.lexemes
/-- The last lexical element. -/
def closing : Decl → Lexeme
  | message _ _ => .sym c!"}"
  | _ => .sym c!";"
/-- How it is written. -/
def lexemes (d : Decl) : List Lexeme := d.opening ++ [d.closing]
/-- Well formed. -/
def WF : Decl → Prop
  | «syntax» => True
  | package p => DotName p ∧ p ∉ reserved
  | option o => o.WF
  | message name body => NameOK name ∧ ∀ i ∈ body, i.WF
end Decl

/-- How a file is written. -/
def fileLexemes (ds : List Decl) : List Lexeme := ds.flatMap Decl.lexemes

/-- How a file whose last message is not closed is written. -/
def openLexemes (ds : List Decl) (name : Bytes) (body : List Item) : List Lexeme :=
  fileLexemes ds ++ (Decl.message name body).opening

/-- The messages of a file with their packages, given the package in force at its start. -/
def located : Bytes → List Decl → List (Bytes × Bytes × List Item)
  | _, [] => []
  | _, .package p :: ds => located p ds
  | p, .message name body :: ds => (p, name, body) :: located p ds
  | p, _ :: ds => located p ds

/-- The package in force at the end. -/
def lastPackage : Bytes → List Decl → Bytes
  | p, [] => p
  | _, .package p :: ds => lastPackage p ds
  | p, _ :: ds => lastPackage p ds

/-- The options of the file. -/
def fileOptions (ds : List Decl) : List OptDecl :=
  ds.filterMap fun | .option o => some o | _ => .none

/-- The position of the first of these names equal to `q`. -/
def position (q : Bytes) : List Bytes → Option Nat
  | [] => .none
  | n :: ns => if n = q then some 0 else (position q ns).map (· + 1)

/-- The qualified names of the messages of a file. -/
def messageNames (ds : List Decl) : List Bytes := (located [] ds).map fun m => qualify m.1 m.2.1

/-- What a file means. -/
def denote (ds : List Decl) : Tree :=
  { messages := (located [] ds).map fun m => bodyMeaning m.2.1 m.2.2 m.1 (fun q => position q (messageNames ds)),
    options := optionMap (fileOptions ds), package := lastPackage [] ds }

/-- The field numbers that are accepted. -/
def GoodIndex (i : Int) : Prop := 0 < i ∧ i < 0x1FFFFFFF ∧ i ≠ 19000 ∧ i ≠ 19999

/-- The requirements on a file beyond its syntax: field numbers are good and distinct within their message, and the
messages that are named exist. -/
def Consistent (ds : List Decl) : Prop :=
  (∀ m ∈ located [] ds, (∀ f ∈ m.2.2.filterMap Item.field?, GoodIndex f.index) ∧
    ((m.2.2.filterMap Item.field?).map (·.index)).Pairwise (· ≠ ·)) ∧
  (∀ m ∈ located [] ds, ∀ f ∈ m.2.2.filterMap Item.field?, ∀ n, f.type = .named n →
    qualify m.1 n ∈ messageNames ds)

/-- The types of fields that are no known message, in the order of the fields. -/
def unknownIn (known : Bytes → Bool) (package : Bytes) (fs : List FieldDecl) : List Bytes :=
  fs.filterMap fun f =>
    match f.type with
    | .named n => if known (qualify package n) then none else some (qualify package n)
    | .scalar _ => none

/-- The types of the fields of a file that are no message of the file, in the order of the fields. -/
def unknownTypes (ds : List Decl) : List Bytes :=
  (located [] ds).flatMap fun m => unknownIn (fun q => (messageNames ds).contains q) m.1 (m.2.2.filterMap Item.field?)

end PG.Proto
