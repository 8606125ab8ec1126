import Verif.Spec.Position
/-
What is expected at each place of a schema, and the error for anything else.  Independent of the parser.
-/
set_option autoImplicit false
namespace PG.Proto

/-- Where an option is: in the file, in a message whose fields have these numbers and names, or between the brackets of a
field with this number and name. -/
inductive Where
  | file
  | message (used : List (Int × Bytes))
  | field (used : List (Int × Bytes)) (f : Int × Bytes)
deriving DecidableEq, Repr

/-- A place between two lexical elements of a schema. -/
inductive Place
  /-- Between declarations. -/
  | top
  /-- After `syntax`. -/
  | synEqual
  /-- After `syntax =`. -/
  | synText
  /-- After `syntax = "version"`. -/
  | synEnd (version : Bytes)
  /-- After `package`. -/
  | pkgName
  /-- After `package name`. -/
  | pkgEnd
  /-- After `message`. -/
  | msgName
  /-- After `message name`. -/
  | msgBegin
  /-- After `option`, or between options in the brackets of a field, after the bracket or a comma. -/
  | optName (w : Where)
  /-- After the name of an option. -/
  | optEqual (w : Where)
  /-- After `name =` of an option. -/
  | optValue (w : Where)
  /-- After the value of an option. -/
  | optEnd (w : Where)
  /-- In the body of a message, between its fields and options. -/
  | body (used : List (Int × Bytes))
  /-- After `repeated` or `optional`. -/
  | type (used : List (Int × Bytes))
  /-- After the type of a field. -/
  | name (used : List (Int × Bytes))
  /-- After the name of a field. -/
  | equal (used : List (Int × Bytes)) (name : Bytes)
  /-- After `=` in a field. -/
  | number (used : List (Int × Bytes)) (name : Bytes)
  /-- After the number of a field. -/
  | tail (used : List (Int × Bytes)) (f : Int × Bytes)
  /-- After the closing bracket of a field. -/
  | close (used : List (Int × Bytes)) (f : Int × Bytes)
deriving DecidableEq, Repr

namespace Lexeme
/-- A name that is not reserved, possibly with dots. -/
def free : Lexeme → Bool
  | word n => !reserved.contains n
  | _ => false
/-- The name of a message or a field. -/
def plain : Lexeme → Bool
  | word n => !n.contains c!"." && (!reserved.contains n || n == b!"message" || n == b!"package")
  | _ => false
/-- The type of a field. -/
def typeName : Lexeme → Bool
  | word n => !reserved.contains n ||
      [ b!"double", b!"float", b!"int32", b!"int64", b!"uint32", b!"uint64", b!"sint32", b!"sint64", b!"fixed32",
        b!"fixed64", b!"sfixed32", b!"sfixed64", b!"bool", b!"string", b!"bytes" ].contains n
  | _ => false
/-- The value of an option. -/
def value : Lexeme → Bool
  | word n => !reserved.contains n || n == b!"true" || n == b!"false"
  | int _ => true
  | str _ => true
  | sym _ => false
end Lexeme

/-- Whether a field number is accepted. -/
def goodNumber (i : Int) : Bool := 0 < i && i < 0x1FFFFFFF && i != 19000 && i != 19999

namespace Place
/-- After the semicolon of a field. -/
def field (used : List (Int × Bytes)) (f : Int × Bytes) (l : Lexeme) : Except Kind Place :=
  if l ≠ .sym c!";" then .error .expectedSemicolon
  else match used.lookup f.1 with
    | some n => .error (.sameIndex n f.2)
    | none => .ok (.body (used ++ [f]))

/-- The place after the lexical element `l`, or the error if it is not expected. -/
def next : Place → Lexeme → Except Kind Place
  | top, l =>
    if l = .word b!"syntax" then .ok synEqual
    else if l = .word b!"package" then .ok pkgName
    else if l = .word b!"option" then .ok (optName .file)
    else if l = .word b!"message" then .ok msgName
    else .error .unexpectedToken
  | synEqual, l => if l = .sym c!"=" then .ok synText else .error .expectedEqual
  | synText, l =>
    match l with
    | .str s => .ok (synEnd s)
    | _ => .error .invalidSyntax
  | synEnd s, l =>
    if l ≠ .sym c!";" then .error .invalidSyntax
    else if s ≠ b!"proto3" then .error .invalidVersion
    else .ok top
  | pkgName, l => if l.free then .ok pkgEnd else .error .invalidPackage
  | pkgEnd, l => if l = .sym c!";" then .ok top else .error .invalidPackage
  | msgName, l => if l.plain then .ok msgBegin else .error .invalidMessage
  | msgBegin, l => if l = .sym c!"{" then .ok (body []) else .error .missingBody
  | optName w, l =>
    match w with
    | .field used f =>
      if l = .sym c!"]" then .ok (close used f)
      else if l.free then .ok (optEqual w)
      else .error .missingOptionName
    | _ => if l.free then .ok (optEqual w) else .error .missingOptionName
  | optEqual w, l => if l = .sym c!"=" then .ok (optValue w) else .error .expectedEqual
  | optValue w, l => if l.value then .ok (optEnd w) else .error .invalidOptionValue
  | optEnd w, l =>
    match w with
    | .file => if l = .sym c!";" then .ok top else .error .optionEnd
    | .message used => if l = .sym c!";" then .ok (body used) else .error .optionEnd
    | .field used f =>
      if l = .sym c!"," then .ok (optName w)
      else if l = .sym c!"]" then .ok (close used f)
      else if l.free then .ok (optEqual w)
      else .error .missingOptionName
  | body used, l =>
    if l = .sym c!"}" then .ok top
    else if l = .word b!"option" then .ok (optName (.message used))
    else if l = .word b!"repeated" ∨ l = .word b!"optional" then .ok (type used)
    else if l.typeName then .ok (name used)
    else .error .missingType
  | type used, l => if l.typeName then .ok (name used) else .error .missingType
  | name used, l => if l.plain then .ok (equal used l.text) else .error .missingName
  | equal used n, l => if l = .sym c!"=" then .ok (number used n) else .error .expectedEqual
  | number used n, l =>
    match l with
    | .int d => if goodNumber (asInt32 (Proto.number d)) then .ok (tail used (asInt32 (Proto.number d), n)) else .error .invalidIndex
    | _ => .error .missingIndex
  | tail used f, l => if l = .sym c!"[" then .ok (optName (.field used f)) else field used f l
  | close used f, l => field used f l

/-- The error at the end of the file; none between declarations and, which is lenient, in the body of a message. -/
def atEnd : Place → Option Kind
  | top => none
  | body _ => none
  | synEqual => some .expectedEqual
  | synText => some .invalidSyntax
  | synEnd _ => some .invalidSyntax
  | pkgName => some .invalidPackage
  | pkgEnd => some .invalidPackage
  | msgName => some .invalidMessage
  | msgBegin => some .missingBody
  | optName _ => some .missingOptionName
  | optEqual _ => some .expectedEqual
  | optValue _ => some .invalidOptionValue
  | optEnd (.field _ _) => some .missingOptionName
  | optEnd _ => some .optionEnd
  | type _ => some .missingType
  | name _ => some .missingName
  | equal _ _ => some .expectedEqual
  | number _ _ => some .missingIndex
  | tail _ _ => some .expectedSemicolon
  | close _ _ => some .expectedSemicolon

/-- The place after these lexical elements, if each of them is expected. -/
def after : Place → List Lexeme → Option Place
  | p, [] => some p
  | p, l :: ls =>
    match p.next l with
    | .ok q => q.after ls
    | .error _ => none

/-- The error at an offender. -/
def error (p : Place) : Offender → Option Kind
  | .lexeme l =>
    match p.next l with
    | .ok _ => none
    | .error k => some k
  | .stray _ => some .invalidSymbol
  | .ident _ => some .invalidIdentifier
end Place

/-- A field number is still free. -/
def Left (used : List (Int × Bytes)) : Prop := ∃ i, goodNumber i = true ∧ used.lookup i = none

/-- An option here does not come too late to matter. -/
def Where.live : Where → Prop
  | file => True
  | message _ => True
  | field used f => used.lookup f.1 = none

/-- Something that can follow makes the file whole.  That is not so after a wrong version, and in a field whose number is
used already, or for which there is no number; the version and the number are only looked at when the semicolon is
read. -/
def Place.live : Place → Prop
  | synEnd v => v = b!"proto3"
  | optName w => w.live
  | optEqual w => w.live
  | optValue w => w.live
  | optEnd w => w.live
  | type used => Left used
  | name used => Left used
  | equal used _ => Left used
  | number used _ => Left used
  | tail used f => used.lookup f.1 = none
  | close used f => used.lookup f.1 = none
  | _ => True

/-- The position of the end of the file: the line of the end and the column before it, except after a string that is
not closed on its line, where it is 1:1. -/
def EndsAt (text : Bytes) (ls : List Lexeme) (line col : Nat) : Prop :=
  ((∃ pre s b rest, Broken text ls pre s b rest) ∧ line = 1 ∧ col = 1) ∨
  ((¬ ∃ pre s b rest, Broken text ls pre s b rest) ∧ line = lineAt text ∧ col + 1 = colAt text)

/-- The rest of a file after its lexical elements `ls` is a comment to the end of the line, or a string, that the end of
the file cuts off. -/
def Cutoff (text : Bytes) (ls : List Lexeme) : Prop :=
  ∃ pre c, Before ls pre (c!"/" :: c!"/" :: c) ∧ text = pre ++ (c!"/" :: c!"/" :: c) ∧ 10 ∉ c ∨
    Before ls pre (c!"\"" :: c) ∧ text = pre ++ c!"\"" :: c ∧ Quotable c

/-- The text is refused with the error `e`: it starts with lexical elements that are expected, and then comes an
offender, at which the error is, or the end of the file where more is expected. -/
def Refused (text : Bytes) (e : Exc) : Prop :=
  (∃ ls pre x r q, Offends text ls pre x r ∧ Place.top.after ls = some q ∧ q.error x = some e.kind ∧
    e.line = lineAt pre ∧ e.col = colAt pre) ∨
  ∃ ls q, LooseLayout ls text ∧ Place.top.after ls = some q ∧ q.atEnd = some e.kind ∧ EndsAt text ls e.line e.col

/-- The text consists of lexical elements that are expected, and can end where it ends. -/
def Whole (text : Bytes) : Prop := ∃ ls q, LooseLayout ls text ∧ Place.top.after ls = some q ∧ q.atEnd = none

/-- The text starts with lexical elements that are expected, and then comes something the end of the file cuts off. -/
def Endless (text : Bytes) : Prop := ∃ ls q, Cutoff text ls ∧ Place.top.after ls = some q

end PG.Proto
