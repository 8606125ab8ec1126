import Verif.Spec.CxxProto
/-
The libraries for `Proto3::parse` (proto3.cc:773-809) and for the constructor of `Tokenizer` (proto3.cc:288-290).
-/
set_option autoImplicit false
namespace PG.Cxx.Schema
open PG.Proto

/-- What `Proto3::parse` reads and changes: the characters that are left in the stream, its flag `skipws`, the object (with the
package of the context), its member `fileName`. -/
structure Parsing where
  text : Bytes
  skipws : Bool
  tree : Tree
  fileName : Bytes
deriving DecidableEq

/-- `isspace` in the locale "C", which is that of a new stream. -/
def isSpace (c : Byte) : Bool := c = 32 || (9 ≤ c && c ≤ 13)

/-- Values: the stream, its flags, `std::ios::skipws`, iterators (`std::istream_iterator<char>`), the `InputStream`, a tokenizer of
it that has read nothing, `this`, `*this`, the context; messages, fields, types, references, pointers, `nullptr`, exceptions. -/
inductive SVal
  | stream
  | flags (skipws : Bool)
  | skipBit
  | begin (text : Bytes)
  | theEnd
  | input (s : In)
  | tokens (s : In)
  | self (w : Parsing)
  | object
  | ctx (s : In)
  | msg (m : Message)
  | field (f : Field)
  | type (t : TypeInfo)
  | ftype (t : FType)
  | ref (r : Option Nat)
  | shared (i : Nat)
  | null
  | exc (e : Thrown)

/-- The messages of a vector. -/
def messagesOf : List (Val SVal) → Option (List Message)
  | [] => some []
  | .dom (.msg m) :: r => (messagesOf r).map (m :: ·)
  | _ => none

/-- The fields of a vector. -/
def fieldsOf : List (Val SVal) → Option (List Field)
  | [] => some []
  | .dom (.field m) :: r => (fieldsOf r).map (m :: ·)
  | _ => none

/-- Values and members. -/
def parseBase (s : Bool) : Lib SVal Parsing :=
  { plain s with
    constant := fun p =>
      if p = [n!"nullptr"] then some (.dom .null)
      else if p = [n!"TYPE_MESSAGE"] then some (.dom (.ftype .message))
      else if p = [n!"std", n!"ios", n!"skipws"] then some (.dom .skipBit)
      else none
    get := fun n w => if n = n!"this" then some (.dom (.self w)) else none
    set := fun n v _ =>
      match v with
      | .dom (.self w) => if n = n!"this" then some w else none
      | _ => none
    member := fun v n _ =>
      match v with
      | .dom (.self w) =>
        if n = n!"messages" then some (.arr (w.tree.messages.map fun m => .dom (.msg m)))
        else if n = n!"fileName" then some (.str w.fileName)
        else none
      | .dom (.msg m) => if n = n!"fields" then some (.arr (m.fields.map fun f => .dom (.field f))) else none
      | .dom (.field f) => if n = n!"type" then some (.dom (.type f.type)) else none
      | .dom (.type t) =>
        if n = n!"id" then some (.dom (.ftype t.id))
        else if n = n!"ref" then some (.dom (.ref t.ref))
        else if n = n!"qname" then some (.str t.qname)
        else none
      | _ => none
    update := fun v n x =>
      match v, x with
      | .dom (.self w), .arr l =>
        if n = n!"messages" then
          (messagesOf l).map fun l => .dom (.self { w with tree := { w.tree with messages := l } })
        else none
      | .dom (.self w), .str x => if n = n!"fileName" then some (.dom (.self { w with fileName := x })) else none
      | .dom (.msg m), .arr l => if n = n!"fields" then (fieldsOf l).map fun l => .dom (.msg { m with fields := l }) else none
      | .dom (.field f), .dom (.type t) => if n = n!"type" then some (.dom (.field { f with type := t })) else none
      | .dom (.type t), .dom (.ref r) => if n = n!"ref" then some (.dom (.type { t with ref := r })) else none
      | _, _ => none
    unary := fun o v _ =>
      match v with
      | .dom (.self _) => if o = n!"*" then some (.dom .object) else none
      | _ => none
    binary := fun o a b w =>
      match a, b with
      | .dom (.flags f), .dom .skipBit => if o = n!"&" then some (.bool f, w) else none
      | .dom (.ftype t), .dom (.ftype u) => if o = n!"!=" then some (.bool (decide (t ≠ u)), w) else none
      | .dom (.ref r), .dom .null =>
        if o = n!"!=" then some (.bool (decide (r ≠ none)), w)
        else if o = n!"==" then some (.bool (decide (r = none)), w)
        else none
      | _, _ => none
    assign := fun old v =>
      match old, v with
      | .dom (.ref _), .dom .null => some (.dom (.ref none))
      | .dom (.ref _), .dom (.shared i) => some (.dom (.ref (some i)))
      | .dom (.msg _), .dom (.msg m) => some (.dom (.msg m))
      | .dom (.field _), .dom (.field f) => some (.dom (.field f))
      | _, _ => none
    init := fun t v _ =>
      match v with
      | none => if t = n!"std :: istream_iterator < char >" then some (.dom .theEnd) else none
      | some (.dom (.flags b)) => if t = n!"std :: ios_base :: fmtflags" then some (.dom (.flags b)) else none
      | _ => none }

/-- The functions called by `Proto3::parse`: manipulators, constructors (an iterator over a stream with `skipws` leaves out the white
space), `parseProto` and `findMessage`, which work on the object through the context. -/
def parseLib (s : Bool) (N : Nat) : ThrowLib SVal Parsing where
  base := parseBase s
  function := fun p w args =>
    match args with
    | [.dom .stream] =>
      if p = [n!"std", n!"noskipws"] then .ok (.dom .stream, [], { w with skipws := false })
      else if p = [n!"std", n!"skipws"] then .ok (.dom .stream, [], { w with skipws := true })
      else if p = [n!"std :: istream_iterator < char >"] then
        .ok (.dom (.begin (if w.skipws then w.text.filter fun c => !isSpace c else w.text)), [], w)
      else .undef
    | [.dom (.begin t), .dom .theEnd] =>
      if p = [n!"InputStream < std :: istream_iterator < char > >"] then .ok (.dom (.input (In.open t)), [], w) else .undef
    | [.dom (.input i)] =>
      if p = [n!"Tokenizer < std :: istream_iterator < char > >"] then .ok (.dom (.tokens i), [], w) else .undef
    | [.dom (.tokens i), .dom .object, .dom (.input _)] =>
      if p = [n!"ProtoContext"] then .ok (.dom (.ctx i), [], { w with tree := { w.tree with package := [] } }) else .undef
    | [.dom (.ctx i)] =>
      if p = [n!"parseProto"] then
        (ranOf (parseProto (Proto.lex N) N N w.tree { cur := Tok.default, ungot := false, src := i })).bind fun t =>
          .ok (.void, [], { w with tree := t })
      else .undef
    | [.dom (.ctx _), .str q] =>
      if p = [n!"findMessage"] then
        match findMessage w.tree.messages q with
        | none => .ok (.dom .null, [], w)
        | some i => .ok (.dom (.shared i), [], w)
      else .undef
    | [.str t] => if p = [n!"exception"] then .ok (.dom (.exc (.exception t 0 0)), [], w) else .undef
    | [.dom (.exc e)] => if p = [n!"throw"] then .thrown e else .undef
    | _ => .undef
  method := fun m w args =>
    match args with
    | [.dom .stream] => if m = n!"flags" then .ok (.dom (.flags w.skipws), [], w) else .undef
    | _ => .undef
  caught := fun t e w =>
    match e with
    | .exception x l c => if t = n!"exception &" then some (.dom (.exc (.exception x l c)), w) else none
    | _ => none

/-! ### The constructor of `Tokenizer` -/

/-- The input, and the object with the members as far as they are initialized (proto3.cc:285-286, 376; `current` has a default
constructor). -/
inductive NewVal
  | input (s : In)
  | self (inp : Option In) (cur : Token) (ungot : Option Bool)

/-- The state is the object. -/
def lexNewLib (σ : Bool) : ThrowLib NewVal (Option In × Token × Option Bool) where
  base := { plain σ with
    constant := fun p => if p = [n!"false"] then some (.bool false) else none
    get := fun n s => if n = n!"this" then some (.dom (.self s.1 s.2.1 s.2.2)) else none
    set := fun n v _ =>
      match v with
      | .dom (.self i c u) => if n = n!"this" then some (i, c, u) else none
      | _ => none
    member := fun v n _ =>
      match v with
      | .dom (.self i _ u) =>
        if n = n!"is" then
          match i with
          | some i => some (.dom (.input i))
          | none => some (.undef none)
        else if n = n!"ungot" then
          match u with
          | some u => some (.bool u)
          | none => some (.undef none)
        else none
      | _ => none
    update := fun v n x =>
      match v, x with
      | .dom (.self i c _), .bool b => if n = n!"ungot" then some (.dom (.self i c (some b))) else none
      | .dom (.self _ c u), .dom (.input i) => if n = n!"is" then some (.dom (.self (some i) c u)) else none
      | _, _ => none }
  function := fun _ _ _ => .undef
  method := fun _ _ _ => .undef
  caught := fun _ _ _ => none

end PG.Cxx.Schema
