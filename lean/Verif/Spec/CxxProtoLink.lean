import Verif.Spec.CxxProto
import Verif.Spec.ProtoText
import Verif.Spec.CxxParse
import Verif.Proofs.CxxThrowMono
/-
The functions of the tokenizer and of the parser of schemas (proto3.cc:292-482 and 521-809) calling each other: where `lexLib` and
`parserLib` (Spec/CxxProto.lean) give a function its meaning, its text is parsed and executed instead, and the same is done for what it
calls.  What is not defined by a text here: the functions of `InputStream` (they have theorems of their own, C94), constructors, methods of
containers, `strtol`, `throw`.
-/
set_option autoImplicit false
namespace PG.Cxx.Throw
open PG.Proto PG.Cxx.Schema

/-! ### The tokenizer -/

/-- The text in some lines of proto3.cc as a function without arguments by reference. -/
def lexCalled (L : ThrowLib LexVal Lexer) (N a b : Nat) : Thrower LexVal Lexer := fun s args =>
  (Ran.of (Fun.of [] 60 (protoText a b))).bind fun f => (run L N f args s).bind fun r => .ok (r.1, [], r.2.2)

/-- The methods called by the functions of `Tokenizer`, with the text of `name` (proto3.cc:435-448). -/
def lexMethods (σ : Bool) (N : Nat) : Name → Thrower LexVal Lexer := fun m s args =>
  match args with
  | [.dom .self] => if m = n!"name" then lexCalled (lexLib σ N) N 435 448 s [] else .undef
  | args => (lexLib σ N).method m s args

/-- The library in which `name` is its text. -/
def namedLexer (σ : Bool) (N : Nat) : ThrowLib LexVal Lexer := with' (lexLib σ N) (lexLib σ N).function (lexMethods σ N)

/-- The functions called by `Tokenizer::next`, as texts: `comment` (proto3.cc:378-401), `qname` (403-433, which calls `name`), `integer`
(450-467), `literalString` (469-482).  What `comment` returns is not used (330), so it is left undefined. -/
def lexFunctions (σ : Bool) (N : Nat) : List Name → Thrower LexVal Lexer := fun p s args =>
  if p = [n!"comment"] then (lexCalled (namedLexer σ N) N 378 401 s args).bind fun r => .ok (.undef none, [], r.2.2)
  else if p = [n!"qname"] then lexCalled (namedLexer σ N) N 403 433 s args
  else if p = [n!"integer"] then lexCalled (namedLexer σ N) N 450 467 s args
  else if p = [n!"literalString"] then lexCalled (namedLexer σ N) N 469 482 s args
  else (lexLib σ N).function p s args

/-- The library in which all of them are texts. -/
def linkedLexer (σ : Bool) (N : Nat) : ThrowLib LexVal Lexer := with' (lexLib σ N) (lexFunctions σ N) (lexMethods σ N)

/-- All codes of tokens (proto3.cc:30-70). -/
def allCodes : List Code :=
  [.eof, .message, .name, .equal, .repeated, .syntax, .qname, .string, .integer, .enum, .scolon, .package, .lt, .gt, .map, .comma,
    .begin, .end, .option, .true, .false, .lbracket, .rbracket, .optional] ++ scalars.map Code.ty

/-- The token of the model for one of the code, if there is one. -/
def tokOf (t : Schema.Token) : Option Tok :=
  match t.line, t.col with
  | .ofNat l, .ofNat c => (allCodes.find? fun k => (k.num : Int) = t.code).map fun k => ⟨k, t.value, l, c⟩
  | _, _ => none

/-- The tokenizer of the model for one of the code. -/
def tkOf (s : Lexer) : Option (Tk In) := (tokOf s.cur).map fun t => { cur := t, ungot := s.ungot, src := s.inp }

/-- The token that a function returns. -/
def tokenValue : Val LexVal → Option Tok
  | .dom (.tok t) => tokOf t
  | _ => none

/-- `next` and `unget` of the tokenizer as the parser calls them (proto3.cc:299-373, 292-297), as texts that call texts; the other methods
are those of containers and of `Message`. -/
def parserMethods (s : Bool) (N : Nat) : Name → Thrower (PVal In) Unit := fun m u args =>
  match args with
  | [.dom (.tokens tk)] =>
    if m = n!"next" then
      (lexCalled (linkedLexer s N) N 299 373 (Lexer.of tk) []).bind fun r => (Ran.of (tkOf r.2.2)).bind fun tk =>
        (Ran.of (tokenValue r.1)).bind fun t => .ok (.dom (.tok t), [some (.dom (.tokens tk))], ())
    else if m = n!"unget" then
      (lexCalled (linkedLexer s N) N 292 297 (Lexer.of tk) []).bind fun r => (Ran.of (tkOf r.2.2)).bind fun tk =>
        .ok (.void, [some (.dom (.tokens tk))], ())
    else .undef
  | args => (parserLib s (Proto.lex N) N).method m u args

/-! ### The parser -/

/-- Where the texts are, in proto3.cc. -/
def protoLines (f : Name) : Option (Nat × Nat) :=
  if f = n!"parseOption" then some (522, 560)
  else if f = n!"parseFieldOptions" then some (562, 574)
  else if f = n!"parseStandardOption" then some (577, 588)
  else if f = n!"findMessage" then some (591, 596)
  else if f = n!"parseField" then some (599, 688)
  else if f = n!"parseMessage" then some (690, 718)
  else if f = n!"parsePackage" then some (720, 727)
  else if f = n!"parseSyntax" then some (729, 743)
  else none

/-- The functions (proto3.cc:521-743). -/
def protoCode (f : Name) : Option Fun := (protoLines f).bind fun l => Fun.of [] 60 (protoText l.1 l.2)

/-- The new values of the arguments that are passed by reference. -/
def changed {D : Type} (params : List (Name × Name)) (last : List (Val D)) : List (Option (Val D)) :=
  (params.zip last).map fun q =>
    if q.1.1 = n!"ProtoContext &" ∨ q.1.1 = n!"OptionMap &" ∨ q.1.1 = n!"Message &" then some q.2 else none

/-- How often the loops of a function may be executed: `findMessage` has one over the messages, `parseField` one over the fields, the
others consume tokens (proto3.cc:593, 683). -/
def loops {σ : Type} (N : Nat) (f : Name) (args : List (Val (PVal σ))) : Nat :=
  match args with
  | [.dom (.ctx c), .str _] => if f = n!"findMessage" then c.tree.messages.length + 1 else N
  | [.dom (.ctx _), .dom (.msg m)] => if f = n!"parseField" then m.fields.length + 1 else N
  | _ => N

section
variable (s : Bool) {σ : Type} (nx : σ → Out (Tok × σ)) (N : Nat) (M : Name → Thrower (PVal σ) Unit)

/-- The functions of the library with others in place of those that have a text. -/
def linkedFunction (T : Name → Thrower (PVal σ) Unit) : List Name → Thrower (PVal σ) Unit := fun p u args =>
  match p with
  | [f] => if (protoLines f).isSome then T f u args else (parserLib s nx N).function [f] u args
  | p => (parserLib s nx N).function p u args

/-- What the text of a function does if calls nest at most as deep as given; `M` are the methods. -/
def deepParse : Nat → Name → Thrower (PVal σ) Unit
  | 0, _ => fun _ _ => .undef
  | k + 1, f => fun u args => (Ran.of (protoCode f)).bind fun c =>
    (run (with' (parserLib s nx N) (linkedFunction s nx N (deepParse k)) M) (loops N f args) c args u).bind fun r =>
      .ok (r.1, changed c.params r.2.1, r.2.2)

/-- The library in which the functions of the parser are their texts, wherever they are called from: calls nest at most four deep. -/
def linkedParser : ThrowLib (PVal σ) Unit := with' (parserLib s nx N) (linkedFunction s nx N (deepParse s nx N M 4)) M
end

/-- The context of a parser that has not begun (proto3.cc:486-498, 783). -/
def startOf (i : In) (t : Tree) : Ctx In := ⟨{ cur := Tok.default, ungot := false, src := i }, t⟩

/-- What a context is left with. -/
def treeOf : List (Val (PVal In)) → Ran Tree
  | [.dom (.ctx c)] => .ok c.tree
  | _ => .undef

/-- proto3.cc:745-771, the text of `parseProto`, which calls the texts of the others and those of the tokenizer. -/
def protoCalled (s : Bool) (N : Nat) (i : In) (t : Tree) : Ran Tree :=
  (Ran.of (Fun.of [] 60 (protoText 745 771))).bind fun f =>
    (run (linkedParser s (Proto.lex N) N (parserMethods s N)) N f [.dom (.ctx (startOf i t))] ()).bind fun r => treeOf r.2.1

/-- The pointer that is returned (proto3.cc:591-596). -/
def pointerOf : Val (PVal In) → Ran SVal
  | .dom .null => .ok .null
  | .dom (.shared k _) => .ok (.shared k)
  | _ => .undef

/-- proto3.cc:591-596, the text of `findMessage`. -/
def findCalled (s : Bool) (N : Nat) (i : In) (t : Tree) (q : Bytes) : Ran SVal :=
  (deepParse s (Proto.lex N) N (parserMethods s N) 1 n!"findMessage" () [.dom (.ctx (startOf i t)), .str q]).bind fun r =>
    pointerOf r.1

/-- What `Proto3::parse` calls (proto3.cc:773-809), with the texts of `parseProto` and `findMessage` in place of their meaning. -/
def linkedParse (s : Bool) (N : Nat) : ThrowLib SVal Parsing :=
  with' (parseLib s N)
    (fun p w args =>
      match args with
      | [.dom (.ctx i)] =>
        if p = [n!"parseProto"] then (protoCalled s N i w.tree).bind fun t => .ok (.void, [], { w with tree := t }) else .undef
      | [.dom (.ctx i), .str q] =>
        if p = [n!"findMessage"] then (findCalled s N i w.tree q).bind fun v => .ok (.dom v, [], w) else .undef
      | args => (parseLib s N).function p w args)
    (parseLib s N).method

end PG.Cxx.Throw
