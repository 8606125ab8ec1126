import Verif.Proofs.ProtoParsed
/-
C94: the functions of proto3.cc (input stream, tokenizer, parser of schemas), parsed and executed as C++ with exceptions
(Spec/CxxThrow.lean), do what those of the model do.
-/
set_option autoImplicit false
namespace PG.Cxx.Throw
open PG.Proto PG.Cxx.Schema

/-- The lines of proto3.cc are a function with a property. -/
def Written (a b : Nat) (P : Fun → Prop) : Prop := ∃ f, Fun.of [] 60 (protoText a b) = some f ∧ P f

/-! ### The input stream -/

/-- C94: the functions of `InputStream`: constructor, `eof`, `unget`, `line`, `column`, `skipws` and `expect`, for all streams. -/
theorem C94_stream (σ : Bool) :
    Written 188 191 (fun f => ∀ n s (text : Bytes), run (inputLib σ) n f [.dom (.pos text), .dom .theEnd] s =
      .ok (.void, [.dom (.pos text), .dom .theEnd], In.open text)) ∧
    Written 193 196 (fun f => ∀ n (s : In), run (inputLib σ) n f [] s = .ok (.bool (decide (s.last = -2)), [], s)) ∧
    Written 222 229 (fun f => ∀ n (s : In), run (inputLib σ) n f [] s =
      (ranOf s.unget).bind fun s => .ok (.void, [], s)) ∧
    Written 233 233 (fun f => ∀ n (s : In), run (inputLib σ) n f [] s = .ok (.int .i32 s.line, [], s)) ∧
    Written 235 235 (fun f => ∀ n (s : In), run (inputLib σ) n f [] s = .ok (.int .i32 s.col, [], s)) ∧
    Written 237 247 (fun f => ∀ n (s : In), run (inputLib σ) n f [] s =
      (ranOf (In.skipws n s)).bind fun s => .ok (.void, [], s)) ∧
    Written 249 257 (fun f => ∀ n (s : In) (e : Int), run (inputLib σ) n f [.int .i32 e] s =
      (ranOf (s.expect e)).bind fun r => .ok (.bool r.1, [.int .i32 e], r.2)) :=
  ⟨⟨_, inNewFun_text, new_runs⟩, ⟨_, inEofFun_text, eof_runs⟩, ⟨_, inUngetFun_text, unget_runs⟩,
   ⟨_, inLineFun_text, line_runs⟩, ⟨_, inColFun_text, col_runs⟩, ⟨_, inSkipFun_text, skipws_runs⟩,
   ⟨_, inExpectFun_text, expect_runs⟩⟩

/-- The states of a stream over a text: members are private, so nothing but `get` and `unget` changes it. -/
inductive Reached (text : Bytes) : In → Prop
  | opened : Reached text (In.open text)
  | get {s : In} : Reached text s → Reached text s.get.2
  | unget {s t : In} : Reached text s → s.unget = .ok t → Reached text t

theorem reached_below {text : Bytes} {s : In} (h : Reached text s) : Below (text.length + 1) s := by
  induction h with
  | opened => exact below_open text
  | get _ ih => exact below_get ih
  | unget _ e ih => exact below_unget ih e

/-- C94: `get` reads the next character and counts lines and columns as the model does, in all states that a text of less than
2147483646 characters allows. -/
theorem C94_get (σ : Bool) :
    Written 198 220 (fun f => ∀ n (text : Bytes) (s : In), text.length < 2147483646 → Reached text s →
      run (inputLib σ) n f [] s = .ok (.int .i32 s.get.1, [], s.get.2)) :=
  ⟨_, inGetFun_text, fun n text s ht hs => by
    have h := below_counters (reached_below hs)
    exact get_runs n s (by omega) (by omega)⟩

/-- C94 is false of `get` for longer texts: counters are of type `int`, and going past the last number is undefined. -/
theorem C94_get_is_false (σ : Bool) :
    Written 198 220 (fun f => ∀ n (s : In), s.ungot = false →
      ((s.last = 10 ∧ s.line = 2147483647) ∨ (s.last ≠ 10 ∧ s.rest ≠ [] ∧ s.col = 2147483647)) →
      run (inputLib σ) n f [] s = .undef) :=
  ⟨_, inGetFun_text, get_overflows⟩

/-- Reading on from a place. -/
def gets : Nat → In → In
  | 0, s => s
  | n + 1, s => gets n s.get.2

theorem Reached.gets {text : Bytes} {s : In} (n : Nat) (h : Reached text s) : Reached text (gets n s) := by
  induction n generalizing s with
  | zero => exact h
  | succ n ih => exact ih h.get

/-- In a text of one line the column is the number of characters read. -/
theorem gets_col (n : Nat) (k c : Nat) (b : Int) (hb : b ≠ 10) (line : Nat) :
    gets n ⟨List.replicate (n + k) 97, b, line, c, false⟩ = ⟨List.replicate k 97, if n = 0 then b else 97, line, c + n, false⟩ := by
  induction n generalizing c b with
  | zero => simp [gets]
  | succ n ih =>
    have h : (In.get ⟨List.replicate (n + 1 + k) 97, b, line, c, false⟩).2 = ⟨List.replicate (n + k) 97, 97, line, c + 1, false⟩ := by
      have e : n + 1 + k = (n + k) + 1 := by omega
      rw [e, List.replicate_succ]
      simp [In.get, In.newline, hb]
    simp only [gets]
    rw [h, ih _ _ (by decide)]
    simp
    omega

/-- C94: that happens: a line of 2147483648 letters gets there. -/
theorem C94_get_overflow_is_reached :
    ∃ s, Reached (List.replicate 2147483648 97) s ∧ s.ungot = false ∧ s.last ≠ 10 ∧ s.rest ≠ [] ∧ s.col = 2147483647 := by
  have h := gets_col 2147483647 1 0 (-1) (by decide) 1
  refine ⟨_, Reached.gets 2147483647 .opened, ?_⟩
  have e : In.open (List.replicate 2147483648 97) = ⟨List.replicate (2147483647 + 1) 97, -1, 1, 0, false⟩ := rfl
  rw [e, h]
  refine ⟨rfl, ?_, ?_, rfl⟩
  · simp
  · simp

/-- C94: `cur` is the next character, and nothing at the end. -/
theorem C94_cur (σ : Bool) :
    Written 231 231 (fun f => ∀ n (s : In), run (inputLib σ) n f [] s =
      match s.rest with
      | [] => .undef
      | c :: _ => .ok (.int .i32 (IT.ofByte σ c), [], s)) :=
  ⟨_, inCurFun_text, cur_runs⟩

/-- Two characters and a line feed: the counters after them, and `expect` of something else gives the character back. -/
example : (gets 4 (In.open b!"ab\nc")).line = 2 ∧ (gets 4 (In.open b!"ab\nc")).col = 1 ∧
    (In.open b!"ab").expect 98 = .ok (false, ⟨b!"b", 97, 1, 1, true⟩) := by decide +kernel

/-! ### The tokenizer -/

/-- C94: the functions of `Tokenizer`: `unget`, `next`, `comment`, `qname`, `name`, `integer` and `literalString`, and the
constructor of `Token`, with exceptions of the same text and position. -/
theorem C94_tokenizer (σ : Bool) :
    Written 267 270 (fun f => ∀ n (k l c : Int) (x : Bytes) t,
      run (tokenLib σ) n f [.int .i32 k, .str x, .int .i32 l, .int .i32 c] t =
        .ok (.void, [.int .i32 k, .str x, .int .i32 l, .int .i32 c], ⟨k, x, l, c⟩)) ∧
    Written 292 297 (fun f => ∀ n N (tk : Tk In), run (lexLib σ N) n f [] (Lexer.of tk) =
      (ranOf tk.unget).bind fun tk => .ok (.void, [], Lexer.of tk)) ∧
    Written 299 373 (fun f => ∀ n (tk : Tk In), 0 < n → run (lexLib σ n) n f [] (Lexer.of tk) =
      (ranOf (tk.next (Proto.lex n))).bind fun tk => .ok (.dom (.tok (Token.of tk.cur)), [], Lexer.of tk)) ∧
    Written 378 401 (fun f => ∀ n N (s : Lexer), ((run (lexLib σ N) n f [] s).bind fun r => .ok r.2.2) =
      (ranOf (comment n s.inp)).bind fun i => .ok { s with inp := i }) ∧
    Written 403 433 (fun f => ∀ n (l c : Nat) (s : Lexer), 26 ≤ n → run (lexLib σ n) n f [.int .i32 l, .int .i32 c] s =
      (ranOf (qname n l c s.inp)).bind fun r =>
        .ok (.dom (.tok (Token.of r.1)), [.int .i32 l, .int .i32 c], { s with inp := r.2 })) ∧
    Written 435 448 (fun f => ∀ n N (s : Lexer), run (lexLib σ N) n f [] s =
      (ranOf (nameLoop n true [] s.inp)).bind fun r => .ok (.str r.1, [], { s with inp := r.2 })) ∧
    Written 450 467 (fun f => ∀ n N (k : Int) (l c : Nat) (s : Lexer),
      run (lexLib σ N) n f [.int .i32 k, .int .i32 l, .int .i32 c] s =
        (ranOf (integer n k l c s.inp)).bind fun r =>
          .ok (.dom (.tok (Token.of r.1)), [.int .i32 k, .int .i32 l, .int .i32 c], { s with inp := r.2 })) ∧
    Written 469 482 (fun f => ∀ n N (l c : Nat) (s : Lexer), run (lexLib σ N) n f [.int .i32 l, .int .i32 c] s =
      (ranOf (stringLoop l c n [] s.inp)).bind fun r =>
        .ok (.dom (.tok (Token.of r.1)), [.int .i32 l, .int .i32 c], { s with inp := r.2 })) :=
  ⟨⟨_, tokNewFun_text, tokNew_runs⟩, ⟨_, lexUngetFun_text, fun n _ => lexUnget_runs n⟩,
   ⟨_, lexNextFun_text, fun n tk hn => next_runs n hn tk⟩, ⟨_, commentFun_text, fun n _ => comment_runs n⟩,
   ⟨_, qnameFun_text, qname_runs⟩, ⟨_, nameFun_text, fun n _ => name_runs n⟩,
   ⟨_, integerFun_text, fun n _ => integer_runs n⟩, ⟨_, Schema.stringFun_text, fun n _ => string_runs n⟩⟩

/-- A comment, a keyword and a qualified name as the tokenizer reads them, and a character that starts no token. -/
example : (((⟨⟨.eof, [], 1, 1⟩, false, In.open b!"/* x */ repeated a.b"⟩ : Tk In).next (Proto.lex 40)).bind fun t =>
      (t.next (Proto.lex 40)).bind fun u => .ok (t.cur.code, u.cur)) = .ok (.repeated, ⟨.qname, b!"a.b", 1, 18⟩) ∧
    (match ranOf (Proto.lex 40 (In.open b!"\n $")) with
      | .thrown (.exception _ l c) => some (l, c)
      | _ => none) = some (2, 2) := by decide +kernel

/-! ### The parser -/

/-- C94: the functions of the parser, for all sources `nx` of tokens: the effect on the tokenizer, on the schema and on the
message is that of the functions of the model, and so are the exceptions. -/
theorem C94_parser (s : Bool) {σ : Type} (nx : σ → Out (Tok × σ)) :
    Written 522 560 (fun f => ∀ n N (c : Ctx σ), run (parserLib s nx N) n f [.dom (.ctx c)] () =
      (ranOf (parseOption nx c.tk)).bind fun r => .ok (.dom (.option r.1), [.dom (.ctx { c with tk := r.2 })], ())) ∧
    Written 562 574 (fun f => ∀ n N (c : Ctx σ) (m : OptMap), run (parserLib s nx N) n f [.dom (.ctx c), .dom (.options m)] () =
      (ranOf (parseFieldOptions nx n m c.tk)).bind fun r =>
        .ok (.void, [.dom (.ctx { c with tk := r.2 }), .dom (.options r.1)], ())) ∧
    Written 577 588 (fun f => ∀ n N (c : Ctx σ) (m : OptMap), run (parserLib s nx N) n f [.dom (.ctx c), .dom (.options m)] () =
      (ranOf (parseStandardOption nx m c.tk)).bind fun r =>
        .ok (.void, [.dom (.ctx { c with tk := r.2 }), .dom (.options r.1)], ())) ∧
    Written 591 596 (fun f => ∀ n N (c : Ctx σ) (q : Bytes), c.tree.messages.length < n →
      run (parserLib s nx N) n f [.dom (.ctx c), .str q] () =
        .ok (.dom (found c.tree.messages q), [.dom (.ctx c), .str q], ())) ∧
    Written 599 688 (fun f => ∀ n N (c : Ctx σ) (m : Message), m.fields.length < n →
      run (parserLib s nx N) n f [.dom (.ctx c), .dom (.msg m)] () =
        (ranOf (parseField nx N c.tree.messages m c.tk)).bind fun r =>
          .ok (.void, [.dom (.ctx { c with tk := r.2 }), .dom (.msg r.1)], ())) ∧
    Written 690 718 (fun f => ∀ n (c : Ctx σ), run (parserLib s nx n) n f [.dom (.ctx c)] () =
      (ranOf (parseMessage nx n c.tree c.tk)).bind fun r => .ok (.void, [.dom (.ctx ⟨r.2, r.1⟩)], ())) ∧
    Written 720 727 (fun f => ∀ n N (c : Ctx σ), run (parserLib s nx N) n f [.dom (.ctx c)] () =
      (ranOf (parsePackage nx c.tree c.tk)).bind fun r => .ok (.void, [.dom (.ctx ⟨r.2, r.1⟩)], ())) ∧
    Written 729 743 (fun f => ∀ n N (c : Ctx σ), run (parserLib s nx N) n f [.dom (.ctx c)] () =
      (ranOf (parseSyntax nx c.tk)).bind fun tk => .ok (.void, [.dom (.ctx { c with tk })], ())) ∧
    Written 745 771 (fun f => ∀ n (c : Ctx σ), ((run (parserLib s nx n) n f [.dom (.ctx c)] ()).bind fun r =>
      match r.2.1 with
      | [.dom (.ctx c)] => .ok c.tree
      | _ => .undef) = ranOf (parseProto nx n n c.tree c.tk)) ∧
    Written 515 519 (fun f => ∀ n (m : Message), run (messageLib s) n f [] m = .ok (.str m.qualifiedName, [], m)) :=
  ⟨⟨_, optionFun_text, fun n _ => option_runs n⟩, ⟨_, optionsFun_text, fun n _ => options_runs n⟩,
   ⟨_, standardFun_text, fun n _ => standard_runs n⟩, ⟨_, findFun_text, fun n _ c q hn => find_runs n c q hn⟩,
   ⟨_, Schema.fieldFun_text, fun n _ c m hn => field_runs n c m hn⟩, ⟨_, messageFun_text, message_runs⟩,
   ⟨_, packageFun_text, fun n _ => package_runs n⟩, ⟨_, syntaxFun_text, fun n _ => syntax_runs n⟩,
   ⟨_, protoFun_text, proto_runs⟩, ⟨_, qualFun_text, qual_runs⟩⟩

/-- A schema with two messages, of which the second has a field of the first. -/
example : (match parseProto (Proto.lex 90) 90 90 Tree.empty
      ⟨⟨.eof, [], 1, 1⟩, false, In.open b!"package p; message A { int32 x = 1; } message B { A y = 2; }"⟩ with
    | .ok t => t.messages.map fun m => (m.qualifiedName, m.fields.map fun f => (f.name, f.index, f.type.ref))
    | _ => []) = [(b!"p.A", [(b!"x", 1, none)]), (b!"p.B", [(b!"y", 2, some 0)])] := by decide +kernel

/-- C94: `Proto3::parse` of an empty object reads the whole text of the stream whether or not the stream skips white space, builds
the schema of the model's `parse` (types used before they are declared are resolved), stores the name of the file, and leaves the
flag of the stream as it was; the exceptions are those of the model.  Loops of the called functions make at most `N` iterations. -/
theorem C94_parse (s : Bool) :
    Written 773 809 (fun f => ∀ n N (w : Parsing) (fileName : Bytes), w.tree = Tree.empty → N < n → N < 18446744073709551616 →
      run (parseLib s N) n f [.dom .stream, .str fileName] w =
        (ranOf (Proto.parse N w.text)).bind fun t => .ok (.void, [.dom .stream, .str fileName], { w with tree := t, fileName })) :=
  ⟨_, parseFun_text, fun n _ w fn hw hn hN => parse_text n fn w hw hn hN⟩

/-- C94: the constructor of `Tokenizer` initializes the members that have no default. -/
theorem C94_tokenizer_new (σ : Bool) :
    Written 288 290 (fun f => ∀ n (i : In) (t : Schema.Token), run (lexNewLib σ) n f [.dom (.input i)] (none, t, none) =
      .ok (.void, [.dom (.input i)], (some i, t, some false))) :=
  ⟨_, lexNewFun_text, lexNew_runs σ⟩

/-- A field of a message that is declared later; a field of one that is not declared. -/
example : (match Proto.parse 90 b!"message B { A y = 2; } message A { int32 x = 1; }" with
    | .ok t => t.messages.map fun m => (m.name, m.fields.map fun f => (f.name, f.type.ref))
    | _ => []) = [(b!"B", [(b!"y", some 1)]), (b!"A", [(b!"x", none)])] ∧
    (match ranOf (Proto.parse 90 b!"message B { A y = 2; }") with
    | .thrown (.exception t l c) => some (t, l, c)
    | _ => none) = some (b!"Unable to find message 'A'", 0, 0) := by decide +kernel

end PG.Cxx.Throw
