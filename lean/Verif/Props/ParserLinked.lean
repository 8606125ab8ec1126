import Verif.Proofs.CxxProtoLink
import Verif.Props.Parser
/-
C100: the functions of the parser of schemas (proto3.cc:521-809), parsed and executed as C++ where each call of one of them executes the
text of that one (Spec/CxxProtoLink.lean), do what the parser of the model does.
-/
set_option autoImplicit false
namespace PG.Cxx.Throw
open PG.Proto PG.Cxx.Schema

/-- C100: all of them are parsed. -/
theorem C100_texts (f : Name) (h : (protoLines f).isSome = true) : ∃ c, protoCode f = some c :=
  protoLines_cases (Q := fun f => ∃ c, protoCode f = some c) h ⟨_, protoCode_of rfl optionFun_text⟩ ⟨_, protoCode_of rfl optionsFun_text⟩
    ⟨_, protoCode_of rfl standardFun_text⟩ ⟨_, protoCode_of rfl findFun_text⟩ ⟨_, protoCode_of rfl Schema.fieldFun_text⟩
    ⟨_, protoCode_of rfl messageFun_text⟩ ⟨_, protoCode_of rfl packageFun_text⟩ ⟨_, protoCode_of rfl syntaxFun_text⟩

/-- What is defined with the library is the same with the texts. -/
theorem deepParse_eq {s : Bool} {σ : Type} {nx : σ → Out (Tok × σ)} {N k : Nat} {M : Name → Thrower (PVal σ) Unit} (hM : Methods s nx N M) {f : Name} {args : List (Val (PVal σ))}
    {r : Ran (Val (PVal σ) × List (Option (Val (PVal σ))) × Unit)} (hf : (protoLines f).isSome = true) (hk : protoRank f < k)
    (h : (parserLib s nx N).function [f] () args = r) (hr : r ≠ .undef) : deepParse s nx N M k f () args = r := by
  rcases deepParse_model hM k f () args hf hk with e | e
  · exact absurd (h.symm.trans e) hr
  · exact e.trans h

theorem bind_defined {α β : Type} (o : Out α) (f : α → β) : ((ranOf o).bind fun r => .ok (f r)) ≠ Ran.undef := by
  cases o <;> exact nofun

/-- C100: the functions as texts that call each other, for all sources `nx` of tokens and all contexts: the value that is returned, the
effect on the tokenizer, on the schema, on the options and on the message, and the exceptions are those of the model.  Calls nest at most
four deep. -/
theorem C100_functions (s : Bool) {σ : Type} (nx : σ → Out (Tok × σ)) (N k : Nat) (hk : 4 ≤ k) (c : Ctx σ) :
    deepParse s nx N (parserLib s nx N).method k n!"parseOption" () [.dom (.ctx c)] =
      ((ranOf (parseOption nx c.tk)).bind fun r => .ok (.dom (.option r.1), [some (.dom (.ctx { c with tk := r.2 }))], ())) ∧
    (∀ m, deepParse s nx N (parserLib s nx N).method k n!"parseFieldOptions" () [.dom (.ctx c), .dom (.options m)] =
      ((ranOf (parseFieldOptions nx N m c.tk)).bind fun r =>
        .ok (.void, [some (.dom (.ctx { c with tk := r.2 })), some (.dom (.options r.1))], ()))) ∧
    (∀ m, deepParse s nx N (parserLib s nx N).method k n!"parseStandardOption" () [.dom (.ctx c), .dom (.options m)] =
      ((ranOf (parseStandardOption nx m c.tk)).bind fun r =>
        .ok (.void, [some (.dom (.ctx { c with tk := r.2 })), some (.dom (.options r.1))], ()))) ∧
    (∀ q, deepParse s nx N (parserLib s nx N).method k n!"findMessage" () [.dom (.ctx c), .str q] =
      .ok (.dom (found c.tree.messages q), [some (.dom (.ctx c)), none], ())) ∧
    (∀ m, deepParse s nx N (parserLib s nx N).method k n!"parseField" () [.dom (.ctx c), .dom (.msg m)] =
      ((ranOf (parseField nx N c.tree.messages m c.tk)).bind fun r =>
        .ok (.void, [some (.dom (.ctx { c with tk := r.2 })), some (.dom (.msg r.1))], ()))) ∧
    deepParse s nx N (parserLib s nx N).method k n!"parseMessage" () [.dom (.ctx c)] =
      ((ranOf (parseMessage nx N c.tree c.tk)).bind fun r => .ok (.void, [some (.dom (.ctx ⟨r.2, r.1⟩))], ())) ∧
    deepParse s nx N (parserLib s nx N).method k n!"parsePackage" () [.dom (.ctx c)] =
      ((ranOf (parsePackage nx c.tree c.tk)).bind fun r => .ok (.void, [some (.dom (.ctx ⟨r.2, r.1⟩))], ())) ∧
    deepParse s nx N (parserLib s nx N).method k n!"parseSyntax" () [.dom (.ctx c)] =
      ((ranOf (parseSyntax nx c.tk)).bind fun tk => .ok (.void, [some (.dom (.ctx { c with tk := tk }))], ())) := by
  have hr : ∀ {f : Name}, (protoLines f).isSome = true → protoRank f < k := fun h => Nat.lt_of_lt_of_le (rank_lt_four h) hk
  have own : Methods s nx N (parserLib s nx N).method := fun _ _ _ => Le.refl _
  refine ⟨deepParse_eq own rfl (hr rfl) (by rfl) (bind_defined _ _), fun m => deepParse_eq own rfl (hr rfl) (by rfl) (bind_defined _ _),
    fun m => deepParse_eq own rfl (hr rfl) (by rfl) (bind_defined _ _), fun q => deepParse_eq own rfl (hr rfl) (by rfl) nofun,
    fun m => deepParse_eq own rfl (hr rfl) (by rfl) (bind_defined _ _), deepParse_eq own rfl (hr rfl) (by rfl) (bind_defined _ _),
    deepParse_eq own rfl (hr rfl) (by rfl) (bind_defined _ _), deepParse_eq own rfl (hr rfl) (by rfl) (bind_defined _ _)⟩

/-- C100: `parseProto`, whose calls execute texts, builds the schema of the model from any source of tokens. -/
theorem C100_proto (s : Bool) {σ : Type} (nx : σ → Out (Tok × σ)) :
    Written 745 771 (fun f => ∀ n (c : Ctx σ), ((run (linkedParser s nx n (parserLib s nx n).method) n f [.dom (.ctx c)] ()).bind fun r =>
      match r.2.1 with
      | [.dom (.ctx c)] => .ok c.tree
      | _ => .undef) = ranOf (parseProto nx n n c.tree c.tk)) :=
  ⟨_, protoFun_text, fun n => linked_proto n fun _ _ _ => Le.refl _⟩

/-- C100: `next` and `unget` of the tokenizer, whose calls of `comment`, `qname`, `name`, `integer` and `literalString` execute texts, are
those of the model in every state (the loop of `qname` over the keywords needs 26 iterations). -/
theorem C100_tokenizer (σ : Bool) :
    Written 299 373 (fun f => ∀ N (tk : Tk In), 26 ≤ N → run (linkedLexer σ N) N f [] (Lexer.of tk) =
      (ranOf (tk.next (Proto.lex N))).bind fun tk => .ok (.dom (.tok (Token.of tk.cur)), [], Lexer.of tk)) ∧
    Written 292 297 (fun f => ∀ N (tk : Tk In), 26 ≤ N → run (linkedLexer σ N) N f [] (Lexer.of tk) =
      (ranOf tk.unget).bind fun tk => .ok (.void, [], Lexer.of tk)) :=
  ⟨⟨_, lexNextFun_text, fun _ tk hN => lexer_next hN tk⟩, ⟨_, lexUngetFun_text, fun _ tk hN => lexer_unget hN tk⟩⟩

/-- C100: `Proto3::parse`, where `parseProto` and `findMessage`, all that they call and `next` and `unget` of the tokenizer with all that
they call are texts, reads the stream, builds the schema of the model and throws the exceptions of the model. -/
theorem C100_parse (s : Bool) :
    Written 773 809 (fun f => ∀ n N (w : Parsing) (fileName : Bytes), w.tree = Tree.empty → 26 ≤ N → N < n → N < 18446744073709551616 →
      run (linkedParse s N) n f [.dom .stream, .str fileName] w =
        (ranOf (Proto.parse N w.text)).bind fun t => .ok (.void, [.dom .stream, .str fileName], { w with tree := t, fileName })) :=
  ⟨_, parseFun_text, fun n _ w fn hw h26 hn hN => linked_parse n h26 fn w hw hn hN⟩

/-- C100: the call graph really has four levels: `parseMessage` calls something of level 2, `parseField` something of level 1,
`parseFieldOptions` something of level 0. -/
theorem C100_depth : protoRank n!"parseMessage" = 3 ∧ protoRank n!"parseField" = 2 ∧ protoRank n!"parseFieldOptions" = 1 ∧
    protoRank n!"parseOption" = 0 ∧ Schema.messageFun.body.Uses (below 2) = false ∧ Schema.fieldFun.body.Uses (below 1) = false ∧
    Schema.optionsFun.body.Uses (below 0) = false := by decide +kernel

/-- A schema read by the texts: a field of a message that is declared later, with an option; and one with a field of a message that is not
declared. -/
example (s : Bool) : Written 773 809 (fun f =>
    (∃ t : Tree, run (linkedParse s 90) 91 f [.dom .stream, .str b!"x.proto"]
        { text := b!"message B { A y = 2 [obfuscate=true]; } message A { int32 x = 1; }", skipws := true, tree := Tree.empty, fileName := [] } =
      .ok (.void, [.dom .stream, .str b!"x.proto"],
        { text := b!"message B { A y = 2 [obfuscate=true]; } message A { int32 x = 1; }", skipws := true, tree := t, fileName := b!"x.proto" }) ∧
      t.messages.map (fun m => (m.name, m.fields.map fun f => (f.name, f.type.ref))) = [(b!"B", [(b!"y", some 1)]), (b!"A", [(b!"x", none)])]) ∧
    run (linkedParse s 90) 91 f [.dom .stream, .str b!"x.proto"]
        { text := b!"message B { A y = 2; }", skipws := true, tree := Tree.empty, fileName := [] } =
      .thrown (.exception b!"Unable to find message 'A'" 0 0)) := by
  obtain ⟨f, hf, h⟩ := C100_parse s
  refine ⟨f, hf, ?_, ?_⟩
  · have hp : ∃ t, Proto.parse 90 b!"message B { A y = 2 [obfuscate=true]; } message A { int32 x = 1; }" = .ok t ∧
        t.messages.map (fun m => (m.name, m.fields.map fun f => (f.name, f.type.ref))) = [(b!"B", [(b!"y", some 1)]), (b!"A", [(b!"x", none)])] := by
      have hd : (match Proto.parse 90 b!"message B { A y = 2 [obfuscate=true]; } message A { int32 x = 1; }" with
          | .ok t => t.messages.map fun m => (m.name, m.fields.map fun f => (f.name, f.type.ref))
          | _ => []) = [(b!"B", [(b!"y", some 1)]), (b!"A", [(b!"x", none)])] := by decide +kernel
      revert hd
      generalize Proto.parse 90 _ = o
      intro hd
      cases o with
      | ok t => exact ⟨t, rfl, hd⟩
      | _ => cases hd
    obtain ⟨t, ht, hm⟩ := hp
    refine ⟨t, ?_, hm⟩
    rw [h _ _ _ _ rfl (by decide) (by decide) (by decide), ht]
    rfl
  · rw [h _ _ _ _ rfl (by decide) (by decide) (by decide)]
    have hd : (match ranOf (Proto.parse 90 b!"message B { A y = 2; }") with
      | .thrown (.exception t l c) => some (t, l, c)
      | _ => none) = some (b!"Unable to find message 'A'", 0, 0) := by decide +kernel
    revert hd
    generalize ranOf (Proto.parse 90 _) = o
    intro hd
    cases o with
    | thrown e =>
      cases e with
      | exception t l c => cases hd; rfl
      | _ => cases hd
    | _ => cases hd

end PG.Cxx.Throw
