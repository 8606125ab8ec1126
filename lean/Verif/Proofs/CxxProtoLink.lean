import Verif.Spec.CxxProtoLink
import Verif.Proofs.ProtoParsed
/-
The functions of the parser of schemas, each of them its text and calling the texts of the others (Spec/CxxProtoLink.lean), do what
the model does.
-/
set_option autoImplicit false
namespace PG.Cxx.Throw
open PG.Proto PG.Cxx.Schema

theorem bind_then {α β γ : Type} (a : Ran α) (f : α → β) (g : β → γ) :
    (a.bind fun x => .ok (g (f x))) = (a.bind fun x => .ok (f x)).bind fun y => .ok (g y) := by
  cases a <;> rfl

/-! ### The tokenizer -/

section
variable {σ : Bool} {N : Nat}

theorem tokOf_of (t : Tok) : tokOf (Token.of t) = some t := by
  obtain ⟨c, v, l, k⟩ := t
  cases c with
  | ty t => cases t <;> rfl
  | _ => rfl

theorem tkOf_of (tk : Tk In) : tkOf (Lexer.of tk) = some tk := by
  unfold tkOf
  rw [show (Lexer.of tk).cur = Token.of tk.cur from rfl, tokOf_of]
  rfl

theorem lexCalled_eq (L : ThrowLib LexVal Lexer) {a b : Nat} {f : Fun} (h : Fun.of [] 60 (protoText a b) = some f) (s : Lexer)
    (args : List (Val LexVal)) : lexCalled L N a b s args = (run L N f args s).bind fun r => .ok (r.1, [], r.2.2) := by
  unfold lexCalled
  rw [h]
  rfl

theorem lexMethods_serve (m : Name) (s : Lexer) (args : List (Val LexVal)) : Le ((lexLib σ N).method m s args) (lexMethods σ N m s args) := by
  unfold lexMethods
  split
  · unfold lexLib
    dsimp only
    by_cases h : m = n!"name"
    · rw [if_pos h, if_pos h]
      refine .inr ?_
      show lexCalled (lexLib σ N) N 435 448 s [] = _
      rw [lexCalled_eq _ nameFun_text, name_runs, ← bind_then]
    · rw [if_neg h]
      exact Le.none _
  · exact Le.refl _

theorem named_serves : Serves (fun _ => true) (lexLib σ N) (lexLib σ N).function (lexMethods σ N) :=
  ⟨fun _ _ _ _ => Le.refl _, lexMethods_serve⟩

/-- A call of a text. -/
theorem named_called {a b : Nat} {f : Fun} (h : Fun.of [] 60 (protoText a b) = some f) (s : Lexer) (args : List (Val LexVal)) :
    Le ((run (lexLib σ N) N f args s).bind fun r => .ok (r.1, [], r.2.2)) (lexCalled (namedLexer σ N) N a b s args) := by
  rw [lexCalled_eq _ h]
  exact (run_le named_serves N f (Stmts.uses_all _) args s).bind fun _ => Le.refl _

theorem called_pair {f : Name} (hf : f = n!"qname" ∨ f = n!"literalString") (s : Lexer) (args : List (Val LexVal)) :
    (lexLib σ N).function [f] s args = .undef ∨ ∃ l c : Nat, args = [.int .i32 (l : Int), .int .i32 (c : Int)] := by
  have h0 : [f] ≠ [n!"Token"] := by rcases hf with rfl | rfl <;> decide
  have h1 : [f] ≠ [n!"exception"] := by rcases hf with rfl | rfl <;> decide
  have h2 : [f] ≠ [n!"throw"] := by rcases hf with rfl | rfl <;> decide
  have h3 : [f] ≠ [n!"comment"] := by rcases hf with rfl | rfl <;> decide
  have h4 : [f] ≠ [n!"integer"] := by rcases hf with rfl | rfl <;> decide
  simp only [lexLib, if_neg h0, if_neg h1, if_neg h2, if_neg h3, if_neg h4]
  split <;> first | exact .inl rfl | exact .inr ⟨_, _, rfl⟩

theorem called_triple (s : Lexer) (args : List (Val LexVal)) : (lexLib σ N).function [n!"integer"] s args = .undef ∨
    ∃ (f : Int) (l c : Nat), args = [.int .i32 f, .int .i32 (l : Int), .int .i32 (c : Int)] := by
  have h0 : [n!"integer"] ≠ [n!"Token"] := by decide
  have h1 : [n!"integer"] ≠ [n!"exception"] := by decide
  have h2 : [n!"integer"] ≠ [n!"throw"] := by decide
  have h3 : [n!"integer"] ≠ [n!"comment"] := by decide
  have h4 : [n!"integer"] ≠ [n!"qname"] := by decide
  have h5 : [n!"integer"] ≠ [n!"literalString"] := by decide
  simp only [lexLib, if_neg h0, if_neg h1, if_neg h2, if_neg h3, if_neg h4, if_neg h5]
  split <;> first | exact .inl rfl | exact .inr ⟨_, _, _, rfl⟩

theorem called_none (s : Lexer) (args : List (Val LexVal)) : (lexLib σ N).function [n!"comment"] s args = .undef ∨ args = [] := by
  have h0 : [n!"comment"] ≠ [n!"Token"] := by decide
  have h1 : [n!"comment"] ≠ [n!"exception"] := by decide
  have h2 : [n!"comment"] ≠ [n!"throw"] := by decide
  have h3 : [n!"comment"] ≠ [n!"integer"] := by decide
  have h4 : [n!"comment"] ≠ [n!"qname"] := by decide
  have h5 : [n!"comment"] ≠ [n!"literalString"] := by decide
  simp only [lexLib, if_neg h0, if_neg h1, if_neg h2, if_neg h3, if_neg h4, if_neg h5]
  split <;> first | exact .inl rfl | exact .inr rfl

theorem lexFunctions_serve (hN : 26 ≤ N) (p : List Name) (s : Lexer) (args : List (Val LexVal)) :
    Le ((lexLib σ N).function p s args) (lexFunctions σ N p s args) := by
  unfold lexFunctions
  by_cases h1 : p = [n!"comment"]
  · rw [if_pos h1]
    subst h1
    rcases called_none (σ := σ) (N := N) s args with h | rfl
    · rw [h]; exact Le.none _
    · refine Le.trans (.inr ?_) ((named_called (σ := σ) (N := N) commentFun_text s []).bind fun r => Le.refl _)
      have h := comment_runs (σ := σ) (N := N) N s
      rw [lex_comment, bind_then _ (fun i => ({ s with inp := i } : Lexer)) (fun s => ((.undef none, [], s) : Val LexVal × List (Option (Val LexVal)) × Lexer)), ← h]
      cases run (lexLib σ N) N commentFun [] s <;> rfl
  rw [if_neg h1]
  by_cases h2 : p = [n!"qname"]
  · rw [if_pos h2]
    subst h2
    rcases called_pair (σ := σ) (N := N) (.inl rfl) s args with h | ⟨l, c, rfl⟩
    · rw [h]; exact Le.none _
    · refine Le.trans (.inr ?_) (named_called (σ := σ) (N := N) qnameFun_text s _)
      rw [qname_runs _ _ _ _ hN, ← bind_then]
      rfl
  rw [if_neg h2]
  by_cases h3 : p = [n!"integer"]
  · rw [if_pos h3]
    subst h3
    rcases called_triple (σ := σ) (N := N) s args with h | ⟨f, l, c, rfl⟩
    · rw [h]; exact Le.none _
    · refine Le.trans (.inr ?_) (named_called (σ := σ) (N := N) integerFun_text s _)
      rw [integer_runs, ← bind_then, lex_integer]
  rw [if_neg h3]
  by_cases h4 : p = [n!"literalString"]
  · rw [if_pos h4]
    subst h4
    rcases called_pair (σ := σ) (N := N) (.inr rfl) s args with h | ⟨l, c, rfl⟩
    · rw [h]; exact Le.none _
    · refine Le.trans (.inr ?_) (named_called (σ := σ) (N := N) Schema.stringFun_text s _)
      rw [string_runs, ← bind_then]
      rfl
  rw [if_neg h4]
  exact Le.refl _

theorem lexer_serves (hN : 26 ≤ N) : Serves (fun _ => true) (lexLib σ N) (lexFunctions σ N) (lexMethods σ N) :=
  ⟨fun p _ => lexFunctions_serve hN p, lexMethods_serve⟩

theorem lexer_next (hN : 26 ≤ N) (tk : Tk In) : run (linkedLexer σ N) N lexNextFun [] (Lexer.of tk) =
    (ranOf (tk.next (Proto.lex N))).bind fun tk => .ok (.dom (.tok (Token.of tk.cur)), [], Lexer.of tk) := by
  have h := next_runs (σ := σ) N (by omega) tk
  rcases run_le (lexer_serves (σ := σ) hN) N lexNextFun (Stmts.uses_all _) [] (Lexer.of tk) with e | e
  · rw [e] at h
    cases k : tk.next (Proto.lex N) <;> rw [k] at h <;> cases h
  · exact e.trans h

theorem lexer_unget (hN : 26 ≤ N) (tk : Tk In) : run (linkedLexer σ N) N lexUngetFun [] (Lexer.of tk) =
    (ranOf tk.unget).bind fun tk => .ok (.void, [], Lexer.of tk) := by
  have h := lexUnget_runs (σ := σ) (N := N) N tk
  rcases run_le (lexer_serves (σ := σ) hN) N lexUngetFun (Stmts.uses_all _) [] (Lexer.of tk) with e | e
  · rw [e] at h
    cases k : tk.unget <;> rw [k] at h <;> cases h
  · exact e.trans h

theorem linked_next (hN : 26 ≤ N) (tk : Tk In) : lexCalled (linkedLexer σ N) N 299 373 (Lexer.of tk) [] =
    (ranOf (tk.next (Proto.lex N))).bind fun tk => .ok (.dom (.tok (Token.of tk.cur)), [], Lexer.of tk) := by
  rw [lexCalled_eq _ lexNextFun_text, lexer_next hN, ← bind_then]

theorem linked_unget (hN : 26 ≤ N) (tk : Tk In) : lexCalled (linkedLexer σ N) N 292 297 (Lexer.of tk) [] =
    (ranOf tk.unget).bind fun tk => .ok (.void, [], Lexer.of tk) := by
  rw [lexCalled_eq _ lexUngetFun_text, lexer_unget hN, ← bind_then]

theorem parserMethods_serve (hN : 26 ≤ N) (m : Name) (u : Unit) (args : List (Val (PVal In))) :
    Le ((parserLib σ (Proto.lex N) N).method m u args) (parserMethods σ N m u args) := by
  unfold parserMethods
  split
  · next tk =>
    unfold parserLib
    dsimp only
    by_cases h : m = n!"next"
    · rw [if_pos h, if_pos h, linked_next hN]
      refine .inr ?_
      cases tk.next (Proto.lex N) with
      | ok t => simp only [ranOf, Ran.bind, tkOf_of, tokenValue, tokOf_of, Ran.of]
      | _ => rfl
    · rw [if_neg h, if_neg h]
      by_cases h : m = n!"unget"
      · rw [if_pos h, if_pos h, linked_unget hN]
        refine .inr ?_
        cases tk.unget with
        | ok t => simp only [ranOf, Ran.bind, tkOf_of, Ran.of]
        | _ => rfl
      · rw [if_neg h]
        exact Le.none _
  · exact Le.refl _
end

/-! ### The parser -/

variable {s : Bool} {σ : Type} {nx : σ → Out (Tok × σ)} {N : Nat} {M : Name → Thrower (PVal σ) Unit}

/-- How deep calls of a function nest (no function calls itself). -/
def protoRank (f : Name) : Nat :=
  if f = n!"parseFieldOptions" ∨ f = n!"parseStandardOption" then 1
  else if f = n!"parseField" then 2
  else if f = n!"parseMessage" then 3
  else 0

/-- What is called at a depth. -/
def below (B : Nat) (f : Name) : Bool := (protoLines f).isNone || decide (protoRank f < B)

theorem protoLines_cases {f : Name} {Q : Name → Prop} (h : (protoLines f).isSome = true) (h1 : Q n!"parseOption")
    (h2 : Q n!"parseFieldOptions") (h3 : Q n!"parseStandardOption") (h4 : Q n!"findMessage") (h5 : Q n!"parseField")
    (h6 : Q n!"parseMessage") (h7 : Q n!"parsePackage") (h8 : Q n!"parseSyntax") : Q f := by
  unfold protoLines at h
  split at h
  · subst_vars; assumption
  split at h
  · subst_vars; assumption
  split at h
  · subst_vars; assumption
  split at h
  · subst_vars; assumption
  split at h
  · subst_vars; assumption
  split at h
  · subst_vars; assumption
  split at h
  · subst_vars; assumption
  split at h
  · subst_vars; assumption
  · cases h

theorem protoCode_of {f : Name} {a b : Nat} {c : Fun} (h : protoLines f = some (a, b)) (t : Fun.of [] 60 (protoText a b) = some c) :
    protoCode f = some c := by
  unfold protoCode
  rw [h, Option.bind_some]
  exact t

/-- Methods that do what those of the library do. -/
def Methods (s : Bool) {σ : Type} (nx : σ → Out (Tok × σ)) (N : Nat) (M : Name → Thrower (PVal σ) Unit) : Prop :=
  ∀ m u args, Le ((parserLib s nx N).method m u args) (M m u args)

/-- Linked functions that do what the library does up to a depth. -/
theorem linked_serves (hM : Methods s nx N M) (B : Nat) {T : Name → Thrower (PVal σ) Unit}
    (h : ∀ f u args, (protoLines f).isSome = true → protoRank f < B → Le ((parserLib s nx N).function [f] u args) (T f u args)) :
    Serves (below B) (parserLib s nx N) (linkedFunction s nx N T) M := by
  refine ⟨?_, hM⟩
  intro p hp u args
  match p with
  | [f] =>
    show Le _ (if (protoLines f).isSome then T f u args else (parserLib s nx N).function [f] u args)
    by_cases k : (protoLines f).isSome = true
    · rw [if_pos k]
      refine h f u args k ?_
      have := hp f rfl
      unfold below at this
      rw [Bool.or_eq_true] at this
      rcases this with e | e
      · rw [Option.isNone_iff_eq_none] at e
        rw [e] at k
        cases k
      · exact of_decide_eq_true e
    · rw [if_neg k]
      exact Le.refl _
  | [] => exact Le.refl _
  | _ :: _ :: _ => exact Le.refl _

theorem deepParse_succ (k : Nat) (f : Name) (u : Unit) (args : List (Val (PVal σ))) :
    deepParse s nx N M (k + 1) f u args = (Ran.of (protoCode f)).bind fun c =>
      (run (with' (parserLib s nx N) (linkedFunction s nx N (deepParse s nx N M k)) M) (loops N f args) c args u).bind fun r =>
        .ok (r.1, changed c.params r.2.1, r.2.2) := (rfl)

/-- One function, given that those below do what the library does. -/
theorem deepParse_step (hM : Methods s nx N M) {k : Nat} {f : Name} {c : Fun} (hc : protoCode f = some c) (hu : c.body.Uses (below (protoRank f)) = true)
    (hk : protoRank f ≤ k)
    (ih : ∀ f u args, (protoLines f).isSome = true → protoRank f < k →
      Le ((parserLib s nx N).function [f] u args) (deepParse s nx N M k f u args))
    (u : Unit) (args : List (Val (PVal σ)))
    (h : (parserLib s nx N).function [f] u args = .undef ∨
      (parserLib s nx N).function [f] u args = (run (parserLib s nx N) (loops N f args) c args u).bind fun r =>
        .ok (r.1, changed c.params r.2.1, r.2.2)) :
    Le ((parserLib s nx N).function [f] u args) (deepParse s nx N M (k + 1) f u args) := by
  rcases h with h | h
  · rw [h]; exact Le.none _
  · rw [h, deepParse_succ, hc]
    exact (run_le (linked_serves hM (protoRank f) fun g u args hg hr => ih g u args hg (by omega)) _ c hu args u).bind
      fun r => Le.refl _

/-- A call with other arguments is not defined. -/
theorem called_ctx {f : Name} (hf : f = n!"parseOption" ∨ f = n!"parseMessage" ∨ f = n!"parsePackage" ∨ f = n!"parseSyntax") (u : Unit)
    (args : List (Val (PVal σ))) : (parserLib s nx N).function [f] u args = .undef ∨ ∃ c, args = [.dom (.ctx c)] := by
  have h0 : [f] ≠ [n!"exception"] := by rcases hf with rfl | rfl | rfl | rfl <;> decide
  have h1 : [f] ≠ [n!"throw"] := by rcases hf with rfl | rfl | rfl | rfl <;> decide
  have h2 : [f] ≠ [n!"strtol"] := by rcases hf with rfl | rfl | rfl | rfl <;> decide
  have h3 : [f] ≠ [n!"parseFieldOptions"] := by rcases hf with rfl | rfl | rfl | rfl <;> decide
  have h4 : [f] ≠ [n!"parseStandardOption"] := by rcases hf with rfl | rfl | rfl | rfl <;> decide
  have h5 : [f] ≠ [n!"findMessage"] := by rcases hf with rfl | rfl | rfl | rfl <;> decide
  have h6 : [f] ≠ [n!"parseField"] := by rcases hf with rfl | rfl | rfl | rfl <;> decide
  have h7 : [f] ≠ [n!"std::make_shared", n!"Message"] := nofun
  simp only [parserLib, if_neg h0, if_neg h1, if_neg h2, if_neg h3, if_neg h4, if_neg h5, if_neg h6, if_neg h7]
  split <;> first | exact .inl rfl | exact .inr ⟨_, rfl⟩

theorem called_options {f : Name} (hf : f = n!"parseFieldOptions" ∨ f = n!"parseStandardOption") (u : Unit)
    (args : List (Val (PVal σ))) :
    (parserLib s nx N).function [f] u args = .undef ∨ ∃ c m, args = [.dom (.ctx c), .dom (.options m)] := by
  have h0 : [f] ≠ [n!"exception"] := by rcases hf with rfl | rfl <;> decide
  have h1 : [f] ≠ [n!"throw"] := by rcases hf with rfl | rfl <;> decide
  have h2 : [f] ≠ [n!"strtol"] := by rcases hf with rfl | rfl <;> decide
  have h3 : [f] ≠ [n!"parseOption"] := by rcases hf with rfl | rfl <;> decide
  have h4 : [f] ≠ [n!"parseMessage"] := by rcases hf with rfl | rfl <;> decide
  have h5 : [f] ≠ [n!"findMessage"] := by rcases hf with rfl | rfl <;> decide
  have h6 : [f] ≠ [n!"parseField"] := by rcases hf with rfl | rfl <;> decide
  have h8 : [f] ≠ [n!"parsePackage"] := by rcases hf with rfl | rfl <;> decide
  have h9 : [f] ≠ [n!"parseSyntax"] := by rcases hf with rfl | rfl <;> decide
  have h7 : [f] ≠ [n!"std::make_shared", n!"Message"] := nofun
  simp only [parserLib, if_neg h0, if_neg h1, if_neg h2, if_neg h3, if_neg h4, if_neg h5, if_neg h6, if_neg h7, if_neg h8, if_neg h9]
  split <;> first | exact .inl rfl | exact .inr ⟨_, _, rfl⟩

theorem called_find (u : Unit) (args : List (Val (PVal σ))) :
    (parserLib s nx N).function [n!"findMessage"] u args = .undef ∨ ∃ c q, args = [.dom (.ctx c), .str q] := by
  have h0 : [n!"findMessage"] ≠ [n!"exception"] := by decide
  have h1 : [n!"findMessage"] ≠ [n!"throw"] := by decide
  have h2 : [n!"findMessage"] ≠ [n!"strtol"] := by decide
  have h3 : [n!"findMessage"] ≠ [n!"parseOption"] := by decide
  have h4 : [n!"findMessage"] ≠ [n!"parseMessage"] := by decide
  have h5 : [n!"findMessage"] ≠ [n!"parseFieldOptions"] := by decide
  have h6 : [n!"findMessage"] ≠ [n!"parseField"] := by decide
  have h8 : [n!"findMessage"] ≠ [n!"parsePackage"] := by decide
  have h9 : [n!"findMessage"] ≠ [n!"parseSyntax"] := by decide
  have h10 : [n!"findMessage"] ≠ [n!"parseStandardOption"] := by decide
  have h7 : [n!"findMessage"] ≠ [n!"std::make_shared", n!"Message"] := nofun
  simp only [parserLib, if_neg h0, if_neg h1, if_neg h2, if_neg h3, if_neg h4, if_neg h5, if_neg h6, if_neg h7, if_neg h8, if_neg h9,
    if_neg h10]
  split <;> first | exact .inl rfl | exact .inr ⟨_, _, rfl⟩

theorem called_field (u : Unit) (args : List (Val (PVal σ))) :
    (parserLib s nx N).function [n!"parseField"] u args = .undef ∨ ∃ c m, args = [.dom (.ctx c), .dom (.msg m)] := by
  have h0 : [n!"parseField"] ≠ [n!"exception"] := by decide
  have h1 : [n!"parseField"] ≠ [n!"throw"] := by decide
  have h2 : [n!"parseField"] ≠ [n!"strtol"] := by decide
  have h3 : [n!"parseField"] ≠ [n!"parseOption"] := by decide
  have h4 : [n!"parseField"] ≠ [n!"parseMessage"] := by decide
  have h5 : [n!"parseField"] ≠ [n!"parseFieldOptions"] := by decide
  have h6 : [n!"parseField"] ≠ [n!"findMessage"] := by decide
  have h8 : [n!"parseField"] ≠ [n!"parsePackage"] := by decide
  have h9 : [n!"parseField"] ≠ [n!"parseSyntax"] := by decide
  have h10 : [n!"parseField"] ≠ [n!"parseStandardOption"] := by decide
  have h7 : [n!"parseField"] ≠ [n!"std::make_shared", n!"Message"] := nofun
  simp only [parserLib, if_neg h0, if_neg h1, if_neg h2, if_neg h3, if_neg h4, if_neg h5, if_neg h6, if_neg h7, if_neg h8, if_neg h9,
    if_neg h10]
  split <;> first | exact .inl rfl | exact .inr ⟨_, _, rfl⟩

/-- The texts do what the library does, to any depth that is enough. -/
theorem deepParse_model (hM : Methods s nx N M) : (k : Nat) → (f : Name) → (u : Unit) → (args : List (Val (PVal σ))) → (protoLines f).isSome = true →
    protoRank f < k → Le ((parserLib s nx N).function [f] u args) (deepParse s nx N M k f u args)
  | 0, _, _, _, _, h => absurd h (Nat.not_lt_zero _)
  | k + 1, f, u, args, hf, hr => by
    have ih := fun f u args => deepParse_model hM k f u args
    revert hr
    refine protoLines_cases (Q := fun f => protoRank f < k + 1 →
      Le ((parserLib s nx N).function [f] u args) (deepParse s nx N M (k + 1) f u args)) hf ?_ ?_ ?_ ?_ ?_ ?_ ?_ ?_ <;> intro hr
    · refine deepParse_step hM (protoCode_of rfl optionFun_text) (by decide +kernel) (by omega) ih u args ?_
      rcases called_ctx (.inl rfl) u args with h | ⟨c, rfl⟩
      · exact .inl h
      · refine .inr ?_
        rw [option_runs, ← bind_then]
        rfl
    · refine deepParse_step hM (protoCode_of rfl optionsFun_text) (by decide +kernel) (by omega) ih u args ?_
      rcases called_options (.inl rfl) u args with h | ⟨c, m, rfl⟩
      · exact .inl h
      · refine .inr ?_
        rw [options_runs, ← bind_then]
        rfl
    · refine deepParse_step hM (protoCode_of rfl standardFun_text) (by decide +kernel) (by omega) ih u args ?_
      rcases called_options (.inr rfl) u args with h | ⟨c, m, rfl⟩
      · exact .inl h
      · refine .inr ?_
        rw [standard_runs, ← bind_then]
        rfl
    · refine deepParse_step hM (protoCode_of rfl findFun_text) (by decide +kernel) (by omega) ih u args ?_
      rcases called_find u args with h | ⟨c, q, rfl⟩
      · exact .inl h
      · refine .inr ?_
        rw [show loops N n!"findMessage" [Val.dom (.ctx c), .str q] = c.tree.messages.length + 1 from rfl, find_runs _ _ _ (Nat.lt_succ_self _)]
        rfl
    · refine deepParse_step hM (protoCode_of rfl fieldFun_text) (by decide +kernel) (by omega) ih u args ?_
      rcases called_field u args with h | ⟨c, m, rfl⟩
      · exact .inl h
      · refine .inr ?_
        rw [show loops N n!"parseField" [Val.dom (.ctx c), .dom (.msg m)] = m.fields.length + 1 from rfl, field_runs _ _ _ (Nat.lt_succ_self _), ← bind_then]
        rfl
    · refine deepParse_step hM (protoCode_of rfl messageFun_text) (by decide +kernel) (by omega) ih u args ?_
      rcases called_ctx (.inr (.inl rfl)) u args with h | ⟨c, rfl⟩
      · exact .inl h
      · refine .inr ?_
        rw [show loops N n!"parseMessage" [Val.dom (.ctx c)] = N from rfl, message_runs, ← bind_then]
        rfl
    · refine deepParse_step hM (protoCode_of rfl packageFun_text) (by decide +kernel) (by omega) ih u args ?_
      rcases called_ctx (.inr (.inr (.inl rfl))) u args with h | ⟨c, rfl⟩
      · exact .inl h
      · refine .inr ?_
        rw [package_runs, ← bind_then]
        rfl
    · refine deepParse_step hM (protoCode_of rfl syntaxFun_text) (by decide +kernel) (by omega) ih u args ?_
      rcases called_ctx (.inr (.inr (.inr rfl))) u args with h | ⟨c, rfl⟩
      · exact .inl h
      · refine .inr ?_
        rw [syntax_runs, ← bind_then]
        rfl

theorem rank_lt_four {f : Name} (h : (protoLines f).isSome = true) : protoRank f < 4 :=
  protoLines_cases (Q := fun f => protoRank f < 4) h (by decide) (by decide) (by decide) (by decide) (by decide) (by decide) (by decide)
    (by decide)

/-- Whatever calls them. -/
theorem linkedParser_serves (hM : Methods s nx N M) :
    Serves (fun _ => true) (parserLib s nx N) (linkedFunction s nx N (deepParse s nx N M 4)) M := by
  refine ⟨?_, hM⟩
  intro p _ u args
  refine (linked_serves hM 4 (fun f u args h k => deepParse_model hM 4 f u args h k)).function p ?_ u args
  intro f _
  unfold below
  by_cases k : (protoLines f).isSome = true
  · rw [decide_eq_true (rank_lt_four k), Bool.or_true]
  · rw [show (protoLines f).isNone = true by cases h : protoLines f <;> simp_all, Bool.true_or]

theorem linked_run (hM : Methods s nx N M) (n : Nat) (f : Fun) (args : List (Val (PVal σ))) (h : run (parserLib s nx N) n f args () ≠ .undef) :
    run (linkedParser s nx N M) n f args () = run (parserLib s nx N) n f args () := by
  rcases run_le (linkedParser_serves hM) n f (Stmts.uses_all _) args () with e | e
  · exact absurd e h
  · exact e

/-- The text of `parseProto`. -/
theorem linked_proto (n : Nat) (hM : Methods s nx n M) (c : Ctx σ) : ((run (linkedParser s nx n M) n protoFun [.dom (.ctx c)] ()).bind fun r =>
      match r.2.1 with
      | [.dom (.ctx c)] => .ok c.tree
      | _ => .undef) = ranOf (parseProto nx n n c.tree c.tk) := by
  have := proto_runs (s := s) (nx := nx) n c
  rw [linked_run hM]
  · exact this
  · intro h
    rw [h] at this
    cases e : parseProto nx n n c.tree c.tk <;> rw [e] at this <;> cases this

/-- The text of `findMessage`. -/
theorem deep_find (hM : Methods s nx N M) (k : Nat) (c : Ctx σ) (q : Bytes) : deepParse s nx N M (k + 1) n!"findMessage" () [.dom (.ctx c), .str q] =
    .ok (.dom (found c.tree.messages q), [some (.dom (.ctx c)), none], ()) := by
  rcases deepParse_model hM (k + 1) n!"findMessage" () [.dom (.ctx c), .str q] rfl (Nat.succ_pos _) with h | h
  · cases h
  · exact h

theorem protoCalled_model (hN : 26 ≤ N) (i : In) (t : Tree) : protoCalled s N i t =
    ranOf (parseProto (Proto.lex N) N N t { cur := Tok.default, ungot := false, src := i }) := by
  unfold protoCalled
  rw [protoFun_text]
  refine Eq.trans ?_ (linked_proto (s := s) (nx := Proto.lex N) N (parserMethods_serve hN) (startOf i t))
  refine congrArg (Ran.bind (run (linkedParser s (Proto.lex N) N (parserMethods s N)) N protoFun [.dom (.ctx (startOf i t))] ())) (funext fun r => ?_)
  unfold treeOf
  split <;> split <;> simp_all

theorem findCalled_model (hN : 26 ≤ N) (i : In) (t : Tree) (q : Bytes) : findCalled s N i t q =
    match findMessage t.messages q with
    | none => .ok .null
    | some k => .ok (.shared k) := by
  unfold findCalled
  rw [deep_find (parserMethods_serve hN)]
  unfold found
  show pointerOf (.dom (match findMessage t.messages q with
    | none => .null
    | some i => match t.messages[i]? with | some m => .shared i m | none => .null)) = _
  cases h : findMessage t.messages q with
  | none => rfl
  | some k =>
    have hk := findMessage_lt _ _ _ h
    simp only [List.getElem?_eq_getElem hk]
    rfl

theorem linkedParse_serves (hN : 26 ≤ N) :
    Serves (fun _ => true) (parseLib s N) (linkedParse s N).function (linkedParse s N).method := by
  refine ⟨?_, fun _ _ _ => Le.refl _⟩
  intro p _ w args
  unfold linkedParse with'
  dsimp only
  split
  · next i =>
    unfold parseLib
    dsimp only
    split
    · rw [protoCalled_model hN]
      exact Le.refl _
    · exact Le.none _
  · next i q =>
    unfold parseLib
    dsimp only
    split
    · rw [findCalled_model hN]
      cases findMessage w.tree.messages q <;> exact Le.refl _
    · exact Le.none _
  · exact Le.refl _

/-- The text of `Proto3::parse`. -/
theorem linked_parse (n : Nat) (h26 : 26 ≤ N) (fn : Bytes) (w : Parsing) (hw : w.tree = Tree.empty) (hn : N < n) (hN : N < 18446744073709551616) :
    run (linkedParse s N) n parseFun [.dom .stream, .str fn] w =
      (ranOf (Proto.parse N w.text)).bind fun t => .ok (.void, [.dom .stream, .str fn], { w with tree := t, fileName := fn }) := by
  have h := parse_text (s := s) n fn w hw hn hN
  rcases run_le (linkedParse_serves (s := s) h26) n parseFun (Stmts.uses_all _) [.dom .stream, .str fn] w with e | e
  · rw [e] at h
    cases k : Proto.parse N w.text <;> rw [k] at h <;> cases h
  · exact e.trans h

end PG.Cxx.Throw
