import Verif.Proofs.ProtoInput
/-
The functions of `Tokenizer` (proto3.cc:282-483), executed.
-/
set_option autoImplicit false
namespace PG.Cxx.Throw
open PG.Proto Schema
variable {σ : Bool} {N : Nat}

section
variable (s : Lexer) (t : Schema.Token) (k : Int) (x : Bytes) (b : Bool) (i : In)
theorem lex_base : (lexLib σ N).base = lexBase σ := (rfl)
theorem lex_signed : (lexBase σ).signed = σ := (rfl)
theorem lex_true : (lexBase σ).constant [n!"true"] = some (.bool true) := (rfl)
theorem lex_false : (lexBase σ).constant [n!"false"] = some (.bool false) := (rfl)
theorem lex_null : (lexBase σ).constant [n!"nullptr"] = some (.dom .null) := (rfl)
theorem lex_keywords : (lexBase σ).constant [n!"KEYWORDS"] = some (.arr (keywordTable.map fun k => .dom (.keyword k.1 k.2))) := (rfl)
theorem lex_nTrue : (lexBase σ).get n!"true" s = none := (rfl)
theorem lex_nFalse : (lexBase σ).get n!"false" s = none := (rfl)
theorem lex_nNull : (lexBase σ).get n!"nullptr" s = none := (rfl)
theorem lex_nKeywords : (lexBase σ).get n!"KEYWORDS" s = none := (rfl)
theorem lex_is : (lexBase σ).get n!"is" s = some (.dom .input) := (rfl)
theorem lex_current : (lexBase σ).get n!"current" s = some (.dom (.tok s.cur)) := (rfl)
theorem lex_ungot : (lexBase σ).get n!"ungot" s = some (.bool s.ungot) := (rfl)
theorem lex_this : (lexBase σ).get n!"this" s = some (.dom .self) := (rfl)
theorem lex_setCurrent : (lexBase σ).set n!"current" (.dom (.tok t)) s = some { s with cur := t } := (rfl)
theorem lex_setUngot : (lexBase σ).set n!"ungot" (.bool b) s = some { s with ungot := b } := (rfl)
theorem lex_mValue : (lexBase σ).member (.dom (.tok t)) n!"value" s = some (.str t.value) := (rfl)
theorem lex_mLine : (lexBase σ).member (.dom (.tok t)) n!"line" s = some (.int .i32 t.line) := (rfl)
theorem lex_mCol : (lexBase σ).member (.dom (.tok t)) n!"column" s = some (.int .i32 t.col) := (rfl)
theorem lex_kCode (o : Option Bytes) : (lexBase σ).member (.dom (.keyword k o)) n!"code" s = some (.int .i32 k) := (rfl)
theorem lex_kText : (lexBase σ).member (.dom (.keyword k (some x))) n!"keyword" s = some (.ptr x) := (rfl)
theorem lex_kNull : (lexBase σ).member (.dom (.keyword k none)) n!"keyword" s = some (.dom .null) := (rfl)
theorem lex_uValue : (lexBase σ).update (.dom (.tok t)) n!"value" (.str x) = some (.dom (.tok { t with value := x })) := (rfl)
theorem lex_notNull : binop (lexBase σ) n!"!=" (.ptr x) (.dom .null) s = some (.bool true, s) := (rfl)
theorem lex_isNull : binop (lexBase σ) n!"!=" (.dom .null) (.dom .null) s = some (.bool false, s) := (rfl)
theorem lex_assign (v : Val LexVal) (d : LexVal) : (lexBase σ).assign v (.dom d) = some (.dom d) := (rfl)
theorem lex_token (args : List (Val LexVal)) : (lexLib σ N).function [n!"Token"] s args =
    Ran.of ((tokenOf args).map fun t => (.dom (.tok t), [], s)) := (rfl)
theorem lex_exception (args : List (Val LexVal)) : (lexLib σ N).function [n!"exception"] s args =
    Ran.of ((exceptionOf args).map fun e => (.dom (.exc e), [], s)) := (rfl)
theorem lex_throw (e : Thrown) : (lexLib σ N).function [n!"throw"] s [.dom (.exc e)] = .thrown e := (rfl)
theorem lex_comment : (lexLib σ N).function [n!"comment"] s [] =
    (ranOf (comment N s.inp)).bind fun i => .ok (.undef none, [], { s with inp := i }) := (rfl)
theorem lex_qname (l c : Nat) : (lexLib σ N).function [n!"qname"] s [.int .i32 l, .int .i32 c] =
    (ranOf (qname N l c s.inp)).bind fun r => .ok (.dom (.tok (Token.of r.1)), [], { s with inp := r.2 }) := (rfl)
theorem lex_string (l c : Nat) : (lexLib σ N).function [n!"literalString"] s [.int .i32 l, .int .i32 c] =
    (ranOf (stringLoop l c N [] s.inp)).bind fun r => .ok (.dom (.tok (Token.of r.1)), [], { s with inp := r.2 }) := (rfl)
theorem lex_integer (f : Int) (l c : Nat) : (lexLib σ N).function [n!"integer"] s [.int .i32 f, .int .i32 l, .int .i32 c] =
    (ranOf (integer N f l c s.inp)).bind fun r => .ok (.dom (.tok (Token.of r.1)), [], { s with inp := r.2 }) := by cases f <;> rfl
theorem lex_name : (lexLib σ N).method n!"name" s [.dom .self] =
    (ranOf (nameLoop N true [] s.inp)).bind fun r => .ok (.str r.1, [], { s with inp := r.2 }) := (rfl)
theorem lex_get : (lexLib σ N).method n!"get" s [.dom .input] = .ok (.int .i32 s.inp.get.1, [], { s with inp := s.inp.get.2 }) := (rfl)
theorem lex_unget : (lexLib σ N).method n!"unget" s [.dom .input] =
    (ranOf s.inp.unget).bind fun i => .ok (.void, [], { s with inp := i }) := (rfl)
theorem lex_skipws : (lexLib σ N).method n!"skipws" s [.dom .input] =
    (ranOf (In.skipws N s.inp)).bind fun i => .ok (.void, [], { s with inp := i }) := (rfl)
theorem lex_line : (lexLib σ N).method n!"line" s [.dom .input] = .ok (.int .i32 s.inp.line, [], s) := (rfl)
theorem lex_col : (lexLib σ N).method n!"column" s [.dom .input] = .ok (.int .i32 s.inp.col, [], s) := (rfl)
theorem lex_expect (t : IT) (v : Int) : (lexLib σ N).method n!"expect" s [.dom .input, .int t v] =
    (ranOf (s.inp.expect (IT.convert σ .i32 t v))).bind fun r => .ok (.bool r.1, [], { s with inp := r.2 }) := (rfl)
theorem result_tok (v : Val LexVal) : result (lexBase σ) n!"Token" v = some v := (rfl)
theorem tok0 : tokenOf ([] : List (Val LexVal)) = some ⟨0, [], 1, 1⟩ := (rfl)
theorem tok2 : tokenOf ([.int .i32 k, .str x] : List (Val LexVal)) = some ⟨k, x, 1, 1⟩ := (rfl)
theorem tok4 (l c : Int) : tokenOf ([.int .i32 k, .str x, .int .i32 l, .int .i32 c] : List (Val LexVal)) = some ⟨k, x, l, c⟩ := (rfl)
theorem exc3 {D : Type} (l c : Int) : exceptionOf ([.str x, .int .i32 l, .int .i32 c] : List (Val D)) = some (.exception x l c) := (rfl)
theorem exc1 {D : Type} : exceptionOf ([.str x] : List (Val D)) = some (.exception x 0 0) := (rfl)
end
theorem chr_conv (x : Int) : IT.toByte (IT.convert σ .char .i32 x) = chr x := by
  have : IT.convert σ .char .i32 x = IT.ofByte σ (IT.toByte x) := rfl
  rw [this, toByte_ofByte]
  rfl
theorem strStr {D S : Type} {L : Lib D S} {s : S} (x y : Bytes) : binop L n!"+" (.str x) (.str y) s = some (.str (x ++ y), s) := (rfl)
theorem initial_bool {D S : Type} {L : Lib D S} {s : S} (b : Bool) : initial L n!"bool" (some (.bool b)) s = some (.bool b) := (rfl)
theorem initial_int0 {D S : Type} {L : Lib D S} {s : S} : initial L n!"int" none s = some (.undef (some .i32)) := (rfl)
attribute [cxt] lex_base lex_signed lex_true lex_false lex_null lex_keywords lex_nTrue lex_nFalse lex_nNull lex_nKeywords lex_is lex_current
  lex_ungot lex_this lex_setCurrent lex_setUngot lex_mValue lex_mLine lex_mCol lex_kCode lex_kText lex_kNull lex_uValue lex_notNull
  lex_isNull lex_assign lex_token lex_exception lex_throw lex_comment lex_qname lex_string lex_integer lex_name lex_get lex_unget
  lex_skipws lex_line lex_col lex_expect result_tok tok0 tok2 tok4 exc3 exc1 chr_conv strStr initial_bool initial_int0

theorem lexUnget_runs (n : Nat) (tk : Tk In) : run (lexLib σ N) n lexUngetFun [] (Lexer.of tk) =
    (ranOf tk.unget).bind fun tk => .ok (.void, [], Lexer.of tk) := by
  obtain ⟨cur, ungot, src⟩ := tk
  cases ungot <;> cxt [lexUngetFun, Lexer.of] <;> rfl

theorem letter_eq (x : Int) : ((decide (65 ≤ x) && decide (x ≤ 90)) || (decide (97 ≤ x) && decide (x ≤ 122)) || decide (x = 95)) = isLetter x := rfl
theorem digit_eq (x : Int) : (decide (48 ≤ x) && decide (x ≤ 57)) = isDig x := rfl

/-! ### `name` -/

/-- The variables of `name`. -/
def nameVars (c : Val LexVal) (b : Bool) (t : Bytes) : List (List (Name × Val LexVal)) :=
  [[(n!"cur", c), (n!"first", .bool b), (n!"temp", .str t)], []]

theorem name_loop {β : Type} (f n : Nat) (K : Flow LexVal × St LexVal Lexer → Ran β) (G : Bytes → Lexer → Ran β)
    (hK : ∀ c b t s, K (.next, ⟨nameVars c b t, s⟩) = (ranOf s.inp.unget).bind fun i => G t { s with inp := i })
    (c : Val LexVal) (hc : c = .undef (some .i32) ∨ ∃ k, c = .int .i32 k) (b : Bool) (t : Bytes) (s : Lexer) :
    (iterate (test (lexLib σ N) (.binary n!">=" (.assign (.name n!"cur") (.call (.member (.name n!"is") n!"get") .nil)) (.int .i32 0)))
      (exec (lexLib σ N) f nameFunBody1) .ok n ⟨nameVars c b t, s⟩).bind K =
    (ranOf (nameLoop n b t s.inp)).bind fun r => G r.1 { s with inp := r.2 } := by
  induction n generalizing c b t s with
  | zero => rfl
  | succ n ih =>
    have ht : test (lexLib σ N) (.binary n!">=" (.assign (.name n!"cur") (.call (.member (.name n!"is") n!"get") .nil)) (.int .i32 0))
        ⟨nameVars c b t, s⟩ = .ok (decide (0 ≤ s.inp.get.1), ⟨nameVars (.int .i32 s.inp.get.1) b t, { s with inp := s.inp.get.2 }⟩) := by
      rcases hc with rfl | ⟨k, rfl⟩ <;> cxt [nameVars]
    by_cases h0 : 0 ≤ s.inp.get.1
    · rw [decide_eq_true h0] at ht
      by_cases hb : ((b && !isLetter s.inp.get.1) || !(isLetter s.inp.get.1 || isDig s.inp.get.1)) = true
      · rw [iterate_break ht (s2 := ⟨nameVars (.int .i32 s.inp.get.1) b t, { s with inp := s.inp.get.2 }⟩), Ran.bind_ok, hK, nameLoop,
          if_pos h0, if_pos hb]
        · simp only
          cases s.inp.get.2.unget <;> rfl
        · cxt [nameFunBody1, nameVars, letter_eq, digit_eq, hb]
      · rw [iterate_next ht (s2 := ⟨nameVars (.int .i32 s.inp.get.1) false (t ++ [chr s.inp.get.1]), { s with inp := s.inp.get.2 }⟩)
          (s3 := ⟨nameVars (.int .i32 s.inp.get.1) false (t ++ [chr s.inp.get.1]), { s with inp := s.inp.get.2 }⟩), ih _ (.inr ⟨_, rfl⟩), nameLoop,
          if_pos h0, if_neg hb]
        · cxt [nameFunBody1, nameVars, letter_eq, digit_eq, hb]
        · rfl
    · rw [decide_eq_false h0] at ht
      rw [iterate_done ht, Ran.bind_ok, hK, nameLoop, if_neg h0]
      simp only
      cases s.inp.get.2.unget <;> rfl

theorem name_runs (n : Nat) (s : Lexer) : run (lexLib σ N) n nameFun [] s =
    (ranOf (nameLoop n true [] s.inp)).bind fun r => .ok (.str r.1, [], { s with inp := r.2 }) := by
  cxt [nameFun]
  refine name_loop n n _ (fun t s => .ok ((.str t, [], s) : Val LexVal × List (Val LexVal) × Lexer)) ?_ _ (.inl rfl) true [] s
  intro c b t s
  cases h : s.inp.unget <;> cxt [nameVars, h, ranOf, nameFun]

/-! ### `integer` and `literalString` -/

/-- The variables of `integer`. -/
def integerVars (t : Schema.Token) (f l c : Int) : List (List (Name × Val LexVal)) :=
  [[(n!"tt", .dom (.tok t))], [(n!"first", .int .i32 f), (n!"line", .int .i32 l), (n!"column", .int .i32 c)]]

theorem integer_loop (g n : Nat) (t : Schema.Token) (f l c : Int) (s : Lexer) :
    repeated (test (lexLib σ N) (.name n!"true")) (exec (lexLib σ N) g integerFunBody1) n ⟨integerVars t f l c, s⟩ =
    (ranOf (integerLoop n t.value s.inp)).bind fun r =>
      .ok (.ret (.dom (.tok { t with value := r.1 })), ⟨integerVars { t with value := r.1 } f l c, { s with inp := r.2 }⟩) := by
  induction n generalizing t s with
  | zero => rfl
  | succ n ih =>
    by_cases hd : isDig s.inp.get.1 = true
    · rw [repeated_next (s1 := ⟨integerVars { t with value := t.value ++ [chr s.inp.get.1] } f l c, { s with inp := s.inp.get.2 }⟩)
        (s2 := ⟨integerVars { t with value := t.value ++ [chr s.inp.get.1] } f l c, { s with inp := s.inp.get.2 }⟩), ih, integerLoop, if_pos hd]
      · cxt [integerFunBody1, integerVars, digit_eq, hd]
      · cxt [integerVars]
    · have hm : integerLoop (n + 1) t.value s.inp = s.inp.get.2.unget.bind fun s => .ok (t.value, s) := by
        rw [integerLoop, if_neg hd]
      rw [hm]
      cases h : s.inp.get.2.unget with
      | ok i =>
        rw [repeated_ret (v := .dom (.tok t)) (s1 := ⟨integerVars t f l c, { s with inp := i }⟩)]
        · rfl
        · cxt [integerFunBody1, integerVars, digit_eq, hd, h, ranOf]
      | exc e => exact repeated_throw (by cxt [integerFunBody1, integerVars, digit_eq, hd, h, ranOf])
      | runtime => exact repeated_throw (by cxt [integerFunBody1, integerVars, digit_eq, hd, h, ranOf])
      | fuel => exact repeated_fuel (by cxt [integerFunBody1, integerVars, digit_eq, hd, h, ranOf])

theorem integer_runs (n : Nat) (f : Int) (l c : Nat) (s : Lexer) : run (lexLib σ N) n integerFun [.int .i32 f, .int .i32 l, .int .i32 c] s =
    (ranOf (integer n f l c s.inp)).bind fun r => .ok (.dom (.tok (Token.of r.1)), [.int .i32 f, .int .i32 l, .int .i32 c], { s with inp := r.2 }) := by
  have h := fun t => integer_loop (σ := σ) (N := N) n n t f l c s
  simp only [integerVars] at h
  by_cases hf : f = 0
  · cxt [integerFun, hf]
    subst hf
    rw [h]
    unfold integer
    simp only [ne_eq, not_true_eq_false, ↓reduceIte]
    cases integerLoop n [] s.inp <;> rfl
  · cxt [integerFun, hf]
    rw [h]
    unfold integer
    simp only [ne_eq, hf, not_false_eq_true, ↓reduceIte, List.nil_append]
    cases integerLoop n _ s.inp <;> rfl

/-- The variables of `literalString`. -/
def stringVars (t : Schema.Token) (l c : Int) : List (List (Name × Val LexVal)) :=
  [[(n!"tt", .dom (.tok t))], [(n!"line", .int .i32 l), (n!"column", .int .i32 c)]]

theorem string_loop {β : Type} (g n : Nat) (l c : Nat) (v : Bytes) (s : Lexer) (K : Flow LexVal × St LexVal Lexer → Ran β) (G : Tok → Lexer → Ran β)
    (hK : ∀ t v s, K (.ret (.dom (.tok (Token.of t))), ⟨stringVars ⟨24, v, l, c⟩ l c, s⟩) = G t s) :
    (repeated (test (lexLib σ N) (.name n!"true")) (exec (lexLib σ N) g Schema.stringFunBody1) n ⟨stringVars ⟨24, v, l, c⟩ l c, s⟩).bind K =
    (ranOf (stringLoop l c n v s.inp)).bind fun r => G r.1 { s with inp := r.2 } := by
  induction n generalizing v s with
  | zero => rfl
  | succ n ih =>
    rw [stringLoop]
    by_cases h0 : s.inp.get.1 = 10 ∨ s.inp.get.1 = 0
    · rw [if_pos h0, repeated_ret (v := .dom (.tok (Token.of Tok.default))) (s1 := ⟨stringVars ⟨24, v, l, c⟩ l c, { s with inp := s.inp.get.2 }⟩),
        Ran.bind_ok, hK]
      · rfl
      · rcases h0 with h0 | h0 <;> cxt [Schema.stringFunBody1, stringVars, h0] <;> rfl
    · rw [if_neg h0]
      have h1 : s.inp.get.1 ≠ 10 := fun h => h0 (.inl h)
      have h2 : s.inp.get.1 ≠ 0 := fun h => h0 (.inr h)
      by_cases hq : s.inp.get.1 = 34
      · rw [if_pos hq, repeated_ret (v := .dom (.tok (Token.of ⟨.string, v, l, c⟩))) (s1 := ⟨stringVars ⟨24, v, l, c⟩ l c, { s with inp := s.inp.get.2 }⟩),
          Ran.bind_ok, hK]
        · rfl
        · cxt [Schema.stringFunBody1, stringVars, hq, Int.reduceEq, decide_false, Bool.or_self] <;> rfl
      · rw [if_neg hq, repeated_next (s1 := ⟨stringVars ⟨24, v ++ [chr s.inp.get.1], l, c⟩ l c, { s with inp := s.inp.get.2 }⟩)
          (s2 := ⟨stringVars ⟨24, v ++ [chr s.inp.get.1], l, c⟩ l c, { s with inp := s.inp.get.2 }⟩), ih]
        · cxt [Schema.stringFunBody1, stringVars, h1, h2, hq]
        · cxt [stringVars]

theorem string_runs (n : Nat) (l c : Nat) (s : Lexer) : run (lexLib σ N) n Schema.stringFun [.int .i32 l, .int .i32 c] s =
    (ranOf (stringLoop l c n [] s.inp)).bind fun r => .ok (.dom (.tok (Token.of r.1)), [.int .i32 l, .int .i32 c], { s with inp := r.2 }) := by
  cxt [Schema.stringFun]
  refine string_loop n n l c [] s _ (fun t s => .ok ((.dom (.tok (Token.of t)), [.int .i32 l, .int .i32 c], s) : Val LexVal × List (Val LexVal) × Lexer)) ?_
  intro t v s
  cxt [stringVars, Schema.stringFun] <;> rfl

/-! ### `comment` -/

/-- The variables of `comment`. -/
def commentVars (c : Int) (t : Schema.Token) : List (List (Name × Val LexVal)) :=
  [[(n!"cur", .int .i32 c), (n!"temp", .dom (.tok t))], []]

theorem line_loop {β : Type} (g n : Nat) (c : Int) (t : Schema.Token) (s : Lexer) (K : Flow LexVal × St LexVal Lexer → Ran β) (G : Lexer → Ran β)
    (hK : ∀ c t s, K (.next, ⟨[] :: commentVars c t, s⟩) = G s) :
    (iterate (test (lexLib σ N) (.binary n!"!=" (.assign (.name n!"cur") (.call (.member (.name n!"is") n!"get") .nil)) (.chr 10)))
      (exec (lexLib σ N) g commentFunBody1) .ok n ⟨[] :: commentVars c t, s⟩).bind K =
    (ranOf (lineComment n s.inp)).bind fun i => G { s with inp := i } := by
  induction n generalizing c t s with
  | zero => rfl
  | succ n ih =>
    have ht : test (lexLib σ N) (.binary n!"!=" (.assign (.name n!"cur") (.call (.member (.name n!"is") n!"get") .nil)) (.chr 10))
        ⟨[] :: commentVars c t, s⟩ = .ok (decide (s.inp.get.1 ≠ 10), ⟨[] :: commentVars s.inp.get.1 t, { s with inp := s.inp.get.2 }⟩) := by
      cxt [commentVars]
    rw [lineComment]
    by_cases h0 : s.inp.get.1 = 10
    · rw [iterate_done (by simpa [h0] using ht), Ran.bind_ok, hK]
      simp [h0, ranOf, Ran.bind]
    · rw [iterate_next (by simpa [h0] using ht) (s2 := ⟨[] :: commentVars s.inp.get.1 { t with value := t.value ++ [chr s.inp.get.1] }, { s with inp := s.inp.get.2 }⟩)
          (s3 := ⟨[] :: commentVars s.inp.get.1 { t with value := t.value ++ [chr s.inp.get.1] }, { s with inp := s.inp.get.2 }⟩), ih]
      · simp [h0]
      · cxt [commentFunBody1, commentVars]
      · rfl

theorem block_loop {β : Type} (g n : Nat) (c : Int) (t : Schema.Token) (s : Lexer) (K : Flow LexVal × St LexVal Lexer → Ran β) (G : Lexer → Ran β)
    (hK : ∀ u c t s, K (.ret (.dom (.tok u)), ⟨[] :: commentVars c t, s⟩) = G s) :
    (iterate (test (lexLib σ N) (.name n!"true")) (exec (lexLib σ N) g commentFunBody2) .ok n ⟨[] :: commentVars c t, s⟩).bind K =
    (ranOf (blockComment n s.inp)).bind fun i => G { s with inp := i } := by
  induction n generalizing c t s with
  | zero => rfl
  | succ n ih =>
    have ht : test (lexLib σ N) (.name n!"true") ⟨[] :: commentVars c t, s⟩ = .ok (true, ⟨[] :: commentVars c t, s⟩) := by
      cxt [commentVars]
    rw [blockComment]
    by_cases h0 : s.inp.get.1 = 42
    · rw [if_pos h0]
      cases h : s.inp.get.2.expect 47 with
      | ok r =>
        obtain ⟨b, i⟩ := r
        cases b with
        | true =>
          rw [iterate_ret ht (v := .dom (.tok t)) (s2 := ⟨[] :: commentVars s.inp.get.1 t, { s with inp := i }⟩), Ran.bind_ok, hK]
          · rfl
          · cxt [commentFunBody2, commentVars, h0, h, ranOf]
        | false =>
          rw [iterate_next ht (s2 := ⟨[] :: commentVars s.inp.get.1 { t with value := t.value ++ [chr s.inp.get.1] }, { s with inp := i }⟩)
            (s3 := ⟨[] :: commentVars s.inp.get.1 { t with value := t.value ++ [chr s.inp.get.1] }, { s with inp := i }⟩), ih]
          · rfl
          · cxt [commentFunBody2, commentVars, h0, h, ranOf, Int.reduceLT, decide_false]
          · rfl
      | exc e => rw [iterate_throw ht (e := .exception (Gen.excText e) e.line e.col)]; rfl; cxt [commentFunBody2, commentVars, h0, h, ranOf]
      | runtime => rw [iterate_throw ht (e := .runtime b!"unable to unget")]; rfl; cxt [commentFunBody2, commentVars, h0, h, ranOf]
      | fuel => rw [iterate_fuel ht]; rfl; cxt [commentFunBody2, commentVars, h0, h, ranOf]
    · rw [if_neg h0]
      by_cases h1 : s.inp.get.1 < 0
      · rw [if_pos h1, iterate_ret ht (v := .dom (.tok (Token.of Tok.default))) (s2 := ⟨[] :: commentVars s.inp.get.1 t, { s with inp := s.inp.get.2 }⟩), Ran.bind_ok, hK]
        · rfl
        · cxt [commentFunBody2, commentVars, h0, h1]
          rfl
      · rw [if_neg h1, iterate_next ht (s2 := ⟨[] :: commentVars s.inp.get.1 { t with value := t.value ++ [chr s.inp.get.1] }, { s with inp := s.inp.get.2 }⟩)
            (s3 := ⟨[] :: commentVars s.inp.get.1 { t with value := t.value ++ [chr s.inp.get.1] }, { s with inp := s.inp.get.2 }⟩), ih]
        · cxt [commentFunBody2, commentVars, h0, h1]
        · rfl

theorem comment_runs (n : Nat) (s : Lexer) : ((run (lexLib σ N) n commentFun [] s).bind fun r => .ok r.2.2) =
    (ranOf (comment n s.inp)).bind fun i => .ok { s with inp := i } := by
  unfold comment
  by_cases h1 : s.inp.get.1 = 47
  · rw [if_pos h1]
    cxt [commentFun, h1]
    refine line_loop n n _ _ { s with inp := s.inp.get.2 } _ (fun s => .ok s) ?_
    intro c t s
    cxt [commentVars, commentFun]
  · by_cases h2 : s.inp.get.1 = 42
    · rw [if_neg h1, if_pos h2]
      cxt [commentFun, h2, Int.reduceEq, decide_false]
      refine block_loop n n _ _ { s with inp := s.inp.get.2 } _ (fun s => .ok s) ?_
      intro u c t s
      cxt [commentVars, commentFun]
    · rw [if_neg h1, if_neg h2]
      cxt [commentFun, h1, h2, ranOf]

/-! ### `qname` -/

theorem conv_zero : IT.convert σ .u64 .i32 0 = 0 := (rfl)
theorem nat_neg (n : Nat) : ((n : Int) < 0) = False := by simp
theorem code_name : Code.name.num = 2 := rfl
theorem code_qname : Code.qname.num = 23 := rfl
theorem lex_isNull' (s : Lexer) : (lexBase σ).binary n!"!=" (.dom .null) (.dom .null) s = some (.bool false, s) := (rfl)
theorem keywords_text : ∀ k ∈ keywords, (k.1.takeWhile fun x => decide (¬ x = 0)) = k.1 := by
  have h : (keywords.all fun k => (k.1.takeWhile fun x => decide (¬ x = 0)) == k.1) = true := by decide +kernel
  intro k hk
  exact eq_of_beq (List.all_eq_true.mp h k hk)
attribute [cxt] lex_isNull' conv_zero nat_neg Int.toNat_natCast

/-- The variables of `qname`. -/
def qnameVars (ty : Code) (nm : Bytes) (l c : Nat) : List (List (Name × Val LexVal)) :=
  [[(n!"name", .str nm), (n!"type", .int .i32 ty.num)], [(n!"line", .int .i32 l), (n!"column", .int .i32 c)]]

theorem qname_loop {β : Type} (g n l c : Nat) (ty : Code) (nm : Bytes) (s : Lexer) (K : Flow LexVal × St LexVal Lexer → Ran β)
    (G : Code → Bytes → Lexer → Ran β)
    (hK : ∀ ty nm s, K (.next, ⟨qnameVars ty nm l c, s⟩) = (ranOf s.inp.unget).bind fun i => G ty nm { s with inp := i }) :
    (iterate (test (lexLib σ N) (.binary n!"==" (.call (.member (.name n!"is") n!"get") .nil) (.chr 46)))
      (exec (lexLib σ N) g qnameFunBody1) .ok n ⟨qnameVars ty nm l c, s⟩).bind K =
    (ranOf (qnameLoop N l c n ty nm s.inp)).bind fun r => G r.1 r.2.1 { s with inp := r.2.2 } := by
  induction n generalizing ty nm s with
  | zero => rfl
  | succ n ih =>
    have ht : test (lexLib σ N) (.binary n!"==" (.call (.member (.name n!"is") n!"get") .nil) (.chr 46)) ⟨qnameVars ty nm l c, s⟩ =
        .ok (decide (s.inp.get.1 = 46), ⟨qnameVars ty nm l c, { s with inp := s.inp.get.2 }⟩) := by
      cxt [qnameVars]
    rw [qnameLoop]
    by_cases h0 : s.inp.get.1 = 46
    · rw [if_pos h0]
      rw [decide_eq_true h0] at ht
      cases h : nameLoop N true [] s.inp.get.2 with
      | ok r =>
        obtain ⟨w, i⟩ := r
        by_cases hw : w = []
        · subst hw
          rw [iterate_throw ht (e := .exception b!"Invalid identifier" l c)]
          · rfl
          · cxt [qnameFunBody1, qnameVars, h, ranOf, decide_true]
        · rw [iterate_next ht (s2 := ⟨qnameVars .qname (nm ++ 46 :: w) l c, { s with inp := i }⟩)
            (s3 := ⟨qnameVars .qname (nm ++ 46 :: w) l c, { s with inp := i }⟩), ih]
          · simp [Out.bind, hw]
          · have hl : ((w.length : Int) = 0) = False := by simpa using hw
            cxt [qnameFunBody1, qnameVars, h, ranOf, hl, decide_false, List.append_assoc, List.cons_append, List.nil_append, code_qname]
            rfl
          · rfl
      | exc e => rw [iterate_throw ht (e := .exception (Gen.excText e) e.line e.col)]; rfl; cxt [qnameFunBody1, qnameVars, h, ranOf]
      | runtime => rw [iterate_throw ht (e := .runtime b!"unable to unget")]; rfl; cxt [qnameFunBody1, qnameVars, h, ranOf]
      | fuel => rw [iterate_fuel ht]; rfl; cxt [qnameFunBody1, qnameVars, h, ranOf]
    · rw [if_neg h0]
      rw [decide_eq_false h0] at ht
      rw [iterate_done ht, Ran.bind_ok, hK]
      simp only
      cases s.inp.get.2.unget <;> rfl

theorem keywords_loop {β : Type} (g n l c : Nat) (nm : Bytes) (s : Lexer) (K : Flow LexVal × St LexVal Lexer → Ran β)
    (G : Code → Ran β)
    (hK : ∀ i ty, K (.next, ⟨[(n!"i", .int .i32 i)] :: [] :: qnameVars ty nm l c, s⟩) = G ty)
    (done rest : List (Bytes × Code)) (hd : keywords = done ++ rest) (hn : rest.length < n) :
    (iterate (test (lexLib σ N) (.binary n!"!=" (.member (.index (.name n!"KEYWORDS") (.name n!"i")) n!"keyword") (.name n!"nullptr")))
      (exec (lexLib σ N) g qnameFunBody2) (perform (lexLib σ N) (.incr n!"++" true (.name n!"i"))) n
      ⟨[(n!"i", .int .i32 done.length)] :: [] :: qnameVars .name nm l c, s⟩).bind K = G (findKeyword nm rest) := by
  induction rest generalizing done n with
  | nil =>
    obtain ⟨n, rfl⟩ : ∃ m, n = m + 1 := ⟨n - 1, by simp at hn; omega⟩
    rw [iterate_done (s1 := ⟨[(n!"i", .int .i32 done.length)] :: [] :: qnameVars .name nm l c, s⟩), Ran.bind_ok, hK]
    · rfl
    · have : ((keywordTable.map fun k => Val.dom (LexVal.keyword k.1 k.2)))[done.length]? = some (.dom (.keyword 0 none)) := by
        simp [keywordTable, hd]
      cxt [qnameVars, this]
  | cons k rest ih =>
    obtain ⟨n, rfl⟩ : ∃ m, n = m + 1 := ⟨n - 1, by simp at hn; omega⟩
    have : ((keywordTable.map fun k => Val.dom (LexVal.keyword k.1 k.2)))[done.length]? = some (.dom (.keyword k.2.num (some k.1))) := by
      simp [keywordTable, hd]
    have ht : test (lexLib σ N) (.binary n!"!=" (.member (.index (.name n!"KEYWORDS") (.name n!"i")) n!"keyword") (.name n!"nullptr"))
      ⟨[(n!"i", .int .i32 done.length)] :: [] :: qnameVars .name nm l c, s⟩ = .ok (true, ⟨[(n!"i", .int .i32 done.length)] :: [] :: qnameVars .name nm l c, s⟩) := by
      cxt [qnameVars, this]
    have hz := keywords_text k (by simp [hd])
    by_cases hk : nm = k.1
    · rw [iterate_break ht (s2 := ⟨[(n!"i", .int .i32 done.length)] :: [] :: qnameVars k.2 nm l c, s⟩), Ran.bind_ok, hK, findKeyword, if_pos hk]
      cxt [qnameFunBody2, qnameVars, this, hz, hk, decide_true, decide_false]
    · rw [iterate_next ht (s2 := ⟨[(n!"i", .int .i32 done.length)] :: [] :: qnameVars .name nm l c, s⟩)
        (s3 := ⟨[(n!"i", .int .i32 (done ++ [k]).length)] :: [] :: qnameVars .name nm l c, s⟩), ih _ (done ++ [k]) (by simp [hd]) (by simp at hn; omega),
        findKeyword, if_neg hk]
      · cxt [qnameFunBody2, qnameVars, this, hz, hk, decide_true, decide_false]
      · have hl : done.length + rest.length + 1 = 25 := by
          have : keywords.length = 25 := rfl
          simp [hd] at this
          omega
        have hf : IT.fit .i32 ((done.length : Int) + 1) = some ((done.length : Int) + 1) := fit_i32 (by omega)
        cxt [qnameVars, hf, List.length_append, List.length_cons, List.length_nil, Nat.zero_add, Int.natCast_add]

theorem qname_runs (n l c : Nat) (s : Lexer) (hn : 26 ≤ n) : run (lexLib σ n) n qnameFun [.int .i32 l, .int .i32 c] s =
    (ranOf (qname n l c s.inp)).bind fun r => .ok (.dom (.tok (Token.of r.1)), [.int .i32 l, .int .i32 c], { s with inp := r.2 }) := by
  unfold qname
  cases h : nameLoop n true [] s.inp with
  | ok r =>
    obtain ⟨w, i⟩ := r
    cxt [qnameFun, h, ranOf]
    refine (qname_loop n n l c .name w { s with inp := i } _ (fun ty nm s => .ok ((.dom (.tok ⟨((if ty = .name then findKeyword nm keywords else ty).num : Nat), nm, l, c⟩), [.int .i32 l, .int .i32 c], s) : Val LexVal × List (Val LexVal) × Lexer)) ?_).trans ?_
    · intro ty nm s
      by_cases ht : ty = .name
      · subst ht
        cases h : s.inp.unget with
        | ok i =>
          cxt [qnameVars, qnameFun, h, ranOf, code_name]
          refine (keywords_loop n n l c nm { s with inp := i } _ (fun ty => .ok ((.dom (.tok ⟨ty.num, nm, l, c⟩), [.int .i32 l, .int .i32 c], { s with inp := i }) : Val LexVal × List (Val LexVal) × Lexer)) ?_ [] keywords rfl (by have : keywords.length = 25 := rfl; omega)).trans ?_
          · intro i ty
            cxt [qnameVars, qnameFun]
          · rfl
        | exc e => cxt [qnameFun, qnameVars, h, ranOf]
        | runtime => cxt [qnameFun, qnameVars, h, ranOf]
        | fuel => cxt [qnameFun, qnameVars, h, ranOf]
      · have h2 : ((ty.num : Int) = 2) = False := by
          simp only [eq_iff_iff, iff_false]
          intro h
          exact ht (by cases ty with
            | ty t => cases t <;> exact absurd h (by decide)
            | _ => first | rfl | exact absurd h (by decide))
        cases h : s.inp.unget with
        | ok i =>
          cxt [qnameVars, qnameFun, h, ranOf, h2, decide_false, ht]
        | exc e => cxt [qnameFun, qnameVars, h, ranOf]
        | runtime => cxt [qnameFun, qnameVars, h, ranOf]
        | fuel => cxt [qnameFun, qnameVars, h, ranOf]
    · dsimp only [Out.bind]
      cases qnameLoop n l c n .name w i <;> rfl
  | exc e => cxt [qnameFun, h, ranOf]; rfl
  | runtime => cxt [qnameFun, h, ranOf]; rfl
  | fuel => cxt [qnameFun, h, ranOf]; rfl

/-! ### `next` -/

/-- The variables of `next`. -/
def nextVars (l c : Int) : List (List (Name × Val LexVal)) := [[(n!"column", .int .i32 c), (n!"line", .int .i32 l)], []]

theorem next_loop {β : Type} (g n : Nat) (l c : Int) (s : Lexer) (hs : s.ungot = false) (K : Flow LexVal × St LexVal Lexer → Ran β)
    (G : Tok → In → Ran β)
    (h1 : ∀ l c t i, K (.ret (.dom (.tok (Token.of t))), ⟨nextVars l c, { s with inp := i, cur := Token.of t }⟩) = G t i)
    (h2 : ∀ (l c : Nat) i, K (.next, ⟨nextVars l c, { s with inp := i }⟩) = G ⟨.eof, [], l, c⟩ i) :
    (iterate (test (lexLib σ N) (.name n!"true")) (exec (lexLib σ N) g lexNextFunBody1) .ok n ⟨nextVars l c, s⟩).bind K =
    (ranOf (lexLoop N n s.inp)).bind fun r => G r.1 r.2 := by
  induction n generalizing l c s with
  | zero => rfl
  | succ n ih =>
    have ht : test (lexLib σ N) (.name n!"true") ⟨nextVars l c, s⟩ = .ok (true, ⟨nextVars l c, s⟩) := by
      cxt [nextVars]
    obtain ⟨inp, cur, ungot⟩ := s
    subst hs
    rw [lexLoop]
    simp only at h1 h2
    cases hw : In.skipws N inp with
    | ok i =>
      simp only [Out.bind]
      have hret : ∀ t i', exec (lexLib σ N) g lexNextFunBody1 ⟨nextVars l c, ⟨inp, cur, false⟩⟩ =
          .ok (.ret (.dom (.tok (Token.of t))), ⟨nextVars i.line i.col, ⟨i', Token.of t, false⟩⟩) →
          (iterate (test (lexLib σ N) (.name n!"true")) (exec (lexLib σ N) g lexNextFunBody1) .ok (n + 1) ⟨nextVars l c, ⟨inp, cur, false⟩⟩).bind K = G t i' := by
        intro t i' h
        rw [iterate_ret ht h, Ran.bind_ok]
        exact h1 _ _ _ _
      have hcont : ∀ i', exec (lexLib σ N) g lexNextFunBody1 ⟨nextVars l c, ⟨inp, cur, false⟩⟩ =
          .ok (.continue, ⟨nextVars i.line i.col, ⟨i', cur, false⟩⟩) →
          (iterate (test (lexLib σ N) (.name n!"true")) (exec (lexLib σ N) g lexNextFunBody1) .ok (n + 1) ⟨nextVars l c, ⟨inp, cur, false⟩⟩).bind K =
          (ranOf (lexLoop N n i')).bind fun r => G r.1 r.2 := by
        intro i' h
        rw [iterate_continue ht h rfl]
        exact ih _ _ ⟨i', cur, false⟩ rfl (fun _ _ _ _ => h1 _ _ _ _) (fun _ _ _ => h2 _ _ _)
      by_cases e0 : i.get.1 < 0
      · rw [if_pos e0, iterate_break ht (s2 := ⟨nextVars i.line i.col, ⟨i.get.2, cur, false⟩⟩), Ran.bind_ok, h2]
        · rfl
        · cxt [lexNextFunBody1, nextVars, hw, ranOf, e0]
      rw [if_neg e0]
      cases e1 : isLetter i.get.1 with
      | true =>
        simp only [↓reduceIte]
        cases hu : i.get.2.unget with
        | ok j =>
          simp only [Out.bind]
          cases hq : qname N i.line i.col j with
          | ok r =>
            refine hret r.1 r.2 ?_
            cxt [lexNextFunBody1, nextVars, hw, ranOf, e0, letter_eq, e1, hu, hq]
          | exc e => rw [iterate_throw ht (e := .exception (Gen.excText e) e.line e.col)]; rfl; cxt [lexNextFunBody1, nextVars, hw, ranOf, e0, letter_eq, e1, hu, hq]
          | runtime => rw [iterate_throw ht (e := .runtime b!"unable to unget")]; rfl; cxt [lexNextFunBody1, nextVars, hw, ranOf, e0, letter_eq, e1, hu, hq]
          | fuel => rw [iterate_fuel ht]; rfl; cxt [lexNextFunBody1, nextVars, hw, ranOf, e0, letter_eq, e1, hu, hq]
        | exc e => rw [iterate_throw ht (e := .exception (Gen.excText e) e.line e.col)]; rfl; cxt [lexNextFunBody1, nextVars, hw, ranOf, e0, letter_eq, e1, hu]
        | runtime => rw [iterate_throw ht (e := .runtime b!"unable to unget")]; rfl; cxt [lexNextFunBody1, nextVars, hw, ranOf, e0, letter_eq, e1, hu]
        | fuel => rw [iterate_fuel ht]; rfl; cxt [lexNextFunBody1, nextVars, hw, ranOf, e0, letter_eq, e1, hu]
      | false =>
        simp only [Bool.false_eq_true, ↓reduceIte]
        cases e2 : isDig i.get.1 with
        | true =>
          simp only [↓reduceIte]
          cases hq : integer N i.get.1 i.line i.col i.get.2 with
          | ok r =>
            refine hret r.1 r.2 ?_
            cxt [lexNextFunBody1, nextVars, hw, ranOf, e0, letter_eq, e1, digit_eq, e2, hq]
          | exc e => rw [iterate_throw ht (e := .exception (Gen.excText e) e.line e.col)]; rfl; cxt [lexNextFunBody1, nextVars, hw, ranOf, e0, letter_eq, e1, digit_eq, e2, hq]
          | runtime => rw [iterate_throw ht (e := .runtime b!"unable to unget")]; rfl; cxt [lexNextFunBody1, nextVars, hw, ranOf, e0, letter_eq, e1, digit_eq, e2, hq]
          | fuel => rw [iterate_fuel ht]; rfl; cxt [lexNextFunBody1, nextVars, hw, ranOf, e0, letter_eq, e1, digit_eq, e2, hq]
        | false =>
          simp only [Bool.false_eq_true, ↓reduceIte]
          by_cases e3 : i.get.1 = 47
          · rw [if_pos e3]
            cases hq : comment N i.get.2 with
            | ok j =>
              refine hcont j ?_
              cxt [lexNextFunBody1, nextVars, hw, ranOf, e0, letter_eq, e1, digit_eq, e2, eq_true e3, decide_true, hq]
            | exc e => rw [iterate_throw ht (e := .exception (Gen.excText e) e.line e.col)]; rfl; cxt [lexNextFunBody1, nextVars, hw, ranOf, e0, letter_eq, e1, digit_eq, e2, eq_true e3, decide_true, hq]
            | runtime => rw [iterate_throw ht (e := .runtime b!"unable to unget")]; rfl; cxt [lexNextFunBody1, nextVars, hw, ranOf, e0, letter_eq, e1, digit_eq, e2, eq_true e3, decide_true, hq]
            | fuel => rw [iterate_fuel ht]; rfl; cxt [lexNextFunBody1, nextVars, hw, ranOf, e0, letter_eq, e1, digit_eq, e2, eq_true e3, decide_true, hq]
          rw [if_neg e3]
          by_cases e4 : i.get.1 = 10 ∨ i.get.1 = 13
          · rw [if_pos e4]
            refine hcont i.get.2 ?_
            rcases e4 with e4 | e4 <;>
              cxt [lexNextFunBody1, nextVars, hw, ranOf, e0, letter_eq, e1, digit_eq, e2, eq_false e3, decide_true, decide_false, eq_true e4, Bool.true_or, Bool.or_true]
          rw [if_neg e4]
          obtain ⟨e4, e5⟩ := not_or.mp e4
          by_cases e6 : i.get.1 = 34
          · rw [if_pos e6]
            cases hq : stringLoop i.line i.col N [] i.get.2 with
            | ok r =>
              refine hret r.1 r.2 ?_
              cxt [lexNextFunBody1, nextVars, hw, ranOf, e0, letter_eq, e1, digit_eq, e2, eq_false e3, decide_true, decide_false, eq_false e4, eq_false e5, Bool.or_self, eq_true e6, hq]
            | exc e => rw [iterate_throw ht (e := .exception (Gen.excText e) e.line e.col)]; rfl; cxt [lexNextFunBody1, nextVars, hw, ranOf, e0, letter_eq, e1, digit_eq, e2, eq_false e3, decide_true, decide_false, eq_false e4, eq_false e5, Bool.or_self, eq_true e6, hq]
            | runtime => rw [iterate_throw ht (e := .runtime b!"unable to unget")]; rfl; cxt [lexNextFunBody1, nextVars, hw, ranOf, e0, letter_eq, e1, digit_eq, e2, eq_false e3, decide_true, decide_false, eq_false e4, eq_false e5, Bool.or_self, eq_true e6, hq]
            | fuel => rw [iterate_fuel ht]; rfl; cxt [lexNextFunBody1, nextVars, hw, ranOf, e0, letter_eq, e1, digit_eq, e2, eq_false e3, decide_true, decide_false, eq_false e4, eq_false e5, Bool.or_self, eq_true e6, hq]
          rw [if_neg e6]
          unfold symbol
          by_cases s0 : i.get.1 = 61
          · rw [if_pos s0]
            refine hret ⟨.equal, [], i.line, i.col⟩ i.get.2 ?_
            cxt [lexNextFunBody1, nextVars, hw, ranOf, e0, letter_eq, e1, digit_eq, e2, eq_false e3, decide_true, decide_false, eq_false e4, eq_false e5, Bool.or_self, eq_false e6, eq_true s0] <;> rfl
          rw [if_neg s0]
          by_cases s1 : i.get.1 = 123
          · rw [if_pos s1]
            refine hret ⟨.begin, [], i.line, i.col⟩ i.get.2 ?_
            cxt [lexNextFunBody1, nextVars, hw, ranOf, e0, letter_eq, e1, digit_eq, e2, eq_false e3, decide_true, decide_false, eq_false e4, eq_false e5, Bool.or_self, eq_false e6, eq_false s0, eq_true s1] <;> rfl
          rw [if_neg s1]
          by_cases s2 : i.get.1 = 125
          · rw [if_pos s2]
            refine hret ⟨.end, [], i.line, i.col⟩ i.get.2 ?_
            cxt [lexNextFunBody1, nextVars, hw, ranOf, e0, letter_eq, e1, digit_eq, e2, eq_false e3, decide_true, decide_false, eq_false e4, eq_false e5, Bool.or_self, eq_false e6, eq_false s0, eq_false s1, eq_true s2] <;> rfl
          rw [if_neg s2]
          by_cases s3 : i.get.1 = 59
          · rw [if_pos s3]
            refine hret ⟨.scolon, [], i.line, i.col⟩ i.get.2 ?_
            cxt [lexNextFunBody1, nextVars, hw, ranOf, e0, letter_eq, e1, digit_eq, e2, eq_false e3, decide_true, decide_false, eq_false e4, eq_false e5, Bool.or_self, eq_false e6, eq_false s0, eq_false s1, eq_false s2, eq_true s3] <;> rfl
          rw [if_neg s3]
          by_cases s4 : i.get.1 = 44
          · rw [if_pos s4]
            refine hret ⟨.comma, [], i.line, i.col⟩ i.get.2 ?_
            cxt [lexNextFunBody1, nextVars, hw, ranOf, e0, letter_eq, e1, digit_eq, e2, eq_false e3, decide_true, decide_false, eq_false e4, eq_false e5, Bool.or_self, eq_false e6, eq_false s0, eq_false s1, eq_false s2, eq_false s3, eq_true s4] <;> rfl
          rw [if_neg s4]
          by_cases s5 : i.get.1 = 60
          · rw [if_pos s5]
            refine hret ⟨.lt, [], i.line, i.col⟩ i.get.2 ?_
            cxt [lexNextFunBody1, nextVars, hw, ranOf, e0, letter_eq, e1, digit_eq, e2, eq_false e3, decide_true, decide_false, eq_false e4, eq_false e5, Bool.or_self, eq_false e6, eq_false s0, eq_false s1, eq_false s2, eq_false s3, eq_false s4, eq_true s5] <;> rfl
          rw [if_neg s5]
          by_cases s6 : i.get.1 = 62
          · rw [if_pos s6]
            refine hret ⟨.gt, [], i.line, i.col⟩ i.get.2 ?_
            cxt [lexNextFunBody1, nextVars, hw, ranOf, e0, letter_eq, e1, digit_eq, e2, eq_false e3, decide_true, decide_false, eq_false e4, eq_false e5, Bool.or_self, eq_false e6, eq_false s0, eq_false s1, eq_false s2, eq_false s3, eq_false s4, eq_false s5, eq_true s6] <;> rfl
          rw [if_neg s6]
          by_cases s7 : i.get.1 = 91
          · rw [if_pos s7]
            refine hret ⟨.lbracket, [], i.line, i.col⟩ i.get.2 ?_
            cxt [lexNextFunBody1, nextVars, hw, ranOf, e0, letter_eq, e1, digit_eq, e2, eq_false e3, decide_true, decide_false, eq_false e4, eq_false e5, Bool.or_self, eq_false e6, eq_false s0, eq_false s1, eq_false s2, eq_false s3, eq_false s4, eq_false s5, eq_false s6, eq_true s7] <;> rfl
          rw [if_neg s7]
          by_cases s8 : i.get.1 = 93
          · rw [if_pos s8]
            refine hret ⟨.rbracket, [], i.line, i.col⟩ i.get.2 ?_
            cxt [lexNextFunBody1, nextVars, hw, ranOf, e0, letter_eq, e1, digit_eq, e2, eq_false e3, decide_true, decide_false, eq_false e4, eq_false e5, Bool.or_self, eq_false e6, eq_false s0, eq_false s1, eq_false s2, eq_false s3, eq_false s4, eq_false s5, eq_false s6, eq_false s7, eq_true s8] <;> rfl
          rw [if_neg s8]
          rw [iterate_throw ht (e := .exception b!"Invalid symbol" i.line i.col)]
          · rfl
          · cxt [lexNextFunBody1, nextVars, hw, ranOf, e0, letter_eq, e1, digit_eq, e2, eq_false e3, decide_true, decide_false, eq_false e4, eq_false e5, Bool.or_self, eq_false e6, eq_false s0, eq_false s1, eq_false s2, eq_false s3, eq_false s4, eq_false s5, eq_false s6, eq_false s7, eq_false s8]
    | exc e => rw [iterate_throw ht (e := .exception (Gen.excText e) e.line e.col)]; rfl; cxt [lexNextFunBody1, nextVars, hw, ranOf]
    | runtime => rw [iterate_throw ht (e := .runtime b!"unable to unget")]; rfl; cxt [lexNextFunBody1, nextVars, hw, ranOf]
    | fuel => rw [iterate_fuel ht]; rfl; cxt [lexNextFunBody1, nextVars, hw, ranOf]

theorem next_runs (n : Nat) (hn : 0 < n) (tk : Tk In) : run (lexLib σ n) n lexNextFun [] (Lexer.of tk) =
    (ranOf (Tk.next (Proto.lex n) tk)).bind fun tk => .ok (.dom (.tok (Token.of tk.cur)), [], Lexer.of tk) := by
  obtain ⟨cur, ungot, src⟩ := tk
  cases ungot with
  | true =>
    obtain ⟨n, rfl⟩ : ∃ m, n = m + 1 := ⟨n - 1, by omega⟩
    cxt [lexNextFun, Lexer.of]
    rw [iterate_ret (v := .dom (.tok (Token.of cur))) (s1 := ⟨nextVars 1 1, ⟨src, Token.of cur, true⟩⟩) (s2 := ⟨nextVars 1 1, ⟨src, Token.of cur, false⟩⟩)]
    · rfl
    · cxt [nextVars]
    · cxt [lexNextFunBody1, nextVars]
  | false =>
    cxt [lexNextFun, Lexer.of]
    refine (next_loop n n 1 1 ⟨src, Token.of cur, false⟩ rfl _ (fun t i => .ok ((.dom (.tok (Token.of t)), [], ⟨i, Token.of t, false⟩) : Val LexVal × List (Val LexVal) × Lexer)) ?_ ?_).trans ?_
    · intro l c t i
      cxt [lexNextFun, nextVars]
    · intro l c i
      cxt [lexNextFun, nextVars] <;> rfl
    · simp only [Tk.next, Proto.lex, Bool.false_eq_true, ↓reduceIte]
      cases lexLoop n n src <;> rfl

/-! ### The constructors -/

section
variable (t u : Schema.Token) (k : Int) (x : Bytes)
theorem tokL_base : (tokenLib σ).base.signed = σ := (rfl)
theorem tokL_this : (tokenLib σ).base.get n!"this" t = some (.dom (.tok t)) := (rfl)
theorem tokL_set : (tokenLib σ).base.set n!"this" (.dom (.tok u)) t = some u := (rfl)
theorem tokL_value : (tokenLib σ).base.member (.dom (.tok t)) n!"value" u = some (.str t.value) := (rfl)
theorem tokL_code : (tokenLib σ).base.member (.dom (.tok t)) n!"code" u = some (.int .i32 t.code) := (rfl)
theorem tokL_line : (tokenLib σ).base.member (.dom (.tok t)) n!"line" u = some (.int .i32 t.line) := (rfl)
theorem tokL_col : (tokenLib σ).base.member (.dom (.tok t)) n!"column" u = some (.int .i32 t.col) := (rfl)
theorem tokL_uValue : (tokenLib σ).base.update (.dom (.tok t)) n!"value" (.str x) = some (.dom (.tok { t with value := x })) := (rfl)
theorem tokL_uCode : (tokenLib σ).base.update (.dom (.tok t)) n!"code" (.int .i32 k) = some (.dom (.tok { t with code := k })) := (rfl)
theorem tokL_uLine : (tokenLib σ).base.update (.dom (.tok t)) n!"line" (.int .i32 k) = some (.dom (.tok { t with line := k })) := (rfl)
theorem tokL_uCol : (tokenLib σ).base.update (.dom (.tok t)) n!"column" (.int .i32 k) = some (.dom (.tok { t with col := k })) := (rfl)
end
attribute [cxt] tokL_base tokL_this tokL_set tokL_value tokL_code tokL_line tokL_col tokL_uValue tokL_uCode tokL_uLine tokL_uCol

theorem tokNew_runs (n : Nat) (k l c : Int) (x : Bytes) (t : Schema.Token) :
    run (tokenLib σ) n tokNewFun [.int .i32 k, .str x, .int .i32 l, .int .i32 c] t =
      .ok (.void, [.int .i32 k, .str x, .int .i32 l, .int .i32 c], ⟨k, x, l, c⟩) := by
  cxt [tokNewFun]

end PG.Cxx.Throw
