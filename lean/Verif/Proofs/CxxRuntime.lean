import Verif.Proofs.CxxEval
/-
Rules for the library of the runtime.
-/
set_option autoImplicit false
namespace PG.Cxx

section
variable {V F : Type} {σ : Bool} {ops : Ops V F} {w : World}

theorem const_NONE {D : Type} : constants (D := D) [n!"token_id", n!"NONE"] = some (.int .i32 (tidNumber .none : Nat)) := (rfl)
theorem const_EOS {D : Type} : constants (D := D) [n!"token_id", n!"EOS"] = some (.int .i32 (tidNumber .eos : Nat)) := (rfl)
theorem const_OBJS {D : Type} : constants (D := D) [n!"token_id", n!"OBJS"] = some (.int .i32 (tidNumber .objs : Nat)) := (rfl)
theorem const_OBJE {D : Type} : constants (D := D) [n!"token_id", n!"OBJE"] = some (.int .i32 (tidNumber .obje : Nat)) := (rfl)
theorem const_COLON {D : Type} : constants (D := D) [n!"token_id", n!"COLON"] = some (.int .i32 (tidNumber .colon : Nat)) := (rfl)
theorem const_COMMA {D : Type} : constants (D := D) [n!"token_id", n!"COMMA"] = some (.int .i32 (tidNumber .comma : Nat)) := (rfl)
theorem const_STRING {D : Type} : constants (D := D) [n!"token_id", n!"STRING"] = some (.int .i32 (tidNumber .string : Nat)) := (rfl)
theorem const_ARRS {D : Type} : constants (D := D) [n!"token_id", n!"ARRS"] = some (.int .i32 (tidNumber .arrs : Nat)) := (rfl)
theorem const_ARRE {D : Type} : constants (D := D) [n!"token_id", n!"ARRE"] = some (.int .i32 (tidNumber .arre : Nat)) := (rfl)
theorem const_NIL {D : Type} : constants (D := D) [n!"token_id", n!"NIL"] = some (.int .i32 (tidNumber .nil : Nat)) := (rfl)
theorem const_BTRUE {D : Type} : constants (D := D) [n!"token_id", n!"BTRUE"] = some (.int .i32 (tidNumber .btrue : Nat)) := (rfl)
theorem const_BFALSE {D : Type} : constants (D := D) [n!"token_id", n!"BFALSE"] = some (.int .i32 (tidNumber .bfalse : Nat)) := (rfl)
theorem const_NUMBER {D : Type} : constants (D := D) [n!"token_id", n!"NUMBER"] = some (.int .i32 (tidNumber .number : Nat)) := (rfl)
theorem code_PGERR_OK {D : Type} : constants (D := D) [n!"error_code", n!"PGERR_OK"] = some (.int .i32 0) := (rfl)
theorem code_PGERR_IGNORE_FAILED {D : Type} : constants (D := D) [n!"error_code", n!"PGERR_IGNORE_FAILED"] = some (.int .i32 1) := (rfl)
theorem code_PGERR_INVALID_SEPARATOR {D : Type} : constants (D := D) [n!"error_code", n!"PGERR_INVALID_SEPARATOR"] = some (.int .i32 3) := (rfl)
theorem code_PGERR_INVALID_VALUE {D : Type} : constants (D := D) [n!"error_code", n!"PGERR_INVALID_VALUE"] = some (.int .i32 4) := (rfl)
theorem code_PGERR_INVALID_OBJECT {D : Type} : constants (D := D) [n!"error_code", n!"PGERR_INVALID_OBJECT"] = some (.int .i32 5) := (rfl)
theorem code_PGERR_INVALID_NAME {D : Type} : constants (D := D) [n!"error_code", n!"PGERR_INVALID_NAME"] = some (.int .i32 6) := (rfl)
theorem code_PGERR_INVALID_ARRAY {D : Type} : constants (D := D) [n!"error_code", n!"PGERR_INVALID_ARRAY"] = some (.int .i32 7) := (rfl)
theorem const_PGERR_OK {D : Type} : constants (D := D) [n!"PGERR_OK"] = some (.int .i32 0) := (rfl)
theorem get_PGERR_OK : (runtimeLib σ ops).get n!"PGERR_OK" w = none := (rfl)
theorem const_PGERR_IGNORE_FAILED {D : Type} : constants (D := D) [n!"PGERR_IGNORE_FAILED"] = some (.int .i32 1) := (rfl)
theorem get_PGERR_IGNORE_FAILED : (runtimeLib σ ops).get n!"PGERR_IGNORE_FAILED" w = none := (rfl)
theorem const_PGR_OK {D : Type} : constants (D := D) [n!"PGR_OK"] = some (.int .i32 0) := (rfl)
theorem get_PGR_OK : (runtimeLib σ ops).get n!"PGR_OK" w = none := (rfl)
theorem const_PGR_ERROR {D : Type} : constants (D := D) [n!"PGR_ERROR"] = some (.int .i32 1) := (rfl)
theorem get_PGR_ERROR : (runtimeLib σ ops).get n!"PGR_ERROR" w = none := (rfl)
theorem const_PGR_NIL {D : Type} : constants (D := D) [n!"PGR_NIL"] = some (.int .i32 2) := (rfl)
theorem get_PGR_NIL : (runtimeLib σ ops).get n!"PGR_NIL" w = none := (rfl)
theorem const_true {D : Type} : constants (D := D) [n!"true"] = some (.bool true) := (rfl)
theorem get_true : (runtimeLib σ ops).get n!"true" w = none := (rfl)
theorem const_false {D : Type} : constants (D := D) [n!"false"] = some (.bool false) := (rfl)
theorem get_false : (runtimeLib σ ops).get n!"false" w = none := (rfl)
theorem const_nullptr {D : Type} : constants (D := D) [n!"nullptr"] = some (.void) := (rfl)
theorem get_nullptr : (runtimeLib σ ops).get n!"nullptr" w = none := (rfl)
theorem ecode_ignoreArray : ecodeOf 1 b!"invalid array" = some .ignoreArray := by decide +kernel
theorem ecode_ignoreObject : ecodeOf 1 b!"invalid object" = some .ignoreObject := by decide +kernel
theorem ecode_ignoreName : ecodeOf 1 b!"expected field name" = some .ignoreName := by decide +kernel
theorem ecode_ignoreColon : ecodeOf 1 b!"expected colon" = some .ignoreColon := by decide +kernel
theorem ecode_ignoreEnd : ecodeOf 1 b!"end of stream" = some .ignoreEnd := by decide +kernel
theorem ecode_ignoreValue : ecodeOf 1 b!"invalid value" = some .ignoreValue := by decide +kernel
theorem ecode_invalidSeparator : ecodeOf 3 b!"field name and value must be separated by ':'" = some .invalidSeparator := by decide +kernel
theorem ecode_invalidNumber : ecodeOf 4 b!"invalid numeric value" = some .invalidNumber := by decide +kernel
theorem ecode_invalidBool : ecodeOf 4 b!"invalid boolean value" = some .invalidBool := by decide +kernel
theorem ecode_invalidString : ecodeOf 4 b!"invalid string value" = some .invalidString := by decide +kernel
theorem ecode_invalidUtf8 : ecodeOf 4 b!"invalid UTF-8 code point" = some .invalidUtf8 := by decide +kernel
theorem ecode_invalidBytes : ecodeOf 5 b!"invalid string" = some .invalidBytes := by decide +kernel
theorem ecode_invalidBase64 : ecodeOf 5 b!"invalid base64 data" = some .invalidBase64 := by decide +kernel
theorem ecode_invalidStart : ecodeOf 5 b!"objects must start with '{'" = some .invalidStart := by decide +kernel
theorem ecode_invalidObject : ecodeOf 5 b!"invalid JSON object" = some .invalidObject := by decide +kernel
theorem ecode_invalidName : ecodeOf 6 b!"object key must be string" = some .invalidName := by decide +kernel
theorem ecode_invalidArray : ecodeOf 7 b!"invalid array" = some .invalidArray := by decide +kernel

attribute [cxx] const_NONE const_EOS const_OBJS const_OBJE const_COLON const_COMMA const_STRING const_ARRS const_ARRE
  const_NIL const_BTRUE const_BFALSE const_NUMBER code_PGERR_OK code_PGERR_IGNORE_FAILED code_PGERR_INVALID_SEPARATOR
  code_PGERR_INVALID_VALUE code_PGERR_INVALID_OBJECT code_PGERR_INVALID_NAME code_PGERR_INVALID_ARRAY const_PGERR_OK
  get_PGERR_OK const_PGERR_IGNORE_FAILED get_PGERR_IGNORE_FAILED const_PGR_OK get_PGR_OK const_PGR_ERROR get_PGR_ERROR
  const_PGR_NIL get_PGR_NIL const_true get_true const_false get_false const_nullptr get_nullptr ecode_ignoreArray
  ecode_ignoreObject ecode_ignoreName ecode_ignoreColon ecode_ignoreEnd ecode_ignoreValue ecode_invalidSeparator
  ecode_invalidNumber ecode_invalidBool ecode_invalidString ecode_invalidUtf8 ecode_invalidBytes ecode_invalidBase64
  ecode_invalidStart ecode_invalidObject ecode_invalidName ecode_invalidArray

theorem runtime_signed : (runtimeLib σ ops).signed = σ := (rfl)
theorem runtime_constant (p : List Name) : (runtimeLib σ ops).constant p = constants p := (rfl)
theorem get_current : (runtimeLib σ ops).get n!"current_" w = some (.dom (.tok w.tz.cur)) := (rfl)
theorem get_input : (runtimeLib σ ops).get n!"input_" w = some (.dom .input) := (rfl)
theorem set_current (t : Token) :
    (runtimeLib σ ops).set n!"current_" (.dom (.tok t)) w = some { w with tz := { w.tz with cur := t } } := (rfl)
theorem member_tok (t : Token) (n : Name) : (runtimeLib σ ops).member (.dom (.tok t)) n w = tokenMember t n := (rfl)
theorem member_current (n : Name) : (runtimeLib σ ops).member (.dom .current) n w = tokenMember w.tz.cur n := (rfl)
theorem member_id {D : Type} (t : Token) : tokenMember (D := D) t n!"id" = some (.int .i32 (tidNumber t.id)) := (rfl)
theorem member_value {D : Type} (t : Token) : tokenMember (D := D) t n!"value" = some (.str t.value) := (rfl)
theorem member_line {D : Type} (t : Token) : tokenMember (D := D) t n!"line" = some (.int .i32 t.line) := (rfl)
theorem member_column {D : Type} (t : Token) : tokenMember (D := D) t n!"column" = some (.int .i32 t.col) := (rfl)
theorem ctx_tok : (runtimeLib σ ops).member (.dom .ctx) n!"tok" w = some (.dom .tokPtr) := (rfl)
theorem ctx_os : (runtimeLib σ ops).member (.dom .ctx) n!"os" w = some (.dom .osPtr) := (rfl)
theorem ctx_params : (runtimeLib σ ops).member (.dom .ctx) n!"params" w = some (.dom .params) := (rfl)
theorem params_ascii : (runtimeLib σ ops).member (.dom .params) n!"ensure_ascii" w = some (.bool w.ascii) := (rfl)
theorem params_error : (runtimeLib σ ops).member (.dom .params) n!"error" w = some (.dom .error) := (rfl)
theorem update_id (t : Token) (k : Int) : (runtimeLib σ ops).update (.dom (.tok t)) n!"id" (.int .i32 k) =
    (tidOf k).map fun i => .dom (.tok { t with id := i }) := (rfl)
theorem update_value (t : Token) (s : Bytes) : (runtimeLib σ ops).update (.dom (.tok t)) n!"value" (.str s) =
    some (.dom (.tok { t with value := s })) := (rfl)
theorem tidOf_number (t : TId) : tidOf (tidNumber t : Nat) = some t := by cases t <;> decide
theorem tid_inj {a b : TId} : ((tidNumber a : Nat) : Int) = (tidNumber b : Nat) ↔ a = b :=
  ⟨fun h => by
    have := tidOf_number a
    rw [h, tidOf_number] at this
    exact (Option.some.inj this).symm, fun h => by rw [h]⟩
theorem method_input (f : Name) (l : List (Val (Dom V F))) :
    (runtimeLib σ ops).method f w (.dom .input :: l) = input σ f w l := (rfl)
theorem method_tok (f : Name) (l : List (Val (Dom V F))) :
    (runtimeLib σ ops).method f w (.dom .tokPtr :: l) = tokenizer σ f w l := (rfl)
theorem input_eof : input (V := V) (F := F) σ n!"eof" w [] = some (.bool w.tz.inp.eof, [], w) := (rfl)
theorem input_peek : input (V := V) (F := F) σ n!"peek" w [] = some (.int .i32 (IT.ofByte σ w.tz.inp.peek), [], w) := (rfl)
theorem input_next : input (V := V) (F := F) σ n!"next" w [] =
    some (.void, [], { w with tz := { w.tz with inp := w.tz.inp.next } }) := (rfl)
theorem input_line : input (V := V) (F := F) σ n!"line" w [] = some (.int .i32 w.tz.inp.line, [], w) := (rfl)
theorem input_column : input (V := V) (F := F) σ n!"column" w [] = some (.int .i32 w.tz.inp.col, [], w) := (rfl)

theorem tokenizer_next : tokenizer (V := V) (F := F) σ n!"next" w [] =
    some (.dom (.tok w.tz.next.cur), [], { w with tz := w.tz.next }) := (rfl)
theorem tokenizer_peek : tokenizer (V := V) (F := F) σ n!"peek" w [] = some (.dom .current, [], w) := (rfl)
theorem tokenizer_ident : tokenizer (V := V) (F := F) σ n!"parse_identifier" w [] =
    some (.str (lexIdent w.tz.inp []).1, [], { w with tz := { w.tz with inp := (lexIdent w.tz.inp []).2 } }) := (rfl)
theorem tokenizer_string (h : w.tz.inp.peek = 34) : tokenizer (V := V) (F := F) σ n!"parse_string" w [] =
    some (.dom (.tok (parseString w.tz.inp).1), [], { w with tz := { w.tz with inp := (parseString w.tz.inp).2 } }) := if_pos h
theorem tokenizer_number : tokenizer (V := V) (F := F) σ n!"parse_number" w [] =
    some (.dom (.tok { id := .number, value := (lexNumber w.tz.inp []).1, line := w.tz.inp.line, col := w.tz.inp.col }), [],
      { w with tz := { w.tz with inp := (lexNumber w.tz.inp []).2 } }) := (rfl)
theorem tokenizer_array : tokenizer (V := V) (F := F) σ n!"ignore_array" w [] =
    returned (skipArray w.tz).1 [] { w with tz := (skipArray w.tz).2 } := (rfl)
theorem tokenizer_object : tokenizer (V := V) (F := F) σ n!"ignore_object" w [] =
    returned (skipObject w.tz).1 [] { w with tz := (skipObject w.tz).2 } := (rfl)
theorem tokenizer_value : tokenizer (V := V) (F := F) σ n!"ignore_value" w [] =
    returned (skipValue w.tz).1 [] { w with tz := (skipValue w.tz).2 } := (rfl)
theorem tokenizer_ignore : tokenizer (V := V) (F := F) σ n!"ignore" w [] =
    returned (skipValue w.tz).1 [] { w with tz := (skipValue w.tz).2 } := (rfl)
theorem tokenizer_expect (t : TId) : tokenizer (V := V) (F := F) σ n!"expect" w [.int .i32 (tidNumber t : Nat)] =
    some (.bool (w.tz.expect t).1, [], { w with tz := (w.tz.expect t).2 }) := by
  show (tidOf _).map _ = _
  rw [tidOf_number, Option.map_some]
theorem tokenizer_error (k : Int) (m : Bytes) : tokenizer (V := V) (F := F) σ n!"error" w [.int .i32 k, .str m] =
    (ecodeOf k m).map fun c => (.int .i32 1, [], { w with tz := (w.tz.error c).2 }) := (rfl)
theorem tokenizer_utf8 (value : Bytes) (lead : Int) (h : lead = 0 ∨ 0xD800 ≤ lead ∧ lead ≤ 0xDBFF) : tokenizer (V := V) (F := F) σ n!"parse_escaped_utf8" w [.str value, .int .i32 lead] =
    match (lexHex 4 0 w.tz.inp).1 with
    | none => some (.bool false, [some (.str value), some (.int .i32 lead)], { w with tz := { w.tz with inp := (lexHex 4 0 w.tz.inp).2 } })
    | some cp =>
      match putCodeUnit value lead.toNat cp with
      | none => some (.bool false, [some (.str value), some (.int .i32 lead)], { w with tz := { w.tz with inp := (lexHex 4 0 w.tz.inp).2 } })
      | some q => some (.bool true, [some (.str q.1), some (.int .i32 q.2)],
          { w with tz := { w.tz with inp := (lexHex 4 0 w.tz.inp).2 } }) := if_pos ⟨rfl, h⟩

theorem function_next (l : List (Val (Dom V F))) : (runtimeLib σ ops).function [n!"next"] w l = tokenizer σ n!"next" w l := (rfl)
theorem function_peek (l : List (Val (Dom V F))) : (runtimeLib σ ops).function [n!"peek"] w l = tokenizer σ n!"peek" w l := (rfl)
theorem function_ident (l : List (Val (Dom V F))) :
    (runtimeLib σ ops).function [n!"parse_identifier"] w l = tokenizer σ n!"parse_identifier" w l := (rfl)
theorem function_string (l : List (Val (Dom V F))) :
    (runtimeLib σ ops).function [n!"parse_string"] w l = tokenizer σ n!"parse_string" w l := (rfl)
theorem function_number (l : List (Val (Dom V F))) :
    (runtimeLib σ ops).function [n!"parse_number"] w l = tokenizer σ n!"parse_number" w l := (rfl)
theorem function_array (l : List (Val (Dom V F))) :
    (runtimeLib σ ops).function [n!"ignore_array"] w l = tokenizer σ n!"ignore_array" w l := (rfl)
theorem function_object (l : List (Val (Dom V F))) :
    (runtimeLib σ ops).function [n!"ignore_object"] w l = tokenizer σ n!"ignore_object" w l := (rfl)
theorem function_value (l : List (Val (Dom V F))) :
    (runtimeLib σ ops).function [n!"ignore_value"] w l = tokenizer σ n!"ignore_value" w l := (rfl)
theorem function_expect (l : List (Val (Dom V F))) :
    (runtimeLib σ ops).function [n!"expect"] w l = tokenizer σ n!"expect" w l := (rfl)
theorem function_error (l : List (Val (Dom V F))) :
    (runtimeLib σ ops).function [n!"error"] w l = tokenizer σ n!"error" w l := (rfl)
theorem function_utf8 (l : List (Val (Dom V F))) :
    (runtimeLib σ ops).function [n!"parse_escaped_utf8"] w l = tokenizer σ n!"parse_escaped_utf8" w l := (rfl)
theorem function_token4 (t : TId) (v : Bytes) (l c : Nat) :
    (runtimeLib σ ops).function [n!"token"] w [.int .i32 (tidNumber t : Nat), .str v, .int .i32 (l : Int), .int .i32 (c : Int)] =
      some (.dom (.tok ⟨t, v, l, c⟩), [], w) := by
  show (tidOf _).map _ = _
  rw [tidOf_number, Option.map_some]
  rfl
theorem function_token2 (t : TId) (v : Bytes) :
    (runtimeLib σ ops).function [n!"token"] w [.int .i32 (tidNumber t : Nat), .str v] = some (.dom (.tok ⟨t, v, 0, 0⟩), [], w) := by
  show (tidOf _).map _ = _
  rw [tidOf_number, Option.map_some]
theorem assign_tok (a b : Token) : (runtimeLib σ ops).assign (.dom (.tok a)) (.dom (.tok b)) = some (.dom (.tok b)) := (rfl)
theorem init_auto (t : Token) : (runtimeLib σ ops).init n!"auto" (some (.dom (.tok t))) w = some (.dom (.tok t)) := (rfl)
theorem init_autoCurrent : (runtimeLib σ ops).init n!"auto" (some (.dom .current)) w = some (.dom (.tok w.tz.cur)) := (rfl)
theorem init_autoRef (v : Val (Dom V F)) : (runtimeLib σ ops).init n!"auto &" (some v) w = some v := (rfl)
theorem returned_ok (m : List (Option (Val (Dom V F)))) : returned .ok m w = some (.int .i32 0, m, w) := (rfl)
theorem returned_error (m : List (Option (Val (Dom V F)))) : returned .error m w = some (.int .i32 1, m, w) := (rfl)
theorem returned_nil (m : List (Option (Val (Dom V F)))) : returned .nil m w = some (.int .i32 2, m, w) := (rfl)

attribute [cxx] runtime_signed runtime_constant get_current get_input set_current member_tok member_current member_id member_value
  member_line member_column ctx_tok ctx_os ctx_params params_ascii params_error update_id update_value tidOf_number tid_inj
  method_input method_tok input_eof input_peek input_next input_line input_column tokenizer_next tokenizer_peek tokenizer_ident
  tokenizer_string tokenizer_number tokenizer_array tokenizer_object tokenizer_value tokenizer_ignore tokenizer_expect
  tokenizer_error tokenizer_utf8 function_next function_peek function_ident function_string function_number function_array
  function_object function_value function_expect function_error function_utf8 function_token4 function_token2 assign_tok init_auto
  init_autoCurrent init_autoRef returned_ok returned_error returned_nil

end

end PG.Cxx
