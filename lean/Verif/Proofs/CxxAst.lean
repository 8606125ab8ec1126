import Verif.Spec.Cxx
import Verif.Model.HeaderTxt
/-
The functions of the runtime as syntax trees, and that they are what the text of the runtime is parsed to.
-/
set_option autoImplicit false
namespace PG.Cxx
open PG.Gen

/-- The body of a loop. -/
def skipFunBody1 : Stmt := (.block (.cons (.expr (.incr n!"++" true (.name n!"line_"))) (.cons
  (.expr (.assign (.name n!"column_") (.int .i32 1))) (.cons (.expr (.incr n!"++" true (.name n!"beg_"))) .nil))))

/-- protogen.hh:184-192 `skip` -/
def skipFun : Fun := ⟨n!"void", n!"skip", [], (.cons (.while (.binary n!"&&" (.unary n!"!"
  (.binary n!"==" (.name n!"beg_") (.name n!"end_"))) (.binary n!"==" (.unary n!"*" (.name n!"beg_")) (.chr 10)))
  skipFunBody1) .nil)⟩

theorem skipFun_text : Fun.of [] 60 (slice protogenLines 184 192) = some skipFun := by decide +kernel

/-- protogen.hh:166-170 `peek` -/
def peekFun : Fun := ⟨n!"int", n!"peek", [], (.cons (.ite (.binary n!"==" (.name n!"beg_")
  (.name n!"end_")) (.ret (some (.int .i32 0))) .skip) (.cons (.ret (some (.unary n!"*" (.name n!"beg_")))) .nil))⟩

theorem peekFun_text : Fun.of [] 60 (slice protogenLines 166 170) = some peekFun := by decide +kernel

/-- protogen.hh:171-177 `next` -/
def advanceFun : Fun := ⟨n!"void", n!"next", [], (.cons (.ite (.binary n!"==" (.name
  n!"beg_") (.name n!"end_")) (.ret none) .skip) (.cons (.expr (.incr n!"++" true (.name n!"beg_"))) (.cons (.expr (.incr
  n!"++" true (.name n!"column_"))) (.cons (.expr (.call (.name n!"skip") .nil)) .nil))))⟩

theorem advanceFun_text : Fun.of [] 60 (slice protogenLines 171 177) = some advanceFun := by decide +kernel

/-- protogen.hh:178-178 `eof` -/
def eofFun : Fun := ⟨n!"bool", n!"eof", [], (.cons (.ret (some (.binary n!"==" (.name
  n!"beg_") (.name n!"end_")))) .nil)⟩

theorem eofFun_text : Fun.of [] 60 (slice protogenLines 178 178) = some eofFun := by decide +kernel

/-- The body of a loop. -/
def nextFunBody1 : Stmt := (.block (.cons (.decl n!"int" n!"c" (some (.call (.member (.name
  n!"input_") n!"peek") .nil))) (.cons (.decl n!"int" n!"line" (some (.call (.member (.name n!"input_") n!"line") .nil)))
  (.cons (.decl n!"int" n!"column" (some (.call (.member (.name n!"input_") n!"column") .nil))) (.cons (.switch (.name n!"c")
  (.cons (some (.chr 32)) .nil (.cons (some (.chr 9)) .nil (.cons (some (.chr 13)) .nil (.cons (some (.chr 10)) (.cons (.expr
  (.call (.member (.name n!"input_") n!"next") .nil)) (.cons .break .nil)) (.cons (some (.chr 123)) (.cons (.doWhile (.block
  (.cons (.expr (.assign (.name n!"current_") (.call (.name n!"token") (.cons (.qual [n!"token_id", n!"OBJS"]) (.cons (.str
  []) (.cons (.name n!"line") (.cons (.name n!"column") .nil))))))) (.cons (.expr (.call (.member (.name n!"input_")
  n!"next") .nil)) (.cons (.ret (some (.name n!"current_"))) .nil)))) (.name n!"false")) .nil) (.cons (some (.chr 125))
  (.cons (.doWhile (.block (.cons (.expr (.assign (.name n!"current_") (.call (.name n!"token") (.cons (.qual [n!"token_id",
  n!"OBJE"]) (.cons (.str []) (.cons (.name n!"line") (.cons (.name n!"column") .nil))))))) (.cons (.expr (.call (.member
  (.name n!"input_") n!"next") .nil)) (.cons (.ret (some (.name n!"current_"))) .nil)))) (.name n!"false")) .nil) (.cons
  (some (.chr 91)) (.cons (.doWhile (.block (.cons (.expr (.assign (.name n!"current_") (.call (.name n!"token") (.cons
  (.qual [n!"token_id", n!"ARRS"]) (.cons (.str []) (.cons (.name n!"line") (.cons (.name n!"column") .nil))))))) (.cons
  (.expr (.call (.member (.name n!"input_") n!"next") .nil)) (.cons (.ret (some (.name n!"current_"))) .nil)))) (.name
  n!"false")) .nil) (.cons (some (.chr 93)) (.cons (.doWhile (.block (.cons (.expr (.assign (.name n!"current_") (.call
  (.name n!"token") (.cons (.qual [n!"token_id", n!"ARRE"]) (.cons (.str []) (.cons (.name n!"line") (.cons (.name
  n!"column") .nil))))))) (.cons (.expr (.call (.member (.name n!"input_") n!"next") .nil)) (.cons (.ret (some (.name
  n!"current_"))) .nil)))) (.name n!"false")) .nil) (.cons (some (.chr 58)) (.cons (.doWhile (.block (.cons (.expr (.assign
  (.name n!"current_") (.call (.name n!"token") (.cons (.qual [n!"token_id", n!"COLON"]) (.cons (.str []) (.cons (.name
  n!"line") (.cons (.name n!"column") .nil))))))) (.cons (.expr (.call (.member (.name n!"input_") n!"next") .nil)) (.cons
  (.ret (some (.name n!"current_"))) .nil)))) (.name n!"false")) .nil) (.cons (some (.chr 44)) (.cons (.doWhile (.block
  (.cons (.expr (.assign (.name n!"current_") (.call (.name n!"token") (.cons (.qual [n!"token_id", n!"COMMA"]) (.cons (.str
  []) (.cons (.name n!"line") (.cons (.name n!"column") .nil))))))) (.cons (.expr (.call (.member (.name n!"input_")
  n!"next") .nil)) (.cons (.ret (some (.name n!"current_"))) .nil)))) (.name n!"false")) .nil) (.cons (some (.chr 34)) (.cons
  (.ret (some (.assign (.name n!"current_") (.call (.name n!"parse_string") .nil)))) .nil) (.cons (some (.chr 45)) .nil
  (.cons (some (.chr 48)) .nil (.cons (some (.chr 49)) .nil (.cons (some (.chr 50)) .nil (.cons (some (.chr 51)) .nil (.cons
  (some (.chr 52)) .nil (.cons (some (.chr 53)) .nil (.cons (some (.chr 54)) .nil (.cons (some (.chr 55)) .nil (.cons (some
  (.chr 56)) .nil (.cons (some (.chr 57)) (.cons (.ret (some (.assign (.name n!"current_") (.call (.name n!"parse_number")
  .nil)))) .nil) (.cons none (.cons (.decl n!"std :: string" n!"value" (some (.call (.name n!"parse_identifier") .nil)))
  (.cons (.ite (.binary n!"==" (.name n!"value") (.str [116, 114, 117, 101])) (.ret (some (.assign (.name n!"current_")
  (.call (.name n!"token") (.cons (.qual [n!"token_id", n!"BTRUE"]) (.cons (.str []) (.cons (.name n!"line") (.cons (.name
  n!"column") .nil)))))))) .skip) (.cons (.ite (.binary n!"==" (.name n!"value") (.str [102, 97, 108, 115, 101])) (.ret (some
  (.assign (.name n!"current_") (.call (.name n!"token") (.cons (.qual [n!"token_id", n!"BFALSE"]) (.cons (.str []) (.cons
  (.name n!"line") (.cons (.name n!"column") .nil)))))))) .skip) (.cons (.ite (.binary n!"==" (.name n!"value") (.str [110,
  117, 108, 108])) (.ret (some (.assign (.name n!"current_") (.call (.name n!"token") (.cons (.qual [n!"token_id", n!"NIL"])
  (.cons (.str []) (.cons (.name n!"line") (.cons (.name n!"column") .nil)))))))) .skip) (.cons (.ret (some (.assign (.name
  n!"current_") (.call (.name n!"token") (.cons (.qual [n!"token_id", n!"NONE"]) (.cons (.str []) (.cons (.name n!"line")
  (.cons (.name n!"column") .nil)))))))) .nil))))) .nil)))))))))))))))))))))))) .nil)))))

/-- protogen.hh:300-354 `tokenizer::next` -/
def nextFun : Fun := ⟨n!"token &", n!"next", [], (.cons (.expr (.assign
  (.member (.name n!"current_") n!"id") (.qual [n!"token_id", n!"NONE"]))) (.cons (.expr (.call (.member (.member (.name
  n!"current_") n!"value") n!"clear") .nil)) (.cons (.while (.unary n!"!" (.call (.member (.name n!"input_") n!"eof") .nil))
  nextFunBody1) (.cons (.ret (some (.assign (.name n!"current_") (.call (.name n!"token") (.cons (.qual [n!"token_id",
  n!"EOS"]) (.cons (.str []) (.cons (.call (.member (.name n!"input_") n!"line") .nil) (.cons (.call (.member (.name
  n!"input_") n!"column") .nil) .nil)))))))) .nil))))⟩

theorem nextFun_text : Fun.of [] 60 (slice protogenLines 300 354) = some nextFun := by decide +kernel

/-- protogen.hh:356-364 `expect` -/
def expectFun : Fun := ⟨n!"bool", n!"expect", [(n!"token_id", n!"type")], (.cons (.ite
  (.binary n!"==" (.member (.name n!"current_") n!"id") (.name n!"type")) (.block (.cons (.expr (.call (.name n!"next")
  .nil)) (.cons (.ret (some (.name n!"true"))) .nil))) .skip) (.cons (.ret (some (.name n!"false"))) .nil))⟩

theorem expectFun_text : Fun.of [] 60 (slice protogenLines 356 364) = some expectFun := by decide +kernel

/-- protogen.hh:365-374 `error` -/
def errorFun : Fun := ⟨n!"int", n!"error", [(n!"error_code", n!"code"),
  (n!"const std :: string &", n!"msg")], (.cons (.ite (.binary n!"!=" (.member (.name n!"error_") n!"code") (.qual
  [n!"error_code", n!"PGERR_OK"])) (.ret (some (.name n!"PGR_ERROR"))) .skip) (.cons (.expr (.assign (.member (.name
  n!"error_") n!"code") (.name n!"code"))) (.cons (.expr (.assign (.member (.name n!"error_") n!"message") (.name n!"msg")))
  (.cons (.expr (.assign (.member (.name n!"error_") n!"line") (.member (.name n!"current_") n!"line"))) (.cons (.expr
  (.assign (.member (.name n!"error_") n!"column") (.member (.name n!"current_") n!"column"))) (.cons (.ret (some (.name
  n!"PGR_ERROR"))) .nil))))))⟩

theorem errorFun_text : Fun.of [] 60 (slice protogenLines 365 374) = some errorFun := by decide +kernel

/-- The body of a loop. -/
def identFunBody1 : Stmt := (.block (.cons (.decl n!"int" n!"c" (some (.call (.member (.name
  n!"input_") n!"peek") .nil))) (.cons (.ite (.binary n!"||" (.binary n!"&&" (.binary n!">=" (.name n!"c") (.chr 65))
  (.binary n!"<=" (.name n!"c") (.chr 90))) (.binary n!"&&" (.binary n!">=" (.name n!"c") (.chr 97)) (.binary n!"<=" (.name
  n!"c") (.chr 122)))) (.block (.cons (.expr (.update n!"+" (.name n!"value") (.cast n!"char" (.name n!"c")))) (.cons (.expr
  (.call (.member (.name n!"input_") n!"next") .nil)) .nil))) .break) .nil)))

/-- protogen.hh:386-401 `parse_identifier` -/
def identFun : Fun := ⟨n!"std :: string", n!"parse_identifier", [], (.cons
  (.decl n!"std :: string" n!"value" none) (.cons (.while (.unary n!"!" (.call (.member (.name n!"input_") n!"eof") .nil))
  identFunBody1) (.cons (.ret (some (.name n!"value"))) .nil)))⟩

theorem identFun_text : Fun.of [] 60 (slice protogenLines 386 401) = some identFun := by decide +kernel

/-- The body of a loop. -/
def stringFunBody1 : Stmt := (.block (.cons (.expr (.call (.member (.name n!"input_") n!"next")
  .nil)) (.cons (.decl n!"int" n!"c" (some (.call (.member (.name n!"input_") n!"peek") .nil))) (.cons (.ite (.binary n!"=="
  (.name n!"c") (.chr 34)) (.block (.cons (.expr (.call (.member (.name n!"input_") n!"next") .nil)) (.cons (.ret (some
  (.call (.name n!"token") (.cons (.qual [n!"token_id", n!"STRING"]) (.cons (.name n!"value") .nil))))) .nil))) .skip) (.cons
  (.ite (.binary n!"==" (.name n!"c") (.chr 92)) (.block (.cons (.expr (.call (.member (.name n!"input_") n!"next") .nil))
  (.cons (.expr (.assign (.name n!"c") (.call (.member (.name n!"input_") n!"peek") .nil))) (.cons (.switch (.name n!"c")
  (.cons (some (.chr 34)) (.cons (.expr (.update n!"+" (.name n!"value") (.chr 34))) (.cons .break .nil)) (.cons (some (.chr
  92)) (.cons (.expr (.update n!"+" (.name n!"value") (.chr 92))) (.cons .break .nil)) (.cons (some (.chr 47)) (.cons (.expr
  (.update n!"+" (.name n!"value") (.chr 47))) (.cons .break .nil)) (.cons (some (.chr 98)) (.cons (.expr (.update n!"+"
  (.name n!"value") (.chr 8))) (.cons .break .nil)) (.cons (some (.chr 102)) (.cons (.expr (.update n!"+" (.name n!"value")
  (.chr 12))) (.cons .break .nil)) (.cons (some (.chr 114)) (.cons (.expr (.update n!"+" (.name n!"value") (.chr 13))) (.cons
  .break .nil)) (.cons (some (.chr 110)) (.cons (.expr (.update n!"+" (.name n!"value") (.chr 10))) (.cons .break .nil))
  (.cons (some (.chr 116)) (.cons (.expr (.update n!"+" (.name n!"value") (.chr 9))) (.cons .break .nil)) (.cons (some (.chr
  117)) (.cons (.ite (.unary n!"!" (.call (.name n!"parse_escaped_utf8") (.cons (.name n!"value") (.cons (.name n!"lead")
  .nil)))) (.goto n!"ESCAPE") .skip) (.cons .break .nil)) (.cons none (.cons (.goto n!"ESCAPE") .nil) .nil)))))))))))
  .nil)))) (.block (.cons (.ite (.binary n!"==" (.name n!"c") (.int .i32 0)) (.goto n!"ESCAPE") .skip) (.cons (.expr (.update
  n!"+" (.name n!"value") (.cast n!"char" (.name n!"c")))) .nil)))) .nil)))))

/-- protogen.hh:403-449 `parse_string` -/
def stringFun : Fun := ⟨n!"token", n!"parse_string", [], (.cons (.decl n!"int32_t"
  n!"lead" (some (.int .i32 0))) (.cons (.decl n!"std :: string" n!"value" none) (.cons (.decl n!"int" n!"line" (some (.call
  (.member (.name n!"input_") n!"line") .nil))) (.cons (.decl n!"int" n!"column" (some (.call (.member (.name n!"input_")
  n!"column") .nil))) (.cons (.ite (.binary n!"!=" (.call (.member (.name n!"input_") n!"peek") .nil) (.chr 34)) (.goto
  n!"ESCAPE") .skip) (.cons (.while (.unary n!"!" (.call (.member (.name n!"input_") n!"eof") .nil)) stringFunBody1) (.cons
  (.label n!"ESCAPE") (.cons (.ret (some (.call (.name n!"token") (.cons (.qual [n!"token_id", n!"NONE"]) (.cons (.str [])
  (.cons (.name n!"line") (.cons (.name n!"column") .nil))))))) .nil))))))))⟩

theorem stringFun_text : Fun.of [] 60 (slice protogenLines 403 449) = some stringFun := by decide +kernel

/-- The body of a loop. -/
def utf8FunBody1 : Stmt := (.block (.cons (.expr (.call (.member (.name n!"input_") n!"next")
  .nil)) (.cons (.decl n!"auto" n!"c" (some (.call (.member (.name n!"input_") n!"peek") .nil))) (.cons (.ite (.binary n!"||"
  (.binary n!"||" (.binary n!"&&" (.binary n!">=" (.name n!"c") (.chr 48)) (.binary n!"<=" (.name n!"c") (.chr 57))) (.binary
  n!"&&" (.binary n!">=" (.name n!"c") (.chr 65)) (.binary n!"<=" (.name n!"c") (.chr 70)))) (.binary n!"&&" (.binary n!">="
  (.name n!"c") (.chr 97)) (.binary n!"<=" (.name n!"c") (.chr 102)))) (.expr (.assign (.index (.name n!"temp") (.name
  n!"i")) (.cast n!"char" (.name n!"c")))) (.ret (some (.name n!"false")))) .nil))))

/-- protogen.hh:451-510 `parse_escaped_utf8` -/
def utf8Fun : Fun := ⟨n!"bool", n!"parse_escaped_utf8",
  [(n!"std :: string &", n!"value"), (n!"int32_t &", n!"lead")], (.cons (.array n!"char" n!"temp" (.int .i32 5) (some
  (.braces (.cons (.int .i32 0) .nil)))) (.cons (.for (.decl n!"int" n!"i" (some (.int .i32 0))) (.binary n!"<" (.name n!"i")
  (.int .i32 4)) (.incr n!"++" true (.name n!"i")) utf8FunBody1) (.cons (.decl n!"int32_t" n!"codepoint" (some (.cast
  n!"int32_t" (.call (.name n!"strtol") (.cons (.name n!"temp") (.cons (.name n!"nullptr") (.cons (.int .i32 16) .nil)))))))
  (.cons (.ite (.binary n!"&&" (.binary n!">=" (.name n!"codepoint") (.int .i32 55296)) (.binary n!"<=" (.name n!"codepoint")
  (.int .i32 56319))) (.block (.cons (.expr (.assign (.name n!"lead") (.name n!"codepoint"))) (.cons (.ret (some (.name
  n!"true"))) .nil))) (.ite (.binary n!"&&" (.binary n!">=" (.name n!"codepoint") (.int .i32 56320)) (.binary n!"<=" (.name
  n!"codepoint") (.int .i32 57343))) (.block (.cons (.ite (.binary n!"==" (.name n!"lead") (.int .i32 0)) (.ret (some (.name
  n!"false"))) .skip) (.cons (.decl n!"static const int32_t" n!"SURROGATE_OFFSET" (some (.binary n!"-" (.binary n!"-" (.int
  .i32 65536) (.binary n!"<<" (.int .i32 55296) (.int .i32 10))) (.int .i32 56320)))) (.cons (.expr (.assign (.name
  n!"codepoint") (.binary n!"+" (.binary n!"+" (.binary n!"<<" (.name n!"lead") (.int .i32 10)) (.name n!"codepoint")) (.name
  n!"SURROGATE_OFFSET")))) (.cons (.expr (.update n!"+" (.name n!"value") (.cast n!"char" (.binary n!"|" (.int .i32 240)
  (.binary n!"&" (.binary n!">>" (.name n!"codepoint") (.int .i32 18)) (.int .i32 7)))))) (.cons (.expr (.update n!"+" (.name
  n!"value") (.cast n!"char" (.binary n!"|" (.int .i32 128) (.binary n!"&" (.binary n!">>" (.name n!"codepoint") (.int .i32
  12)) (.int .i32 63)))))) (.cons (.expr (.update n!"+" (.name n!"value") (.cast n!"char" (.binary n!"|" (.int .i32 128)
  (.binary n!"&" (.binary n!">>" (.name n!"codepoint") (.int .i32 6)) (.int .i32 63)))))) (.cons (.expr (.update n!"+" (.name
  n!"value") (.cast n!"char" (.binary n!"|" (.int .i32 128) (.binary n!"&" (.name n!"codepoint") (.int .i32 63))))))
  .nil)))))))) (.ite (.binary n!"&&" (.binary n!">=" (.name n!"codepoint") (.int .i32 128)) (.binary n!"<=" (.name
  n!"codepoint") (.int .i32 2047))) (.block (.cons (.expr (.update n!"+" (.name n!"value") (.cast n!"char" (.binary n!"|"
  (.int .i32 192) (.binary n!"&" (.binary n!">>" (.name n!"codepoint") (.int .i32 6)) (.int .i32 31)))))) (.cons (.expr
  (.update n!"+" (.name n!"value") (.cast n!"char" (.binary n!"|" (.int .i32 128) (.binary n!"&" (.name n!"codepoint") (.int
  .i32 63)))))) .nil))) (.ite (.binary n!"&&" (.binary n!">=" (.name n!"codepoint") (.int .i32 2048)) (.binary n!"<=" (.name
  n!"codepoint") (.int .i32 65535))) (.block (.cons (.expr (.update n!"+" (.name n!"value") (.cast n!"char" (.binary n!"|"
  (.int .i32 224) (.binary n!"&" (.binary n!">>" (.name n!"codepoint") (.int .i32 12)) (.int .i32 15)))))) (.cons (.expr
  (.update n!"+" (.name n!"value") (.cast n!"char" (.binary n!"|" (.int .i32 128) (.binary n!"&" (.binary n!">>" (.name
  n!"codepoint") (.int .i32 6)) (.int .i32 63)))))) (.cons (.expr (.update n!"+" (.name n!"value") (.cast n!"char" (.binary
  n!"|" (.int .i32 128) (.binary n!"&" (.name n!"codepoint") (.int .i32 63)))))) .nil)))) (.ret (some (.name n!"false")))))))
  (.cons (.expr (.assign (.name n!"lead") (.int .i32 0))) (.cons (.ret (some (.name n!"true"))) .nil))))))⟩

theorem utf8Fun_text : Fun.of [] 60 (slice protogenLines 451 510) = some utf8Fun := by decide +kernel

/-- The body of a loop. -/
def numberFunBody1 : Stmt := (.block (.cons (.decl n!"int" n!"c" (some (.call (.member (.name
  n!"input_") n!"peek") .nil))) (.cons (.ite (.binary n!"||" (.binary n!"||" (.binary n!"||" (.binary n!"||" (.binary n!"||"
  (.binary n!"==" (.name n!"c") (.chr 46)) (.binary n!"&&" (.binary n!">=" (.name n!"c") (.chr 48)) (.binary n!"<=" (.name
  n!"c") (.chr 57)))) (.binary n!"==" (.name n!"c") (.chr 101))) (.binary n!"==" (.name n!"c") (.chr 69))) (.binary n!"=="
  (.name n!"c") (.chr 43))) (.binary n!"==" (.name n!"c") (.chr 45))) (.block (.cons (.expr (.update n!"+" (.name n!"value")
  (.cast n!"char" (.name n!"c")))) (.cons (.expr (.call (.member (.name n!"input_") n!"next") .nil)) .nil))) .break) .nil)))

/-- protogen.hh:522-539 `parse_number` -/
def numberFun : Fun := ⟨n!"token", n!"parse_number", [], (.cons (.decl
  n!"std :: string" n!"value" none) (.cons (.decl n!"int" n!"line" (some (.call (.member (.name n!"input_") n!"line") .nil)))
  (.cons (.decl n!"int" n!"column" (some (.call (.member (.name n!"input_") n!"column") .nil))) (.cons (.while (.unary n!"!"
  (.call (.member (.name n!"input_") n!"eof") .nil)) numberFunBody1) (.cons (.ret (some (.call (.name n!"token") (.cons
  (.qual [n!"token_id", n!"NUMBER"]) (.cons (.name n!"value") (.cons (.name n!"line") (.cons (.name n!"column") .nil)))))))
  .nil)))))⟩

theorem numberFun_text : Fun.of [] 60 (slice protogenLines 522 539) = some numberFun := by decide +kernel

/-- The body of a loop. -/
def ignoreArrayFunBody1 : Stmt := (.block (.cons (.decl n!"int" n!"result" (some (.call (.name
  n!"ignore_value") .nil))) (.cons (.ite (.binary n!"!=" (.name n!"result") (.name n!"PGERR_OK")) (.ret (some (.name
  n!"result"))) .skip) (.cons (.ite (.unary n!"!" (.call (.name n!"expect") (.cons (.qual [n!"token_id", n!"COMMA"]) .nil)))
  .break .skip) .nil))))

/-- protogen.hh:541-555 `ignore_array` -/
def ignoreArrayFun : Fun := ⟨n!"int", n!"ignore_array", [], (.cons (.ite (.unary
  n!"!" (.call (.name n!"expect") (.cons (.qual [n!"token_id", n!"ARRS"]) .nil))) (.ret (some (.call (.name n!"error") (.cons
  (.qual [n!"error_code", n!"PGERR_IGNORE_FAILED"]) (.cons (.str [105, 110, 118, 97, 108, 105, 100, 32, 97, 114, 114, 97,
  121]) .nil))))) .skip) (.cons (.while (.binary n!"!=" (.member (.call (.name n!"peek") .nil) n!"id") (.qual [n!"token_id",
  n!"ARRE"])) ignoreArrayFunBody1) (.cons (.ite (.unary n!"!" (.call (.name n!"expect") (.cons (.qual [n!"token_id",
  n!"ARRE"]) .nil))) (.ret (some (.call (.name n!"error") (.cons (.qual [n!"error_code", n!"PGERR_IGNORE_FAILED"]) (.cons
  (.str [105, 110, 118, 97, 108, 105, 100, 32, 97, 114, 114, 97, 121]) .nil))))) .skip) (.cons (.ret (some (.name
  n!"PGR_OK"))) .nil))))⟩

theorem ignoreArrayFun_text : Fun.of [] 60 (slice protogenLines 541 555) = some ignoreArrayFun := by decide +kernel

/-- The body of a loop. -/
def ignoreObjectFunBody1 : Stmt := (.block (.cons (.ite (.unary n!"!" (.call (.name n!"expect")
  (.cons (.qual [n!"token_id", n!"STRING"]) .nil))) (.ret (some (.call (.name n!"error") (.cons (.qual [n!"error_code",
  n!"PGERR_IGNORE_FAILED"]) (.cons (.str [101, 120, 112, 101, 99, 116, 101, 100, 32, 102, 105, 101, 108, 100, 32, 110, 97,
  109, 101]) .nil))))) .skip) (.cons (.ite (.unary n!"!" (.call (.name n!"expect") (.cons (.qual [n!"token_id", n!"COLON"])
  .nil))) (.ret (some (.call (.name n!"error") (.cons (.qual [n!"error_code", n!"PGERR_IGNORE_FAILED"]) (.cons (.str [101,
  120, 112, 101, 99, 116, 101, 100, 32, 99, 111, 108, 111, 110]) .nil))))) .skip) (.cons (.decl n!"int" n!"result" (some
  (.call (.name n!"ignore_value") .nil))) (.cons (.ite (.binary n!"!=" (.name n!"result") (.name n!"PGERR_OK")) (.ret (some
  (.name n!"result"))) .skip) (.cons (.ite (.unary n!"!" (.call (.name n!"expect") (.cons (.qual [n!"token_id", n!"COMMA"])
  .nil))) .break .skip) .nil))))))

/-- protogen.hh:557-575 `ignore_object` -/
def ignoreObjectFun : Fun := ⟨n!"int", n!"ignore_object", [], (.cons (.ite
  (.unary n!"!" (.call (.name n!"expect") (.cons (.qual [n!"token_id", n!"OBJS"]) .nil))) (.ret (some (.call (.name
  n!"error") (.cons (.qual [n!"error_code", n!"PGERR_IGNORE_FAILED"]) (.cons (.str [105, 110, 118, 97, 108, 105, 100, 32,
  111, 98, 106, 101, 99, 116]) .nil))))) .skip) (.cons (.while (.binary n!"!=" (.member (.call (.name n!"peek") .nil) n!"id")
  (.qual [n!"token_id", n!"OBJE"])) ignoreObjectFunBody1) (.cons (.ite (.unary n!"!" (.call (.name n!"expect") (.cons (.qual
  [n!"token_id", n!"OBJE"]) .nil))) (.ret (some (.call (.name n!"error") (.cons (.qual [n!"error_code",
  n!"PGERR_IGNORE_FAILED"]) (.cons (.str [105, 110, 118, 97, 108, 105, 100, 32, 111, 98, 106, 101, 99, 116]) .nil))))) .skip)
  (.cons (.ret (some (.name n!"PGR_OK"))) .nil))))⟩

theorem ignoreObjectFun_text : Fun.of [] 60 (slice protogenLines 557 575) = some ignoreObjectFun := by decide +kernel

/-- protogen.hh:577-602 `ignore_value` -/
def ignoreValueFun : Fun := ⟨n!"int", n!"ignore_value", [], (.cons (.switch
  (.member (.call (.name n!"peek") .nil) n!"id") (.cons (some (.qual [n!"token_id", n!"NONE"])) .nil (.cons (some (.qual
  [n!"token_id", n!"EOS"])) (.cons (.ret (some (.call (.name n!"error") (.cons (.qual [n!"error_code",
  n!"PGERR_IGNORE_FAILED"]) (.cons (.str [101, 110, 100, 32, 111, 102, 32, 115, 116, 114, 101, 97, 109]) .nil))))) .nil)
  (.cons (some (.qual [n!"token_id", n!"OBJS"])) (.cons (.ret (some (.call (.name n!"ignore_object") .nil))) .nil) (.cons
  (some (.qual [n!"token_id", n!"ARRS"])) (.cons (.ret (some (.call (.name n!"ignore_array") .nil))) .nil) (.cons (some
  (.qual [n!"token_id", n!"STRING"])) .nil (.cons (some (.qual [n!"token_id", n!"NUMBER"])) .nil (.cons (some (.qual
  [n!"token_id", n!"NIL"])) .nil (.cons (some (.qual [n!"token_id", n!"BTRUE"])) .nil (.cons (some (.qual [n!"token_id",
  n!"BFALSE"])) (.cons (.block (.cons (.decl n!"auto" n!"tt" (some (.call (.name n!"next") .nil))) (.cons (.ite (.binary
  n!"||" (.binary n!"==" (.member (.name n!"tt") n!"id") (.qual [n!"token_id", n!"NONE"])) (.binary n!"==" (.member (.name
  n!"tt") n!"id") (.qual [n!"token_id", n!"EOS"]))) (.ret (some (.call (.name n!"error") (.cons (.name
  n!"PGERR_IGNORE_FAILED") (.cons (.str [101, 110, 100, 32, 111, 102, 32, 115, 116, 114, 101, 97, 109]) .nil))))) .skip)
  (.cons (.ret (some (.name n!"PGERR_OK"))) .nil)))) .nil) (.cons none (.cons (.ret (some (.call (.name n!"error") (.cons
  (.qual [n!"error_code", n!"PGERR_IGNORE_FAILED"]) (.cons (.str [105, 110, 118, 97, 108, 105, 100, 32, 118, 97, 108, 117,
  101]) .nil))))) .nil) .nil))))))))))) .nil)⟩

theorem ignoreValueFun_text : Fun.of [] 60 (slice protogenLines 577 602) = some ignoreValueFun := by decide +kernel

/-- protogen.hh:611-615 `rol` -/
def rolFun : Fun := ⟨n!"T", n!"rol", [(n!"T", n!"value"), (n!"int", n!"count")], (.cons
  .skip (.cons (.ret (some (.cast n!"T" (.binary n!"|" (.binary n!"<<" (.name n!"value") (.name n!"count")) (.binary n!">>"
  (.name n!"value") (.binary n!"&" (.unary n!"-" (.name n!"count")) (.binary n!"-" (.binary n!"*" (.call (.name n!"sizeof")
  (.cons (.name n!"T") .nil)) (.int .i32 8)) (.int .i32 1)))))))) .nil))⟩

theorem rolFun_text : Fun.of [] 60 (slice protogenLines 611 615) = some rolFun := by decide +kernel

/-- The body of a loop. -/
def revealFunBody1 : Stmt := (.expr (.update n!"+" (.name n!"result") (.cast n!"char" (.binary
  n!"^" (.cast n!"uint8_t" (.index (.name n!"value") (.name n!"i"))) (.name n!"mask")))))

/-- protogen.hh:617-625 `reveal` -/
def revealFun : Fun := ⟨n!"static inline std :: string", n!"reveal",
  [(n!"const std :: string &", n!"value")], (.cons (.decl n!"uint8_t" n!"mask" (some (.call (.inst n!"rol" n!"uint8_t")
  (.cons (.int .u32 147) (.cons (.binary n!"%" (.call (.member (.name n!"value") n!"length") .nil) (.int .i32 8)) .nil)))))
  (.cons (.decl n!"std :: string" n!"result" none) (.cons (.expr (.call (.member (.name n!"result") n!"reserve") (.cons
  (.call (.member (.name n!"value") n!"length") .nil) .nil))) (.cons (.for (.decl n!"size_t" n!"i" (some (.int .i32 0)))
  (.binary n!"<" (.name n!"i") (.call (.member (.name n!"value") n!"length") .nil)) (.incr n!"++" true (.name n!"i"))
  revealFunBody1) (.cons (.ret (some (.name n!"result"))) .nil)))))⟩

theorem revealFun_text : Fun.of [] 60 (slice protogenLines 617 625) = some revealFun := by decide +kernel

/-- json.hh:21-29 `set_error` -/
def setErrorFun : Fun := ⟨n!"static int", n!"set_error", [(n!"ErrorInfo &", n!"error"),
  (n!"error_code", n!"code"), (n!"const std :: string &", n!"msg")], (.cons (.ite (.binary n!"!=" (.member (.name n!"error")
  n!"code") (.qual [n!"error_code", n!"PGERR_OK"])) (.ret (some (.name n!"PGR_ERROR"))) .skip) (.cons (.expr (.assign
  (.member (.name n!"error") n!"code") (.name n!"code"))) (.cons (.expr (.assign (.member (.name n!"error") n!"message")
  (.name n!"msg"))) (.cons (.expr (.assign (.member (.name n!"error") n!"line") (.assign (.member (.name n!"error")
  n!"column") (.int .i32 0)))) (.cons (.ret (some (.name n!"PGR_ERROR"))) .nil)))))⟩

theorem setErrorFun_text : Fun.of [] 60 (slice jsonLines 21 29) = some setErrorFun := by decide +kernel

/-- The body of a loop. -/
def readObjectFunBody1 : Stmt := (.block (.cons (.decl n!"std :: string" n!"name" (some (.member
  (.call (.member (.member (.name n!"ctx") n!"tok") n!"peek") .nil) n!"value"))) (.cons (.ite (.unary n!"!" (.call (.member
  (.member (.name n!"ctx") n!"tok") n!"expect") (.cons (.qual [n!"token_id", n!"STRING"]) .nil))) (.ret (some (.call (.member
  (.member (.name n!"ctx") n!"tok") n!"error") (.cons (.qual [n!"error_code", n!"PGERR_INVALID_NAME"]) (.cons (.str [111, 98,
  106, 101, 99, 116, 32, 107, 101, 121, 32, 109, 117, 115, 116, 32, 98, 101, 32, 115, 116, 114, 105, 110, 103]) .nil)))))
  .skip) (.cons (.ite (.unary n!"!" (.call (.member (.member (.name n!"ctx") n!"tok") n!"expect") (.cons (.qual
  [n!"token_id", n!"COLON"]) .nil))) (.ret (some (.call (.member (.member (.name n!"ctx") n!"tok") n!"error") (.cons (.qual
  [n!"error_code", n!"PGERR_INVALID_SEPARATOR"]) (.cons (.str [102, 105, 101, 108, 100, 32, 110, 97, 109, 101, 32, 97, 110,
  100, 32, 118, 97, 108, 117, 101, 32, 109, 117, 115, 116, 32, 98, 101, 32, 115, 101, 112, 97, 114, 97, 116, 101, 100, 32,
  98, 121, 32, 39, 58, 39]) .nil))))) .skip) (.cons (.decl n!"int" n!"result" (some (.call (.qual [n!"J", n!"read_field"])
  (.cons (.name n!"ctx") (.cons (.name n!"name") (.cons (.name n!"object") .nil)))))) (.cons (.ite (.binary n!"==" (.name
  n!"result") (.name n!"PGR_ERROR")) (.ret (some (.name n!"result"))) .skip) (.cons (.ite (.binary n!"!=" (.name n!"result")
  (.name n!"PGR_OK")) (.block (.cons (.expr (.assign (.name n!"result") (.call (.member (.member (.name n!"ctx") n!"tok")
  n!"ignore") .nil))) (.cons (.ite (.binary n!"==" (.name n!"result") (.name n!"PGR_ERROR")) (.ret (some (.name n!"result")))
  .skip) .nil))) .skip) (.cons (.ite (.call (.member (.member (.name n!"ctx") n!"tok") n!"expect") (.cons (.qual
  [n!"token_id", n!"COMMA"]) .nil)) .continue .skip) (.cons (.ite (.call (.member (.member (.name n!"ctx") n!"tok")
  n!"expect") (.cons (.qual [n!"token_id", n!"OBJE"]) .nil)) .break .skip) (.cons (.ret (some (.call (.member (.member (.name
  n!"ctx") n!"tok") n!"error") (.cons (.qual [n!"error_code", n!"PGERR_INVALID_OBJECT"]) (.cons (.str [105, 110, 118, 97,
  108, 105, 100, 32, 74, 83, 79, 78, 32, 111, 98, 106, 101, 99, 116]) .nil))))) .nil))))))))))

/-- json.hh:34-61 `read_object` -/
def readObjectFun : Fun := ⟨n!"static int", n!"read_object", [(n!"json_context &",
  n!"ctx"), (n!"T &", n!"object")], (.cons (.ite (.binary n!"==" (.member (.call (.member (.member (.name n!"ctx") n!"tok")
  n!"peek") .nil) n!"id") (.qual [n!"token_id", n!"NIL"])) (.ret (some (.name n!"PGR_NIL"))) .skip) (.cons (.ite (.unary
  n!"!" (.call (.member (.member (.name n!"ctx") n!"tok") n!"expect") (.cons (.qual [n!"token_id", n!"OBJS"]) .nil))) (.ret
  (some (.call (.member (.member (.name n!"ctx") n!"tok") n!"error") (.cons (.qual [n!"error_code",
  n!"PGERR_INVALID_OBJECT"]) (.cons (.str [111, 98, 106, 101, 99, 116, 115, 32, 109, 117, 115, 116, 32, 115, 116, 97, 114,
  116, 32, 119, 105, 116, 104, 32, 39, 123, 39]) .nil))))) .skip) (.cons (.ite (.unary n!"!" (.call (.member (.member (.name
  n!"ctx") n!"tok") n!"expect") (.cons (.qual [n!"token_id", n!"OBJE"]) .nil))) (.block (.cons (.while (.name n!"true")
  readObjectFunBody1) (.cons .skip .nil))) .skip) (.cons (.ret (some (.name n!"PGR_OK"))) .nil))))⟩

theorem readObjectFun_text : Fun.of [] 60 (slice jsonLines 34 61) = some readObjectFun := by decide +kernel

/-- The body of a loop. -/
def readArrayFunBody1 : Stmt := (.block (.cons (.decl n!"typename T :: value_type" n!"temp" none)
  (.cons (.decl n!"int" n!"result" (some (.call (.statik n!"typename T :: value_type" n!"read") (.cons (.name n!"ctx") (.cons
  (.name n!"temp") .nil))))) (.cons (.ite (.binary n!"==" (.name n!"result") (.name n!"PGR_ERROR")) (.ret (some (.name
  n!"result"))) .skip) (.cons (.ite (.binary n!"==" (.name n!"result") (.name n!"PGR_OK")) (.expr (.call (.member (.name
  n!"value") n!"push_back") (.cons (.name n!"temp") .nil))) .skip) (.cons (.ite (.unary n!"!" (.call (.member (.member (.name
  n!"ctx") n!"tok") n!"expect") (.cons (.qual [n!"token_id", n!"COMMA"]) .nil))) (.block (.cons (.ite (.call (.member
  (.member (.name n!"ctx") n!"tok") n!"expect") (.cons (.qual [n!"token_id", n!"ARRE"]) .nil)) .break .skip) (.cons (.ret
  (some (.call (.member (.member (.name n!"ctx") n!"tok") n!"error") (.cons (.qual [n!"error_code", n!"PGERR_INVALID_ARRAY"])
  (.cons (.str [105, 110, 118, 97, 108, 105, 100, 32, 97, 114, 114, 97, 121]) .nil))))) .nil))) .skip) .nil))))))

/-- json-array.hh:38-61 `read` of a container -/
def readArrayFun : Fun := ⟨n!"static int", n!"read", [(n!"json_context &",
  n!"ctx"), (n!"T &", n!"value")], (.cons (.ite (.binary n!"==" (.member (.call (.member (.member (.name n!"ctx") n!"tok")
  n!"peek") .nil) n!"id") (.qual [n!"token_id", n!"NIL"])) (.ret (some (.name n!"PGR_NIL"))) .skip) (.cons (.ite (.unary
  n!"!" (.call (.member (.member (.name n!"ctx") n!"tok") n!"expect") (.cons (.qual [n!"token_id", n!"ARRS"]) .nil))) (.ret
  (some (.call (.member (.member (.name n!"ctx") n!"tok") n!"error") (.cons (.qual [n!"error_code", n!"PGERR_INVALID_ARRAY"])
  (.cons (.str [105, 110, 118, 97, 108, 105, 100, 32, 97, 114, 114, 97, 121]) .nil))))) .skip) (.cons (.ite (.unary n!"!"
  (.call (.member (.member (.name n!"ctx") n!"tok") n!"expect") (.cons (.qual [n!"token_id", n!"ARRE"]) .nil))) (.block
  (.cons (.while (.name n!"true") readArrayFunBody1) .nil)) .skip) (.cons (.ret (some (.name n!"PGR_OK"))) .nil))))⟩

theorem readArrayFun_text : Fun.of [] 60 (slice arrayLines 38 61) = some readArrayFun := by decide +kernel

/-- The body of a loop. -/
def writeArrayFunBody1 : Stmt := (.block (.cons (.expr (.call (.statik
  n!"typename T :: value_type" n!"write") (.cons (.name n!"ctx") (.cons (.unary n!"*" (.name n!"it")) .nil)))) (.cons (.ite
  (.binary n!"<" (.binary n!"+" (.name n!"i") (.int .i32 1)) (.name n!"t")) (.expr (.binary n!"<<" (.unary n!"*" (.member
  (.name n!"ctx") n!"os")) (.chr 44))) .skip) .nil)))

/-- json-array.hh:62-73 `write` of a container -/
def writeArrayFun : Fun := ⟨n!"static int", n!"write",
  [(n!"json_context &", n!"ctx"), (n!"const T &", n!"value")], (.cons (.expr (.binary n!"<<" (.unary n!"*" (.member (.name
  n!"ctx") n!"os")) (.chr 91))) (.cons (.seq (.decl n!"size_t" n!"i" (some (.int .i32 0))) (.decl n!"size_t" n!"t" (some
  (.call (.member (.name n!"value") n!"size") .nil)))) (.cons (.for (.decl n!"auto" n!"it" (some (.call (.member (.name
  n!"value") n!"begin") .nil))) (.binary n!"!=" (.name n!"it") (.call (.member (.name n!"value") n!"end") .nil)) (.comma
  (.incr n!"++" true (.name n!"it")) (.incr n!"++" true (.name n!"i"))) writeArrayFunBody1) (.cons (.expr (.binary n!"<<"
  (.unary n!"*" (.member (.name n!"ctx") n!"os")) (.chr 93))) (.cons (.ret (some (.name n!"PGR_OK"))) .nil)))))⟩

theorem writeArrayFun_text : Fun.of [] 60 (slice arrayLines 62 73) = some writeArrayFun := by decide +kernel

/-- json-string.hh:40-45 `write_escaped_utf8` -/
def escapeFun : Fun := ⟨n!"static void", n!"write_escaped_utf8",
  [(n!"internal :: ostream *", n!"out"), (n!"uint32_t", n!"codepoint")], (.cons (.array n!"char" n!"buffer" (.int .i32 7)
  none) (.cons (.expr (.call (.name n!"snprintf") (.cons (.name n!"buffer") (.cons (.call (.name n!"sizeof") (.cons (.name
  n!"buffer") .nil)) (.cons (.str [92, 117, 37, 48, 52, 120]) (.cons (.name n!"codepoint") .nil)))))) (.cons (.expr (.binary
  n!"<<" (.unary n!"*" (.name n!"out")) (.name n!"buffer"))) .nil)))⟩

theorem escapeFun_text : Fun.of [] 60 (slice stringLines 40 45) = some escapeFun := by decide +kernel

/-- json-string.hh:50-58 `read` of a string -/
def readStringFun : Fun := ⟨n!"static int", n!"read", [(n!"json_context &",
  n!"ctx"), (n!"std :: string &", n!"value")], (.cons (.decl n!"auto" n!"tt" (some (.call (.member (.member (.name n!"ctx")
  n!"tok") n!"peek") .nil))) (.cons (.ite (.binary n!"==" (.member (.name n!"tt") n!"id") (.qual [n!"token_id", n!"NIL"]))
  (.ret (some (.name n!"PGR_NIL"))) .skip) (.cons (.ite (.unary n!"!" (.call (.member (.member (.name n!"ctx") n!"tok")
  n!"expect") (.cons (.qual [n!"token_id", n!"STRING"]) .nil))) (.ret (some (.call (.member (.member (.name n!"ctx") n!"tok")
  n!"error") (.cons (.qual [n!"error_code", n!"PGERR_INVALID_VALUE"]) (.cons (.str [105, 110, 118, 97, 108, 105, 100, 32,
  115, 116, 114, 105, 110, 103, 32, 118, 97, 108, 117, 101]) .nil))))) .skip) (.cons (.expr (.assign (.name n!"value")
  (.member (.name n!"tt") n!"value"))) (.cons (.ret (some (.name n!"PGR_OK"))) .nil)))))⟩

theorem readStringFun_text : Fun.of [] 60 (slice stringLines 50 58) = some readStringFun := by decide +kernel

/-- The body of a loop. -/
def writeStringFunBody1 : Stmt := (.block (.cons (.decl n!"uint8_t" n!"byte1" (some (.index
  (.name n!"value") (.name n!"i")))) (.cons (.ite (.binary n!"<=" (.name n!"byte1") (.int .i32 127)) (.block (.cons (.switch
  (.name n!"byte1") (.cons (some (.chr 34)) (.cons (.expr (.binary n!"<<" (.unary n!"*" (.member (.name n!"ctx") n!"os"))
  (.str [92, 34]))) (.cons .break .nil)) (.cons (some (.chr 92)) (.cons (.expr (.binary n!"<<" (.unary n!"*" (.member (.name
  n!"ctx") n!"os")) (.str [92, 92]))) (.cons .break .nil)) (.cons (some (.chr 47)) (.cons (.expr (.binary n!"<<" (.unary
  n!"*" (.member (.name n!"ctx") n!"os")) (.str [92, 47]))) (.cons .break .nil)) (.cons (some (.chr 8)) (.cons (.expr
  (.binary n!"<<" (.unary n!"*" (.member (.name n!"ctx") n!"os")) (.str [92, 98]))) (.cons .break .nil)) (.cons (some (.chr
  12)) (.cons (.expr (.binary n!"<<" (.unary n!"*" (.member (.name n!"ctx") n!"os")) (.str [92, 102]))) (.cons .break .nil))
  (.cons (some (.chr 13)) (.cons (.expr (.binary n!"<<" (.unary n!"*" (.member (.name n!"ctx") n!"os")) (.str [92, 114])))
  (.cons .break .nil)) (.cons (some (.chr 10)) (.cons (.expr (.binary n!"<<" (.unary n!"*" (.member (.name n!"ctx") n!"os"))
  (.str [92, 110]))) (.cons .break .nil)) (.cons (some (.chr 9)) (.cons (.expr (.binary n!"<<" (.unary n!"*" (.member (.name
  n!"ctx") n!"os")) (.str [92, 116]))) (.cons .break .nil)) (.cons none (.cons (.expr (.binary n!"<<" (.unary n!"*" (.member
  (.name n!"ctx") n!"os")) (.cast n!"char" (.name n!"byte1")))) .nil) .nil)))))))))) (.cons (.expr (.incr n!"++" false (.name
  n!"i"))) .nil))) (.block (.cons (.ite (.unary n!"!" (.member (.member (.name n!"ctx") n!"params") n!"ensure_ascii"))
  (.block (.cons (.expr (.binary n!"<<" (.unary n!"*" (.member (.name n!"ctx") n!"os")) (.cast n!"char" (.name n!"byte1"))))
  (.cons (.expr (.incr n!"++" false (.name n!"i"))) (.cons .continue .nil)))) .skip) (.cons (.ite (.binary n!">=" (.binary
  n!"+" (.name n!"i") (.int .i32 1)) (.name n!"size")) (.ret (some (.call (.name n!"set_error") (.cons (.member (.member
  (.name n!"ctx") n!"params") n!"error") (.cons (.qual [n!"error_code", n!"PGERR_INVALID_VALUE"]) (.cons (.str [105, 110,
  118, 97, 108, 105, 100, 32, 85, 84, 70, 45, 56, 32, 99, 111, 100, 101, 32, 112, 111, 105, 110, 116]) .nil)))))) .skip)
  (.cons (.decl n!"uint8_t" n!"byte2" (some (.index (.name n!"value") (.binary n!"+" (.name n!"i") (.int .i32 1))))) (.cons
  (.ite (.binary n!"&&" (.binary n!"&&" (.binary n!">=" (.name n!"byte1") (.int .i32 192)) (.binary n!"<=" (.name n!"byte1")
  (.int .i32 223))) (.binary n!"==" (.binary n!"&" (.name n!"byte2") (.int .i32 192)) (.int .i32 128))) (.block (.cons (.decl
  n!"uint32_t" n!"codepoint" (some (.binary n!"|" (.binary n!"<<" (.binary n!"&" (.name n!"byte1") (.int .i32 31)) (.int .i32
  6)) (.binary n!"&" (.name n!"byte2") (.int .i32 63))))) (.cons (.expr (.call (.name n!"write_escaped_utf8") (.cons (.member
  (.name n!"ctx") n!"os") (.cons (.name n!"codepoint") .nil)))) (.cons (.expr (.update n!"+" (.name n!"i") (.int .i32 2)))
  (.cons .continue .nil))))) .skip) (.cons (.ite (.binary n!">=" (.binary n!"+" (.name n!"i") (.int .i32 2)) (.name
  n!"size")) (.ret (some (.call (.name n!"set_error") (.cons (.member (.member (.name n!"ctx") n!"params") n!"error") (.cons
  (.qual [n!"error_code", n!"PGERR_INVALID_VALUE"]) (.cons (.str [105, 110, 118, 97, 108, 105, 100, 32, 85, 84, 70, 45, 56,
  32, 99, 111, 100, 101, 32, 112, 111, 105, 110, 116]) .nil)))))) .skip) (.cons (.decl n!"uint8_t" n!"byte3" (some (.index
  (.name n!"value") (.binary n!"+" (.name n!"i") (.int .i32 2))))) (.cons (.ite (.binary n!"&&" (.binary n!"&&" (.binary
  n!"&&" (.binary n!"&&" (.binary n!">=" (.name n!"byte1") (.int .i32 224)) (.binary n!"<=" (.name n!"byte1") (.int .i32
  239))) (.binary n!"<" (.binary n!"+" (.name n!"i") (.int .i32 2)) (.name n!"size"))) (.binary n!"==" (.binary n!"&" (.name
  n!"byte2") (.int .i32 192)) (.int .i32 128))) (.binary n!"==" (.binary n!"&" (.name n!"byte3") (.int .i32 192)) (.int .i32
  128))) (.block (.cons (.decl n!"uint32_t" n!"codepoint" (some (.binary n!"|" (.binary n!"|" (.binary n!"<<" (.binary n!"&"
  (.name n!"byte1") (.int .i32 15)) (.int .i32 12)) (.binary n!"<<" (.binary n!"&" (.name n!"byte2") (.int .i32 63)) (.int
  .i32 6))) (.binary n!"&" (.name n!"byte3") (.int .i32 63))))) (.cons (.expr (.call (.name n!"write_escaped_utf8") (.cons
  (.member (.name n!"ctx") n!"os") (.cons (.name n!"codepoint") .nil)))) (.cons (.expr (.update n!"+" (.name n!"i") (.int
  .i32 3))) (.cons .continue .nil))))) .skip) (.cons (.ite (.binary n!">=" (.binary n!"+" (.name n!"i") (.int .i32 3)) (.name
  n!"size")) (.ret (some (.call (.name n!"set_error") (.cons (.member (.member (.name n!"ctx") n!"params") n!"error") (.cons
  (.qual [n!"error_code", n!"PGERR_INVALID_VALUE"]) (.cons (.str [105, 110, 118, 97, 108, 105, 100, 32, 85, 84, 70, 45, 56,
  32, 99, 111, 100, 101, 32, 112, 111, 105, 110, 116]) .nil)))))) .skip) (.cons (.decl n!"uint8_t" n!"byte4" (some (.index
  (.name n!"value") (.binary n!"+" (.name n!"i") (.int .i32 3))))) (.cons (.ite (.binary n!"&&" (.binary n!"&&" (.binary
  n!"&&" (.binary n!"&&" (.binary n!"&&" (.binary n!">=" (.name n!"byte1") (.int .i32 240)) (.binary n!"<=" (.name n!"byte1")
  (.int .i32 244))) (.binary n!"<" (.binary n!"+" (.name n!"i") (.int .i32 3)) (.name n!"size"))) (.binary n!"==" (.binary
  n!"&" (.name n!"byte2") (.int .i32 192)) (.int .i32 128))) (.binary n!"==" (.binary n!"&" (.name n!"byte3") (.int .i32
  192)) (.int .i32 128))) (.binary n!"==" (.binary n!"&" (.name n!"byte4") (.int .i32 192)) (.int .i32 128))) (.block (.cons
  (.decl n!"uint32_t" n!"codepoint" (some (.binary n!"|" (.binary n!"|" (.binary n!"|" (.binary n!"<<" (.binary n!"&" (.name
  n!"byte1") (.int .i32 7)) (.int .i32 18)) (.binary n!"<<" (.binary n!"&" (.name n!"byte2") (.int .i32 63)) (.int .i32 12)))
  (.binary n!"<<" (.binary n!"&" (.name n!"byte3") (.int .i32 63)) (.int .i32 6))) (.binary n!"&" (.name n!"byte4") (.int
  .i32 63))))) (.cons (.decl n!"static const uint32_t" n!"LEAD_OFFSET" (some (.binary n!"-" (.int .i32 55296) (.binary n!">>"
  (.int .i32 65536) (.int .i32 10))))) (.cons (.decl n!"uint32_t" n!"lead" (some (.binary n!"+" (.name n!"LEAD_OFFSET")
  (.binary n!">>" (.name n!"codepoint") (.int .i32 10))))) (.cons (.decl n!"uint32_t" n!"trail" (some (.binary n!"+" (.int
  .i32 56320) (.binary n!"&" (.name n!"codepoint") (.int .i32 1023))))) (.cons (.expr (.call (.name n!"write_escaped_utf8")
  (.cons (.member (.name n!"ctx") n!"os") (.cons (.name n!"lead") .nil)))) (.cons (.expr (.call (.name
  n!"write_escaped_utf8") (.cons (.member (.name n!"ctx") n!"os") (.cons (.name n!"trail") .nil)))) (.cons (.expr (.update
  n!"+" (.name n!"i") (.int .i32 4))) (.cons .continue .nil))))))))) .skip) (.cons (.ret (some (.call (.name n!"set_error")
  (.cons (.member (.member (.name n!"ctx") n!"params") n!"error") (.cons (.qual [n!"error_code", n!"PGERR_INVALID_VALUE"])
  (.cons (.str [105, 110, 118, 97, 108, 105, 100, 32, 85, 84, 70, 45, 56, 32, 99, 111, 100, 101, 32, 112, 111, 105, 110,
  116]) .nil)))))) .nil))))))))))))) .nil)))

/-- json-string.hh:59-147 `write` of a string -/
def writeStringFun : Fun := ⟨n!"static int", n!"write",
  [(n!"json_context &", n!"ctx"), (n!"const std :: string &", n!"value")], (.cons (.expr (.binary n!"<<" (.unary n!"*"
  (.member (.name n!"ctx") n!"os")) (.chr 34))) (.cons (.decl n!"size_t" n!"size" (some (.call (.member (.name n!"value")
  n!"size") .nil))) (.cons (.for (.decl n!"size_t" n!"i" (some (.int .i32 0))) (.binary n!"<" (.name n!"i") (.name n!"size"))
  (.int .i32 0) writeStringFunBody1) (.cons (.expr (.binary n!"<<" (.unary n!"*" (.member (.name n!"ctx") n!"os")) (.chr
  34))) (.cons (.ret (some (.name n!"PGR_OK"))) .nil)))))⟩

theorem writeStringFun_text : Fun.of [] 60 (slice stringLines 59 147) = some writeStringFun := by decide +kernel

/-- json-string.hh:157-165 `read` of a `string_field` -/
def readStrFieldFun : Fun := ⟨n!"static int", n!"read",
  [(n!"json_context &", n!"ctx"), (n!"string_field &", n!"value")], (.cons (.decl n!"std :: string" n!"temp" none) (.cons
  (.expr (.call (.member (.name n!"temp") n!"clear") .nil)) (.cons (.decl n!"int" n!"result" (some (.call (.statik
  n!"std :: string , void" n!"read") (.cons (.name n!"ctx") (.cons (.name n!"temp") .nil))))) (.cons (.expr (.call (.member
  (.name n!"value") n!"empty") (.cons (.binary n!"==" (.name n!"result") (.name n!"PGR_NIL")) .nil))) (.cons (.expr (.assign
  (.name n!"value") (.name n!"temp"))) (.cons (.ret (some (.name n!"result"))) .nil))))))⟩

theorem readStrFieldFun_text : Fun.of [] 60 (slice stringLines 157 165) = some readStrFieldFun := by decide +kernel

/-- json-string.hh:166-174 `write` of a `string_field` -/
def writeStrFieldFun : Fun := ⟨n!"static int", n!"write",
  [(n!"json_context &", n!"ctx"), (n!"const string_field &", n!"value")], (.cons (.ite (.call (.member (.name n!"value")
  n!"empty") .nil) (.block (.cons (.expr (.binary n!"<<" (.unary n!"*" (.member (.name n!"ctx") n!"os")) (.str [110, 117,
  108, 108]))) (.cons (.ret (some (.name n!"PGR_OK"))) .nil))) .skip) (.cons (.ret (some (.call (.statik
  n!"std :: string , void" n!"write") (.cons (.name n!"ctx") (.cons (.name n!"value") .nil))))) .nil))⟩

theorem writeStrFieldFun_text : Fun.of [] 60 (slice stringLines 166 174) = some writeStrFieldFun := by decide +kernel

/-- json-number.hh:117-125 `read` of a `field<T>` -/
def readFieldFun : Fun := ⟨n!"static int", n!"read",
  [(n!"json_context &", n!"ctx"), (n!"field < T > &", n!"value")], (.cons (.decl n!"T" n!"temp" none) (.cons (.expr (.call
  (.statik n!"T" n!"clear") (.cons (.name n!"temp") .nil))) (.cons (.decl n!"int" n!"result" (some (.call (.statik n!"T"
  n!"read") (.cons (.name n!"ctx") (.cons (.name n!"temp") .nil))))) (.cons (.ite (.binary n!"!=" (.name n!"result") (.name
  n!"PGR_NIL")) (.expr (.assign (.name n!"value") (.name n!"temp"))) .skip) (.cons (.ret (some (.name n!"result")))
  .nil)))))⟩

theorem readFieldFun_text : Fun.of [] 60 (slice numberLines 117 125) = some readFieldFun := by decide +kernel

/-- json-number.hh:126-135 `write` of a `field<T>` -/
def writeFieldFun : Fun := ⟨n!"static int", n!"write",
  [(n!"json_context &", n!"ctx"), (n!"const field < T > &", n!"value")], (.cons (.ite (.call (.member (.name n!"value")
  n!"empty") .nil) (.block (.cons (.expr (.binary n!"<<" (.unary n!"*" (.member (.name n!"ctx") n!"os")) (.str [110, 117,
  108, 108]))) (.cons (.ret (some (.name n!"PGR_OK"))) .nil))) .skip) (.cons (.decl n!"T" n!"temp" (some (.cast n!"T" (.name
  n!"value")))) (.cons (.ret (some (.call (.statik n!"T" n!"write") (.cons (.name n!"ctx") (.cons (.name n!"temp") .nil)))))
  .nil)))⟩

theorem writeFieldFun_text : Fun.of [] 60 (slice numberLines 126 135) = some writeFieldFun := by decide +kernel

/-- json-number.hh:145-154 `read` of a number -/
def readNumberFun : Fun := ⟨n!"static int", n!"read", [(n!"json_context &",
  n!"ctx"), (n!"T &", n!"value")], (.cons (.decl n!"auto &" n!"tt" (some (.call (.member (.member (.name n!"ctx") n!"tok")
  n!"peek") .nil))) (.cons (.ite (.binary n!"==" (.member (.name n!"tt") n!"id") (.qual [n!"token_id", n!"NIL"])) (.ret (some
  (.name n!"PGR_NIL"))) .skip) (.cons (.ite (.binary n!"!=" (.member (.name n!"tt") n!"id") (.qual [n!"token_id",
  n!"NUMBER"])) (.ret (some (.call (.member (.member (.name n!"ctx") n!"tok") n!"error") (.cons (.qual [n!"error_code",
  n!"PGERR_INVALID_VALUE"]) (.cons (.str [105, 110, 118, 97, 108, 105, 100, 32, 110, 117, 109, 101, 114, 105, 99, 32, 118,
  97, 108, 117, 101]) .nil))))) .skip) (.cons (.expr (.assign (.name n!"value") (.call (.inst n!"string_to_number" n!"T")
  (.cons (.member (.name n!"tt") n!"value") .nil)))) (.cons (.expr (.call (.member (.member (.name n!"ctx") n!"tok")
  n!"next") .nil)) (.cons (.ret (some (.name n!"PGR_OK"))) .nil))))))⟩

theorem readNumberFun_text : Fun.of [] 60 (slice numberLines 145 154) = some readNumberFun := by decide +kernel

/-- json-number.hh:155-159 `write` of a number -/
def writeNumberFun : Fun := ⟨n!"static int", n!"write",
  [(n!"json_context &", n!"ctx"), (n!"const T &", n!"value")], (.cons (.expr (.binary n!"<<" (.unary n!"*" (.member (.name
  n!"ctx") n!"os")) (.call (.name n!"number_to_string") (.cons (.name n!"value") .nil)))) (.cons (.ret (some (.name
  n!"PGR_OK"))) .nil))⟩

theorem writeNumberFun_text : Fun.of [] 60 (slice numberLines 155 159) = some writeNumberFun := by decide +kernel

/-- json-number.hh:169-178 `read` of a `bool` -/
def readBoolFun : Fun := ⟨n!"static int", n!"read", [(n!"json_context &",
  n!"ctx"), (n!"bool &", n!"value")], (.cons (.decl n!"auto &" n!"tt" (some (.call (.member (.member (.name n!"ctx") n!"tok")
  n!"peek") .nil))) (.cons (.ite (.binary n!"==" (.member (.name n!"tt") n!"id") (.qual [n!"token_id", n!"NIL"])) (.ret (some
  (.name n!"PGR_NIL"))) .skip) (.cons (.ite (.binary n!"&&" (.binary n!"!=" (.member (.name n!"tt") n!"id") (.qual
  [n!"token_id", n!"BTRUE"])) (.binary n!"!=" (.member (.name n!"tt") n!"id") (.qual [n!"token_id", n!"BFALSE"]))) (.ret
  (some (.call (.member (.member (.name n!"ctx") n!"tok") n!"error") (.cons (.qual [n!"error_code", n!"PGERR_INVALID_VALUE"])
  (.cons (.str [105, 110, 118, 97, 108, 105, 100, 32, 98, 111, 111, 108, 101, 97, 110, 32, 118, 97, 108, 117, 101]) .nil)))))
  .skip) (.cons (.expr (.assign (.name n!"value") (.binary n!"==" (.member (.name n!"tt") n!"id") (.qual [n!"token_id",
  n!"BTRUE"])))) (.cons (.expr (.call (.member (.member (.name n!"ctx") n!"tok") n!"next") .nil)) (.cons (.ret (some (.name
  n!"PGR_OK"))) .nil))))))⟩

theorem readBoolFun_text : Fun.of [] 60 (slice numberLines 169 178) = some readBoolFun := by decide +kernel

/-- json-number.hh:179-183 `write` of a `bool` -/
def writeBoolFun : Fun := ⟨n!"static int", n!"write",
  [(n!"json_context &", n!"ctx"), (n!"const bool &", n!"value")], (.cons (.expr (.binary n!"<<" (.unary n!"*" (.member (.name
  n!"ctx") n!"os")) (.cond (.name n!"value") (.str [116, 114, 117, 101]) (.str [102, 97, 108, 115, 101])))) (.cons (.ret
  (some (.name n!"PGR_OK"))) .nil))⟩

theorem writeBoolFun_text : Fun.of [] 60 (slice numberLines 179 183) = some writeBoolFun := by decide +kernel

/-- json-base64.hh:14-23 `b64_int` -/
def b64IntFun : Fun := ⟨n!"static int", n!"b64_int", [(n!"int", n!"ch")], (.cons (.ite
  (.binary n!"==" (.name n!"ch") (.chr 43)) (.ret (some (.int .i32 62))) .skip) (.cons (.ite (.binary n!"==" (.name n!"ch")
  (.chr 47)) (.ret (some (.int .i32 63))) .skip) (.cons (.ite (.binary n!"&&" (.binary n!">=" (.name n!"ch") (.chr 48))
  (.binary n!"<=" (.name n!"ch") (.chr 57))) (.ret (some (.binary n!"+" (.name n!"ch") (.int .i32 4)))) .skip) (.cons (.ite
  (.binary n!"&&" (.binary n!">=" (.name n!"ch") (.chr 65)) (.binary n!"<=" (.name n!"ch") (.chr 90))) (.ret (some (.binary
  n!"-" (.name n!"ch") (.chr 65)))) .skip) (.cons (.ite (.binary n!"&&" (.binary n!">=" (.name n!"ch") (.chr 97)) (.binary
  n!"<=" (.name n!"ch") (.chr 122))) (.ret (some (.binary n!"+" (.binary n!"-" (.name n!"ch") (.chr 97)) (.int .i32 26))))
  .skip) (.cons (.ite (.binary n!"==" (.name n!"ch") (.chr 61)) (.ret (some (.int .i32 64))) .skip) (.cons (.ret (some (.int
  .i32 0))) .nil)))))))⟩

theorem b64IntFun_text : Fun.of [] 60 (slice base64Lines 14 23) = some b64IntFun := by decide +kernel

/-- The body of a loop. -/
def writeBytesFunBody1 : Stmt := (.block (.cons (.expr (.assign (.index (.name n!"o") (.int .i32
  0)) (.index (.name n!"B64_SYMBOLS") (.binary n!">>" (.binary n!"&" (.index (.name n!"value") (.name n!"i")) (.int .i32
  255)) (.int .i32 2))))) (.cons (.expr (.assign (.index (.name n!"o") (.int .i32 1)) (.index (.name n!"B64_SYMBOLS")
  (.binary n!"|" (.binary n!"<<" (.binary n!"&" (.index (.name n!"value") (.name n!"i")) (.int .i32 3)) (.int .i32 4))
  (.binary n!">>" (.binary n!"&" (.index (.name n!"value") (.binary n!"+" (.name n!"i") (.int .i32 1))) (.int .i32 240))
  (.int .i32 4)))))) (.cons (.expr (.assign (.index (.name n!"o") (.int .i32 2)) (.index (.name n!"B64_SYMBOLS") (.binary
  n!"|" (.binary n!"<<" (.binary n!"&" (.index (.name n!"value") (.binary n!"+" (.name n!"i") (.int .i32 1))) (.int .i32 15))
  (.int .i32 2)) (.binary n!">>" (.binary n!"&" (.index (.name n!"value") (.binary n!"+" (.name n!"i") (.int .i32 2))) (.int
  .i32 192)) (.int .i32 6)))))) (.cons (.expr (.assign (.index (.name n!"o") (.int .i32 3)) (.index (.name n!"B64_SYMBOLS")
  (.binary n!"&" (.index (.name n!"value") (.binary n!"+" (.name n!"i") (.int .i32 2))) (.int .i32 63))))) (.cons (.expr
  (.binary n!"<<" (.unary n!"*" (.member (.name n!"ctx") n!"os")) (.name n!"o"))) .nil))))))

/-- json-base64.hh:24-59 `write` of bytes -/
def writeBytesFun : Fun := ⟨n!"static int", n!"write", [(n!"json_context &",
  n!"ctx"), (n!"const std :: vector < uint8_t > &", n!"value")], (.cons (.decl n!"static const char *" n!"B64_SYMBOLS" (some
  (.str [65, 66, 67, 68, 69, 70, 71, 72, 73, 74, 75, 76, 77, 78, 79, 80, 81, 82, 83, 84, 85, 86, 87, 88, 89, 90, 97, 98, 99,
  100, 101, 102, 103, 104, 105, 106, 107, 108, 109, 110, 111, 112, 113, 114, 115, 116, 117, 118, 119, 120, 121, 122, 48, 49,
  50, 51, 52, 53, 54, 55, 56, 57, 43, 47]))) (.cons (.array n!"char" n!"o" (.int .i32 5) (some (.braces (.cons (.int .i32 0)
  .nil)))) (.cons (.decl n!"size_t" n!"i" (some (.int .i32 0))) (.cons (.decl n!"size_t" n!"size" (some (.call (.member
  (.name n!"value") n!"size") .nil))) (.cons (.expr (.binary n!"<<" (.unary n!"*" (.member (.name n!"ctx") n!"os")) (.chr
  34))) (.cons (.for (.expr (.assign (.name n!"i") (.int .i32 0))) (.binary n!"<" (.binary n!"+" (.name n!"i") (.int .i32 2))
  (.name n!"size")) (.update n!"+" (.name n!"i") (.int .i32 3)) writeBytesFunBody1) (.cons (.ite (.binary n!"-" (.name
  n!"size") (.name n!"i")) (.block (.cons (.expr (.assign (.index (.name n!"o") (.int .i32 0)) (.index (.name
  n!"B64_SYMBOLS") (.binary n!">>" (.binary n!"&" (.index (.name n!"value") (.name n!"i")) (.int .i32 255)) (.int .i32 2)))))
  (.cons (.expr (.assign (.index (.name n!"o") (.int .i32 1)) (.index (.name n!"B64_SYMBOLS") (.binary n!"<<" (.binary n!"&"
  (.index (.name n!"value") (.name n!"i")) (.int .i32 3)) (.int .i32 4))))) (.cons (.expr (.assign (.index (.name n!"o")
  (.int .i32 2)) (.chr 61))) (.cons (.expr (.assign (.index (.name n!"o") (.int .i32 3)) (.chr 61))) (.cons (.ite (.binary
  n!"==" (.binary n!"-" (.name n!"size") (.name n!"i")) (.int .i32 2)) (.block (.cons (.expr (.assign (.index (.name n!"o")
  (.int .i32 1)) (.index (.name n!"B64_SYMBOLS") (.binary n!"|" (.binary n!"<<" (.binary n!"&" (.index (.name n!"value")
  (.name n!"i")) (.int .i32 3)) (.int .i32 4)) (.binary n!">>" (.binary n!"&" (.index (.name n!"value") (.binary n!"+" (.name
  n!"i") (.int .i32 1))) (.int .i32 240)) (.int .i32 4)))))) (.cons (.expr (.assign (.index (.name n!"o") (.int .i32 2))
  (.index (.name n!"B64_SYMBOLS") (.binary n!"<<" (.binary n!"&" (.index (.name n!"value") (.binary n!"+" (.name n!"i") (.int
  .i32 1))) (.int .i32 15)) (.int .i32 2))))) .nil))) .skip) (.cons (.expr (.binary n!"<<" (.unary n!"*" (.member (.name
  n!"ctx") n!"os")) (.name n!"o"))) .nil))))))) .skip) (.cons (.expr (.binary n!"<<" (.unary n!"*" (.member (.name n!"ctx")
  n!"os")) (.chr 34))) (.cons (.ret (some (.name n!"PGR_OK"))) .nil)))))))))⟩

theorem writeBytesFun_text : Fun.of [] 60 (slice base64Lines 24 59) = some writeBytesFun := by decide +kernel

/-- The body of a loop. -/
def readBytesFunBody1 : Stmt := (.block (.cons (.decl n!"int" n!"ch" (some (.unary n!"*" (.incr
  n!"++" false (.name n!"ptr"))))) (.cons (.ite (.binary n!"==" (.name n!"ch") (.int .i32 0)) (.block (.cons (.ite (.binary
  n!"!=" (.name n!"j") (.int .i32 0)) (.expr (.call (.member (.member (.name n!"ctx") n!"tok") n!"error") (.cons (.qual
  [n!"error_code", n!"PGERR_INVALID_OBJECT"]) (.cons (.str [105, 110, 118, 97, 108, 105, 100, 32, 98, 97, 115, 101, 54, 52,
  32, 100, 97, 116, 97]) .nil)))) .skip) (.cons (.ret (some (.name n!"PGR_OK"))) .nil))) .skip) (.cons (.expr (.assign
  (.index (.name n!"s") (.name n!"j")) (.call (.name n!"b64_int") (.cons (.name n!"ch") .nil)))) .nil))))

/-- The body of a loop. -/
def readBytesFunBody2 : Stmt := (.block (.cons (.for (.decl n!"size_t" n!"j" (some (.int .i32
  0))) (.binary n!"<" (.name n!"j") (.int .i32 4)) (.incr n!"++" true (.name n!"j")) readBytesFunBody1) (.cons (.expr (.call
  (.member (.name n!"value") n!"push_back") (.cons (.cast n!"uint8_t" (.binary n!"|" (.binary n!"<<" (.binary n!"&" (.index
  (.name n!"s") (.int .i32 0)) (.int .i32 255)) (.int .i32 2)) (.binary n!">>" (.binary n!"&" (.index (.name n!"s") (.int
  .i32 1)) (.int .i32 48)) (.int .i32 4)))) .nil))) (.cons (.ite (.binary n!"!=" (.index (.name n!"s") (.int .i32 2)) (.int
  .i32 64)) (.block (.cons (.expr (.call (.member (.name n!"value") n!"push_back") (.cons (.cast n!"uint8_t" (.binary n!"|"
  (.binary n!"<<" (.binary n!"&" (.index (.name n!"s") (.int .i32 1)) (.int .i32 15)) (.int .i32 4)) (.binary n!">>" (.binary
  n!"&" (.index (.name n!"s") (.int .i32 2)) (.int .i32 60)) (.int .i32 2)))) .nil))) (.cons (.ite (.binary n!"!=" (.index
  (.name n!"s") (.int .i32 3)) (.int .i32 64)) (.block (.cons (.expr (.call (.member (.name n!"value") n!"push_back") (.cons
  (.cast n!"uint8_t" (.binary n!"|" (.binary n!"<<" (.binary n!"&" (.index (.name n!"s") (.int .i32 2)) (.int .i32 3)) (.int
  .i32 6)) (.index (.name n!"s") (.int .i32 3)))) .nil))) (.cons (.expr (.update n!"+" (.name n!"k") (.int .i32 3))) .nil)))
  (.expr (.update n!"+" (.name n!"k") (.int .i32 2)))) .nil))) (.expr (.update n!"+" (.name n!"k") (.int .i32 1)))) .nil))))

/-- json-base64.hh:60-101 `read` of bytes -/
def readBytesFun : Fun := ⟨n!"static int", n!"read", [(n!"json_context &",
  n!"ctx"), (n!"std :: vector < uint8_t > &", n!"value")], (.cons (.ite (.binary n!"==" (.member (.call (.member (.member
  (.name n!"ctx") n!"tok") n!"peek") .nil) n!"id") (.qual [n!"token_id", n!"NIL"])) (.ret (some (.name n!"PGR_NIL"))) .skip)
  (.cons (.ite (.binary n!"!=" (.member (.call (.member (.member (.name n!"ctx") n!"tok") n!"peek") .nil) n!"id") (.qual
  [n!"token_id", n!"STRING"])) (.ret (some (.call (.member (.member (.name n!"ctx") n!"tok") n!"error") (.cons (.qual
  [n!"error_code", n!"PGERR_INVALID_OBJECT"]) (.cons (.str [105, 110, 118, 97, 108, 105, 100, 32, 115, 116, 114, 105, 110,
  103]) .nil))))) .skip) (.cons (.decl n!"size_t" n!"k" (some (.int .i32 0))) (.cons (.array n!"int" n!"s" (.int .i32 4)
  none) (.cons (.decl n!"std :: string" n!"text" (some (.member (.call (.member (.member (.name n!"ctx") n!"tok") n!"peek")
  .nil) n!"value"))) (.cons (.expr (.call (.member (.member (.name n!"ctx") n!"tok") n!"next") .nil)) (.cons (.decl
  n!"const char *" n!"ptr" (some (.call (.member (.name n!"text") n!"c_str") .nil))) (.cons (.while (.name n!"true")
  readBytesFunBody2) .nil))))))))⟩

theorem readBytesFun_text : Fun.of [] 60 (slice base64Lines 60 101) = some readBytesFun := by decide +kernel

end PG.Cxx
